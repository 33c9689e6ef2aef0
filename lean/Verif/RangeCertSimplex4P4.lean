import Verif.RangeCertSimplex4
/-! Generated by tools/rangecert/gen.py: a certificate for the checker `Verif.RangeCheck`. -/
namespace FastNoise.RangeCheck.Simplex4
set_option maxRecDepth 1000000
def t44 : Tree := (.ref (.cut 2 (.ref (.cut 3 (.ref (.cut 0 (.cut 1 (.ref (.cut 2 (.ref (.cut 3 (.cut 0 (.cut 1 (.ref (.cut 2 (.cut 3 .leaf (.ref (.cut 0 .leaf .leaf))) (.ref (.cut 3 (.ref (.cut 0 .leaf .leaf)) (.cut 0 (.ref .leaf) (.ref .leaf)))))) (.cut 2 (.ref (.cut 3 .leaf (.ref .leaf))) (.ref (.cut 3 (.ref .leaf) (.ref .leaf))))) (.ref (.cut 1 (.ref (.cut 2 (.cut 3 .leaf (.ref (.cut 0 (.cut 1 (.ref .leaf) (.ref .leaf)) (.cut 1 (.ref .leaf) .leaf)))) (.cut 3 (.ref (.cut 0 (.cut 1 (.ref .leaf) (.ref .leaf)) (.cut 1 (.ref .leaf) .leaf))) (.ref (.cut 0 (.cut 1 .leaf .leaf) (.cut 1 .leaf .leaf)))))) (.ref (.cut 2 (.cut 3 .leaf (.ref (.cut 0 .leaf .leaf))) (.cut 3 (.ref (.cut 0 .leaf .leaf)) (.ref (.cut 0 (.ref .leaf) .leaf)))))))) (.ref (.cut 0 (.cut 1 (.cut 2 .out (.cut 3 (.ref (.cut 0 .leaf .leaf)) .out)) (.cut 2 .out (.cut 3 (.ref .leaf) .out))) (.cut 1 (.cut 2 .out (.cut 3 (.ref (.cut 0 (.cut 1 (.ref .leaf) (.ref .leaf)) (.cut 1 (.cut 2 .out .leaf) (.ref .leaf)))) .out)) (.cut 2 .out (.ref (.cut 3 (.cut 0 .leaf (.ref .leaf)) .out)))))))) (.ref (.cut 3 (.ref (.cut 0 (.cut 1 (.cut 2 (.cut 3 (.ref (.cut 0 .leaf (.cut 1 (.ref .leaf) .leaf))) (.ref (.cut 0 .leaf .leaf))) (.cut 3 (.cut 0 (.ref .leaf) (.ref (.cut 1 .leaf .leaf))) (.cut 0 (.ref .leaf) (.ref .leaf)))) (.cut 2 (.cut 3 (.ref .leaf) (.ref .leaf)) (.cut 3 (.ref .leaf) (.ref .leaf)))) (.cut 1 (.cut 2 (.ref (.cut 3 (.cut 0 (.cut 1 (.ref .leaf) (.ref .leaf)) (.ref (.cut 1 (.cut 2 .leaf .leaf) .leaf))) (.ref (.cut 0 (.cut 1 (.ref .leaf) (.ref .leaf)) (.cut 1 (.cut 2 .leaf (.ref .leaf)) (.ref .leaf)))))) (.cut 3 (.ref (.cut 0 (.cut 1 .leaf .leaf) (.cut 1 (.cut 2 (.cut 3 (.ref .leaf) (.ref .leaf)) (.ref .leaf)) (.ref .leaf)))) (.ref (.cut 0 (.cut 1 (.ref .leaf) .leaf) (.ref (.cut 1 (.ref (.cut 2 .leaf .leaf)) .leaf)))))) (.cut 2 (.cut 3 (.ref (.cut 0 .leaf (.ref .leaf))) (.ref (.cut 0 .leaf (.ref .leaf)))) (.cut 3 (.ref (.cut 0 .leaf (.cut 1 .leaf .leaf))) (.ref (.cut 0 .leaf .leaf))))))) (.cut 0 (.cut 1 (.ref (.cut 2 (.cut 3 (.ref (.cut 0 (.ref .leaf) .leaf)) (.ref (.cut 0 .leaf .leaf))) (.cut 3 (.ref (.cut 0 .leaf .leaf)) (.ref .leaf)))) (.ref (.cut 2 (.ref (.cut 3 (.ref .leaf) (.ref .leaf))) (.cut 3 (.ref .leaf) (.ref .leaf))))) (.cut 1 (.ref (.cut 2 (.ref (.cut 3 (.cut 0 (.ref .leaf) (.cut 1 (.ref .leaf) (.ref .leaf))) (.ref (.cut 0 .leaf (.cut 1 .leaf .leaf))))) (.cut 3 (.ref (.cut 0 .leaf (.cut 1 .leaf .leaf))) (.cut 0 (.ref .leaf) (.ref .leaf))))) (.ref (.cut 2 (.ref (.cut 3 (.cut 0 (.ref .leaf) (.ref .leaf)) (.ref (.cut 0 .leaf (.ref .leaf))))) (.cut 3 (.ref (.cut 0 .leaf (.ref .leaf))) (.ref .leaf)))))))))) (.ref (.cut 2 (.ref (.cut 3 (.cut 0 (.cut 1 (.cut 2 (.ref .leaf) (.ref .leaf)) (.cut 2 (.ref .leaf) (.ref .leaf))) (.ref (.cut 1 (.cut 2 (.ref (.cut 3 (.ref .leaf) (.ref .leaf))) (.ref (.cut 3 (.ref .leaf) (.ref .leaf)))) (.cut 2 (.ref (.cut 3 .leaf (.ref .leaf))) (.ref (.cut 3 (.ref .leaf) (.ref .leaf))))))) (.ref (.cut 0 (.cut 1 (.ref (.cut 2 .out .leaf)) (.cut 2 .out (.ref .leaf))) (.cut 1 (.cut 2 .out (.cut 3 (.ref .leaf) .out)) (.cut 2 .out (.cut 3 (.ref .leaf) .out))))))) (.ref (.cut 3 (.ref (.cut 0 (.cut 1 (.ref (.cut 2 .leaf .leaf)) (.cut 2 (.ref .leaf) (.ref .leaf))) (.cut 1 (.cut 2 (.cut 3 (.ref .leaf) (.ref .leaf)) (.cut 3 (.ref .leaf) (.ref .leaf))) (.cut 2 (.cut 3 (.ref .leaf) (.ref .leaf)) (.ref .leaf))))) (.cut 0 (.ref (.cut 1 (.cut 2 (.ref .leaf) (.ref .leaf)) (.cut 2 (.ref .leaf) (.ref .leaf)))) (.ref (.cut 1 (.cut 2 (.ref (.cut 3 .leaf (.ref .leaf))) (.cut 3 (.ref .leaf) (.ref .leaf))) (.cut 2 (.ref .leaf) .leaf))))))))) (.cut 1 (.ref (.cut 2 (.ref (.cut 3 (.ref (.cut 0 (.cut 1 (.cut 2 (.cut 3 (.ref .leaf) (.ref (.cut 0 (.cut 1 .leaf .leaf) (.cut 1 .leaf .leaf)))) (.ref (.cut 3 (.ref (.cut 0 (.cut 1 .leaf .leaf) (.cut 1 .leaf .leaf))) (.cut 0 (.cut 1 (.ref .leaf) (.ref .leaf)) (.cut 1 (.ref .leaf) (.ref .leaf)))))) (.cut 2 (.ref (.cut 3 .leaf (.ref (.cut 0 (.ref .leaf) .leaf)))) (.ref (.cut 3 (.ref (.cut 0 (.ref .leaf) .leaf)) (.cut 0 (.ref .leaf) (.ref .leaf)))))) (.cut 1 (.cut 2 (.cut 3 (.ref .leaf) (.ref (.cut 0 .leaf (.ref .leaf)))) (.cut 3 (.ref (.cut 0 .leaf (.ref .leaf))) (.ref (.cut 0 (.ref .leaf) .leaf)))) (.cut 2 (.ref (.cut 3 .leaf (.ref .leaf))) (.ref (.cut 3 (.ref .leaf) .leaf)))))) (.ref (.cut 0 (.cut 1 (.ref (.cut 2 .out (.cut 3 (.cut 0 (.cut 1 (.cut 2 .out (.cut 3 .leaf .out)) (.ref .leaf)) (.cut 1 (.cut 2 .out (.cut 3 .leaf .out)) (.ref .leaf))) .out))) (.ref (.cut 2 .out (.cut 3 (.ref (.cut 0 .leaf (.cut 1 .leaf .leaf))) .out)))) (.ref (.cut 1 (.cut 2 .out (.cut 3 (.cut 0 (.cut 1 (.cut 2 .out (.ref .leaf)) (.ref .leaf)) (.cut 1 (.ref .leaf) (.ref .leaf))) .out)) (.cut 2 .out (.ref (.cut 3 (.cut 0 (.cut 1 .leaf .leaf) .leaf) .out))))))))) (.ref (.cut 3 (.ref (.cut 0 (.cut 1 (.ref (.cut 2 (.ref (.cut 3 (.cut 0 (.cut 1 (.cut 2 (.ref .leaf) (.cut 3 (.ref .leaf) (.ref .leaf))) (.ref .leaf)) (.cut 1 (.cut 2 .leaf (.cut 3 (.ref .leaf) (.ref .leaf))) (.ref .leaf))) (.cut 0 (.cut 1 (.cut 2 .leaf (.cut 3 (.ref .leaf) (.ref .leaf))) (.ref .leaf)) (.cut 1 (.cut 2 .leaf (.ref .leaf)) (.ref .leaf))))) (.cut 3 (.cut 0 (.cut 1 (.cut 2 (.ref (.cut 3 .leaf (.cut 0 .leaf .leaf))) (.cut 3 (.ref .leaf) (.ref .leaf))) (.cut 2 (.ref .leaf) (.ref .leaf))) (.cut 1 (.cut 2 (.ref (.cut 3 .leaf .leaf)) (.cut 3 (.ref .leaf) (.ref (.cut 0 .leaf .leaf)))) (.cut 2 (.ref .leaf) (.ref .leaf)))) (.cut 0 (.cut 1 (.ref (.cut 2 (.cut 3 .leaf .leaf) (.cut 3 .leaf .leaf))) (.ref .leaf)) (.ref (.cut 1 (.cut 2 (.cut 3 .leaf .leaf) (.cut 3 (.cut 0 .leaf .leaf) .leaf)) (.cut 2 .leaf .leaf))))))) (.ref (.cut 2 (.ref (.cut 3 (.cut 0 (.cut 1 .leaf .leaf) (.cut 1 (.ref .leaf) .leaf)) (.ref (.cut 0 .leaf (.cut 1 .leaf .leaf))))) (.cut 3 (.ref (.cut 0 (.cut 1 .leaf .leaf) (.cut 1 .leaf .leaf))) (.cut 0 (.ref (.cut 1 .leaf .leaf)) (.ref (.cut 1 .leaf .leaf))))))) (.ref (.cut 1 (.cut 2 (.ref (.cut 3 (.cut 0 (.cut 1 (.cut 2 .leaf (.ref .leaf)) (.ref .leaf)) (.ref (.cut 1 .leaf .leaf))) (.cut 0 (.cut 1 (.cut 2 .leaf .leaf) .leaf) (.cut 1 .leaf .leaf)))) (.ref (.cut 3 (.cut 0 (.cut 1 (.ref (.cut 2 (.cut 3 .leaf .leaf) (.cut 3 .leaf .leaf))) (.cut 2 (.ref .leaf) .leaf)) (.cut 1 (.ref (.cut 2 .leaf .leaf)) .leaf)) (.ref (.cut 0 (.cut 1 (.cut 2 (.cut 3 .leaf .leaf) .leaf) .leaf) (.cut 1 (.cut 2 .leaf .leaf) .leaf)))))) (.cut 2 (.cut 3 (.cut 0 (.cut 1 (.ref .leaf) (.ref .leaf)) (.ref (.cut 1 (.ref .leaf) (.ref .leaf)))) (.ref (.cut 0 (.cut 1 .leaf .leaf) .leaf))) (.ref (.cut 3 (.cut 0 (.cut 1 .leaf .leaf) (.cut 1 .leaf .leaf)) (.cut 0 (.cut 1 (.ref .leaf) .leaf) (.cut 1 (.ref .leaf) .leaf))))))))) (.cut 0 (.ref (.cut 1 (.ref (.cut 2 (.ref (.cut 3 (.ref (.cut 0 (.cut 1 .leaf .leaf) (.cut 1 .leaf .leaf))) (.ref (.cut 0 (.cut 1 (.cut 2 .out .leaf) (.ref .leaf)) (.ref (.cut 1 (.cut 2 .out .leaf) .leaf)))))) (.cut 3 (.ref (.cut 0 (.cut 1 (.cut 2 (.ref .leaf) .leaf) (.ref .leaf)) (.ref (.cut 1 (.cut 2 .leaf .leaf) .leaf)))) (.cut 0 (.ref .leaf) .leaf)))) (.cut 2 (.ref (.cut 3 (.cut 0 .leaf (.ref .leaf)) (.ref (.cut 0 .leaf (.cut 1 .leaf .leaf))))) (.ref (.cut 3 (.ref (.cut 0 .leaf (.ref (.cut 1 .leaf .leaf)))) (.ref (.cut 0 .leaf .leaf))))))) (.ref (.cut 1 (.cut 2 (.ref (.cut 3 (.cut 0 (.cut 1 .leaf .leaf) (.cut 1 .leaf .leaf)) (.ref (.cut 0 (.cut 1 (.cut 2 .out (.ref .leaf)) (.ref .leaf)) (.cut 1 (.cut 2 .out .leaf) (.ref .leaf)))))) (.cut 3 (.ref (.cut 0 (.cut 1 (.cut 2 (.ref .leaf) (.ref .leaf)) (.ref .leaf)) (.cut 1 (.cut 2 .leaf (.ref .leaf)) (.ref .leaf)))) (.cut 0 (.ref .leaf) (.ref .leaf)))) (.cut 2 (.ref (.cut 3 (.ref (.cut 0 (.ref .leaf) .leaf)) (.ref (.cut 0 (.cut 1 (.ref .leaf) (.ref .leaf)) (.ref (.cut 1 .leaf .leaf)))))) (.ref (.cut 3 (.ref (.cut 0 (.cut 1 (.ref .leaf) (.ref .leaf)) (.ref (.cut 1 .leaf .leaf)))) (.cut 0 (.ref .leaf) (.ref .leaf)))))))))))) (.ref (.cut 2 (.ref (.cut 3 (.ref (.cut 0 (.cut 1 (.cut 2 (.ref (.cut 3 .leaf (.ref .leaf))) (.cut 3 (.ref .leaf) (.ref .leaf))) (.cut 2 (.ref (.cut 3 .leaf (.ref .leaf))) (.cut 3 (.ref .leaf) (.ref .leaf)))) (.cut 1 (.ref (.cut 2 (.cut 3 (.ref .leaf) (.ref .leaf)) (.cut 3 (.ref .leaf) (.ref .leaf)))) (.cut 2 (.ref (.cut 3 (.ref .leaf) (.ref .leaf))) (.cut 3 (.ref .leaf) (.ref .leaf)))))) (.ref (.cut 0 (.cut 1 (.cut 2 .out (.ref (.cut 3 (.ref .leaf) .out))) (.cut 2 .out (.ref (.cut 3 (.ref .leaf) .out)))) (.ref (.cut 1 (.cut 2 .out (.cut 3 (.ref .leaf) .out)) (.cut 2 .out (.cut 3 .leaf .out)))))))) (.ref (.cut 3 (.ref (.cut 0 (.cut 1 (.cut 2 (.ref (.cut 3 (.cut 0 .leaf .leaf) (.ref .leaf))) (.cut 3 (.ref (.cut 0 .leaf (.ref .leaf))) (.ref (.cut 0 .leaf (.ref .leaf))))) (.cut 2 (.ref (.cut 3 .leaf (.ref .leaf))) (.cut 3 (.ref .leaf) (.ref .leaf)))) (.ref (.cut 1 (.cut 2 (.cut 3 .leaf (.ref .leaf)) (.cut 3 (.cut 0 (.ref .leaf) (.ref .leaf)) (.cut 0 (.ref .leaf) (.ref .leaf)))) (.cut 2 (.cut 3 .leaf .leaf) (.cut 3 .leaf (.ref .leaf))))))) (.ref (.cut 0 (.cut 1 (.cut 2 (.ref (.cut 3 .leaf (.ref .leaf))) (.cut 3 (.ref .leaf) (.ref .leaf))) (.ref (.cut 2 (.cut 3 (.ref .leaf) (.ref .leaf)) (.cut 3 (.ref .leaf) .leaf)))) (.cut 1 (.cut 2 (.ref (.cut 3 (.ref .leaf) (.ref .leaf))) (.cut 3 (.ref .leaf) (.ref .leaf))) (.cut 2 (.ref (.cut 3 (.ref .leaf) (.ref .leaf))) (.ref (.cut 3 (.ref .leaf) .leaf))))))))))))) (.ref (.cut 0 (.cut 1 (.ref (.cut 2 .out (.ref (.cut 3 (.cut 0 (.cut 1 (.cut 2 .out (.ref (.cut 3 (.ref .leaf) .out))) (.cut 2 .out (.ref .leaf))) (.cut 1 (.cut 2 .out (.cut 3 (.cut 0 (.ref .leaf) (.ref .leaf)) .out)) (.cut 2 .out (.ref (.cut 3 .leaf .out))))) .out)))) (.ref (.cut 2 .out (.cut 3 (.ref (.cut 0 (.cut 1 (.ref .leaf) (.ref .leaf)) (.ref (.cut 1 (.cut 2 .out (.ref .leaf)) (.ref .leaf))))) .out)))) (.ref (.cut 1 (.ref (.cut 2 .out (.ref (.cut 3 (.cut 0 (.ref (.cut 1 (.cut 2 .out (.cut 3 (.cut 0 .leaf .leaf) .out)) (.cut 2 .out (.cut 3 (.cut 0 (.ref .leaf) (.ref .leaf)) .out)))) (.cut 1 (.cut 2 .out (.cut 3 (.cut 0 (.ref .leaf) (.ref .leaf)) .out)) (.cut 2 .out (.cut 3 (.ref (.cut 0 .leaf .leaf)) .out)))) .out)))) (.ref (.cut 2 .out (.cut 3 (.ref (.cut 0 (.cut 1 (.ref (.cut 2 .out (.cut 3 .leaf .out))) (.cut 2 .out (.ref .leaf))) (.cut 1 (.cut 2 .out (.cut 3 .leaf .out)) (.cut 2 .out (.cut 3 (.ref .leaf) .out))))) .out))))))))) (.ref (.cut 3 (.ref (.cut 0 (.cut 1 (.ref (.cut 2 (.ref (.cut 3 (.cut 0 (.cut 1 (.cut 2 (.cut 3 (.ref .leaf) .leaf) (.ref .leaf)) (.cut 2 (.cut 3 (.ref .leaf) (.ref .leaf)) .leaf)) (.cut 1 (.cut 2 (.cut 3 (.ref (.cut 0 .leaf (.cut 1 .leaf .leaf))) (.cut 0 (.ref .leaf) (.cut 1 (.ref .leaf) (.ref .leaf)))) (.cut 3 (.ref .leaf) (.ref .leaf))) (.cut 2 (.cut 3 (.ref (.cut 0 .leaf (.ref .leaf))) (.cut 0 (.ref .leaf) (.ref .leaf))) (.cut 3 .leaf .leaf)))) (.cut 0 (.cut 1 (.cut 2 (.cut 3 (.ref .leaf) (.ref .leaf)) (.ref .leaf)) (.cut 2 (.ref .leaf) .leaf)) (.cut 1 (.cut 2 (.cut 3 (.cut 0 (.ref .leaf) (.ref .leaf)) (.ref (.cut 0 .leaf .leaf))) (.cut 3 (.ref .leaf) (.ref .leaf))) (.cut 2 (.cut 3 (.ref .leaf) (.ref .leaf)) (.ref .leaf)))))) (.ref (.cut 3 (.cut 0 (.cut 1 .out (.ref .leaf)) (.cut 1 .out (.cut 2 (.ref .leaf) .out))) (.cut 0 (.cut 1 .out (.ref .leaf)) (.cut 1 .out (.cut 2 (.ref .leaf) .out))))))) (.ref (.cut 2 (.ref (.cut 3 (.cut 0 (.cut 1 (.cut 2 (.ref .leaf) (.ref .leaf)) (.cut 2 (.ref .leaf) (.ref .leaf))) (.cut 1 (.cut 2 (.ref (.cut 3 .leaf .leaf)) (.ref .leaf)) (.cut 2 (.ref .leaf) .leaf))) (.cut 0 (.cut 1 (.cut 2 (.ref .leaf) (.ref .leaf)) (.ref .leaf)) (.cut 1 (.ref (.cut 2 .leaf .leaf)) (.cut 2 (.ref .leaf) (.ref .leaf)))))) (.ref (.cut 3 (.cut 0 (.cut 1 .leaf .leaf) (.cut 1 .leaf .leaf)) (.cut 0 (.cut 1 (.ref .leaf) (.ref .leaf)) (.cut 1 (.cut 2 .leaf (.ref .leaf)) (.ref .leaf)))))))) (.ref (.cut 1 (.cut 2 (.cut 3 (.ref (.cut 0 (.ref (.cut 1 (.cut 2 (.cut 3 (.ref (.cut 0 (.cut 1 (.cut 2 .leaf (.ref .leaf)) .leaf) (.cut 1 (.cut 2 (.cut 3 .leaf .leaf) (.ref .leaf)) (.cut 2 (.ref .leaf) .leaf)))) (.cut 0 (.cut 1 (.ref (.cut 2 .leaf (.ref .leaf))) (.ref .leaf)) (.ref (.cut 1 (.cut 2 (.ref .leaf) (.ref .leaf)) (.cut 2 (.ref .leaf) .leaf))))) (.ref (.cut 3 (.ref (.cut 0 .leaf (.cut 1 .out (.ref .leaf)))) (.cut 0 (.ref .leaf) (.cut 1 .out (.ref .leaf)))))) (.cut 2 (.ref (.cut 3 (.ref (.cut 0 (.cut 1 (.ref .leaf) .leaf) (.cut 1 (.ref .leaf) (.ref .leaf)))) (.cut 0 (.ref .leaf) (.cut 1 (.ref .leaf) (.ref .leaf))))) (.cut 3 (.cut 0 (.ref .leaf) (.ref .leaf)) (.cut 0 (.ref .leaf) (.ref .leaf)))))) (.cut 1 (.ref (.cut 2 (.cut 3 (.cut 0 (.cut 1 (.cut 2 (.cut 3 .leaf (.ref .leaf)) (.ref .leaf)) (.cut 2 (.ref .leaf) .leaf)) (.cut 1 (.cut 2 .leaf (.ref .leaf)) (.cut 2 (.ref .leaf) .leaf))) (.cut 0 (.cut 1 (.cut 2 (.ref .leaf) (.ref .leaf)) (.cut 2 (.ref .leaf) .leaf)) (.cut 1 (.ref (.cut 2 .leaf (.ref .leaf))) (.cut 2 (.ref .leaf) .leaf)))) (.cut 3 (.cut 0 (.cut 1 .out (.ref .leaf)) (.cut 1 .out (.ref .leaf))) (.cut 0 (.cut 1 .out (.ref .leaf)) (.cut 1 .out (.ref .leaf)))))) (.cut 2 (.ref (.cut 3 (.cut 0 (.cut 1 .leaf .leaf) (.cut 1 .leaf .leaf)) (.cut 0 (.cut 1 .leaf .leaf) (.cut 1 .leaf .leaf)))) (.cut 3 (.ref (.cut 0 .leaf .leaf)) (.ref (.cut 0 .leaf (.ref (.cut 1 (.ref .leaf) (.ref .leaf)))))))))) (.ref (.cut 0 (.ref (.cut 1 (.cut 2 (.cut 3 (.cut 0 (.cut 1 (.ref .leaf) (.ref .leaf)) (.ref (.cut 1 (.cut 2 (.ref .leaf) (.ref .leaf)) .leaf))) (.ref (.cut 0 .leaf .leaf))) (.ref (.cut 3 (.cut 0 .leaf .leaf) (.cut 0 .leaf (.ref .leaf))))) (.cut 2 (.ref (.cut 3 (.cut 0 .leaf .leaf) (.cut 0 .leaf (.ref .leaf)))) (.cut 3 (.ref .leaf) (.ref .leaf))))) (.cut 1 (.cut 2 (.ref (.cut 3 (.cut 0 (.cut 1 (.ref (.cut 2 .leaf (.ref .leaf))) (.cut 2 (.ref .leaf) (.ref .leaf))) (.ref (.cut 1 .leaf .leaf))) (.cut 0 .leaf .leaf))) (.ref (.cut 3 (.cut 0 (.ref .leaf) (.ref .leaf)) (.ref (.cut 0 .leaf .leaf))))) (.ref (.cut 2 (.cut 3 (.ref (.cut 0 (.cut 1 .leaf .leaf) (.cut 1 (.ref .leaf) (.ref .leaf)))) (.ref (.cut 0 .leaf .leaf))) (.cut 3 (.cut 0 (.ref .leaf) (.ref .leaf)) (.cut 0 (.ref .leaf) .leaf)))))))) (.ref (.cut 3 (.cut 0 (.cut 1 .out (.cut 2 (.ref .leaf) .out)) (.ref (.cut 1 .out (.cut 2 (.cut 3 (.ref .leaf) (.ref .leaf)) .out)))) (.cut 0 (.ref (.cut 1 .out (.cut 2 (.ref .leaf) .out))) (.cut 1 .out (.ref (.cut 2 .leaf .out))))))) (.ref (.cut 2 (.ref (.cut 3 (.cut 0 (.cut 1 (.cut 2 (.ref (.cut 3 (.ref .leaf) (.ref .leaf))) (.cut 3 (.ref .leaf) (.ref .leaf))) (.ref (.cut 2 (.cut 3 .leaf (.ref .leaf)) .leaf))) (.ref (.cut 1 (.cut 2 (.cut 3 (.ref (.cut 0 .leaf .leaf)) (.cut 0 (.ref .leaf) (.ref .leaf))) (.cut 3 (.ref .leaf) (.ref .leaf))) (.cut 2 (.cut 3 (.ref .leaf) (.ref .leaf)) .leaf)))) (.cut 0 (.ref (.cut 1 (.cut 2 (.cut 3 (.ref .leaf) (.ref .leaf)) (.ref .leaf)) (.cut 2 .leaf .leaf))) (.cut 1 (.cut 2 (.cut 3 (.ref (.cut 0 .leaf .leaf)) (.ref .leaf)) (.ref (.cut 3 .leaf .leaf))) (.ref (.cut 2 (.cut 3 (.ref .leaf) .leaf) .leaf)))))) (.cut 3 (.cut 0 (.cut 1 (.ref (.cut 2 (.ref .leaf) (.ref .leaf))) (.cut 2 (.ref .leaf) (.ref .leaf))) (.cut 1 (.cut 2 (.ref .leaf) (.ref .leaf)) (.cut 2 (.ref .leaf) (.ref .leaf)))) (.ref (.cut 0 (.cut 1 (.cut 2 (.ref .leaf) (.ref .leaf)) (.ref (.cut 2 .leaf (.ref .leaf)))) (.cut 1 (.cut 2 .leaf (.ref .leaf)) (.cut 2 (.ref .leaf) .leaf))))))))))) (.ref (.cut 0 (.ref (.cut 1 (.cut 2 (.ref (.cut 3 (.cut 0 (.ref (.cut 1 (.ref (.cut 2 .leaf (.ref .leaf))) (.ref .leaf))) (.cut 1 (.ref (.cut 2 (.cut 3 (.ref .leaf) (.ref .leaf)) (.ref .leaf))) (.ref (.cut 2 (.ref .leaf) (.ref .leaf))))) (.ref (.cut 0 (.cut 1 (.ref .leaf) (.ref .leaf)) (.cut 1 (.ref .leaf) (.ref .leaf)))))) (.ref (.cut 3 (.cut 0 (.cut 1 .out (.ref .leaf)) (.cut 1 .out (.ref .leaf))) (.ref (.cut 0 (.cut 1 .out .leaf) (.cut 1 .out .leaf)))))) (.ref (.cut 2 (.ref (.cut 3 (.cut 0 (.cut 1 (.ref .leaf) (.ref .leaf)) (.cut 1 .leaf (.ref .leaf))) (.ref (.cut 0 (.cut 1 .leaf .leaf) (.cut 1 .leaf .leaf))))) (.ref (.cut 3 (.ref (.cut 0 (.cut 1 .leaf .leaf) (.cut 1 .leaf .leaf))) (.cut 0 (.cut 1 (.ref .leaf) (.cut 2 (.ref .leaf) (.ref .leaf))) (.cut 1 .leaf .leaf)))))))) (.cut 1 (.cut 2 (.ref (.cut 3 (.cut 0 (.cut 1 (.ref (.cut 2 (.cut 3 (.ref .leaf) (.ref .leaf)) (.ref (.cut 3 .leaf (.ref .leaf))))) (.ref (.cut 2 (.ref (.cut 3 .leaf (.ref .leaf))) (.ref .leaf)))) (.cut 1 (.ref (.cut 2 (.cut 3 (.cut 0 (.ref .leaf) .leaf) (.ref .leaf)) (.ref (.cut 3 .leaf (.ref .leaf))))) (.ref (.cut 2 (.ref (.cut 3 .leaf (.ref .leaf))) (.ref (.cut 3 (.ref .leaf) .leaf)))))) (.ref (.cut 0 (.cut 1 (.ref (.cut 2 .out (.ref .leaf))) (.ref (.cut 2 .out (.ref .leaf)))) (.cut 1 (.ref (.cut 2 .out (.ref .leaf))) (.ref (.cut 2 .out (.ref .leaf)))))))) (.ref (.cut 3 (.cut 0 (.cut 1 .out (.ref (.cut 2 .leaf .out))) (.ref (.cut 1 .out (.cut 2 (.ref .leaf) .out)))) (.ref (.cut 0 (.ref (.cut 1 .out .leaf)) (.cut 1 .out .leaf)))))) (.ref (.cut 2 (.ref (.cut 3 (.cut 0 (.cut 1 (.ref (.cut 2 (.ref .leaf) (.ref .leaf))) (.ref (.cut 2 (.ref .leaf) (.ref .leaf)))) (.ref (.cut 1 (.cut 2 (.ref (.cut 3 .leaf (.ref .leaf))) (.ref .leaf)) (.cut 2 .leaf (.ref .leaf))))) (.ref (.cut 0 (.ref (.cut 1 .leaf .leaf)) (.cut 1 (.cut 2 .out (.ref .leaf)) .leaf))))) (.ref (.cut 3 (.ref (.cut 0 (.ref (.cut 1 .leaf .leaf)) (.cut 1 (.cut 2 (.ref .leaf) (.ref .leaf)) .leaf))) (.ref (.cut 0 .leaf .out)))))))))))))
theorem h44 : check par t44 [57344, 24576, 16384, 16384] [8192, 8192, 16384, 16384] st = true := by decide +kernel
def t45 : Tree := (.ref (.cut 0 (.ref (.cut 1 (.ref (.cut 2 .out (.ref (.cut 3 (.ref (.cut 0 (.ref (.cut 1 .out (.cut 2 .out .out))) (.cut 1 .out (.cut 2 .out .out)))) .out)))) (.ref (.cut 2 .out (.ref (.cut 3 (.cut 0 (.ref (.cut 1 (.ref (.cut 2 .out (.ref (.cut 3 (.cut 0 (.cut 1 .out (.cut 2 .out .out)) (.cut 1 .out (.cut 2 .out .out))) .out)))) (.ref (.cut 2 .out (.cut 3 (.cut 0 (.cut 1 (.cut 2 .out (.ref (.cut 3 (.cut 0 (.cut 1 .out (.cut 2 .out .out)) (.cut 1 .out (.cut 2 .out .out))) .out))) (.ref (.cut 2 .out (.cut 3 (.cut 0 (.cut 1 (.cut 2 .out (.ref .leaf)) (.cut 2 .out .leaf)) (.cut 1 (.cut 2 .out (.ref .leaf)) (.cut 2 .out .leaf))) .out)))) (.cut 1 (.cut 2 .out (.ref (.cut 3 (.cut 0 (.cut 1 .out (.ref .leaf)) (.ref .leaf)) .out))) (.cut 2 .out (.cut 3 (.cut 0 (.ref (.cut 1 (.cut 2 .out (.ref .leaf)) (.cut 2 .out .leaf))) (.cut 1 (.ref .leaf) (.ref .leaf))) .out)))) .out))))) (.ref (.cut 1 (.ref (.cut 2 .out (.ref (.cut 3 (.ref (.cut 0 (.cut 1 .out (.cut 2 .out .out)) (.cut 1 .out .leaf))) .out)))) (.ref (.cut 2 .out (.ref (.cut 3 (.ref (.cut 0 (.cut 1 (.cut 2 .out (.ref (.cut 3 .leaf .out))) (.cut 2 .out (.cut 3 (.cut 0 .leaf .out) .out))) (.cut 1 (.cut 2 .out (.ref .leaf)) (.cut 2 .out .out)))) .out))))))) .out)))))) (.ref (.cut 1 (.ref (.cut 2 .out (.ref (.cut 3 (.cut 0 (.ref (.cut 1 .out (.ref (.cut 2 .out .out)))) (.ref (.cut 1 .out (.cut 2 .out .out)))) .out)))) (.ref (.cut 2 .out (.ref (.cut 3 (.cut 0 (.cut 1 (.ref (.cut 2 .out (.ref (.cut 3 (.cut 0 (.ref .leaf) (.ref .leaf)) .out)))) (.ref (.cut 2 .out (.ref (.cut 3 (.ref (.cut 0 (.cut 1 (.ref .leaf) .out) .out)) .out))))) (.ref (.cut 1 (.ref (.cut 2 .out (.ref (.cut 3 (.cut 0 (.ref .leaf) .out) .out)))) (.ref (.cut 2 .out .out))))) .out))))))))
theorem h45 : check par t45 [49152, 16384, 16384, 49152] [16384, 16384, 16384, 16384] st = true := by decide +kernel
def t46 : Tree := (.ref (.cut 3 (.ref (.cut 0 (.ref (.cut 1 .out (.ref (.cut 2 (.ref (.cut 3 (.ref (.cut 0 (.ref (.cut 1 .out (.ref (.cut 2 (.cut 3 (.cut 0 (.ref (.cut 1 .out .leaf)) (.cut 1 .out .leaf)) (.ref (.cut 0 (.cut 1 .out (.cut 2 (.cut 3 .leaf (.ref .leaf)) .out)) (.cut 1 .out (.cut 2 (.ref .leaf) .out))))) .out)))) (.ref (.cut 1 .out (.cut 2 (.ref (.cut 3 (.cut 0 (.cut 1 .out (.ref .leaf)) (.ref (.cut 1 .out .leaf))) (.cut 0 (.ref (.cut 1 .out (.ref .leaf))) (.cut 1 .out (.ref .leaf))))) .out))))) (.cut 0 (.ref (.cut 1 .out (.ref (.cut 2 (.cut 3 (.ref (.cut 0 (.cut 1 .out (.cut 2 (.cut 3 .leaf (.cut 0 (.ref (.cut 1 .out .leaf)) .leaf)) .out)) (.cut 1 .out (.cut 2 (.ref (.cut 3 .leaf .leaf)) .out)))) (.cut 0 (.cut 1 .out (.ref (.cut 2 (.cut 3 (.cut 0 (.cut 1 .out (.cut 2 (.ref .leaf) .out)) (.cut 1 .out (.cut 2 (.ref .leaf) .out))) (.ref (.cut 0 (.cut 1 .out (.cut 2 .leaf .out)) (.cut 1 .out (.cut 2 (.ref .leaf) .out))))) .out))) (.cut 1 .out (.cut 2 (.ref (.cut 3 (.ref (.cut 0 (.cut 1 .out .leaf) .leaf)) (.ref (.cut 0 (.ref (.cut 1 .out (.cut 2 .leaf .out))) (.cut 1 .out .leaf))))) .out)))) .out)))) (.ref (.cut 1 .out (.ref (.cut 2 (.ref (.cut 3 (.ref (.cut 0 (.ref (.cut 1 .out (.cut 2 (.cut 3 .leaf .leaf) .out))) (.cut 1 .out (.ref (.cut 2 .leaf .out))))) (.ref (.cut 0 (.cut 1 .out (.cut 2 (.cut 3 (.ref .leaf) (.cut 0 (.ref .leaf) .out)) .out)) (.cut 1 .out (.cut 2 (.cut 3 (.ref .leaf) .out) .out)))))) .out))))))) .out)))) (.ref (.cut 1 .out (.ref (.cut 2 (.ref (.cut 3 (.ref (.cut 0 (.ref (.cut 1 .out (.ref (.cut 2 (.cut 3 (.cut 0 (.cut 1 .out (.ref .leaf)) (.cut 1 .out .leaf)) (.cut 0 (.cut 1 .out (.ref .leaf)) (.cut 1 .out .leaf))) .out)))) (.ref (.cut 1 .out (.ref (.cut 2 (.cut 3 (.cut 0 (.cut 1 .out .leaf) (.cut 1 .out .leaf)) (.cut 0 (.cut 1 .out .leaf) (.cut 1 .out (.ref .leaf)))) .out)))))) (.ref (.cut 0 (.cut 1 .out (.ref (.cut 2 (.cut 3 (.ref (.cut 0 (.cut 1 .out (.ref .leaf)) (.cut 1 .out (.ref .leaf)))) (.ref (.cut 0 (.cut 1 .out .out) .out))) .out))) (.cut 1 .out (.ref (.cut 2 (.cut 3 (.ref (.cut 0 (.cut 1 .out .out) .out)) .out) .out))))))) .out)))))) (.ref (.cut 0 (.ref (.cut 1 .out (.ref (.cut 2 (.ref (.cut 3 (.ref (.cut 0 (.ref (.cut 1 .out (.cut 2 (.ref (.cut 3 (.cut 0 (.ref (.cut 1 .out (.cut 2 (.cut 3 (.cut 0 (.cut 1 .out (.cut 2 .leaf .out)) (.cut 1 .out (.cut 2 (.ref .leaf) .out))) (.ref (.cut 0 (.cut 1 .out .out) .out))) .out))) (.cut 1 .out (.cut 2 (.cut 3 (.ref (.cut 0 (.ref (.cut 1 .out .out)) .out)) .out) .out))) (.ref (.cut 0 (.cut 1 .out .out) .out)))) .out))) (.cut 1 .out (.ref (.cut 2 (.ref (.cut 3 (.cut 0 (.ref (.cut 1 .out .out)) .out) .out)) .out))))) (.ref (.cut 0 (.ref (.cut 1 .out .out)) .out)))) .out)))) (.ref (.cut 1 .out (.cut 2 (.ref (.cut 3 (.ref (.cut 0 (.ref (.cut 1 .out .out)) .out)) .out)) .out)))))))
theorem h46 : check par t46 [49152, 16384, 49152, 32768] [16384, 16384, 16384, 32768] st = true := by decide +kernel
def t47 : Tree := (.ref (.cut 1 (.ref (.cut 2 (.ref (.cut 3 (.cut 0 (.cut 1 (.cut 2 (.ref (.cut 3 (.cut 0 (.ref (.cut 1 .leaf (.ref .leaf))) (.cut 1 (.ref .leaf) (.cut 2 (.ref .leaf) (.ref .leaf)))) (.ref (.cut 0 (.ref (.cut 1 .leaf (.ref .leaf))) (.cut 1 (.ref .leaf) (.ref .leaf)))))) (.ref (.cut 3 (.ref (.cut 0 (.cut 1 (.ref .leaf) (.ref .leaf)) (.cut 1 (.ref .leaf) (.ref .leaf)))) (.ref (.cut 0 (.cut 1 (.ref .leaf) (.ref .leaf)) (.cut 1 (.ref .leaf) (.ref .leaf))))))) (.ref (.cut 2 (.ref (.cut 3 (.cut 0 .out (.cut 1 (.cut 2 (.ref .leaf) (.ref .leaf)) .out)) (.ref (.cut 0 .out (.cut 1 (.ref .leaf) .out))))) (.ref (.cut 3 (.ref (.cut 0 .out (.cut 1 (.ref (.cut 2 .leaf .leaf)) .out))) (.cut 0 .out (.cut 1 (.ref .leaf) .out))))))) (.cut 1 (.ref (.cut 2 (.ref (.cut 3 (.cut 0 (.cut 1 (.cut 2 (.ref .leaf) (.ref .leaf)) (.cut 2 (.cut 3 (.ref .leaf) (.ref .leaf)) (.ref .leaf))) (.cut 1 (.cut 2 (.ref .leaf) (.ref .leaf)) (.cut 2 (.ref (.cut 3 .leaf (.ref .leaf))) (.cut 3 (.ref .leaf) (.ref .leaf))))) (.ref (.cut 0 (.ref (.cut 1 (.ref .leaf) .leaf)) (.cut 1 (.ref .leaf) (.cut 2 .out (.ref .leaf))))))) (.ref (.cut 3 (.ref (.cut 0 (.ref (.cut 1 (.ref .leaf) (.cut 2 .leaf .leaf))) (.cut 1 (.cut 2 (.ref .leaf) (.ref .leaf)) (.cut 2 (.ref .leaf) (.ref .leaf))))) (.cut 0 (.ref (.cut 1 .leaf .leaf)) (.cut 1 (.ref .leaf) (.ref .leaf))))))) (.cut 2 (.ref (.cut 3 (.cut 0 (.cut 1 (.ref (.cut 2 (.cut 3 (.ref .leaf) (.ref .leaf)) (.cut 3 (.ref .leaf) .leaf))) (.ref (.cut 2 (.ref (.cut 3 (.cut 0 .out (.ref .leaf)) (.ref .leaf))) (.cut 3 (.ref (.cut 0 .out (.ref .leaf))) (.ref .leaf))))) (.ref (.cut 1 (.ref (.cut 2 (.ref (.cut 3 (.cut 0 .leaf (.ref .leaf)) (.ref (.cut 0 .leaf (.ref .leaf))))) (.cut 3 (.ref (.cut 0 .leaf (.ref .leaf))) (.ref .leaf)))) (.ref (.cut 2 (.ref (.cut 3 (.cut 0 (.ref .leaf) (.ref (.cut 1 (.ref .leaf) .leaf))) (.ref (.cut 0 (.cut 1 .leaf .leaf) (.cut 1 .leaf .leaf))))) (.cut 3 (.ref (.cut 0 (.cut 1 .leaf (.ref .leaf)) (.cut 1 (.ref .leaf) (.cut 2 (.ref .leaf) .leaf)))) (.cut 0 .leaf (.ref .leaf)))))))) (.ref (.cut 0 (.cut 1 (.cut 2 .out (.ref .leaf)) (.ref (.cut 2 .out (.ref .leaf)))) (.cut 1 (.ref (.cut 2 .out (.cut 3 (.ref .leaf) .out))) (.cut 2 .out (.cut 3 (.ref .leaf) .out))))))) (.ref (.cut 3 (.ref (.cut 0 (.cut 1 (.cut 2 .leaf (.ref .leaf)) (.ref (.cut 2 (.cut 3 (.ref .leaf) (.ref .leaf)) (.ref .leaf)))) (.cut 1 (.ref (.cut 2 (.cut 3 (.ref .leaf) (.ref .leaf)) (.ref .leaf))) (.cut 2 (.cut 3 (.ref (.cut 0 .leaf (.ref (.cut 1 (.ref .leaf) .leaf)))) (.ref .leaf)) (.cut 3 (.ref .leaf) (.ref .leaf)))))) (.cut 0 (.cut 1 (.ref .leaf) (.ref (.cut 2 (.ref .leaf) (.ref .leaf)))) (.ref (.cut 1 (.ref (.cut 2 (.ref .leaf) (.ref .leaf))) (.cut 2 (.ref .leaf) (.ref .leaf)))))))))) (.ref (.cut 0 (.ref (.cut 1 (.ref (.cut 2 .out (.cut 3 (.cut 0 (.cut 1 (.ref (.cut 2 .out (.ref .leaf))) (.ref .leaf)) (.cut 1 (.ref (.cut 2 .out .leaf)) .leaf)) .out))) (.ref (.cut 2 .out (.cut 3 (.cut 0 .out (.ref .leaf)) .out))))) (.cut 1 (.ref (.cut 2 .out (.cut 3 (.cut 0 (.cut 1 (.ref .leaf) (.ref .leaf)) (.cut 1 (.ref .leaf) (.ref .leaf))) .out))) (.cut 2 .out (.cut 3 (.cut 0 (.ref .leaf) (.cut 1 (.ref .leaf) (.ref .leaf))) .out))))))) (.ref (.cut 3 (.ref (.cut 0 (.ref (.cut 1 (.ref (.cut 2 (.cut 3 (.cut 0 (.cut 1 (.cut 2 .leaf .leaf) (.ref .leaf)) (.cut 1 (.ref .leaf) .leaf)) (.cut 0 (.cut 1 (.cut 2 (.ref .leaf) (.ref .leaf)) (.ref (.cut 2 .leaf .leaf))) (.cut 1 (.ref (.cut 2 .leaf .leaf)) (.ref .leaf)))) (.cut 3 (.cut 0 (.cut 1 .leaf (.ref .leaf)) (.cut 1 (.ref .leaf) .leaf)) (.cut 0 (.cut 1 (.cut 2 (.ref .leaf) (.cut 3 (.ref .leaf) (.ref .leaf))) (.ref (.cut 2 .leaf (.ref .leaf)))) (.ref (.cut 1 (.ref (.cut 2 .leaf .leaf)) (.cut 2 .leaf .leaf))))))) (.ref (.cut 2 (.ref (.cut 3 (.cut 0 .out (.cut 1 (.ref .leaf) .out)) (.cut 0 .out (.cut 1 (.ref .leaf) .out)))) (.ref (.cut 3 (.cut 0 .out (.cut 1 (.ref .leaf) .out)) (.cut 0 .out (.cut 1 (.ref (.cut 2 .leaf (.ref .leaf))) .out)))))))) (.cut 1 (.ref (.cut 2 (.ref (.cut 3 (.cut 0 (.ref (.cut 1 .leaf .leaf)) (.cut 1 (.ref .leaf) (.cut 2 (.ref .leaf) (.ref .leaf)))) (.cut 0 (.cut 1 (.ref .leaf) (.ref .leaf)) (.cut 1 (.ref .leaf) (.ref .leaf))))) (.ref (.cut 3 (.cut 0 (.cut 1 (.ref .leaf) (.ref .leaf)) (.ref (.cut 1 .leaf (.cut 2 .leaf .leaf)))) (.cut 0 (.ref (.cut 1 (.cut 2 (.ref .leaf) (.ref .leaf)) (.cut 2 .leaf (.ref .leaf)))) (.cut 1 (.ref .leaf) (.cut 2 (.ref .leaf) (.ref .leaf)))))))) (.cut 2 (.cut 3 (.ref (.cut 0 (.cut 1 .leaf (.ref (.cut 2 (.ref .leaf) .leaf))) (.ref (.cut 1 (.ref (.cut 2 (.ref .leaf) .leaf)) (.cut 2 .leaf .leaf))))) (.ref (.cut 0 (.cut 1 (.ref .leaf) (.ref .leaf)) (.cut 1 (.ref .leaf) (.cut 2 .leaf (.ref .leaf)))))) (.ref (.cut 3 (.cut 0 (.cut 1 (.cut 2 (.ref .leaf) (.ref .leaf)) (.ref (.cut 2 (.ref .leaf) .leaf))) (.cut 1 (.ref (.cut 2 (.ref .leaf) .leaf)) (.cut 2 .leaf .leaf))) (.cut 0 (.ref (.cut 1 (.ref .leaf) (.ref .leaf))) (.cut 1 (.ref .leaf) (.ref .leaf))))))))) (.cut 0 (.ref (.cut 1 (.cut 2 (.cut 3 (.cut 0 (.cut 1 (.ref (.cut 2 (.ref .leaf) (.cut 3 (.ref .leaf) .leaf))) (.ref (.cut 2 (.ref .leaf) (.ref .leaf)))) (.cut 1 (.ref (.cut 2 (.ref .leaf) (.ref .leaf))) (.cut 2 (.ref .leaf) (.ref .leaf)))) (.ref (.cut 0 (.ref (.cut 1 (.cut 2 .out (.ref (.cut 3 (.cut 0 .leaf .leaf) .out))) (.cut 2 .out (.ref (.cut 3 .leaf .out))))) (.cut 1 (.ref (.cut 2 .out (.cut 3 .leaf .out))) (.cut 2 .out .leaf))))) (.ref (.cut 3 (.ref (.cut 0 (.cut 1 (.ref (.cut 2 (.cut 3 .leaf (.ref (.cut 0 .leaf .leaf))) (.ref (.cut 3 .leaf (.cut 0 (.ref (.cut 1 .leaf (.ref .leaf))) .leaf))))) (.ref (.cut 2 (.cut 3 (.ref .leaf) (.ref .leaf)) (.ref (.cut 3 (.ref .leaf) (.ref .leaf)))))) (.cut 1 (.ref (.cut 2 (.cut 3 (.ref .leaf) .leaf) (.cut 3 (.ref .leaf) (.ref .leaf)))) (.cut 2 (.cut 3 (.ref .leaf) .leaf) (.ref (.cut 3 .leaf .leaf)))))) (.cut 0 (.cut 1 (.ref (.cut 2 (.ref (.cut 3 (.cut 0 (.ref (.cut 1 .leaf (.ref .leaf))) (.cut 1 (.ref .leaf) (.ref .leaf))) (.ref (.cut 0 (.cut 1 (.cut 2 .out .leaf) (.cut 2 .out (.ref .leaf))) (.cut 1 (.cut 2 .out (.ref .leaf)) .leaf))))) (.ref (.cut 3 (.cut 0 (.cut 1 (.cut 2 (.ref .leaf) (.ref .leaf)) (.ref (.cut 2 (.ref .leaf) .leaf))) (.cut 1 (.ref (.cut 2 (.ref .leaf) .leaf)) (.ref .leaf))) (.ref (.cut 0 (.cut 1 (.cut 2 .leaf .leaf) (.cut 2 (.ref .leaf) (.ref .leaf))) (.cut 1 (.cut 2 (.ref .leaf) (.ref .leaf)) (.cut 2 .leaf .leaf)))))))) (.ref (.cut 2 (.cut 3 (.ref (.cut 0 .out .leaf)) (.ref (.cut 0 .out (.cut 1 .leaf .out)))) (.ref (.cut 3 (.cut 0 .out (.cut 1 (.ref .leaf) .out)) (.ref (.cut 0 .out (.cut 1 (.cut 2 .leaf .leaf) .out)))))))) (.cut 1 (.ref (.cut 2 (.cut 3 (.ref (.cut 0 .leaf .leaf)) (.ref (.cut 0 (.cut 1 .leaf .leaf) .leaf))) (.ref (.cut 3 (.ref (.cut 0 (.cut 1 .leaf .leaf) .leaf)) (.ref (.cut 0 (.ref (.cut 1 (.cut 2 .leaf .leaf) (.cut 2 .leaf .leaf))) (.cut 1 .leaf (.cut 2 .leaf .out)))))))) (.cut 2 (.cut 3 .leaf (.ref (.cut 0 (.ref .leaf) .leaf))) (.cut 3 (.ref (.cut 0 (.ref .leaf) .leaf)) (.ref (.cut 0 (.cut 1 (.ref .leaf) .out) .out))))))))) (.ref (.cut 2 (.cut 3 (.cut 0 .out (.cut 1 (.cut 2 .leaf (.ref .leaf)) .out)) (.ref (.cut 0 .out (.cut 1 (.cut 2 .out .leaf) .out)))) (.ref (.cut 3 (.ref (.cut 0 .out (.cut 1 (.cut 2 .leaf (.cut 3 (.ref .leaf) (.ref .leaf))) .out))) (.cut 0 .out (.cut 1 (.cut 2 (.ref (.cut 3 .leaf (.ref .leaf))) (.ref (.cut 3 (.ref .leaf) .out))) .out)))))))) (.cut 1 (.ref (.cut 2 (.cut 3 (.cut 0 (.cut 1 (.cut 2 (.ref .leaf) (.ref .leaf)) (.cut 2 .leaf (.ref .leaf))) (.cut 1 .leaf .leaf)) (.ref (.cut 0 (.cut 1 (.ref (.cut 2 .out .leaf)) (.cut 2 .out .leaf)) (.cut 1 (.cut 2 .out .leaf) (.cut 2 .out .leaf))))) (.ref (.cut 3 (.ref (.cut 0 (.cut 1 (.cut 2 (.cut 3 .leaf .leaf) (.cut 3 .leaf .leaf)) (.cut 2 .leaf (.cut 3 (.ref .leaf) .leaf))) (.cut 1 (.cut 2 .leaf .leaf) (.cut 2 .leaf .leaf)))) (.cut 0 (.cut 1 (.cut 2 (.cut 3 (.ref .leaf) (.ref .leaf)) (.ref (.cut 3 (.ref .leaf) (.cut 0 (.ref .leaf) .out)))) (.cut 2 (.cut 3 .leaf (.ref .leaf)) (.cut 3 (.ref .leaf) .out))) (.ref (.cut 1 (.cut 2 .leaf (.cut 3 (.ref .leaf) .out)) (.cut 2 .leaf .out)))))))) (.cut 2 (.cut 3 (.cut 0 (.ref (.cut 1 (.ref .leaf) (.ref .leaf))) (.cut 1 (.ref .leaf) (.ref .leaf))) (.ref (.cut 0 (.ref (.cut 1 .leaf (.ref .leaf))) (.cut 1 (.ref .leaf) .leaf)))) (.ref (.cut 3 (.ref (.cut 0 (.ref (.cut 1 (.cut 2 .leaf .leaf) (.ref (.cut 2 (.ref .leaf) .leaf)))) (.cut 1 (.ref (.cut 2 (.ref .leaf) .leaf)) (.cut 2 .leaf .out)))) (.cut 0 (.ref (.cut 1 (.cut 2 .leaf .out) .out)) .out)))))))))) (.ref (.cut 2 (.ref (.cut 3 (.cut 0 .out (.ref (.cut 1 (.cut 2 (.cut 3 (.ref (.cut 0 .out (.cut 1 (.ref (.cut 2 (.ref (.cut 3 (.cut 0 .out (.cut 1 (.ref .leaf) .out)) (.ref (.cut 0 .out (.cut 1 (.cut 2 .out .leaf) .out))))) (.cut 3 (.ref (.cut 0 .out (.cut 1 (.cut 2 (.ref .leaf) .leaf) .out))) (.cut 0 .out .leaf)))) .out))) (.ref (.cut 0 .out (.cut 1 (.cut 2 .out (.cut 3 (.cut 0 .out (.ref .leaf)) .out)) .out)))) (.cut 3 (.ref (.cut 0 .out (.cut 1 (.cut 2 (.cut 3 (.ref (.cut 0 .out (.cut 1 .leaf .out))) (.cut 0 .out (.ref .leaf))) (.ref (.cut 3 (.cut 0 .out .leaf) (.ref .leaf)))) .out))) (.ref (.cut 0 .out (.ref (.cut 1 (.cut 2 (.cut 3 (.ref .leaf) (.ref .leaf)) (.ref .leaf)) .out)))))) .out))) (.ref (.cut 0 .out (.cut 1 (.ref (.cut 2 .out (.cut 3 (.cut 0 .out (.cut 1 (.ref .leaf) .out)) .out))) .out))))) (.ref (.cut 3 (.ref (.cut 0 .out (.cut 1 (.ref (.cut 2 (.cut 3 (.ref (.cut 0 .out (.cut 1 (.ref (.cut 2 (.cut 3 .leaf .leaf) .leaf)) .out))) (.cut 0 .out (.cut 1 (.cut 2 (.ref .leaf) (.ref .leaf)) .out))) (.cut 3 (.ref (.cut 0 .out (.cut 1 (.cut 2 .leaf (.cut 3 (.ref .leaf) .leaf)) .out))) (.cut 0 .out (.cut 1 (.cut 2 (.ref .leaf) .leaf) .out))))) .out))) (.ref (.cut 0 .out (.cut 1 (.cut 2 (.cut 3 (.cut 0 .out (.cut 1 .leaf .out)) (.ref (.cut 0 .out .out))) (.ref (.cut 3 (.ref (.cut 0 .out .out)) .out))) .out)))))))))
theorem h47 : check par t47 [40960, 49152, 16384, 16384] [8192, 16384, 16384, 16384] st = true := by decide +kernel
def t48 : Tree := (.ref (.cut 2 (.ref (.cut 3 (.cut 0 (.ref (.cut 1 (.cut 2 (.ref (.cut 3 (.cut 0 (.cut 1 (.cut 2 (.ref (.cut 3 .leaf (.ref .leaf))) (.ref .leaf)) (.cut 2 (.ref (.cut 3 .leaf (.ref .leaf))) (.cut 3 (.ref .leaf) (.ref .leaf)))) (.ref (.cut 1 (.cut 2 (.ref (.cut 3 .leaf (.ref .leaf))) (.cut 3 (.ref .leaf) .leaf)) (.cut 2 (.cut 3 (.ref .leaf) (.ref .leaf)) (.cut 3 (.ref .leaf) .leaf))))) (.ref (.cut 0 (.cut 1 (.ref (.cut 2 .out (.ref .leaf))) (.cut 2 .out (.ref .leaf))) (.cut 1 (.ref (.cut 2 .out (.cut 3 (.ref .leaf) .out))) (.cut 2 .out (.cut 3 (.ref .leaf) .out))))))) (.ref (.cut 3 (.ref (.cut 0 (.cut 1 (.cut 2 .leaf (.ref .leaf)) (.cut 2 (.cut 3 (.ref .leaf) (.ref .leaf)) (.ref .leaf))) (.cut 1 (.cut 2 (.cut 3 (.ref .leaf) (.ref .leaf)) (.ref .leaf)) (.cut 2 (.cut 3 (.ref .leaf) (.ref .leaf)) (.cut 3 (.ref .leaf) (.ref .leaf)))))) (.cut 0 (.cut 1 (.cut 2 (.ref .leaf) (.ref .leaf)) (.ref (.cut 2 (.ref .leaf) .leaf))) (.ref (.cut 1 (.ref (.cut 2 (.ref .leaf) .leaf)) (.cut 2 (.ref .leaf) (.ref .leaf)))))))) (.cut 2 (.ref (.cut 3 (.cut 0 (.ref (.cut 1 (.cut 2 (.ref (.cut 3 (.cut 0 (.ref .leaf) (.ref .leaf)) (.ref (.cut 0 (.cut 1 .leaf .leaf) (.cut 1 .leaf .leaf))))) (.cut 3 (.ref (.cut 0 (.cut 1 .leaf .leaf) (.cut 1 .leaf .leaf))) .leaf)) (.ref (.cut 2 (.ref (.cut 3 (.cut 0 (.cut 1 (.ref .leaf) (.ref .leaf)) (.cut 1 (.ref .leaf) (.ref .leaf))) (.ref (.cut 0 (.cut 1 .leaf (.cut 2 .out .leaf)) (.cut 1 .leaf (.cut 2 .out (.ref .leaf))))))) (.cut 3 (.ref (.cut 0 (.cut 1 .leaf (.cut 2 (.ref .leaf) .leaf)) (.cut 1 .leaf (.cut 2 (.ref .leaf) (.ref .leaf))))) (.cut 0 .leaf .leaf)))))) (.ref (.cut 1 (.cut 2 (.ref (.cut 3 (.cut 0 (.ref .leaf) (.ref .leaf)) (.ref (.cut 0 (.cut 1 .leaf .leaf) .leaf)))) (.cut 3 (.ref (.cut 0 (.cut 1 .leaf .leaf) .leaf)) (.cut 0 (.ref .leaf) (.ref .leaf)))) (.cut 2 (.ref (.cut 3 (.ref (.cut 0 (.cut 1 (.ref .leaf) (.ref .leaf)) (.cut 1 (.ref .leaf) .leaf))) (.ref (.cut 0 (.cut 1 .leaf (.ref (.cut 2 .out .leaf))) (.ref (.cut 1 .leaf .leaf)))))) (.cut 3 (.ref (.cut 0 (.cut 1 .leaf (.ref (.cut 2 .leaf .leaf))) (.ref (.cut 1 .leaf (.cut 2 .leaf .leaf))))) (.cut 0 (.ref .leaf) (.cut 1 (.ref .leaf) (.ref .leaf)))))))) (.ref (.cut 0 (.cut 1 (.cut 2 .out (.cut 3 (.ref .leaf) .out)) (.cut 2 .out (.cut 3 (.cut 0 (.ref .leaf) (.ref .leaf)) .out))) (.cut 1 (.cut 2 .out (.cut 3 (.ref .leaf) .out)) (.cut 2 .out (.cut 3 (.cut 0 (.cut 1 (.ref .leaf) (.ref .leaf)) (.ref (.cut 1 .leaf .leaf))) .out))))))) (.ref (.cut 3 (.ref (.cut 0 (.cut 1 (.cut 2 (.cut 3 (.ref (.cut 0 .leaf .leaf)) (.ref .leaf)) (.cut 3 (.ref .leaf) (.ref .leaf))) (.cut 2 (.cut 3 (.ref (.cut 0 (.cut 1 .leaf (.cut 2 .leaf .leaf)) (.cut 1 .leaf (.cut 2 .leaf .leaf)))) (.cut 0 (.ref .leaf) (.cut 1 (.ref .leaf) (.ref .leaf)))) (.ref (.cut 3 (.cut 0 .leaf (.cut 1 .leaf (.ref .leaf))) (.ref .leaf))))) (.cut 1 (.cut 2 (.cut 3 (.ref (.cut 0 .leaf .leaf)) (.ref .leaf)) (.cut 3 (.ref .leaf) (.ref .leaf))) (.cut 2 (.cut 3 (.ref (.cut 0 (.cut 1 (.ref .leaf) (.cut 2 (.ref .leaf) (.ref .leaf))) (.cut 1 .leaf (.ref (.cut 2 .leaf .leaf))))) (.cut 0 (.cut 1 (.ref .leaf) (.ref .leaf)) (.ref (.cut 1 .leaf .leaf)))) (.cut 3 (.ref (.cut 0 (.cut 1 .leaf .leaf) (.cut 1 .leaf .leaf))) (.ref (.cut 0 .leaf .leaf))))))) (.cut 0 (.cut 1 (.ref (.cut 2 (.ref .leaf) (.ref .leaf))) (.ref (.cut 2 (.cut 3 (.ref .leaf) (.ref .leaf)) (.ref .leaf)))) (.ref (.cut 1 (.cut 2 (.cut 3 (.ref .leaf) (.ref .leaf)) (.ref (.cut 3 (.ref .leaf) (.ref .leaf)))) (.cut 2 (.cut 3 (.cut 0 .leaf .leaf) (.ref .leaf)) (.ref (.cut 3 (.ref .leaf) (.ref .leaf)))))))))))) (.ref (.cut 1 (.cut 2 (.ref (.cut 3 (.ref (.cut 0 (.cut 1 (.cut 2 (.ref (.cut 3 (.ref .leaf) (.ref .leaf))) (.ref (.cut 3 (.ref .leaf) (.ref .leaf)))) (.cut 2 (.ref (.cut 3 (.ref .leaf) (.ref (.cut 0 .leaf (.ref .leaf))))) (.ref (.cut 3 (.ref (.cut 0 .leaf (.ref .leaf))) (.cut 0 (.ref .leaf) (.ref .leaf)))))) (.ref (.cut 1 (.cut 2 (.ref (.cut 3 (.ref .leaf) (.ref .leaf))) (.cut 3 (.ref .leaf) (.ref .leaf))) (.cut 2 (.ref (.cut 3 (.cut 0 .leaf .leaf) (.cut 0 (.ref .leaf) (.ref .leaf)))) (.ref (.cut 3 (.ref (.cut 0 .leaf .leaf)) (.cut 0 (.cut 1 (.ref .leaf) .leaf) (.ref (.cut 1 .leaf .leaf)))))))))) (.ref (.cut 0 (.cut 1 (.ref (.cut 2 .out (.cut 3 (.ref .leaf) .out))) (.ref (.cut 2 .out (.cut 3 (.ref .leaf) .out)))) (.ref (.cut 1 (.ref (.cut 2 .out (.cut 3 .leaf .out))) (.ref (.cut 2 .out (.cut 3 (.cut 0 (.ref .leaf) (.ref .leaf)) .out))))))))) (.ref (.cut 3 (.ref (.cut 0 (.cut 1 (.cut 2 (.ref (.cut 3 .leaf (.ref .leaf))) (.cut 3 (.ref .leaf) (.ref .leaf))) (.cut 2 (.ref (.cut 3 .leaf (.ref .leaf))) (.cut 3 (.ref .leaf) (.ref .leaf)))) (.cut 1 (.ref (.cut 2 (.cut 3 .leaf .leaf) (.cut 3 .leaf (.ref .leaf)))) (.ref (.cut 2 (.cut 3 (.ref (.cut 0 .leaf .leaf)) (.cut 0 (.ref .leaf) (.ref .leaf))) (.cut 3 .leaf (.ref .leaf))))))) (.ref (.cut 0 (.cut 1 (.ref (.cut 2 (.cut 3 (.ref .leaf) (.ref .leaf)) (.ref .leaf))) (.ref (.cut 2 (.cut 3 (.ref .leaf) (.ref .leaf)) (.ref .leaf)))) (.ref (.cut 1 (.cut 2 (.ref (.cut 3 (.ref .leaf) (.ref .leaf))) (.ref .leaf)) (.cut 2 (.cut 3 (.ref .leaf) (.ref .leaf)) (.ref (.cut 3 (.ref .leaf) .leaf)))))))))) (.cut 2 (.ref (.cut 3 (.ref (.cut 0 (.cut 1 (.cut 2 (.ref (.cut 3 (.ref (.cut 0 .leaf (.ref .leaf))) (.ref (.cut 0 .leaf (.ref (.cut 1 .leaf .leaf)))))) (.ref (.cut 3 (.ref (.cut 0 .leaf (.ref (.cut 1 .leaf .leaf)))) (.cut 0 (.cut 1 (.ref .leaf) (.ref .leaf)) (.ref (.cut 1 .leaf .leaf)))))) (.cut 2 (.ref (.cut 3 (.ref (.cut 0 .leaf .leaf)) (.ref (.cut 0 (.cut 1 .leaf .leaf) (.cut 1 .leaf .leaf))))) (.cut 3 (.ref (.cut 0 (.cut 1 (.ref .leaf) .leaf) (.cut 1 .leaf .leaf))) (.ref (.cut 0 (.cut 1 (.ref .leaf) (.ref .leaf)) (.ref (.cut 1 (.ref .leaf) .leaf))))))) (.ref (.cut 1 (.ref (.cut 2 (.ref (.cut 3 (.cut 0 .leaf (.cut 1 .leaf .leaf)) (.cut 0 (.cut 1 (.ref .leaf) (.ref .leaf)) (.cut 1 (.ref .leaf) (.ref .leaf))))) (.cut 3 (.ref (.cut 0 (.cut 1 (.ref .leaf) .leaf) (.cut 1 .leaf .leaf))) (.cut 0 (.cut 1 (.ref .leaf) (.ref .leaf)) (.cut 1 (.ref .leaf) .leaf))))) (.cut 2 (.ref (.cut 3 (.cut 0 (.cut 1 (.ref .leaf) (.ref .leaf)) (.cut 1 (.ref .leaf) (.ref .leaf))) (.cut 0 (.cut 1 (.ref .leaf) (.ref .leaf)) (.ref (.cut 1 .leaf .leaf))))) (.cut 3 (.ref (.cut 0 (.cut 1 .leaf .leaf) (.cut 1 (.ref .leaf) (.ref .leaf)))) (.ref (.cut 0 (.cut 1 .leaf (.ref .leaf)) (.cut 1 (.ref .leaf) (.ref .leaf)))))))))) (.ref (.cut 0 (.cut 1 (.ref (.cut 2 .out (.cut 3 (.ref (.cut 0 .leaf (.cut 1 (.ref .leaf) (.ref .leaf)))) .out))) (.cut 2 .out (.cut 3 (.ref (.cut 0 (.cut 1 (.ref .leaf) (.ref .leaf)) (.ref (.cut 1 (.ref .leaf) (.ref .leaf))))) .out))) (.cut 1 (.ref (.cut 2 .out (.cut 3 (.ref (.cut 0 (.cut 1 (.ref .leaf) .leaf) (.cut 1 .leaf (.ref .leaf)))) .out))) (.ref (.cut 2 .out (.cut 3 (.cut 0 (.cut 1 (.ref .leaf) (.cut 2 .out (.ref .leaf))) (.cut 1 (.ref .leaf) (.cut 2 .out (.ref .leaf)))) .out)))))))) (.ref (.cut 3 (.ref (.cut 0 (.cut 1 (.ref (.cut 2 (.ref (.cut 3 (.cut 0 .leaf (.ref (.cut 1 .leaf .leaf))) (.cut 0 .leaf (.cut 1 (.ref .leaf) (.ref .leaf))))) (.cut 3 (.ref .leaf) (.ref .leaf)))) (.cut 2 (.ref (.cut 3 (.ref (.cut 0 (.cut 1 (.ref .leaf) (.ref .leaf)) (.cut 1 (.ref .leaf) .leaf))) (.cut 0 (.cut 1 (.ref .leaf) (.ref .leaf)) (.ref (.cut 1 (.ref .leaf) .leaf))))) (.ref (.cut 3 (.ref (.cut 0 (.cut 1 .leaf (.ref .leaf)) (.ref (.cut 1 .leaf .leaf)))) (.cut 0 .leaf (.ref (.cut 1 .leaf (.ref .leaf)))))))) (.cut 1 (.ref (.cut 2 (.ref (.cut 3 (.cut 0 (.cut 1 (.ref .leaf) (.ref .leaf)) (.cut 1 (.ref .leaf) (.ref .leaf))) (.ref (.cut 0 (.cut 1 .leaf .leaf) (.cut 1 .leaf .leaf))))) (.ref (.cut 3 (.ref .leaf) (.cut 0 (.ref .leaf) (.ref .leaf)))))) (.ref (.cut 2 (.cut 3 (.cut 0 (.cut 1 .leaf (.ref .leaf)) (.cut 1 (.ref .leaf) (.ref .leaf))) (.cut 0 (.cut 1 (.ref .leaf) (.cut 2 (.ref .leaf) (.ref .leaf))) (.cut 1 (.ref .leaf) (.cut 2 (.ref .leaf) (.ref .leaf))))) (.cut 3 (.cut 0 (.cut 1 (.ref .leaf) .leaf) (.cut 1 .leaf .leaf)) (.cut 0 (.cut 1 (.ref .leaf) (.ref .leaf)) (.cut 1 (.ref .leaf) (.ref .leaf))))))))) (.cut 0 (.ref (.cut 1 (.cut 2 (.cut 3 (.cut 0 (.ref .leaf) (.ref .leaf)) (.ref .leaf)) (.ref (.cut 3 (.ref .leaf) .leaf))) (.cut 2 (.cut 3 (.cut 0 (.cut 1 (.ref .leaf) .leaf) (.cut 1 .leaf (.ref .leaf))) (.ref (.cut 0 .leaf .leaf))) (.ref (.cut 3 (.ref (.cut 0 .leaf (.cut 1 .leaf .leaf))) .leaf))))) (.cut 1 (.ref (.cut 2 (.cut 3 (.ref (.cut 0 (.cut 1 (.ref .leaf) .leaf) (.ref (.cut 1 .leaf .leaf)))) (.ref .leaf)) (.ref (.cut 3 (.ref (.cut 0 .leaf .leaf)) .leaf)))) (.cut 2 (.cut 3 (.ref (.cut 0 (.cut 1 (.ref .leaf) (.cut 2 .leaf (.ref .leaf))) (.cut 1 .leaf (.cut 2 .leaf (.ref .leaf))))) (.ref (.cut 0 (.cut 1 (.ref .leaf) (.ref .leaf)) (.ref (.cut 1 (.ref .leaf) .leaf))))) (.ref (.cut 3 (.ref (.cut 0 (.cut 1 (.ref .leaf) (.ref .leaf)) (.ref (.cut 1 (.ref .leaf) .leaf)))) (.cut 0 (.ref .leaf) .out)))))))))))) (.ref (.cut 0 (.ref (.cut 1 (.cut 2 .out (.ref (.cut 3 (.cut 0 (.cut 1 (.ref .leaf) .leaf) (.cut 1 .leaf .leaf)) .out))) (.cut 2 .out (.cut 3 (.ref (.cut 0 (.cut 1 .leaf (.cut 2 .out .leaf)) (.cut 1 (.cut 2 .out .leaf) (.cut 2 .out (.ref .leaf))))) .out)))) (.ref (.cut 1 (.ref (.cut 2 .out (.cut 3 (.cut 0 (.cut 1 (.cut 2 .out (.ref .leaf)) (.cut 2 .out (.ref .leaf))) (.cut 1 (.ref (.cut 2 .out .leaf)) (.ref (.cut 2 .out .leaf)))) .out))) (.cut 2 .out (.ref (.cut 3 (.cut 0 (.cut 1 (.cut 2 .out (.ref .leaf)) (.cut 2 .out (.ref (.cut 3 (.ref .leaf) .out)))) (.ref (.cut 1 (.cut 2 .out .leaf) (.cut 2 .out .out)))) .out))))))))) (.ref (.cut 3 (.ref (.cut 0 (.ref (.cut 1 (.cut 2 (.cut 3 (.ref (.cut 0 (.cut 1 (.cut 2 (.ref .leaf) .leaf) (.cut 2 (.ref .leaf) (.ref .leaf))) (.cut 1 (.cut 2 (.ref .leaf) (.ref .leaf)) (.cut 2 (.ref .leaf) (.ref .leaf))))) (.cut 0 (.cut 1 (.ref .leaf) (.ref .leaf)) (.ref (.cut 1 (.cut 2 .leaf .leaf) (.cut 2 .leaf .leaf))))) (.ref (.cut 3 (.cut 0 (.cut 1 (.ref (.cut 2 .leaf .leaf)) (.cut 2 (.ref .leaf) (.ref .leaf))) (.cut 1 (.cut 2 .leaf .leaf) (.cut 2 .leaf (.ref .leaf)))) (.cut 0 (.cut 1 (.ref .leaf) .leaf) (.cut 1 .leaf .leaf))))) (.cut 2 (.ref (.cut 3 (.cut 0 (.ref (.cut 1 (.cut 2 .leaf .leaf) (.cut 2 (.cut 3 (.ref .leaf) (.ref .leaf)) (.cut 3 (.ref .leaf) (.ref .leaf))))) (.ref (.cut 1 (.cut 2 (.cut 3 (.ref .leaf) .leaf) .leaf) (.cut 2 (.cut 3 (.cut 0 (.ref .leaf) (.ref .leaf)) .leaf) (.cut 3 (.ref .leaf) (.ref .leaf)))))) (.cut 0 (.cut 1 (.cut 2 .leaf .leaf) (.cut 2 .leaf .leaf)) (.cut 1 (.cut 2 .leaf .leaf) (.cut 2 (.ref (.cut 3 .leaf .leaf)) (.ref .leaf)))))) (.cut 3 (.ref (.cut 0 (.cut 1 (.cut 2 .leaf .leaf) (.cut 2 .leaf (.cut 3 .leaf .leaf))) (.cut 1 (.cut 2 .leaf .leaf) (.cut 2 (.ref .leaf) (.cut 3 (.ref .leaf) (.ref .leaf)))))) (.cut 0 (.ref (.cut 1 .leaf (.cut 2 .leaf .leaf))) (.ref (.cut 1 (.cut 2 .leaf .leaf) (.cut 2 (.ref .leaf) .out)))))))) (.ref (.cut 1 (.ref (.cut 2 (.cut 3 (.cut 0 (.cut 1 (.cut 2 (.ref .leaf) (.ref .leaf)) (.ref (.cut 2 .leaf .leaf))) (.ref (.cut 1 (.cut 2 .leaf .leaf) (.cut 2 .leaf .leaf)))) (.cut 0 (.cut 1 (.cut 2 (.ref .leaf) (.ref .leaf)) (.cut 2 (.ref .leaf) (.ref .leaf))) (.cut 1 (.cut 2 (.ref .leaf) (.ref .leaf)) (.ref (.cut 2 (.ref .leaf) .leaf))))) (.cut 3 (.cut 0 (.cut 1 (.cut 2 .leaf .leaf) (.cut 2 .leaf .leaf)) (.cut 1 (.cut 2 .leaf .leaf) (.cut 2 (.ref .leaf) (.ref .leaf)))) (.cut 0 (.cut 1 .leaf (.cut 2 .leaf .leaf)) (.cut 1 (.cut 2 (.ref .leaf) (.ref .leaf)) (.cut 2 (.ref .leaf) .out)))))) (.cut 2 (.cut 3 (.ref (.cut 0 (.cut 1 (.ref (.cut 2 (.cut 3 .leaf .leaf) .leaf)) (.cut 2 (.cut 3 (.ref .leaf) (.ref .leaf)) (.ref (.cut 3 (.ref .leaf) .leaf)))) (.cut 1 (.cut 2 (.cut 3 (.ref .leaf) (.ref .leaf)) (.ref .leaf)) (.cut 2 (.ref (.cut 3 (.ref .leaf) (.ref .leaf))) (.cut 3 (.ref .leaf) (.ref .leaf)))))) (.ref (.cut 0 (.cut 1 (.cut 2 (.ref (.cut 3 .leaf .leaf)) .leaf) (.cut 2 (.cut 3 (.ref .leaf) (.ref .leaf)) (.cut 3 (.ref .leaf) .out))) (.cut 1 (.cut 2 (.ref (.cut 3 .leaf .leaf)) (.ref .leaf)) (.cut 2 (.ref (.cut 3 (.cut 0 .leaf .out) .out)) .out))))) (.ref (.cut 3 (.cut 0 (.cut 1 (.cut 2 (.ref .leaf) (.ref .leaf)) (.cut 2 (.ref .leaf) (.cut 3 (.ref .leaf) .out))) (.cut 1 (.cut 2 (.ref .leaf) (.ref .leaf)) (.cut 2 (.ref .leaf) .out))) (.cut 0 (.cut 1 (.cut 2 (.ref .leaf) .out) .out) .out)))))))) (.ref (.cut 0 (.cut 1 (.cut 2 (.ref (.cut 3 (.cut 0 (.cut 1 (.ref .leaf) (.ref .leaf)) (.cut 1 (.ref .leaf) (.ref .leaf))) (.ref (.cut 0 (.cut 1 (.ref .leaf) (.ref .leaf)) (.cut 1 (.ref .leaf) (.ref .leaf)))))) (.ref (.cut 3 (.ref (.cut 0 (.cut 1 (.cut 2 (.ref .leaf) (.ref .leaf)) (.cut 2 (.ref .leaf) (.ref .leaf))) (.cut 1 (.ref .leaf) (.cut 2 (.ref .leaf) .out)))) (.ref (.cut 0 (.cut 1 (.cut 2 (.ref .leaf) .out) .out) .out))))) (.cut 2 (.cut 3 (.cut 0 (.cut 1 (.ref .leaf) (.ref .leaf)) (.ref (.cut 1 .leaf (.cut 2 (.ref .leaf) .out)))) (.ref (.cut 0 (.cut 1 .leaf .out) .out))) (.ref (.cut 3 (.ref (.cut 0 (.cut 1 (.cut 2 .leaf .out) .out) .out)) .out)))) (.ref (.cut 1 (.cut 2 (.cut 3 (.cut 0 (.cut 1 .leaf .leaf) (.cut 1 (.cut 2 .leaf (.ref .leaf)) (.cut 2 (.ref .leaf) .out))) (.ref (.cut 0 (.cut 1 (.ref .leaf) .out) .out))) (.ref (.cut 3 (.ref (.cut 0 (.cut 1 (.ref .leaf) .out) .out)) .out))) (.cut 2 (.cut 3 (.cut 0 (.cut 1 (.ref .leaf) .out) .out) .out) .out)))))))))
theorem h48 : check par t48 [57344, 40960, 16384, 16384] [8192, 8192, 16384, 16384] st = true := by decide +kernel
def t49 : Tree := (.ref (.cut 2 (.ref (.cut 3 (.ref (.cut 0 (.ref (.cut 1 (.cut 2 (.cut 3 (.ref (.cut 0 (.cut 1 (.cut 2 (.ref (.cut 3 (.cut 0 (.ref (.cut 1 (.cut 2 (.ref .leaf) (.ref .leaf)) (.ref (.cut 2 (.ref .leaf) .leaf)))) (.ref (.cut 1 (.ref (.cut 2 (.ref .leaf) .leaf)) (.cut 2 (.ref (.cut 3 .leaf (.ref .leaf))) (.ref .leaf))))) (.ref (.cut 0 (.cut 1 (.cut 2 .out .leaf) (.cut 2 .out .leaf)) (.cut 1 (.cut 2 .out .leaf) (.ref (.cut 2 .out .leaf))))))) (.cut 3 (.ref (.cut 0 (.cut 1 (.cut 2 (.cut 3 (.ref .leaf) (.ref .leaf)) (.cut 3 (.ref .leaf) (.ref .leaf))) (.ref (.cut 2 (.ref (.cut 3 .leaf .leaf)) (.cut 3 (.ref .leaf) .leaf)))) (.cut 1 (.ref (.cut 2 (.ref (.cut 3 .leaf .leaf)) (.cut 3 (.ref (.cut 0 .leaf .leaf)) .leaf))) (.ref (.cut 2 (.cut 3 .leaf .leaf) (.cut 3 (.cut 0 .leaf .leaf) .leaf)))))) (.ref (.cut 0 (.cut 1 (.ref .leaf) (.ref .leaf)) (.cut 1 (.ref .leaf) (.ref .leaf)))))) (.cut 2 (.ref (.cut 3 (.cut 0 .out (.cut 1 (.cut 2 (.ref (.cut 3 (.ref .leaf) (.ref .leaf))) (.ref .leaf)) .out)) (.ref (.cut 0 .out (.cut 1 (.cut 2 .out (.cut 3 (.ref .leaf) .out)) .out))))) (.ref (.cut 3 (.ref (.cut 0 .out (.cut 1 (.cut 2 (.cut 3 (.ref .leaf) (.ref .leaf)) (.cut 3 (.cut 0 .out (.ref .leaf)) (.ref .leaf))) .out))) (.cut 0 .out (.ref (.cut 1 (.ref .leaf) .out))))))) (.cut 1 (.cut 2 (.ref (.cut 3 (.cut 0 (.cut 1 (.cut 2 (.ref .leaf) (.ref .leaf)) (.cut 2 (.ref (.cut 3 .leaf (.ref .leaf))) (.ref .leaf))) (.cut 1 (.ref .leaf) (.ref .leaf))) (.ref (.cut 0 (.cut 1 (.cut 2 .out (.ref .leaf)) (.cut 2 .out (.cut 3 (.ref .leaf) .out))) (.cut 1 (.cut 2 .out .leaf) (.cut 2 .out (.cut 3 (.ref .leaf) .out))))))) (.ref (.cut 3 (.ref (.cut 0 (.cut 1 (.ref (.cut 2 (.cut 3 .leaf .leaf) (.cut 3 .leaf .leaf))) (.cut 2 (.cut 3 (.ref .leaf) (.ref .leaf)) (.cut 3 (.cut 0 (.ref .leaf) (.ref .leaf)) (.ref .leaf)))) (.cut 1 (.cut 2 .leaf (.ref .leaf)) (.cut 2 (.ref .leaf) (.cut 3 (.cut 0 (.ref .leaf) (.ref .leaf)) (.ref .leaf)))))) (.cut 0 (.cut 1 (.ref .leaf) (.ref .leaf)) (.ref (.cut 1 (.ref .leaf) .leaf)))))) (.ref (.cut 2 (.ref (.cut 3 (.cut 0 (.cut 1 (.ref (.cut 2 (.ref .leaf) (.ref .leaf))) (.ref .leaf)) (.ref (.cut 1 .leaf (.ref .leaf)))) (.ref (.cut 0 (.cut 1 (.cut 2 .out (.cut 3 .leaf .out)) (.cut 2 .out (.cut 3 (.ref .leaf) .out))) (.cut 1 (.cut 2 .out (.cut 3 .leaf .out)) (.cut 2 .out (.cut 3 .leaf .out))))))) (.cut 3 (.ref (.cut 0 (.cut 1 (.cut 2 (.cut 3 .leaf .leaf) (.cut 3 (.cut 0 .leaf .leaf) .leaf)) (.cut 2 (.ref .leaf) (.cut 3 (.ref (.cut 0 .out .leaf)) (.ref .leaf)))) (.cut 1 (.cut 2 (.ref .leaf) (.cut 3 (.ref (.cut 0 .leaf .leaf)) (.ref .leaf))) (.cut 2 (.ref .leaf) (.cut 3 (.ref .leaf) .leaf))))) (.cut 0 (.cut 1 .leaf (.ref .leaf)) (.cut 1 (.ref .leaf) (.ref .leaf))))))))) (.ref (.cut 0 (.ref (.cut 1 (.ref (.cut 2 .out (.cut 3 (.cut 0 (.cut 1 .leaf (.ref .leaf)) (.cut 1 (.ref .leaf) (.ref (.cut 2 .out .leaf)))) .out))) (.ref (.cut 2 .out (.cut 3 (.ref (.cut 0 .out (.cut 1 (.cut 2 .out .leaf) .out))) .out))))) (.cut 1 (.ref (.cut 2 .out (.cut 3 (.ref (.cut 0 (.cut 1 (.ref .leaf) (.cut 2 .out .leaf)) (.cut 1 .leaf (.ref (.cut 2 .out .leaf))))) .out))) (.cut 2 .out (.cut 3 (.ref (.cut 0 (.cut 1 (.ref (.cut 2 .out (.ref .leaf))) (.ref (.cut 2 .out .leaf))) (.cut 1 (.ref (.cut 2 .out .leaf)) .leaf))) .out)))))) (.cut 3 (.ref (.cut 0 (.ref (.cut 1 (.ref (.cut 2 (.cut 3 (.ref (.cut 0 (.cut 1 (.cut 2 .leaf .leaf) (.cut 2 (.cut 3 (.ref .leaf) (.ref .leaf)) (.ref .leaf))) (.cut 1 (.cut 2 (.cut 3 (.ref .leaf) (.ref .leaf)) (.ref .leaf)) (.cut 2 (.ref (.cut 3 (.cut 0 (.ref .leaf) (.cut 1 (.ref .leaf) (.ref .leaf))) .leaf)) (.cut 3 (.ref .leaf) (.ref .leaf)))))) (.cut 0 (.cut 1 .leaf (.ref .leaf)) (.cut 1 (.ref .leaf) (.ref (.cut 2 .leaf .leaf))))) (.cut 3 (.ref (.cut 0 (.cut 1 .leaf (.ref .leaf)) (.cut 1 (.cut 2 (.ref .leaf) (.ref .leaf)) (.cut 2 .leaf .leaf)))) (.cut 0 (.ref .leaf) (.cut 1 (.ref .leaf) (.ref .leaf)))))) (.ref (.cut 2 (.ref (.cut 3 (.cut 0 .out (.ref (.cut 1 (.cut 2 (.ref (.cut 3 (.cut 0 .out (.cut 1 .leaf .out)) .leaf)) (.cut 3 (.ref (.cut 0 .out .leaf)) (.ref .leaf))) .out))) (.cut 0 .out (.cut 1 (.cut 2 (.ref .leaf) (.ref .leaf)) .out)))) (.ref (.cut 3 (.ref (.cut 0 .out (.ref (.cut 1 (.cut 2 (.cut 3 .leaf .leaf) .leaf) .out)))) (.cut 0 .out (.cut 1 (.cut 2 (.ref .leaf) (.ref .leaf)) .out)))))))) (.cut 1 (.ref (.cut 2 (.ref (.cut 3 (.cut 0 (.ref (.cut 1 (.cut 2 (.ref (.cut 3 (.ref .leaf) .leaf)) (.ref (.cut 3 .leaf .leaf))) (.ref (.cut 2 (.cut 3 (.cut 0 (.cut 1 (.ref .leaf) (.ref .leaf)) (.cut 1 (.ref .leaf) (.ref .leaf))) (.ref .leaf)) (.cut 3 (.cut 0 (.ref .leaf) (.ref .leaf)) .leaf))))) (.ref (.cut 1 (.cut 2 (.ref (.cut 3 .leaf .leaf)) (.ref .leaf)) (.cut 2 (.cut 3 (.cut 0 (.ref .leaf) (.ref .leaf)) (.ref .leaf)) (.cut 3 (.ref .leaf) (.ref .leaf)))))) (.cut 0 (.cut 1 (.ref .leaf) (.cut 2 (.ref .leaf) (.ref .leaf))) (.cut 1 (.ref .leaf) (.ref (.cut 2 .leaf .leaf)))))) (.ref (.cut 3 (.ref (.cut 0 (.cut 1 (.cut 2 .leaf .leaf) (.ref (.cut 2 (.cut 3 .leaf .leaf) .leaf))) (.ref (.cut 1 (.cut 2 .leaf .leaf) (.cut 2 (.cut 3 .leaf .leaf) .leaf))))) (.cut 0 (.cut 1 (.ref .leaf) (.cut 2 (.ref .leaf) (.ref .leaf))) (.cut 1 .leaf (.cut 2 (.ref .leaf) (.ref .leaf)))))))) (.cut 2 (.ref (.cut 3 (.ref (.cut 0 (.cut 1 (.cut 2 (.cut 3 (.cut 0 (.ref (.cut 1 (.ref .leaf) (.ref .leaf))) (.ref .leaf)) (.ref .leaf)) (.cut 3 (.cut 0 (.ref (.cut 1 .leaf (.ref .leaf))) (.cut 1 (.ref .leaf) (.ref .leaf))) (.ref .leaf))) (.ref (.cut 2 (.cut 3 (.ref (.cut 0 .out .leaf)) .leaf) (.cut 3 (.ref (.cut 0 .out (.ref .leaf))) (.ref .leaf))))) (.cut 1 (.ref (.cut 2 (.cut 3 (.cut 0 (.ref .leaf) (.ref .leaf)) .leaf) (.cut 3 (.cut 0 .leaf (.ref .leaf)) (.ref .leaf)))) (.cut 2 (.cut 3 (.cut 0 (.ref .leaf) (.ref .leaf)) (.ref .leaf)) (.cut 3 (.ref .leaf) (.ref .leaf)))))) (.cut 0 (.cut 1 (.ref (.cut 2 .leaf (.ref .leaf))) (.ref (.cut 2 .leaf .leaf))) (.cut 1 (.ref (.cut 2 .leaf .leaf)) (.cut 2 .leaf (.ref .leaf)))))) (.ref (.cut 3 (.ref (.cut 0 (.cut 1 (.cut 2 (.cut 3 (.cut 0 (.ref .leaf) (.ref .leaf)) (.ref .leaf)) (.ref .leaf)) (.ref (.cut 2 (.cut 3 (.ref .leaf) .leaf) .leaf))) (.cut 1 (.ref (.cut 2 (.cut 3 (.ref .leaf) .leaf) .leaf)) (.cut 2 (.cut 3 (.ref .leaf) .leaf) (.cut 3 .leaf .leaf))))) (.cut 0 (.cut 1 (.ref (.cut 2 (.ref .leaf) (.ref .leaf))) (.ref (.cut 2 .leaf (.ref .leaf)))) (.ref (.cut 1 (.ref (.cut 2 .leaf (.ref .leaf))) (.cut 2 .leaf .leaf)))))))))) (.cut 0 (.ref (.cut 1 (.cut 2 (.cut 3 (.ref .leaf) (.ref .leaf)) (.ref (.cut 3 (.ref .leaf) .leaf))) (.ref (.cut 2 (.cut 3 (.cut 0 .out .leaf) (.ref .leaf)) (.ref (.cut 3 (.ref (.cut 0 .out .leaf)) .leaf)))))) (.cut 1 (.ref (.cut 2 (.cut 3 (.cut 0 .leaf (.cut 1 .leaf .leaf)) (.ref (.cut 0 .leaf .leaf))) (.ref (.cut 3 (.ref (.cut 0 .leaf .leaf)) .leaf)))) (.cut 2 (.cut 3 (.cut 0 (.ref .leaf) (.ref .leaf)) (.ref (.cut 0 (.ref .leaf) .leaf))) (.ref (.cut 3 (.ref (.cut 0 (.ref .leaf) (.cut 1 (.ref .leaf) (.ref .leaf)))) (.ref .leaf)))))))) (.ref (.cut 2 (.cut 3 (.ref (.cut 0 .out (.cut 1 (.cut 2 (.ref (.cut 3 .leaf (.cut 0 .out (.cut 1 (.cut 2 .out (.ref .leaf)) .out)))) (.ref (.cut 3 (.cut 0 .out (.ref (.cut 1 (.cut 2 .leaf (.ref .leaf)) .out))) (.cut 0 .out (.cut 1 (.ref .leaf) .out))))) .out))) (.ref (.cut 0 .out (.ref (.cut 1 (.cut 2 .out (.cut 3 (.cut 0 .out (.ref (.cut 1 (.cut 2 .out .leaf) .out))) .out)) .out))))) (.cut 3 (.ref (.cut 0 .out (.ref (.cut 1 (.cut 2 (.cut 3 (.ref (.cut 0 .out (.cut 1 (.ref (.cut 2 (.cut 3 .leaf .leaf) .leaf)) .out))) (.cut 0 .out (.ref (.cut 1 (.cut 2 .leaf .leaf) .out)))) (.cut 3 (.ref (.cut 0 .out (.cut 1 (.cut 2 .leaf .leaf) .out))) (.cut 0 .out (.cut 1 (.ref (.cut 2 (.ref .leaf) .leaf)) .out)))) .out)))) (.cut 0 .out (.cut 1 (.cut 2 (.ref (.cut 3 (.ref (.cut 0 .out (.cut 1 .leaf .out))) (.ref (.cut 0 .out .out)))) (.ref (.cut 3 (.ref (.cut 0 .out .out)) .out))) .out))))))) (.ref (.cut 1 (.ref (.cut 2 (.cut 3 (.ref (.cut 0 (.cut 1 (.cut 2 (.ref (.cut 3 (.cut 0 .leaf .leaf) (.ref (.cut 0 (.cut 1 (.cut 2 .out .leaf) (.cut 2 .out .leaf)) (.cut 1 .leaf .leaf))))) (.cut 3 (.ref (.cut 0 (.cut 1 (.cut 2 .leaf .leaf) (.cut 2 .leaf .leaf)) (.cut 1 .leaf .leaf))) (.cut 0 (.cut 1 .leaf (.ref .leaf)) (.cut 1 (.ref .leaf) (.cut 2 (.ref .leaf) (.ref .leaf)))))) (.cut 2 (.ref (.cut 3 .leaf (.ref (.cut 0 (.cut 1 (.cut 2 .out .leaf) (.cut 2 .out .leaf)) (.cut 1 .leaf .leaf))))) (.cut 3 (.ref (.cut 0 (.cut 1 (.cut 2 (.ref .leaf) .leaf) (.cut 2 (.ref .leaf) (.ref .leaf))) (.cut 1 (.ref .leaf) (.ref .leaf)))) (.cut 0 (.cut 1 (.ref .leaf) (.ref .leaf)) (.ref (.cut 1 (.cut 2 (.ref .leaf) (.ref .leaf)) (.cut 2 (.ref .leaf) (.ref .leaf)))))))) (.cut 1 (.cut 2 (.ref (.cut 3 (.cut 0 (.cut 1 .leaf .leaf) (.ref (.cut 1 .leaf .leaf))) (.ref (.cut 0 (.cut 1 .leaf .leaf) (.cut 1 (.ref .leaf) .leaf))))) (.ref (.cut 3 (.ref (.cut 0 (.cut 1 .leaf (.ref .leaf)) (.cut 1 (.ref .leaf) (.ref .leaf)))) (.cut 0 (.cut 1 (.cut 2 (.ref .leaf) (.ref .leaf)) (.ref (.cut 2 (.ref .leaf) .leaf))) (.ref (.cut 1 (.cut 2 (.ref .leaf) .leaf) (.cut 2 (.ref .leaf) .leaf))))))) (.ref (.cut 2 (.ref (.cut 3 .leaf (.ref (.cut 0 (.cut 1 .leaf .leaf) (.cut 1 .leaf .leaf))))) (.ref (.cut 3 (.cut 0 (.cut 1 (.ref .leaf) (.ref .leaf)) (.cut 1 (.ref .leaf) (.ref .leaf))) (.cut 0 (.cut 1 (.cut 2 (.ref .leaf) (.cut 3 (.ref .leaf) (.ref .leaf))) (.cut 2 (.ref .leaf) (.ref .leaf))) (.cut 1 (.cut 2 (.ref .leaf) (.cut 3 (.ref .leaf) (.ref .leaf))) (.cut 2 (.ref .leaf) (.ref .leaf))))))))))) (.ref (.cut 0 (.cut 1 (.cut 2 .out (.ref (.cut 3 (.ref (.cut 0 (.cut 1 (.ref .leaf) (.ref .leaf)) (.ref (.cut 1 (.cut 2 .out (.ref .leaf)) (.cut 2 .out (.ref .leaf)))))) .out))) (.ref (.cut 2 .out (.cut 3 (.cut 0 (.ref (.cut 1 .leaf (.cut 2 .out .leaf))) (.ref (.cut 1 (.cut 2 .out .leaf) .leaf))) .out)))) (.ref (.cut 1 (.ref (.cut 2 .out (.cut 3 (.cut 0 (.cut 1 (.cut 2 .out (.cut 3 (.ref .leaf) .out)) (.cut 2 .out (.cut 3 (.ref .leaf) .out))) (.cut 1 (.cut 2 .out (.cut 3 (.ref .leaf) .out)) (.cut 2 .out (.cut 3 (.ref .leaf) .out)))) .out))) (.ref (.cut 2 .out (.cut 3 (.cut 0 (.cut 1 (.cut 2 .out (.cut 3 (.ref .leaf) .out)) (.cut 2 .out (.ref .leaf))) (.cut 1 (.cut 2 .out (.cut 3 (.ref .leaf) .out)) (.cut 2 .out .out))) .out)))))))) (.cut 3 (.ref (.cut 0 (.cut 1 (.cut 2 (.ref (.cut 3 (.cut 0 (.cut 1 (.cut 2 (.ref .leaf) (.ref .leaf)) (.ref (.cut 2 .leaf (.cut 3 (.ref .leaf) (.ref .leaf))))) (.ref (.cut 1 .leaf .leaf))) (.cut 0 (.cut 1 (.ref .leaf) (.ref .leaf)) (.cut 1 (.cut 2 (.ref .leaf) (.ref .leaf)) (.cut 2 (.ref .leaf) (.ref .leaf)))))) (.ref (.cut 3 (.ref (.cut 0 (.cut 1 (.ref (.cut 2 .leaf .leaf)) (.cut 2 (.ref .leaf) (.ref .leaf))) (.cut 1 .leaf (.cut 2 .leaf (.ref .leaf))))) (.cut 0 (.cut 1 (.ref .leaf) (.ref (.cut 2 .leaf (.ref .leaf)))) (.ref (.cut 1 .leaf .leaf)))))) (.ref (.cut 2 (.cut 3 (.ref (.cut 0 (.cut 1 (.cut 2 (.cut 3 (.ref .leaf) (.ref .leaf)) (.cut 3 (.ref .leaf) (.ref .leaf))) (.ref (.cut 2 (.cut 3 .leaf .leaf) .leaf))) (.cut 1 (.cut 2 (.ref .leaf) (.ref .leaf)) (.cut 2 (.ref .leaf) (.ref .leaf))))) (.cut 0 (.cut 1 (.cut 2 (.ref .leaf) (.ref .leaf)) (.cut 2 (.ref .leaf) (.ref .leaf))) (.cut 1 (.cut 2 (.ref .leaf) (.ref .leaf)) (.ref (.cut 2 (.ref .leaf) .leaf))))) (.cut 3 (.ref (.cut 0 (.cut 1 (.cut 2 (.cut 3 (.ref .leaf) .leaf) .leaf) (.cut 2 .leaf .leaf)) (.cut 1 (.cut 2 .leaf .leaf) (.cut 2 (.ref .leaf) (.ref .leaf))))) (.cut 0 (.cut 1 (.cut 2 (.ref .leaf) (.ref .leaf)) (.cut 2 (.ref .leaf) .leaf)) (.cut 1 (.cut 2 (.ref .leaf) (.ref .leaf)) (.cut 2 (.ref .leaf) .out))))))) (.ref (.cut 1 (.cut 2 (.cut 3 (.cut 0 (.cut 1 (.ref .leaf) (.ref .leaf)) (.ref (.cut 1 .leaf .leaf))) (.cut 0 (.cut 1 (.cut 2 (.ref .leaf) (.ref .leaf)) (.cut 2 (.ref .leaf) (.ref .leaf))) (.cut 1 (.cut 2 (.ref .leaf) (.ref .leaf)) (.ref (.cut 2 (.cut 3 (.ref .leaf) (.ref .leaf)) (.cut 3 (.ref .leaf) .leaf)))))) (.cut 3 (.cut 0 (.cut 1 .leaf .leaf) (.cut 1 .leaf (.ref .leaf))) (.cut 0 (.cut 1 .leaf (.cut 2 .leaf .leaf)) (.cut 1 (.cut 2 (.ref .leaf) (.ref .leaf)) (.cut 2 (.ref .leaf) .out))))) (.cut 2 (.cut 3 (.ref (.cut 0 (.cut 1 .leaf .leaf) (.cut 1 .leaf .leaf))) (.cut 0 (.cut 1 (.cut 2 (.ref (.cut 3 .leaf .leaf)) (.ref .leaf)) (.cut 2 (.ref (.cut 3 .leaf (.ref .leaf))) (.ref .leaf))) (.ref (.cut 1 (.cut 2 (.cut 3 (.ref .leaf) (.ref .leaf)) (.cut 3 (.ref .leaf) .out)) (.cut 2 (.cut 3 (.ref .leaf) .out) .out))))) (.cut 3 (.cut 0 (.cut 1 (.ref .leaf) (.ref .leaf)) (.ref .leaf)) (.cut 0 (.cut 1 (.cut 2 (.ref .leaf) .out) .out) .out))))))) (.cut 0 (.cut 1 (.cut 2 (.ref (.cut 3 (.cut 0 (.cut 1 (.ref .leaf) (.ref (.cut 2 .leaf (.ref .leaf)))) (.ref (.cut 1 (.cut 2 .leaf (.ref .leaf)) (.cut 2 (.cut 3 .leaf (.ref .leaf)) (.ref .leaf))))) (.ref (.cut 0 (.cut 1 (.ref .leaf) (.ref .leaf)) (.cut 1 (.ref .leaf) (.ref (.cut 2 .out .out))))))) (.ref (.cut 3 (.ref (.cut 0 (.cut 1 (.ref .leaf) (.ref .leaf)) (.cut 1 (.ref .leaf) (.ref (.cut 2 .leaf .out))))) (.ref (.cut 0 .leaf .out))))) (.cut 2 (.ref (.cut 3 (.ref (.cut 0 (.cut 1 (.ref .leaf) .leaf) (.ref (.cut 1 (.cut 2 .leaf (.ref .leaf)) (.cut 2 (.ref .leaf) .out))))) (.ref (.cut 0 (.cut 1 .leaf .out) .out)))) (.ref (.cut 3 (.ref (.cut 0 (.cut 1 .leaf .out) .out)) .out)))) (.ref (.cut 1 (.cut 2 (.ref (.cut 3 (.ref (.cut 0 (.cut 1 (.cut 2 (.cut 3 .leaf (.ref .leaf)) (.ref .leaf)) (.cut 2 (.cut 3 .leaf (.ref .leaf)) (.cut 3 (.ref .leaf) .out))) (.cut 1 (.cut 2 (.cut 3 .leaf (.ref .leaf)) (.cut 3 (.ref .leaf) .out)) (.cut 2 (.cut 3 (.ref .leaf) .out) .out)))) (.ref (.cut 0 (.cut 1 (.cut 2 .out .out) .out) .out)))) (.ref (.cut 3 (.ref (.cut 0 (.cut 1 (.cut 2 (.ref .leaf) .out) .out) .out)) .out))) (.ref (.cut 2 (.cut 3 (.ref (.cut 0 (.cut 1 (.cut 2 (.cut 3 (.ref .leaf) .out) .out) .out) .out)) .out) .out)))))))) (.cut 2 (.ref (.cut 3 (.ref (.cut 0 (.ref (.cut 1 (.cut 2 (.ref (.cut 3 .leaf (.ref (.cut 0 (.ref (.cut 1 (.ref .leaf) .leaf)) .leaf)))) (.cut 3 (.ref (.cut 0 (.ref (.cut 1 (.ref .leaf) (.ref .leaf))) .leaf)) (.cut 0 (.ref .leaf) (.cut 1 (.ref .leaf) (.ref .leaf))))) (.ref (.cut 2 (.ref (.cut 3 .leaf (.ref .leaf))) (.cut 3 (.ref .leaf) (.cut 0 .out .leaf)))))) (.ref (.cut 1 (.ref (.cut 2 (.ref (.cut 3 .leaf (.ref .leaf))) (.cut 3 (.ref .leaf) (.cut 0 (.cut 1 .leaf .leaf) (.ref (.cut 1 .leaf .leaf)))))) (.ref (.cut 2 (.ref .leaf) (.ref .leaf))))))) (.ref (.cut 0 (.cut 1 (.cut 2 .out (.ref (.cut 3 (.cut 0 (.cut 1 (.cut 2 .out .leaf) (.ref .leaf)) (.cut 1 .leaf (.ref .leaf))) .out))) (.ref (.cut 2 .out (.cut 3 (.cut 0 .out .out) .out)))) (.ref (.cut 1 (.cut 2 .out (.cut 3 (.cut 0 (.cut 1 (.cut 2 .out .out) .out) .out) .out)) (.cut 2 .out .out))))))) (.ref (.cut 3 (.ref (.cut 0 (.cut 1 (.cut 2 (.cut 3 (.ref (.cut 0 (.cut 1 (.cut 2 .leaf .leaf) (.ref (.cut 2 .leaf .leaf))) (.cut 1 (.cut 2 (.ref .leaf) (.ref .leaf)) (.ref .leaf)))) (.cut 0 (.ref (.cut 1 (.cut 2 (.ref .leaf) .leaf) (.ref .leaf))) (.ref (.cut 1 (.ref .leaf) (.ref .leaf))))) (.cut 3 (.ref (.cut 0 (.cut 1 (.cut 2 (.ref .leaf) (.ref .leaf)) (.ref (.cut 2 .leaf .leaf))) (.cut 1 (.ref (.cut 2 (.ref .leaf) .leaf)) (.ref .leaf)))) (.cut 0 (.cut 1 (.cut 2 (.ref .leaf) .out) .out) .out))) (.ref (.cut 2 (.cut 3 (.cut 0 .out (.ref .leaf)) (.cut 0 .out .out)) (.cut 3 (.cut 0 .out .out) .out)))) (.ref (.cut 1 (.cut 2 (.ref (.cut 3 (.cut 0 (.ref .leaf) (.ref .leaf)) (.cut 0 (.cut 1 (.cut 2 (.ref .leaf) .out) .out) .out))) (.cut 3 (.ref (.cut 0 (.cut 1 .leaf .out) .out)) .out)) (.cut 2 (.ref (.cut 3 .leaf .out)) .out))))) (.ref (.cut 0 (.cut 1 (.cut 2 (.cut 3 (.ref (.cut 0 (.cut 1 .leaf .out) .out)) .out) .out) .out) .out))))))))) (.ref (.cut 0 (.cut 1 (.cut 2 .out (.ref (.cut 3 (.cut 0 (.ref (.cut 1 (.cut 2 .out .leaf) (.ref (.cut 2 .out (.ref .leaf))))) (.ref (.cut 1 (.ref (.cut 2 .out (.ref .leaf))) (.cut 2 .out .out)))) .out))) (.ref (.cut 2 .out (.ref (.cut 3 (.cut 0 .out .out) .out))))) (.ref (.cut 1 (.ref (.cut 2 .out (.ref (.cut 3 (.cut 0 (.cut 1 (.cut 2 .out .out) .out) .out) .out)))) (.cut 2 .out .out))))))) (.ref (.cut 3 (.ref (.cut 0 (.ref (.cut 1 (.cut 2 (.ref (.cut 3 (.ref (.cut 0 (.ref (.cut 1 (.cut 2 (.cut 3 (.cut 0 (.ref .leaf) (.ref .leaf)) (.ref .leaf)) (.cut 3 (.ref .leaf) (.ref .leaf))) (.ref (.cut 2 (.cut 3 (.cut 0 .out (.ref (.cut 1 .leaf .out))) (.cut 0 .out (.ref .leaf))) (.cut 3 (.ref .leaf) (.ref .leaf)))))) (.cut 1 (.ref (.cut 2 (.cut 3 (.cut 0 (.cut 1 (.ref .leaf) (.ref .leaf)) (.ref (.cut 1 .leaf (.ref .leaf)))) (.cut 0 (.ref .leaf) (.cut 1 (.ref .leaf) (.ref .leaf)))) (.cut 3 (.cut 0 (.ref .leaf) (.ref .leaf)) (.ref .leaf)))) (.cut 2 (.cut 3 (.ref (.cut 0 (.cut 1 (.ref (.cut 2 .leaf (.ref .leaf))) (.ref (.cut 2 .leaf (.ref .leaf)))) (.cut 1 (.ref (.cut 2 .leaf (.ref .leaf))) (.cut 2 .leaf .leaf)))) (.cut 0 (.ref (.cut 1 .leaf (.ref .leaf))) (.ref (.cut 1 (.ref .leaf) (.cut 2 (.ref .leaf) .out))))) (.cut 3 (.ref (.cut 0 (.ref .leaf) (.cut 1 (.ref .leaf) (.ref .leaf)))) (.ref (.cut 0 (.ref .leaf) .out))))))) (.ref (.cut 0 (.ref (.cut 1 (.cut 2 (.cut 3 (.ref .leaf) (.ref .leaf)) .leaf) (.ref (.cut 2 (.ref (.cut 3 .leaf .leaf)) (.cut 3 (.ref .leaf) .out))))) (.cut 1 (.ref (.cut 2 (.ref (.cut 3 .leaf .leaf)) (.cut 3 (.ref .leaf) .out))) (.cut 2 (.ref (.cut 3 (.cut 0 (.ref .leaf) .out) .out)) .out)))))) (.ref (.cut 3 (.ref (.cut 0 (.ref (.cut 1 (.cut 2 (.ref .leaf) (.cut 3 (.ref .leaf) .leaf)) (.ref (.cut 2 (.cut 3 (.ref .leaf) (.ref .leaf)) (.ref (.cut 3 (.ref .leaf) .out)))))) (.ref (.cut 1 (.ref (.cut 2 (.cut 3 (.ref .leaf) (.ref .leaf)) (.cut 3 (.ref .leaf) .out))) (.cut 2 (.cut 3 (.ref .leaf) .out) .out))))) (.ref (.cut 0 (.cut 1 (.cut 2 (.ref .leaf) .out) .out) .out))))) (.ref (.cut 2 (.cut 3 (.ref (.cut 0 .out (.cut 1 (.ref (.cut 2 (.cut 3 (.ref (.cut 0 .out (.cut 1 (.cut 2 .leaf .leaf) .out))) (.cut 0 .out .out)) (.cut 3 (.ref (.cut 0 .out .out)) .out))) .out))) (.ref (.cut 0 .out .out))) (.ref (.cut 3 (.cut 0 .out .out) .out)))))) (.ref (.cut 1 (.ref (.cut 2 (.cut 3 (.ref (.cut 0 (.cut 1 (.cut 2 (.cut 3 (.ref (.cut 0 (.cut 1 (.ref .leaf) .leaf) (.cut 1 .leaf .leaf))) (.ref (.cut 0 (.cut 1 (.ref .leaf) (.ref .leaf)) (.ref (.cut 1 (.ref .leaf) .leaf))))) (.ref (.cut 3 (.ref (.cut 0 (.ref .leaf) (.ref .leaf))) (.ref .leaf)))) (.ref (.cut 2 (.cut 3 (.ref (.cut 0 (.cut 1 (.cut 2 .leaf .leaf) (.cut 2 .leaf .leaf)) (.cut 1 (.cut 2 .leaf .leaf) (.cut 2 (.ref .leaf) .out)))) (.cut 0 (.cut 1 (.ref .leaf) .out) .out)) (.cut 3 (.ref (.cut 0 (.cut 1 (.ref .leaf) .out) .out)) .out)))) (.ref (.cut 1 (.cut 2 (.cut 3 (.ref (.cut 0 (.cut 1 .leaf .leaf) .leaf)) (.cut 0 (.cut 1 (.ref .leaf) .out) .out)) (.cut 3 (.ref .leaf) .out)) (.cut 2 (.ref (.cut 3 (.cut 0 (.cut 1 .leaf .out) .out) .out)) .out))))) (.ref (.cut 0 (.cut 1 (.cut 2 (.ref (.cut 3 (.cut 0 .leaf .out) .out)) .out) .out) .out))) (.ref (.cut 3 (.cut 0 (.cut 1 (.ref (.cut 2 (.cut 3 (.ref .leaf) .out) .out)) .out) .out) .out)))) (.ref (.cut 2 (.cut 3 (.ref (.cut 0 (.cut 1 (.cut 2 (.cut 3 (.ref (.cut 0 (.cut 1 (.cut 2 (.ref .leaf) .out) .out) .out)) .out) .out) .out) .out)) .out) .out)))))) (.ref (.cut 0 (.ref (.cut 1 (.cut 2 (.cut 3 (.cut 0 (.cut 1 (.ref .leaf) .out) .out) .out) .out) .out)) .out))))))
theorem h49 : check par t49 [57344, 57344, 16384, 16384] [8192, 8192, 16384, 16384] st = true := by decide +kernel
def t50 : Tree := (.ref (.cut 0 (.ref (.cut 1 (.ref (.cut 2 .out (.ref (.cut 3 (.ref (.cut 0 (.ref (.cut 1 (.ref (.cut 2 .out (.ref (.cut 3 (.cut 0 (.ref (.cut 1 (.cut 2 .out (.cut 3 (.cut 0 (.cut 1 (.cut 2 .out .leaf) (.cut 2 .out (.ref .leaf))) (.cut 1 (.cut 2 .out (.ref .leaf)) (.cut 2 .out .out))) .out)) (.cut 2 .out (.cut 3 (.ref (.cut 0 .out .out)) .out)))) (.cut 1 (.cut 2 .out (.cut 3 (.ref (.cut 0 (.ref (.cut 1 (.cut 2 .out .out) .out)) .out)) .out)) (.ref (.cut 2 .out .out)))) .out)))) (.ref (.cut 2 .out (.ref (.cut 3 (.cut 0 .out .out) .out)))))) (.cut 1 (.ref (.cut 2 .out (.ref (.cut 3 (.cut 0 (.ref (.cut 1 (.ref (.cut 2 .out .out)) .out)) .out) .out)))) (.cut 2 .out .out)))) .out)))) (.ref (.cut 2 .out (.ref (.cut 3 (.ref (.cut 0 .out .out)) .out)))))) (.ref (.cut 1 (.ref (.cut 2 .out (.ref (.cut 3 (.ref (.cut 0 (.cut 1 (.ref (.cut 2 .out .out)) .out) .out)) .out)))) (.cut 2 .out .out)))))
theorem h50 : check par t50 [49152, 49152, 16384, 49152] [16384, 16384, 16384, 16384] st = true := by decide +kernel
end FastNoise.RangeCheck.Simplex4
