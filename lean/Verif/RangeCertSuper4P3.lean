import Verif.RangeCertSuper4
/-! Generated by tools/rangecert/gen.py: a certificate for the checker `Verif.RangeCheck`. -/
namespace FastNoise.RangeCheck.Super4
set_option maxRecDepth 1000000
def t26 : Tree := (.ref (.cut 1 (.ref (.cut 2 (.ref (.cut 3 (.ref (.cut 0 (.cut 1 (.cut 2 (.ref (.cut 3 .leaf (.ref .leaf))) (.cut 3 (.ref .leaf) .leaf)) (.ref (.cut 2 (.cut 3 (.ref .leaf) (.ref (.cut 0 .out (.ref .leaf)))) (.cut 3 (.ref (.cut 0 .out (.ref .leaf))) (.ref .leaf))))) (.cut 1 (.ref (.cut 2 (.cut 3 (.ref .leaf) (.ref (.cut 0 (.ref .leaf) .leaf))) (.cut 3 (.ref (.cut 0 (.ref .leaf) .leaf)) (.ref .leaf)))) (.cut 2 (.cut 3 .leaf (.ref .leaf)) (.cut 3 (.ref .leaf) .leaf))))) (.ref (.cut 0 (.cut 1 (.ref (.cut 2 .out (.cut 3 (.cut 0 (.ref (.cut 1 (.cut 2 .out (.ref .leaf)) (.ref (.cut 2 .out (.cut 3 .leaf .out))))) (.ref (.cut 1 (.ref (.cut 2 .out (.cut 3 .leaf .out))) .leaf))) .out))) (.ref (.cut 2 .out (.cut 3 (.ref (.cut 0 .out (.cut 1 (.cut 2 .out .leaf) .out))) .out)))) (.cut 1 (.ref (.cut 2 .out (.cut 3 (.ref (.cut 0 (.cut 1 (.cut 2 .out (.ref (.cut 3 .leaf .out))) (.cut 2 .out .leaf)) (.cut 1 (.cut 2 .out (.cut 3 .leaf .out)) (.cut 2 .out .leaf)))) .out))) (.cut 2 .out (.cut 3 (.ref (.cut 0 (.ref .leaf) (.cut 1 (.ref .leaf) .leaf))) .out))))))) (.cut 3 (.ref (.cut 0 (.cut 1 (.ref (.cut 2 (.cut 3 (.cut 0 (.cut 1 (.cut 2 (.ref .leaf) (.ref .leaf)) (.ref (.cut 2 (.ref .leaf) .leaf))) (.cut 1 (.ref (.cut 2 (.ref .leaf) .leaf)) (.ref .leaf))) (.cut 0 (.ref (.cut 1 (.cut 2 (.ref .leaf) .leaf) (.ref (.cut 2 .leaf (.cut 3 .leaf .leaf))))) (.ref (.cut 1 (.ref (.cut 2 .leaf (.cut 3 .leaf .leaf))) .leaf)))) (.cut 3 (.cut 0 (.ref (.cut 1 (.ref (.cut 2 .leaf .leaf)) (.ref (.cut 2 (.cut 3 (.ref .leaf) .leaf) (.ref (.cut 3 .leaf .leaf)))))) (.cut 1 (.ref (.cut 2 (.cut 3 (.ref .leaf) .leaf) (.ref (.cut 3 .leaf .leaf)))) .leaf)) (.ref (.cut 0 (.cut 1 (.cut 2 .leaf (.ref (.cut 3 .leaf .leaf))) (.ref (.cut 2 (.cut 3 (.cut 0 .out .leaf) (.cut 0 .out .leaf)) (.cut 3 (.ref (.cut 0 .out .leaf)) (.cut 0 .out .leaf))))) (.cut 1 (.ref (.cut 2 (.cut 3 (.cut 0 .leaf (.cut 1 .leaf .leaf)) (.cut 0 .leaf (.cut 1 .leaf .leaf))) (.cut 3 (.ref (.cut 0 .leaf (.cut 1 .leaf .leaf))) (.cut 0 .leaf (.cut 1 .leaf .leaf))))) (.cut 2 (.cut 3 .leaf .leaf) (.cut 3 .leaf .leaf)))))))) (.ref (.cut 2 (.cut 3 (.ref (.cut 0 .out (.cut 1 .leaf .out))) (.ref (.cut 0 .out (.cut 1 (.cut 2 .leaf (.ref .leaf)) .out)))) (.cut 3 (.cut 0 .out (.cut 1 (.cut 2 (.ref .leaf) (.ref .leaf)) .out)) (.cut 0 .out (.cut 1 (.ref (.cut 2 (.ref (.cut 3 .leaf .leaf)) (.cut 3 .leaf (.cut 0 .out .leaf)))) .out)))))) (.cut 1 (.ref (.cut 2 (.cut 3 (.ref (.cut 0 (.cut 1 (.cut 2 .leaf (.cut 3 .leaf .leaf)) .leaf) (.cut 1 (.cut 2 .leaf .leaf) .leaf))) (.ref (.cut 0 (.cut 1 (.cut 2 .leaf (.ref (.cut 3 .leaf .leaf))) (.cut 2 .leaf (.ref .leaf))) (.cut 1 (.cut 2 .leaf (.cut 3 .leaf (.ref .leaf))) (.cut 2 .leaf .leaf))))) (.cut 3 (.cut 0 (.cut 1 (.cut 2 (.cut 3 (.ref .leaf) (.ref .leaf)) (.ref (.cut 3 .leaf .leaf))) (.cut 2 (.ref .leaf) (.ref .leaf))) (.cut 1 (.cut 2 (.cut 3 (.ref .leaf) (.ref .leaf)) (.cut 3 (.ref .leaf) (.ref .leaf))) (.cut 2 (.ref .leaf) (.ref .leaf)))) (.cut 0 (.ref (.cut 1 (.cut 2 (.cut 3 (.cut 0 (.cut 1 .leaf .leaf) (.cut 1 (.cut 2 (.ref .leaf) .leaf) (.ref .leaf))) (.cut 0 (.cut 1 (.cut 2 (.ref .leaf) (.ref .leaf)) (.ref .leaf)) (.ref (.cut 1 (.cut 2 .leaf (.cut 3 .leaf .leaf)) .leaf)))) (.cut 3 (.cut 0 (.cut 1 (.ref (.cut 2 .leaf .leaf)) .leaf) (.cut 1 (.ref (.cut 2 .leaf .leaf)) .leaf)) (.cut 0 (.cut 1 (.cut 2 (.cut 3 .leaf .leaf) (.ref (.cut 3 .leaf .leaf))) (.cut 2 .leaf .leaf)) (.cut 1 (.cut 2 (.cut 3 (.cut 0 .leaf .leaf) (.cut 0 (.cut 1 .leaf (.ref .leaf)) (.ref (.cut 1 (.cut 2 .leaf .leaf) .leaf)))) (.cut 3 (.ref (.cut 0 .leaf .leaf)) (.cut 0 (.ref (.cut 1 .leaf .leaf)) (.cut 1 (.ref (.cut 2 .leaf (.cut 3 .leaf .leaf))) .leaf)))) (.cut 2 (.cut 3 .leaf (.ref .leaf)) (.cut 3 (.ref .leaf) .leaf)))))) (.cut 2 (.ref (.cut 3 .leaf .leaf)) (.cut 3 .leaf (.cut 0 .leaf (.cut 1 .leaf .leaf)))))) (.cut 1 (.ref (.cut 2 (.ref (.cut 3 (.cut 0 (.cut 1 (.cut 2 .leaf .leaf) .leaf) (.cut 1 .leaf .leaf)) (.cut 0 (.cut 1 (.cut 2 .leaf (.cut 3 .leaf .leaf)) (.cut 2 .leaf .leaf)) (.cut 1 (.cut 2 .leaf (.cut 3 .leaf .leaf)) (.cut 2 .leaf .leaf))))) (.cut 3 (.cut 0 (.cut 1 (.cut 2 .leaf (.ref .leaf)) .leaf) (.cut 1 (.cut 2 .leaf (.ref .leaf)) .leaf)) (.cut 0 (.cut 1 (.cut 2 (.ref (.cut 3 (.cut 0 .leaf .leaf) (.cut 0 (.cut 1 (.cut 2 .leaf .leaf) .leaf) (.cut 1 (.cut 2 .leaf .leaf) .leaf)))) (.cut 3 (.ref (.cut 0 .leaf .leaf)) (.cut 0 (.cut 1 (.ref (.cut 2 (.cut 3 .leaf (.ref .leaf)) (.cut 3 .leaf .leaf))) (.cut 2 (.ref .leaf) (.ref .leaf))) (.cut 1 (.cut 2 (.ref (.cut 3 (.ref .leaf) .leaf)) (.ref (.cut 3 .leaf .leaf))) (.cut 2 (.ref .leaf) (.ref .leaf)))))) (.cut 2 (.ref (.cut 3 .leaf .leaf)) (.cut 3 .leaf (.cut 0 .leaf (.ref .leaf))))) (.cut 1 (.cut 2 (.ref (.cut 3 .leaf (.cut 0 (.cut 1 (.cut 2 .leaf .leaf) .leaf) (.cut 1 .leaf .leaf)))) (.cut 3 (.cut 0 .leaf .leaf) (.cut 0 (.cut 1 (.cut 2 (.ref (.cut 3 .leaf .leaf)) (.ref (.cut 3 .leaf (.ref .leaf)))) (.ref (.cut 2 .leaf .leaf))) (.ref (.cut 1 (.cut 2 .leaf .leaf) (.cut 2 .leaf .leaf)))))) (.cut 2 (.ref (.cut 3 .leaf .leaf)) (.cut 3 .leaf (.ref (.cut 0 (.cut 1 .leaf .leaf) .leaf))))))))) (.cut 2 (.ref (.cut 3 (.ref .leaf) (.ref (.cut 0 .leaf .leaf)))) (.ref (.cut 3 .leaf (.cut 0 (.cut 1 (.cut 2 (.ref .leaf) .leaf) (.ref .leaf)) (.ref (.cut 1 (.cut 2 .leaf .leaf) .leaf))))))))))) (.cut 2 (.ref (.cut 3 (.ref (.cut 0 .leaf .leaf)) (.cut 0 (.ref .leaf) (.cut 1 (.ref .leaf) .leaf)))) (.ref (.cut 3 (.cut 0 .leaf (.cut 1 (.ref .leaf) .leaf)) (.cut 0 (.cut 1 (.cut 2 (.ref .leaf) (.ref .leaf)) (.ref (.cut 2 .leaf (.cut 3 .leaf (.ref .leaf))))) (.ref (.cut 1 (.ref (.cut 2 .leaf (.cut 3 .leaf (.ref .leaf)))) .leaf))))))))) (.cut 0 (.cut 1 (.ref (.cut 2 (.ref (.cut 3 (.ref (.cut 0 (.cut 1 (.cut 2 .leaf .leaf) (.ref (.cut 2 (.cut 3 .leaf (.ref .leaf)) (.cut 3 (.ref .leaf) .leaf)))) (.cut 1 (.ref (.cut 2 (.cut 3 .leaf (.ref .leaf)) (.cut 3 (.ref .leaf) .leaf))) (.cut 2 .leaf .leaf)))) (.ref (.cut 0 (.cut 1 (.cut 2 .out .leaf) (.ref (.cut 2 .out (.cut 3 (.ref .leaf) .out)))) (.cut 1 (.ref (.cut 2 .out (.cut 3 (.ref .leaf) .out))) (.cut 2 .out (.cut 3 (.ref .leaf) .out))))))) (.cut 3 (.ref (.cut 0 (.cut 1 (.cut 2 .leaf .leaf) (.ref (.cut 2 (.cut 3 (.cut 0 .out (.ref .leaf)) (.ref .leaf)) (.cut 3 (.cut 0 .out .leaf) .leaf)))) (.cut 1 (.ref (.cut 2 (.cut 3 (.cut 0 .leaf (.ref (.cut 1 .leaf .leaf))) (.ref .leaf)) (.cut 3 (.cut 0 .leaf (.cut 1 .leaf .leaf)) .leaf))) (.cut 2 (.ref (.cut 3 .leaf .leaf)) (.cut 3 .leaf .leaf))))) (.cut 0 (.cut 1 .leaf (.ref (.cut 2 (.ref .leaf) .leaf))) (.ref (.cut 1 (.ref (.cut 2 (.ref .leaf) .leaf)) (.ref (.cut 2 .leaf .leaf)))))))) (.ref (.cut 2 (.ref (.cut 3 (.ref (.cut 0 .out (.cut 1 (.ref (.cut 2 .leaf .leaf)) .out))) (.ref (.cut 0 .out (.ref (.cut 1 (.cut 2 .out (.ref (.cut 3 .leaf .out))) .out)))))) (.ref (.cut 3 (.ref (.cut 0 .out (.ref (.cut 1 (.cut 2 (.ref (.cut 3 (.cut 0 .out .leaf) .leaf)) (.cut 3 (.cut 0 .out (.ref .leaf)) (.ref (.cut 0 .out .leaf)))) .out)))) (.ref (.cut 0 .out (.cut 1 (.cut 2 (.ref (.cut 3 .leaf (.ref .leaf))) (.cut 3 (.ref .leaf) .out)) .out)))))))) (.ref (.cut 1 (.ref (.cut 2 (.ref (.cut 3 (.ref (.cut 0 (.ref (.cut 1 (.cut 2 (.cut 3 .leaf (.ref .leaf)) (.cut 3 (.ref .leaf) .leaf)) (.cut 2 .leaf .leaf))) (.cut 1 (.ref (.cut 2 (.cut 3 .leaf (.ref .leaf)) (.cut 3 (.ref .leaf) .leaf))) (.cut 2 .leaf (.ref .leaf))))) (.ref (.cut 0 (.cut 1 (.cut 2 .out (.cut 3 (.ref (.cut 0 .leaf (.cut 1 .leaf .leaf))) .out)) (.ref (.cut 2 .out (.ref (.cut 3 .leaf .out))))) (.cut 1 (.cut 2 .out (.ref (.cut 3 (.cut 0 (.cut 1 (.cut 2 .out .leaf) (.ref .leaf)) (.cut 1 (.cut 2 .out .leaf) (.ref .leaf))) .out))) (.ref (.cut 2 .out (.cut 3 (.cut 0 .leaf .leaf) .out)))))))) (.ref (.cut 3 (.ref (.cut 0 (.cut 1 (.cut 2 (.ref (.cut 3 (.cut 0 (.cut 1 (.cut 2 .leaf .leaf) .leaf) (.cut 1 (.cut 2 .leaf (.cut 3 .leaf .leaf)) (.cut 2 .leaf .leaf))) (.cut 0 .leaf (.cut 1 .leaf .leaf)))) (.cut 3 (.ref (.cut 0 (.cut 1 (.cut 2 (.cut 3 .leaf (.ref .leaf)) (.cut 3 .leaf .leaf)) (.cut 2 (.ref .leaf) .leaf)) (.cut 1 (.cut 2 (.ref (.cut 3 (.cut 0 (.cut 1 .leaf .leaf) (.cut 1 (.cut 2 .leaf .leaf) .leaf)) (.cut 0 .leaf (.cut 1 .leaf .leaf)))) (.cut 3 (.cut 0 (.cut 1 .leaf .leaf) (.cut 1 (.cut 2 (.cut 3 .leaf (.ref .leaf)) (.ref .leaf)) .leaf)) (.cut 0 .leaf (.cut 1 (.cut 2 (.ref .leaf) .leaf) (.ref .leaf))))) (.cut 2 (.ref (.cut 3 .leaf .leaf)) (.cut 3 .leaf (.cut 0 .leaf (.ref .leaf))))))) (.cut 0 (.cut 1 (.cut 2 (.ref .leaf) .leaf) (.ref .leaf)) (.cut 1 (.cut 2 (.ref (.cut 3 (.ref .leaf) .leaf)) (.cut 3 .leaf (.ref .leaf))) (.ref (.cut 2 .leaf (.cut 3 .leaf .leaf))))))) (.ref (.cut 2 (.ref (.cut 3 (.cut 0 .leaf .leaf) .leaf)) (.cut 3 (.cut 0 .leaf (.ref (.cut 1 .leaf .leaf))) (.ref (.cut 0 .leaf (.cut 1 .leaf .leaf))))))) (.cut 1 (.cut 2 (.ref (.cut 3 (.ref (.cut 0 (.cut 1 (.cut 2 .leaf (.cut 3 .leaf .leaf)) (.cut 2 .leaf .leaf)) (.cut 1 (.cut 2 .leaf (.cut 3 .leaf .leaf)) (.cut 2 .leaf .leaf)))) (.cut 0 (.cut 1 (.cut 2 (.ref .leaf) .leaf) (.ref .leaf)) (.cut 1 (.cut 2 (.ref .leaf) .leaf) (.ref .leaf))))) (.cut 3 (.cut 0 (.ref (.cut 1 (.cut 2 (.ref (.cut 3 (.cut 0 (.cut 1 (.cut 2 .leaf .leaf) .leaf) (.cut 1 (.cut 2 .leaf .leaf) .leaf)) (.cut 0 (.cut 1 (.cut 2 .leaf .leaf) .leaf) (.cut 1 (.cut 2 .leaf .leaf) .leaf)))) (.cut 3 (.cut 0 (.cut 1 (.cut 2 (.ref (.cut 3 (.cut 0 .leaf .leaf) (.cut 0 .leaf (.cut 1 .leaf .leaf)))) (.ref (.cut 3 (.cut 0 .leaf (.cut 1 .leaf .leaf)) (.cut 0 .leaf (.cut 1 .leaf (.ref .leaf)))))) (.cut 2 (.ref .leaf) (.cut 3 (.ref .leaf) (.ref .leaf)))) (.cut 1 (.cut 2 (.ref (.cut 3 (.cut 0 (.cut 1 .leaf .leaf) (.cut 1 .leaf .leaf)) (.cut 0 (.cut 1 .leaf .leaf) (.cut 1 .leaf .leaf)))) (.cut 3 (.ref (.cut 0 (.cut 1 .leaf (.ref .leaf)) (.ref (.cut 1 (.cut 2 .leaf .leaf) .leaf)))) (.ref (.cut 0 (.cut 1 (.ref (.cut 2 .leaf .leaf)) .leaf) (.cut 1 (.cut 2 .leaf (.ref .leaf)) (.cut 2 .leaf (.ref .leaf))))))) (.ref (.cut 2 (.cut 3 .leaf .leaf) (.cut 3 .leaf (.cut 0 .leaf (.cut 1 .leaf .leaf))))))) (.ref (.cut 0 (.cut 1 (.cut 2 (.cut 3 .leaf .leaf) (.cut 3 (.cut 0 .leaf .leaf) .leaf)) (.cut 2 .leaf (.cut 3 .leaf .leaf))) (.cut 1 (.cut 2 (.cut 3 (.cut 0 .leaf (.cut 1 .leaf .leaf)) .leaf) (.cut 3 (.cut 0 (.cut 1 (.cut 2 .leaf (.ref .leaf)) .leaf) (.cut 1 (.cut 2 .leaf (.ref (.cut 3 (.ref .leaf) .leaf))) (.cut 2 .leaf .leaf))) (.cut 0 .leaf .leaf))) (.cut 2 (.cut 3 .leaf .leaf) (.cut 3 (.cut 0 .leaf (.cut 1 .leaf .leaf)) .leaf))))))) (.ref (.cut 2 (.cut 3 .leaf (.cut 0 .leaf .leaf)) (.cut 3 (.cut 0 (.cut 1 .leaf .leaf) (.cut 1 (.cut 2 .leaf .leaf) .leaf)) (.cut 0 (.cut 1 .leaf .leaf) (.cut 1 (.cut 2 .leaf .leaf) .leaf))))))) (.ref (.cut 1 (.cut 2 (.ref (.cut 3 (.cut 0 (.cut 1 (.cut 2 .leaf .leaf) .leaf) (.cut 1 (.cut 2 .leaf .leaf) .leaf)) (.cut 0 (.cut 1 (.cut 2 .leaf .leaf) .leaf) (.cut 1 (.cut 2 .leaf .leaf) .leaf)))) (.cut 3 (.ref (.cut 0 (.cut 1 (.cut 2 (.cut 3 (.cut 0 (.cut 1 .leaf .leaf) .leaf) (.cut 0 (.cut 1 .leaf .leaf) (.cut 1 .leaf .leaf))) (.cut 3 (.cut 0 (.ref (.cut 1 (.cut 2 .leaf .leaf) .leaf)) (.cut 1 (.ref .leaf) .leaf)) (.cut 0 (.cut 1 (.cut 2 .leaf (.ref (.cut 3 .leaf .leaf))) (.cut 2 .leaf .leaf)) (.cut 1 (.ref (.cut 2 .leaf (.ref (.cut 3 .leaf .leaf)))) (.cut 2 .leaf (.cut 3 (.ref .leaf) .leaf)))))) (.cut 2 (.cut 3 .leaf .leaf) (.cut 3 (.cut 0 .leaf .leaf) (.cut 0 (.cut 1 .leaf .leaf) (.cut 1 .leaf .leaf))))) (.cut 1 (.cut 2 (.cut 3 .leaf (.cut 0 .leaf .leaf)) (.cut 3 (.cut 0 .leaf .leaf) (.cut 0 (.cut 1 (.ref (.cut 2 .leaf .leaf)) (.cut 2 .leaf (.ref .leaf))) (.ref (.cut 1 .leaf .leaf))))) (.cut 2 (.cut 3 .leaf .leaf) (.cut 3 .leaf (.cut 0 (.cut 1 .leaf .out) .out)))))) (.cut 0 (.cut 1 (.cut 2 (.ref (.cut 3 (.cut 0 (.cut 1 .leaf .leaf) .leaf) .leaf)) (.cut 3 (.ref (.cut 0 (.cut 1 (.ref (.cut 2 .leaf (.cut 3 .leaf .leaf))) (.cut 2 .leaf .leaf)) (.cut 1 (.ref (.cut 2 .leaf .leaf)) (.cut 2 .leaf .out)))) (.ref (.cut 0 (.cut 1 .leaf .out) .out)))) (.ref (.cut 2 (.cut 3 .leaf .leaf) (.cut 3 (.cut 0 (.cut 1 .leaf .out) .out) .out)))) (.cut 1 (.cut 2 (.cut 3 (.ref .leaf) (.ref .leaf)) (.ref (.cut 3 (.cut 0 (.ref (.cut 1 (.cut 2 .leaf .out) .out)) .out) .out))) (.ref (.cut 2 (.cut 3 .leaf .out) .out)))))) (.ref (.cut 2 (.cut 3 (.cut 0 .leaf .leaf) .leaf) (.cut 3 (.cut 0 (.cut 1 (.cut 2 .leaf .leaf) .leaf) (.cut 1 (.cut 2 .leaf (.cut 3 .leaf .out)) .leaf)) (.cut 0 (.cut 1 (.cut 2 .leaf .out) .out) .out))))))) (.ref (.cut 0 (.cut 1 (.cut 2 (.cut 3 (.cut 0 (.ref .leaf) .leaf) .leaf) (.cut 3 (.cut 0 (.cut 1 .leaf (.ref .leaf)) (.cut 1 (.cut 2 .leaf .leaf) (.ref (.cut 2 .leaf .out)))) .leaf)) (.ref (.cut 2 (.cut 3 .leaf .leaf) (.cut 3 (.cut 0 .leaf .out) .out)))) (.cut 1 (.cut 2 (.cut 3 .leaf .leaf) (.cut 3 (.cut 0 (.cut 1 (.cut 2 .leaf .out) .out) .out) .out)) (.cut 2 (.ref (.cut 3 .leaf .out)) .out)))))) (.ref (.cut 2 (.cut 3 .leaf (.cut 0 .leaf .leaf)) (.cut 3 (.cut 0 (.cut 1 (.cut 2 .leaf .leaf) .leaf) (.cut 1 (.cut 2 .leaf (.cut 3 .leaf .out)) .leaf)) (.cut 0 (.cut 1 (.cut 2 .leaf .out) .out) .out))))))) (.ref (.cut 0 (.cut 1 (.cut 2 (.cut 3 .leaf (.ref .leaf)) (.cut 3 (.ref .leaf) .leaf)) (.cut 2 (.ref (.cut 3 .leaf (.ref .leaf))) (.cut 3 (.ref .leaf) .out))) (.cut 1 (.cut 2 (.cut 3 .leaf (.ref (.cut 0 (.cut 1 .leaf .out) .out))) (.cut 3 (.ref (.cut 0 (.cut 1 .leaf .out) .out)) .out)) (.cut 2 (.cut 3 (.ref .leaf) .out) .out)))))))) (.ref (.cut 2 (.cut 3 (.cut 0 .leaf .leaf) (.ref (.cut 0 (.ref (.cut 1 (.cut 2 .out .leaf) (.ref (.cut 2 .out (.cut 3 .leaf .out))))) (.cut 1 (.ref (.cut 2 .out (.cut 3 .leaf .out))) .leaf)))) (.cut 3 (.ref (.cut 0 (.ref (.cut 1 (.cut 2 .leaf .leaf) (.ref (.cut 2 .leaf (.cut 3 .leaf .out))))) (.cut 1 (.ref (.cut 2 .leaf (.cut 3 .leaf .out))) .leaf))) (.ref (.cut 0 (.cut 1 (.cut 2 .leaf .out) .out) .out))))))))))) (.ref (.cut 2 (.ref (.cut 3 (.ref (.cut 0 .out (.cut 1 (.cut 2 (.cut 3 .leaf (.ref .leaf)) (.cut 3 (.ref .leaf) .leaf)) .out))) (.ref (.cut 0 .out (.ref (.cut 1 (.cut 2 .out (.ref (.cut 3 (.cut 0 .out .leaf) .out))) .out)))))) (.ref (.cut 3 (.ref (.cut 0 .out (.ref (.cut 1 (.cut 2 (.ref (.cut 3 (.cut 0 .out .leaf) (.cut 0 .out .leaf))) (.cut 3 (.cut 0 .out (.ref .leaf)) (.ref (.cut 0 .out (.cut 1 .leaf .out))))) .out)))) (.ref (.cut 0 .out (.cut 1 (.cut 2 (.ref (.cut 3 (.cut 0 .out .leaf) (.ref (.cut 0 .out .out)))) (.cut 3 (.ref (.cut 0 .out .out)) .out)) .out)))))))))
theorem h26 : check par t26 [34816, 36864, 28672, 28672] [2048, 4096, 4096, 4096] st = true := by decide +kernel
def t27 : Tree := (.ref (.cut 1 (.ref (.cut 2 (.ref (.cut 3 (.ref (.cut 0 (.cut 1 (.cut 2 (.cut 3 .leaf (.ref .leaf)) (.cut 3 (.ref .leaf) .leaf)) (.cut 2 (.cut 3 .leaf (.ref .leaf)) (.cut 3 (.ref .leaf) .leaf))) (.cut 1 (.cut 2 (.cut 3 .leaf (.ref .leaf)) (.cut 3 (.ref .leaf) (.ref .leaf))) (.cut 2 .leaf (.ref .leaf))))) (.ref (.cut 0 (.cut 1 (.ref (.cut 2 .out (.cut 3 (.ref (.cut 0 (.cut 1 (.cut 2 .out (.cut 3 .leaf .out)) (.cut 2 .out .leaf)) (.cut 1 (.cut 2 .out (.ref .leaf)) .leaf))) .out))) (.ref (.cut 2 .out (.ref (.cut 3 (.cut 0 (.cut 1 .leaf .leaf) .leaf) .out))))) (.cut 1 (.ref (.cut 2 .out (.ref (.cut 3 (.cut 0 (.ref (.cut 1 .leaf .leaf)) (.ref .leaf)) .out)))) (.ref (.cut 2 .out (.cut 3 (.cut 0 .leaf (.ref .leaf)) .out)))))))) (.ref (.cut 3 (.ref (.cut 0 (.cut 1 (.ref (.cut 2 (.ref (.cut 3 (.cut 0 (.cut 1 (.cut 2 .leaf .leaf) .leaf) (.cut 1 .leaf .leaf)) (.cut 0 (.cut 1 (.cut 2 .leaf (.cut 3 .leaf .leaf)) (.cut 2 .leaf .leaf)) (.cut 1 (.cut 2 .leaf .leaf) .leaf)))) (.cut 3 (.ref (.cut 0 (.cut 1 (.cut 2 (.ref .leaf) (.cut 3 (.ref .leaf) (.ref .leaf))) (.cut 2 (.ref .leaf) (.ref .leaf))) (.cut 1 (.cut 2 (.ref .leaf) .leaf) (.ref .leaf)))) (.cut 0 (.cut 1 (.cut 2 (.ref (.cut 3 (.cut 0 (.ref .leaf) .leaf) (.ref (.cut 0 (.cut 1 (.cut 2 .leaf .leaf) .leaf) (.cut 1 .leaf .leaf))))) (.ref (.cut 3 (.ref (.cut 0 (.cut 1 .leaf .leaf) .leaf)) (.ref (.cut 0 (.cut 1 (.cut 2 (.cut 3 .leaf (.cut 0 .leaf .leaf)) (.cut 3 .leaf (.cut 0 (.cut 1 .leaf .leaf) .leaf))) (.cut 2 (.cut 3 .leaf .leaf) (.cut 3 .leaf (.cut 0 .leaf .leaf)))) (.cut 1 (.cut 2 .leaf (.cut 3 .leaf .leaf)) (.cut 2 .leaf .leaf))))))) (.ref (.cut 2 (.cut 3 .leaf (.cut 0 (.ref .leaf) .leaf)) (.cut 3 (.ref .leaf) (.ref (.cut 0 (.cut 1 (.cut 2 .leaf .leaf) .leaf) (.cut 1 .leaf .leaf))))))) (.ref (.cut 1 (.cut 2 (.ref (.cut 3 .leaf (.ref .leaf))) (.cut 3 (.ref .leaf) (.ref (.cut 0 (.cut 1 .leaf (.ref .leaf)) .leaf)))) (.ref (.cut 2 (.cut 3 .leaf .leaf) (.cut 3 .leaf (.cut 0 (.ref .leaf) .out)))))))))) (.ref (.cut 2 (.ref (.cut 3 (.cut 0 (.ref .leaf) .leaf) (.cut 0 (.cut 1 .leaf .leaf) .leaf))) (.cut 3 (.cut 0 (.ref (.cut 1 .leaf .leaf)) (.ref .leaf)) (.ref (.cut 0 (.cut 1 (.cut 2 .leaf (.cut 3 (.ref .leaf) .leaf)) .leaf) (.cut 1 (.cut 2 .leaf (.cut 3 .leaf .out)) .leaf))))))) (.cut 1 (.ref (.cut 2 (.ref (.cut 3 (.ref (.cut 0 .leaf .leaf)) (.cut 0 (.ref (.cut 1 .leaf .leaf)) (.ref .leaf)))) (.cut 3 (.ref (.cut 0 (.cut 1 .leaf (.ref .leaf)) .leaf)) (.ref (.cut 0 (.cut 1 (.cut 2 (.ref .leaf) (.cut 3 .leaf (.ref .leaf))) (.ref (.cut 2 .leaf (.cut 3 .leaf .out)))) (.cut 1 (.ref .leaf) (.ref .leaf))))))) (.ref (.cut 2 (.cut 3 .leaf (.cut 0 .leaf (.ref .leaf))) (.cut 3 (.cut 0 .leaf .leaf) (.cut 0 (.cut 1 (.cut 2 .leaf .out) .out) .out))))))) (.ref (.cut 0 (.cut 1 (.cut 2 (.cut 3 (.ref (.cut 0 (.cut 1 (.cut 2 (.ref (.cut 3 .leaf (.ref .leaf))) (.ref .leaf)) (.ref (.cut 2 .leaf .leaf))) (.cut 1 (.cut 2 (.ref .leaf) .leaf) (.ref .leaf)))) (.ref (.cut 0 (.ref (.cut 1 (.cut 2 .out (.cut 3 (.cut 0 (.cut 1 .leaf (.ref .leaf)) .leaf) .out)) (.cut 2 .out (.cut 3 (.ref .leaf) .out)))) (.cut 1 (.ref (.cut 2 .out (.cut 3 .leaf .out))) (.cut 2 .out .out))))) (.cut 3 (.ref (.cut 0 (.ref (.cut 1 (.cut 2 (.cut 3 (.cut 0 (.ref (.cut 1 (.cut 2 .leaf .leaf) .leaf)) (.cut 1 .leaf (.ref .leaf))) (.cut 0 (.cut 1 .leaf (.ref .leaf)) .leaf)) (.cut 3 (.cut 0 (.cut 1 (.cut 2 (.cut 3 (.ref (.cut 0 (.cut 1 .leaf .leaf) .leaf)) (.cut 0 .leaf .leaf)) (.cut 3 (.cut 0 (.ref (.cut 1 (.cut 2 .leaf (.cut 3 (.ref .leaf) (.ref .leaf))) (.cut 2 .leaf (.cut 3 .leaf .out)))) (.cut 1 (.ref .leaf) (.ref (.cut 2 .leaf .out)))) (.cut 0 (.cut 1 (.ref (.cut 2 .leaf .out)) .out) .out))) (.ref (.cut 2 (.cut 3 .leaf .leaf) (.cut 3 (.cut 0 (.cut 1 (.cut 2 .leaf .out) .out) .out) .out)))) (.cut 1 (.cut 2 .leaf (.cut 3 (.cut 0 .leaf .out) .out)) (.cut 2 (.ref .leaf) .out))) (.cut 0 (.cut 1 (.cut 2 (.cut 3 .leaf .out) .out) .out) .out))) (.cut 2 (.ref (.cut 3 (.cut 0 .leaf .leaf) .leaf)) (.cut 3 (.ref (.cut 0 (.cut 1 (.cut 2 .leaf .out) .out) .out)) .out)))) (.cut 1 (.ref (.cut 2 (.cut 3 .leaf .leaf) (.cut 3 (.cut 0 (.cut 1 (.cut 2 .leaf .out) .out) .out) .out))) (.cut 2 (.ref (.cut 3 .leaf .out)) .out)))) (.ref (.cut 0 (.cut 1 (.cut 2 (.cut 3 .leaf .out) .out) .out) .out)))) (.cut 2 (.ref (.cut 3 (.cut 0 .leaf (.ref .leaf)) (.ref (.cut 0 (.cut 1 (.cut 2 .out .out) .out) .out)))) (.cut 3 (.ref (.cut 0 (.cut 1 (.cut 2 .leaf .out) .out) .out)) .out))) (.ref (.cut 1 (.cut 2 (.cut 3 (.cut 0 .leaf .leaf) (.ref (.cut 0 (.cut 1 (.cut 2 .out .out) .out) .out))) (.cut 3 (.ref (.cut 0 (.cut 1 (.cut 2 .leaf .out) .out) .out)) .out)) (.cut 2 (.cut 3 (.ref (.cut 0 .leaf .out)) .out) .out))))))))) (.ref (.cut 2 (.cut 3 (.cut 0 (.cut 1 (.cut 2 .leaf .leaf) (.ref (.cut 2 .leaf .leaf))) (.cut 1 (.ref (.cut 2 .leaf .leaf)) .leaf)) (.ref (.cut 0 (.cut 1 (.cut 2 .out (.cut 3 .leaf .out)) (.ref (.cut 2 .out (.cut 3 (.ref .leaf) .out)))) (.cut 1 (.ref (.cut 2 .out (.cut 3 (.ref .leaf) .out))) (.cut 2 .out .out))))) (.cut 3 (.ref (.cut 0 (.cut 1 (.cut 2 (.cut 3 (.ref .leaf) .leaf) (.cut 3 (.ref .leaf) .leaf)) (.ref (.cut 2 (.cut 3 (.ref .leaf) (.ref .leaf)) (.cut 3 (.ref .leaf) .out)))) (.cut 1 (.ref (.cut 2 (.cut 3 (.ref .leaf) (.ref .leaf)) (.cut 3 (.ref .leaf) .out))) (.cut 2 .leaf .out)))) (.cut 0 (.cut 1 (.cut 2 (.cut 3 .leaf .out) .out) .out) .out))))))
theorem h27 : check par t27 [38912, 36864, 28672, 28672] [2048, 4096, 4096, 4096] st = true := by decide +kernel
def t28 : Tree := (.ref (.cut 2 (.ref (.cut 3 (.ref (.cut 0 .out (.ref (.cut 1 (.ref (.cut 2 (.cut 3 .leaf (.ref .leaf)) (.ref (.cut 3 (.ref .leaf) .leaf)))) .out)))) (.ref (.cut 0 .out (.ref (.cut 1 (.ref (.cut 2 .out (.ref (.cut 3 (.ref (.cut 0 .out .leaf)) .out)))) .out)))))) (.ref (.cut 3 (.ref (.cut 0 .out (.ref (.cut 1 (.ref (.cut 2 (.cut 3 (.ref (.cut 0 .out (.ref .leaf))) (.ref (.cut 0 .out .leaf))) (.cut 3 (.ref (.cut 0 .out .leaf)) (.ref (.cut 0 .out (.cut 1 (.ref .leaf) .out)))))) .out)))) (.ref (.cut 0 .out (.cut 1 (.ref (.cut 2 (.ref (.cut 3 (.ref (.cut 0 .out (.cut 1 .leaf .out))) (.ref (.cut 0 .out .out)))) (.ref (.cut 3 (.ref (.cut 0 .out .out)) .out)))) .out)))))))
theorem h28 : check par t28 [36864, 45056, 24576, 24576] [4096, 4096, 8192, 8192] st = true := by decide +kernel
def t29 : Tree := (.ref (.cut 1 (.ref (.cut 2 (.ref (.cut 3 (.ref (.cut 0 (.ref (.cut 1 (.cut 2 (.ref (.cut 3 (.ref .leaf) (.ref (.cut 0 (.ref .leaf) .leaf)))) (.ref (.cut 3 (.ref (.cut 0 (.ref .leaf) .leaf)) (.ref (.cut 0 .leaf .leaf))))) (.ref (.cut 2 (.cut 3 .leaf (.ref .leaf)) (.ref (.cut 3 (.ref .leaf) .leaf)))))) (.cut 1 (.cut 2 (.ref (.cut 3 (.ref .leaf) (.ref .leaf))) (.ref (.cut 3 (.ref .leaf) (.ref .leaf)))) (.ref (.cut 2 (.ref (.cut 3 .leaf (.ref .leaf))) (.ref (.cut 3 (.ref .leaf) (.ref .leaf)))))))) (.ref (.cut 0 (.ref (.cut 1 (.cut 2 .out (.ref (.cut 3 (.ref (.cut 0 (.cut 1 (.cut 2 .out .leaf) (.ref .leaf)) (.cut 1 .leaf .leaf))) .out))) (.ref (.cut 2 .out (.ref (.cut 3 (.ref (.cut 0 (.cut 1 .leaf .leaf) .leaf)) .out)))))) (.ref (.cut 1 (.cut 2 .out (.ref (.cut 3 (.ref (.cut 0 (.ref .leaf) .leaf)) .out))) (.ref (.cut 2 .out (.ref (.cut 3 (.ref (.cut 0 (.ref .leaf) (.ref .leaf))) .out)))))))))) (.ref (.cut 3 (.ref (.cut 0 (.ref (.cut 1 (.cut 2 (.ref (.cut 3 (.ref (.cut 0 (.cut 1 .leaf .leaf) .leaf)) (.ref (.cut 0 (.cut 1 (.cut 2 (.ref .leaf) .leaf) (.ref .leaf)) (.cut 1 .leaf .leaf))))) (.ref (.cut 3 (.cut 0 (.ref (.cut 1 .leaf (.ref .leaf))) (.ref .leaf)) (.ref (.cut 0 (.cut 1 (.cut 2 .leaf .leaf) (.cut 2 .leaf .leaf)) (.cut 1 (.cut 2 .leaf .leaf) .leaf)))))) (.ref (.cut 2 (.cut 3 (.ref (.cut 0 (.ref .leaf) .leaf)) (.ref (.cut 0 (.cut 1 .leaf .leaf) .leaf))) (.cut 3 (.ref (.cut 0 .leaf .leaf)) (.ref (.cut 0 (.cut 1 (.cut 2 (.ref .leaf) .leaf) (.ref .leaf)) (.cut 1 .leaf .leaf)))))))) (.ref (.cut 1 (.cut 2 (.ref (.cut 3 (.cut 0 (.ref .leaf) .leaf) (.ref (.cut 0 (.ref .leaf) .leaf)))) (.cut 3 (.ref (.cut 0 (.ref .leaf) (.ref .leaf))) (.ref (.cut 0 (.ref (.cut 1 (.ref .leaf) (.ref .leaf))) (.ref .leaf))))) (.ref (.cut 2 (.ref (.cut 3 (.ref .leaf) (.ref (.cut 0 (.ref .leaf) (.ref .leaf))))) (.cut 3 (.ref (.cut 0 .leaf .leaf)) (.ref (.cut 0 (.cut 1 .leaf .out) .out))))))))) (.ref (.cut 0 (.ref (.cut 1 (.cut 2 (.ref (.cut 3 (.ref (.cut 0 (.ref (.cut 1 (.cut 2 .leaf .leaf) (.cut 2 .leaf .leaf))) (.cut 1 (.ref .leaf) (.ref .leaf)))) (.ref (.cut 0 (.cut 1 (.cut 2 .out (.ref (.cut 3 (.ref .leaf) .out))) (.ref (.cut 2 .out (.ref (.cut 3 .leaf .out))))) (.ref (.cut 1 (.cut 2 .out (.cut 3 .leaf .out)) (.cut 2 .out .out))))))) (.ref (.cut 3 (.ref (.cut 0 (.cut 1 (.cut 2 (.ref (.cut 3 (.ref .leaf) (.ref .leaf))) (.cut 3 .leaf (.ref (.cut 0 .leaf .out)))) (.ref (.cut 2 (.ref (.cut 3 .leaf (.ref .leaf))) (.cut 3 .leaf .out)))) (.ref (.cut 1 (.cut 2 .leaf (.cut 3 .leaf .out)) (.cut 2 (.ref .leaf) .out))))) (.ref (.cut 0 (.ref (.cut 1 (.cut 2 (.cut 3 .leaf .out) .out) .out)) .out))))) (.cut 2 (.ref (.cut 3 (.ref (.cut 0 (.cut 1 .leaf .leaf) (.ref (.cut 1 .leaf .leaf)))) (.ref (.cut 0 (.ref (.cut 1 (.cut 2 .out .out) .out)) .out)))) (.ref (.cut 3 (.ref (.cut 0 (.ref (.cut 1 (.cut 2 .leaf .out) .out)) .out)) .out))))) (.ref (.cut 1 (.cut 2 (.cut 3 (.cut 0 (.ref (.cut 1 .leaf (.ref .leaf))) .leaf) (.ref (.cut 0 (.ref (.cut 1 (.ref (.cut 2 .out .out)) .out)) .out))) (.cut 3 (.ref (.cut 0 (.ref (.cut 1 (.ref (.cut 2 .leaf .out)) .out)) .out)) .out)) (.cut 2 (.ref (.cut 3 (.ref (.cut 0 (.ref .leaf) .out)) .out)) .out))))))))) (.ref (.cut 2 (.ref (.cut 3 (.ref (.cut 0 (.cut 1 (.ref (.cut 2 (.cut 3 .leaf (.ref .leaf)) (.ref (.cut 3 (.ref .leaf) .leaf)))) (.ref (.cut 2 (.cut 3 .leaf (.ref .leaf)) (.ref (.cut 3 (.ref .leaf) .leaf))))) (.cut 1 (.ref (.cut 2 (.cut 3 .leaf (.ref .leaf)) (.ref (.cut 3 (.ref .leaf) .leaf)))) (.cut 2 (.cut 3 .leaf (.ref .leaf)) (.cut 3 (.ref .leaf) (.ref .leaf)))))) (.ref (.cut 0 (.ref (.cut 1 (.cut 2 .out (.ref (.cut 3 .leaf .out))) (.ref (.cut 2 .out (.ref (.cut 3 (.ref .leaf) .out)))))) (.ref (.cut 1 (.ref (.cut 2 .out (.ref (.cut 3 (.ref .leaf) .out)))) (.ref (.cut 2 .out .out)))))))) (.ref (.cut 3 (.ref (.cut 0 (.ref (.cut 1 (.cut 2 (.ref (.cut 3 (.ref .leaf) (.ref .leaf))) (.cut 3 (.ref .leaf) (.ref (.cut 0 .leaf .out)))) (.ref (.cut 2 (.ref (.cut 3 .leaf .leaf)) (.cut 3 (.ref .leaf) .out))))) (.ref (.cut 1 (.ref (.cut 2 (.ref (.cut 3 .leaf .leaf)) (.cut 3 (.ref .leaf) .out))) (.ref (.cut 2 (.ref (.cut 3 .leaf .out)) .out)))))) (.ref (.cut 0 (.ref (.cut 1 (.cut 2 (.cut 3 (.cut 0 .leaf .out) .out) .out) .out)) .out))))))))
theorem h29 : check par t29 [45056, 40960, 24576, 24576] [4096, 8192, 8192, 8192] st = true := by decide +kernel
def t30 : Tree := (.ref (.cut 2 (.ref (.cut 3 (.ref (.cut 0 .out (.ref (.cut 1 (.ref (.cut 2 (.ref (.cut 3 (.cut 0 .out (.ref (.cut 1 (.ref (.cut 2 (.ref (.cut 3 (.ref .leaf) (.ref .leaf))) (.cut 3 (.ref .leaf) (.ref .leaf)))) .out))) (.ref (.cut 0 .out (.ref (.cut 1 (.ref (.cut 2 .out (.cut 3 .leaf .out))) .out)))))) (.ref (.cut 3 (.ref (.cut 0 .out (.ref (.cut 1 (.ref (.cut 2 (.cut 3 (.ref .leaf) .leaf) (.ref (.cut 3 .leaf (.ref .leaf))))) .out)))) (.ref (.cut 0 .out (.ref (.cut 1 (.ref (.cut 2 (.ref (.cut 3 (.ref .leaf) (.ref .leaf))) (.ref (.cut 3 (.ref .leaf) (.ref .leaf))))) .out)))))))) .out)))) (.ref (.cut 0 .out (.ref (.cut 1 (.ref (.cut 2 .out (.ref (.cut 3 (.ref (.cut 0 .out (.ref (.cut 1 (.cut 2 .out (.cut 3 (.ref .leaf) .out)) .out)))) .out)))) .out)))))) (.ref (.cut 3 (.ref (.cut 0 .out (.ref (.cut 1 (.ref (.cut 2 (.ref (.cut 3 (.ref (.cut 0 .out (.ref (.cut 1 (.ref (.cut 2 (.cut 3 (.cut 0 .out .leaf) .leaf) (.cut 3 (.ref (.cut 0 .out .leaf)) .leaf))) .out)))) (.ref (.cut 0 .out (.ref (.cut 1 (.cut 2 (.ref (.cut 3 (.ref .leaf) (.ref .leaf))) (.cut 3 (.ref .leaf) (.ref .leaf))) .out)))))) (.ref (.cut 3 (.ref (.cut 0 .out (.ref (.cut 1 (.ref (.cut 2 (.ref (.cut 3 (.ref .leaf) .leaf)) (.cut 3 .leaf .leaf))) .out)))) (.ref (.cut 0 .out (.cut 1 (.cut 2 (.ref (.cut 3 (.ref .leaf) .leaf)) (.cut 3 (.ref .leaf) .out)) .out))))))) .out)))) (.ref (.cut 0 .out (.cut 1 (.ref (.cut 2 (.ref (.cut 3 (.ref (.cut 0 .out (.cut 1 (.cut 2 (.cut 3 .leaf (.ref .leaf)) (.ref (.cut 3 (.ref .leaf) .out))) .out))) (.ref (.cut 0 .out .out)))) (.ref (.cut 3 (.ref (.cut 0 .out .out)) .out)))) .out)))))))
theorem h30 : check par t30 [40960, 57344, 16384, 16384] [8192, 8192, 16384, 16384] st = true := by decide +kernel
def t31 : Tree := (.ref (.cut 1 (.ref (.cut 2 (.ref (.cut 3 (.ref (.cut 0 (.ref (.cut 1 (.ref (.cut 2 (.ref (.cut 3 (.ref (.cut 0 (.ref (.cut 1 (.cut 2 (.cut 3 (.ref .leaf) (.ref .leaf)) (.cut 3 (.ref .leaf) (.ref .leaf))) (.cut 2 (.cut 3 (.ref .leaf) (.ref .leaf)) (.cut 3 (.ref .leaf) .leaf)))) (.ref (.cut 1 (.ref (.cut 2 (.cut 3 (.ref .leaf) (.ref .leaf)) (.cut 3 (.ref .leaf) .leaf))) (.cut 2 (.ref (.cut 3 (.ref .leaf) (.ref .leaf))) (.cut 3 (.ref .leaf) (.ref .leaf))))))) (.ref (.cut 0 (.ref (.cut 1 (.cut 2 .out (.ref (.cut 3 (.ref .leaf) .out))) (.ref (.cut 2 .out (.ref (.cut 3 (.ref .leaf) .out)))))) (.cut 1 (.cut 2 .out (.ref (.cut 3 (.ref .leaf) .out))) (.ref (.cut 2 .out (.ref (.cut 3 (.ref .leaf) .out))))))))) (.ref (.cut 3 (.ref (.cut 0 (.ref (.cut 1 (.cut 2 (.ref (.cut 3 (.ref .leaf) (.ref .leaf))) (.ref (.cut 3 (.ref .leaf) (.ref .leaf)))) (.ref (.cut 2 (.cut 3 (.ref .leaf) (.ref .leaf)) (.ref (.cut 3 (.ref .leaf) .leaf)))))) (.cut 1 (.cut 2 (.ref (.cut 3 (.ref .leaf) (.ref .leaf))) (.ref (.cut 3 (.ref .leaf) (.ref .leaf)))) (.ref (.cut 2 (.cut 3 (.ref .leaf) (.ref .leaf)) (.ref (.cut 3 (.ref .leaf) (.ref .leaf)))))))) (.ref (.cut 0 (.ref (.cut 1 (.cut 2 (.ref (.cut 3 .leaf (.ref .leaf))) (.ref (.cut 3 (.ref .leaf) (.ref .leaf)))) (.cut 2 (.ref (.cut 3 (.ref .leaf) (.ref .leaf))) (.ref (.cut 3 (.ref .leaf) (.ref .leaf)))))) (.ref (.cut 1 (.ref (.cut 2 (.ref (.cut 3 (.ref .leaf) (.ref .leaf))) (.ref (.cut 3 (.ref .leaf) (.ref .leaf))))) (.cut 2 (.ref (.cut 3 (.ref .leaf) (.ref .leaf))) (.ref (.cut 3 (.ref .leaf) (.ref .leaf)))))))))))) (.ref (.cut 2 (.ref (.cut 3 (.cut 0 (.ref (.cut 1 (.cut 2 (.cut 3 (.ref .leaf) (.ref .leaf)) (.cut 3 (.ref .leaf) .leaf)) (.cut 2 (.ref (.cut 3 (.ref .leaf) (.ref .leaf))) (.cut 3 (.ref .leaf) (.ref .leaf))))) (.ref (.cut 1 (.ref (.cut 2 (.ref (.cut 3 (.ref .leaf) (.ref .leaf))) (.ref (.cut 3 (.ref .leaf) (.ref .leaf))))) (.cut 2 (.ref (.cut 3 (.ref .leaf) (.ref .leaf))) (.ref .leaf))))) (.ref (.cut 0 (.ref (.cut 1 (.cut 2 .out (.cut 3 (.ref .leaf) .out)) (.cut 2 .out (.cut 3 (.ref .leaf) .out)))) (.cut 1 (.cut 2 .out (.cut 3 (.ref .leaf) .out)) (.ref (.cut 2 .out (.ref (.cut 3 .leaf .out))))))))) (.ref (.cut 3 (.ref (.cut 0 (.ref (.cut 1 (.cut 2 (.cut 3 (.ref .leaf) (.ref .leaf)) (.ref (.cut 3 (.ref .leaf) (.ref .leaf)))) (.cut 2 (.cut 3 (.ref .leaf) (.ref .leaf)) (.ref (.cut 3 .leaf (.ref .leaf)))))) (.cut 1 (.cut 2 (.cut 3 (.ref .leaf) (.ref .leaf)) (.ref (.cut 3 (.ref .leaf) (.ref .leaf)))) (.ref (.cut 2 (.ref (.cut 3 .leaf .leaf)) (.ref (.cut 3 (.ref .leaf) (.ref .leaf)))))))) (.ref (.cut 0 (.cut 1 (.ref (.cut 2 (.ref (.cut 3 (.ref .leaf) (.ref .leaf))) (.ref (.cut 3 (.ref .leaf) (.ref .leaf))))) (.ref (.cut 2 (.ref (.cut 3 (.ref .leaf) (.ref .leaf))) (.ref (.cut 3 (.ref .leaf) (.ref .leaf)))))) (.ref (.cut 1 (.cut 2 (.ref (.cut 3 (.ref .leaf) (.ref .leaf))) (.ref (.cut 3 (.ref .leaf) (.ref .leaf)))) (.ref (.cut 2 (.ref (.cut 3 (.ref .leaf) (.ref .leaf))) (.ref (.cut 3 (.ref .leaf) (.ref .leaf))))))))))))))) (.cut 1 (.cut 2 (.ref (.cut 3 (.ref (.cut 0 (.ref (.cut 1 (.ref (.cut 2 (.ref (.cut 3 (.ref .leaf) (.ref .leaf))) (.ref (.cut 3 (.ref .leaf) (.ref .leaf))))) (.cut 2 (.ref (.cut 3 (.ref .leaf) (.ref .leaf))) (.ref (.cut 3 (.ref .leaf) (.ref .leaf)))))) (.ref (.cut 1 (.ref (.cut 2 (.cut 3 (.ref .leaf) (.ref .leaf)) (.ref (.cut 3 (.ref .leaf) (.ref .leaf))))) (.cut 2 (.ref (.cut 3 (.ref .leaf) (.ref .leaf))) (.ref (.cut 3 (.ref .leaf) (.ref .leaf)))))))) (.ref (.cut 0 (.ref (.cut 1 (.ref (.cut 2 .out (.ref (.cut 3 (.ref .leaf) .out)))) (.ref (.cut 2 .out (.ref (.cut 3 (.ref .leaf) .out)))))) (.ref (.cut 1 (.ref (.cut 2 .out (.ref (.cut 3 (.ref .leaf) .out)))) (.ref (.cut 2 .out (.ref (.cut 3 (.ref .leaf) .out)))))))))) (.ref (.cut 3 (.ref (.cut 0 (.ref (.cut 1 (.ref (.cut 2 (.ref (.cut 3 (.ref .leaf) (.ref .leaf))) (.ref (.cut 3 (.ref .leaf) (.ref (.cut 0 .leaf (.ref .leaf))))))) (.ref (.cut 2 (.cut 3 .leaf (.ref .leaf)) (.ref (.cut 3 .leaf (.ref (.cut 0 .leaf (.ref .leaf))))))))) (.ref (.cut 1 (.ref (.cut 2 (.ref (.cut 3 .leaf (.ref .leaf))) (.cut 3 .leaf (.ref .leaf)))) (.ref (.cut 2 (.ref (.cut 3 .leaf (.ref .leaf))) (.ref (.cut 3 .leaf (.ref .leaf))))))))) (.ref (.cut 0 (.ref (.cut 1 (.ref (.cut 2 (.cut 3 (.ref .leaf) (.ref .leaf)) (.cut 3 (.ref .leaf) (.ref .leaf)))) (.ref (.cut 2 (.cut 3 (.ref .leaf) (.ref (.cut 0 .leaf .leaf))) (.cut 3 (.ref (.cut 0 .leaf .leaf)) (.ref .leaf)))))) (.ref (.cut 1 (.ref (.cut 2 (.ref (.cut 3 .leaf (.ref .leaf))) (.ref (.cut 3 (.ref .leaf) .leaf)))) (.ref (.cut 2 (.cut 3 .leaf (.ref (.cut 0 .leaf .leaf))) (.cut 3 (.ref (.cut 0 .leaf .leaf)) (.ref .leaf))))))))))) (.ref (.cut 2 (.ref (.cut 3 (.ref (.cut 0 (.ref (.cut 1 (.cut 2 (.ref (.cut 3 (.ref .leaf) (.ref .leaf))) (.ref (.cut 3 (.ref .leaf) (.ref .leaf)))) (.cut 2 (.ref .leaf) (.ref (.cut 3 (.ref .leaf) (.ref .leaf)))))) (.ref (.cut 1 (.ref (.cut 2 (.ref (.cut 3 (.ref .leaf) (.ref .leaf))) (.ref (.cut 3 (.ref .leaf) (.ref .leaf))))) (.ref (.cut 2 (.ref .leaf) (.cut 3 (.ref .leaf) (.ref .leaf)))))))) (.ref (.cut 0 (.ref (.cut 1 (.ref (.cut 2 .out (.ref (.cut 3 (.ref .leaf) .out)))) (.ref (.cut 2 .out (.ref (.cut 3 (.ref .leaf) .out)))))) (.ref (.cut 1 (.ref (.cut 2 .out (.ref (.cut 3 (.ref .leaf) .out)))) (.ref (.cut 2 .out (.ref (.cut 3 .leaf .out)))))))))) (.ref (.cut 3 (.ref (.cut 0 (.ref (.cut 1 (.ref (.cut 2 (.ref (.cut 3 .leaf (.ref .leaf))) (.ref (.cut 3 .leaf (.ref .leaf))))) (.ref (.cut 2 (.ref (.cut 3 (.ref .leaf) (.ref .leaf))) (.ref (.cut 3 .leaf .leaf)))))) (.ref (.cut 1 (.ref (.cut 2 (.ref (.cut 3 .leaf (.ref .leaf))) (.ref (.cut 3 .leaf (.ref .leaf))))) (.ref (.cut 2 (.ref (.cut 3 .leaf (.ref .leaf))) (.ref (.cut 3 (.ref .leaf) (.ref .leaf))))))))) (.ref (.cut 0 (.ref (.cut 1 (.ref (.cut 2 (.cut 3 .leaf (.ref (.cut 0 .leaf .leaf))) (.ref (.cut 3 (.ref (.cut 0 .leaf .leaf)) .leaf)))) (.cut 2 (.cut 3 .leaf (.ref .leaf)) (.ref (.cut 3 (.ref .leaf) .leaf))))) (.cut 1 (.ref (.cut 2 (.cut 3 .leaf (.ref (.cut 0 .leaf .leaf))) (.ref (.cut 3 (.ref (.cut 0 .leaf .leaf)) (.cut 0 .leaf .leaf))))) (.cut 2 (.cut 3 .leaf (.ref .leaf)) (.ref (.cut 3 (.ref .leaf) (.ref .leaf)))))))))))))) (.ref (.cut 0 (.ref (.cut 1 (.ref (.cut 2 .out (.ref (.cut 3 (.cut 0 (.cut 1 (.cut 2 .out (.cut 3 (.ref .leaf) .out)) (.cut 2 .out (.cut 3 (.ref .leaf) .out))) (.cut 1 (.ref (.cut 2 .out (.ref (.cut 3 (.ref .leaf) .out)))) (.cut 2 .out (.ref (.cut 3 (.ref .leaf) .out))))) .out)))) (.ref (.cut 2 .out (.ref (.cut 3 (.ref (.cut 0 (.ref (.cut 1 (.cut 2 .out (.cut 3 (.ref .leaf) .out)) (.cut 2 .out (.cut 3 (.ref .leaf) .out)))) (.cut 1 (.cut 2 .out (.ref (.cut 3 (.ref .leaf) .out))) (.ref (.cut 2 .out (.cut 3 (.ref .leaf) .out)))))) .out)))))) (.ref (.cut 1 (.ref (.cut 2 .out (.ref (.cut 3 (.ref (.cut 0 (.ref (.cut 1 (.cut 2 .out (.ref (.cut 3 .leaf .out))) (.cut 2 .out (.ref (.cut 3 (.ref .leaf) .out))))) (.ref (.cut 1 (.cut 2 .out (.ref (.cut 3 .leaf .out))) (.cut 2 .out (.ref (.cut 3 (.ref .leaf) .out))))))) .out)))) (.ref (.cut 2 .out (.ref (.cut 3 (.ref (.cut 0 (.cut 1 (.cut 2 .out (.ref (.cut 3 (.ref .leaf) .out))) (.ref (.cut 2 .out (.ref (.cut 3 (.ref .leaf) .out))))) (.ref (.cut 1 (.ref (.cut 2 .out (.ref (.cut 3 (.ref (.cut 0 .leaf .out)) .out)))) (.ref (.cut 2 .out .out)))))) .out)))))))))) (.ref (.cut 3 (.ref (.cut 0 (.ref (.cut 1 (.ref (.cut 2 (.ref (.cut 3 (.cut 0 (.ref (.cut 1 (.cut 2 (.cut 3 (.ref .leaf) (.ref .leaf)) (.cut 3 (.ref .leaf) (.ref .leaf))) (.cut 2 (.cut 3 (.ref .leaf) (.ref .leaf)) (.ref (.cut 3 (.ref .leaf) .leaf))))) (.ref (.cut 1 (.cut 2 (.ref (.cut 3 (.ref .leaf) (.ref .leaf))) (.ref (.cut 3 (.ref .leaf) (.ref .leaf)))) (.cut 2 (.ref (.cut 3 (.cut 0 (.ref .leaf) (.ref .leaf)) .leaf)) (.ref (.cut 3 (.ref .leaf) .leaf)))))) (.ref (.cut 0 (.cut 1 (.cut 2 (.cut 3 (.ref .leaf) (.ref .leaf)) (.ref (.cut 3 .leaf .leaf))) (.ref (.cut 2 (.ref (.cut 3 (.ref .leaf) .leaf)) (.cut 3 .leaf .leaf)))) (.cut 1 (.ref (.cut 2 (.cut 3 (.ref .leaf) (.ref .leaf)) (.cut 3 (.ref .leaf) (.ref .leaf)))) (.ref (.cut 2 (.ref (.cut 3 (.ref .leaf) (.ref .leaf))) (.cut 3 .leaf (.ref .leaf))))))))) (.ref (.cut 3 (.ref (.cut 0 (.ref (.cut 1 (.cut 2 (.cut 3 (.ref .leaf) (.ref .leaf)) (.cut 3 (.ref .leaf) (.ref .leaf))) (.cut 2 (.cut 3 (.ref .leaf) .leaf) (.cut 3 (.ref .leaf) .leaf)))) (.cut 1 (.ref (.cut 2 (.cut 3 (.ref .leaf) (.ref .leaf)) (.cut 3 (.ref .leaf) (.ref .leaf)))) (.cut 2 (.ref (.cut 3 (.ref .leaf) .leaf)) (.ref (.cut 3 (.ref .leaf) (.ref .leaf))))))) (.ref (.cut 0 (.cut 1 (.cut 2 (.cut 3 (.ref .leaf) (.ref .leaf)) (.ref (.cut 3 (.ref .leaf) .leaf))) (.cut 2 (.cut 3 .leaf (.ref .leaf)) (.ref (.cut 3 (.ref .leaf) .leaf)))) (.cut 1 (.ref (.cut 2 (.cut 3 .leaf (.ref .leaf)) (.ref (.cut 3 (.ref .leaf) .leaf)))) (.cut 2 (.cut 3 .leaf .leaf) (.cut 3 (.ref .leaf) (.ref .leaf)))))))))) (.ref (.cut 2 (.ref (.cut 3 (.ref (.cut 0 (.ref (.cut 1 (.cut 2 (.ref (.cut 3 (.cut 0 .leaf (.ref .leaf)) .leaf)) (.cut 3 (.ref .leaf) (.ref .leaf))) (.ref (.cut 2 (.cut 3 (.cut 0 .leaf .leaf) .leaf) (.cut 3 (.ref (.cut 0 .leaf .leaf)) .leaf))))) (.cut 1 (.cut 2 (.ref (.cut 3 (.cut 0 (.ref .leaf) (.ref .leaf)) .leaf)) (.cut 3 (.ref (.cut 0 (.ref .leaf) .leaf)) (.ref .leaf))) (.ref (.cut 2 (.cut 3 (.ref (.cut 0 .leaf .leaf)) .leaf) (.cut 3 (.ref (.cut 0 .leaf .leaf)) (.cut 0 (.ref .leaf) (.ref .leaf)))))))) (.ref (.cut 0 (.ref (.cut 1 (.cut 2 (.cut 3 (.ref .leaf) (.ref .leaf)) (.cut 3 .leaf .leaf)) (.cut 2 (.ref (.cut 3 (.ref .leaf) (.ref .leaf))) (.cut 3 (.ref .leaf) (.ref .leaf))))) (.cut 1 (.cut 2 (.ref (.cut 3 (.ref .leaf) (.ref .leaf))) (.cut 3 (.ref .leaf) (.ref .leaf))) (.ref (.cut 2 (.cut 3 (.ref .leaf) (.ref .leaf)) (.cut 3 (.ref .leaf) (.ref .leaf))))))))) (.ref (.cut 3 (.ref (.cut 0 (.ref (.cut 1 (.cut 2 (.cut 3 (.ref .leaf) .leaf) (.cut 3 .leaf .leaf)) (.cut 2 (.ref (.cut 3 (.ref .leaf) .leaf)) (.cut 3 .leaf .leaf)))) (.ref (.cut 1 (.cut 2 (.cut 3 (.ref .leaf) (.ref .leaf)) (.cut 3 .leaf (.ref .leaf))) (.cut 2 (.ref (.cut 3 (.ref (.cut 0 (.ref .leaf) .leaf)) (.ref (.cut 0 (.ref .leaf) .leaf)))) (.cut 3 (.ref .leaf) (.ref .leaf))))))) (.ref (.cut 0 (.cut 1 (.ref (.cut 2 (.cut 3 (.ref .leaf) .leaf) (.cut 3 (.ref .leaf) (.ref .leaf)))) (.cut 2 (.ref (.cut 3 (.ref .leaf) .leaf)) (.cut 3 (.ref .leaf) .out))) (.cut 1 (.ref (.cut 2 (.cut 3 .leaf .leaf) (.cut 3 (.ref .leaf) .out))) (.cut 2 (.ref (.cut 3 .leaf .out)) .out)))))))))) (.ref (.cut 1 (.ref (.cut 2 (.ref (.cut 3 (.ref (.cut 0 (.cut 1 (.cut 2 (.ref (.cut 3 (.ref .leaf) (.ref .leaf))) (.ref (.cut 3 (.ref .leaf) (.ref .leaf)))) (.ref (.cut 2 (.ref (.cut 3 (.ref .leaf) (.ref (.cut 0 .leaf .leaf)))) (.cut 3 (.ref .leaf) (.ref .leaf))))) (.cut 1 (.cut 2 (.cut 3 (.ref .leaf) (.ref .leaf)) (.ref (.cut 3 .leaf (.ref .leaf)))) (.ref (.cut 2 (.cut 3 (.ref .leaf) (.ref (.cut 0 (.ref .leaf) .leaf))) (.cut 3 (.ref .leaf) (.ref .leaf))))))) (.ref (.cut 0 (.ref (.cut 1 (.cut 2 (.cut 3 (.ref .leaf) (.ref .leaf)) (.cut 3 (.ref .leaf) (.ref .leaf))) (.cut 2 (.cut 3 (.ref (.cut 0 (.ref .leaf) (.ref .leaf))) (.ref .leaf)) (.cut 3 (.ref .leaf) (.ref .leaf))))) (.ref (.cut 1 (.cut 2 (.ref (.cut 3 (.ref .leaf) .leaf)) (.cut 3 .leaf (.ref .leaf))) (.cut 2 (.ref (.cut 3 (.cut 0 .leaf .leaf) (.ref .leaf))) (.ref (.cut 3 (.ref .leaf) (.ref .leaf)))))))))) (.ref (.cut 3 (.ref (.cut 0 (.cut 1 (.cut 2 (.cut 3 (.ref .leaf) (.ref .leaf)) (.cut 3 .leaf (.ref .leaf))) (.cut 2 (.cut 3 (.ref .leaf) (.ref .leaf)) (.cut 3 (.ref .leaf) (.ref .leaf)))) (.cut 1 (.cut 2 (.cut 3 (.ref .leaf) (.ref .leaf)) (.cut 3 .leaf .leaf)) (.cut 2 (.ref (.cut 3 .leaf .leaf)) (.cut 3 (.ref .leaf) (.ref .leaf)))))) (.ref (.cut 0 (.ref (.cut 1 (.cut 2 (.ref (.cut 3 (.ref .leaf) .leaf)) (.cut 3 (.ref .leaf) (.ref .leaf))) (.cut 2 (.cut 3 .leaf (.ref .leaf)) (.cut 3 (.ref .leaf) .out)))) (.ref (.cut 1 (.cut 2 (.ref (.cut 3 (.ref .leaf) (.ref .leaf))) (.ref (.cut 3 .leaf .out))) (.cut 2 (.ref (.cut 3 .leaf .out)) .out))))))))) (.ref (.cut 2 (.ref (.cut 3 (.cut 0 (.ref (.cut 1 (.ref (.cut 2 (.ref (.cut 3 .leaf (.ref .leaf))) (.cut 3 (.ref .leaf) (.ref .leaf)))) (.ref (.cut 2 (.ref (.cut 3 .leaf (.ref .leaf))) (.ref (.cut 3 (.ref .leaf) .leaf)))))) (.cut 1 (.ref (.cut 2 (.ref (.cut 3 (.ref .leaf) (.ref .leaf))) (.cut 3 (.ref .leaf) (.ref .leaf)))) (.ref (.cut 2 (.cut 3 (.ref .leaf) (.ref .leaf)) (.ref (.cut 3 (.ref .leaf) (.ref .leaf))))))) (.ref (.cut 0 (.cut 1 (.cut 2 (.ref (.cut 3 (.cut 0 .leaf (.ref .leaf)) (.ref .leaf))) (.cut 3 (.ref .leaf) (.ref .leaf))) (.ref (.cut 2 (.cut 3 (.ref .leaf) (.ref .leaf)) (.cut 3 (.ref .leaf) .out)))) (.ref (.cut 1 (.ref (.cut 2 (.ref (.cut 3 (.cut 0 .leaf .leaf) (.cut 0 .leaf .out))) (.cut 3 (.cut 0 (.ref .leaf) .out) .out))) (.ref (.cut 2 (.ref (.cut 3 (.cut 0 .leaf .out) .out)) .out)))))))) (.ref (.cut 3 (.cut 0 (.ref (.cut 1 (.cut 2 (.ref (.cut 3 (.ref .leaf) (.ref .leaf))) (.ref (.cut 3 (.ref .leaf) (.ref .leaf)))) (.ref (.cut 2 (.ref (.cut 3 (.ref (.cut 0 (.ref .leaf) .leaf)) (.ref (.cut 0 .leaf .out)))) (.cut 3 (.ref .leaf) .out))))) (.ref (.cut 1 (.ref (.cut 2 (.cut 3 (.ref .leaf) (.ref .leaf)) (.cut 3 (.ref .leaf) .out))) (.cut 2 (.ref (.cut 3 .leaf .out)) .out)))) (.ref (.cut 0 (.ref (.cut 1 (.cut 2 (.ref (.cut 3 .leaf .out)) .out) .out)) .out)))))))))) (.ref (.cut 0 (.ref (.cut 1 (.ref (.cut 2 (.ref (.cut 3 (.ref (.cut 0 (.cut 1 (.cut 2 (.ref (.cut 3 (.ref .leaf) (.ref .leaf))) (.ref (.cut 3 (.ref .leaf) .leaf))) (.cut 2 (.ref (.cut 3 (.ref .leaf) (.ref .leaf))) (.ref (.cut 3 (.ref .leaf) (.ref .leaf))))) (.cut 1 (.ref (.cut 2 (.cut 3 .leaf (.ref .leaf)) (.ref (.cut 3 (.ref .leaf) .leaf)))) (.cut 2 (.ref (.cut 3 (.ref .leaf) (.ref .leaf))) (.ref (.cut 3 (.ref .leaf) (.ref .leaf))))))) (.ref (.cut 0 (.cut 1 (.cut 2 .out (.ref (.cut 3 (.ref .leaf) .out))) (.ref (.cut 2 .out (.ref (.cut 3 .leaf .out))))) (.ref (.cut 1 (.ref (.cut 2 .out (.cut 3 (.ref .leaf) .out))) (.ref (.cut 2 .out .out)))))))) (.ref (.cut 3 (.ref (.cut 0 (.cut 1 (.cut 2 (.ref (.cut 3 .leaf .leaf)) (.ref (.cut 3 (.ref .leaf) (.ref (.cut 0 .leaf .out))))) (.ref (.cut 2 (.ref (.cut 3 .leaf (.ref .leaf))) (.cut 3 (.ref .leaf) .out)))) (.ref (.cut 1 (.ref (.cut 2 (.ref (.cut 3 (.ref .leaf) .leaf)) (.ref (.cut 3 (.ref .leaf) .out)))) (.ref (.cut 2 (.cut 3 .leaf .out) .out)))))) (.ref (.cut 0 (.cut 1 (.cut 2 (.cut 3 (.ref .leaf) .out) .out) .out) .out)))))) (.ref (.cut 2 (.ref (.cut 3 (.ref (.cut 0 (.cut 1 (.cut 2 (.cut 3 (.ref .leaf) (.ref .leaf)) (.ref (.cut 3 (.ref .leaf) (.ref .leaf)))) (.cut 2 (.cut 3 .leaf (.ref .leaf)) (.ref (.cut 3 (.ref .leaf) .out)))) (.ref (.cut 1 (.cut 2 (.cut 3 .leaf (.ref .leaf)) (.cut 3 (.ref .leaf) .out)) (.cut 2 (.cut 3 (.ref .leaf) .out) .out))))) (.ref (.cut 0 (.cut 1 (.cut 2 .out .out) .out) .out)))) (.ref (.cut 3 (.ref (.cut 0 (.cut 1 (.cut 2 (.ref (.cut 3 .leaf .out)) .out) .out) .out)) .out)))))) (.ref (.cut 1 (.ref (.cut 2 (.ref (.cut 3 (.ref (.cut 0 (.cut 1 (.cut 2 (.cut 3 (.ref .leaf) (.ref .leaf)) (.cut 3 (.ref .leaf) (.ref .leaf))) (.cut 2 (.ref (.cut 3 (.ref .leaf) (.ref .leaf))) (.ref (.cut 3 (.ref .leaf) .out)))) (.cut 1 (.cut 2 (.cut 3 .leaf (.ref .leaf)) (.cut 3 (.ref .leaf) .out)) (.cut 2 (.ref (.cut 3 (.ref .leaf) .out)) .out)))) (.ref (.cut 0 (.cut 1 (.cut 2 .out .out) .out) .out)))) (.ref (.cut 3 (.ref (.cut 0 (.cut 1 (.cut 2 (.ref (.cut 3 (.ref .leaf) .out)) .out) .out) .out)) .out)))) (.cut 2 (.ref (.cut 3 (.cut 0 (.ref (.cut 1 (.cut 2 (.cut 3 (.ref .leaf) .out) .out) .out)) .out) .out)) .out))))))))) (.ref (.cut 2 (.ref (.cut 3 (.ref (.cut 0 (.ref (.cut 1 (.ref (.cut 2 (.ref (.cut 3 (.cut 0 (.ref (.cut 1 (.ref (.cut 2 (.ref .leaf) (.ref .leaf))) (.ref (.cut 2 (.ref .leaf) (.ref .leaf))))) (.ref (.cut 1 (.ref (.cut 2 (.ref .leaf) (.ref .leaf))) (.ref (.cut 2 (.ref .leaf) .leaf))))) (.ref (.cut 0 (.ref (.cut 1 (.ref (.cut 2 .out (.cut 3 .leaf .out))) (.ref (.cut 2 .out (.ref (.cut 3 (.ref .leaf) .out)))))) (.ref (.cut 1 (.ref (.cut 2 .out (.ref (.cut 3 (.ref .leaf) .out)))) (.cut 2 .out (.cut 3 (.ref .leaf) .out)))))))) (.ref (.cut 3 (.ref (.cut 0 (.ref (.cut 1 (.ref (.cut 2 (.cut 3 .leaf .leaf) (.ref (.cut 3 .leaf (.ref .leaf))))) (.ref (.cut 2 (.ref (.cut 3 (.ref .leaf) (.ref .leaf))) (.ref (.cut 3 (.ref .leaf) .leaf)))))) (.ref (.cut 1 (.ref (.cut 2 (.cut 3 (.ref .leaf) (.ref .leaf)) (.ref (.cut 3 (.ref .leaf) .leaf)))) (.cut 2 .leaf (.ref (.cut 3 .leaf .leaf))))))) (.ref (.cut 0 (.ref (.cut 1 (.ref (.cut 2 (.ref (.cut 3 (.ref .leaf) (.ref .leaf))) (.ref (.cut 3 (.ref .leaf) (.ref .leaf))))) (.ref (.cut 2 (.ref (.cut 3 .leaf (.ref .leaf))) (.ref (.cut 3 (.ref .leaf) .leaf)))))) (.ref (.cut 1 (.ref (.cut 2 (.ref (.cut 3 .leaf (.ref .leaf))) (.ref (.cut 3 (.ref .leaf) .leaf)))) (.ref (.cut 2 (.cut 3 .leaf (.ref .leaf)) (.ref .leaf))))))))))) (.ref (.cut 2 (.ref (.cut 3 (.ref (.cut 0 .out (.ref (.cut 1 (.ref .leaf) .out)))) (.ref (.cut 0 .out (.ref (.cut 1 (.ref (.cut 2 .out (.ref (.cut 3 (.ref .leaf) .out)))) .out)))))) (.ref (.cut 3 (.ref (.cut 0 .out (.ref (.cut 1 (.ref (.cut 2 (.ref .leaf) (.ref .leaf))) .out)))) (.ref (.cut 0 .out (.cut 1 (.cut 2 (.cut 3 (.ref .leaf) (.ref .leaf)) (.ref (.cut 3 (.ref .leaf) .out))) .out))))))))) (.ref (.cut 1 (.ref (.cut 2 (.ref (.cut 3 (.ref (.cut 0 (.ref (.cut 1 (.cut 2 (.ref .leaf) .leaf) (.ref .leaf))) (.ref (.cut 1 (.ref (.cut 2 (.ref .leaf) (.ref .leaf))) (.ref .leaf))))) (.ref (.cut 0 (.ref (.cut 1 (.ref (.cut 2 .out (.ref (.cut 3 (.ref .leaf) .out)))) (.ref (.cut 2 .out (.ref (.cut 3 (.ref .leaf) .out)))))) (.ref (.cut 1 (.ref (.cut 2 .out (.ref (.cut 3 (.ref .leaf) .out)))) (.ref (.cut 2 .out (.ref (.cut 3 (.ref .leaf) .out)))))))))) (.ref (.cut 3 (.ref (.cut 0 (.ref (.cut 1 (.ref (.cut 2 (.ref .leaf) (.ref (.cut 3 (.ref .leaf) .leaf)))) (.ref (.cut 2 (.ref .leaf) (.ref .leaf))))) (.ref (.cut 1 (.ref (.cut 2 (.ref (.cut 3 (.ref .leaf) (.ref .leaf))) (.ref (.cut 3 .leaf (.ref .leaf))))) (.ref (.cut 2 (.ref .leaf) (.ref .leaf))))))) (.ref (.cut 0 (.cut 1 (.ref (.cut 2 (.cut 3 (.ref .leaf) (.ref .leaf)) (.ref (.cut 3 (.ref .leaf) (.ref .leaf))))) (.cut 2 (.cut 3 (.ref .leaf) (.ref .leaf)) (.ref (.cut 3 (.ref .leaf) .out)))) (.ref (.cut 1 (.ref (.cut 2 (.cut 3 .leaf (.ref .leaf)) (.ref (.cut 3 (.ref .leaf) .out)))) (.cut 2 (.cut 3 .leaf .out) .out))))))))) (.ref (.cut 2 (.ref (.cut 3 (.ref (.cut 0 (.ref .leaf) (.ref .leaf))) (.ref (.cut 0 (.cut 1 (.cut 2 .out (.ref .leaf)) (.ref (.cut 2 .out (.ref .leaf)))) (.ref (.cut 1 (.ref (.cut 2 .out (.ref .leaf))) (.ref .leaf))))))) (.ref (.cut 3 (.ref (.cut 0 (.cut 1 (.cut 2 (.ref .leaf) (.ref .leaf)) (.ref (.cut 2 (.ref .leaf) (.ref .leaf)))) (.ref (.cut 1 (.ref (.cut 2 (.ref .leaf) (.ref .leaf))) (.ref .leaf))))) (.ref (.cut 0 (.ref (.cut 1 (.ref (.cut 2 .leaf .out)) .out)) .out)))))))))) (.ref (.cut 0 (.ref (.cut 1 (.ref (.cut 2 .out (.ref (.cut 3 (.ref (.cut 0 (.ref (.cut 1 (.ref (.cut 2 .out (.cut 3 (.ref .leaf) .out))) (.ref (.cut 2 .out (.ref (.cut 3 (.ref .leaf) .out)))))) (.cut 1 (.ref (.cut 2 .out (.ref (.cut 3 (.ref .leaf) .out)))) (.cut 2 .out .out)))) .out)))) (.ref (.cut 2 .out (.ref (.cut 3 (.ref (.cut 0 .out .out)) .out)))))) (.ref (.cut 1 (.ref (.cut 2 .out (.ref (.cut 3 (.ref (.cut 0 (.cut 1 (.ref (.cut 2 .out .out)) .out) .out)) .out)))) (.ref (.cut 2 .out .out)))))))) (.ref (.cut 3 (.ref (.cut 0 (.ref (.cut 1 (.ref (.cut 2 (.ref (.cut 3 (.ref (.cut 0 (.ref (.cut 1 (.ref (.cut 2 (.cut 3 .leaf .leaf) (.cut 3 (.ref (.cut 0 .leaf .leaf)) .leaf))) (.ref (.cut 2 (.cut 3 .leaf (.ref .leaf)) (.ref (.cut 3 (.ref (.cut 0 .out .leaf)) (.cut 0 .out .leaf))))))) (.cut 1 (.ref (.cut 2 (.cut 3 .leaf (.ref .leaf)) (.ref (.cut 3 (.ref (.cut 0 .leaf .leaf)) (.cut 0 .leaf .leaf))))) (.cut 2 (.cut 3 .leaf (.ref .leaf)) (.ref (.cut 3 (.ref .leaf) (.ref .leaf))))))) (.ref (.cut 0 (.ref (.cut 1 (.ref (.cut 2 (.cut 3 (.ref .leaf) (.ref .leaf)) (.cut 3 (.ref .leaf) .leaf))) (.ref (.cut 2 (.ref (.cut 3 (.ref .leaf) (.ref .leaf))) (.cut 3 (.ref .leaf) .out))))) (.cut 1 (.ref (.cut 2 (.ref (.cut 3 (.ref .leaf) (.ref .leaf))) (.cut 3 (.ref .leaf) .out))) (.cut 2 (.ref (.cut 3 (.ref .leaf) .out)) .out)))))) (.ref (.cut 3 (.ref (.cut 0 (.ref (.cut 1 (.ref (.cut 2 (.cut 3 (.ref .leaf) (.ref .leaf)) (.cut 3 (.ref .leaf) .leaf))) (.ref (.cut 2 (.cut 3 (.cut 0 .out (.ref .leaf)) (.cut 0 .out .out)) (.cut 3 (.ref .leaf) .out))))) (.ref (.cut 1 (.ref (.cut 2 (.cut 3 (.cut 0 (.ref .leaf) (.ref .leaf)) (.cut 0 (.ref .leaf) .out)) (.cut 3 (.ref .leaf) .out))) (.ref (.cut 2 (.cut 3 (.ref .leaf) .out) .out)))))) (.ref (.cut 0 (.ref (.cut 1 (.ref (.cut 2 (.cut 3 (.ref .leaf) .out) .out)) .out)) .out)))))) (.ref (.cut 2 (.ref (.cut 3 (.cut 0 .out (.ref (.cut 1 (.ref (.cut 2 (.ref (.cut 3 (.ref .leaf) (.ref .leaf))) (.ref (.cut 3 (.ref .leaf) .out)))) .out))) (.ref (.cut 0 .out .out)))) (.ref (.cut 3 (.ref (.cut 0 .out .out)) .out)))))) (.ref (.cut 1 (.ref (.cut 2 (.ref (.cut 3 (.cut 0 (.ref (.cut 1 (.ref (.cut 2 (.cut 3 (.ref .leaf) (.ref .leaf)) (.ref (.cut 3 (.ref .leaf) (.ref .leaf))))) (.cut 2 (.ref (.cut 3 (.ref .leaf) (.ref .leaf))) (.ref (.cut 3 (.ref .leaf) .out))))) (.ref (.cut 1 (.ref (.cut 2 (.cut 3 (.ref .leaf) (.ref .leaf)) (.ref (.cut 3 (.ref .leaf) .out)))) (.ref (.cut 2 (.cut 3 (.ref .leaf) .out) .out))))) (.ref (.cut 0 (.cut 1 (.ref (.cut 2 (.ref (.cut 3 .leaf .out)) .out)) .out) .out)))) (.ref (.cut 3 (.ref (.cut 0 (.ref (.cut 1 (.ref (.cut 2 (.ref (.cut 3 (.ref .leaf) .out)) .out)) .out)) .out)) .out)))) (.ref (.cut 2 (.cut 3 (.cut 0 (.ref (.cut 1 (.ref (.cut 2 (.ref (.cut 3 (.ref .leaf) .out)) .out)) .out)) .out) .out) .out)))))) (.ref (.cut 0 (.ref (.cut 1 (.ref (.cut 2 (.ref (.cut 3 (.ref (.cut 0 (.ref (.cut 1 (.ref (.cut 2 (.ref (.cut 3 (.ref .leaf) .out)) .out)) .out)) .out)) .out)) .out)) .out)) .out))))))))
theorem h31 : check par t31 [57344, 49152, 16384, 16384] [8192, 16384, 16384, 16384] st = true := by decide +kernel
def t32 : Tree := (.ref (.cut 0 (.ref (.cut 1 (.ref (.cut 2 .out (.ref (.cut 3 (.ref (.cut 0 (.ref (.cut 1 (.ref (.cut 2 .out (.ref (.cut 3 (.ref (.cut 0 (.cut 1 (.cut 2 .out (.ref (.cut 3 (.ref (.cut 0 (.cut 1 (.cut 2 .out (.cut 3 (.cut 0 (.cut 1 (.cut 2 .out .leaf) (.ref (.cut 2 .out .leaf))) (.ref (.cut 1 (.ref (.cut 2 .out .leaf)) .leaf))) .out)) (.ref (.cut 2 .out (.cut 3 (.ref (.cut 0 .out .out)) .out)))) (.ref (.cut 1 (.ref (.cut 2 .out (.cut 3 (.ref (.cut 0 (.cut 1 (.cut 2 .out .out) .out) .out)) .out))) (.cut 2 .out .out))))) .out))) (.ref (.cut 2 .out (.ref (.cut 3 (.ref (.cut 0 .out .out)) .out))))) (.ref (.cut 1 (.ref (.cut 2 .out (.ref (.cut 3 (.ref (.cut 0 (.cut 1 (.ref (.cut 2 .out .out)) .out) .out)) .out)))) (.cut 2 .out .out))))) .out)))) (.ref (.cut 2 .out (.ref (.cut 3 (.ref (.cut 0 .out .out)) .out)))))) (.ref (.cut 1 (.ref (.cut 2 .out (.ref (.cut 3 (.ref (.cut 0 (.ref (.cut 1 (.ref (.cut 2 .out .out)) .out)) .out)) .out)))) (.ref (.cut 2 .out .out)))))) .out)))) (.ref (.cut 2 .out (.ref (.cut 3 (.ref (.cut 0 .out .out)) .out)))))) (.ref (.cut 1 (.ref (.cut 2 .out (.ref (.cut 3 (.ref (.cut 0 (.ref (.cut 1 (.ref (.cut 2 .out .out)) .out)) .out)) .out)))) (.ref (.cut 2 .out .out))))))
theorem h32 : check par t32 [49152, 49152, 16384, 49152] [16384, 16384, 16384, 16384] st = true := by decide +kernel
end FastNoise.RangeCheck.Super4
