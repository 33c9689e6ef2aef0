import Verif.RangeCertSuper4
/-! Generated by tools/rangecert/gen.py: a certificate for the checker `Verif.RangeCheck`. -/
namespace FastNoise.RangeCheck.Super4
set_option maxRecDepth 1000000
def t0 : Tree := (.ref (.cut 1 (.ref (.cut 2 (.ref (.cut 3 (.ref (.cut 0 (.ref (.cut 1 (.ref (.cut 2 (.ref (.cut 3 (.ref .leaf) (.ref .leaf))) (.ref (.cut 3 (.ref .leaf) (.ref (.cut 0 (.ref (.cut 1 .out (.ref .leaf))) (.ref (.cut 1 .out (.ref .leaf))))))))) (.ref (.cut 2 (.ref (.cut 3 (.ref .leaf) (.ref (.cut 0 .out (.ref (.cut 1 (.ref .leaf) .out)))))) (.ref (.cut 3 (.ref (.cut 0 .out (.ref (.cut 1 (.ref .leaf) .out)))) (.ref (.cut 0 .out (.ref .leaf))))))))) (.ref (.cut 1 (.ref (.cut 2 (.ref (.cut 3 (.ref .leaf) (.ref (.cut 0 (.ref .leaf) (.ref .leaf))))) (.ref (.cut 3 (.ref (.cut 0 (.ref .leaf) (.ref .leaf))) (.ref (.cut 0 (.ref (.cut 1 .out (.ref .leaf))) (.ref .leaf))))))) (.ref (.cut 2 (.ref (.cut 3 (.ref (.cut 0 (.ref .leaf) (.ref .leaf))) (.ref (.cut 0 (.ref (.cut 1 (.ref .leaf) (.ref .leaf))) (.ref .leaf))))) (.ref (.cut 3 (.ref (.cut 0 (.ref (.cut 1 (.ref .leaf) (.ref .leaf))) (.ref .leaf))) (.ref (.cut 0 (.ref .leaf) (.ref .leaf))))))))))) (.ref (.cut 0 (.ref (.cut 1 (.ref (.cut 2 .out (.ref (.cut 3 (.cut 0 (.ref (.cut 1 .out (.ref (.cut 2 .out .out)))) (.ref (.cut 1 .out (.ref .leaf)))) .out)))) (.ref (.cut 2 .out (.ref (.cut 3 (.ref (.cut 0 .out (.ref (.cut 1 (.ref .leaf) .out)))) .out)))))) (.ref (.cut 1 (.ref (.cut 2 .out (.ref (.cut 3 (.ref (.cut 0 (.ref (.cut 1 .out .leaf)) (.ref (.cut 1 .out (.ref .leaf))))) .out)))) (.ref (.cut 2 .out (.ref (.cut 3 (.ref (.cut 0 (.ref (.cut 1 (.ref .leaf) (.ref .leaf))) (.ref (.cut 1 (.ref .leaf) (.ref .leaf))))) .out)))))))))) (.ref (.cut 3 (.ref (.cut 0 (.ref (.cut 1 .out (.ref (.cut 2 (.ref (.cut 3 (.ref (.cut 0 .out (.ref (.cut 1 .out .out)))) (.ref (.cut 0 .out (.ref (.cut 1 .out .out)))))) .out)))) (.ref (.cut 1 .out (.ref (.cut 2 (.ref (.cut 3 (.ref (.cut 0 (.ref (.cut 1 .out (.ref (.cut 2 (.ref .leaf) .out)))) (.ref (.cut 1 .out (.ref (.cut 2 .leaf .out)))))) (.ref (.cut 0 (.ref (.cut 1 .out (.ref .leaf))) (.ref (.cut 1 .out (.ref .leaf))))))) .out)))))) (.ref (.cut 0 (.ref (.cut 1 .out (.ref (.cut 2 (.ref (.cut 3 (.ref (.cut 0 .out (.cut 1 .out .out))) (.ref (.cut 0 .out (.cut 1 .out .out))))) .out)))) (.ref (.cut 1 .out (.ref (.cut 2 (.ref (.cut 3 (.ref (.cut 0 (.ref (.cut 1 .out (.ref (.cut 2 (.ref .leaf) .out)))) (.ref (.cut 1 .out (.cut 2 .leaf .out))))) (.ref (.cut 0 (.ref (.cut 1 .out (.ref (.cut 2 .out .out)))) (.ref (.cut 1 .out (.cut 2 .out .out))))))) .out)))))))))) (.ref (.cut 2 (.ref (.cut 3 (.ref (.cut 0 .out (.ref (.cut 1 (.ref (.cut 2 (.ref (.cut 3 (.ref (.cut 0 .out (.ref (.cut 1 (.ref .leaf) .out)))) (.ref (.cut 0 .out (.ref (.cut 1 .leaf .out)))))) (.ref (.cut 3 (.ref (.cut 0 .out (.ref (.cut 1 .leaf .out)))) (.ref (.cut 0 .out (.ref (.cut 1 (.ref .leaf) .out)))))))) .out)))) (.ref (.cut 0 .out (.ref (.cut 1 (.ref (.cut 2 .out (.ref (.cut 3 (.ref (.cut 0 .out (.ref (.cut 1 .leaf .out)))) .out)))) .out)))))) (.ref (.cut 3 (.ref (.cut 0 .out (.ref (.cut 1 (.ref (.cut 2 (.ref (.cut 3 (.ref (.cut 0 .out (.ref (.cut 1 (.cut 2 (.ref .leaf) (.ref .leaf)) .out)))) (.ref (.cut 0 .out (.ref (.cut 1 .leaf .out)))))) (.ref (.cut 3 (.ref (.cut 0 .out (.ref (.cut 1 .out .out)))) (.ref (.cut 0 .out (.ref (.cut 1 .out .out)))))))) .out)))) (.ref (.cut 0 .out (.cut 1 (.ref (.cut 2 (.ref (.cut 3 (.ref (.cut 0 .out (.cut 1 (.ref (.cut 2 (.ref .leaf) (.ref .leaf))) .out))) (.ref (.cut 0 .out (.ref (.cut 1 (.ref (.cut 2 .out (.ref (.cut 3 (.ref .leaf) .out)))) .out)))))) (.ref (.cut 3 (.ref (.cut 0 .out (.ref (.cut 1 .out .out)))) (.ref (.cut 0 .out (.cut 1 .out .out))))))) .out)))))))))
theorem h0 : check par t0 [8192, 16384, 16384, 16384] [8192, 16384, 16384, 16384] st = true := by decide +kernel
def t1 : Tree := (.ref (.cut 2 (.ref (.cut 3 (.ref (.cut 0 (.ref (.cut 1 (.ref (.cut 2 (.ref (.cut 3 (.ref (.cut 0 .leaf (.cut 1 (.ref .leaf) (.ref .leaf)))) (.ref (.cut 0 (.ref (.cut 1 (.ref .leaf) (.ref .leaf))) (.ref (.cut 1 (.ref (.cut 2 .out (.ref .leaf))) (.ref (.cut 2 .out (.ref .leaf))))))))) (.ref (.cut 3 (.ref (.cut 0 (.ref (.cut 1 .out (.ref .leaf))) (.ref (.cut 1 .out (.ref (.cut 2 (.ref .leaf) .out)))))) (.ref (.cut 0 (.cut 1 .out (.ref .leaf)) (.ref (.cut 1 .out .leaf)))))))) (.ref (.cut 2 (.ref (.cut 3 (.ref (.cut 0 (.ref (.cut 1 .leaf (.ref .leaf))) (.ref (.cut 1 (.ref .leaf) (.ref (.cut 2 (.ref .leaf) (.ref .leaf))))))) (.ref (.cut 0 (.cut 1 (.ref .leaf) (.ref .leaf)) (.ref (.cut 1 (.ref (.cut 2 .out .leaf)) (.ref (.cut 2 .out (.ref .leaf))))))))) (.ref (.cut 3 (.ref (.cut 0 (.cut 1 (.ref .leaf) (.ref .leaf)) (.ref (.cut 1 (.ref (.cut 2 .leaf (.ref .leaf))) (.ref (.cut 2 (.ref .leaf) (.ref .leaf))))))) (.ref (.cut 0 (.ref .leaf) (.ref (.cut 1 (.ref .leaf) (.ref .leaf))))))))))) (.ref (.cut 1 (.ref (.cut 2 (.ref (.cut 3 (.ref (.cut 0 (.ref (.cut 1 (.ref (.cut 2 (.ref .leaf) (.ref .leaf))) (.ref (.cut 2 (.ref .leaf) (.ref .leaf))))) (.cut 1 (.ref (.cut 2 (.ref (.cut 3 (.ref .leaf) (.ref .leaf))) (.ref (.cut 3 (.ref .leaf) (.ref .leaf))))) (.ref (.cut 2 (.ref (.cut 3 (.ref .leaf) (.ref .leaf))) (.ref .leaf)))))) (.ref (.cut 0 (.cut 1 (.ref (.cut 2 .out (.ref .leaf))) (.ref (.cut 2 .out (.ref .leaf)))) (.ref (.cut 1 (.ref (.cut 2 .out (.ref (.cut 3 (.ref .leaf) .out)))) (.ref (.cut 2 .out .leaf)))))))) (.ref (.cut 3 (.ref (.cut 0 (.cut 1 .out (.ref (.cut 2 (.ref .leaf) .out))) (.ref (.cut 1 .out (.ref (.cut 2 (.ref (.cut 3 (.ref .leaf) .leaf)) .out)))))) (.ref (.cut 0 (.ref (.cut 1 .out (.ref (.cut 2 (.ref .leaf) .out)))) (.ref (.cut 1 .out (.cut 2 (.ref .leaf) .out))))))))) (.ref (.cut 2 (.ref (.cut 3 (.ref (.cut 0 (.cut 1 (.ref (.cut 2 (.ref .leaf) .leaf)) (.ref (.cut 2 (.ref .leaf) (.ref .leaf)))) (.ref (.cut 1 (.ref (.cut 2 (.ref (.cut 3 (.ref .leaf) (.ref .leaf))) (.ref (.cut 3 (.ref .leaf) .leaf)))) (.ref (.cut 2 (.ref (.cut 3 (.ref .leaf) (.ref .leaf))) (.ref (.cut 3 (.ref .leaf) .leaf)))))))) (.ref (.cut 0 (.ref (.cut 1 (.ref (.cut 2 .out (.ref .leaf))) (.ref (.cut 2 .out (.ref .leaf))))) (.ref (.cut 1 (.ref (.cut 2 .out (.ref .leaf))) (.ref (.cut 2 .out .leaf)))))))) (.ref (.cut 3 (.ref (.cut 0 (.ref (.cut 1 (.ref (.cut 2 (.ref .leaf) (.ref .leaf))) (.ref (.cut 2 (.ref .leaf) (.ref .leaf))))) (.ref (.cut 1 (.ref (.cut 2 (.ref (.cut 3 (.ref .leaf) (.ref .leaf))) (.ref (.cut 3 (.ref .leaf) .leaf)))) (.ref (.cut 2 (.ref (.cut 3 (.ref .leaf) .leaf)) (.ref (.cut 3 .leaf .leaf)))))))) (.ref (.cut 0 (.ref (.cut 1 (.ref .leaf) (.ref .leaf))) (.cut 1 (.ref (.cut 2 (.ref .leaf) (.ref .leaf))) (.ref (.cut 2 (.ref .leaf) (.ref .leaf)))))))))))))) (.ref (.cut 0 (.ref (.cut 1 (.ref (.cut 2 .out (.ref (.cut 3 (.ref (.cut 0 (.cut 1 .out (.ref (.cut 2 .out .out))) (.ref (.cut 1 .out (.ref (.cut 2 .out .out)))))) .out)))) (.ref (.cut 2 .out (.ref (.cut 3 (.ref (.cut 0 (.ref (.cut 1 (.ref (.cut 2 .out (.ref .leaf))) (.ref .leaf))) (.ref (.cut 1 (.ref (.cut 2 .out (.ref .leaf))) (.ref (.cut 2 .out (.ref .leaf))))))) .out)))))) (.ref (.cut 1 (.ref (.cut 2 .out (.ref (.cut 3 (.ref (.cut 0 (.cut 1 .out (.cut 2 .out .out)) (.cut 1 .out (.ref (.cut 2 .out .out))))) .out)))) (.ref (.cut 2 .out (.ref (.cut 3 (.ref (.cut 0 (.ref (.cut 1 (.ref (.cut 2 .out (.ref .leaf))) (.ref (.cut 2 .out (.ref .leaf))))) (.ref (.cut 1 (.cut 2 .out (.ref (.cut 3 (.ref .leaf) .out))) (.cut 2 .out (.ref .leaf)))))) .out)))))))))) (.ref (.cut 3 (.ref (.cut 0 (.ref (.cut 1 .out (.ref (.cut 2 (.ref (.cut 3 (.ref (.cut 0 (.cut 1 .out (.ref (.cut 2 (.ref .leaf) .out))) (.ref (.cut 1 .out (.ref (.cut 2 (.ref .leaf) .out)))))) (.ref (.cut 0 (.ref (.cut 1 .out (.ref .leaf))) (.ref (.cut 1 .out (.ref (.cut 2 (.ref .leaf) .out)))))))) .out)))) (.ref (.cut 1 .out (.ref (.cut 2 (.ref (.cut 3 (.ref (.cut 0 (.cut 1 .out (.ref (.cut 2 (.ref .leaf) .out))) (.cut 1 .out (.ref (.cut 2 (.ref (.cut 3 .leaf (.ref .leaf))) .out))))) (.ref (.cut 0 (.ref (.cut 1 .out (.ref (.cut 2 (.ref .leaf) .out)))) (.ref (.cut 1 .out (.cut 2 (.ref .leaf) .out))))))) .out)))))) (.ref (.cut 0 (.ref (.cut 1 .out (.ref (.cut 2 (.ref (.cut 3 (.ref (.cut 0 (.ref (.cut 1 .out (.cut 2 (.ref .leaf) .out))) (.ref (.cut 1 .out (.cut 2 (.ref .leaf) .out))))) (.ref (.cut 0 (.ref (.cut 1 .out (.ref (.cut 2 .out .out)))) (.ref (.cut 1 .out (.ref (.cut 2 .out .out)))))))) .out)))) (.ref (.cut 1 .out (.cut 2 (.ref (.cut 3 (.ref (.cut 0 (.ref (.cut 1 .out (.ref (.cut 2 (.ref (.cut 3 .leaf (.ref .leaf))) .out)))) (.ref (.cut 1 .out (.ref (.cut 2 (.cut 3 .leaf (.ref .leaf)) .out)))))) (.ref (.cut 0 (.cut 1 .out (.ref (.cut 2 .out .out))) (.cut 1 .out (.ref (.cut 2 .out .out))))))) .out)))))))))
theorem h1 : check par t1 [24576, 8192, 16384, 16384] [8192, 8192, 16384, 16384] st = true := by decide +kernel
def t2 : Tree := (.ref (.cut 3 (.ref (.cut 0 (.ref (.cut 1 (.ref (.cut 2 (.ref (.cut 3 (.ref (.cut 0 (.ref (.cut 1 (.cut 2 (.ref .leaf) (.ref .leaf)) (.ref (.cut 2 (.ref .leaf) (.ref .leaf))))) (.ref (.cut 1 (.ref (.cut 2 (.ref .leaf) (.ref .leaf))) (.cut 2 (.ref .leaf) (.ref .leaf)))))) (.ref (.cut 0 (.cut 1 (.ref .leaf) (.ref (.cut 2 .out (.ref .leaf)))) (.ref (.cut 1 (.ref (.cut 2 .out (.ref .leaf))) (.ref (.cut 2 .out .leaf)))))))) (.ref (.cut 3 (.ref (.cut 0 (.cut 1 (.ref .leaf) (.ref (.cut 2 (.ref .leaf) (.ref .leaf)))) (.ref (.cut 1 (.ref (.cut 2 (.ref .leaf) (.ref .leaf))) (.ref (.cut 2 (.ref .leaf) (.ref .leaf))))))) (.ref (.cut 0 (.ref (.cut 1 (.ref .leaf) (.ref .leaf))) (.ref (.cut 1 (.ref .leaf) (.ref (.cut 2 (.ref .leaf) (.ref .leaf))))))))))) (.ref (.cut 2 (.ref (.cut 3 (.ref (.cut 0 .out (.ref (.cut 1 (.cut 2 (.cut 3 (.ref .leaf) (.ref .leaf)) (.cut 3 (.ref .leaf) (.ref .leaf))) .out)))) (.ref (.cut 0 .out (.cut 1 (.cut 2 .out (.ref .leaf)) .out))))) (.ref (.cut 3 (.ref (.cut 0 .out (.cut 1 (.cut 2 (.ref .leaf) (.ref .leaf)) .out))) (.ref (.cut 0 .out (.ref (.cut 1 (.ref (.cut 2 (.ref .leaf) (.ref .leaf))) .out)))))))))) (.ref (.cut 1 (.ref (.cut 2 (.ref (.cut 3 (.ref (.cut 0 (.ref (.cut 1 (.cut 2 (.ref (.cut 3 .leaf (.ref .leaf))) (.ref (.cut 3 (.ref .leaf) (.ref .leaf)))) (.cut 2 (.ref (.cut 3 .leaf (.ref .leaf))) (.ref (.cut 3 (.ref .leaf) (.ref .leaf)))))) (.ref (.cut 1 (.ref (.cut 2 (.cut 3 (.ref .leaf) (.ref .leaf)) (.ref (.cut 3 (.ref .leaf) .leaf)))) (.ref (.cut 2 (.cut 3 (.ref .leaf) (.ref .leaf)) (.cut 3 (.ref .leaf) (.ref .leaf)))))))) (.ref (.cut 0 (.cut 1 (.cut 2 .out (.ref .leaf)) (.cut 2 .out (.ref .leaf))) (.cut 1 (.cut 2 .out (.ref .leaf)) (.ref (.cut 2 .out (.cut 3 (.ref .leaf) .out)))))))) (.ref (.cut 3 (.ref (.cut 0 (.cut 1 (.cut 2 (.ref .leaf) (.ref .leaf)) (.cut 2 (.ref .leaf) (.ref .leaf))) (.cut 1 (.cut 2 (.ref (.cut 3 (.ref .leaf) .leaf)) (.ref (.cut 3 .leaf (.ref .leaf)))) (.ref (.cut 2 (.cut 3 (.ref .leaf) (.ref .leaf)) (.ref (.cut 3 (.ref .leaf) (.ref .leaf)))))))) (.ref (.cut 0 (.ref (.cut 1 (.ref (.cut 2 (.ref .leaf) (.ref .leaf))) (.ref (.cut 2 (.ref .leaf) (.ref .leaf))))) (.ref (.cut 1 (.ref (.cut 2 .leaf (.ref .leaf))) (.cut 2 (.ref (.cut 3 (.ref .leaf) (.ref .leaf))) (.ref (.cut 3 (.ref .leaf) (.ref .leaf)))))))))))) (.ref (.cut 2 (.ref (.cut 3 (.ref (.cut 0 (.cut 1 (.cut 2 (.ref (.cut 3 (.ref .leaf) (.ref .leaf))) (.cut 3 (.ref .leaf) (.ref .leaf))) (.ref (.cut 2 (.ref (.cut 3 (.ref .leaf) (.ref .leaf))) (.ref (.cut 3 (.ref .leaf) (.ref .leaf)))))) (.cut 1 (.ref (.cut 2 (.ref (.cut 3 (.ref .leaf) (.ref .leaf))) (.ref (.cut 3 (.ref .leaf) (.ref .leaf))))) (.ref (.cut 2 (.cut 3 (.ref .leaf) (.ref .leaf)) (.cut 3 (.ref .leaf) (.ref .leaf))))))) (.ref (.cut 0 (.ref (.cut 1 (.ref (.cut 2 .out .leaf)) (.ref (.cut 2 .out (.ref (.cut 3 .leaf .out)))))) (.ref (.cut 1 (.ref (.cut 2 .out (.ref (.cut 3 .leaf .out)))) (.ref (.cut 2 .out (.ref .leaf))))))))) (.ref (.cut 3 (.ref (.cut 0 (.ref (.cut 1 (.ref (.cut 2 .leaf (.ref (.cut 3 (.ref .leaf) .leaf)))) (.ref (.cut 2 (.ref (.cut 3 (.ref .leaf) (.ref .leaf))) (.ref (.cut 3 (.ref .leaf) (.ref .leaf))))))) (.ref (.cut 1 (.ref (.cut 2 (.ref (.cut 3 (.ref .leaf) (.ref .leaf))) (.ref (.cut 3 (.ref .leaf) (.ref .leaf))))) (.ref (.cut 2 (.cut 3 (.ref .leaf) (.ref .leaf)) (.ref (.cut 3 (.ref .leaf) .leaf)))))))) (.ref (.cut 0 (.ref (.cut 1 (.cut 2 (.cut 3 .leaf (.ref .leaf)) (.ref .leaf)) (.ref (.cut 2 (.cut 3 .leaf (.ref .leaf)) (.cut 3 (.ref .leaf) (.ref .leaf)))))) (.ref (.cut 1 (.ref (.cut 2 (.cut 3 .leaf (.ref .leaf)) (.cut 3 (.ref .leaf) (.ref .leaf)))) (.cut 2 (.cut 3 .leaf (.ref .leaf)) (.cut 3 (.ref .leaf) .leaf)))))))))))))) (.ref (.cut 0 (.ref (.cut 1 (.ref (.cut 2 .out (.ref (.cut 3 (.ref (.cut 0 (.ref (.cut 1 (.ref (.cut 2 .out .leaf)) (.ref (.cut 2 .out (.ref .leaf))))) (.ref (.cut 1 (.ref (.cut 2 .out (.ref .leaf))) (.ref (.cut 2 .out (.ref (.cut 3 (.ref .leaf) .out)))))))) .out)))) (.ref (.cut 2 .out (.cut 3 (.ref (.cut 0 .out (.ref (.cut 1 (.ref (.cut 2 .out (.cut 3 (.ref .leaf) .out))) .out)))) .out))))) (.ref (.cut 1 (.ref (.cut 2 .out (.cut 3 (.ref (.cut 0 (.ref (.cut 1 (.ref (.cut 2 .out (.cut 3 .leaf .out))) (.ref (.cut 2 .out (.cut 3 (.ref .leaf) .out))))) (.ref (.cut 1 (.ref (.cut 2 .out (.cut 3 .leaf .out))) (.ref (.cut 2 .out (.ref (.cut 3 (.ref .leaf) .out)))))))) .out))) (.ref (.cut 2 .out (.ref (.cut 3 (.ref (.cut 0 (.cut 1 (.cut 2 .out (.ref (.cut 3 (.ref .leaf) .out))) (.ref (.cut 2 .out (.cut 3 (.ref .leaf) .out)))) (.cut 1 (.ref (.cut 2 .out (.cut 3 (.ref .leaf) .out))) (.ref (.cut 2 .out (.ref (.cut 3 (.ref .leaf) .out))))))) .out))))))))))
theorem h2 : check par t2 [24576, 24576, 8192, 16384] [8192, 8192, 8192, 16384] st = true := by decide +kernel
def t3 : Tree := (.ref (.cut 3 (.ref (.cut 0 (.ref (.cut 1 (.ref (.cut 2 (.ref (.cut 3 (.ref (.cut 0 (.cut 1 (.cut 2 (.ref .leaf) (.ref .leaf)) (.ref (.cut 2 (.ref .leaf) (.ref .leaf)))) (.ref (.cut 1 (.ref (.cut 2 (.ref .leaf) (.ref .leaf))) (.ref (.cut 2 (.ref .leaf) (.ref (.cut 3 (.ref .leaf) .leaf)))))))) (.ref (.cut 0 (.ref (.cut 1 (.ref (.cut 2 (.ref .leaf) (.ref .leaf))) (.ref (.cut 2 (.ref .leaf) (.ref .leaf))))) (.ref (.cut 1 (.ref (.cut 2 (.ref .leaf) (.ref .leaf))) (.ref (.cut 2 (.ref .leaf) (.ref (.cut 3 (.ref .leaf) .leaf)))))))))) (.ref (.cut 3 (.ref (.cut 0 (.ref (.cut 1 .out (.ref (.cut 2 (.cut 3 .leaf (.ref .leaf)) .out)))) (.cut 1 .out (.ref (.cut 2 (.ref (.cut 3 .leaf .leaf)) .out))))) (.ref (.cut 0 (.ref (.cut 1 .out (.ref (.cut 2 (.cut 3 (.ref .leaf) (.ref .leaf)) .out)))) (.ref (.cut 1 .out (.ref (.cut 2 (.ref (.cut 3 (.ref .leaf) (.ref .leaf))) .out)))))))))) (.ref (.cut 2 (.ref (.cut 3 (.ref (.cut 0 .out (.cut 1 (.ref (.cut 2 (.ref (.cut 3 .leaf (.ref .leaf))) (.ref (.cut 3 .leaf .leaf)))) .out))) (.ref (.cut 0 .out (.ref (.cut 1 (.ref (.cut 2 (.ref (.cut 3 (.ref .leaf) (.ref .leaf))) (.ref (.cut 3 (.ref .leaf) (.ref .leaf))))) .out)))))) (.ref (.cut 3 (.ref (.cut 0 .out (.ref (.cut 1 (.cut 2 (.cut 3 .leaf (.ref .leaf)) (.ref (.cut 3 .leaf (.ref .leaf)))) .out)))) (.cut 0 .out (.ref (.cut 1 (.cut 2 (.cut 3 (.ref .leaf) (.cut 0 .out (.ref .leaf))) (.ref (.cut 3 (.ref (.cut 0 .out .leaf)) (.cut 0 .out (.ref (.cut 1 .out .out)))))) .out))))))))) (.ref (.cut 1 (.ref (.cut 2 (.ref (.cut 3 (.ref (.cut 0 (.cut 1 (.ref (.cut 2 .leaf (.ref (.cut 3 .leaf (.ref .leaf))))) (.ref (.cut 2 (.ref (.cut 3 .leaf (.ref .leaf))) (.ref (.cut 3 .leaf .leaf))))) (.ref (.cut 1 (.cut 2 (.cut 3 (.ref .leaf) (.ref .leaf)) (.ref (.cut 3 .leaf (.ref .leaf)))) (.cut 2 (.ref (.cut 3 .leaf (.ref .leaf))) (.ref (.cut 3 (.ref .leaf) (.ref .leaf)))))))) (.ref (.cut 0 (.ref (.cut 1 (.ref (.cut 2 .leaf (.ref (.cut 3 (.ref .leaf) (.ref .leaf))))) (.ref (.cut 2 (.ref (.cut 3 (.ref .leaf) (.ref .leaf))) (.ref (.cut 3 (.ref .leaf) (.ref .leaf))))))) (.ref (.cut 1 (.ref (.cut 2 (.cut 3 (.ref .leaf) .leaf) (.ref (.cut 3 (.ref .leaf) .leaf)))) (.ref (.cut 2 (.ref (.cut 3 (.ref .leaf) .leaf)) (.ref (.cut 3 .leaf (.cut 0 .leaf .leaf))))))))))) (.ref (.cut 3 (.ref (.cut 0 (.ref (.cut 1 .out (.cut 2 (.cut 3 .leaf (.ref .leaf)) .out))) (.cut 1 .out (.ref (.cut 2 (.ref (.cut 3 .leaf (.ref .leaf))) .out))))) (.cut 0 (.cut 1 .out (.ref (.cut 2 (.cut 3 (.ref .leaf) (.cut 0 (.ref .leaf) (.ref .leaf))) .out))) (.cut 1 .out (.ref (.cut 2 (.ref (.cut 3 (.ref (.cut 0 .leaf .leaf)) (.cut 0 .leaf .leaf))) .out)))))))) (.ref (.cut 2 (.ref (.cut 3 (.ref (.cut 0 (.ref (.cut 1 (.cut 2 (.cut 3 .leaf .leaf) (.cut 3 .leaf (.ref .leaf))) (.ref (.cut 2 (.ref (.cut 3 .leaf .leaf)) (.cut 3 .leaf (.ref .leaf)))))) (.cut 1 (.ref (.cut 2 (.ref (.cut 3 .leaf .leaf)) (.cut 3 .leaf (.ref .leaf)))) (.cut 2 (.ref (.cut 3 (.ref .leaf) (.ref .leaf))) (.ref (.cut 3 .leaf .leaf)))))) (.cut 0 (.cut 1 (.cut 2 (.ref (.cut 3 (.ref .leaf) (.ref .leaf))) (.ref (.cut 3 (.ref .leaf) (.cut 0 (.ref .leaf) (.ref .leaf))))) (.ref (.cut 2 (.cut 3 (.ref .leaf) (.ref .leaf)) (.cut 3 (.ref (.cut 0 .out .leaf)) (.cut 0 .out (.cut 1 (.ref .leaf) .out)))))) (.cut 1 (.ref (.cut 2 (.cut 3 (.ref .leaf) (.ref .leaf)) (.cut 3 (.ref (.cut 0 .leaf .leaf)) (.cut 0 (.ref .leaf) (.ref .leaf))))) (.ref (.cut 2 (.ref (.cut 3 .leaf (.ref .leaf))) (.cut 3 (.ref .leaf) (.ref (.cut 0 (.cut 1 .leaf (.ref .leaf)) (.cut 1 (.ref .leaf) (.ref .leaf))))))))))) (.ref (.cut 3 (.ref (.cut 0 (.ref (.cut 1 (.cut 2 (.cut 3 (.ref .leaf) (.ref .leaf)) (.ref (.cut 3 (.ref .leaf) (.ref .leaf)))) (.ref (.cut 2 (.ref (.cut 3 (.ref .leaf) (.ref .leaf))) (.ref (.cut 3 .leaf (.ref .leaf))))))) (.ref (.cut 1 (.ref (.cut 2 (.ref (.cut 3 (.ref .leaf) (.ref .leaf))) (.ref (.cut 3 .leaf (.ref .leaf))))) (.cut 2 (.ref (.cut 3 .leaf (.ref .leaf))) (.ref (.cut 3 (.ref .leaf) .leaf))))))) (.ref (.cut 0 (.ref (.cut 1 (.cut 2 (.cut 3 .leaf (.cut 0 (.ref .leaf) (.ref .leaf))) (.ref (.cut 3 (.cut 0 (.ref .leaf) .leaf) (.ref (.cut 0 (.cut 1 .out (.ref .leaf)) (.cut 1 .out .leaf)))))) (.ref (.cut 2 (.ref (.cut 3 (.cut 0 .out .leaf) (.ref (.cut 0 .out (.cut 1 .leaf .out))))) (.cut 3 (.cut 0 .out (.ref .leaf)) (.ref (.cut 0 .out (.cut 1 .leaf .out)))))))) (.ref (.cut 1 (.ref (.cut 2 (.ref (.cut 3 (.cut 0 .leaf (.ref .leaf)) (.ref (.cut 0 .leaf .leaf)))) (.cut 3 (.cut 0 (.ref .leaf) (.ref .leaf)) (.ref (.cut 0 (.cut 1 .out .leaf) (.cut 1 .out .leaf)))))) (.cut 2 (.ref (.cut 3 (.cut 0 .leaf .leaf) (.cut 0 (.cut 1 (.ref .leaf) (.ref .leaf)) (.cut 1 (.ref .leaf) (.ref .leaf))))) (.cut 3 .leaf (.cut 0 (.cut 1 (.ref .leaf) (.ref .leaf)) (.cut 1 (.ref .leaf) (.ref .leaf))))))))))))))))) (.ref (.cut 0 (.cut 1 (.ref (.cut 2 (.ref (.cut 3 (.ref (.cut 0 (.ref (.cut 1 (.ref (.cut 2 (.ref .leaf) (.ref .leaf))) (.ref (.cut 2 (.ref .leaf) (.ref (.cut 3 (.ref .leaf) (.ref .leaf))))))) (.ref (.cut 1 (.ref (.cut 2 (.ref .leaf) (.ref (.cut 3 (.ref .leaf) (.ref .leaf))))) (.ref (.cut 2 (.ref (.cut 3 (.ref .leaf) (.ref .leaf))) (.ref (.cut 3 (.ref .leaf) .leaf)))))))) (.ref (.cut 0 (.cut 1 (.cut 2 .out (.ref (.cut 3 (.ref .leaf) .out))) (.ref (.cut 2 .out (.ref (.cut 3 .leaf .out))))) (.cut 1 (.ref (.cut 2 .out (.ref (.cut 3 .leaf .out)))) (.cut 2 .out (.cut 3 (.ref (.cut 0 .leaf .leaf)) .out))))))) (.ref (.cut 3 (.ref (.cut 0 (.cut 1 .out (.ref (.cut 2 (.ref (.cut 3 (.ref .leaf) (.ref .leaf))) .out))) (.cut 1 .out (.cut 2 (.ref (.cut 3 (.ref .leaf) (.ref (.cut 0 .leaf .leaf)))) .out)))) (.ref (.cut 0 (.ref (.cut 1 .out (.ref (.cut 2 (.ref (.cut 3 (.ref (.cut 0 .out .leaf)) (.ref (.cut 0 .out (.ref (.cut 1 .out .out)))))) .out)))) (.ref (.cut 1 .out (.ref (.cut 2 (.ref (.cut 3 (.ref (.cut 0 .leaf .leaf)) (.ref (.cut 0 (.ref (.cut 1 .out (.ref .leaf))) (.cut 1 .out .leaf))))) .out)))))))))) (.ref (.cut 2 (.ref (.cut 3 (.ref (.cut 0 .out (.cut 1 (.ref (.cut 2 (.ref (.cut 3 (.ref .leaf) (.ref .leaf))) (.ref (.cut 3 (.ref .leaf) (.ref (.cut 0 .out .leaf)))))) .out))) (.ref (.cut 0 .out (.ref (.cut 1 (.ref (.cut 2 .out (.ref (.cut 3 (.ref (.cut 0 .out .leaf)) .out)))) .out)))))) (.ref (.cut 3 (.ref (.cut 0 .out (.ref (.cut 1 (.ref (.cut 2 (.ref (.cut 3 (.ref (.cut 0 .out .leaf)) (.cut 0 .out .leaf))) (.ref (.cut 3 (.ref (.cut 0 .out (.cut 1 .out .out))) (.ref (.cut 0 .out (.cut 1 .out .out))))))) .out)))) (.ref (.cut 0 .out (.ref (.cut 1 (.cut 2 (.ref (.cut 3 (.ref (.cut 0 .out (.cut 1 (.ref .leaf) .out))) (.ref (.cut 0 .out (.cut 1 (.ref (.cut 2 .out (.ref .leaf))) .out))))) (.ref (.cut 3 (.ref (.cut 0 .out (.cut 1 .out .out))) (.ref (.cut 0 .out (.cut 1 .out .out)))))) .out))))))))) (.ref (.cut 1 (.ref (.cut 2 (.ref (.cut 3 (.ref (.cut 0 (.cut 1 (.ref (.cut 2 (.cut 3 (.ref .leaf) (.ref .leaf)) (.ref (.cut 3 (.ref .leaf) (.ref .leaf))))) (.ref (.cut 2 (.ref (.cut 3 (.ref .leaf) (.ref .leaf))) (.ref (.cut 3 (.ref .leaf) (.ref (.cut 0 .leaf .leaf))))))) (.cut 1 (.cut 2 (.cut 3 (.ref .leaf) (.ref .leaf)) (.ref (.cut 3 (.ref .leaf) (.ref (.cut 0 .leaf .leaf))))) (.cut 2 (.ref (.cut 3 (.ref .leaf) (.ref (.cut 0 .leaf .leaf)))) (.cut 3 (.ref (.cut 0 .leaf .leaf)) (.cut 0 (.ref .leaf) (.ref .leaf))))))) (.ref (.cut 0 (.ref (.cut 1 (.ref (.cut 2 .out (.ref (.cut 3 (.ref (.cut 0 .leaf .leaf)) .out)))) (.ref (.cut 2 .out (.ref (.cut 3 (.ref (.cut 0 (.ref .leaf) .leaf)) .out)))))) (.ref (.cut 1 (.ref (.cut 2 .out (.ref (.cut 3 (.ref (.cut 0 (.ref .leaf) (.cut 1 .out (.ref .leaf)))) .out)))) (.ref (.cut 2 .out (.ref (.cut 3 (.ref (.cut 0 (.ref (.cut 1 (.ref .leaf) .leaf)) (.cut 1 (.ref .leaf) (.ref .leaf)))) .out)))))))))) (.ref (.cut 3 (.ref (.cut 0 (.ref (.cut 1 .out (.ref (.cut 2 (.ref (.cut 3 (.ref (.cut 0 .leaf .leaf)) (.cut 0 (.ref .leaf) .leaf))) .out)))) (.ref (.cut 1 .out (.ref (.cut 2 (.ref (.cut 3 (.ref (.cut 0 (.ref .leaf) (.cut 1 .out .leaf))) (.ref (.cut 0 (.ref (.cut 1 .out .leaf)) (.cut 1 .out (.ref .leaf)))))) .out)))))) (.ref (.cut 0 (.ref (.cut 1 .out (.ref (.cut 2 (.ref (.cut 3 (.ref (.cut 0 (.cut 1 .out (.ref .leaf)) (.ref (.cut 1 .out (.cut 2 (.ref .leaf) .out))))) (.ref (.cut 0 (.ref (.cut 1 .out (.cut 2 .out .out))) (.ref (.cut 1 .out (.ref (.cut 2 .out .out)))))))) .out)))) (.ref (.cut 1 .out (.ref (.cut 2 (.ref (.cut 3 (.ref (.cut 0 (.cut 1 .out (.ref (.cut 2 .leaf .out))) (.ref (.cut 1 .out (.cut 2 (.ref .leaf) .out))))) (.ref (.cut 0 (.cut 1 .out (.cut 2 .out .out)) (.cut 1 .out (.cut 2 .out .out)))))) .out)))))))))) (.ref (.cut 2 (.ref (.cut 3 (.ref (.cut 0 (.ref (.cut 1 (.ref (.cut 2 (.cut 3 .leaf (.ref (.cut 0 .leaf .leaf))) (.cut 3 (.ref (.cut 0 .leaf .leaf)) (.cut 0 (.ref .leaf) .leaf)))) (.ref (.cut 2 (.ref (.cut 3 (.ref .leaf) (.ref (.cut 0 .out (.ref (.cut 1 .leaf .out)))))) (.ref (.cut 3 (.ref (.cut 0 .out (.ref (.cut 1 .leaf .out)))) (.ref (.cut 0 .out (.ref (.cut 1 .leaf .out)))))))))) (.ref (.cut 1 (.ref (.cut 2 (.ref (.cut 3 (.ref .leaf) (.ref (.cut 0 (.ref .leaf) (.cut 1 .leaf (.ref .leaf)))))) (.ref (.cut 3 (.ref (.cut 0 (.ref .leaf) (.cut 1 .leaf (.ref .leaf)))) (.ref (.cut 0 (.ref (.cut 1 .leaf .leaf)) (.cut 1 .leaf (.ref .leaf)))))))) (.ref (.cut 2 (.ref (.cut 3 (.ref (.cut 0 .leaf .leaf)) (.ref (.cut 0 (.cut 1 .leaf (.ref .leaf)) (.ref (.cut 1 (.ref .leaf) .leaf)))))) (.cut 3 (.ref (.cut 0 (.cut 1 .leaf (.ref .leaf)) (.ref (.cut 1 (.ref .leaf) .leaf)))) (.ref (.cut 0 (.cut 1 .leaf (.ref .leaf)) (.cut 1 (.ref .leaf) .leaf)))))))))) (.ref (.cut 0 (.ref (.cut 1 (.cut 2 .out (.ref (.cut 3 (.ref (.cut 0 (.cut 1 (.ref .leaf) (.ref .leaf)) (.ref (.cut 1 (.ref .leaf) (.ref .leaf))))) .out))) (.ref (.cut 2 .out (.ref (.cut 3 (.ref (.cut 0 .out (.ref (.cut 1 (.ref (.cut 2 .out (.ref (.cut 3 .leaf .out)))) .out)))) .out)))))) (.ref (.cut 1 (.ref (.cut 2 .out (.ref (.cut 3 (.ref (.cut 0 (.cut 1 (.ref (.cut 2 .out (.ref .leaf))) (.ref (.cut 2 .out (.ref (.cut 3 .leaf .out))))) (.ref (.cut 1 (.ref (.cut 2 .out .leaf)) (.ref (.cut 2 .out (.cut 3 (.ref .leaf) .out))))))) .out)))) (.ref (.cut 2 .out (.ref (.cut 3 (.ref (.cut 0 (.cut 1 (.cut 2 .out (.cut 3 .leaf .out)) (.ref (.cut 2 .out (.cut 3 .leaf .out)))) (.cut 1 (.ref (.cut 2 .out (.cut 3 .leaf .out))) (.cut 2 .out (.cut 3 (.ref .leaf) .out))))) .out)))))))))) (.ref (.cut 3 (.ref (.cut 0 (.ref (.cut 1 (.cut 2 (.ref (.cut 3 (.ref (.cut 0 (.ref (.cut 1 (.ref .leaf) (.ref .leaf))) (.ref (.cut 1 (.ref .leaf) (.ref .leaf))))) (.ref (.cut 0 (.cut 1 (.ref .leaf) (.ref .leaf)) (.ref (.cut 1 (.ref .leaf) (.ref .leaf))))))) (.ref (.cut 3 (.ref (.cut 0 (.ref (.cut 1 .out (.cut 2 (.ref .leaf) .out))) (.ref (.cut 1 .out (.ref (.cut 2 .leaf .out)))))) (.cut 0 (.ref (.cut 1 .out (.ref (.cut 2 (.ref .leaf) .out)))) (.ref (.cut 1 .out (.ref (.cut 2 (.ref .leaf) .out)))))))) (.ref (.cut 2 (.ref (.cut 3 (.ref (.cut 0 .out (.ref (.cut 1 (.ref (.cut 2 (.ref .leaf) .leaf)) .out)))) (.cut 0 .out (.ref (.cut 1 (.ref (.cut 2 (.ref .leaf) (.ref .leaf))) .out))))) (.ref (.cut 3 (.ref (.cut 0 .out (.ref (.cut 1 (.ref (.cut 2 (.ref .leaf) (.ref .leaf))) .out)))) (.ref (.cut 0 .out (.cut 1 (.cut 2 (.ref (.cut 3 (.ref .leaf) .leaf)) (.ref (.cut 3 .leaf .leaf))) .out))))))))) (.ref (.cut 1 (.ref (.cut 2 (.ref (.cut 3 (.ref (.cut 0 (.ref (.cut 1 .leaf (.cut 2 (.ref .leaf) .leaf))) (.cut 1 (.ref (.cut 2 (.ref .leaf) .leaf)) (.ref (.cut 2 .leaf (.ref .leaf)))))) (.cut 0 (.cut 1 (.ref (.cut 2 (.ref .leaf) (.ref .leaf))) (.ref (.cut 2 (.ref .leaf) (.ref .leaf)))) (.ref (.cut 1 (.ref (.cut 2 (.ref .leaf) (.ref .leaf))) (.ref (.cut 2 (.ref .leaf) (.ref (.cut 3 (.ref .leaf) .leaf))))))))) (.ref (.cut 3 (.ref (.cut 0 (.ref (.cut 1 .out (.ref (.cut 2 (.ref .leaf) .out)))) (.ref (.cut 1 .out (.ref (.cut 2 (.ref .leaf) .out)))))) (.ref (.cut 0 (.cut 1 .out (.cut 2 (.ref (.cut 3 (.ref .leaf) .leaf)) .out)) (.cut 1 .out (.cut 2 (.ref (.cut 3 .leaf .leaf)) .out)))))))) (.ref (.cut 2 (.ref (.cut 3 (.ref (.cut 0 (.ref (.cut 1 (.ref (.cut 2 .leaf (.ref .leaf))) (.ref (.cut 2 (.ref .leaf) (.ref .leaf))))) (.ref (.cut 1 (.ref (.cut 2 (.ref .leaf) (.ref .leaf))) (.ref (.cut 2 .leaf (.ref .leaf))))))) (.ref (.cut 0 (.cut 1 (.cut 2 .leaf (.ref (.cut 3 (.ref .leaf) .leaf))) (.ref (.cut 2 .leaf (.cut 3 .leaf .leaf)))) (.cut 1 (.ref (.cut 2 .leaf (.cut 3 .leaf .leaf))) (.cut 2 (.ref .leaf) (.cut 3 .leaf (.cut 0 .leaf .leaf)))))))) (.cut 3 (.ref (.cut 0 (.cut 1 (.ref (.cut 2 .leaf (.ref .leaf))) (.ref (.cut 2 (.ref .leaf) (.ref .leaf)))) (.cut 1 (.ref (.cut 2 (.ref .leaf) (.ref .leaf))) (.cut 2 (.ref .leaf) .leaf)))) (.ref (.cut 0 (.ref (.cut 1 (.ref (.cut 2 (.cut 3 .leaf .leaf) (.ref (.cut 3 .leaf (.cut 0 .leaf .leaf))))) (.ref (.cut 2 (.ref (.cut 3 .leaf (.cut 0 .out .leaf))) (.cut 3 (.ref .leaf) (.cut 0 .out (.ref (.cut 1 .leaf .out)))))))) (.ref (.cut 1 (.ref (.cut 2 (.ref (.cut 3 .leaf (.cut 0 .leaf .leaf))) (.cut 3 (.ref .leaf) (.cut 0 (.ref .leaf) (.cut 1 .out (.ref .leaf)))))) (.ref (.cut 2 (.ref (.cut 3 (.ref .leaf) (.cut 0 (.ref .leaf) (.cut 1 (.ref .leaf) .leaf)))) (.ref (.cut 3 .leaf (.cut 0 (.cut 1 .leaf (.ref .leaf)) (.cut 1 (.ref .leaf) .leaf))))))))))))))))) (.ref (.cut 0 (.ref (.cut 1 (.ref (.cut 2 (.ref (.cut 3 (.cut 0 (.cut 1 .leaf (.ref (.cut 2 (.ref .leaf) (.ref .leaf)))) (.cut 1 (.ref (.cut 2 (.ref .leaf) (.ref .leaf))) (.cut 2 (.ref .leaf) .leaf))) (.ref (.cut 0 (.cut 1 (.cut 2 .out (.ref .leaf)) (.ref (.cut 2 .out (.ref (.cut 3 .leaf .out))))) (.cut 1 (.ref (.cut 2 .out (.ref (.cut 3 .leaf .out)))) (.cut 2 .out (.cut 3 .leaf .out))))))) (.ref (.cut 3 (.ref (.cut 0 (.cut 1 .out (.ref (.cut 2 (.cut 3 (.ref .leaf) (.ref .leaf)) .out))) (.cut 1 .out (.cut 2 (.cut 3 (.ref .leaf) .leaf) .out)))) (.ref (.cut 0 (.ref (.cut 1 .out (.ref (.cut 2 (.ref (.cut 3 .leaf (.ref (.cut 0 .out .leaf)))) .out)))) (.ref (.cut 1 .out (.ref (.cut 2 (.ref (.cut 3 (.ref .leaf) (.ref (.cut 0 (.ref .leaf) .leaf)))) .out)))))))))) (.ref (.cut 2 (.ref (.cut 3 (.ref (.cut 0 .out (.cut 1 (.cut 2 (.ref (.cut 3 (.ref .leaf) (.ref .leaf))) (.cut 3 (.ref .leaf) .leaf)) .out))) (.ref (.cut 0 .out (.ref (.cut 1 (.ref (.cut 2 .out (.cut 3 (.ref .leaf) .out))) .out)))))) (.ref (.cut 3 (.ref (.cut 0 .out (.ref (.cut 1 (.ref (.cut 2 (.ref (.cut 3 (.ref .leaf) .leaf)) (.ref (.cut 3 (.ref (.cut 0 .out .leaf)) (.cut 0 .out .leaf))))) .out)))) (.ref (.cut 0 .out (.cut 1 (.cut 2 (.cut 3 .leaf (.ref (.cut 0 .out (.cut 1 .leaf .out)))) (.ref (.cut 3 (.ref (.cut 0 .out (.cut 1 .out .out))) (.ref (.cut 0 .out (.cut 1 .out .out)))))) .out))))))))) (.cut 1 (.ref (.cut 2 (.ref (.cut 3 (.ref (.cut 0 (.cut 1 (.cut 2 .leaf (.ref (.cut 3 (.ref .leaf) (.ref .leaf)))) (.cut 2 (.ref (.cut 3 (.ref .leaf) (.ref .leaf))) (.cut 3 (.ref .leaf) .leaf))) (.cut 1 (.cut 2 .leaf (.ref (.cut 3 (.ref .leaf) (.ref .leaf)))) (.cut 2 (.ref (.cut 3 (.ref .leaf) (.ref .leaf))) (.cut 3 (.ref .leaf) .leaf))))) (.ref (.cut 0 (.ref (.cut 1 (.ref (.cut 2 .out (.ref (.cut 3 .leaf .out)))) (.ref (.cut 2 .out (.cut 3 (.ref .leaf) .out))))) (.ref (.cut 1 (.ref (.cut 2 .out (.ref (.cut 3 (.ref (.cut 0 .leaf .leaf)) .out)))) (.cut 2 .out (.ref (.cut 3 (.ref (.cut 0 .leaf .leaf)) .out))))))))) (.ref (.cut 3 (.ref (.cut 0 (.ref (.cut 1 .out (.ref (.cut 2 (.ref (.cut 3 (.ref .leaf) .leaf)) .out)))) (.ref (.cut 1 .out (.cut 2 (.ref (.cut 3 (.ref (.cut 0 .leaf .leaf)) (.cut 0 .leaf .leaf))) .out))))) (.ref (.cut 0 (.cut 1 .out (.cut 2 (.cut 3 .leaf (.ref (.cut 0 (.cut 1 .out .leaf) (.ref (.cut 1 .out .leaf))))) .out)) (.cut 1 .out (.cut 2 (.ref (.cut 3 (.ref (.cut 0 .leaf (.ref (.cut 1 .out .leaf)))) (.ref (.cut 0 (.cut 1 .out .leaf) (.cut 1 .out (.cut 2 .out .out)))))) .out)))))))) (.ref (.cut 2 (.ref (.cut 3 (.ref (.cut 0 (.ref (.cut 1 (.ref (.cut 2 (.cut 3 .leaf (.ref .leaf)) (.cut 3 (.ref .leaf) .leaf))) (.ref (.cut 2 (.ref (.cut 3 (.ref .leaf) (.ref (.cut 0 .out .leaf)))) (.ref (.cut 3 (.ref (.cut 0 .out .leaf)) (.cut 0 .out (.ref .leaf)))))))) (.ref (.cut 1 (.ref (.cut 2 (.ref (.cut 3 (.ref .leaf) (.ref (.cut 0 .leaf .leaf)))) (.ref (.cut 3 (.ref (.cut 0 .leaf .leaf)) (.cut 0 .leaf .leaf))))) (.ref (.cut 2 (.ref (.cut 3 (.ref .leaf) (.ref (.cut 0 (.ref .leaf) .leaf)))) (.cut 3 (.ref (.cut 0 (.ref .leaf) .leaf)) (.ref (.cut 0 .leaf (.ref .leaf)))))))))) (.ref (.cut 0 (.cut 1 (.cut 2 .out (.cut 3 .leaf .out)) (.ref (.cut 2 .out (.cut 3 (.ref (.cut 0 .out (.ref (.cut 1 (.ref .leaf) .out)))) .out)))) (.cut 1 (.ref (.cut 2 .out (.cut 3 (.ref (.cut 0 .leaf (.ref (.cut 1 .leaf (.cut 2 .out .leaf))))) .out))) (.ref (.cut 2 .out (.cut 3 (.ref (.cut 0 (.cut 1 .leaf (.ref (.cut 2 .out .leaf))) (.cut 1 (.ref (.cut 2 .out .leaf)) (.cut 2 .out .leaf)))) .out)))))))) (.ref (.cut 3 (.ref (.cut 0 (.cut 1 (.cut 2 (.cut 3 (.ref .leaf) .leaf) (.ref (.cut 3 (.ref (.cut 0 (.ref (.cut 1 .out .leaf)) (.ref (.cut 1 .out (.ref .leaf))))) (.cut 0 (.cut 1 .out (.ref .leaf)) (.ref (.cut 1 .out (.cut 2 (.ref .leaf) .out))))))) (.ref (.cut 2 (.ref (.cut 3 (.ref (.cut 0 .out (.ref (.cut 1 (.ref .leaf) .out)))) (.cut 0 .out (.ref (.cut 1 (.ref .leaf) .out))))) (.ref (.cut 3 (.cut 0 .out (.cut 1 (.ref (.cut 2 .leaf (.ref .leaf))) .out)) (.cut 0 .out (.cut 1 (.cut 2 .leaf (.ref .leaf)) .out))))))) (.cut 1 (.ref (.cut 2 (.ref (.cut 3 (.ref (.cut 0 (.ref .leaf) (.cut 1 (.ref .leaf) (.ref .leaf)))) (.cut 0 .leaf (.ref (.cut 1 .leaf (.cut 2 (.ref .leaf) .leaf)))))) (.ref (.cut 3 (.cut 0 (.cut 1 .out (.ref (.cut 2 .leaf .out))) (.cut 1 .out (.cut 2 (.ref .leaf) .out))) (.cut 0 (.cut 1 .out (.cut 2 .leaf .out)) (.cut 1 .out (.cut 2 (.ref .leaf) .out))))))) (.ref (.cut 2 (.ref (.cut 3 (.cut 0 (.cut 1 .leaf (.ref (.cut 2 .leaf (.ref .leaf)))) (.cut 1 (.ref (.cut 2 .leaf (.ref .leaf))) (.cut 2 .leaf .leaf))) (.cut 0 (.cut 1 .leaf (.ref (.cut 2 .leaf .leaf))) (.cut 1 (.ref (.cut 2 .leaf .leaf)) (.cut 2 .leaf .leaf))))) (.cut 3 (.ref (.cut 0 (.cut 1 (.cut 2 .leaf (.ref .leaf)) (.ref (.cut 2 (.ref .leaf) .leaf))) (.cut 1 (.ref (.cut 2 (.ref .leaf) .leaf)) (.cut 2 (.ref .leaf) .leaf)))) (.cut 0 (.ref (.cut 1 (.ref (.cut 2 .leaf (.ref .leaf))) (.ref (.cut 2 (.ref .leaf) .leaf)))) (.ref (.cut 1 (.ref (.cut 2 (.ref .leaf) .leaf)) (.ref (.cut 2 (.ref .leaf) (.ref .leaf)))))))))))) (.cut 0 (.cut 1 (.cut 2 (.cut 3 .leaf (.ref (.cut 0 .leaf .leaf))) (.ref (.cut 3 (.ref (.cut 0 .leaf .leaf)) (.ref (.cut 0 (.ref .leaf) .leaf))))) (.ref (.cut 2 (.ref (.cut 3 (.ref (.cut 0 .out .leaf)) (.ref (.cut 0 .out .leaf)))) (.ref (.cut 3 (.ref (.cut 0 .out .leaf)) (.ref (.cut 0 .out .leaf))))))) (.cut 1 (.ref (.cut 2 (.ref (.cut 3 (.ref (.cut 0 .leaf .leaf)) (.ref (.cut 0 (.ref .leaf) (.ref (.cut 1 (.ref .leaf) .leaf)))))) (.ref (.cut 3 (.ref (.cut 0 (.ref .leaf) (.ref (.cut 1 .out .leaf)))) (.ref (.cut 0 (.cut 1 .out .leaf) .leaf)))))) (.cut 2 (.ref (.cut 3 (.ref (.cut 0 (.ref .leaf) (.ref (.cut 1 (.ref .leaf) (.ref .leaf))))) (.ref (.cut 0 (.cut 1 .leaf (.ref .leaf)) .leaf)))) (.cut 3 (.ref (.cut 0 (.cut 1 .leaf (.ref .leaf)) .leaf)) .leaf)))))))))))))))))))))
theorem h3 : check par t3 [24576, 24576, 24576, 16384] [8192, 8192, 8192, 16384] st = true := by decide +kernel
def t4 : Tree := (.ref (.cut 0 (.ref (.cut 1 (.ref (.cut 2 .out (.ref (.cut 3 (.ref (.cut 0 (.ref (.cut 1 .out (.ref (.cut 2 .out .out)))) (.ref (.cut 1 .out (.ref (.cut 2 .out .out)))))) .out)))) (.ref (.cut 2 .out (.ref (.cut 3 (.ref (.cut 0 .out (.ref (.cut 1 (.ref (.cut 2 .out (.ref (.cut 3 (.ref (.cut 0 .out (.cut 1 .out .out))) .out)))) .out)))) .out)))))) (.ref (.cut 1 (.ref (.cut 2 .out (.ref (.cut 3 (.ref (.cut 0 (.ref (.cut 1 .out (.ref (.cut 2 .out .out)))) (.ref (.cut 1 .out (.ref (.cut 2 .out .out)))))) .out)))) (.ref (.cut 2 .out (.ref (.cut 3 (.ref (.cut 0 (.ref (.cut 1 (.ref (.cut 2 .out (.ref (.cut 3 (.ref (.cut 0 (.ref (.cut 1 .out (.ref (.cut 2 .out .out)))) (.ref (.cut 1 .out (.ref (.cut 2 .out .out)))))) .out)))) (.ref (.cut 2 .out (.ref (.cut 3 (.ref (.cut 0 .out (.ref (.cut 1 (.cut 2 .out (.ref (.cut 3 (.ref (.cut 0 .out (.ref (.cut 1 .out .out)))) .out))) .out)))) .out)))))) (.ref (.cut 1 (.ref (.cut 2 .out (.ref (.cut 3 (.ref (.cut 0 (.ref (.cut 1 .out (.ref (.cut 2 .out .out)))) (.ref (.cut 1 .out (.ref (.cut 2 .out .out)))))) .out)))) (.ref (.cut 2 .out (.ref (.cut 3 (.ref (.cut 0 (.ref (.cut 1 (.cut 2 .out (.ref (.cut 3 (.ref (.cut 0 (.ref (.cut 1 .out (.ref (.cut 2 .out .out)))) (.cut 1 .out (.cut 2 .out .out)))) .out))) (.ref (.cut 2 .out (.ref (.cut 3 (.cut 0 .out (.cut 1 (.ref (.cut 2 .out (.cut 3 (.ref (.cut 0 .out (.cut 1 .out .out))) .out))) .out)) .out)))))) (.cut 1 (.ref (.cut 2 .out (.ref (.cut 3 (.cut 0 (.cut 1 .out (.ref (.cut 2 .out .out))) (.cut 1 .out (.ref (.cut 2 .out .out)))) .out)))) (.cut 2 .out (.cut 3 (.ref (.cut 0 (.ref (.cut 1 (.cut 2 .out (.ref (.cut 3 (.cut 0 (.ref (.cut 1 .out (.ref (.cut 2 .out .out)))) (.cut 1 .out (.cut 2 .out .out))) .out))) (.ref (.cut 2 .out (.ref (.cut 3 (.cut 0 .out (.cut 1 (.cut 2 .out (.cut 3 .leaf .out)) .out)) .out)))))) (.cut 1 (.ref (.cut 2 .out (.ref (.cut 3 (.cut 0 (.cut 1 .out (.cut 2 .out .out)) (.cut 1 .out (.cut 2 .out .out))) .out)))) (.cut 2 .out (.cut 3 (.cut 0 (.ref (.cut 1 .leaf (.ref (.cut 2 .out (.ref .leaf))))) (.cut 1 (.ref (.cut 2 .out (.ref .leaf))) (.cut 2 .out .leaf))) .out))))) .out))))) .out)))))))) .out))))))))
theorem h4 : check par t4 [16384, 16384, 16384, 49152] [16384, 16384, 16384, 16384] st = true := by decide +kernel
def t5 : Tree := (.ref (.cut 3 (.ref (.cut 0 (.ref (.cut 1 .out (.ref (.cut 2 (.ref (.cut 3 (.ref (.cut 0 .out (.ref (.cut 1 .out .out)))) (.ref (.cut 0 .out (.ref (.cut 1 .out .out)))))) .out)))) (.ref (.cut 1 .out (.ref (.cut 2 (.ref (.cut 3 (.ref (.cut 0 (.ref (.cut 1 .out (.ref (.cut 2 (.ref (.cut 3 (.ref (.cut 0 .out (.ref (.cut 1 .out .out)))) (.ref (.cut 0 .out (.ref (.cut 1 .out .out)))))) .out)))) (.ref (.cut 1 .out (.ref (.cut 2 (.ref (.cut 3 (.ref (.cut 0 (.cut 1 .out (.ref (.cut 2 (.cut 3 .leaf (.ref .leaf)) .out))) (.cut 1 .out (.ref (.cut 2 (.cut 3 .leaf .leaf) .out))))) (.ref (.cut 0 (.cut 1 .out (.ref (.cut 2 (.cut 3 (.ref .leaf) (.ref (.cut 0 .out (.ref (.cut 1 .out .out))))) .out))) (.ref (.cut 1 .out (.ref (.cut 2 (.cut 3 .leaf (.cut 0 (.cut 1 .out (.ref .leaf)) (.cut 1 .out .leaf))) .out)))))))) .out)))))) (.ref (.cut 0 (.ref (.cut 1 .out (.ref (.cut 2 (.ref (.cut 3 (.ref (.cut 0 .out (.ref (.cut 1 .out .out)))) (.ref (.cut 0 .out (.ref (.cut 1 .out .out)))))) .out)))) (.ref (.cut 1 .out (.ref (.cut 2 (.ref (.cut 3 (.ref (.cut 0 (.ref (.cut 1 .out (.ref (.cut 2 (.cut 3 (.ref (.cut 0 .out (.cut 1 .out .out))) (.ref (.cut 0 .out (.ref (.cut 1 .out .out))))) .out)))) (.ref (.cut 1 .out (.cut 2 (.ref (.cut 3 (.ref (.cut 0 (.ref (.cut 1 .out (.cut 2 (.ref .leaf) .out))) (.cut 1 .out (.cut 2 .leaf .out)))) (.ref (.cut 0 (.cut 1 .out (.ref (.cut 2 (.ref (.cut 3 (.ref .leaf) (.cut 0 .out (.ref (.cut 1 .out .out))))) .out))) (.ref (.cut 1 .out (.ref (.cut 2 (.cut 3 .leaf (.ref (.cut 0 (.cut 1 .out .leaf) (.cut 1 .out .leaf)))) .out)))))))) .out))))) (.ref (.cut 0 (.ref (.cut 1 .out (.ref (.cut 2 (.ref (.cut 3 (.ref (.cut 0 .out (.cut 1 .out .out))) (.ref (.cut 0 .out (.cut 1 .out .out))))) .out)))) (.cut 1 .out (.cut 2 (.ref (.cut 3 (.ref (.cut 0 (.cut 1 .out (.ref (.cut 2 (.cut 3 (.ref (.cut 0 .out (.ref (.cut 1 .out .out)))) (.ref (.cut 0 .out (.cut 1 .out .out)))) .out))) (.cut 1 .out (.cut 2 (.ref (.cut 3 (.ref (.cut 0 (.cut 1 .out (.cut 2 (.cut 3 .leaf .leaf) .out)) (.cut 1 .out (.cut 2 (.cut 3 .leaf .leaf) .out)))) (.cut 0 (.cut 1 .out (.ref (.cut 2 (.cut 3 .leaf (.cut 0 .out .leaf)) .out))) (.ref (.cut 1 .out (.ref (.cut 2 (.cut 3 (.cut 0 .leaf .leaf) .leaf) .out))))))) .out)))) (.ref (.cut 0 (.ref (.cut 1 .out (.ref (.cut 2 (.cut 3 (.cut 0 .out (.cut 1 .out .out)) (.ref (.cut 0 .out (.cut 1 .out .out)))) .out)))) (.cut 1 .out (.cut 2 (.cut 3 (.ref (.cut 0 (.cut 1 .out (.cut 2 (.cut 3 (.ref .leaf) .leaf) .out)) (.cut 1 .out (.cut 2 (.cut 3 .leaf .leaf) .out)))) (.cut 0 (.ref (.cut 1 .out (.ref (.cut 2 .leaf .out)))) (.cut 1 .out (.cut 2 .leaf .out)))) .out)))))) .out)))))) .out)))))))) .out)))))) (.ref (.cut 0 (.ref (.cut 1 .out (.ref (.cut 2 (.ref (.cut 3 (.ref (.cut 0 .out (.ref (.cut 1 .out .out)))) (.ref (.cut 0 .out (.ref (.cut 1 .out .out)))))) .out)))) (.ref (.cut 1 .out (.ref (.cut 2 (.ref (.cut 3 (.ref (.cut 0 (.ref (.cut 1 .out (.ref (.cut 2 (.ref (.cut 3 (.ref (.cut 0 .out (.ref (.cut 1 .out .out)))) (.ref (.cut 0 .out (.ref (.cut 1 .out .out)))))) .out)))) (.ref (.cut 1 .out (.ref (.cut 2 (.ref (.cut 3 (.ref (.cut 0 (.ref (.cut 1 .out (.ref (.cut 2 (.ref (.cut 3 (.ref (.cut 0 .out (.cut 1 .out .out))) (.ref (.cut 0 .out (.cut 1 .out .out))))) .out)))) (.ref (.cut 1 .out (.ref (.cut 2 (.cut 3 (.cut 0 (.ref (.cut 1 .out (.ref (.cut 2 (.ref (.cut 3 (.ref (.cut 0 .out (.cut 1 .out .out))) (.ref (.cut 0 .out (.cut 1 .out .out))))) .out)))) (.cut 1 .out (.ref (.cut 2 (.cut 3 (.cut 0 (.ref (.cut 1 .out (.ref (.cut 2 .leaf .out)))) (.cut 1 .out .leaf)) (.ref (.cut 0 (.cut 1 .out (.ref (.cut 2 .out .out))) (.cut 1 .out (.cut 2 .out .out))))) .out)))) (.ref (.cut 0 (.cut 1 .out (.ref (.cut 2 .out .out))) (.cut 1 .out (.ref (.cut 2 .out .out)))))) .out)))))) (.ref (.cut 0 (.cut 1 .out (.ref (.cut 2 .out .out))) (.ref (.cut 1 .out (.ref (.cut 2 .out .out)))))))) .out)))))) (.ref (.cut 0 (.ref (.cut 1 .out (.ref (.cut 2 .out .out)))) (.ref (.cut 1 .out (.ref (.cut 2 .out .out)))))))) .out))))))))
theorem h5 : check par t5 [16384, 16384, 49152, 32768] [16384, 16384, 16384, 32768] st = true := by decide +kernel
def t6 : Tree := (.ref (.cut 2 (.ref (.cut 3 (.ref (.cut 0 .out (.ref (.cut 1 (.ref (.cut 2 (.ref (.cut 3 (.ref (.cut 0 .out (.ref (.cut 1 (.ref (.cut 2 (.ref (.cut 3 (.ref (.cut 0 .out (.cut 1 (.cut 2 (.cut 3 (.ref .leaf) (.ref .leaf)) (.ref (.cut 3 (.ref .leaf) .leaf))) .out))) (.ref (.cut 0 .out (.cut 1 (.ref (.cut 2 .out (.ref (.cut 3 (.ref .leaf) .out)))) .out))))) (.ref (.cut 3 (.ref (.cut 0 .out (.cut 1 (.ref (.cut 2 (.ref (.cut 3 (.ref .leaf) (.ref .leaf))) (.ref (.cut 3 (.ref .leaf) (.ref .leaf))))) .out))) (.ref (.cut 0 .out (.ref (.cut 1 (.cut 2 (.cut 3 (.ref .leaf) (.ref .leaf)) (.cut 3 (.ref .leaf) (.ref .leaf))) .out)))))))) .out)))) (.ref (.cut 0 .out (.ref (.cut 1 (.ref (.cut 2 .out (.ref (.cut 3 (.ref (.cut 0 .out (.ref (.cut 1 (.cut 2 .out (.ref (.cut 3 (.ref .leaf) .out))) .out)))) .out)))) .out)))))) (.ref (.cut 3 (.ref (.cut 0 .out (.ref (.cut 1 (.ref (.cut 2 (.ref (.cut 3 (.ref (.cut 0 .out (.cut 1 (.cut 2 (.ref (.cut 3 (.ref .leaf) (.ref .leaf))) (.ref (.cut 3 (.ref .leaf) (.ref .leaf)))) .out))) (.ref (.cut 0 .out (.ref (.cut 1 (.cut 2 (.ref (.cut 3 (.ref .leaf) (.ref .leaf))) (.ref (.cut 3 (.ref .leaf) (.ref (.cut 0 .out .leaf))))) .out)))))) (.ref (.cut 3 (.ref (.cut 0 .out (.cut 1 (.cut 2 (.ref (.cut 3 .leaf (.ref .leaf))) (.ref (.cut 3 .leaf .leaf))) .out))) (.ref (.cut 0 .out (.ref (.cut 1 (.cut 2 (.cut 3 (.ref .leaf) (.ref (.cut 0 .out (.cut 1 (.ref .leaf) .out)))) (.ref (.cut 3 .leaf (.cut 0 .out (.cut 1 .leaf .out))))) .out)))))))) .out)))) (.ref (.cut 0 .out (.ref (.cut 1 (.ref (.cut 2 (.ref (.cut 3 (.ref (.cut 0 .out (.ref (.cut 1 (.ref (.cut 2 (.ref (.cut 3 (.ref (.cut 0 .out .leaf)) (.ref (.cut 0 .out (.ref (.cut 1 .leaf .out)))))) (.ref (.cut 3 (.ref (.cut 0 .out (.ref (.cut 1 .leaf .out)))) (.ref (.cut 0 .out (.cut 1 (.ref .leaf) .out))))))) .out)))) (.ref (.cut 0 .out (.ref (.cut 1 (.cut 2 .out (.ref (.cut 3 (.ref (.cut 0 .out (.ref (.cut 1 (.cut 2 .out (.cut 3 (.ref .leaf) .out)) .out)))) .out))) .out)))))) (.ref (.cut 3 (.ref (.cut 0 .out (.ref (.cut 1 (.cut 2 (.ref (.cut 3 (.ref (.cut 0 .out (.cut 1 (.cut 2 (.ref .leaf) .leaf) .out))) (.ref (.cut 0 .out (.ref (.cut 1 (.cut 2 (.ref (.cut 3 .leaf .leaf)) (.cut 3 .leaf (.cut 0 .out (.ref .leaf)))) .out)))))) (.ref (.cut 3 (.ref (.cut 0 .out (.cut 1 (.cut 2 (.ref .leaf) .leaf) .out))) (.ref (.cut 0 .out (.ref (.cut 1 (.cut 2 (.ref (.cut 3 (.ref .leaf) (.cut 0 .out (.cut 1 .leaf .out)))) (.ref (.cut 3 .leaf (.ref (.cut 0 .out (.cut 1 .leaf .out)))))) .out))))))) .out)))) (.ref (.cut 0 .out (.cut 1 (.cut 2 (.ref (.cut 3 (.ref (.cut 0 .out (.cut 1 (.ref (.cut 2 (.cut 3 (.ref .leaf) (.ref (.cut 0 .out .leaf))) (.cut 3 (.ref (.cut 0 .out .leaf)) (.cut 0 .out .leaf)))) .out))) (.ref (.cut 0 .out (.cut 1 (.ref (.cut 2 .out (.ref (.cut 3 (.cut 0 .out (.ref (.cut 1 (.cut 2 .out (.cut 3 (.ref .leaf) .out)) .out))) .out)))) .out))))) (.ref (.cut 3 (.ref (.cut 0 .out (.cut 1 (.ref (.cut 2 (.cut 3 (.ref (.cut 0 .out (.cut 1 (.ref (.cut 2 .leaf (.cut 3 (.ref .leaf) .leaf))) .out))) (.ref (.cut 0 .out (.ref (.cut 1 (.cut 2 (.ref .leaf) (.cut 3 .leaf .leaf)) .out))))) (.ref (.cut 3 (.ref (.cut 0 .out (.cut 1 (.cut 2 (.cut 3 .leaf .leaf) (.cut 3 .leaf .leaf)) .out))) (.cut 0 .out (.ref (.cut 1 (.cut 2 (.cut 3 .leaf (.cut 0 .out .leaf)) (.ref (.cut 3 (.cut 0 .out .leaf) .leaf))) .out))))))) .out))) (.ref (.cut 0 .out (.cut 1 (.cut 2 (.ref (.cut 3 (.cut 0 .out (.cut 1 (.ref (.cut 2 (.ref .leaf) (.ref .leaf))) .out)) (.ref (.cut 0 .out (.cut 1 (.cut 2 .out .leaf) .out))))) (.cut 3 (.ref (.cut 0 .out (.cut 1 (.cut 2 (.cut 3 (.ref .leaf) .leaf) (.cut 3 .leaf .leaf)) .out))) (.cut 0 .out (.cut 1 .leaf .out)))) .out)))))) .out))))))) .out)))))))) .out)))) (.ref (.cut 0 .out (.ref (.cut 1 (.ref (.cut 2 .out (.ref (.cut 3 (.ref (.cut 0 .out (.ref (.cut 1 (.ref (.cut 2 .out (.ref (.cut 3 (.ref (.cut 0 .out (.ref (.cut 1 (.ref (.cut 2 .out (.ref (.cut 3 (.cut 0 .out (.cut 1 (.ref (.cut 2 .out (.cut 3 (.cut 0 .out (.cut 1 (.cut 2 .out .leaf) .out)) .out))) .out)) .out)))) .out)))) .out)))) .out)))) .out)))) .out)))))) (.ref (.cut 3 (.ref (.cut 0 .out (.ref (.cut 1 (.ref (.cut 2 (.ref (.cut 3 (.ref (.cut 0 .out (.ref (.cut 1 (.ref (.cut 2 (.ref (.cut 3 (.ref (.cut 0 .out (.cut 1 (.cut 2 (.cut 3 (.ref .leaf) (.ref .leaf)) (.ref (.cut 3 .leaf (.ref .leaf)))) .out))) (.cut 0 .out (.cut 1 (.ref (.cut 2 (.cut 3 .leaf (.cut 0 .out (.ref .leaf))) (.ref (.cut 3 .leaf (.cut 0 .out .leaf))))) .out)))) (.ref (.cut 3 (.ref (.cut 0 .out (.cut 1 .out .out))) (.ref (.cut 0 .out (.cut 1 .out .out))))))) .out)))) (.ref (.cut 0 .out (.ref (.cut 1 (.ref (.cut 2 (.ref (.cut 3 (.ref (.cut 0 .out (.cut 1 (.ref (.cut 2 (.ref (.cut 3 (.cut 0 .out (.ref (.cut 1 (.cut 2 .leaf (.ref .leaf)) .out))) (.ref (.cut 0 .out (.cut 1 (.ref (.cut 2 (.ref (.cut 3 .leaf (.cut 0 .out .leaf))) (.ref (.cut 3 (.ref .leaf) (.ref (.cut 0 .out (.ref .leaf))))))) .out))))) (.ref (.cut 3 (.ref (.cut 0 .out (.ref (.cut 1 .out .out)))) (.ref (.cut 0 .out (.cut 1 .out .out))))))) .out))) (.ref (.cut 0 .out (.ref (.cut 1 (.ref (.cut 2 (.ref (.cut 3 (.ref (.cut 0 .out (.cut 1 (.cut 2 (.ref (.cut 3 (.cut 0 .out (.ref (.cut 1 (.cut 2 .leaf (.ref (.cut 3 .leaf .leaf))) .out))) (.ref (.cut 0 .out (.cut 1 (.cut 2 (.ref (.cut 3 .leaf .leaf)) (.ref (.cut 3 (.ref (.cut 0 .out (.cut 1 .out .out))) (.cut 0 .out (.ref (.cut 1 .out .out)))))) .out))))) (.ref (.cut 3 (.cut 0 .out (.cut 1 .out .out)) (.cut 0 .out (.ref (.cut 1 .out .out)))))) .out))) (.cut 0 .out (.cut 1 (.ref (.cut 2 (.cut 3 (.ref (.cut 0 .out (.cut 1 (.cut 2 .leaf (.ref (.cut 3 (.cut 0 .out (.cut 1 .out .out)) .leaf))) .out))) (.cut 0 .out (.cut 1 (.cut 2 .leaf (.ref .leaf)) .out))) (.ref (.cut 3 (.ref (.cut 0 .out (.cut 1 .out .out))) (.ref (.cut 0 .out (.cut 1 .out .out))))))) .out)))) (.ref (.cut 3 (.ref (.cut 0 .out (.cut 1 .out .out))) (.ref (.cut 0 .out (.cut 1 .out .out))))))) .out)))))) (.ref (.cut 3 (.ref (.cut 0 .out (.cut 1 .out .out))) (.ref (.cut 0 .out (.ref (.cut 1 .out .out)))))))) .out)))))) (.ref (.cut 3 (.ref (.cut 0 .out (.ref (.cut 1 .out .out)))) (.ref (.cut 0 .out (.ref (.cut 1 .out .out)))))))) .out)))) (.ref (.cut 0 .out (.ref (.cut 1 (.ref (.cut 2 (.ref (.cut 3 (.ref (.cut 0 .out (.ref (.cut 1 (.ref (.cut 2 (.ref (.cut 3 (.ref (.cut 0 .out (.cut 1 (.cut 2 (.ref (.cut 3 (.ref (.cut 0 .out (.cut 1 (.cut 2 (.cut 3 (.cut 0 .out .leaf) (.ref (.cut 0 .out .out))) (.ref (.cut 3 (.ref (.cut 0 .out .out)) .out))) .out))) (.ref (.cut 0 .out .out)))) (.ref (.cut 3 (.ref (.cut 0 .out .out)) .out))) .out))) (.ref (.cut 0 .out .out)))) (.ref (.cut 3 (.ref (.cut 0 .out .out)) .out)))) .out)))) (.ref (.cut 0 .out .out)))) (.ref (.cut 3 (.ref (.cut 0 .out .out)) .out)))) .out))))))))
theorem h6 : check par t6 [16384, 49152, 32768, 32768] [16384, 16384, 32768, 32768] st = true := by decide +kernel
def t7 : Tree := (.ref (.cut 2 (.ref (.cut 3 (.ref (.cut 0 (.ref (.cut 1 (.ref (.cut 2 (.ref (.cut 3 (.ref (.cut 0 (.cut 1 (.ref (.cut 2 (.ref (.cut 3 .leaf (.ref .leaf))) (.ref (.cut 3 (.ref .leaf) (.ref .leaf))))) (.ref (.cut 2 (.ref (.cut 3 (.ref .leaf) (.ref .leaf))) (.ref (.cut 3 (.ref .leaf) (.ref .leaf)))))) (.ref (.cut 1 (.ref (.cut 2 (.ref (.cut 3 .leaf (.ref .leaf))) (.ref (.cut 3 (.ref .leaf) (.ref .leaf))))) (.ref (.cut 2 (.ref (.cut 3 (.ref .leaf) (.ref .leaf))) (.ref (.cut 3 (.ref .leaf) (.ref .leaf))))))))) (.ref (.cut 0 (.cut 1 (.ref (.cut 2 .out (.ref (.cut 3 (.ref .leaf) .out)))) (.ref (.cut 2 .out (.ref (.cut 3 .leaf .out))))) (.ref (.cut 1 (.ref (.cut 2 .out (.ref (.cut 3 (.ref .leaf) .out)))) (.ref (.cut 2 .out (.cut 3 .leaf .out))))))))) (.ref (.cut 3 (.ref (.cut 0 (.cut 1 .out (.ref (.cut 2 (.ref (.cut 3 (.ref .leaf) (.ref .leaf))) .out))) (.ref (.cut 1 .out (.ref (.cut 2 (.cut 3 (.ref .leaf) .leaf) .out)))))) (.ref (.cut 0 (.ref (.cut 1 .out (.ref (.cut 2 (.ref (.cut 3 (.ref .leaf) (.ref .leaf))) .out)))) (.ref (.cut 1 .out (.cut 2 (.ref (.cut 3 (.ref .leaf) (.ref .leaf))) .out))))))))) (.ref (.cut 2 (.ref (.cut 3 (.ref (.cut 0 (.cut 1 (.ref (.cut 2 (.ref (.cut 3 (.ref .leaf) (.ref .leaf))) (.ref (.cut 3 (.ref .leaf) (.ref .leaf))))) (.ref (.cut 2 (.ref (.cut 3 (.ref .leaf) (.ref .leaf))) (.ref (.cut 3 (.ref .leaf) (.ref .leaf)))))) (.ref (.cut 1 (.ref (.cut 2 (.ref (.cut 3 (.ref .leaf) (.ref .leaf))) (.cut 3 (.ref .leaf) .leaf))) (.cut 2 (.ref (.cut 3 (.ref .leaf) (.ref .leaf))) (.ref (.cut 3 (.ref .leaf) .leaf))))))) (.ref (.cut 0 (.ref (.cut 1 (.ref (.cut 2 .out (.ref (.cut 3 (.ref .leaf) .out)))) (.ref (.cut 2 .out (.cut 3 (.ref .leaf) .out))))) (.ref (.cut 1 (.ref (.cut 2 .out (.cut 3 (.ref .leaf) .out))) (.ref (.cut 2 .out (.cut 3 (.ref .leaf) .out))))))))) (.ref (.cut 3 (.ref (.cut 0 (.ref (.cut 1 (.ref (.cut 2 (.ref (.cut 3 (.ref .leaf) .leaf)) (.ref (.cut 3 (.ref .leaf) (.ref .leaf))))) (.ref (.cut 2 (.ref (.cut 3 (.ref .leaf) (.ref .leaf))) (.ref (.cut 3 .leaf .leaf)))))) (.ref (.cut 1 (.ref (.cut 2 (.ref (.cut 3 (.ref .leaf) .leaf)) (.ref (.cut 3 (.ref .leaf) (.ref .leaf))))) (.ref (.cut 2 (.ref (.cut 3 (.ref .leaf) (.ref .leaf))) (.ref (.cut 3 .leaf .leaf)))))))) (.ref (.cut 0 (.cut 1 (.cut 2 .leaf (.ref .leaf)) (.ref (.cut 2 (.ref .leaf) (.ref .leaf)))) (.cut 1 (.cut 2 (.cut 3 .leaf (.ref .leaf)) (.ref (.cut 3 (.ref .leaf) (.ref .leaf)))) (.ref (.cut 2 (.ref (.cut 3 (.ref .leaf) (.ref .leaf))) (.ref (.cut 3 (.ref .leaf) (.ref .leaf)))))))))))))) (.ref (.cut 1 (.ref (.cut 2 (.ref (.cut 3 (.ref (.cut 0 (.cut 1 (.ref (.cut 2 (.ref (.cut 3 .leaf (.ref .leaf))) (.ref (.cut 3 (.ref .leaf) (.ref .leaf))))) (.ref (.cut 2 (.ref (.cut 3 (.ref .leaf) (.ref .leaf))) (.ref (.cut 3 (.ref .leaf) (.ref .leaf)))))) (.ref (.cut 1 (.ref (.cut 2 (.ref .leaf) (.ref (.cut 3 (.ref .leaf) (.ref .leaf))))) (.ref (.cut 2 (.ref (.cut 3 (.ref .leaf) (.ref .leaf))) (.ref (.cut 3 (.ref .leaf) (.ref .leaf))))))))) (.ref (.cut 0 (.ref (.cut 1 (.ref (.cut 2 .out (.ref (.cut 3 (.ref .leaf) .out)))) (.ref (.cut 2 .out (.cut 3 (.ref .leaf) .out))))) (.ref (.cut 1 (.cut 2 .out (.ref (.cut 3 (.ref .leaf) .out))) (.ref (.cut 2 .out (.cut 3 (.ref .leaf) .out))))))))) (.ref (.cut 3 (.ref (.cut 0 (.ref (.cut 1 .out (.ref (.cut 2 (.cut 3 (.ref .leaf) (.ref .leaf)) .out)))) (.ref (.cut 1 .out (.ref (.cut 2 (.ref (.cut 3 (.ref .leaf) (.ref .leaf))) .out)))))) (.ref (.cut 0 (.ref (.cut 1 .out (.cut 2 (.ref (.cut 3 (.ref .leaf) (.ref .leaf))) .out))) (.ref (.cut 1 .out (.cut 2 (.ref (.cut 3 (.ref .leaf) (.ref .leaf))) .out))))))))) (.ref (.cut 2 (.ref (.cut 3 (.ref (.cut 0 (.ref (.cut 1 (.ref (.cut 2 (.cut 3 (.ref .leaf) (.ref .leaf)) (.cut 3 (.ref .leaf) (.ref .leaf)))) (.ref (.cut 2 (.cut 3 (.ref .leaf) (.ref .leaf)) (.ref (.cut 3 (.ref .leaf) .leaf)))))) (.ref (.cut 1 (.ref (.cut 2 (.cut 3 (.ref .leaf) (.ref .leaf)) (.ref (.cut 3 (.ref .leaf) (.ref .leaf))))) (.cut 2 (.cut 3 (.ref .leaf) (.ref .leaf)) (.ref (.cut 3 (.ref .leaf) .leaf))))))) (.ref (.cut 0 (.ref (.cut 1 (.ref (.cut 2 .out (.cut 3 (.ref .leaf) .out))) (.ref (.cut 2 .out (.cut 3 (.ref .leaf) .out))))) (.ref (.cut 1 (.ref (.cut 2 .out (.cut 3 (.ref .leaf) .out))) (.ref (.cut 2 .out (.cut 3 (.ref .leaf) .out))))))))) (.ref (.cut 3 (.ref (.cut 0 (.cut 1 (.ref (.cut 2 (.ref (.cut 3 (.ref .leaf) .leaf)) (.ref (.cut 3 (.ref .leaf) .leaf)))) (.ref (.cut 2 (.ref (.cut 3 (.ref .leaf) .leaf)) (.ref (.cut 3 (.ref .leaf) .leaf))))) (.ref (.cut 1 (.ref (.cut 2 (.ref (.cut 3 (.ref .leaf) .leaf)) (.ref (.cut 3 (.ref .leaf) .leaf)))) (.ref (.cut 2 (.ref (.cut 3 (.ref .leaf) .leaf)) (.ref (.cut 3 (.ref .leaf) .leaf)))))))) (.cut 0 (.ref (.cut 1 (.cut 2 (.ref (.cut 3 (.ref .leaf) (.ref .leaf))) (.ref (.cut 3 (.ref .leaf) (.ref .leaf)))) (.ref (.cut 2 (.ref (.cut 3 (.ref .leaf) (.ref .leaf))) (.ref (.cut 3 (.ref .leaf) (.ref .leaf))))))) (.ref (.cut 1 (.ref (.cut 2 (.ref (.cut 3 .leaf (.ref .leaf))) (.ref (.cut 3 (.ref .leaf) (.ref .leaf))))) (.ref (.cut 2 (.ref (.cut 3 (.ref .leaf) (.ref .leaf))) (.ref (.cut 3 (.ref .leaf) (.ref .leaf)))))))))))))))) (.ref (.cut 0 (.ref (.cut 1 (.ref (.cut 2 .out (.ref (.cut 3 (.ref (.cut 0 (.ref (.cut 1 .out (.cut 2 .out .out))) (.ref (.cut 1 .out (.cut 2 .out .out))))) .out)))) (.ref (.cut 2 .out (.ref (.cut 3 (.cut 0 (.cut 1 (.ref (.cut 2 .out (.ref (.cut 3 (.ref .leaf) .out)))) (.cut 2 .out (.ref (.cut 3 (.ref .leaf) .out)))) (.ref (.cut 1 (.ref (.cut 2 .out (.ref (.cut 3 (.ref .leaf) .out)))) (.cut 2 .out (.cut 3 (.ref .leaf) .out))))) .out)))))) (.ref (.cut 1 (.ref (.cut 2 .out (.ref (.cut 3 (.ref (.cut 0 (.ref (.cut 1 .out (.cut 2 .out .out))) (.ref (.cut 1 .out (.ref (.cut 2 .out .out)))))) .out)))) (.ref (.cut 2 .out (.ref (.cut 3 (.ref (.cut 0 (.ref (.cut 1 (.ref (.cut 2 .out (.ref (.cut 3 (.ref .leaf) .out)))) (.cut 2 .out (.ref (.cut 3 .leaf .out))))) (.ref (.cut 1 (.ref (.cut 2 .out (.ref (.cut 3 (.ref .leaf) .out)))) (.ref (.cut 2 .out (.ref (.cut 3 .leaf .out)))))))) .out)))))))))) (.ref (.cut 3 (.ref (.cut 0 (.ref (.cut 1 .out (.ref (.cut 2 (.cut 3 (.ref (.cut 0 (.ref (.cut 1 .out (.ref (.cut 2 (.cut 3 (.ref .leaf) (.ref .leaf)) .out)))) (.ref (.cut 1 .out (.ref (.cut 2 (.ref (.cut 3 (.ref .leaf) .leaf)) .out)))))) (.ref (.cut 0 (.cut 1 .out (.cut 2 (.ref .leaf) .out)) (.ref (.cut 1 .out (.cut 2 (.ref (.cut 3 (.ref .leaf) (.ref .leaf))) .out)))))) .out)))) (.ref (.cut 1 .out (.ref (.cut 2 (.cut 3 (.ref (.cut 0 (.ref (.cut 1 .out (.ref (.cut 2 (.ref (.cut 3 (.ref (.cut 0 .leaf .leaf)) .leaf)) .out)))) (.ref (.cut 1 .out (.ref (.cut 2 (.cut 3 (.ref (.cut 0 (.ref .leaf) .leaf)) .leaf) .out)))))) (.ref (.cut 0 (.ref (.cut 1 .out (.cut 2 (.ref (.cut 3 (.ref .leaf) (.ref .leaf))) .out))) (.ref (.cut 1 .out (.ref (.cut 2 (.cut 3 (.ref .leaf) (.ref .leaf)) .out))))))) .out)))))) (.ref (.cut 0 (.ref (.cut 1 .out (.cut 2 (.ref (.cut 3 (.cut 0 (.ref (.cut 1 .out (.cut 2 (.cut 3 (.ref .leaf) (.ref .leaf)) .out))) (.cut 1 .out (.ref (.cut 2 (.ref (.cut 3 (.ref .leaf) (.ref .leaf))) .out)))) (.ref (.cut 0 (.ref (.cut 1 .out (.cut 2 .out .out))) (.ref (.cut 1 .out (.cut 2 .out .out))))))) .out))) (.ref (.cut 1 .out (.ref (.cut 2 (.cut 3 (.ref (.cut 0 (.ref (.cut 1 .out (.ref (.cut 2 (.ref (.cut 3 .leaf (.ref .leaf))) .out)))) (.cut 1 .out (.ref (.cut 2 (.ref (.cut 3 (.ref .leaf) (.ref .leaf))) .out))))) (.ref (.cut 0 (.ref (.cut 1 .out (.ref (.cut 2 .out .out)))) (.cut 1 .out (.cut 2 .out .out))))) .out))))))))))
theorem h7 : check par t7 [40960, 8192, 16384, 16384] [8192, 8192, 16384, 16384] st = true := by decide +kernel
def t8 : Tree := (.ref (.cut 3 (.ref (.cut 0 (.ref (.cut 1 (.ref (.cut 2 (.ref (.cut 3 (.ref (.cut 0 (.ref (.cut 1 (.ref (.cut 2 (.ref (.cut 3 (.ref .leaf) (.ref .leaf))) (.ref (.cut 3 (.ref .leaf) (.ref .leaf))))) (.ref (.cut 2 (.ref (.cut 3 (.ref .leaf) (.ref .leaf))) (.ref (.cut 3 (.ref .leaf) (.ref .leaf))))))) (.cut 1 (.cut 2 (.ref (.cut 3 (.ref .leaf) (.ref .leaf))) (.ref (.cut 3 (.ref .leaf) .leaf))) (.ref (.cut 2 (.cut 3 (.ref .leaf) (.ref .leaf)) (.ref (.cut 3 (.ref .leaf) (.ref .leaf)))))))) (.ref (.cut 0 (.ref (.cut 1 (.cut 2 .out (.cut 3 (.ref .leaf) .out)) (.cut 2 .out (.cut 3 (.ref .leaf) .out)))) (.ref (.cut 1 (.cut 2 .out (.cut 3 (.ref .leaf) .out)) (.cut 2 .out (.cut 3 (.ref .leaf) .out)))))))) (.ref (.cut 3 (.ref (.cut 0 (.ref (.cut 1 (.cut 2 (.cut 3 (.ref .leaf) (.ref .leaf)) (.ref (.cut 3 (.ref .leaf) (.ref .leaf)))) (.cut 2 (.cut 3 (.ref .leaf) (.ref .leaf)) (.ref (.cut 3 (.ref .leaf) .leaf))))) (.ref (.cut 1 (.cut 2 (.cut 3 (.ref .leaf) (.ref .leaf)) (.ref (.cut 3 (.ref .leaf) .leaf))) (.cut 2 (.ref (.cut 3 (.ref .leaf) .leaf)) (.ref (.cut 3 (.ref .leaf) .leaf))))))) (.ref (.cut 0 (.cut 1 (.ref (.cut 2 (.ref .leaf) (.ref .leaf))) (.ref (.cut 2 (.ref (.cut 3 (.ref .leaf) (.ref .leaf))) (.cut 3 (.ref .leaf) (.ref .leaf))))) (.ref (.cut 1 (.ref (.cut 2 (.ref (.cut 3 .leaf (.ref .leaf))) (.ref (.cut 3 (.ref .leaf) (.ref .leaf))))) (.ref (.cut 2 (.cut 3 .leaf (.ref .leaf)) (.cut 3 (.ref .leaf) .leaf))))))))))) (.ref (.cut 2 (.ref (.cut 3 (.ref (.cut 0 (.cut 1 (.ref (.cut 2 (.cut 3 .leaf (.ref .leaf)) (.ref (.cut 3 (.ref .leaf) (.ref .leaf))))) (.cut 2 (.cut 3 (.ref .leaf) (.ref .leaf)) (.ref (.cut 3 (.ref .leaf) .leaf)))) (.cut 1 (.ref (.cut 2 (.cut 3 .leaf (.ref .leaf)) (.ref (.cut 3 (.ref .leaf) (.ref .leaf))))) (.cut 2 (.cut 3 (.ref .leaf) (.ref .leaf)) (.ref (.cut 3 (.ref .leaf) .leaf)))))) (.ref (.cut 0 (.cut 1 (.ref (.cut 2 .out (.cut 3 (.ref .leaf) .out))) (.ref (.cut 2 .out (.ref (.cut 3 (.ref .leaf) .out))))) (.ref (.cut 1 (.cut 2 .out (.ref (.cut 3 (.ref .leaf) .out))) (.cut 2 .out (.ref (.cut 3 .leaf .out))))))))) (.ref (.cut 3 (.ref (.cut 0 (.cut 1 (.ref (.cut 2 (.ref (.cut 3 (.ref .leaf) .leaf)) (.ref (.cut 3 (.ref .leaf) .leaf)))) (.ref (.cut 2 (.ref (.cut 3 (.ref .leaf) (.ref .leaf))) (.ref (.cut 3 (.ref .leaf) (.ref .leaf)))))) (.ref (.cut 1 (.cut 2 (.ref (.cut 3 (.ref .leaf) (.ref .leaf))) (.ref (.cut 3 (.ref .leaf) .leaf))) (.cut 2 (.ref (.cut 3 (.ref .leaf) (.ref .leaf))) (.ref (.cut 3 .leaf (.ref .leaf)))))))) (.ref (.cut 0 (.cut 1 (.cut 2 (.ref (.cut 3 .leaf (.ref .leaf))) (.ref (.cut 3 (.ref .leaf) .leaf))) (.ref (.cut 2 (.cut 3 .leaf (.ref .leaf)) (.cut 3 (.ref .leaf) .leaf)))) (.cut 1 (.cut 2 (.ref (.cut 3 (.ref .leaf) (.ref .leaf))) (.ref (.cut 3 (.ref .leaf) (.ref .leaf)))) (.ref (.cut 2 (.cut 3 (.ref .leaf) (.ref .leaf)) (.cut 3 (.ref .leaf) .leaf)))))))))))) (.ref (.cut 1 (.cut 2 (.ref (.cut 3 (.ref (.cut 0 (.cut 1 (.ref (.cut 2 (.ref (.cut 3 (.ref .leaf) (.ref .leaf))) (.ref (.cut 3 (.ref .leaf) .leaf)))) (.cut 2 (.ref (.cut 3 (.ref .leaf) (.ref .leaf))) (.ref (.cut 3 (.ref .leaf) (.ref .leaf))))) (.ref (.cut 1 (.cut 2 (.ref (.cut 3 (.ref .leaf) (.ref .leaf))) (.ref (.cut 3 (.ref .leaf) .leaf))) (.cut 2 (.ref (.cut 3 (.ref .leaf) (.ref .leaf))) (.ref (.cut 3 (.ref .leaf) (.ref .leaf)))))))) (.ref (.cut 0 (.ref (.cut 1 (.ref (.cut 2 .out (.cut 3 (.ref .leaf) .out))) (.ref (.cut 2 .out (.cut 3 (.ref .leaf) .out))))) (.ref (.cut 1 (.ref (.cut 2 .out (.cut 3 (.ref .leaf) .out))) (.ref (.cut 2 .out (.cut 3 .leaf .out))))))))) (.ref (.cut 3 (.ref (.cut 0 (.ref (.cut 1 (.ref (.cut 2 (.cut 3 (.ref (.cut 0 .leaf .leaf)) (.ref .leaf)) (.ref (.cut 3 (.ref (.cut 0 .leaf .leaf)) .leaf)))) (.ref (.cut 2 (.ref (.cut 3 (.ref .leaf) .leaf)) (.ref (.cut 3 (.ref .leaf) (.ref .leaf))))))) (.ref (.cut 1 (.ref (.cut 2 (.cut 3 (.ref .leaf) (.ref .leaf)) (.ref (.cut 3 (.ref (.cut 0 (.ref .leaf) .leaf)) .leaf)))) (.ref (.cut 2 (.cut 3 .leaf .leaf) (.cut 3 (.ref (.cut 0 (.ref .leaf) .leaf)) .leaf))))))) (.ref (.cut 0 (.ref (.cut 1 (.ref (.cut 2 (.ref (.cut 3 .leaf (.ref .leaf))) (.ref (.cut 3 (.ref .leaf) (.ref .leaf))))) (.ref (.cut 2 (.cut 3 .leaf (.ref .leaf)) (.ref (.cut 3 (.ref .leaf) (.ref .leaf))))))) (.ref (.cut 1 (.cut 2 (.ref (.cut 3 (.ref .leaf) (.ref .leaf))) (.ref (.cut 3 (.ref .leaf) (.ref .leaf)))) (.ref (.cut 2 (.ref (.cut 3 (.ref .leaf) (.ref .leaf))) (.ref (.cut 3 (.ref .leaf) (.ref .leaf)))))))))))) (.ref (.cut 2 (.ref (.cut 3 (.ref (.cut 0 (.cut 1 (.ref (.cut 2 (.cut 3 (.ref .leaf) (.ref .leaf)) (.ref (.cut 3 (.ref .leaf) (.ref .leaf))))) (.cut 2 (.ref (.cut 3 (.ref .leaf) (.ref .leaf))) (.ref (.cut 3 (.ref .leaf) (.ref .leaf))))) (.ref (.cut 1 (.cut 2 (.cut 3 (.ref .leaf) (.ref .leaf)) (.ref (.cut 3 (.ref .leaf) (.ref .leaf)))) (.cut 2 (.cut 3 .leaf (.ref .leaf)) (.ref (.cut 3 (.ref .leaf) (.ref .leaf)))))))) (.ref (.cut 0 (.cut 1 (.cut 2 .out (.ref (.cut 3 (.ref .leaf) .out))) (.ref (.cut 2 .out (.ref (.cut 3 (.ref .leaf) .out))))) (.cut 1 (.ref (.cut 2 .out (.ref (.cut 3 (.ref .leaf) .out)))) (.cut 2 .out (.ref (.cut 3 (.ref .leaf) .out)))))))) (.ref (.cut 3 (.ref (.cut 0 (.cut 1 (.cut 2 (.ref (.cut 3 (.ref .leaf) (.ref .leaf))) (.ref (.cut 3 .leaf .leaf))) (.ref (.cut 2 (.ref (.cut 3 (.ref .leaf) (.ref .leaf))) (.ref (.cut 3 .leaf .leaf))))) (.cut 1 (.ref (.cut 2 (.ref (.cut 3 .leaf .leaf)) (.ref (.cut 3 (.ref .leaf) .leaf)))) (.cut 2 (.ref (.cut 3 (.ref .leaf) (.ref .leaf))) (.ref (.cut 3 (.ref .leaf) .leaf)))))) (.ref (.cut 0 (.ref (.cut 1 (.cut 2 (.ref (.cut 3 (.ref .leaf) (.ref .leaf))) (.cut 3 (.ref .leaf) (.ref .leaf))) (.cut 2 (.ref (.cut 3 (.ref .leaf) (.ref .leaf))) (.ref (.cut 3 (.ref .leaf) .leaf))))) (.cut 1 (.ref (.cut 2 (.ref (.cut 3 (.ref .leaf) (.ref .leaf))) (.ref (.cut 3 (.ref .leaf) (.ref .leaf))))) (.cut 2 (.ref (.cut 3 (.ref .leaf) (.ref .leaf))) (.ref (.cut 3 (.ref .leaf) (.ref .leaf))))))))))))))) (.ref (.cut 0 (.ref (.cut 1 (.ref (.cut 2 .out (.ref (.cut 3 (.cut 0 (.ref (.cut 1 (.cut 2 .out (.cut 3 (.ref .leaf) .out)) (.ref (.cut 2 .out (.cut 3 (.ref .leaf) .out))))) (.cut 1 (.ref (.cut 2 .out (.ref (.cut 3 (.ref .leaf) .out)))) (.ref (.cut 2 .out (.cut 3 (.ref .leaf) .out))))) .out)))) (.ref (.cut 2 .out (.ref (.cut 3 (.ref (.cut 0 (.ref (.cut 1 (.cut 2 .out (.cut 3 (.ref (.cut 0 .leaf .leaf)) .out)) (.cut 2 .out (.ref (.cut 3 (.ref .leaf) .out))))) (.ref (.cut 1 (.cut 2 .out (.cut 3 (.ref .leaf) .out)) (.ref (.cut 2 .out (.cut 3 (.ref .leaf) .out))))))) .out)))))) (.ref (.cut 1 (.ref (.cut 2 .out (.cut 3 (.ref (.cut 0 (.ref (.cut 1 (.cut 2 .out (.ref (.cut 3 .leaf .out))) (.cut 2 .out (.ref (.cut 3 (.ref .leaf) .out))))) (.cut 1 (.ref (.cut 2 .out (.ref (.cut 3 (.ref .leaf) .out)))) (.cut 2 .out (.ref (.cut 3 (.ref .leaf) .out)))))) .out))) (.ref (.cut 2 .out (.ref (.cut 3 (.ref (.cut 0 (.ref (.cut 1 (.ref (.cut 2 .out (.cut 3 (.ref .leaf) .out))) (.ref (.cut 2 .out (.cut 3 .leaf .out))))) (.cut 1 (.ref (.cut 2 .out (.cut 3 .leaf .out))) (.ref (.cut 2 .out (.cut 3 .leaf .out)))))) .out))))))))))
theorem h8 : check par t8 [40960, 24576, 8192, 16384] [8192, 8192, 8192, 16384] st = true := by decide +kernel
def t9 : Tree := (.ref (.cut 0 (.ref (.cut 1 (.ref (.cut 2 (.ref (.cut 3 (.ref (.cut 0 (.cut 1 (.cut 2 (.cut 3 (.ref .leaf) (.ref .leaf)) (.ref (.cut 3 (.ref .leaf) (.ref .leaf)))) (.cut 2 (.ref (.cut 3 (.ref .leaf) (.ref .leaf))) (.cut 3 (.ref .leaf) (.ref .leaf)))) (.cut 1 (.ref (.cut 2 (.ref (.cut 3 .leaf .leaf)) (.ref (.cut 3 (.ref .leaf) .leaf)))) (.cut 2 (.ref (.cut 3 (.ref .leaf) .leaf)) (.cut 3 (.ref .leaf) (.ref .leaf)))))) (.cut 0 (.ref (.cut 1 (.cut 2 (.cut 3 (.ref .leaf) (.ref .leaf)) (.ref (.cut 3 .leaf (.ref .leaf)))) (.ref (.cut 2 (.ref (.cut 3 .leaf (.ref .leaf))) (.cut 3 (.ref .leaf) (.cut 0 .leaf .leaf)))))) (.cut 1 (.ref (.cut 2 (.ref (.cut 3 (.ref .leaf) (.ref .leaf))) (.ref (.cut 3 (.ref .leaf) (.ref .leaf))))) (.ref (.cut 2 (.ref (.cut 3 (.ref .leaf) (.ref .leaf))) (.ref (.cut 3 (.ref .leaf) (.cut 0 (.ref .leaf) (.ref .leaf)))))))))) (.ref (.cut 3 (.ref (.cut 0 (.cut 1 .out (.ref (.cut 2 (.ref (.cut 3 .leaf (.ref .leaf))) .out))) (.ref (.cut 1 .out (.ref (.cut 2 (.cut 3 (.ref .leaf) (.ref .leaf)) .out)))))) (.ref (.cut 0 (.ref (.cut 1 .out (.cut 2 (.cut 3 (.ref .leaf) (.cut 0 (.ref .leaf) (.ref .leaf))) .out))) (.ref (.cut 1 .out (.ref (.cut 2 (.cut 3 .leaf (.cut 0 .leaf .leaf)) .out)))))))))) (.ref (.cut 2 (.ref (.cut 3 (.ref (.cut 0 (.cut 1 (.ref (.cut 2 (.ref (.cut 3 (.ref .leaf) (.ref .leaf))) (.ref (.cut 3 .leaf (.ref .leaf))))) (.cut 2 (.ref (.cut 3 (.ref .leaf) (.ref .leaf))) (.ref (.cut 3 (.ref .leaf) (.ref .leaf))))) (.ref (.cut 1 (.ref (.cut 2 (.cut 3 (.ref .leaf) .leaf) (.ref (.cut 3 .leaf .leaf)))) (.ref (.cut 2 (.cut 3 (.ref .leaf) (.ref .leaf)) (.ref (.cut 3 .leaf (.ref .leaf))))))))) (.ref (.cut 0 (.ref (.cut 1 (.cut 2 (.ref (.cut 3 .leaf (.cut 0 (.ref .leaf) (.ref .leaf)))) (.cut 3 (.ref .leaf) (.cut 0 (.ref .leaf) (.ref .leaf)))) (.cut 2 (.ref (.cut 3 (.ref .leaf) (.ref .leaf))) (.ref (.cut 3 (.ref .leaf) (.ref (.cut 0 .leaf .leaf))))))) (.ref (.cut 1 (.cut 2 (.cut 3 (.ref .leaf) (.ref .leaf)) (.ref (.cut 3 .leaf (.cut 0 .leaf .leaf)))) (.ref (.cut 2 (.cut 3 .leaf (.ref .leaf)) (.ref (.cut 3 .leaf (.cut 0 .leaf .leaf))))))))))) (.ref (.cut 3 (.ref (.cut 0 (.cut 1 (.cut 2 (.cut 3 .leaf (.ref .leaf)) (.ref (.cut 3 .leaf (.ref .leaf)))) (.cut 2 (.ref (.cut 3 .leaf (.ref .leaf))) (.ref (.cut 3 .leaf .leaf)))) (.cut 1 (.ref (.cut 2 (.cut 3 .leaf (.ref .leaf)) (.ref (.cut 3 .leaf (.ref .leaf))))) (.cut 2 (.ref (.cut 3 .leaf (.ref .leaf))) (.ref (.cut 3 .leaf (.ref .leaf))))))) (.ref (.cut 0 (.cut 1 (.ref (.cut 2 (.ref (.cut 3 (.cut 0 .leaf .leaf) (.cut 0 .leaf .leaf))) (.cut 3 (.ref .leaf) (.ref (.cut 0 (.ref (.cut 1 .out .leaf)) (.cut 1 .out (.ref .leaf))))))) (.ref (.cut 2 (.cut 3 (.ref .leaf) (.ref (.cut 0 (.ref (.cut 1 .leaf .leaf)) (.cut 1 (.ref .leaf) .leaf)))) (.ref (.cut 3 .leaf (.cut 0 (.cut 1 .leaf .leaf) (.cut 1 (.ref .leaf) .leaf))))))) (.cut 1 (.ref (.cut 2 (.ref (.cut 3 .leaf (.cut 0 .leaf .leaf))) (.ref (.cut 3 (.ref .leaf) (.cut 0 .leaf (.ref .leaf)))))) (.ref (.cut 2 (.ref (.cut 3 (.ref .leaf) (.cut 0 .leaf (.ref .leaf)))) (.ref (.cut 3 (.ref .leaf) (.ref (.cut 0 .leaf .leaf))))))))))))))) (.cut 1 (.ref (.cut 2 (.cut 3 (.ref (.cut 0 (.ref (.cut 1 (.cut 2 (.cut 3 (.ref .leaf) (.ref .leaf)) (.ref (.cut 3 .leaf (.ref .leaf)))) (.ref (.cut 2 (.ref (.cut 3 .leaf (.ref .leaf))) (.cut 3 .leaf .leaf))))) (.ref (.cut 1 (.ref (.cut 2 (.cut 3 (.ref .leaf) (.ref .leaf)) (.ref (.cut 3 (.ref .leaf) .leaf)))) (.ref (.cut 2 (.ref (.cut 3 (.ref .leaf) .leaf)) (.cut 3 (.ref .leaf) .leaf))))))) (.ref (.cut 0 (.ref (.cut 1 (.cut 2 (.ref (.cut 3 .leaf (.ref .leaf))) (.ref (.cut 3 (.ref .leaf) (.ref .leaf)))) (.cut 2 (.ref (.cut 3 (.ref .leaf) (.ref .leaf))) (.ref (.cut 3 (.ref .leaf) .leaf))))) (.cut 1 (.ref (.cut 2 (.cut 3 (.ref .leaf) (.ref .leaf)) (.ref (.cut 3 (.ref .leaf) (.ref .leaf))))) (.cut 2 (.ref (.cut 3 (.ref .leaf) (.ref .leaf))) (.ref (.cut 3 (.ref .leaf) .leaf))))))) (.ref (.cut 3 (.ref (.cut 0 (.ref (.cut 1 .out (.ref (.cut 2 (.cut 3 (.ref .leaf) .leaf) .out)))) (.cut 1 .out (.ref (.cut 2 (.ref (.cut 3 .leaf .leaf)) .out))))) (.ref (.cut 0 (.ref (.cut 1 .out (.ref (.cut 2 (.cut 3 (.ref .leaf) (.ref .leaf)) .out)))) (.cut 1 .out (.ref (.cut 2 (.ref (.cut 3 (.ref .leaf) (.ref .leaf))) .out))))))))) (.ref (.cut 2 (.ref (.cut 3 (.ref (.cut 0 (.ref (.cut 1 (.cut 2 (.cut 3 (.ref .leaf) .leaf) (.ref (.cut 3 (.ref .leaf) .leaf))) (.cut 2 (.cut 3 (.ref .leaf) .leaf) (.ref (.cut 3 .leaf .leaf))))) (.cut 1 (.cut 2 (.ref (.cut 3 (.ref .leaf) .leaf)) (.ref (.cut 3 .leaf .leaf))) (.ref (.cut 2 (.cut 3 (.ref .leaf) .leaf) (.ref (.cut 3 .leaf .leaf))))))) (.ref (.cut 0 (.ref (.cut 1 (.ref (.cut 2 (.cut 3 .leaf (.ref .leaf)) (.cut 3 (.ref .leaf) (.ref .leaf)))) (.ref (.cut 2 (.cut 3 (.ref .leaf) .leaf) (.cut 3 (.ref .leaf) (.ref .leaf)))))) (.cut 1 (.ref (.cut 2 (.cut 3 (.ref .leaf) .leaf) (.ref (.cut 3 .leaf (.ref .leaf))))) (.ref (.cut 2 (.cut 3 (.ref .leaf) .leaf) (.cut 3 (.ref .leaf) (.ref .leaf))))))))) (.ref (.cut 3 (.ref (.cut 0 (.cut 1 (.cut 2 (.cut 3 (.ref .leaf) (.ref .leaf)) (.ref (.cut 3 .leaf .leaf))) (.cut 2 (.ref (.cut 3 .leaf .leaf)) (.cut 3 (.ref .leaf) (.ref .leaf)))) (.cut 1 (.ref (.cut 2 (.ref (.cut 3 .leaf .leaf)) (.cut 3 (.ref .leaf) (.ref .leaf)))) (.cut 2 (.ref (.cut 3 (.ref .leaf) (.ref .leaf))) (.ref (.cut 3 .leaf (.ref .leaf))))))) (.ref (.cut 0 (.ref (.cut 1 (.cut 2 (.cut 3 (.ref .leaf) (.cut 0 (.ref .leaf) (.ref .leaf))) (.ref (.cut 3 (.ref .leaf) (.cut 0 (.ref .leaf) .leaf)))) (.ref (.cut 2 (.ref (.cut 3 (.ref .leaf) (.cut 0 (.ref .leaf) .leaf))) (.ref (.cut 3 .leaf (.cut 0 .leaf .leaf))))))) (.cut 1 (.ref (.cut 2 (.ref (.cut 3 (.ref .leaf) .leaf)) (.ref (.cut 3 (.ref .leaf) .leaf)))) (.ref (.cut 2 (.ref (.cut 3 (.ref .leaf) .leaf)) (.ref (.cut 3 (.ref .leaf) .leaf))))))))))))))
theorem h9 : check par t9 [40960, 24576, 24576, 8192] [8192, 8192, 8192, 8192] st = true := by decide +kernel
end FastNoise.RangeCheck.Super4
