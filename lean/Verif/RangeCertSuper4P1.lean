import Verif.RangeCertSuper4
/-! Generated by tools/rangecert/gen.py: a certificate for the checker `Verif.RangeCheck`. -/
namespace FastNoise.RangeCheck.Super4
set_option maxRecDepth 1000000
def t10 : Tree := (.ref (.cut 2 (.ref (.cut 3 (.ref (.cut 0 (.cut 1 (.ref (.cut 2 (.ref (.cut 3 (.ref .leaf) (.ref .leaf))) (.ref (.cut 3 (.ref .leaf) (.ref (.cut 0 (.ref .leaf) .leaf)))))) (.ref (.cut 2 (.ref (.cut 3 (.ref .leaf) (.ref (.cut 0 (.ref .leaf) .leaf)))) (.cut 3 (.ref (.cut 0 (.ref .leaf) .leaf)) (.cut 0 .leaf (.ref .leaf)))))) (.cut 1 (.ref (.cut 2 (.ref (.cut 3 (.ref .leaf) (.ref .leaf))) (.ref (.cut 3 (.ref .leaf) (.ref (.cut 0 .leaf (.ref .leaf))))))) (.ref (.cut 2 (.ref (.cut 3 (.ref .leaf) (.ref (.cut 0 .leaf (.ref .leaf))))) (.ref (.cut 3 (.ref (.cut 0 .leaf (.ref .leaf))) (.cut 0 .leaf (.ref .leaf))))))))) (.ref (.cut 0 (.ref (.cut 1 (.ref (.cut 2 .out (.ref (.cut 3 (.cut 0 (.cut 1 .out .leaf) (.ref (.cut 1 .out .leaf))) .out)))) (.ref (.cut 2 .out (.ref (.cut 3 (.cut 0 (.ref (.cut 1 (.ref .leaf) .leaf)) .leaf) .out)))))) (.ref (.cut 1 (.ref (.cut 2 .out (.ref (.cut 3 (.cut 0 (.ref .leaf) .leaf) .out)))) (.ref (.cut 2 .out (.cut 3 (.cut 0 .leaf .leaf) .out))))))))) (.ref (.cut 3 (.ref (.cut 0 (.ref (.cut 1 .out (.ref (.cut 2 (.ref (.cut 3 (.ref (.cut 0 (.cut 1 .out .leaf) (.ref (.cut 1 .out .leaf)))) (.ref (.cut 0 (.ref (.cut 1 .out .leaf)) .leaf)))) .out)))) (.ref (.cut 1 .out (.ref (.cut 2 (.cut 3 (.ref (.cut 0 (.ref .leaf) .leaf)) (.cut 0 .leaf .leaf)) .out)))))) (.ref (.cut 0 (.ref (.cut 1 .out (.ref (.cut 2 (.cut 3 (.cut 0 (.cut 1 .out (.cut 2 (.ref .leaf) .out)) (.cut 1 .out (.cut 2 (.ref .leaf) .out))) (.ref (.cut 0 (.ref (.cut 1 .out (.cut 2 .out .out))) (.cut 1 .out (.ref (.cut 2 .out .out)))))) .out)))) (.ref (.cut 1 .out (.ref (.cut 2 (.cut 3 (.ref (.cut 0 (.ref (.cut 1 .out (.cut 2 (.ref .leaf) .out))) (.cut 1 .out (.ref .leaf)))) (.ref (.cut 0 (.cut 1 .out (.cut 2 .out .out)) (.cut 1 .out (.cut 2 .out .out))))) .out))))))))))
theorem h10 : check par t10 [36864, 20480, 24576, 24576] [4096, 4096, 8192, 8192] st = true := by decide +kernel
def t11 : Tree := (.ref (.cut 3 (.ref (.cut 0 (.ref (.cut 1 (.ref (.cut 2 (.ref (.cut 3 (.ref (.cut 0 (.ref .leaf) .leaf)) (.ref (.cut 0 (.cut 1 .leaf (.ref .leaf)) (.ref (.cut 1 .leaf .leaf)))))) (.ref (.cut 3 (.ref (.cut 0 (.cut 1 .leaf (.ref .leaf)) (.ref (.cut 1 .leaf .leaf)))) (.ref (.cut 0 (.ref (.cut 1 .leaf (.ref .leaf))) .leaf)))))) (.ref (.cut 2 (.ref (.cut 3 (.ref (.cut 0 .leaf .leaf)) (.ref (.cut 0 (.ref (.cut 1 .leaf .leaf)) (.ref (.cut 1 .leaf .leaf)))))) (.ref (.cut 3 (.ref (.cut 0 (.ref (.cut 1 .leaf .leaf)) (.ref (.cut 1 .leaf .leaf)))) (.ref (.cut 0 (.cut 1 .leaf (.ref .leaf)) (.cut 1 .leaf .leaf))))))))) (.ref (.cut 1 (.ref (.cut 2 (.cut 3 (.ref .leaf) (.ref (.cut 0 (.ref .leaf) .leaf))) (.cut 3 (.ref (.cut 0 (.ref .leaf) .leaf)) (.cut 0 .leaf .leaf)))) (.ref (.cut 2 (.ref (.cut 3 (.ref .leaf) (.ref (.cut 0 (.cut 1 .leaf (.ref .leaf)) .leaf)))) (.cut 3 (.ref (.cut 0 (.cut 1 .leaf (.ref .leaf)) .leaf)) (.ref (.cut 0 (.ref (.cut 1 .leaf .leaf)) (.ref (.cut 1 .leaf .leaf))))))))))) (.ref (.cut 0 (.ref (.cut 1 (.ref (.cut 2 .out (.ref (.cut 3 (.cut 0 (.cut 1 (.cut 2 .out (.ref .leaf)) (.ref (.cut 2 .out (.ref (.cut 3 .leaf .out))))) (.cut 1 (.cut 2 .out (.ref .leaf)) (.cut 2 .out (.cut 3 (.ref .leaf) .out)))) .out)))) (.cut 2 .out (.ref (.cut 3 (.ref (.cut 0 (.ref (.cut 1 (.cut 2 .out (.cut 3 (.ref .leaf) .out)) (.cut 2 .out (.cut 3 (.ref .leaf) .out)))) (.cut 1 (.cut 2 .out (.ref (.cut 3 (.ref .leaf) .out))) (.ref (.cut 2 .out (.ref (.cut 3 .leaf .out))))))) .out))))) (.ref (.cut 1 (.cut 2 .out (.ref (.cut 3 (.cut 0 (.ref (.cut 1 (.ref .leaf) (.cut 2 .out (.ref .leaf)))) (.cut 1 (.ref .leaf) (.ref (.cut 2 .out (.ref .leaf))))) .out))) (.ref (.cut 2 .out (.ref (.cut 3 (.ref (.cut 0 (.cut 1 (.cut 2 .out (.cut 3 (.ref .leaf) .out)) (.ref (.cut 2 .out (.ref (.cut 3 .leaf .out))))) (.cut 1 (.cut 2 .out .leaf) (.ref (.cut 2 .out .leaf))))) .out))))))))))
theorem h11 : check par t11 [36864, 28672, 20480, 24576] [4096, 4096, 4096, 8192] st = true := by decide +kernel
def t12 : Tree := (.ref (.cut 0 (.ref (.cut 1 (.ref (.cut 2 (.ref (.cut 3 (.ref (.cut 0 (.cut 1 (.ref (.cut 2 (.ref .leaf) .leaf)) (.ref (.cut 2 .leaf (.ref .leaf)))) (.cut 1 .leaf (.ref (.cut 2 .leaf (.ref .leaf)))))) (.cut 0 (.cut 1 (.cut 2 .leaf (.ref .leaf)) (.ref (.cut 2 (.ref .leaf) (.cut 3 (.ref .leaf) (.ref .leaf))))) (.cut 1 (.cut 2 .leaf (.ref .leaf)) (.cut 2 (.ref .leaf) (.cut 3 (.ref .leaf) .leaf)))))) (.ref (.cut 3 (.ref (.cut 0 (.cut 1 .out (.cut 2 (.ref .leaf) .out)) (.cut 1 .out (.cut 2 .leaf .out)))) (.ref (.cut 0 (.ref (.cut 1 .out (.cut 2 (.cut 3 .leaf (.cut 0 .leaf .leaf)) .out))) (.cut 1 .out (.ref (.cut 2 (.cut 3 .leaf (.ref .leaf)) .out))))))))) (.cut 2 (.ref (.cut 3 (.ref (.cut 0 (.cut 1 (.cut 2 .leaf (.ref .leaf)) (.cut 2 (.ref .leaf) .leaf)) (.cut 1 (.cut 2 (.ref .leaf) .leaf) (.cut 2 (.ref .leaf) .leaf)))) (.ref (.cut 0 (.ref (.cut 1 (.cut 2 (.ref (.cut 3 .leaf .leaf)) (.cut 3 .leaf (.cut 0 .leaf .leaf))) (.cut 2 (.ref (.cut 3 .leaf .leaf)) (.cut 3 .leaf (.cut 0 .leaf (.ref .leaf)))))) (.cut 1 (.cut 2 (.ref .leaf) (.ref (.cut 3 .leaf (.ref .leaf)))) (.ref (.cut 2 (.ref (.cut 3 .leaf .leaf)) (.ref (.cut 3 .leaf (.cut 0 .leaf .leaf)))))))))) (.ref (.cut 3 (.ref (.cut 0 (.cut 1 (.ref (.cut 2 (.ref .leaf) (.ref .leaf))) (.cut 2 (.ref .leaf) .leaf)) (.ref (.cut 1 (.cut 2 (.ref .leaf) (.ref .leaf)) (.cut 2 (.ref .leaf) .leaf))))) (.ref (.cut 0 (.cut 1 (.cut 2 (.cut 3 (.ref .leaf) (.ref (.cut 0 (.ref (.cut 1 .leaf .leaf)) (.ref (.cut 1 .leaf .leaf))))) (.ref (.cut 3 (.ref .leaf) (.cut 0 (.cut 1 .out (.ref .leaf)) (.cut 1 .out (.ref (.cut 2 (.ref .leaf) .out))))))) (.ref (.cut 2 (.ref (.cut 3 (.ref .leaf) (.cut 0 (.cut 1 .leaf .leaf) (.cut 1 .leaf .leaf)))) (.ref (.cut 3 .leaf (.ref (.cut 0 (.cut 1 .leaf .leaf) (.cut 1 .leaf .leaf)))))))) (.cut 1 (.cut 2 (.cut 3 (.ref .leaf) (.cut 0 (.cut 1 (.ref .leaf) (.ref .leaf)) .leaf)) (.ref (.cut 3 .leaf (.ref (.cut 0 (.cut 1 .out .leaf) (.cut 1 .out .leaf)))))) (.ref (.cut 2 (.cut 3 .leaf (.ref (.cut 0 (.cut 1 .leaf .leaf) (.cut 1 .leaf .leaf)))) (.ref (.cut 3 .leaf (.cut 0 (.cut 1 (.ref .leaf) (.ref .leaf)) .leaf))))))))))))) (.ref (.cut 1 (.cut 2 (.ref (.cut 3 (.ref (.cut 0 (.cut 1 .leaf (.ref .leaf)) (.cut 1 (.ref .leaf) .leaf))) (.cut 0 (.ref (.cut 1 (.ref .leaf) (.cut 2 (.ref .leaf) .leaf))) (.cut 1 (.ref .leaf) (.ref (.cut 2 (.ref .leaf) (.ref .leaf))))))) (.ref (.cut 3 (.ref (.cut 0 (.ref (.cut 1 .out (.cut 2 .leaf .out))) (.ref (.cut 1 .out (.ref .leaf))))) (.ref (.cut 0 (.cut 1 .out (.cut 2 (.cut 3 (.ref .leaf) .leaf) .out)) (.cut 1 .out (.cut 2 .leaf .out))))))) (.ref (.cut 2 (.cut 3 (.ref (.cut 0 (.ref (.cut 1 (.cut 2 (.ref .leaf) .leaf) (.ref (.cut 2 .leaf .leaf)))) (.ref (.cut 1 .leaf (.ref .leaf))))) (.ref (.cut 0 (.cut 1 (.cut 2 (.ref .leaf) (.cut 3 (.ref .leaf) .leaf)) (.ref (.cut 2 (.ref .leaf) (.cut 3 (.ref .leaf) (.ref .leaf))))) (.cut 1 (.cut 2 (.ref .leaf) .leaf) (.ref (.cut 2 (.ref .leaf) .leaf)))))) (.cut 3 (.ref (.cut 0 (.ref (.cut 1 (.cut 2 (.ref .leaf) (.ref .leaf)) (.cut 2 (.ref .leaf) .leaf))) (.cut 1 (.ref .leaf) (.ref .leaf)))) (.ref (.cut 0 (.cut 1 (.cut 2 (.cut 3 (.ref .leaf) .leaf) (.ref (.cut 3 (.ref .leaf) (.cut 0 (.ref .leaf) (.ref .leaf))))) (.cut 2 (.ref (.cut 3 (.ref .leaf) (.cut 0 (.ref .leaf) (.ref .leaf)))) (.ref (.cut 3 (.ref .leaf) .leaf)))) (.cut 1 (.cut 2 (.cut 3 .leaf (.ref .leaf)) (.ref (.cut 3 .leaf .leaf))) (.cut 2 (.ref (.cut 3 .leaf .leaf)) (.cut 3 (.ref .leaf) .leaf))))))))))))
theorem h12 : check par t12 [36864, 28672, 28672, 20480] [4096, 4096, 4096, 4096] st = true := by decide +kernel
def t13 : Tree := (.ref (.cut 2 (.cut 3 (.cut 0 (.cut 1 (.ref (.cut 2 (.ref .leaf) (.ref (.cut 3 (.ref .leaf) (.ref .leaf))))) (.ref (.cut 2 (.ref (.cut 3 (.ref .leaf) (.ref .leaf))) (.ref (.cut 3 (.ref .leaf) .leaf))))) (.cut 1 (.ref (.cut 2 (.ref .leaf) (.ref (.cut 3 (.ref .leaf) (.ref .leaf))))) (.cut 2 (.ref (.cut 3 (.ref .leaf) (.ref .leaf))) (.ref (.cut 3 (.ref .leaf) (.ref .leaf)))))) (.ref (.cut 0 (.cut 1 (.ref (.cut 2 .out (.ref (.cut 3 (.cut 0 (.ref .leaf) .leaf) .out)))) (.cut 2 .out (.cut 3 (.ref (.cut 0 .leaf (.ref (.cut 1 .leaf .leaf)))) .out))) (.ref (.cut 1 (.cut 2 .out (.ref (.cut 3 (.cut 0 .leaf .leaf) .out))) (.cut 2 .out (.cut 3 (.cut 0 (.ref .leaf) .leaf) .out))))))) (.ref (.cut 3 (.ref (.cut 0 (.cut 1 .out (.cut 2 (.cut 3 (.ref (.cut 0 (.ref .leaf) .leaf)) (.ref (.cut 0 .leaf (.ref (.cut 1 .out .leaf))))) .out)) (.ref (.cut 1 .out (.cut 2 (.cut 3 (.ref (.cut 0 .leaf .leaf)) (.cut 0 (.ref .leaf) .leaf)) .out))))) (.ref (.cut 0 (.cut 1 .out (.ref (.cut 2 (.cut 3 (.cut 0 (.cut 1 .out (.cut 2 .leaf .out)) (.cut 1 .out (.cut 2 .leaf .out))) (.cut 0 (.ref (.cut 1 .out (.cut 2 .out .out))) (.cut 1 .out (.cut 2 .out .out)))) .out))) (.cut 1 .out (.cut 2 (.ref (.cut 3 (.ref (.cut 0 (.cut 1 .out (.cut 2 (.ref .leaf) .out)) (.cut 1 .out (.cut 2 (.ref .leaf) .out)))) (.cut 0 (.ref (.cut 1 .out (.ref (.cut 2 .out .out)))) (.ref (.cut 1 .out (.ref (.cut 2 .out .out))))))) .out))))))))
theorem h13 : check par t13 [34816, 26624, 28672, 28672] [2048, 2048, 4096, 4096] st = true := by decide +kernel
def t14 : Tree := (.ref (.cut 3 (.ref (.cut 0 (.cut 1 (.cut 2 (.ref (.cut 3 (.ref .leaf) (.ref (.cut 0 (.ref .leaf) .leaf)))) (.cut 3 (.ref (.cut 0 (.ref .leaf) .leaf)) (.ref (.cut 0 .leaf (.ref (.cut 1 .leaf .leaf)))))) (.ref (.cut 2 (.cut 3 (.ref .leaf) (.ref (.cut 0 .leaf (.cut 1 .leaf .leaf)))) (.cut 3 (.ref (.cut 0 .leaf (.cut 1 .leaf .leaf))) (.cut 0 (.ref .leaf) .leaf))))) (.ref (.cut 1 (.cut 2 (.cut 3 (.ref .leaf) (.ref (.cut 0 .leaf .leaf))) (.cut 3 (.ref (.cut 0 .leaf .leaf)) (.cut 0 (.ref .leaf) .leaf))) (.ref (.cut 2 (.cut 3 .leaf (.ref (.cut 0 (.cut 1 .leaf (.ref .leaf)) .leaf))) (.cut 3 (.ref (.cut 0 (.cut 1 .leaf (.ref .leaf)) .leaf)) (.cut 0 .leaf .leaf)))))))) (.ref (.cut 0 (.cut 1 (.ref (.cut 2 .out (.ref (.cut 3 (.cut 0 (.cut 1 (.cut 2 .out .leaf) (.cut 2 .out (.cut 3 .leaf .out))) (.cut 1 (.cut 2 .out .leaf) (.cut 2 .out (.cut 3 (.ref .leaf) .out)))) .out)))) (.ref (.cut 2 .out (.ref (.cut 3 (.cut 0 (.ref (.cut 1 (.cut 2 .out (.cut 3 (.ref .leaf) .out)) (.cut 2 .out (.cut 3 (.ref .leaf) .out)))) (.cut 1 (.cut 2 .out (.cut 3 (.ref .leaf) .out)) (.ref (.cut 2 .out (.ref (.cut 3 .leaf .out)))))) .out))))) (.cut 1 (.cut 2 .out (.ref (.cut 3 (.ref (.cut 0 (.cut 1 (.cut 2 .out (.ref .leaf)) (.cut 2 .out (.cut 3 (.ref .leaf) .out))) (.cut 1 (.ref .leaf) (.cut 2 .out (.ref (.cut 3 .leaf .out)))))) .out))) (.cut 2 .out (.ref (.cut 3 (.cut 0 (.ref (.cut 1 (.cut 2 .out (.ref (.cut 3 (.ref .leaf) .out))) (.ref (.cut 2 .out (.cut 3 .leaf .out))))) (.ref (.cut 1 (.ref (.cut 2 .out (.cut 3 .leaf .out))) (.ref (.cut 2 .out (.ref (.cut 3 .leaf .out))))))) .out))))))))
theorem h14 : check par t14 [34816, 30720, 26624, 28672] [2048, 2048, 2048, 4096] st = true := by decide +kernel
def t15 : Tree := (.ref (.cut 0 (.cut 1 (.ref (.cut 2 (.ref (.cut 3 (.cut 0 (.cut 1 .leaf (.ref (.cut 2 .leaf (.ref .leaf)))) (.cut 1 (.cut 2 .leaf (.ref .leaf)) (.cut 2 (.ref .leaf) (.cut 3 (.ref .leaf) .leaf)))) (.cut 0 (.cut 1 (.cut 2 .leaf .leaf) (.cut 2 .leaf (.cut 3 .leaf .leaf))) (.cut 1 (.cut 2 .leaf .leaf) (.cut 2 .leaf (.cut 3 .leaf .leaf)))))) (.cut 3 (.ref (.cut 0 (.ref (.cut 1 .out (.cut 2 (.cut 3 (.ref .leaf) .leaf) .out))) (.cut 1 .out (.ref (.cut 2 (.cut 3 (.ref .leaf) .leaf) .out))))) (.ref (.cut 0 (.ref (.cut 1 .out (.cut 2 (.cut 3 .leaf .leaf) .out))) (.cut 1 .out (.cut 2 (.cut 3 (.ref .leaf) (.cut 0 (.ref .leaf) .leaf)) .out))))))) (.ref (.cut 2 (.cut 3 (.ref (.cut 0 (.ref (.cut 1 (.cut 2 .leaf (.cut 3 (.ref .leaf) .leaf)) (.cut 2 .leaf (.cut 3 (.ref .leaf) .leaf)))) (.cut 1 (.ref (.cut 2 .leaf (.cut 3 (.ref .leaf) .leaf))) (.cut 2 (.ref .leaf) (.ref (.cut 3 .leaf .leaf)))))) (.ref (.cut 0 (.ref (.cut 1 (.cut 2 .leaf (.cut 3 .leaf .leaf)) (.cut 2 (.ref .leaf) (.cut 3 .leaf .leaf)))) (.cut 1 (.cut 2 (.ref .leaf) (.cut 3 (.ref .leaf) (.cut 0 (.ref .leaf) .leaf))) (.ref (.cut 2 (.ref .leaf) (.cut 3 (.cut 0 .leaf .leaf) (.ref (.cut 0 .leaf .leaf))))))))) (.ref (.cut 3 (.ref (.cut 0 (.cut 1 (.cut 2 (.cut 3 .leaf .leaf) (.cut 3 .leaf .leaf)) (.cut 2 (.cut 3 .leaf .leaf) (.cut 3 .leaf .leaf))) (.cut 1 (.cut 2 (.cut 3 .leaf .leaf) (.cut 3 .leaf (.cut 0 .leaf .leaf))) (.cut 2 (.cut 3 .leaf (.cut 0 .leaf .leaf)) (.cut 3 .leaf (.cut 0 .leaf .leaf)))))) (.cut 0 (.cut 1 (.cut 2 (.cut 3 (.ref .leaf) .leaf) (.ref (.cut 3 .leaf (.cut 0 .leaf .leaf)))) (.ref (.cut 2 (.cut 3 .leaf (.cut 0 .leaf .leaf)) (.ref (.cut 3 (.cut 0 .leaf .leaf) .leaf))))) (.cut 1 (.cut 2 (.cut 3 (.cut 0 (.ref .leaf) (.cut 1 (.ref .leaf) (.ref .leaf))) (.cut 0 (.cut 1 .leaf (.ref .leaf)) (.cut 1 (.cut 2 .leaf (.ref .leaf)) (.cut 2 (.ref .leaf) .leaf)))) (.ref (.cut 3 (.cut 0 (.cut 1 .out (.ref .leaf)) (.cut 1 .out (.ref (.cut 2 .leaf .out)))) (.cut 0 (.cut 1 .out .leaf) (.cut 1 .out (.cut 2 .leaf .out)))))) (.ref (.cut 2 (.cut 3 (.cut 0 (.cut 1 .leaf .leaf) (.cut 1 (.cut 2 .leaf (.ref .leaf)) (.cut 2 .leaf (.ref .leaf)))) (.cut 0 (.cut 1 .leaf .leaf) (.cut 1 (.cut 2 .leaf .leaf) (.cut 2 (.ref .leaf) .leaf)))) (.ref (.cut 3 (.cut 0 (.cut 1 .leaf .leaf) (.cut 1 (.cut 2 .leaf .leaf) (.cut 2 .leaf .leaf))) (.cut 0 (.cut 1 .leaf .leaf) (.cut 1 (.cut 2 .leaf .leaf) (.cut 2 .leaf .leaf)))))))))))))) (.cut 1 (.cut 2 (.cut 3 (.cut 0 (.ref (.cut 1 (.cut 2 .leaf (.ref .leaf)) (.cut 2 (.ref .leaf) (.cut 3 (.ref .leaf) .leaf)))) (.cut 1 (.ref .leaf) (.ref (.cut 2 (.ref .leaf) (.ref .leaf))))) (.ref (.cut 0 (.cut 1 (.cut 2 .leaf (.ref .leaf)) (.cut 2 (.ref .leaf) (.cut 3 .leaf .leaf))) (.cut 1 (.ref .leaf) (.cut 2 (.ref .leaf) .leaf))))) (.ref (.cut 3 (.ref (.cut 0 (.cut 1 .out (.cut 2 (.ref (.cut 3 .leaf .leaf)) .out)) (.cut 1 .out (.cut 2 (.cut 3 (.ref .leaf) (.ref .leaf)) .out)))) (.cut 0 (.ref (.cut 1 .out (.cut 2 (.cut 3 (.ref (.cut 0 .leaf (.ref .leaf))) (.ref (.cut 0 .leaf .leaf))) .out))) (.ref (.cut 1 .out (.ref (.cut 2 (.cut 3 .leaf (.cut 0 .leaf .leaf)) .out)))))))) (.cut 2 (.ref (.cut 3 (.ref (.cut 0 (.cut 1 (.cut 2 (.ref .leaf) (.ref (.cut 3 .leaf .leaf))) (.cut 2 (.ref .leaf) (.cut 3 (.ref .leaf) (.ref .leaf)))) (.cut 1 (.cut 2 (.ref .leaf) (.cut 3 (.ref .leaf) (.ref .leaf))) (.ref (.cut 2 .leaf (.cut 3 .leaf .leaf)))))) (.cut 0 (.ref (.cut 1 (.cut 2 (.ref .leaf) (.cut 3 (.ref (.cut 0 .leaf (.ref .leaf))) (.ref (.cut 0 .leaf .leaf)))) (.ref (.cut 2 .leaf (.cut 3 (.cut 0 .leaf .leaf) (.cut 0 .leaf .leaf)))))) (.ref (.cut 1 (.ref (.cut 2 .leaf (.cut 3 .leaf (.cut 0 .leaf .leaf)))) (.ref (.cut 2 .leaf (.ref (.cut 3 (.cut 0 .leaf .leaf) .leaf))))))))) (.cut 3 (.ref (.cut 0 (.ref (.cut 1 (.ref (.cut 2 (.ref (.cut 3 .leaf (.cut 0 .leaf .leaf))) (.cut 3 (.ref .leaf) (.cut 0 .leaf .leaf)))) (.ref (.cut 2 (.cut 3 (.ref .leaf) (.cut 0 .leaf .leaf)) (.ref (.cut 3 .leaf (.cut 0 .leaf .leaf))))))) (.cut 1 (.ref (.cut 2 (.ref (.cut 3 (.ref .leaf) .leaf)) (.ref (.cut 3 .leaf (.ref (.cut 0 .leaf .leaf)))))) (.ref (.cut 2 (.cut 3 .leaf (.ref (.cut 0 .leaf .leaf))) (.ref (.cut 3 .leaf .leaf))))))) (.ref (.cut 0 (.cut 1 (.cut 2 (.cut 3 (.cut 0 (.cut 1 (.ref .leaf) (.ref (.cut 2 .leaf (.ref .leaf)))) (.cut 1 .leaf (.ref (.cut 2 .leaf (.ref (.cut 3 .leaf .leaf)))))) (.cut 0 (.cut 1 (.cut 2 .leaf (.ref .leaf)) (.cut 2 (.ref .leaf) (.cut 3 (.ref .leaf) .leaf))) (.cut 1 (.cut 2 .leaf (.ref .leaf)) (.cut 2 (.ref .leaf) (.cut 3 .leaf .leaf))))) (.ref (.cut 3 (.cut 0 (.cut 1 .out (.cut 2 (.ref .leaf) .out)) (.cut 1 .out (.cut 2 (.cut 3 (.ref .leaf) .leaf) .out))) (.cut 0 (.cut 1 .out (.cut 2 (.cut 3 .leaf .leaf) .out)) (.cut 1 .out (.cut 2 (.cut 3 .leaf .leaf) .out)))))) (.cut 2 (.ref (.cut 3 (.cut 0 (.cut 1 (.cut 2 .leaf (.ref .leaf)) (.cut 2 .leaf .leaf)) (.cut 1 (.cut 2 .leaf (.cut 3 (.ref .leaf) .leaf)) (.cut 2 (.ref .leaf) (.cut 3 .leaf .leaf)))) (.cut 0 (.cut 1 (.cut 2 (.ref .leaf) (.cut 3 .leaf .leaf)) (.cut 2 (.ref .leaf) (.cut 3 .leaf .leaf))) (.cut 1 (.cut 2 (.ref .leaf) (.cut 3 .leaf .leaf)) (.ref (.cut 2 .leaf (.cut 3 .leaf .leaf))))))) (.cut 3 (.ref (.cut 0 (.cut 1 (.cut 2 (.cut 3 .leaf .leaf) (.cut 3 .leaf .leaf)) (.cut 2 (.cut 3 .leaf .leaf) (.cut 3 .leaf .leaf))) (.cut 1 (.cut 2 (.cut 3 .leaf .leaf) (.cut 3 .leaf .leaf)) (.cut 2 (.cut 3 .leaf .leaf) (.cut 3 .leaf .leaf))))) (.cut 0 (.cut 1 (.ref (.cut 2 (.ref (.cut 3 .leaf (.cut 0 .leaf .leaf))) (.cut 3 (.ref (.cut 0 .leaf .leaf)) (.cut 0 .leaf .leaf)))) (.ref (.cut 2 (.cut 3 (.ref (.cut 0 .leaf .leaf)) (.cut 0 .leaf .leaf)) (.ref (.cut 3 (.cut 0 .leaf .leaf) (.cut 0 .leaf .leaf)))))) (.cut 1 (.cut 2 (.cut 3 (.ref (.cut 0 .leaf (.cut 1 .leaf .leaf))) (.cut 0 (.ref (.cut 1 .leaf .leaf)) (.cut 1 (.ref .leaf) (.ref (.cut 2 .leaf (.ref .leaf)))))) (.ref (.cut 3 (.cut 0 (.ref (.cut 1 .out .leaf)) (.cut 1 .out (.ref .leaf))) (.cut 0 (.cut 1 .out (.ref (.cut 2 .leaf .out))) (.cut 1 .out (.cut 2 (.ref .leaf) .out)))))) (.ref (.cut 2 (.cut 3 (.cut 0 (.ref (.cut 1 .leaf .leaf)) (.cut 1 (.ref .leaf) .leaf)) (.cut 0 (.cut 1 .leaf .leaf) (.cut 1 (.cut 2 (.ref .leaf) (.ref .leaf)) (.cut 2 (.ref .leaf) (.cut 3 (.ref .leaf) (.ref .leaf)))))) (.ref (.cut 3 (.cut 0 (.cut 1 .leaf .leaf) (.cut 1 .leaf .leaf)) (.cut 0 (.cut 1 (.cut 2 .leaf .leaf) (.cut 2 .leaf .leaf)) (.cut 1 (.cut 2 (.cut 3 .leaf .leaf) (.cut 3 .leaf .leaf)) (.cut 2 (.cut 3 .leaf .leaf) (.cut 3 .leaf .leaf))))))))))))) (.cut 1 (.cut 2 (.cut 3 (.cut 0 (.cut 1 .leaf (.cut 2 (.ref .leaf) .leaf)) (.cut 1 (.ref .leaf) .leaf)) (.cut 0 (.cut 1 (.ref .leaf) (.cut 2 (.ref .leaf) (.cut 3 .leaf (.ref .leaf)))) (.cut 1 (.ref .leaf) (.ref (.cut 2 .leaf (.ref .leaf)))))) (.cut 3 (.ref (.cut 0 (.cut 1 .out (.cut 2 .leaf .out)) (.cut 1 .out (.ref .leaf)))) (.ref (.cut 0 (.cut 1 .out (.cut 2 (.cut 3 (.ref .leaf) .leaf) .out)) (.cut 1 .out (.cut 2 (.cut 3 (.ref .leaf) .leaf) .out)))))) (.cut 2 (.cut 3 (.ref (.cut 0 (.cut 1 (.cut 2 (.ref .leaf) .leaf) (.cut 2 (.ref .leaf) (.cut 3 .leaf (.ref .leaf)))) (.cut 1 (.ref .leaf) (.ref (.cut 2 .leaf .leaf))))) (.ref (.cut 0 (.cut 1 (.cut 2 (.ref .leaf) (.cut 3 (.ref .leaf) .leaf)) (.ref (.cut 2 .leaf (.cut 3 .leaf (.cut 0 .leaf .leaf))))) (.cut 1 (.cut 2 (.ref .leaf) (.cut 3 (.ref .leaf) .leaf)) (.ref (.cut 2 .leaf (.cut 3 .leaf .leaf))))))) (.cut 3 (.cut 0 (.ref (.cut 1 (.cut 2 (.cut 3 .leaf .leaf) (.cut 3 .leaf .leaf)) (.cut 2 (.cut 3 .leaf .leaf) (.cut 3 .leaf .leaf)))) (.cut 1 (.ref (.cut 2 (.ref .leaf) .leaf)) (.ref (.cut 2 .leaf (.ref .leaf))))) (.cut 0 (.cut 1 (.cut 2 (.cut 3 (.ref (.cut 0 (.cut 1 .leaf .leaf) .leaf)) (.cut 0 (.cut 1 .leaf (.ref (.cut 2 (.ref .leaf) (.ref .leaf)))) (.cut 1 (.ref .leaf) (.cut 2 (.ref .leaf) .leaf)))) (.ref (.cut 3 (.cut 0 (.cut 1 .out (.ref .leaf)) (.cut 1 .out (.ref .leaf))) (.cut 0 (.cut 1 .out (.cut 2 (.cut 3 (.ref .leaf) (.ref .leaf)) .out)) (.ref (.cut 1 .out (.cut 2 (.cut 3 (.ref .leaf) .leaf) .out))))))) (.ref (.cut 2 (.cut 3 (.cut 0 (.cut 1 .leaf .leaf) (.cut 1 .leaf (.ref .leaf))) (.cut 0 (.cut 1 (.cut 2 (.ref .leaf) (.cut 3 (.ref .leaf) (.ref .leaf))) (.ref (.cut 2 .leaf (.cut 3 .leaf .leaf)))) (.ref (.cut 1 (.cut 2 .leaf (.cut 3 (.ref .leaf) .leaf)) (.cut 2 .leaf (.cut 3 .leaf .leaf)))))) (.ref (.cut 3 (.cut 0 (.cut 1 .leaf .leaf) (.cut 1 .leaf .leaf)) (.cut 0 (.cut 1 (.cut 2 (.cut 3 .leaf .leaf) (.cut 3 .leaf (.cut 0 .leaf .leaf))) (.cut 2 (.cut 3 .leaf (.cut 0 .leaf .leaf)) (.cut 3 .leaf (.cut 0 .leaf .leaf)))) (.cut 1 (.cut 2 (.cut 3 .leaf (.cut 0 .leaf .leaf)) (.cut 3 .leaf (.ref (.cut 0 .leaf .leaf)))) (.cut 2 (.cut 3 .leaf (.ref (.cut 0 .leaf .leaf))) (.cut 3 .leaf (.cut 0 .leaf .leaf)))))))))) (.cut 1 (.cut 2 (.cut 3 .leaf (.ref (.cut 0 (.cut 1 .leaf .leaf) .leaf))) (.ref (.cut 3 (.cut 0 .leaf .leaf) (.cut 0 (.cut 1 .out (.cut 2 .leaf .out)) (.cut 1 .out .leaf))))) (.cut 2 (.ref (.cut 3 (.cut 0 .leaf .leaf) (.cut 0 (.cut 1 (.cut 2 .leaf .leaf) (.cut 2 .leaf .leaf)) (.cut 1 .leaf .leaf)))) (.cut 3 (.ref .leaf) (.cut 0 (.cut 1 (.ref (.cut 2 (.ref (.cut 3 .leaf (.ref .leaf))) (.ref (.cut 3 (.ref .leaf) .leaf)))) (.ref (.cut 2 (.ref (.cut 3 (.ref .leaf) .leaf)) (.ref (.cut 3 .leaf .leaf))))) (.cut 1 (.ref (.cut 2 (.ref .leaf) (.ref .leaf))) (.ref (.cut 2 (.ref .leaf) (.ref .leaf)))))))))))))))))))
theorem h15 : check par t15 [34816, 30720, 30720, 26624] [2048, 2048, 2048, 2048] st = true := by decide +kernel
def t16 : Tree := (.ref (.cut 0 (.cut 1 (.ref (.cut 2 (.cut 3 (.cut 0 (.cut 1 (.cut 2 .leaf (.ref .leaf)) (.cut 2 (.ref .leaf) .leaf)) (.cut 1 (.ref (.cut 2 (.ref .leaf) (.ref .leaf))) (.cut 2 (.ref .leaf) (.cut 3 (.ref .leaf) .leaf)))) (.ref (.cut 0 (.cut 1 (.ref (.cut 2 .out (.ref .leaf))) (.cut 2 .out .leaf)) (.cut 1 (.ref (.cut 2 .out (.ref (.cut 3 (.ref .leaf) .out)))) (.ref (.cut 2 .out (.ref .leaf))))))) (.ref (.cut 3 (.cut 0 (.cut 1 .out (.cut 2 (.ref .leaf) .out)) (.cut 1 .out (.ref (.cut 2 (.cut 3 (.ref .leaf) (.ref .leaf)) .out)))) (.ref (.cut 0 (.cut 1 .out .leaf) (.cut 1 .out (.cut 2 (.cut 3 .leaf .leaf) .out)))))))) (.cut 2 (.ref (.cut 3 (.cut 0 (.cut 1 (.cut 2 (.ref .leaf) (.ref .leaf)) (.ref (.cut 2 (.ref .leaf) (.ref .leaf)))) (.cut 1 (.cut 2 (.ref (.cut 3 (.ref .leaf) (.ref .leaf))) (.ref (.cut 3 (.ref .leaf) (.ref .leaf)))) (.ref (.cut 2 (.ref (.cut 3 .leaf (.ref .leaf))) (.cut 3 (.ref .leaf) .leaf))))) (.ref (.cut 0 (.cut 1 (.cut 2 .out .leaf) (.cut 2 .out .leaf)) (.cut 1 (.cut 2 .out (.cut 3 .leaf .out)) (.cut 2 .out (.cut 3 .leaf .out))))))) (.cut 3 (.ref (.cut 0 (.cut 1 (.cut 2 (.cut 3 .leaf .leaf) (.cut 3 (.ref .leaf) .leaf)) (.cut 2 (.cut 3 (.ref .leaf) .leaf) (.cut 3 .leaf .leaf))) (.cut 1 (.cut 2 (.cut 3 (.cut 0 .leaf (.cut 1 .leaf (.cut 2 .leaf .leaf))) .leaf) (.cut 3 (.cut 0 (.ref .leaf) (.cut 1 .out (.cut 2 .leaf .out))) .leaf)) (.cut 2 (.cut 3 (.cut 0 (.ref .leaf) (.cut 1 (.cut 2 (.ref .leaf) .leaf) (.ref (.cut 2 (.ref .leaf) .leaf)))) .leaf) (.cut 3 (.cut 0 .leaf (.cut 1 (.cut 2 .leaf (.ref .leaf)) (.ref (.cut 2 .leaf (.ref .leaf))))) .leaf))))) (.cut 0 .leaf (.ref (.cut 1 (.cut 2 .leaf (.ref .leaf)) (.cut 2 (.ref .leaf) .leaf))))))) (.ref (.cut 1 (.cut 2 (.cut 3 (.cut 0 (.cut 1 (.ref (.cut 2 (.ref .leaf) (.ref (.cut 3 .leaf (.ref .leaf))))) (.ref (.cut 2 (.ref (.cut 3 .leaf (.ref .leaf))) (.ref (.cut 3 (.ref .leaf) .leaf))))) (.ref (.cut 1 (.cut 2 .leaf (.ref (.cut 3 .leaf (.ref .leaf)))) (.cut 2 (.ref (.cut 3 .leaf (.ref .leaf))) .leaf)))) (.ref (.cut 0 (.cut 1 (.cut 2 .out (.ref (.cut 3 .leaf .out))) (.cut 2 .out .leaf)) (.cut 1 (.cut 2 .out (.ref (.cut 3 .leaf .out))) (.cut 2 .out (.cut 3 .leaf .out)))))) (.ref (.cut 3 (.ref (.cut 0 (.cut 1 .out (.cut 2 (.cut 3 (.ref .leaf) .leaf) .out)) (.cut 1 .out (.cut 2 (.cut 3 (.ref .leaf) .leaf) .out)))) (.ref (.cut 0 (.cut 1 .out (.cut 2 (.cut 3 (.cut 0 .leaf (.ref .leaf)) (.ref (.cut 0 .leaf (.cut 1 .out .leaf)))) .out)) (.cut 1 .out (.cut 2 (.ref (.cut 3 (.ref (.cut 0 .leaf .leaf)) (.cut 0 (.cut 1 .out .leaf) (.cut 1 .out .leaf)))) .out))))))) (.cut 2 (.ref (.cut 3 (.ref (.cut 0 (.cut 1 (.cut 2 (.cut 3 .leaf (.ref .leaf)) (.cut 3 (.ref .leaf) .leaf)) (.cut 2 (.ref (.cut 3 .leaf (.ref .leaf))) (.cut 3 (.ref .leaf) .leaf))) (.cut 1 (.cut 2 (.cut 3 .leaf (.ref .leaf)) (.cut 3 (.ref .leaf) .leaf)) (.cut 2 (.cut 3 (.ref .leaf) (.ref .leaf)) (.cut 3 (.ref .leaf) .leaf))))) (.ref (.cut 0 (.cut 1 (.cut 2 .out (.cut 3 (.cut 0 .leaf (.ref .leaf)) .out)) (.cut 2 .out (.cut 3 (.ref (.cut 0 .leaf (.cut 1 .leaf .leaf))) .out))) (.cut 1 (.cut 2 .out (.ref (.cut 3 (.ref (.cut 0 .leaf .leaf)) .out))) (.cut 2 .out (.cut 3 (.ref (.cut 0 (.cut 1 .leaf (.cut 2 .out .leaf)) (.cut 1 (.ref .leaf) (.cut 2 .out .leaf)))) .out))))))) (.cut 3 (.ref (.cut 0 (.cut 1 (.cut 2 (.cut 3 (.cut 0 (.cut 1 .leaf (.cut 2 (.ref .leaf) (.cut 3 .leaf .leaf))) (.cut 1 (.ref .leaf) (.cut 2 (.ref .leaf) (.cut 3 .leaf (.ref .leaf))))) (.cut 0 .leaf (.ref .leaf))) (.cut 3 (.cut 0 (.cut 1 .out (.cut 2 (.cut 3 (.ref .leaf) (.ref .leaf)) .out)) (.ref (.cut 1 .out (.cut 2 (.cut 3 .leaf .leaf) .out)))) (.ref (.cut 0 .leaf (.cut 1 .out .leaf))))) (.cut 2 (.cut 3 (.cut 0 (.cut 1 (.cut 2 (.ref .leaf) (.cut 3 (.ref .leaf) (.ref .leaf))) (.ref (.cut 2 .leaf (.cut 3 .leaf .leaf)))) (.ref (.cut 1 (.cut 2 .leaf (.cut 3 .leaf .leaf)) (.ref (.cut 2 .leaf (.cut 3 (.cut 0 .leaf .leaf) .leaf)))))) (.ref (.cut 0 .leaf (.cut 1 .leaf .leaf)))) (.cut 3 (.cut 0 (.cut 1 (.cut 2 (.cut 3 (.cut 0 .leaf .leaf) .leaf) (.ref (.cut 3 (.cut 0 .leaf .leaf) .leaf))) (.cut 2 (.ref (.cut 3 (.cut 0 .leaf .leaf) .leaf)) (.cut 3 (.ref (.cut 0 .leaf .leaf)) .leaf))) (.cut 1 (.cut 2 (.cut 3 (.cut 0 (.cut 1 .leaf (.ref (.cut 2 (.ref .leaf) (.ref .leaf)))) (.cut 1 (.ref .leaf) (.cut 2 (.ref .leaf) (.cut 3 (.ref .leaf) .leaf)))) (.cut 0 .leaf (.cut 1 (.ref .leaf) (.ref .leaf)))) (.cut 3 (.ref (.cut 0 (.cut 1 .out (.cut 2 .leaf .out)) (.ref (.cut 1 .out (.cut 2 (.cut 3 .leaf .leaf) .out))))) (.ref (.cut 0 (.ref .leaf) (.cut 1 .out .leaf))))) (.cut 2 (.cut 3 (.ref (.cut 0 (.cut 1 (.cut 2 (.ref .leaf) .leaf) (.cut 2 (.ref .leaf) .leaf)) (.ref (.cut 1 (.cut 2 .leaf (.cut 3 .leaf .leaf)) (.cut 2 .leaf (.cut 3 .leaf .leaf)))))) (.ref (.cut 0 (.ref .leaf) (.cut 1 .leaf (.ref .leaf))))) (.cut 3 (.cut 0 (.ref (.cut 1 (.cut 2 .leaf .leaf) .leaf)) (.cut 1 (.ref (.cut 2 (.ref (.cut 3 .leaf .leaf)) (.cut 3 (.ref .leaf) .leaf))) (.ref (.cut 2 (.cut 3 (.ref .leaf) .leaf) (.ref (.cut 3 .leaf .leaf)))))) (.cut 0 .leaf (.cut 1 (.cut 2 .leaf (.ref .leaf)) (.cut 2 (.ref .leaf) .leaf))))))) (.cut 0 (.cut 1 .leaf (.cut 2 .leaf .leaf)) (.cut 1 (.ref (.cut 2 (.ref (.cut 3 .leaf .leaf)) (.cut 3 .leaf .leaf))) (.cut 2 (.ref (.cut 3 .leaf .leaf)) (.cut 3 .leaf .leaf))))))) (.cut 1 (.cut 2 (.cut 3 (.cut 0 (.cut 1 (.ref .leaf) (.ref (.cut 2 .leaf (.cut 3 .leaf .leaf)))) (.ref (.cut 1 .leaf (.cut 2 .leaf .leaf)))) (.ref (.cut 0 .leaf .leaf))) (.ref (.cut 3 (.cut 0 (.cut 1 .out (.cut 2 (.cut 3 (.cut 0 .leaf .leaf) .leaf) .out)) (.cut 1 .out (.cut 2 (.cut 3 .leaf (.ref .leaf)) .out))) (.cut 0 (.cut 1 .out (.cut 2 (.ref .leaf) .out)) (.cut 1 .out (.cut 2 (.ref .leaf) .out)))))) (.cut 2 (.ref (.cut 3 (.cut 0 (.cut 1 (.cut 2 .leaf (.cut 3 (.cut 0 .leaf .leaf) .leaf)) (.cut 2 (.ref .leaf) (.cut 3 (.ref .leaf) .leaf))) (.cut 1 (.cut 2 .leaf (.cut 3 .leaf (.ref .leaf))) (.cut 2 (.ref .leaf) (.cut 3 (.ref .leaf) .leaf)))) (.cut 0 (.cut 1 .leaf (.cut 2 .leaf .leaf)) (.cut 1 (.ref .leaf) (.cut 2 .leaf .leaf))))) (.cut 3 (.cut 0 (.cut 1 (.cut 2 (.cut 3 (.cut 0 (.cut 1 (.ref .leaf) (.ref (.cut 2 .leaf (.ref (.cut 3 .leaf .leaf))))) (.ref (.cut 1 .leaf (.cut 2 .leaf (.cut 3 .leaf .leaf))))) (.ref (.cut 0 (.cut 1 .leaf .leaf) (.cut 1 .leaf .leaf)))) (.ref (.cut 3 (.cut 0 (.ref (.cut 1 .out (.cut 2 (.cut 3 .leaf .leaf) .out))) (.cut 1 .out (.cut 2 (.cut 3 (.ref .leaf) .leaf) .out))) (.cut 0 (.cut 1 .out (.cut 2 .leaf .out)) (.cut 1 .out (.cut 2 (.ref .leaf) .out)))))) (.cut 2 (.ref (.cut 3 (.cut 0 (.ref (.cut 1 (.cut 2 .leaf (.cut 3 .leaf .leaf)) (.cut 2 .leaf (.cut 3 .leaf .leaf)))) (.cut 1 (.cut 2 (.ref .leaf) (.cut 3 (.ref .leaf) .leaf)) (.ref (.cut 2 .leaf (.cut 3 .leaf .leaf))))) (.cut 0 (.cut 1 (.cut 2 .leaf .leaf) (.ref (.cut 2 .leaf .leaf))) (.cut 1 (.cut 2 .leaf (.ref .leaf)) (.cut 2 (.ref .leaf) .leaf))))) (.cut 3 (.cut 0 (.cut 1 (.cut 2 (.cut 3 (.ref (.cut 0 .leaf .leaf)) (.cut 0 (.ref .leaf) (.ref (.cut 1 (.ref .leaf) (.ref .leaf))))) (.ref (.cut 3 (.cut 0 (.ref .leaf) (.ref (.cut 1 .out (.ref .leaf)))) (.ref (.cut 0 .leaf (.cut 1 .out .leaf)))))) (.ref (.cut 2 (.cut 3 (.cut 0 (.ref .leaf) (.ref (.cut 1 (.ref .leaf) .leaf))) (.ref (.cut 0 .leaf (.cut 1 .leaf .leaf)))) (.ref (.cut 3 (.cut 0 .leaf (.cut 1 .leaf .leaf)) (.cut 0 .leaf (.cut 1 (.ref .leaf) .leaf))))))) (.cut 1 (.ref (.cut 2 (.ref (.cut 3 (.ref (.cut 0 (.cut 1 .leaf .leaf) (.cut 1 .leaf .leaf))) (.cut 0 (.cut 1 .leaf (.ref .leaf)) (.cut 1 .leaf (.ref .leaf))))) (.ref (.cut 3 (.cut 0 (.cut 1 .out (.ref .leaf)) (.cut 1 .out (.ref .leaf))) (.cut 0 (.cut 1 .out .leaf) (.cut 1 .out .leaf)))))) (.ref (.cut 2 (.ref (.cut 3 (.cut 0 (.cut 1 .leaf .leaf) (.cut 1 .leaf (.cut 2 .leaf (.ref .leaf)))) (.cut 0 (.cut 1 (.cut 2 .leaf (.ref .leaf)) (.cut 2 .leaf .leaf)) (.cut 1 (.ref (.cut 2 .leaf .leaf)) (.cut 2 .leaf .leaf))))) (.ref (.cut 3 (.cut 0 (.cut 1 (.cut 2 .leaf (.ref .leaf)) (.cut 2 (.ref .leaf) .leaf)) (.cut 1 (.ref (.cut 2 (.ref .leaf) .leaf)) (.cut 2 (.ref .leaf) .leaf))) (.cut 0 (.cut 1 (.ref (.cut 2 (.ref .leaf) .leaf)) (.ref (.cut 2 .leaf (.ref .leaf)))) (.ref (.cut 1 (.cut 2 .leaf .leaf) (.cut 2 .leaf .leaf)))))))))) (.cut 0 (.cut 1 (.ref (.cut 2 (.ref (.cut 3 .leaf .leaf)) (.cut 3 (.ref .leaf) .leaf))) (.cut 2 (.ref (.cut 3 (.ref .leaf) .leaf)) (.cut 3 (.cut 0 (.ref .leaf) .leaf) (.ref .leaf)))) (.cut 1 (.ref (.cut 2 (.ref (.cut 3 (.cut 0 .leaf .leaf) .leaf)) (.cut 3 (.ref (.cut 0 .leaf (.cut 1 .out (.ref .leaf)))) (.ref .leaf)))) (.ref (.cut 2 (.cut 3 (.ref (.cut 0 .leaf (.cut 1 (.ref .leaf) .leaf))) (.ref .leaf)) (.ref (.cut 3 (.cut 0 (.cut 1 (.cut 2 .leaf (.ref .leaf)) (.ref (.cut 2 .leaf (.ref .leaf)))) (.cut 1 (.cut 2 .leaf (.ref .leaf)) (.ref (.cut 2 .leaf (.ref (.cut 3 .leaf .leaf)))))) (.cut 0 .leaf .leaf)))))))))) (.cut 1 (.ref (.cut 2 (.ref (.cut 3 (.cut 0 (.cut 1 .leaf (.cut 2 .leaf .leaf)) .leaf) (.cut 0 (.cut 1 .leaf .leaf) .leaf))) (.cut 3 (.cut 0 (.cut 1 .out (.cut 2 (.ref .leaf) .out)) (.cut 1 .out .leaf)) (.cut 0 (.cut 1 .out (.cut 2 (.ref .leaf) .out)) (.cut 1 .out (.ref (.cut 2 .leaf .out))))))) (.cut 2 (.ref (.cut 3 (.cut 0 (.cut 1 (.cut 2 (.ref .leaf) (.ref .leaf)) (.ref (.cut 2 .leaf .leaf))) (.cut 1 (.ref .leaf) (.ref .leaf))) (.cut 0 (.cut 1 (.ref (.cut 2 .leaf .leaf)) (.cut 2 (.ref .leaf) .leaf)) (.cut 1 (.ref .leaf) (.cut 2 .leaf (.ref .leaf)))))) (.cut 3 (.cut 0 (.cut 1 (.ref (.cut 2 (.ref (.cut 3 (.cut 0 .leaf .leaf) (.cut 0 (.cut 1 .leaf .leaf) .leaf))) (.ref (.cut 3 (.cut 0 (.cut 1 .out .leaf) .leaf) (.cut 0 (.cut 1 .out (.ref .leaf)) (.ref .leaf)))))) (.cut 2 (.ref (.cut 3 (.cut 0 (.cut 1 (.ref .leaf) .leaf) .leaf) (.cut 0 (.cut 1 (.ref .leaf) .leaf) (.ref .leaf)))) (.cut 3 (.ref (.cut 0 (.cut 1 (.ref (.cut 2 (.ref .leaf) .leaf)) (.ref (.cut 2 .leaf (.ref .leaf)))) (.ref (.cut 1 .leaf .leaf)))) (.ref (.cut 0 (.cut 1 (.ref (.cut 2 (.ref .leaf) .leaf)) (.ref (.cut 2 .leaf (.ref (.cut 3 .leaf .leaf))))) (.cut 1 (.cut 2 .leaf (.ref .leaf)) (.ref (.cut 2 .leaf (.ref (.cut 3 .leaf .leaf)))))))))) (.ref (.cut 1 (.cut 2 (.cut 3 .leaf .leaf) (.cut 3 (.ref .leaf) .leaf)) (.cut 2 (.cut 3 (.ref .leaf) .leaf) (.cut 3 (.cut 0 (.ref .leaf) .leaf) (.cut 0 (.cut 1 .leaf (.ref (.cut 2 .leaf (.ref .leaf)))) .leaf)))))) (.ref (.cut 0 (.cut 1 (.cut 2 (.cut 3 (.cut 0 .leaf .leaf) .leaf) (.cut 3 (.cut 0 (.cut 1 .out .leaf) .leaf) .leaf)) (.cut 2 (.cut 3 (.cut 0 (.cut 1 .leaf (.ref .leaf)) .leaf) .leaf) (.cut 3 (.cut 0 (.cut 1 (.cut 2 .leaf (.ref .leaf)) (.cut 2 (.ref .leaf) (.cut 3 (.ref .leaf) .leaf))) (.cut 1 (.cut 2 .leaf .leaf) (.cut 2 .leaf (.cut 3 .leaf .leaf)))) (.cut 0 (.cut 1 .leaf .leaf) (.cut 1 .leaf .leaf))))) (.cut 1 (.cut 2 (.cut 3 .leaf .leaf) (.cut 3 .leaf .leaf)) (.cut 2 (.cut 3 .leaf .leaf) (.cut 3 (.cut 0 (.cut 1 .leaf (.cut 2 .leaf .leaf)) (.cut 1 .leaf .leaf)) (.cut 0 (.cut 1 .leaf .out) .out)))))))))) (.cut 0 (.cut 1 (.ref (.cut 2 (.ref (.cut 3 .leaf .leaf)) (.cut 3 .leaf .leaf))) (.cut 2 (.ref (.cut 3 .leaf .leaf)) (.cut 3 (.cut 0 (.cut 1 (.ref .leaf) (.ref .leaf)) (.ref (.cut 1 .leaf (.cut 2 .leaf .leaf)))) (.ref .leaf)))) (.ref (.cut 1 (.cut 2 (.cut 3 .leaf .leaf) (.cut 3 (.cut 0 .leaf .leaf) .leaf)) (.cut 2 (.cut 3 (.cut 0 .leaf .leaf) .leaf) (.cut 3 (.cut 0 (.cut 1 .leaf (.cut 2 .leaf (.cut 3 .leaf .out))) (.cut 1 .leaf (.cut 2 .leaf .out))) .leaf)))))))))) (.cut 0 (.cut 1 (.ref (.cut 2 (.ref (.cut 3 (.ref .leaf) (.ref .leaf))) (.ref (.cut 3 (.ref .leaf) (.ref .leaf))))) (.cut 2 (.ref (.cut 3 (.ref .leaf) (.ref .leaf))) (.ref (.cut 3 (.ref .leaf) (.ref .leaf))))) (.cut 1 (.ref (.cut 2 (.ref (.cut 3 (.ref .leaf) (.ref .leaf))) (.ref (.cut 3 .leaf (.ref (.cut 0 (.cut 1 .out .leaf) (.cut 1 .out .leaf))))))) (.ref (.cut 2 (.ref (.cut 3 .leaf (.ref (.cut 0 (.cut 1 .leaf .leaf) (.cut 1 .leaf .leaf))))) (.ref (.cut 3 (.ref (.cut 0 (.cut 1 .leaf .leaf) (.cut 1 .leaf .leaf))) .leaf))))))))))))
theorem h16 : check par t16 [34816, 30720, 30720, 30720] [2048, 2048, 2048, 2048] st = true := by decide +kernel
def t17 : Tree := (.ref (.cut 1 (.cut 2 (.cut 3 (.cut 0 (.cut 1 (.ref (.cut 2 (.ref .leaf) (.ref (.cut 3 (.ref .leaf) (.ref .leaf))))) (.ref (.cut 2 (.ref (.cut 3 (.ref .leaf) (.ref .leaf))) (.ref (.cut 3 (.ref .leaf) (.ref .leaf)))))) (.ref (.cut 1 (.cut 2 .leaf (.ref .leaf)) (.cut 2 (.ref .leaf) .leaf)))) (.ref (.cut 0 (.ref (.cut 1 (.cut 2 .out (.ref (.cut 3 .leaf .out))) (.cut 2 .out (.cut 3 (.ref .leaf) .out)))) (.cut 1 (.ref (.cut 2 .out (.ref .leaf))) (.ref (.cut 2 .out (.ref .leaf))))))) (.ref (.cut 3 (.ref (.cut 0 (.ref (.cut 1 .out (.cut 2 (.cut 3 (.ref .leaf) (.ref .leaf)) .out))) (.cut 1 .out (.ref (.cut 2 (.ref .leaf) .out))))) (.ref (.cut 0 (.cut 1 .out (.cut 2 (.cut 3 (.ref (.cut 0 (.cut 1 .out (.cut 2 .leaf .out)) .leaf)) (.ref (.cut 0 (.cut 1 .out (.cut 2 .out .out)) (.cut 1 .out (.ref .leaf))))) .out)) (.cut 1 .out (.ref (.cut 2 (.ref (.cut 3 (.ref .leaf) (.ref (.cut 0 .leaf .leaf)))) .out)))))))) (.ref (.cut 2 (.ref (.cut 3 (.ref (.cut 0 (.ref (.cut 1 (.cut 2 (.cut 3 .leaf (.ref .leaf)) (.cut 3 (.ref .leaf) (.ref .leaf))) (.cut 2 (.ref (.cut 3 .leaf (.ref .leaf))) (.cut 3 (.ref .leaf) .leaf)))) (.cut 1 (.ref (.cut 2 (.ref .leaf) (.ref .leaf))) (.ref (.cut 2 (.ref (.cut 3 (.ref .leaf) (.ref .leaf))) (.cut 3 (.ref .leaf) (.ref .leaf))))))) (.ref (.cut 0 (.cut 1 (.cut 2 .out (.cut 3 (.ref (.cut 0 (.cut 1 .leaf .leaf) .leaf)) .out)) (.cut 2 .out (.cut 3 (.ref (.cut 0 (.cut 1 (.cut 2 .out (.ref (.cut 3 .leaf .out))) (.cut 2 .out (.cut 3 (.ref .leaf) .out))) (.cut 1 (.ref .leaf) (.cut 2 .out (.ref .leaf))))) .out))) (.cut 1 (.ref (.cut 2 .out (.ref (.cut 3 (.ref .leaf) .out)))) (.cut 2 .out (.ref (.cut 3 (.ref (.cut 0 .leaf .leaf)) .out)))))))) (.ref (.cut 3 (.ref (.cut 0 (.cut 1 (.cut 2 (.cut 3 (.cut 0 (.cut 1 (.ref .leaf) (.ref .leaf)) .leaf) (.ref (.cut 0 (.ref (.cut 1 .leaf .leaf)) (.ref .leaf)))) (.ref (.cut 3 (.cut 0 (.cut 1 .out (.cut 2 .leaf .out)) .leaf) (.cut 0 (.cut 1 .out (.cut 2 (.ref (.cut 3 .leaf .leaf)) .out)) (.cut 1 .out .leaf))))) (.cut 2 (.ref (.cut 3 (.cut 0 (.cut 1 (.cut 2 (.ref .leaf) .leaf) (.ref (.cut 2 .leaf .leaf))) .leaf) (.cut 0 (.cut 1 (.cut 2 .leaf (.ref (.cut 3 .leaf .leaf))) (.cut 2 (.ref .leaf) (.cut 3 (.ref .leaf) (.ref .leaf)))) (.cut 1 (.ref .leaf) (.cut 2 (.ref .leaf) .leaf))))) (.cut 3 (.cut 0 (.cut 1 (.ref (.cut 2 (.ref .leaf) (.ref (.cut 3 (.ref .leaf) .leaf)))) (.ref (.cut 2 (.cut 3 (.ref .leaf) .leaf) (.ref (.cut 3 .leaf .leaf))))) (.cut 1 .leaf .leaf)) (.cut 0 (.ref (.cut 1 (.cut 2 (.cut 3 (.cut 0 .leaf (.ref .leaf)) (.ref (.cut 0 .leaf .leaf))) (.ref (.cut 3 (.cut 0 (.ref .leaf) .leaf) (.cut 0 (.cut 1 .out (.cut 2 .leaf .out)) .leaf)))) (.cut 2 (.ref (.cut 3 (.cut 0 (.ref .leaf) .leaf) (.cut 0 (.cut 1 (.cut 2 .leaf .leaf) (.ref (.cut 2 .leaf .leaf))) .leaf))) (.cut 3 (.cut 0 .leaf .leaf) (.cut 0 (.cut 1 (.ref (.cut 2 (.ref (.cut 3 .leaf .leaf)) (.cut 3 (.ref .leaf) .leaf))) (.cut 2 (.ref (.cut 3 (.ref .leaf) .leaf)) (.cut 3 .leaf (.cut 0 .leaf (.ref .leaf))))) (.cut 1 (.ref (.cut 2 (.ref .leaf) .leaf)) (.ref (.cut 2 .leaf (.ref .leaf))))))))) (.cut 1 (.ref (.cut 2 (.ref (.cut 3 .leaf .leaf)) (.cut 3 .leaf (.ref .leaf)))) (.ref (.cut 2 (.ref (.cut 3 .leaf (.ref .leaf))) (.ref (.cut 3 .leaf (.ref (.cut 0 .leaf .leaf))))))))))) (.cut 1 (.ref (.cut 2 (.ref (.cut 3 .leaf (.ref .leaf))) (.cut 3 .leaf (.ref (.cut 0 .leaf .leaf))))) (.cut 2 (.ref (.cut 3 .leaf (.ref (.cut 0 .leaf .leaf)))) (.cut 3 (.cut 0 .leaf .leaf) (.ref (.cut 0 (.cut 1 (.ref .leaf) (.ref (.cut 2 .leaf (.ref .leaf)))) (.ref .leaf)))))))) (.ref (.cut 0 (.cut 1 (.ref (.cut 2 (.ref (.cut 3 (.ref (.cut 0 (.cut 1 (.cut 2 .leaf (.ref .leaf)) (.cut 2 (.ref .leaf) .leaf)) (.cut 1 .leaf .leaf))) (.ref (.cut 0 (.ref (.cut 1 (.cut 2 .out (.ref (.cut 3 (.ref .leaf) .out))) (.cut 2 .out .leaf))) (.cut 1 (.cut 2 .out (.ref .leaf)) (.ref (.cut 2 .out (.ref .leaf)))))))) (.ref (.cut 3 (.ref (.cut 0 (.ref (.cut 1 .out (.cut 2 (.ref (.cut 3 (.ref .leaf) .leaf)) .out))) (.cut 1 .out (.ref (.cut 2 (.ref .leaf) .out))))) (.ref (.cut 0 (.cut 1 .out (.cut 2 (.ref (.cut 3 (.ref (.cut 0 .leaf .leaf)) (.cut 0 (.cut 1 .out (.ref .leaf)) (.ref .leaf)))) .out)) (.ref (.cut 1 .out (.cut 2 (.cut 3 .leaf .leaf) .out))))))))) (.ref (.cut 2 (.ref (.cut 3 (.ref (.cut 0 (.ref (.cut 1 (.cut 2 (.cut 3 .leaf (.ref .leaf)) (.ref (.cut 3 (.ref .leaf) .leaf))) (.cut 2 (.cut 3 .leaf (.ref .leaf)) (.cut 3 (.ref .leaf) .leaf)))) (.cut 1 (.ref (.cut 2 .leaf .leaf)) (.cut 2 .leaf (.ref .leaf))))) (.ref (.cut 0 (.cut 1 (.ref (.cut 2 .out (.cut 3 (.ref (.cut 0 .leaf .leaf)) .out))) (.cut 2 .out (.ref (.cut 3 (.cut 0 (.cut 1 (.ref .leaf) .leaf) (.ref .leaf)) .out)))) (.ref (.cut 1 (.cut 2 .out (.cut 3 .leaf .out)) (.cut 2 .out (.cut 3 .leaf .out)))))))) (.ref (.cut 3 (.ref (.cut 0 (.cut 1 (.ref (.cut 2 (.ref (.cut 3 (.cut 0 (.cut 1 .leaf .leaf) .leaf) (.cut 0 .leaf .leaf))) (.cut 3 (.cut 0 (.cut 1 .out (.cut 2 (.ref .leaf) .out)) .leaf) (.cut 0 (.cut 1 .out (.ref .leaf)) (.ref .leaf))))) (.cut 2 (.ref (.cut 3 (.cut 0 (.cut 1 (.ref (.cut 2 .leaf .leaf)) (.cut 2 .leaf .leaf)) .leaf) (.cut 0 (.cut 1 (.ref .leaf) .leaf) (.ref .leaf)))) (.cut 3 (.cut 0 (.cut 1 (.ref (.cut 2 (.ref (.cut 3 .leaf .leaf)) (.cut 3 (.cut 0 .leaf (.ref .leaf)) (.ref (.cut 0 .leaf .leaf))))) (.ref (.cut 2 (.cut 3 (.cut 0 .leaf (.ref .leaf)) (.ref (.cut 0 .leaf .leaf))) (.ref (.cut 3 (.cut 0 (.cut 1 (.cut 2 .leaf .leaf) (.cut 2 .leaf (.cut 3 .leaf .leaf))) (.cut 1 .leaf .leaf)) (.cut 0 (.cut 1 (.cut 2 .leaf .leaf) (.cut 2 .leaf (.cut 3 .leaf .out))) (.cut 1 .leaf .leaf))))))) (.ref (.cut 1 (.cut 2 .leaf .leaf) (.cut 2 .leaf (.cut 3 .leaf .leaf))))) (.ref (.cut 0 (.cut 1 (.cut 2 .leaf (.cut 3 .leaf .leaf)) (.cut 2 (.cut 3 .leaf .leaf) (.cut 3 (.cut 0 (.cut 1 .leaf .out) .out) .out))) (.cut 1 (.cut 2 .leaf .leaf) (.cut 2 .leaf .out))))))) (.ref (.cut 1 (.cut 2 (.cut 3 .leaf .leaf) (.cut 3 .leaf .leaf)) (.cut 2 (.cut 3 .leaf .leaf) (.cut 3 (.cut 0 (.cut 1 .leaf (.cut 2 .leaf .leaf)) .leaf) (.cut 0 (.cut 1 .leaf .out) .out))))))) (.ref (.cut 0 (.cut 1 (.cut 2 (.cut 3 .leaf (.ref .leaf)) (.ref (.cut 3 .leaf (.ref (.cut 0 (.cut 1 .out .out) .out))))) (.cut 2 (.ref (.cut 3 .leaf (.ref (.cut 0 (.cut 1 .leaf .out) .out)))) (.cut 3 (.ref (.cut 0 (.cut 1 .leaf .out) .out)) .out))) (.cut 1 (.cut 2 (.cut 3 .leaf (.ref .leaf)) (.ref (.cut 3 .leaf .out))) (.cut 2 (.ref (.cut 3 .leaf .out)) .out))))))))) (.cut 1 (.ref (.cut 2 (.ref (.cut 3 (.ref (.cut 0 .leaf .leaf)) (.ref (.cut 0 .leaf (.ref .leaf))))) (.ref (.cut 3 (.ref (.cut 0 .leaf (.ref .leaf))) (.ref (.cut 0 (.ref (.cut 1 .out (.cut 2 .leaf .out))) (.cut 1 .out (.ref .leaf)))))))) (.ref (.cut 2 (.ref (.cut 3 (.ref (.cut 0 .leaf (.ref .leaf))) (.ref (.cut 0 (.ref (.cut 1 (.cut 2 .out .leaf) (.cut 2 .out (.cut 3 .leaf .out)))) (.cut 1 (.ref .leaf) (.ref .leaf)))))) (.ref (.cut 3 (.ref (.cut 0 (.ref (.cut 1 (.cut 2 .leaf .leaf) (.cut 2 .leaf (.cut 3 .leaf .out)))) (.cut 1 (.ref .leaf) (.ref .leaf)))) (.ref (.cut 0 (.cut 1 (.cut 2 .leaf .out) .out) .out)))))))))))))))
theorem h17 : check par t17 [38912, 28672, 28672, 28672] [2048, 4096, 4096, 4096] st = true := by decide +kernel
def t18 : Tree := (.ref (.cut 1 (.ref (.cut 2 (.ref (.cut 3 (.ref (.cut 0 (.ref (.cut 1 (.ref (.cut 2 (.ref (.cut 3 (.ref .leaf) (.ref .leaf))) (.ref (.cut 3 .leaf (.ref .leaf))))) (.ref (.cut 2 (.ref (.cut 3 .leaf (.ref .leaf))) (.ref (.cut 3 (.ref .leaf) (.ref .leaf))))))) (.ref (.cut 1 (.ref (.cut 2 (.cut 3 .leaf (.ref .leaf)) (.ref (.cut 3 (.ref .leaf) (.ref .leaf))))) (.ref (.cut 2 (.ref (.cut 3 (.ref .leaf) (.ref .leaf))) (.cut 3 (.ref .leaf) .leaf))))))) (.ref (.cut 0 (.ref (.cut 1 (.cut 2 .out (.ref (.cut 3 (.cut 0 .leaf (.ref .leaf)) .out))) (.cut 2 .out (.cut 3 (.ref (.cut 0 .leaf .leaf)) .out)))) (.ref (.cut 1 (.ref (.cut 2 .out (.ref (.cut 3 (.ref .leaf) .out)))) (.ref (.cut 2 .out (.ref (.cut 3 (.ref .leaf) .out)))))))))) (.ref (.cut 3 (.ref (.cut 0 (.ref (.cut 1 .out (.cut 2 (.ref (.cut 3 (.ref (.cut 0 .leaf (.ref .leaf))) (.ref (.cut 0 .leaf .leaf)))) .out))) (.ref (.cut 1 .out (.ref (.cut 2 (.ref (.cut 3 (.ref .leaf) .leaf)) .out)))))) (.ref (.cut 0 (.ref (.cut 1 .out (.ref (.cut 2 (.ref (.cut 3 (.ref (.cut 0 (.cut 1 .out (.ref .leaf)) (.ref .leaf))) (.ref (.cut 0 (.cut 1 .out .leaf) (.cut 1 .out (.ref .leaf)))))) .out)))) (.cut 1 .out (.ref (.cut 2 (.ref (.cut 3 (.ref (.cut 0 (.ref .leaf) .leaf)) (.ref (.cut 0 (.ref .leaf) .leaf)))) .out))))))))) (.ref (.cut 2 (.ref (.cut 3 (.ref (.cut 0 (.ref (.cut 1 (.cut 2 (.cut 3 (.ref .leaf) (.ref (.cut 0 .leaf (.ref .leaf)))) (.ref (.cut 3 (.ref (.cut 0 .leaf (.ref .leaf))) (.ref (.cut 0 .leaf .leaf))))) (.ref (.cut 2 (.cut 3 (.ref .leaf) (.ref (.cut 0 .leaf .leaf))) (.cut 3 (.ref (.cut 0 .leaf .leaf)) (.cut 0 (.ref .leaf) (.ref .leaf))))))) (.ref (.cut 1 (.ref (.cut 2 (.cut 3 (.ref .leaf) (.ref .leaf)) (.cut 3 (.ref .leaf) (.ref .leaf)))) (.cut 2 (.ref (.cut 3 (.ref .leaf) (.ref .leaf))) (.ref (.cut 3 (.ref .leaf) (.ref .leaf)))))))) (.ref (.cut 0 (.ref (.cut 1 (.cut 2 .out (.ref (.cut 3 (.ref (.cut 0 (.cut 1 .leaf (.ref .leaf)) (.ref .leaf))) .out))) (.ref (.cut 2 .out (.ref (.cut 3 (.ref (.cut 0 (.cut 1 .leaf (.ref (.cut 2 .out .leaf))) (.cut 1 (.ref .leaf) (.ref .leaf)))) .out)))))) (.cut 1 (.ref (.cut 2 .out (.ref (.cut 3 (.ref (.cut 0 (.ref .leaf) .leaf)) .out)))) (.ref (.cut 2 .out (.ref (.cut 3 (.ref (.cut 0 (.ref .leaf) .leaf)) .out))))))))) (.ref (.cut 3 (.ref (.cut 0 (.ref (.cut 1 (.cut 2 (.ref (.cut 3 (.ref (.cut 0 .leaf .leaf)) (.cut 0 (.cut 1 .leaf (.ref .leaf)) (.ref .leaf)))) (.ref (.cut 3 (.ref (.cut 0 (.cut 1 .out .leaf) .leaf)) (.ref (.cut 0 (.cut 1 .out .leaf) (.cut 1 .out .leaf)))))) (.ref (.cut 2 (.ref (.cut 3 (.ref (.cut 0 (.cut 1 .leaf .leaf) .leaf)) (.ref (.cut 0 (.cut 1 .leaf (.ref (.cut 2 .leaf .leaf))) (.cut 1 (.ref .leaf) (.ref .leaf)))))) (.ref (.cut 3 (.cut 0 (.cut 1 (.ref .leaf) (.ref .leaf)) .leaf) (.ref (.cut 0 (.cut 1 (.ref (.cut 2 (.ref .leaf) .leaf)) (.cut 2 (.ref .leaf) .leaf)) (.cut 1 (.ref .leaf) (.ref .leaf)))))))))) (.cut 1 (.ref (.cut 2 (.ref (.cut 3 (.ref .leaf) (.ref (.cut 0 (.ref .leaf) .leaf)))) (.cut 3 (.ref (.cut 0 (.ref .leaf) (.ref .leaf))) (.ref (.cut 0 (.ref .leaf) .leaf))))) (.ref (.cut 2 (.ref (.cut 3 (.ref (.cut 0 (.ref .leaf) (.ref .leaf))) (.ref (.cut 0 (.ref .leaf) .leaf)))) (.ref (.cut 3 (.ref (.cut 0 (.ref .leaf) .leaf)) (.ref (.cut 0 (.ref (.cut 1 .leaf .leaf)) .leaf))))))))) (.ref (.cut 0 (.ref (.cut 1 (.ref (.cut 2 (.ref (.cut 3 (.ref (.cut 0 (.cut 1 .leaf .leaf) .leaf)) (.ref (.cut 0 (.cut 1 (.cut 2 .out (.ref .leaf)) (.cut 2 .out .leaf)) (.cut 1 .leaf (.ref .leaf)))))) (.ref (.cut 3 (.ref (.cut 0 (.cut 1 .out (.cut 2 (.ref .leaf) .out)) (.cut 1 .out (.ref .leaf)))) (.ref (.cut 0 (.ref (.cut 1 .out (.ref (.cut 2 (.cut 3 .leaf .leaf) .out)))) (.ref (.cut 1 .out (.cut 2 .leaf .out))))))))) (.cut 2 (.ref (.cut 3 (.ref (.cut 0 (.cut 1 (.ref .leaf) (.cut 2 (.ref .leaf) (.ref .leaf))) (.cut 1 (.ref .leaf) .leaf))) (.ref (.cut 0 (.ref (.cut 1 (.ref (.cut 2 .out (.ref (.cut 3 .leaf .out)))) (.ref (.cut 2 .out (.ref (.cut 3 .leaf .out)))))) (.ref (.cut 1 (.cut 2 .out .leaf) (.ref (.cut 2 .out .leaf)))))))) (.ref (.cut 3 (.ref (.cut 0 (.ref (.cut 1 (.ref (.cut 2 (.ref .leaf) (.cut 3 .leaf (.ref .leaf)))) (.ref (.cut 2 (.cut 3 .leaf (.ref .leaf)) (.ref (.cut 3 .leaf .leaf)))))) (.ref (.cut 1 (.cut 2 .leaf (.ref .leaf)) (.ref (.cut 2 .leaf .leaf)))))) (.ref (.cut 0 (.cut 1 (.cut 2 (.cut 3 .leaf (.ref .leaf)) (.ref (.cut 3 (.ref .leaf) (.ref (.cut 0 .leaf .out))))) (.cut 2 (.ref (.cut 3 (.ref .leaf) (.ref (.cut 0 .leaf .out)))) (.ref (.cut 3 (.ref (.cut 0 .leaf .out)) .out)))) (.cut 1 (.cut 2 .leaf (.ref .leaf)) (.cut 2 (.ref .leaf) .out))))))))) (.ref (.cut 1 (.cut 2 (.cut 3 (.cut 0 (.ref .leaf) .leaf) (.ref (.cut 0 (.ref .leaf) .leaf))) (.ref (.cut 3 (.cut 0 (.ref .leaf) (.ref .leaf)) (.ref (.cut 0 (.ref (.cut 1 .out .leaf)) .leaf))))) (.cut 2 (.ref (.cut 3 (.cut 0 (.ref .leaf) (.ref .leaf)) (.ref (.cut 0 (.ref (.cut 1 .leaf (.ref .leaf))) .leaf)))) (.cut 3 (.ref (.cut 0 (.ref (.cut 1 .leaf (.ref .leaf))) .leaf)) (.cut 0 (.ref (.cut 1 .leaf .out)) .out)))))))))))))
theorem h18 : check par t18 [45056, 24576, 24576, 24576] [4096, 8192, 8192, 8192] st = true := by decide +kernel
end FastNoise.RangeCheck.Super4
