import Verif.RangeCertOuterSimplex4
/-! Generated by tools/rangecert/gen.py: a certificate for the checker `Verif.RangeCheck`. -/
namespace FastNoise.RangeCheck.OuterSimplex4
set_option maxRecDepth 1000000
def t0 : Tree := (.ref (.cut 3 (.cut 0 (.ref (.cut 1 (.cut 2 (.cut 3 .leaf .leaf) (.ref (.cut 3 .leaf (.cut 0 (.cut 1 .out .leaf) (.cut 1 .out (.cut 2 .leaf .out)))))) (.ref (.cut 2 (.ref (.cut 3 .leaf (.cut 0 .out (.cut 1 .leaf .out)))) (.cut 3 (.ref (.cut 0 .out (.cut 1 (.ref .leaf) .out))) (.ref (.cut 0 .out (.cut 1 .leaf .out)))))))) (.ref (.cut 1 (.ref (.cut 2 (.ref (.cut 3 (.cut 0 .leaf .leaf) (.ref (.cut 0 (.cut 1 .leaf .leaf) (.cut 1 .leaf .leaf))))) (.ref (.cut 3 (.ref (.cut 0 (.ref (.cut 1 .out .leaf)) (.cut 1 .out .leaf))) (.ref (.cut 0 (.ref (.cut 1 .out .leaf)) (.cut 1 .out .leaf))))))) (.ref (.cut 2 (.ref (.cut 3 (.ref (.cut 0 (.ref (.cut 1 .leaf .leaf)) (.cut 1 .leaf .leaf))) (.ref (.cut 0 (.ref (.cut 1 (.cut 2 .out .leaf) .leaf)) (.cut 1 .leaf .leaf))))) (.ref (.cut 3 (.ref (.cut 0 (.ref (.cut 1 (.cut 2 .leaf .leaf) .leaf)) (.cut 1 .leaf .leaf))) (.ref (.cut 0 (.ref (.cut 1 .leaf .leaf)) .leaf))))))))) (.ref (.cut 0 (.ref (.cut 1 (.cut 2 .out (.cut 3 (.cut 0 (.cut 1 .out (.ref (.cut 2 .out .out))) (.cut 1 .out (.cut 2 .out .out))) .out)) (.cut 2 .out (.ref (.cut 3 (.cut 0 .out (.cut 1 (.cut 2 .out (.cut 3 (.cut 0 .out .leaf) .out)) .out)) .out))))) (.cut 1 (.cut 2 .out (.ref (.cut 3 (.cut 0 (.ref (.cut 1 .out (.cut 2 .out .out))) (.cut 1 .out (.ref (.cut 2 .out .out)))) .out))) (.cut 2 .out (.cut 3 (.ref (.cut 0 (.cut 1 (.cut 2 .out (.cut 3 (.cut 0 (.cut 1 .out (.ref (.cut 2 .out .out))) (.cut 1 .out .leaf)) .out)) (.cut 2 .out (.ref (.cut 3 (.cut 0 .out (.cut 1 .leaf .out)) .out)))) (.cut 1 (.cut 2 .out (.ref (.cut 3 (.cut 0 (.cut 1 .out .leaf) .leaf) .out))) (.cut 2 .out (.cut 3 (.cut 0 (.cut 1 .leaf .leaf) .leaf) .out))))) .out)))))))
theorem h0 : check par t0 [8192, 8192, 8192, 16384] [8192, 8192, 8192, 16384] st = true := by decide +kernel
def t1 : Tree := (.ref (.cut 3 (.ref (.cut 0 (.ref (.cut 1 .out (.ref (.cut 2 (.ref (.cut 3 (.cut 0 .out (.cut 1 .out .out)) (.cut 0 .out (.cut 1 .out .out)))) .out)))) (.cut 1 .out (.cut 2 (.cut 3 (.ref (.cut 0 (.ref (.cut 1 .out (.cut 2 (.cut 3 .leaf (.cut 0 .out (.cut 1 .out .out))) .out))) (.cut 1 .out (.ref (.cut 2 (.ref (.cut 3 .leaf (.cut 0 .leaf .leaf))) .out))))) (.ref (.cut 0 (.cut 1 .out (.cut 2 (.cut 3 (.cut 0 .out (.cut 1 .out .out)) (.ref (.cut 0 .out (.cut 1 .out .out)))) .out)) (.cut 1 .out (.cut 2 (.cut 3 (.ref (.cut 0 (.cut 1 .out .leaf) .leaf)) (.cut 0 (.cut 1 .out .leaf) .leaf)) .out))))) .out)))) (.ref (.cut 0 (.ref (.cut 1 .out (.cut 2 (.ref (.cut 3 (.cut 0 .out (.cut 1 .out .out)) (.cut 0 .out (.cut 1 .out .out)))) .out))) (.cut 1 .out (.ref (.cut 2 (.ref (.cut 3 (.cut 0 (.cut 1 .out (.cut 2 (.cut 3 .leaf (.ref (.cut 0 .out (.cut 1 .out .out)))) .out)) (.cut 1 .out (.cut 2 (.cut 3 .leaf (.cut 0 (.cut 1 .out (.ref (.cut 2 .out .out))) (.cut 1 .out (.cut 2 .out .out)))) .out))) (.cut 0 (.cut 1 .out (.ref (.cut 2 .out .out))) (.cut 1 .out (.cut 2 .out .out))))) .out)))))))
theorem h1 : check par t1 [8192, 8192, 24576, 16384] [8192, 8192, 8192, 16384] st = true := by decide +kernel
def t2 : Tree := (.ref (.cut 2 (.ref (.cut 3 (.ref (.cut 0 .out (.cut 1 (.cut 2 (.ref (.cut 3 (.cut 0 .out (.cut 1 (.ref (.cut 2 .leaf (.cut 3 .leaf (.cut 0 .out .leaf)))) .out)) (.ref (.cut 0 .out (.cut 1 (.cut 2 .out (.ref (.cut 3 (.cut 0 .out .leaf) .out))) .out))))) (.ref (.cut 3 (.ref (.cut 0 .out (.cut 1 (.ref (.cut 2 (.ref (.cut 3 .leaf (.cut 0 .out .leaf))) (.ref (.cut 3 .leaf (.cut 0 .out .leaf))))) .out))) (.ref (.cut 0 .out (.cut 1 (.cut 2 (.cut 3 (.cut 0 .out .leaf) (.ref (.cut 0 .out .leaf))) (.cut 3 (.ref (.cut 0 .out .leaf)) (.cut 0 .out .leaf))) .out)))))) .out))) (.ref (.cut 0 .out (.cut 1 (.ref (.cut 2 .out (.cut 3 (.cut 0 .out (.cut 1 (.cut 2 .out (.cut 3 .leaf .out)) .out)) .out))) .out))))) (.ref (.cut 3 (.ref (.cut 0 .out (.cut 1 (.ref (.cut 2 (.cut 3 (.cut 0 .out (.cut 1 (.cut 2 .leaf (.ref (.cut 3 .leaf (.ref (.cut 0 .out .leaf))))) .out)) (.ref (.cut 0 .out (.cut 1 (.cut 2 (.cut 3 .leaf .leaf) (.cut 3 (.ref (.cut 0 .out (.cut 1 .out .out))) (.cut 0 .out (.cut 1 .out .out)))) .out)))) (.cut 3 (.ref (.cut 0 .out (.cut 1 .out .out))) (.cut 0 .out (.cut 1 .out .out))))) .out))) (.ref (.cut 0 .out (.cut 1 (.ref (.cut 2 (.cut 3 (.cut 0 .out (.cut 1 (.cut 2 (.cut 3 .leaf (.ref (.cut 0 .out (.cut 1 (.cut 2 .out (.cut 3 .leaf .out)) .out)))) (.ref (.cut 3 (.cut 0 .out (.cut 1 .out .out)) (.cut 0 .out .leaf)))) .out)) (.ref (.cut 0 .out (.cut 1 (.cut 2 .out (.cut 3 (.cut 0 .out (.cut 1 .out .out)) .out)) .out)))) (.ref (.cut 3 (.cut 0 .out (.cut 1 .out .out)) (.cut 0 .out (.cut 1 .out .out)))))) .out)))))))
theorem h2 : check par t2 [8192, 24576, 16384, 16384] [8192, 8192, 16384, 16384] st = true := by decide +kernel
def t3 : Tree := (.ref (.cut 3 (.cut 0 (.cut 1 (.cut 2 (.ref (.cut 3 .leaf .leaf)) (.ref (.cut 3 .leaf .leaf))) (.cut 2 (.ref (.cut 3 .leaf .leaf)) (.cut 3 .leaf (.cut 0 .leaf .leaf)))) (.cut 1 (.cut 2 (.ref (.cut 3 (.cut 0 .leaf .leaf) (.ref (.cut 0 .leaf .leaf)))) (.ref (.cut 3 (.ref (.cut 0 .leaf .leaf)) (.cut 0 .leaf .leaf)))) (.cut 2 (.ref (.cut 3 (.ref (.cut 0 .leaf .leaf)) (.cut 0 .leaf .leaf))) (.cut 3 (.ref (.cut 0 .leaf .leaf)) (.cut 0 (.cut 1 .leaf (.cut 2 .leaf .leaf)) (.cut 1 (.cut 2 .leaf .leaf) (.cut 2 .leaf (.cut 3 .leaf .leaf)))))))) (.ref (.cut 0 (.cut 1 (.cut 2 .out (.cut 3 .leaf .out)) (.cut 2 .out (.cut 3 (.cut 0 .leaf (.cut 1 .leaf .leaf)) .out))) (.cut 1 (.cut 2 .out (.cut 3 (.cut 0 .leaf (.cut 1 .out .leaf)) .out)) (.cut 2 .out (.cut 3 (.cut 0 (.cut 1 (.cut 2 .out .leaf) (.cut 2 .out (.cut 3 .leaf .out))) (.cut 1 (.cut 2 .out (.cut 3 .leaf .out)) (.cut 2 .out (.cut 3 (.cut 0 .leaf .leaf) .out)))) .out)))))))
theorem h3 : check par t3 [20480, 4096, 4096, 8192] [4096, 4096, 4096, 8192] st = true := by decide +kernel
def t4 : Tree := (.ref (.cut 3 (.cut 0 (.cut 1 .out (.cut 2 (.cut 3 .leaf (.cut 0 .leaf (.cut 1 .out .leaf))) .out)) (.cut 1 .out (.cut 2 (.cut 3 (.ref (.cut 0 .leaf (.cut 1 .out .leaf))) (.cut 0 (.cut 1 .out (.cut 2 (.cut 3 .leaf .leaf) .out)) (.cut 1 .out (.cut 2 (.cut 3 .leaf (.cut 0 .leaf .leaf)) .out)))) .out))) (.cut 0 (.cut 1 .out (.cut 2 (.cut 3 (.cut 0 .leaf (.cut 1 .out .leaf)) (.ref (.cut 0 .leaf .leaf))) .out)) (.cut 1 .out (.cut 2 (.cut 3 (.cut 0 (.cut 1 .out (.cut 2 (.cut 3 .leaf .leaf) .out)) (.cut 1 .out (.cut 2 (.cut 3 (.cut 0 .leaf .leaf) (.ref (.cut 0 .leaf .leaf))) .out))) (.ref (.cut 0 (.cut 1 .out (.cut 2 .out .out)) (.cut 1 .out (.cut 2 .out .out))))) .out)))))
theorem h4 : check par t4 [20480, 4096, 12288, 8192] [4096, 4096, 4096, 8192] st = true := by decide +kernel
def t5 : Tree := (.ref (.cut 0 (.cut 1 (.ref (.cut 2 (.cut 3 .leaf .leaf) (.cut 3 .leaf (.cut 0 .leaf (.cut 1 .leaf .leaf))))) (.ref (.cut 2 (.cut 3 .leaf .leaf) (.cut 3 .leaf (.cut 0 .leaf .leaf))))) (.cut 1 (.ref (.cut 2 (.cut 3 (.ref (.cut 0 .leaf .leaf)) (.cut 0 .leaf (.cut 1 .leaf .leaf))) (.cut 3 (.cut 0 .leaf (.cut 1 .leaf .leaf)) (.cut 0 (.cut 1 (.cut 2 .leaf (.cut 3 .leaf .leaf)) (.cut 2 .leaf (.cut 3 .leaf .leaf))) (.cut 1 (.cut 2 (.cut 3 .leaf .leaf) (.cut 3 .leaf (.cut 0 .leaf .leaf))) (.cut 2 .leaf (.cut 3 .leaf (.cut 0 .leaf .leaf)))))))) (.cut 2 (.cut 3 .leaf (.ref (.cut 0 .leaf .leaf))) (.cut 3 (.ref (.cut 0 .leaf .leaf)) (.ref (.cut 0 (.cut 1 .leaf .leaf) (.cut 1 (.cut 2 .leaf .leaf) .leaf))))))))
theorem h5 : check par t5 [20480, 12288, 4096, 4096] [4096, 4096, 4096, 4096] st = true := by decide +kernel
def t6 : Tree := (.ref (.cut 0 (.cut 1 (.cut 2 .out (.cut 3 (.cut 0 .leaf (.cut 1 .leaf .leaf)) .out)) (.cut 2 .out (.cut 3 (.cut 0 .leaf .leaf) .out))) (.cut 1 (.cut 2 .out (.cut 3 (.cut 0 (.cut 1 (.cut 2 .out (.cut 3 .leaf .out)) (.cut 2 .out (.cut 3 .leaf .out))) (.cut 1 (.cut 2 .out (.cut 3 (.cut 0 .leaf .leaf) .out)) (.cut 2 .out (.cut 3 (.cut 0 .leaf .leaf) .out)))) .out)) (.cut 2 .out (.cut 3 (.cut 0 (.cut 1 (.cut 2 .out .leaf) .leaf) (.cut 1 (.cut 2 .out (.cut 3 .leaf .out)) .leaf)) .out)))))
theorem h6 : check par t6 [20480, 12288, 4096, 12288] [4096, 4096, 4096, 4096] st = true := by decide +kernel
def t7 : Tree := (.ref (.cut 1 (.cut 2 (.cut 3 .leaf (.cut 0 .leaf (.cut 1 .leaf .leaf))) (.cut 3 .leaf (.cut 0 .leaf .leaf))) (.cut 2 (.cut 3 .leaf (.cut 0 .leaf .leaf)) (.cut 3 .leaf (.cut 0 .leaf .leaf)))))
theorem h7 : check par t7 [18432, 12288, 12288, 4096] [2048, 4096, 4096, 4096] st = true := by decide +kernel
def t8 : Tree := (.ref (.cut 1 (.ref (.cut 2 (.cut 3 (.cut 0 .leaf .leaf) (.cut 0 (.cut 1 (.cut 2 (.cut 3 .leaf .leaf) (.cut 3 .leaf .leaf)) (.cut 2 (.cut 3 .leaf .leaf) (.cut 3 .leaf .leaf))) (.cut 1 (.cut 2 (.cut 3 .leaf (.cut 0 .leaf .leaf)) (.cut 3 .leaf (.cut 0 .leaf .leaf))) (.cut 2 (.cut 3 .leaf (.cut 0 .leaf .leaf)) (.cut 3 .leaf (.cut 0 .leaf .leaf)))))) (.cut 3 .leaf (.cut 0 (.cut 1 .out (.cut 2 (.cut 3 .leaf .leaf) .out)) (.cut 1 .out (.cut 2 (.cut 3 .leaf .leaf) .out)))))) (.cut 2 (.ref (.cut 3 .leaf (.cut 0 (.cut 1 (.cut 2 .leaf (.cut 3 .leaf .leaf)) .leaf) (.cut 1 (.cut 2 (.cut 3 .leaf .leaf) (.cut 3 .leaf .leaf)) .leaf)))) (.cut 3 .leaf (.ref (.cut 0 (.cut 1 (.cut 2 .leaf .leaf) .leaf) (.cut 1 (.cut 2 (.cut 3 .leaf .leaf) .leaf) .leaf)))))))
theorem h8 : check par t8 [22528, 12288, 12288, 4096] [2048, 4096, 4096, 4096] st = true := by decide +kernel
def t9 : Tree := (.ref (.cut 1 (.cut 2 (.cut 3 (.cut 0 .leaf .leaf) (.ref (.cut 0 .leaf .leaf))) (.ref (.cut 3 (.cut 0 .leaf .leaf) (.cut 0 .leaf .leaf)))) (.cut 2 (.ref (.cut 3 (.cut 0 .leaf .leaf) (.cut 0 .leaf .leaf))) (.cut 3 (.ref (.cut 0 .leaf .leaf)) (.cut 0 .leaf .leaf)))))
theorem h9 : check par t9 [18432, 12288, 12288, 12288] [2048, 4096, 4096, 4096] st = true := by decide +kernel
def t10 : Tree := (.ref (.cut 1 (.cut 2 (.cut 3 (.cut 0 .leaf .leaf) (.ref (.cut 0 .leaf (.cut 1 .leaf .leaf)))) (.ref (.cut 3 (.cut 0 .leaf (.cut 1 .out .leaf)) (.cut 0 .leaf (.cut 1 .out .leaf))))) (.cut 2 (.ref (.cut 3 (.cut 0 .leaf (.cut 1 .leaf .leaf)) (.cut 0 .leaf (.cut 1 .leaf .leaf)))) (.cut 3 (.ref (.cut 0 .leaf (.cut 1 .leaf .leaf))) (.cut 0 .leaf .leaf)))))
theorem h10 : check par t10 [21504, 10240, 10240, 10240] [1024, 2048, 2048, 2048] st = true := by decide +kernel
def t11 : Tree := (.ref (.cut 2 (.cut 3 (.cut 0 (.cut 1 .leaf (.cut 2 .leaf .leaf)) (.cut 1 .leaf (.cut 2 .leaf (.cut 3 .leaf .leaf)))) (.ref (.cut 0 (.cut 1 (.cut 2 .out .leaf) (.cut 2 .out (.cut 3 .leaf .out))) (.cut 1 (.cut 2 .out .leaf) (.cut 2 .out (.cut 3 .leaf .out)))))) (.ref (.cut 3 (.cut 0 (.cut 1 .out (.cut 2 (.cut 3 .leaf .leaf) .out)) (.cut 1 .out (.cut 2 (.cut 3 .leaf .leaf) .out))) (.cut 0 (.cut 1 .out (.cut 2 (.cut 3 .leaf .leaf) .out)) (.cut 1 .out (.cut 2 (.cut 3 .leaf (.ref (.cut 0 .leaf .leaf))) .out)))))))
theorem h11 : check par t11 [23552, 9216, 10240, 10240] [1024, 1024, 2048, 2048] st = true := by decide +kernel
def t12 : Tree := (.ref (.cut 3 (.cut 0 (.cut 1 (.cut 2 .leaf (.cut 3 .leaf .leaf)) (.cut 2 .leaf (.cut 3 .leaf .leaf))) (.cut 1 (.cut 2 .leaf (.cut 3 .leaf .leaf)) (.cut 2 .leaf (.cut 3 .leaf .leaf)))) (.cut 0 (.cut 1 (.cut 2 .out (.cut 3 .leaf .out)) (.cut 2 .out (.cut 3 .leaf .out))) (.cut 1 (.cut 2 .out (.cut 3 .leaf .out)) (.cut 2 .out (.cut 3 (.ref (.cut 0 .leaf .leaf)) .out))))))
theorem h12 : check par t12 [23552, 11264, 9216, 10240] [1024, 1024, 1024, 2048] st = true := by decide +kernel
def t13 : Tree := (.ref (.cut 0 (.cut 1 (.cut 2 (.cut 3 .leaf .leaf) (.cut 3 .leaf .leaf)) (.cut 2 (.cut 3 .leaf .leaf) (.cut 3 .leaf .leaf))) (.cut 1 (.cut 2 (.cut 3 .leaf .leaf) (.cut 3 .leaf (.cut 0 .leaf .leaf))) (.cut 2 (.cut 3 .leaf (.cut 0 .leaf .leaf)) (.cut 3 .leaf (.cut 0 .leaf .leaf))))))
theorem h13 : check par t13 [23552, 11264, 11264, 9216] [1024, 1024, 1024, 1024] st = true := by decide +kernel
def t14 : Tree := (.ref (.cut 1 (.cut 2 (.cut 3 (.cut 0 .leaf .leaf) (.ref (.cut 0 .leaf (.cut 1 .leaf .leaf)))) (.ref (.cut 3 (.cut 0 .leaf (.cut 1 .out .leaf)) (.cut 0 .leaf (.cut 1 .out .leaf))))) (.cut 2 (.ref (.cut 3 (.cut 0 .leaf (.cut 1 .leaf .leaf)) (.cut 0 .leaf (.cut 1 .leaf .leaf)))) (.cut 3 (.ref (.cut 0 .leaf (.cut 1 .leaf .leaf))) (.cut 0 .leaf .leaf)))))
theorem h14 : check par t14 [23040, 11264, 11264, 11264] [512, 1024, 1024, 1024] st = true := by decide +kernel
def t15 : Tree := (.ref (.cut 2 (.cut 3 (.cut 0 (.cut 1 .leaf (.cut 2 .leaf .leaf)) (.cut 1 .leaf (.cut 2 .leaf (.cut 3 .leaf .leaf)))) (.ref (.cut 0 (.cut 1 (.cut 2 .out .leaf) (.cut 2 .out (.cut 3 .leaf .out))) (.cut 1 (.cut 2 .out .leaf) (.cut 2 .out (.cut 3 .leaf .out)))))) (.ref (.cut 3 (.cut 0 (.cut 1 .out (.cut 2 (.cut 3 .leaf .leaf) .out)) (.cut 1 .out (.cut 2 (.cut 3 .leaf .leaf) .out))) (.cut 0 (.cut 1 .out (.cut 2 (.cut 3 .leaf .leaf) .out)) (.cut 1 .out (.cut 2 (.cut 3 .leaf (.ref (.cut 0 .leaf .leaf))) .out)))))))
theorem h15 : check par t15 [24064, 10752, 11264, 11264] [512, 512, 1024, 1024] st = true := by decide +kernel
def t16 : Tree := (.ref (.cut 3 (.cut 0 (.cut 1 (.cut 2 .leaf (.cut 3 .leaf .leaf)) (.cut 2 .leaf (.cut 3 .leaf .leaf))) (.cut 1 (.cut 2 .leaf (.cut 3 .leaf .leaf)) (.cut 2 .leaf (.cut 3 .leaf .leaf)))) (.cut 0 (.cut 1 (.cut 2 .out (.cut 3 .leaf .out)) (.cut 2 .out (.cut 3 .leaf .out))) (.cut 1 (.cut 2 .out (.cut 3 .leaf .out)) (.cut 2 .out (.cut 3 (.ref (.cut 0 .leaf .leaf)) .out))))))
theorem h16 : check par t16 [24064, 11776, 10752, 11264] [512, 512, 512, 1024] st = true := by decide +kernel
def t17 : Tree := (.ref (.cut 0 (.cut 1 (.cut 2 (.cut 3 .leaf .leaf) (.cut 3 .leaf .leaf)) (.cut 2 (.cut 3 .leaf .leaf) (.cut 3 .leaf (.cut 0 .leaf .leaf)))) (.cut 1 (.cut 2 (.cut 3 .leaf .leaf) (.cut 3 .leaf (.cut 0 .leaf .leaf))) (.cut 2 (.cut 3 .leaf (.cut 0 .leaf .leaf)) (.cut 3 .leaf (.cut 0 .leaf .leaf))))))
theorem h17 : check par t17 [24064, 11776, 11776, 10752] [512, 512, 512, 512] st = true := by decide +kernel
def t18 : Tree := (.ref (.cut 1 (.cut 2 (.cut 3 (.cut 0 .leaf .leaf) (.ref (.cut 0 .leaf (.cut 1 .leaf (.cut 2 .out .leaf))))) (.ref (.cut 3 (.cut 0 .leaf (.cut 1 .out (.cut 2 .leaf .out))) (.cut 0 .leaf (.cut 1 .out .leaf))))) (.cut 2 (.ref (.cut 3 (.cut 0 .leaf (.cut 1 .leaf .leaf)) (.cut 0 .leaf (.cut 1 (.cut 2 .out .leaf) .leaf)))) (.cut 3 (.ref (.cut 0 .leaf (.cut 1 (.cut 2 .leaf .leaf) .leaf))) (.cut 0 .leaf .leaf)))))
theorem h18 : check par t18 [23808, 11776, 11776, 11776] [256, 512, 512, 512] st = true := by decide +kernel
def t19 : Tree := (.ref (.cut 2 (.cut 3 (.cut 0 (.cut 1 .leaf (.cut 2 .leaf .leaf)) (.cut 1 .leaf (.cut 2 .leaf (.cut 3 .leaf .leaf)))) (.ref (.cut 0 (.cut 1 (.cut 2 .out .leaf) (.cut 2 .out (.cut 3 .leaf .out))) (.cut 1 (.cut 2 .out .leaf) (.cut 2 .out (.cut 3 .leaf .out)))))) (.ref (.cut 3 (.cut 0 (.cut 1 .out (.cut 2 (.cut 3 .leaf .leaf) .out)) (.cut 1 .out (.cut 2 (.cut 3 .leaf .leaf) .out))) (.cut 0 (.cut 1 .out (.cut 2 (.cut 3 .leaf (.ref (.cut 0 .leaf .leaf))) .out)) (.cut 1 .out (.cut 2 (.cut 3 .leaf (.ref (.cut 0 .leaf .leaf))) .out)))))))
theorem h19 : check par t19 [24320, 11520, 11776, 11776] [256, 256, 512, 512] st = true := by decide +kernel
def t20 : Tree := (.ref (.cut 3 (.cut 0 (.cut 1 (.cut 2 .leaf (.cut 3 .leaf .leaf)) (.cut 2 .leaf (.cut 3 .leaf .leaf))) (.cut 1 (.cut 2 .leaf (.cut 3 .leaf .leaf)) (.cut 2 .leaf (.cut 3 .leaf .leaf)))) (.cut 0 (.cut 1 (.cut 2 .out (.cut 3 .leaf .out)) (.cut 2 .out (.cut 3 (.ref (.cut 0 .leaf .leaf)) .out))) (.cut 1 (.cut 2 .out (.cut 3 .leaf .out)) (.cut 2 .out (.cut 3 (.ref (.cut 0 .leaf .leaf)) .out))))))
theorem h20 : check par t20 [24320, 12032, 11520, 11776] [256, 256, 256, 512] st = true := by decide +kernel
def t21 : Tree := (.ref (.cut 0 (.cut 1 (.cut 2 (.cut 3 .leaf .leaf) (.cut 3 .leaf (.cut 0 .leaf .leaf))) (.cut 2 (.cut 3 .leaf (.cut 0 .leaf .leaf)) (.cut 3 .leaf (.cut 0 .leaf .leaf)))) (.cut 1 (.cut 2 (.cut 3 .leaf .leaf) (.cut 3 .leaf (.cut 0 .leaf .leaf))) (.cut 2 (.cut 3 .leaf (.cut 0 .leaf .leaf)) (.cut 3 .leaf (.cut 0 .leaf .leaf))))))
theorem h21 : check par t21 [24320, 12032, 12032, 11520] [256, 256, 256, 256] st = true := by decide +kernel
def t22 : Tree := (.ref (.cut 1 (.cut 2 (.cut 3 (.cut 0 .leaf .leaf) (.ref (.cut 0 .leaf (.cut 1 .leaf (.cut 2 .out .leaf))))) (.ref (.cut 3 (.cut 0 .leaf (.cut 1 .out (.cut 2 .leaf .out))) (.cut 0 .leaf (.cut 1 .out (.cut 2 .leaf .out)))))) (.cut 2 (.ref (.cut 3 (.cut 0 .leaf (.cut 1 (.cut 2 .leaf .leaf) .leaf)) (.cut 0 .leaf (.cut 1 (.cut 2 .out .leaf) (.cut 2 .out .leaf))))) (.cut 3 (.ref (.cut 0 .leaf (.cut 1 (.cut 2 .leaf .leaf) (.cut 2 .leaf .leaf)))) (.cut 0 .leaf .leaf)))))
theorem h22 : check par t22 [24192, 12032, 12032, 12032] [128, 256, 256, 256] st = true := by decide +kernel
def t23 : Tree := (.ref (.cut 2 (.cut 3 (.cut 0 (.cut 1 .leaf (.cut 2 .leaf .leaf)) (.cut 1 .leaf (.cut 2 .leaf (.cut 3 .leaf .leaf)))) (.ref (.cut 0 (.cut 1 (.cut 2 .out (.cut 3 .leaf .out)) (.cut 2 .out (.cut 3 (.cut 0 .leaf .leaf) .out))) (.cut 1 (.cut 2 .out (.cut 3 .leaf .out)) (.cut 2 .out (.cut 3 (.cut 0 .leaf .leaf) .out)))))) (.ref (.cut 3 (.cut 0 (.cut 1 .out (.cut 2 (.cut 3 .leaf (.cut 0 .leaf .leaf)) .out)) (.cut 1 .out (.cut 2 (.cut 3 .leaf (.cut 0 .leaf .leaf)) .out))) (.cut 0 (.cut 1 .out (.cut 2 (.cut 3 (.cut 0 .leaf .leaf) (.ref (.cut 0 .leaf .leaf))) .out)) (.cut 1 .out (.cut 2 (.cut 3 (.cut 0 .leaf .leaf) (.ref (.cut 0 .leaf .leaf))) .out)))))))
theorem h23 : check par t23 [24448, 11904, 12032, 12032] [128, 128, 256, 256] st = true := by decide +kernel
def t24 : Tree := (.ref (.cut 3 (.cut 0 (.cut 1 (.cut 2 .leaf (.cut 3 .leaf (.cut 0 .leaf .leaf))) (.cut 2 .leaf (.cut 3 .leaf (.cut 0 .leaf .leaf)))) (.cut 1 (.cut 2 .leaf (.cut 3 .leaf (.cut 0 .leaf .leaf))) (.cut 2 .leaf (.cut 3 .leaf (.cut 0 .leaf .leaf))))) (.cut 0 (.cut 1 (.cut 2 .out (.cut 3 (.cut 0 .leaf .leaf) .out)) (.cut 2 .out (.cut 3 (.ref (.cut 0 .leaf .leaf)) .out))) (.cut 1 (.cut 2 .out (.cut 3 (.cut 0 .leaf .leaf) .out)) (.cut 2 .out (.cut 3 (.ref (.cut 0 .leaf .leaf)) .out))))))
theorem h24 : check par t24 [24448, 12160, 11904, 12032] [128, 128, 128, 256] st = true := by decide +kernel
def t25 : Tree := (.ref (.cut 0 (.cut 1 (.cut 2 (.cut 3 .leaf (.cut 0 .leaf .leaf)) (.cut 3 .leaf (.cut 0 .leaf .leaf))) (.cut 2 (.cut 3 .leaf (.cut 0 .leaf .leaf)) (.cut 3 .leaf (.cut 0 .leaf .leaf)))) (.cut 1 (.cut 2 (.cut 3 .leaf (.cut 0 .leaf .leaf)) (.cut 3 .leaf (.cut 0 .leaf (.ref .leaf)))) (.cut 2 (.cut 3 .leaf (.cut 0 .leaf (.ref .leaf))) (.cut 3 .leaf (.cut 0 .leaf .leaf))))))
theorem h25 : check par t25 [24448, 12160, 12160, 11904] [128, 128, 128, 128] st = true := by decide +kernel
def t26 : Tree := (.ref (.cut 1 (.cut 2 (.cut 3 (.cut 0 .leaf .leaf) (.ref (.cut 0 .leaf (.cut 1 (.cut 2 .out (.cut 3 .leaf .out)) (.cut 2 .out (.cut 3 .leaf .out)))))) (.ref (.cut 3 (.cut 0 .leaf (.cut 1 .out (.cut 2 (.cut 3 .leaf .leaf) .out))) (.cut 0 .leaf (.cut 1 .out (.cut 2 (.cut 3 .leaf .leaf) .out)))))) (.cut 2 (.ref (.cut 3 (.cut 0 .leaf (.cut 1 (.cut 2 .leaf (.cut 3 .leaf .leaf)) (.cut 2 .leaf (.cut 3 .leaf .leaf)))) (.cut 0 .leaf (.cut 1 (.cut 2 .out (.cut 3 .leaf .out)) (.cut 2 .out (.cut 3 .leaf .out)))))) (.cut 3 (.ref (.cut 0 .leaf (.cut 1 (.cut 2 (.cut 3 .leaf .leaf) (.cut 3 .leaf .leaf)) (.cut 2 (.cut 3 .leaf .leaf) (.cut 3 .leaf (.cut 0 .leaf .leaf)))))) (.cut 0 .leaf (.cut 1 (.cut 2 (.cut 3 .leaf (.ref (.cut 0 .leaf .leaf))) (.ref (.cut 3 (.cut 0 .leaf .leaf) (.cut 0 .leaf .leaf)))) (.cut 2 (.ref (.cut 3 (.cut 0 .leaf .leaf) (.cut 0 .leaf .leaf))) (.cut 3 (.ref (.cut 0 .leaf .leaf)) (.cut 0 .leaf .leaf)))))))))
theorem h26 : check par t26 [24384, 12160, 12160, 12160] [64, 128, 128, 128] st = true := by decide +kernel
def t27 : Tree := (.ref (.cut 2 (.cut 3 (.cut 0 (.cut 1 .leaf (.cut 2 .leaf (.cut 3 .leaf .leaf))) (.cut 1 .leaf (.cut 2 .leaf (.cut 3 .leaf .leaf)))) (.ref (.cut 0 (.cut 1 (.cut 2 .out (.cut 3 .leaf .out)) (.cut 2 .out (.cut 3 (.cut 0 .leaf .leaf) .out))) (.cut 1 (.cut 2 .out (.cut 3 .leaf .out)) (.cut 2 .out (.cut 3 (.cut 0 .leaf .leaf) .out)))))) (.ref (.cut 3 (.cut 0 (.cut 1 .out (.cut 2 (.cut 3 .leaf (.cut 0 .leaf .leaf)) .out)) (.cut 1 .out (.cut 2 (.cut 3 .leaf (.cut 0 .leaf .leaf)) .out))) (.cut 0 (.cut 1 .out (.cut 2 (.cut 3 (.cut 0 .leaf .leaf) (.ref (.cut 0 (.cut 1 .out .leaf) (.cut 1 .out (.cut 2 .out .out))))) .out)) (.cut 1 .out (.cut 2 (.cut 3 (.cut 0 .leaf .leaf) (.ref (.cut 0 (.cut 1 .out (.cut 2 .out .out)) .leaf))) .out)))))))
theorem h27 : check par t27 [24512, 12096, 12160, 12160] [64, 64, 128, 128] st = true := by decide +kernel
def t28 : Tree := (.ref (.cut 3 (.cut 0 (.cut 1 (.cut 2 (.cut 3 .leaf .leaf) (.cut 3 .leaf (.cut 0 .leaf .leaf))) (.cut 2 .leaf (.cut 3 .leaf (.cut 0 .leaf .leaf)))) (.cut 1 (.cut 2 (.cut 3 .leaf .leaf) (.cut 3 .leaf (.cut 0 .leaf .leaf))) (.cut 2 (.cut 3 .leaf .leaf) (.cut 3 .leaf (.cut 0 .leaf .leaf))))) (.cut 0 (.cut 1 (.cut 2 .out (.cut 3 (.cut 0 .leaf .leaf) .out)) (.cut 2 .out (.cut 3 (.ref (.cut 0 (.cut 1 .leaf .leaf) (.cut 1 .leaf .leaf))) .out))) (.cut 1 (.cut 2 .out (.cut 3 (.cut 0 .leaf .leaf) .out)) (.cut 2 .out (.cut 3 (.ref (.cut 0 (.cut 1 .leaf .leaf) .leaf)) .out))))))
theorem h28 : check par t28 [24512, 12224, 12096, 12160] [64, 64, 64, 128] st = true := by decide +kernel
def t29 : Tree := (.ref (.cut 0 (.cut 1 (.cut 2 (.cut 3 .leaf (.cut 0 .leaf .leaf)) (.cut 3 .leaf (.cut 0 (.cut 1 .out .leaf) (.cut 1 .out (.cut 2 .leaf .out))))) (.cut 2 (.cut 3 .leaf (.cut 0 (.cut 1 .leaf .leaf) (.cut 1 .leaf .leaf))) (.cut 3 .leaf (.cut 0 (.cut 1 .leaf .leaf) (.cut 1 (.cut 2 .leaf .leaf) (.cut 2 .leaf .leaf)))))) (.cut 1 (.cut 2 (.cut 3 .leaf (.cut 0 .leaf .leaf)) (.cut 3 .leaf (.cut 0 (.cut 1 .out (.cut 2 .leaf .out)) .leaf))) (.cut 2 (.cut 3 .leaf (.cut 0 (.cut 1 .leaf .leaf) .leaf)) (.cut 3 .leaf (.cut 0 (.cut 1 (.cut 2 .leaf .leaf) .leaf) .leaf))))))
theorem h29 : check par t29 [24512, 12224, 12224, 12096] [64, 64, 64, 64] st = true := by decide +kernel
def t30 : Tree := (.ref (.cut 2 (.cut 3 (.cut 0 (.cut 1 .leaf (.cut 2 .leaf .leaf)) (.cut 1 (.cut 2 .leaf (.ref (.cut 3 .leaf .leaf))) (.cut 2 (.ref (.cut 3 .leaf .leaf)) (.cut 3 .leaf .leaf)))) (.ref (.cut 0 (.cut 1 (.cut 2 .out (.cut 3 .leaf .out)) (.cut 2 .out .leaf)) (.cut 1 (.cut 2 .out (.cut 3 .leaf .out)) (.cut 2 .out (.cut 3 (.cut 0 .leaf .leaf) .out)))))) (.ref (.cut 3 (.cut 0 (.cut 1 .out (.cut 2 .leaf .out)) (.cut 1 .out (.cut 2 (.cut 3 .leaf (.cut 0 .leaf .leaf)) .out))) (.cut 0 (.cut 1 .out (.cut 2 (.cut 3 .leaf .leaf) .out)) (.cut 1 .out (.cut 2 (.cut 3 (.cut 0 .leaf (.cut 1 .out .leaf)) (.ref (.cut 0 .leaf (.cut 1 .out (.cut 2 .out .out))))) .out)))))))
theorem h30 : check par t30 [24480, 12192, 12224, 12224] [32, 32, 64, 64] st = true := by decide +kernel
def t31 : Tree := (.ref (.cut 3 (.cut 0 (.cut 1 (.cut 2 .leaf .leaf) (.cut 2 .leaf (.cut 3 .leaf .leaf))) (.cut 1 (.cut 2 (.cut 3 .leaf .leaf) (.cut 3 .leaf (.cut 0 .leaf .leaf))) (.cut 2 (.cut 3 .leaf (.ref (.cut 0 .leaf .leaf))) (.cut 3 (.ref (.cut 0 .leaf .leaf)) (.cut 0 .leaf (.cut 1 .leaf .leaf)))))) (.cut 0 (.cut 1 (.cut 2 .out (.cut 3 .leaf .out)) (.cut 2 .out (.cut 3 .leaf .out))) (.cut 1 (.cut 2 .out (.cut 3 (.cut 0 .leaf (.cut 1 .leaf (.cut 2 .out .leaf))) .out)) (.cut 2 .out (.cut 3 (.ref (.cut 0 .leaf (.cut 1 .leaf (.cut 2 .out .leaf)))) .out))))))
theorem h31 : check par t31 [24480, 12256, 12192, 12224] [32, 32, 32, 64] st = true := by decide +kernel
def t32 : Tree := (.ref (.cut 0 (.cut 1 (.cut 2 (.cut 3 .leaf .leaf) (.cut 3 .leaf .leaf)) (.cut 2 (.cut 3 .leaf .leaf) (.cut 3 .leaf .leaf))) (.cut 1 (.cut 2 (.cut 3 (.cut 0 .leaf .leaf) (.cut 0 .leaf (.cut 1 .leaf (.cut 2 .leaf .leaf)))) (.cut 3 (.cut 0 .leaf .leaf) (.cut 0 .leaf (.cut 1 .out (.cut 2 .leaf .out))))) (.cut 2 (.cut 3 (.cut 0 .leaf .leaf) (.cut 0 .leaf (.cut 1 .leaf (.cut 2 .leaf .leaf)))) (.cut 3 .leaf (.cut 0 .leaf (.cut 1 (.cut 2 .leaf .leaf) (.cut 2 .leaf .leaf))))))))
theorem h32 : check par t32 [24480, 12256, 12256, 12192] [32, 32, 32, 32] st = true := by decide +kernel
def t33 : Tree := (.ref (.cut 0 (.cut 1 (.cut 2 (.cut 3 .leaf .leaf) (.ref (.cut 3 .leaf .leaf))) (.cut 2 (.ref (.cut 3 .leaf .leaf)) .leaf)) (.cut 1 (.cut 2 (.cut 3 (.cut 0 .leaf (.cut 1 (.cut 2 .leaf .leaf) (.cut 2 .leaf .leaf))) (.ref (.cut 0 .leaf (.cut 1 (.cut 2 .out .leaf) (.cut 2 .out .leaf))))) (.ref (.cut 3 (.cut 0 .leaf (.cut 1 .out (.cut 2 (.cut 3 .leaf .leaf) .out))) (.cut 0 .leaf (.cut 1 .out (.cut 2 (.cut 3 .leaf .leaf) .out)))))) (.cut 2 (.ref (.cut 3 (.cut 0 .leaf (.cut 1 (.cut 2 .leaf (.cut 3 .leaf .leaf)) (.cut 2 (.cut 3 .leaf .leaf) (.cut 3 .leaf .leaf)))) (.cut 0 .leaf (.cut 1 (.cut 2 .out (.cut 3 .leaf .out)) (.cut 2 .out .leaf))))) (.cut 3 (.ref (.cut 0 .leaf (.cut 1 (.cut 2 .leaf .leaf) (.cut 2 .leaf .leaf)))) (.cut 0 .leaf (.cut 1 (.cut 2 .leaf .leaf) (.cut 2 .leaf .leaf))))))))
theorem h33 : check par t33 [24480, 12256, 12256, 12256] [32, 32, 32, 32] st = true := by decide +kernel
def t34 : Tree := (.ref (.cut 2 (.cut 3 (.cut 0 (.cut 1 (.cut 2 .leaf (.ref (.cut 3 .leaf .leaf))) (.cut 2 (.ref (.cut 3 .leaf .leaf)) (.cut 3 .leaf (.cut 0 .leaf .leaf)))) (.cut 1 .leaf (.cut 2 .leaf .leaf))) (.ref (.cut 0 (.cut 1 (.cut 2 .out (.cut 3 .leaf .out)) (.cut 2 .out (.cut 3 (.cut 0 .leaf .leaf) .out))) (.cut 1 (.cut 2 .out .leaf) (.cut 2 .out (.cut 3 .leaf .out)))))) (.ref (.cut 3 (.cut 0 (.cut 1 .out (.cut 2 (.cut 3 .leaf (.cut 0 .leaf .leaf)) .out)) (.cut 1 .out (.cut 2 (.cut 3 .leaf .leaf) .out))) (.cut 0 (.cut 1 .out (.cut 2 (.cut 3 (.cut 0 (.cut 1 .out .leaf) (.cut 1 .out .leaf)) (.ref (.cut 0 (.cut 1 .out (.cut 2 .out .out)) (.cut 1 .out (.cut 2 .out .out))))) .out)) (.cut 1 .out (.cut 2 (.cut 3 (.cut 0 .leaf .leaf) (.ref (.cut 0 .leaf .leaf))) .out)))))))
theorem h34 : check par t34 [24544, 12192, 12224, 12224] [32, 32, 64, 64] st = true := by decide +kernel
def t35 : Tree := (.ref (.cut 3 (.cut 0 (.cut 1 (.cut 2 (.cut 3 .leaf (.ref .leaf)) (.cut 3 .leaf (.cut 0 .leaf .leaf))) (.cut 2 (.cut 3 .leaf (.ref (.cut 0 .leaf .leaf))) (.cut 3 (.ref (.cut 0 .leaf .leaf)) (.cut 0 (.cut 1 .leaf .leaf) (.cut 1 .leaf .leaf))))) (.cut 1 (.cut 2 .leaf (.cut 3 .leaf .leaf)) (.cut 2 (.cut 3 .leaf .leaf) (.cut 3 .leaf (.cut 0 .leaf .leaf))))) (.cut 0 (.cut 1 (.cut 2 .out (.cut 3 (.cut 0 (.cut 1 .leaf (.cut 2 .out .leaf)) (.cut 1 .leaf (.cut 2 .out .leaf))) .out)) (.cut 2 .out (.cut 3 (.ref (.cut 0 (.cut 1 (.cut 2 .out .leaf) (.cut 2 .out .leaf)) (.cut 1 .leaf (.cut 2 .out .leaf)))) .out))) (.cut 1 (.cut 2 .out (.cut 3 (.cut 0 .leaf .leaf) .out)) (.cut 2 .out (.cut 3 (.ref (.cut 0 .leaf .leaf)) .out))))))
theorem h35 : check par t35 [24544, 12256, 12192, 12224] [32, 32, 32, 64] st = true := by decide +kernel
def t36 : Tree := (.ref (.cut 0 (.cut 1 (.cut 2 (.cut 3 (.cut 0 .leaf .leaf) (.cut 0 (.cut 1 .leaf (.cut 2 .leaf .leaf)) (.cut 1 .leaf (.cut 2 .leaf .leaf)))) (.cut 3 (.cut 0 .leaf .leaf) (.cut 0 (.cut 1 .out (.cut 2 .leaf .out)) (.cut 1 .out (.cut 2 .leaf .out))))) (.cut 2 (.cut 3 (.cut 0 .leaf .leaf) (.cut 0 (.cut 1 (.cut 2 .leaf .leaf) (.cut 2 .leaf .leaf)) (.cut 1 .leaf (.cut 2 .leaf .leaf)))) (.cut 3 .leaf (.cut 0 (.cut 1 (.cut 2 .leaf .leaf) (.cut 2 .leaf .leaf)) (.cut 1 (.cut 2 .leaf .leaf) (.cut 2 .leaf .leaf)))))) (.cut 1 (.cut 2 (.cut 3 .leaf (.cut 0 .leaf .leaf)) (.cut 3 .leaf (.cut 0 .leaf .leaf))) (.cut 2 (.cut 3 .leaf (.cut 0 .leaf .leaf)) (.cut 3 .leaf (.cut 0 .leaf .leaf))))))
theorem h36 : check par t36 [24544, 12256, 12256, 12192] [32, 32, 32, 32] st = true := by decide +kernel
def t37 : Tree := (.ref (.cut 2 (.cut 3 (.cut 0 (.cut 1 (.cut 2 .leaf .leaf) (.cut 2 .leaf .leaf)) (.cut 1 (.cut 2 .leaf .leaf) (.cut 2 .leaf .leaf))) (.ref (.cut 0 (.cut 1 (.cut 2 .out .leaf) (.cut 2 .out .leaf)) (.cut 1 (.cut 2 .out .leaf) (.cut 2 .out (.cut 3 .leaf .out)))))) (.ref (.cut 3 (.cut 0 (.cut 1 .out (.cut 2 (.cut 3 .leaf .leaf) .out)) (.cut 1 .out (.cut 2 (.cut 3 .leaf .leaf) .out))) (.cut 0 (.cut 1 .out (.cut 2 (.cut 3 .leaf .leaf) .out)) (.cut 1 .out (.cut 2 (.cut 3 .leaf .leaf) .out)))))))
theorem h37 : check par t37 [24528, 12240, 12256, 12256] [16, 16, 32, 32] st = true := by decide +kernel
def t38 : Tree := (.ref (.cut 2 (.ref (.cut 3 (.cut 0 (.cut 1 (.cut 2 .leaf (.cut 3 .leaf .leaf)) (.cut 2 (.cut 3 .leaf .leaf) (.cut 3 .leaf .leaf))) (.cut 1 (.cut 2 .leaf (.cut 3 .leaf .leaf)) (.cut 2 (.cut 3 .leaf .leaf) (.cut 3 .leaf .leaf)))) (.cut 0 (.cut 1 (.cut 2 .out (.cut 3 .leaf .out)) (.cut 2 .out (.cut 3 .leaf .out))) (.cut 1 (.cut 2 .out (.cut 3 .leaf .out)) (.cut 2 .out (.cut 3 .leaf .out)))))) (.cut 3 (.ref (.cut 0 (.cut 1 (.cut 2 .leaf (.cut 3 .leaf .leaf)) (.cut 2 (.cut 3 .leaf .leaf) (.cut 3 .leaf .leaf))) (.cut 1 (.cut 2 .leaf (.cut 3 .leaf .leaf)) (.cut 2 (.cut 3 .leaf .leaf) (.cut 3 .leaf .leaf))))) (.cut 0 (.cut 1 (.cut 2 (.cut 3 .leaf .leaf) (.ref (.cut 3 .leaf .leaf))) (.cut 2 (.ref (.cut 3 .leaf .leaf)) (.cut 3 .leaf .leaf))) (.cut 1 (.cut 2 (.cut 3 .leaf .leaf) (.ref (.cut 3 .leaf .leaf))) (.cut 2 (.ref (.cut 3 .leaf .leaf)) (.cut 3 .leaf .leaf)))))))
theorem h38 : check par t38 [24528, 12272, 12256, 12256] [16, 16, 32, 32] st = true := by decide +kernel
def t39 : Tree := (.ref (.cut 1 (.cut 2 (.cut 3 (.cut 0 .leaf .leaf) (.ref (.cut 0 .leaf .leaf))) (.ref (.cut 3 (.cut 0 .leaf .leaf) (.cut 0 (.cut 1 .out .leaf) .leaf)))) (.cut 2 (.ref (.cut 3 (.cut 0 .leaf .leaf) (.cut 0 (.cut 1 .leaf (.cut 2 .out .leaf)) .leaf))) (.cut 3 (.ref (.cut 0 (.cut 1 .leaf (.cut 2 .leaf .leaf)) .leaf)) (.cut 0 (.cut 1 (.cut 2 .leaf .leaf) (.cut 2 .leaf .leaf)) .leaf)))))
theorem h39 : check par t39 [24560, 12256, 12256, 12256] [16, 32, 32, 32] st = true := by decide +kernel
def t40 : Tree := (.ref (.cut 0 (.cut 1 (.cut 2 .out (.cut 3 (.cut 0 .leaf .leaf) .out)) (.cut 2 .out (.cut 3 (.cut 0 .leaf .leaf) .out))) (.cut 1 (.cut 2 .out (.cut 3 (.cut 0 (.cut 1 .out (.cut 2 .out .out)) (.cut 1 .out (.cut 2 .out .out))) .out)) (.cut 2 .out (.cut 3 (.cut 0 (.cut 1 (.cut 2 .out (.cut 3 (.cut 0 .leaf .leaf) .out)) (.cut 2 .out (.cut 3 (.cut 0 .leaf (.cut 1 .leaf .leaf)) .out))) (.cut 1 (.cut 2 .out (.cut 3 (.cut 0 (.cut 1 .out (.cut 2 .out .out)) (.cut 1 .out (.cut 2 .out .out))) .out)) (.cut 2 .out (.cut 3 (.cut 0 (.cut 1 (.cut 2 .out (.cut 3 (.cut 0 .leaf .leaf) .out)) (.cut 2 .out (.cut 3 (.cut 0 .leaf (.cut 1 .leaf .leaf)) .out))) (.cut 1 (.cut 2 .out (.cut 3 (.cut 0 (.cut 1 .out (.cut 2 .out .out)) (.cut 1 .out (.cut 2 .out .out))) .out)) (.cut 2 .out (.cut 3 (.cut 0 (.cut 1 (.cut 2 .out (.cut 3 (.cut 0 .leaf (.cut 1 .out .leaf)) .out)) (.cut 2 .out (.cut 3 (.cut 0 .leaf (.cut 1 (.cut 2 .out .leaf) (.cut 2 .out .leaf))) .out))) (.cut 1 (.cut 2 .out (.cut 3 (.cut 0 (.cut 1 .out (.cut 2 .out .out)) (.cut 1 .out (.cut 2 .out .out))) .out)) (.cut 2 .out (.cut 3 (.cut 0 (.cut 1 (.cut 2 .out (.cut 3 (.cut 0 .leaf (.cut 1 .out (.cut 2 .out .out))) .out)) (.cut 2 .out (.cut 3 (.cut 0 .leaf (.cut 1 (.cut 2 .out (.cut 3 (.cut 0 .leaf .leaf) .out)) (.cut 2 .out (.cut 3 .leaf .out)))) .out))) (.cut 1 (.cut 2 .out (.cut 3 (.cut 0 (.cut 1 .out (.cut 2 .out .out)) (.cut 1 .out (.cut 2 .out .out))) .out)) (.cut 2 .out (.cut 3 (.cut 0 (.cut 1 (.cut 2 .out (.cut 3 (.cut 0 (.cut 1 .out .leaf) (.cut 1 .out (.cut 2 .out .out))) .out)) (.cut 2 .out (.cut 3 (.cut 0 (.cut 1 (.cut 2 .out .leaf) (.cut 2 .out .leaf)) (.cut 1 (.cut 2 .out (.cut 3 (.cut 0 .leaf (.cut 1 .out (.cut 2 .out .out))) .out)) (.cut 2 .out (.cut 3 (.cut 0 .leaf (.cut 1 (.cut 2 .out .leaf) .leaf)) .out)))) .out))) (.cut 1 (.cut 2 .out (.cut 3 (.cut 0 (.cut 1 .out (.cut 2 .out .out)) (.cut 1 .out (.cut 2 .out .out))) .out)) (.cut 2 .out (.cut 3 (.cut 0 (.cut 1 (.cut 2 .out (.cut 3 (.cut 0 (.cut 1 .out (.cut 2 .out .out)) (.cut 1 .out (.cut 2 .out .out))) .out)) (.cut 2 .out (.cut 3 (.cut 0 (.cut 1 (.cut 2 .out .leaf) (.cut 2 .out .leaf)) (.cut 1 (.cut 2 .out .leaf) (.cut 2 .out .leaf))) .out))) (.cut 1 (.cut 2 .out (.cut 3 (.cut 0 (.cut 1 .out .leaf) .leaf) .out)) (.cut 2 .out (.cut 3 (.cut 0 (.cut 1 .leaf .leaf) .leaf) .out)))) .out)))) .out)))) .out)))) .out)))) .out)))) .out)))))
theorem h40 : check par t40 [22528, 10240, 10240, 14336] [2048, 2048, 2048, 2048] st = true := by decide +kernel
def t41 : Tree := (.ref (.cut 1 .out (.cut 2 (.cut 3 (.cut 0 .leaf .leaf) (.cut 0 .leaf .leaf)) .out)))
theorem h41 : check par t41 [21504, 10240, 14336, 10240] [1024, 2048, 2048, 2048] st = true := by decide +kernel
def t42 : Tree := .out
theorem h42 : check par t42 [23552, 9216, 14336, 10240] [1024, 1024, 2048, 2048] st = true := by decide +kernel
def t43 : Tree := (.ref (.cut 0 (.cut 1 .out (.cut 2 (.cut 3 .leaf .leaf) .out)) (.cut 1 .out (.cut 2 (.cut 3 .leaf .leaf) .out))))
theorem h43 : check par t43 [23552, 11264, 13312, 9216] [1024, 1024, 1024, 1024] st = true := by decide +kernel
def t44 : Tree := (.ref (.cut 1 .out (.cut 2 (.cut 3 (.cut 0 .leaf .leaf) (.cut 0 .leaf (.cut 1 .out .leaf))) .out)))
theorem h44 : check par t44 [23040, 11264, 13312, 11264] [512, 1024, 1024, 1024] st = true := by decide +kernel
def t45 : Tree := .out
theorem h45 : check par t45 [24064, 10752, 13312, 11264] [512, 512, 1024, 1024] st = true := by decide +kernel
def t46 : Tree := (.ref (.cut 0 (.cut 1 .out (.cut 2 (.cut 3 .leaf .leaf) .out)) (.cut 1 .out (.cut 2 (.cut 3 .leaf .leaf) .out))))
theorem h46 : check par t46 [24064, 11776, 12800, 10752] [512, 512, 512, 512] st = true := by decide +kernel
def t47 : Tree := (.ref (.cut 1 .out (.cut 2 (.cut 3 (.cut 0 .leaf .leaf) (.cut 0 .leaf (.cut 1 .out .leaf))) .out)))
theorem h47 : check par t47 [23808, 11776, 12800, 11776] [256, 512, 512, 512] st = true := by decide +kernel
def t48 : Tree := (.ref (.cut 1 .out (.cut 2 (.cut 3 (.cut 0 (.cut 1 .out (.cut 2 (.cut 3 .leaf .leaf) .out)) (.cut 1 .out (.cut 2 (.cut 3 .leaf .leaf) .out))) (.cut 0 (.cut 1 .out (.cut 2 (.cut 3 (.cut 0 .leaf (.cut 1 .out .leaf)) (.cut 0 .leaf (.cut 1 .out (.cut 2 .leaf .out)))) .out)) (.cut 1 .out (.cut 2 (.cut 3 (.cut 0 (.cut 1 .out (.cut 2 (.cut 3 .leaf .leaf) .out)) (.cut 1 .out (.cut 2 (.cut 3 .leaf .leaf) .out))) (.cut 0 (.cut 1 .out (.cut 2 (.cut 3 (.cut 0 .leaf (.cut 1 .out (.cut 2 (.cut 3 .leaf .leaf) .out))) (.cut 0 .leaf (.cut 1 .out (.cut 2 (.cut 3 (.cut 0 .leaf .leaf) .leaf) .out)))) .out)) (.cut 1 .out (.cut 2 (.cut 3 (.cut 0 (.cut 1 .out (.cut 2 (.cut 3 .leaf (.cut 0 .leaf .leaf)) .out)) (.cut 1 .out (.cut 2 (.cut 3 .leaf (.cut 0 .leaf .leaf)) .out))) (.cut 0 (.cut 1 .out (.cut 2 (.cut 3 (.cut 0 (.cut 1 .out (.cut 2 .leaf .out)) (.cut 1 .out (.cut 2 (.cut 3 .leaf (.cut 0 .leaf (.cut 1 .out .leaf))) .out))) (.cut 0 (.cut 1 .out (.cut 2 .leaf .out)) (.cut 1 .out (.cut 2 (.cut 3 (.cut 0 .leaf (.cut 1 .out (.cut 2 .leaf .out))) (.cut 0 .leaf (.cut 1 .out .leaf))) .out)))) .out)) (.cut 1 .out (.cut 2 (.cut 3 (.cut 0 (.cut 1 .out (.cut 2 (.cut 3 .leaf (.cut 0 (.cut 1 .out .leaf) (.cut 1 .out .leaf))) .out)) (.cut 1 .out (.cut 2 (.cut 3 .leaf (.cut 0 .leaf .leaf)) .out))) (.cut 0 (.cut 1 .out (.cut 2 (.cut 3 (.cut 0 (.cut 1 .out (.cut 2 (.cut 3 .leaf .leaf) .out)) (.cut 1 .out (.cut 2 (.cut 3 .leaf .leaf) .out))) (.cut 0 (.cut 1 .out (.cut 2 .leaf .out)) (.cut 1 .out (.cut 2 .leaf .out)))) .out)) (.cut 1 .out (.cut 2 (.cut 3 (.cut 0 (.cut 1 .out (.cut 2 .leaf .out)) .leaf) (.cut 0 (.cut 1 .out .leaf) .leaf)) .out)))) .out)))) .out)))) .out)))) .out)))
theorem h48 : check par t48 [24320, 11776, 12800, 11776] [256, 512, 512, 512] st = true := by decide +kernel
def t49 : Tree := .out
theorem h49 : check par t49 [24064, 11776, 13824, 11264] [512, 512, 512, 1024] st = true := by decide +kernel
def t50 : Tree := .out
theorem h50 : check par t50 [23552, 11264, 15360, 10240] [1024, 1024, 1024, 2048] st = true := by decide +kernel
def t51 : Tree := (.ref (.cut 0 (.cut 1 .out (.cut 2 (.cut 3 (.cut 0 .leaf (.cut 1 .out .leaf)) .leaf) .out)) (.cut 1 .out (.cut 2 (.cut 3 (.cut 0 (.cut 1 .out (.cut 2 (.cut 3 (.cut 0 .leaf (.cut 1 .out .leaf)) .leaf) .out)) (.cut 1 .out (.cut 2 (.cut 3 (.cut 0 (.cut 1 .out (.cut 2 (.cut 3 (.cut 0 .leaf (.cut 1 .out .leaf)) .leaf) .out)) (.cut 1 .out (.cut 2 (.cut 3 (.cut 0 (.cut 1 .out (.cut 2 (.cut 3 (.cut 0 .leaf (.cut 1 .out (.cut 2 .leaf .out))) (.cut 0 .leaf .leaf)) .out)) (.cut 1 .out (.cut 2 (.cut 3 (.cut 0 (.cut 1 .out (.cut 2 (.cut 3 (.cut 0 .leaf (.cut 1 .out (.cut 2 (.cut 3 .leaf .leaf) .out))) (.cut 0 .leaf .leaf)) .out)) (.cut 1 .out (.cut 2 (.cut 3 (.cut 0 (.cut 1 .out (.cut 2 (.cut 3 (.cut 0 (.cut 1 .out .leaf) (.cut 1 .out (.cut 2 (.cut 3 (.cut 0 .leaf .leaf) .leaf) .out))) (.cut 0 .leaf (.cut 1 .out .leaf))) .out)) (.cut 1 .out (.cut 2 (.cut 3 (.cut 0 (.cut 1 .out (.cut 2 (.cut 3 (.cut 0 .leaf .leaf) (.cut 0 .leaf .leaf)) .out)) (.cut 1 .out (.cut 2 (.cut 3 (.cut 0 .leaf .leaf) (.cut 0 .leaf .leaf)) .out))) (.cut 0 (.cut 1 .out (.cut 2 .out .out)) (.cut 1 .out (.cut 2 .out .out)))) .out))) (.cut 0 (.cut 1 .out (.cut 2 .out .out)) (.cut 1 .out (.cut 2 .out .out)))) .out))) (.cut 0 (.cut 1 .out .leaf) (.cut 1 .out (.cut 2 .out .out)))) .out))) (.cut 0 (.cut 1 .out .leaf) (.cut 1 .out (.cut 2 .out .out)))) .out))) (.cut 0 (.cut 1 .out .leaf) (.cut 1 .out (.cut 2 .out .out)))) .out))) (.cut 0 (.cut 1 .out .leaf) (.cut 1 .out (.cut 2 .out .out)))) .out))))
theorem h51 : check par t51 [22528, 10240, 14336, 14336] [2048, 2048, 2048, 2048] st = true := by decide +kernel
def t52 : Tree := (.ref (.cut 1 (.cut 2 (.cut 3 (.cut 0 .leaf .leaf) (.cut 0 .leaf .leaf)) (.cut 3 (.cut 0 .leaf .leaf) (.cut 0 .leaf .leaf))) (.cut 2 .leaf (.cut 3 .leaf .leaf))))
theorem h52 : check par t52 [21504, 14336, 10240, 10240] [1024, 2048, 2048, 2048] st = true := by decide +kernel
def t53 : Tree := (.ref (.cut 3 (.cut 0 (.cut 1 .leaf .leaf) (.cut 1 (.cut 2 .leaf .leaf) .leaf)) (.cut 0 (.cut 1 (.cut 2 .out .leaf) .leaf) (.cut 1 (.cut 2 .out .leaf) .leaf))))
theorem h53 : check par t53 [23552, 13312, 9216, 10240] [1024, 1024, 1024, 2048] st = true := by decide +kernel
def t54 : Tree := (.ref (.cut 0 (.cut 1 (.cut 2 .leaf (.cut 3 .leaf .leaf)) .leaf) (.cut 1 (.cut 2 (.cut 3 .leaf .leaf) (.cut 3 .leaf .leaf)) .leaf)))
theorem h54 : check par t54 [23552, 13312, 11264, 9216] [1024, 1024, 1024, 1024] st = true := by decide +kernel
def t55 : Tree := (.ref (.cut 1 (.cut 2 (.cut 3 (.cut 0 .leaf .leaf) (.cut 0 .leaf .leaf)) (.cut 3 (.cut 0 .leaf .leaf) (.cut 0 .leaf (.cut 1 .leaf .leaf)))) (.cut 2 .leaf (.cut 3 .leaf .leaf))))
theorem h55 : check par t55 [23040, 13312, 11264, 11264] [512, 1024, 1024, 1024] st = true := by decide +kernel
def t56 : Tree := (.ref (.cut 3 (.cut 0 (.cut 1 .leaf .leaf) (.cut 1 .leaf .leaf)) (.cut 0 (.cut 1 (.cut 2 .out .leaf) .leaf) (.cut 1 (.cut 2 .out .leaf) .leaf))))
theorem h56 : check par t56 [24064, 12800, 10752, 11264] [512, 512, 512, 1024] st = true := by decide +kernel
def t57 : Tree := (.ref (.cut 0 (.cut 1 (.cut 2 .leaf (.cut 3 .leaf .leaf)) .leaf) (.cut 1 (.cut 2 (.cut 3 .leaf .leaf) (.cut 3 .leaf .leaf)) .leaf)))
theorem h57 : check par t57 [24064, 12800, 11776, 10752] [512, 512, 512, 512] st = true := by decide +kernel
def t58 : Tree := (.ref (.cut 1 (.cut 2 (.cut 3 (.cut 0 .leaf .leaf) (.cut 0 .leaf .leaf)) (.cut 3 (.cut 0 .leaf .leaf) (.cut 0 .leaf (.cut 1 .leaf .leaf)))) (.cut 2 .leaf (.cut 3 .leaf .leaf))))
theorem h58 : check par t58 [23808, 12800, 11776, 11776] [256, 512, 512, 512] st = true := by decide +kernel
def t59 : Tree := (.ref (.cut 3 (.cut 0 (.cut 1 .leaf .leaf) (.cut 1 (.cut 2 .leaf .leaf) .leaf)) (.cut 0 (.cut 1 (.cut 2 .out .leaf) .leaf) (.cut 1 (.cut 2 .out .leaf) .leaf))))
theorem h59 : check par t59 [24320, 12544, 11520, 11776] [256, 256, 256, 512] st = true := by decide +kernel
def t60 : Tree := (.ref (.cut 0 (.cut 1 (.cut 2 .leaf (.cut 3 .leaf .leaf)) .leaf) (.cut 1 (.cut 2 (.cut 3 .leaf .leaf) (.cut 3 .leaf .leaf)) .leaf)))
theorem h60 : check par t60 [24320, 12544, 12032, 11520] [256, 256, 256, 256] st = true := by decide +kernel
def t61 : Tree := (.ref (.cut 1 (.cut 2 (.cut 3 (.cut 0 .leaf .leaf) (.cut 0 .leaf (.cut 1 .leaf .leaf))) (.cut 3 (.cut 0 .leaf (.cut 1 .leaf .leaf)) (.cut 0 .leaf (.cut 1 .leaf .leaf)))) (.cut 2 .leaf (.cut 3 .leaf (.cut 0 .leaf .leaf)))))
theorem h61 : check par t61 [24192, 12544, 12032, 12032] [128, 256, 256, 256] st = true := by decide +kernel
def t62 : Tree := (.ref (.cut 3 (.cut 0 (.cut 1 (.cut 2 .leaf .leaf) .leaf) (.cut 1 (.cut 2 .leaf .leaf) .leaf)) (.cut 0 (.cut 1 (.cut 2 .out .leaf) .leaf) (.cut 1 (.cut 2 .out (.cut 3 .leaf .out)) .leaf))))
theorem h62 : check par t62 [24448, 12416, 11904, 12032] [128, 128, 128, 256] st = true := by decide +kernel
def t63 : Tree := (.ref (.cut 0 (.cut 1 (.cut 2 (.cut 3 .leaf .leaf) (.cut 3 .leaf .leaf)) .leaf) (.cut 1 (.cut 2 (.cut 3 .leaf .leaf) (.cut 3 .leaf .leaf)) .leaf)))
theorem h63 : check par t63 [24448, 12416, 12160, 11904] [128, 128, 128, 128] st = true := by decide +kernel
def t64 : Tree := (.ref (.cut 1 (.cut 2 (.cut 3 (.cut 0 .leaf (.cut 1 .leaf .leaf)) (.cut 0 .leaf (.cut 1 (.cut 2 .out .leaf) .leaf))) (.cut 3 (.cut 0 .leaf (.cut 1 (.cut 2 .leaf (.cut 3 .leaf .leaf)) .leaf)) (.cut 0 .leaf (.cut 1 (.cut 2 (.cut 3 .leaf (.cut 0 .leaf .leaf)) (.cut 3 (.cut 0 .leaf .leaf) .leaf)) (.cut 2 .leaf .leaf))))) (.cut 2 (.cut 3 .leaf .leaf) (.cut 3 .leaf (.cut 0 .leaf .leaf)))))
theorem h64 : check par t64 [24384, 12416, 12160, 12160] [64, 128, 128, 128] st = true := by decide +kernel
def t65 : Tree := (.ref (.cut 3 (.cut 0 (.cut 1 (.cut 2 .leaf (.cut 3 .leaf .leaf)) .leaf) (.cut 1 (.cut 2 .leaf (.cut 3 .leaf .leaf)) .leaf)) (.cut 0 (.cut 1 (.cut 2 .out (.cut 3 (.cut 0 .leaf .leaf) .out)) .leaf) (.cut 1 (.cut 2 .out (.cut 3 (.cut 0 .leaf .leaf) .out)) .leaf))))
theorem h65 : check par t65 [24512, 12352, 12096, 12160] [64, 64, 64, 128] st = true := by decide +kernel
def t66 : Tree := (.ref (.cut 0 (.cut 1 (.cut 2 (.cut 3 .leaf (.cut 0 .leaf .leaf)) (.cut 3 .leaf (.cut 0 .leaf .leaf))) .leaf) (.cut 1 (.cut 2 (.cut 3 .leaf (.cut 0 .leaf .leaf)) (.cut 3 .leaf (.cut 0 .leaf .leaf))) .leaf)))
theorem h66 : check par t66 [24512, 12352, 12224, 12096] [64, 64, 64, 64] st = true := by decide +kernel
def t67 : Tree := (.ref (.cut 2 (.cut 3 (.cut 0 (.cut 1 .leaf .leaf) (.cut 1 (.cut 2 .leaf (.cut 3 .leaf .leaf)) .leaf)) (.cut 0 (.cut 1 (.cut 2 .out .leaf) .leaf) (.cut 1 (.cut 2 .out (.cut 3 (.cut 0 .leaf (.cut 1 .leaf .leaf)) .out)) (.cut 2 .out .leaf)))) (.cut 3 (.cut 0 (.cut 1 (.cut 2 .leaf .leaf) .leaf) (.cut 1 (.cut 2 (.cut 3 .leaf (.cut 0 .leaf (.cut 1 .leaf .leaf))) (.cut 3 .leaf (.cut 0 .leaf (.cut 1 .leaf .leaf)))) (.cut 2 .leaf (.cut 3 .leaf .leaf)))) (.cut 0 (.cut 1 (.cut 2 .leaf .leaf) .leaf) (.cut 1 (.cut 2 (.cut 3 (.cut 0 .leaf (.cut 1 .leaf .leaf)) (.cut 0 .leaf (.cut 1 (.cut 2 .out .leaf) .leaf))) (.cut 3 (.cut 0 .leaf (.cut 1 (.cut 2 .leaf .leaf) .leaf)) (.cut 0 .leaf (.cut 1 .leaf .leaf)))) (.cut 2 (.cut 3 .leaf (.cut 0 .leaf .leaf)) (.cut 3 (.cut 0 .leaf .leaf) (.cut 0 .leaf .leaf))))))))
theorem h67 : check par t67 [24480, 12320, 12224, 12224] [32, 32, 64, 64] st = true := by decide +kernel
def t68 : Tree := (.ref (.cut 2 (.cut 3 .leaf (.cut 0 .leaf .leaf)) (.cut 3 (.cut 0 .leaf .leaf) (.cut 0 .leaf (.cut 1 .leaf .leaf)))))
theorem h68 : check par t68 [24480, 12384, 12224, 12224] [32, 32, 64, 64] st = true := by decide +kernel
def t69 : Tree := (.ref (.cut 3 (.cut 0 (.cut 1 (.cut 2 .leaf (.cut 3 .leaf (.cut 0 .leaf .leaf))) .leaf) (.cut 1 (.cut 2 .leaf (.cut 3 .leaf .leaf)) .leaf)) (.cut 0 (.cut 1 (.cut 2 .out (.cut 3 (.cut 0 (.cut 1 .leaf .leaf) (.cut 1 .leaf .leaf)) .out)) (.cut 2 .out .leaf)) (.cut 1 (.cut 2 .out (.cut 3 (.cut 0 .leaf .leaf) .out)) (.cut 2 .out .leaf)))))
theorem h69 : check par t69 [24544, 12320, 12192, 12224] [32, 32, 32, 64] st = true := by decide +kernel
def t70 : Tree := (.ref (.cut 0 (.cut 1 (.cut 2 (.cut 3 .leaf (.cut 0 (.cut 1 .leaf .leaf) (.cut 1 .leaf .leaf))) (.cut 3 .leaf (.cut 0 (.cut 1 .leaf .leaf) (.cut 1 .leaf .leaf)))) (.cut 2 .leaf (.cut 3 .leaf .leaf))) (.cut 1 (.cut 2 (.cut 3 .leaf (.cut 0 .leaf .leaf)) (.cut 3 .leaf (.cut 0 .leaf .leaf))) (.cut 2 .leaf .leaf))))
theorem h70 : check par t70 [24544, 12320, 12256, 12192] [32, 32, 32, 32] st = true := by decide +kernel
def t71 : Tree := (.ref (.cut 1 (.cut 2 (.cut 3 (.cut 0 (.cut 1 (.cut 2 .leaf (.cut 3 .leaf .leaf)) .leaf) (.cut 1 (.cut 2 (.cut 3 .leaf .leaf) (.cut 3 .leaf .leaf)) .leaf)) (.cut 0 (.cut 1 (.cut 2 .out (.cut 3 .leaf .out)) .leaf) (.cut 1 (.cut 2 .out .leaf) (.cut 2 .out .leaf)))) (.cut 3 (.cut 0 (.cut 1 (.cut 2 (.cut 3 .leaf .leaf) (.cut 3 .leaf .leaf)) .leaf) (.cut 1 (.cut 2 (.cut 3 .leaf .leaf) (.cut 3 .leaf .leaf)) (.cut 2 .leaf .leaf))) (.cut 0 (.cut 1 (.cut 2 (.cut 3 .leaf .leaf) .leaf) (.cut 2 .leaf .leaf)) (.cut 1 (.cut 2 (.cut 3 .leaf .leaf) .leaf) (.cut 2 .leaf .leaf))))) (.cut 2 (.cut 3 .leaf (.cut 0 .leaf .leaf)) (.cut 3 (.cut 0 .leaf .leaf) (.cut 0 .leaf .leaf)))))
theorem h71 : check par t71 [24528, 12320, 12256, 12256] [16, 32, 32, 32] st = true := by decide +kernel
def t72 : Tree := (.ref (.cut 1 (.cut 2 (.cut 3 (.cut 0 (.cut 1 .leaf .leaf) .leaf) (.cut 0 (.cut 1 .leaf .leaf) .leaf)) (.cut 3 (.cut 0 (.cut 1 .leaf .leaf) .leaf) (.cut 0 (.cut 1 .leaf .leaf) .leaf))) (.cut 2 (.cut 3 .leaf (.cut 0 .leaf .leaf)) (.cut 3 (.cut 0 .leaf .leaf) (.cut 0 .leaf .leaf)))))
theorem h72 : check par t72 [24560, 12320, 12256, 12256] [16, 32, 32, 32] st = true := by decide +kernel
def t73 : Tree := (.ref (.cut 2 (.cut 3 .leaf (.cut 0 .leaf .leaf)) (.cut 3 (.cut 0 .leaf .leaf) (.cut 0 (.cut 1 (.cut 2 .leaf .leaf) .leaf) (.cut 1 (.cut 2 .leaf .leaf) .leaf)))))
theorem h73 : check par t73 [24544, 12384, 12224, 12224] [32, 32, 64, 64] st = true := by decide +kernel
def t74 : Tree := (.ref (.cut 2 (.cut 3 .leaf (.cut 0 .leaf .leaf)) (.cut 3 (.cut 0 .leaf .leaf) (.cut 0 (.cut 1 (.cut 2 .leaf .leaf) .leaf) (.cut 1 (.cut 2 .leaf .leaf) .leaf)))))
theorem h74 : check par t74 [24512, 12480, 12160, 12160] [64, 64, 128, 128] st = true := by decide +kernel
def t75 : Tree := (.ref (.cut 2 (.cut 3 .leaf .leaf) (.cut 3 .leaf (.cut 0 (.cut 1 .leaf .leaf) (.cut 1 (.cut 2 .leaf .leaf) .leaf)))))
theorem h75 : check par t75 [24448, 12672, 12032, 12032] [128, 128, 256, 256] st = true := by decide +kernel
def t76 : Tree := (.ref (.cut 2 (.cut 3 .leaf .leaf) (.cut 3 .leaf (.cut 0 (.cut 1 .leaf .leaf) (.cut 1 (.cut 2 .leaf .leaf) .leaf)))))
theorem h76 : check par t76 [24320, 13056, 11776, 11776] [256, 256, 512, 512] st = true := by decide +kernel
def t77 : Tree := (.ref (.cut 2 (.cut 3 .leaf .leaf) (.cut 3 .leaf (.cut 0 (.cut 1 .leaf .leaf) (.cut 1 (.cut 2 .leaf .leaf) .leaf)))))
theorem h77 : check par t77 [24064, 13824, 11264, 11264] [512, 512, 1024, 1024] st = true := by decide +kernel
def t78 : Tree := (.ref (.cut 2 (.cut 3 .leaf (.cut 0 .leaf .leaf)) (.cut 3 (.cut 0 .leaf .leaf) (.cut 0 (.cut 1 .leaf .leaf) (.cut 1 (.cut 2 .leaf .leaf) .leaf)))))
theorem h78 : check par t78 [23552, 15360, 10240, 10240] [1024, 1024, 2048, 2048] st = true := by decide +kernel
def t79 : Tree := (.ref (.cut 1 (.cut 2 .out (.cut 3 (.cut 0 .leaf (.cut 1 .leaf .leaf)) .out)) (.cut 2 .out (.cut 3 .leaf .out))))
theorem h79 : check par t79 [21504, 14336, 10240, 14336] [1024, 2048, 2048, 2048] st = true := by decide +kernel
def t80 : Tree := .out
theorem h80 : check par t80 [23552, 13312, 9216, 14336] [1024, 1024, 1024, 2048] st = true := by decide +kernel
def t81 : Tree := (.ref (.cut 1 (.cut 2 .out (.cut 3 (.cut 0 .leaf (.cut 1 .leaf .leaf)) .out)) (.cut 2 .out (.cut 3 .leaf .out))))
theorem h81 : check par t81 [23040, 13312, 11264, 13312] [512, 1024, 1024, 1024] st = true := by decide +kernel
end FastNoise.RangeCheck.OuterSimplex4
