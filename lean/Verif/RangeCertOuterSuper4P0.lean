import Verif.RangeCertOuterSuper4
/-! Generated by tools/rangecert/gen.py: a certificate for the checker `Verif.RangeCheck`. -/
namespace FastNoise.RangeCheck.OuterSuper4
set_option maxRecDepth 1000000
def t0 : Tree := (.ref (.cut 1 (.ref (.cut 2 (.ref (.cut 3 (.ref (.cut 0 (.ref (.cut 1 (.ref (.cut 2 (.ref (.cut 3 .leaf .leaf)) (.ref (.cut 3 .leaf .leaf)))) (.ref (.cut 2 (.ref (.cut 3 .leaf .leaf)) (.ref (.cut 3 .leaf .leaf)))))) (.ref (.cut 1 (.ref (.cut 2 (.ref (.cut 3 .leaf .leaf)) (.ref (.cut 3 .leaf .leaf)))) (.ref (.cut 2 (.ref (.cut 3 .leaf .leaf)) (.ref (.cut 3 .leaf .leaf)))))))) (.ref (.cut 0 (.ref (.cut 1 (.ref (.cut 2 .out (.ref (.cut 3 (.cut 0 (.ref (.cut 1 .out (.ref (.cut 2 .out .out)))) (.ref (.cut 1 .out (.ref (.cut 2 .out .out))))) .out)))) (.ref (.cut 2 .out (.ref (.cut 3 (.ref (.cut 0 .out (.cut 1 (.cut 2 .out .leaf) .out))) .out)))))) (.ref (.cut 1 (.ref (.cut 2 .out (.ref (.cut 3 (.ref (.cut 0 (.cut 1 .out (.cut 2 .out .out)) (.ref (.cut 1 .out (.cut 2 .out .out))))) .out)))) (.ref (.cut 2 .out (.ref (.cut 3 (.cut 0 (.cut 1 (.ref (.cut 2 .out .leaf)) (.ref (.cut 2 .out .leaf))) (.ref (.cut 1 (.ref (.cut 2 .out .leaf)) (.ref (.cut 2 .out .leaf))))) .out)))))))))) (.ref (.cut 3 (.ref (.cut 0 (.ref (.cut 1 .out (.ref (.cut 2 (.ref (.cut 3 (.ref (.cut 0 .out (.ref (.cut 1 .out .out)))) (.ref (.cut 0 .out (.cut 1 .out .out))))) .out)))) (.ref (.cut 1 .out (.ref (.cut 2 (.cut 3 (.ref (.cut 0 (.cut 1 .out (.ref (.cut 2 .leaf .out))) (.ref (.cut 1 .out (.ref (.cut 2 .leaf .out)))))) (.cut 0 (.cut 1 .out (.ref (.cut 2 .leaf .out))) (.ref (.cut 1 .out (.ref (.cut 2 .leaf .out)))))) .out)))))) (.ref (.cut 0 (.ref (.cut 1 .out (.ref (.cut 2 (.ref (.cut 3 (.cut 0 .out (.cut 1 .out .out)) (.ref (.cut 0 .out (.cut 1 .out .out))))) .out)))) (.cut 1 .out (.ref (.cut 2 (.ref (.cut 3 (.ref (.cut 0 (.ref (.cut 1 .out (.ref (.cut 2 .leaf .out)))) (.ref (.cut 1 .out (.cut 2 .leaf .out))))) (.ref (.cut 0 (.ref (.cut 1 .out (.ref (.cut 2 .out .out)))) (.ref (.cut 1 .out (.cut 2 .out .out))))))) .out))))))))) (.ref (.cut 2 (.ref (.cut 3 (.ref (.cut 0 .out (.ref (.cut 1 (.ref (.cut 2 (.ref (.cut 3 (.ref (.cut 0 .out (.ref (.cut 1 .leaf .out)))) (.ref (.cut 0 .out (.ref (.cut 1 .leaf .out)))))) (.ref (.cut 3 (.ref (.cut 0 .out (.ref (.cut 1 .leaf .out)))) (.cut 0 .out (.ref (.cut 1 .leaf .out))))))) .out)))) (.ref (.cut 0 .out (.cut 1 (.ref (.cut 2 .out (.ref (.cut 3 (.ref (.cut 0 .out (.ref (.cut 1 (.cut 2 .out .leaf) .out)))) .out)))) .out))))) (.ref (.cut 3 (.ref (.cut 0 .out (.cut 1 (.ref (.cut 2 (.ref (.cut 3 (.ref (.cut 0 .out (.ref (.cut 1 (.cut 2 .leaf .leaf) .out)))) (.ref (.cut 0 .out (.ref (.cut 1 (.cut 2 .leaf .leaf) .out)))))) (.ref (.cut 3 (.ref (.cut 0 .out (.ref (.cut 1 .out .out)))) (.cut 0 .out (.ref (.cut 1 .out .out))))))) .out))) (.ref (.cut 0 .out (.cut 1 (.ref (.cut 2 (.ref (.cut 3 (.ref (.cut 0 .out (.cut 1 (.ref (.cut 2 .leaf .leaf)) .out))) (.ref (.cut 0 .out (.ref (.cut 1 (.ref (.cut 2 .out (.ref (.cut 3 .leaf .out)))) .out)))))) (.ref (.cut 3 (.ref (.cut 0 .out (.ref (.cut 1 .out .out)))) (.ref (.cut 0 .out (.cut 1 .out .out))))))) .out)))))))))
theorem h0 : check par t0 [8192, 16384, 16384, 16384] [8192, 16384, 16384, 16384] st = true := by decide +kernel
def t1 : Tree := (.ref (.cut 1 (.ref (.cut 2 (.ref (.cut 3 (.ref (.cut 0 .leaf (.cut 1 (.ref (.cut 2 .leaf .leaf)) (.ref (.cut 2 .leaf .leaf))))) (.ref (.cut 0 (.ref (.cut 1 .leaf .leaf)) (.ref (.cut 1 (.ref (.cut 2 .out .leaf)) (.ref (.cut 2 .out .leaf)))))))) (.ref (.cut 3 (.ref (.cut 0 (.ref (.cut 1 .out .leaf)) (.ref (.cut 1 .out (.ref (.cut 2 .leaf .out)))))) (.ref (.cut 0 (.cut 1 .out .leaf) (.cut 1 .out (.cut 2 .leaf .out)))))))) (.ref (.cut 2 (.ref (.cut 3 (.ref (.cut 0 (.ref (.cut 1 .leaf .leaf)) (.ref (.cut 1 (.ref (.cut 2 .leaf .leaf)) (.ref (.cut 2 .leaf .leaf)))))) (.ref (.cut 0 (.cut 1 .leaf .leaf) (.cut 1 (.cut 2 .out .leaf) (.ref (.cut 2 .out .leaf))))))) (.ref (.cut 3 (.ref (.cut 0 (.cut 1 .leaf .leaf) (.cut 1 (.cut 2 .leaf .leaf) (.ref (.cut 2 .leaf .leaf))))) (.cut 0 .leaf (.cut 1 .leaf .leaf))))))))
theorem h1 : check par t1 [20480, 8192, 8192, 8192] [4096, 8192, 8192, 8192] st = true := by decide +kernel
def t2 : Tree := (.ref (.cut 1 (.ref (.cut 2 (.ref (.cut 3 (.cut 0 .leaf .leaf) (.ref (.cut 0 .leaf .leaf)))) (.ref (.cut 3 (.ref (.cut 0 .leaf .leaf)) (.ref (.cut 0 .leaf .leaf)))))) (.ref (.cut 2 (.ref (.cut 3 (.ref (.cut 0 .leaf .leaf)) (.ref (.cut 0 .leaf .leaf)))) (.ref (.cut 3 (.ref (.cut 0 .leaf .leaf)) (.ref (.cut 0 .leaf .leaf))))))))
theorem h2 : check par t2 [26624, 4096, 4096, 4096] [2048, 4096, 4096, 4096] st = true := by decide +kernel
def t3 : Tree := (.ref (.cut 1 (.ref (.cut 2 (.ref (.cut 3 (.cut 0 .leaf (.cut 1 (.cut 2 .leaf .leaf) (.ref (.cut 2 .leaf .leaf)))) (.ref (.cut 0 (.cut 1 .leaf .leaf) (.ref (.cut 1 (.cut 2 .out (.ref (.cut 3 .leaf .out))) (.cut 2 .out (.cut 3 .leaf .out)))))))) (.ref (.cut 3 (.ref (.cut 0 (.cut 1 .out .leaf) (.ref (.cut 1 .out (.cut 2 (.cut 3 .leaf .leaf) .out))))) (.ref (.cut 0 (.ref (.cut 1 .out .leaf)) (.cut 1 .out (.cut 2 (.ref (.cut 3 .leaf .leaf)) .out)))))))) (.ref (.cut 2 (.ref (.cut 3 (.ref (.cut 0 (.cut 1 .leaf .leaf) (.ref (.cut 1 (.cut 2 .leaf (.cut 3 .leaf .leaf)) (.cut 2 (.ref (.cut 3 .leaf .leaf)) (.cut 3 .leaf .leaf)))))) (.ref (.cut 0 (.ref (.cut 1 (.cut 2 .out .leaf) (.ref (.cut 2 .out .leaf)))) (.cut 1 (.cut 2 .out (.ref (.cut 3 .leaf .out))) (.ref (.cut 2 .out (.cut 3 .leaf .out)))))))) (.ref (.cut 3 (.ref (.cut 0 (.ref (.cut 1 (.cut 2 .leaf .leaf) (.ref (.cut 2 .leaf .leaf)))) (.cut 1 (.cut 2 (.ref (.cut 3 .leaf .leaf)) (.ref (.cut 3 .leaf .leaf))) (.ref (.cut 2 (.ref (.cut 3 .leaf .leaf)) (.ref (.cut 3 .leaf .leaf))))))) (.ref (.cut 0 (.cut 1 .leaf .leaf) (.cut 1 (.cut 2 (.cut 3 .leaf .leaf) (.ref (.cut 3 .leaf .leaf))) (.cut 2 (.ref (.cut 3 .leaf .leaf)) (.cut 3 .leaf .leaf)))))))))))
theorem h3 : check par t3 [30720, 4096, 4096, 4096] [2048, 4096, 4096, 4096] st = true := by decide +kernel
def t4 : Tree := (.ref (.cut 0 (.cut 1 (.ref (.cut 2 .out (.ref (.cut 3 (.ref (.cut 0 .leaf .leaf)) .out)))) (.ref (.cut 2 .out (.cut 3 (.cut 0 .leaf .leaf) .out)))) (.ref (.cut 1 (.cut 2 .out (.ref (.cut 3 (.ref (.cut 0 (.cut 1 .out (.cut 2 .out .out)) (.cut 1 .out (.cut 2 .out .out)))) .out))) (.ref (.cut 2 .out (.cut 3 (.ref (.cut 0 (.cut 1 .leaf .leaf) (.cut 1 (.ref (.cut 2 .out (.ref (.cut 3 .leaf .out)))) (.ref (.cut 2 .out (.ref (.cut 3 .leaf .out))))))) .out)))))))
theorem h4 : check par t4 [28672, 4096, 4096, 12288] [4096, 4096, 4096, 4096] st = true := by decide +kernel
def t5 : Tree := (.ref (.cut 3 (.ref (.cut 0 (.cut 1 .out (.ref (.cut 2 (.cut 3 (.ref (.cut 0 .leaf .leaf)) (.cut 0 .leaf .leaf)) .out))) (.ref (.cut 1 .out (.ref (.cut 2 (.ref (.cut 3 (.ref (.cut 0 (.cut 1 .out (.cut 2 .leaf .out)) (.cut 1 .out (.cut 2 (.ref (.cut 3 .leaf .leaf)) .out)))) (.cut 0 (.cut 1 .out .leaf) (.cut 1 .out (.ref (.cut 2 (.cut 3 .leaf .leaf) .out)))))) .out)))))) (.ref (.cut 0 (.ref (.cut 1 .out (.cut 2 (.ref (.cut 3 (.ref (.cut 0 .leaf .leaf)) (.ref (.cut 0 .leaf .leaf)))) .out))) (.cut 1 .out (.cut 2 (.ref (.cut 3 (.ref (.cut 0 (.ref (.cut 1 .out .leaf)) (.ref (.cut 1 .out (.cut 2 (.cut 3 .leaf .leaf) .out))))) (.ref (.cut 0 (.cut 1 .out .leaf) (.cut 1 .out (.ref (.cut 2 .out .out))))))) .out))))))
theorem h5 : check par t5 [28672, 4096, 12288, 8192] [4096, 4096, 4096, 8192] st = true := by decide +kernel
def t6 : Tree := (.ref (.cut 1 (.ref (.cut 2 (.ref (.cut 3 (.ref (.cut 0 .leaf .leaf)) (.ref (.cut 0 .leaf .leaf)))) (.cut 3 (.ref (.cut 0 .leaf .leaf)) (.cut 0 .leaf .leaf)))) (.ref (.cut 2 (.ref (.cut 3 (.ref (.cut 0 .leaf .leaf)) .leaf)) (.ref (.cut 3 .leaf (.ref (.cut 0 .leaf .leaf))))))))
theorem h6 : check par t6 [26624, 12288, 4096, 4096] [2048, 4096, 4096, 4096] st = true := by decide +kernel
def t7 : Tree := (.ref (.cut 1 (.ref (.cut 2 (.cut 3 (.cut 0 (.ref (.cut 1 .leaf .leaf)) (.cut 1 (.cut 2 (.ref (.cut 3 .leaf .leaf)) (.ref (.cut 3 .leaf .leaf))) (.ref (.cut 2 .leaf .leaf)))) (.ref (.cut 0 (.cut 1 (.cut 2 .out .leaf) .leaf) (.cut 1 (.cut 2 .out (.cut 3 .leaf .out)) (.cut 2 .out .leaf))))) (.cut 3 (.ref (.cut 0 (.cut 1 (.cut 2 .leaf .leaf) .leaf) (.cut 1 (.cut 2 (.cut 3 .leaf .leaf) (.ref (.cut 3 .leaf .leaf))) (.cut 2 (.cut 3 .leaf .leaf) (.cut 3 .leaf .leaf))))) (.cut 0 (.cut 1 .leaf .leaf) (.cut 1 (.cut 2 (.ref (.cut 3 .leaf .leaf)) (.ref (.cut 3 .leaf .leaf))) (.cut 2 (.ref (.cut 3 .leaf .leaf)) (.ref (.cut 3 .leaf .leaf)))))))) (.cut 2 (.ref (.cut 3 (.ref (.cut 0 .leaf (.cut 1 .leaf .leaf))) (.ref (.cut 0 .leaf (.cut 1 .leaf .leaf))))) (.ref (.cut 3 (.ref (.cut 0 .leaf (.cut 1 .leaf .leaf))) (.cut 0 (.ref (.cut 1 .leaf .leaf)) (.cut 1 (.ref (.cut 2 .leaf .leaf)) .leaf)))))))
theorem h7 : check par t7 [30720, 12288, 4096, 4096] [2048, 4096, 4096, 4096] st = true := by decide +kernel
def t8 : Tree := (.ref (.cut 0 (.ref (.cut 1 (.ref (.cut 2 .out (.cut 3 (.ref (.cut 0 .leaf .leaf)) .out))) (.ref (.cut 2 .out (.cut 3 (.ref (.cut 0 .leaf .leaf)) .out))))) (.cut 1 (.ref (.cut 2 .out (.cut 3 (.ref (.cut 0 (.ref (.cut 1 .leaf .leaf)) (.ref (.cut 1 (.cut 2 .out (.cut 3 .leaf .out)) (.ref (.cut 2 .out (.cut 3 .leaf .out))))))) .out))) (.ref (.cut 2 .out (.cut 3 (.ref (.cut 0 (.cut 1 .leaf .leaf) (.cut 1 (.ref (.cut 2 .out .leaf)) (.cut 2 .out .leaf)))) .out))))))
theorem h8 : check par t8 [28672, 12288, 4096, 12288] [4096, 4096, 4096, 4096] st = true := by decide +kernel
def t9 : Tree := (.ref (.cut 0 (.ref (.cut 1 (.ref (.cut 2 (.ref (.cut 3 (.ref (.cut 0 .leaf .leaf)) (.ref (.cut 0 .leaf .leaf)))) (.ref (.cut 3 .leaf (.ref (.cut 0 .leaf .leaf)))))) (.ref (.cut 2 (.ref (.cut 3 .leaf (.ref (.cut 0 .leaf .leaf)))) (.ref (.cut 3 .leaf .leaf)))))) (.cut 1 (.ref (.cut 2 (.ref (.cut 3 (.ref (.cut 0 (.cut 1 .leaf .leaf) (.cut 1 (.cut 2 .leaf .leaf) (.cut 2 .leaf .leaf)))) (.cut 0 (.ref (.cut 1 .leaf .leaf)) (.ref (.cut 1 (.cut 2 (.cut 3 .leaf .leaf) (.ref (.cut 3 .leaf .leaf))) (.ref (.cut 2 (.ref (.cut 3 .leaf .leaf)) .leaf))))))) (.ref (.cut 3 (.ref (.cut 0 .leaf (.cut 1 .out .leaf))) (.cut 0 (.cut 1 .out .leaf) (.cut 1 .out (.ref (.cut 2 .leaf .out)))))))) (.ref (.cut 2 (.ref (.cut 3 (.ref (.cut 0 .leaf (.cut 1 .leaf .leaf))) (.cut 0 (.cut 1 .leaf .leaf) (.cut 1 (.ref (.cut 2 .leaf .leaf)) (.cut 2 .leaf .leaf))))) (.ref (.cut 3 (.cut 0 .leaf .leaf) (.cut 0 .leaf (.ref (.cut 1 (.cut 2 .leaf .leaf) .leaf))))))))))
theorem h9 : check par t9 [28672, 12288, 12288, 4096] [4096, 4096, 4096, 4096] st = true := by decide +kernel
def t10 : Tree := (.ref (.cut 0 (.cut 1 (.ref (.cut 2 (.ref (.cut 3 .leaf .leaf)) (.ref (.cut 3 .leaf .leaf)))) (.ref (.cut 2 (.ref (.cut 3 .leaf .leaf)) (.ref (.cut 3 .leaf .leaf))))) (.cut 1 (.ref (.cut 2 (.ref (.cut 3 (.ref (.cut 0 .leaf (.cut 1 (.ref (.cut 2 .leaf .leaf)) (.ref (.cut 2 .leaf .leaf))))) (.ref (.cut 0 .leaf (.ref (.cut 1 (.cut 2 .out .leaf) (.cut 2 .out .leaf))))))) (.ref (.cut 3 (.ref (.cut 0 .leaf (.ref (.cut 1 .out (.cut 2 .leaf .out))))) (.ref (.cut 0 .leaf (.ref (.cut 1 .out .leaf)))))))) (.ref (.cut 2 (.ref (.cut 3 (.ref (.cut 0 .leaf (.ref (.cut 1 .leaf .leaf)))) (.ref (.cut 0 .leaf (.ref (.cut 1 (.ref (.cut 2 .out .leaf)) (.ref (.cut 2 .out .leaf)))))))) (.ref (.cut 3 (.ref (.cut 0 .leaf (.ref (.cut 1 (.ref (.cut 2 .leaf .leaf)) (.ref (.cut 2 .leaf .leaf)))))) (.ref (.cut 0 .leaf (.cut 1 .leaf .leaf))))))))))
theorem h10 : check par t10 [28672, 12288, 12288, 12288] [4096, 4096, 4096, 4096] st = true := by decide +kernel
def t11 : Tree := (.ref (.cut 0 (.ref (.cut 1 (.ref (.cut 2 .out (.ref (.cut 3 (.cut 0 (.cut 1 .out (.ref (.cut 2 .out .out))) (.cut 1 .out (.ref (.cut 2 .out .out)))) .out)))) (.cut 2 .out (.ref (.cut 3 (.ref (.cut 0 (.ref (.cut 1 (.cut 2 .out .leaf) (.cut 2 .out .leaf))) (.ref (.cut 1 (.ref (.cut 2 .out (.ref (.cut 3 .leaf .out)))) (.cut 2 .out .leaf))))) .out))))) (.ref (.cut 1 (.ref (.cut 2 .out (.ref (.cut 3 (.ref (.cut 0 (.cut 1 .out (.cut 2 .out .out)) (.cut 1 .out (.ref (.cut 2 .out .out))))) .out)))) (.cut 2 .out (.ref (.cut 3 (.ref (.cut 0 (.ref (.cut 1 (.ref (.cut 2 .out (.ref (.cut 3 .leaf .out)))) (.ref (.cut 2 .out (.ref (.cut 3 .leaf .out)))))) (.ref (.cut 1 (.cut 2 .out (.ref (.cut 3 (.cut 0 .leaf (.cut 1 .out .leaf)) .out))) (.cut 2 .out (.cut 3 (.cut 0 .leaf (.cut 1 .leaf .leaf)) .out)))))) .out)))))))
theorem h11 : check par t11 [24576, 8192, 8192, 24576] [8192, 8192, 8192, 8192] st = true := by decide +kernel
def t12 : Tree := (.ref (.cut 3 (.ref (.cut 0 (.ref (.cut 1 .out (.cut 2 (.ref (.cut 3 (.ref (.cut 0 (.cut 1 .out (.ref (.cut 2 .leaf .out))) (.cut 1 .out (.ref (.cut 2 .leaf .out))))) (.ref (.cut 0 (.ref (.cut 1 .out (.cut 2 .leaf .out))) (.ref (.cut 1 .out (.cut 2 .leaf .out))))))) .out))) (.ref (.cut 1 .out (.ref (.cut 2 (.ref (.cut 3 (.ref (.cut 0 (.cut 1 .out (.ref (.cut 2 (.ref (.cut 3 .leaf .leaf)) .out))) (.cut 1 .out (.ref (.cut 2 (.ref (.cut 3 .leaf (.cut 0 .leaf .leaf))) .out))))) (.cut 0 (.ref (.cut 1 .out (.ref (.cut 2 (.cut 3 .leaf .leaf) .out)))) (.ref (.cut 1 .out (.cut 2 (.cut 3 (.ref (.cut 0 .leaf (.cut 1 .out (.cut 2 .leaf .out)))) (.cut 0 .leaf (.cut 1 .out .leaf))) .out)))))) .out)))))) (.ref (.cut 0 (.ref (.cut 1 .out (.ref (.cut 2 (.ref (.cut 3 (.ref (.cut 0 (.ref (.cut 1 .out (.cut 2 .leaf .out))) (.ref (.cut 1 .out (.cut 2 .leaf .out))))) (.ref (.cut 0 (.ref (.cut 1 .out (.ref (.cut 2 .out .out)))) (.ref (.cut 1 .out (.ref (.cut 2 .out .out)))))))) .out)))) (.ref (.cut 1 .out (.ref (.cut 2 (.ref (.cut 3 (.ref (.cut 0 (.ref (.cut 1 .out (.ref (.cut 2 (.cut 3 .leaf .leaf) .out)))) (.ref (.cut 1 .out (.ref (.cut 2 (.cut 3 (.cut 0 .leaf (.cut 1 .out .leaf)) (.ref (.cut 0 .leaf (.ref (.cut 1 .out .leaf))))) .out)))))) (.ref (.cut 0 (.cut 1 .out (.cut 2 .out .out)) (.cut 1 .out (.cut 2 .out .out)))))) .out))))))))
theorem h12 : check par t12 [24576, 8192, 24576, 16384] [8192, 8192, 8192, 16384] st = true := by decide +kernel
def t13 : Tree := (.ref (.cut 1 (.ref (.cut 2 (.ref (.cut 3 (.ref (.cut 0 (.cut 1 .leaf (.ref (.cut 2 .leaf .leaf))) (.ref (.cut 1 (.ref (.cut 2 .leaf .leaf)) .leaf)))) (.ref (.cut 0 (.cut 1 .leaf (.ref (.cut 2 .out .leaf))) (.cut 1 (.ref (.cut 2 .out .leaf)) (.ref (.cut 2 .out .leaf))))))) (.ref (.cut 3 (.ref (.cut 0 (.cut 1 .leaf (.ref (.cut 2 .leaf .leaf))) (.ref (.cut 1 (.ref (.cut 2 .leaf .leaf)) (.ref (.cut 2 .leaf .leaf)))))) (.ref (.cut 0 (.ref (.cut 1 .leaf (.ref (.cut 2 .leaf .leaf)))) (.ref (.cut 1 (.ref (.cut 2 .leaf .leaf)) (.cut 2 .leaf .leaf))))))))) (.ref (.cut 2 (.ref (.cut 3 (.ref (.cut 0 .out (.ref (.cut 1 (.cut 2 .leaf .leaf) .out)))) (.ref (.cut 0 .out (.cut 1 (.cut 2 .out .leaf) .out))))) (.ref (.cut 3 (.ref (.cut 0 .out (.cut 1 (.cut 2 (.ref (.cut 3 .leaf .leaf)) (.ref (.cut 3 .leaf .leaf))) .out))) (.cut 0 .out (.ref (.cut 1 (.ref (.cut 2 (.ref (.cut 3 .leaf .leaf)) (.ref (.cut 3 .leaf .leaf)))) .out)))))))))
theorem h13 : check par t13 [20480, 24576, 8192, 8192] [4096, 8192, 8192, 8192] st = true := by decide +kernel
def t14 : Tree := (.ref (.cut 3 (.ref (.cut 0 (.ref (.cut 1 (.cut 2 (.cut 3 .leaf .leaf) (.ref (.cut 3 .leaf .leaf))) (.cut 2 .leaf .leaf))) (.cut 1 (.ref (.cut 2 (.cut 3 (.cut 0 .leaf .leaf) (.ref (.cut 0 .leaf .leaf))) (.ref (.cut 3 (.ref (.cut 0 .leaf .leaf)) (.cut 0 .leaf (.cut 1 .leaf .leaf)))))) (.ref (.cut 2 (.cut 3 .leaf .leaf) (.cut 3 .leaf .leaf)))))) (.ref (.cut 0 (.cut 1 (.cut 2 .out (.cut 3 .leaf .out)) (.cut 2 .out .leaf)) (.cut 1 (.cut 2 .out (.ref (.cut 3 (.cut 0 .leaf (.cut 1 .leaf .leaf)) .out))) (.ref (.cut 2 .out (.cut 3 .leaf .out))))))))
theorem h14 : check par t14 [28672, 20480, 4096, 8192] [4096, 4096, 4096, 8192] st = true := by decide +kernel
def t15 : Tree := (.ref (.cut 3 (.ref (.cut 0 (.cut 1 (.cut 2 (.ref (.cut 3 .leaf .leaf)) (.ref (.cut 3 .leaf .leaf))) (.cut 2 (.ref (.cut 3 .leaf .leaf)) (.ref (.cut 3 .leaf .leaf)))) (.cut 1 (.cut 2 (.ref (.cut 3 (.ref (.cut 0 .leaf .leaf)) (.cut 0 .leaf (.cut 1 .leaf .leaf)))) (.ref (.cut 3 .leaf (.cut 0 .leaf .leaf)))) (.ref (.cut 2 (.cut 3 .leaf .leaf) (.ref (.cut 3 .leaf .leaf))))))) (.cut 0 (.ref (.cut 1 (.cut 2 (.ref (.cut 3 .leaf .leaf)) (.ref (.cut 3 .leaf .leaf))) (.ref (.cut 2 (.ref (.cut 3 .leaf .leaf)) (.ref (.cut 3 .leaf .leaf)))))) (.ref (.cut 1 (.cut 2 (.cut 3 (.ref (.cut 0 .leaf (.cut 1 .leaf .leaf))) (.ref (.cut 0 .leaf (.cut 1 .leaf .leaf)))) (.cut 3 (.ref (.cut 0 .leaf (.cut 1 .leaf .leaf))) (.cut 0 .leaf (.cut 1 .leaf .leaf)))) (.cut 2 (.ref (.cut 3 (.ref (.cut 0 .leaf .leaf)) (.ref (.cut 0 .leaf .leaf)))) (.ref (.cut 3 (.ref (.cut 0 .leaf .leaf)) (.ref (.cut 0 .leaf (.cut 1 .leaf .leaf)))))))))))
theorem h15 : check par t15 [28672, 20480, 12288, 8192] [4096, 4096, 4096, 8192] st = true := by decide +kernel
def t16 : Tree := (.ref (.cut 2 (.ref (.cut 3 (.ref (.cut 0 (.ref (.cut 1 (.cut 2 .leaf .leaf) (.ref (.cut 2 .leaf (.cut 3 .leaf .leaf))))) (.cut 1 (.ref (.cut 2 .leaf (.cut 3 .leaf .leaf))) (.cut 2 .leaf .leaf)))) (.ref (.cut 0 (.ref (.cut 1 (.ref (.cut 2 .out .leaf)) (.ref (.cut 2 .out (.ref (.cut 3 .leaf .out)))))) (.ref (.cut 1 (.ref (.cut 2 .out (.ref (.cut 3 .leaf .out)))) (.ref (.cut 2 .out .leaf)))))))) (.ref (.cut 3 (.ref (.cut 0 (.ref (.cut 1 (.ref (.cut 2 .leaf .leaf)) (.ref (.cut 2 (.ref (.cut 3 .leaf .leaf)) (.ref (.cut 3 .leaf .leaf)))))) (.ref (.cut 1 (.ref (.cut 2 (.ref (.cut 3 .leaf .leaf)) (.ref (.cut 3 .leaf .leaf)))) (.ref (.cut 2 .leaf .leaf)))))) (.ref (.cut 0 (.cut 1 (.cut 2 .leaf (.cut 3 .leaf .leaf)) (.ref (.cut 2 (.cut 3 .leaf .leaf) (.cut 3 .leaf (.cut 0 .out .leaf))))) (.cut 1 (.ref (.cut 2 (.cut 3 .leaf .leaf) (.cut 3 .leaf (.cut 0 .leaf .leaf)))) (.cut 2 (.cut 3 .leaf .leaf) (.cut 3 .leaf .leaf)))))))))
theorem h16 : check par t16 [28672, 28672, 8192, 8192] [4096, 4096, 8192, 8192] st = true := by decide +kernel
def t17 : Tree := (.ref (.cut 0 (.ref (.cut 1 (.ref (.cut 2 .out (.cut 3 (.ref (.cut 0 (.ref (.cut 1 (.ref (.cut 2 .out .leaf)) (.ref (.cut 2 .out .leaf)))) (.ref (.cut 1 (.ref (.cut 2 .out .leaf)) (.ref (.cut 2 .out .leaf)))))) .out))) (.ref (.cut 2 .out (.cut 3 (.ref (.cut 0 .out (.ref (.cut 1 (.ref (.cut 2 .out (.cut 3 .leaf .out))) .out)))) .out))))) (.ref (.cut 1 (.ref (.cut 2 .out (.cut 3 (.ref (.cut 0 (.ref (.cut 1 (.ref (.cut 2 .out (.cut 3 .leaf .out))) (.ref (.cut 2 .out (.cut 3 .leaf .out))))) (.ref (.cut 1 (.ref (.cut 2 .out (.cut 3 (.cut 0 .leaf (.cut 1 .leaf .leaf)) .out))) (.ref (.cut 2 .out (.ref (.cut 3 (.ref (.cut 0 .leaf (.ref (.cut 1 .leaf .leaf)))) .out)))))))) .out))) (.ref (.cut 2 .out (.ref (.cut 3 (.ref (.cut 0 (.cut 1 (.cut 2 .out (.cut 3 .leaf .out)) (.ref (.cut 2 .out (.cut 3 (.ref (.cut 0 .out .leaf)) .out)))) (.cut 1 (.ref (.cut 2 .out (.cut 3 (.ref (.cut 0 .leaf .leaf)) .out))) (.cut 2 .out (.ref (.cut 3 .leaf .out)))))) .out))))))))
theorem h17 : check par t17 [24576, 24576, 8192, 24576] [8192, 8192, 8192, 8192] st = true := by decide +kernel
def t18 : Tree := (.ref (.cut 1 (.ref (.cut 2 (.ref (.cut 3 (.ref (.cut 0 (.cut 1 (.cut 2 .leaf .leaf) (.ref (.cut 2 .leaf .leaf))) (.ref (.cut 1 (.ref (.cut 2 .leaf .leaf)) (.cut 2 .leaf .leaf))))) (.ref (.cut 0 (.ref (.cut 1 (.ref (.cut 2 .leaf .leaf)) (.ref (.cut 2 .leaf .leaf)))) (.ref (.cut 1 (.ref (.cut 2 .leaf .leaf)) (.ref (.cut 2 .leaf .leaf)))))))) (.ref (.cut 3 (.ref (.cut 0 (.ref (.cut 1 .out (.ref (.cut 2 (.cut 3 .leaf .leaf) .out)))) (.cut 1 .out (.cut 2 .leaf .out)))) (.cut 0 (.ref (.cut 1 .out (.ref (.cut 2 (.cut 3 .leaf .leaf) .out)))) (.ref (.cut 1 .out (.ref (.cut 2 (.ref (.cut 3 .leaf .leaf)) .out))))))))) (.ref (.cut 2 (.ref (.cut 3 (.ref (.cut 0 .out (.cut 1 (.cut 2 (.ref (.cut 3 .leaf .leaf)) .leaf) .out))) (.cut 0 .out (.ref (.cut 1 (.ref (.cut 2 (.ref (.cut 3 .leaf .leaf)) (.ref (.cut 3 .leaf .leaf)))) .out))))) (.ref (.cut 3 (.cut 0 .out (.ref (.cut 1 (.cut 2 .leaf (.ref (.cut 3 .leaf .leaf))) .out))) (.cut 0 .out (.cut 1 (.cut 2 (.cut 3 .leaf .leaf) (.ref (.cut 3 .leaf (.cut 0 .out (.ref (.cut 1 .out .out)))))) .out))))))))
theorem h18 : check par t18 [20480, 24576, 24576, 8192] [4096, 8192, 8192, 8192] st = true := by decide +kernel
def t19 : Tree := (.ref (.cut 3 (.ref (.cut 0 (.cut 1 (.ref (.cut 2 (.cut 3 .leaf .leaf) (.ref (.cut 3 .leaf .leaf)))) (.cut 2 (.ref (.cut 3 .leaf .leaf)) .leaf)) (.ref (.cut 1 (.cut 2 (.cut 3 .leaf (.cut 0 .leaf .leaf)) (.ref (.cut 3 .leaf .leaf))) (.cut 2 (.ref (.cut 3 .leaf .leaf)) (.cut 3 .leaf .leaf)))))) (.cut 0 (.ref (.cut 1 (.ref (.cut 2 (.cut 3 .leaf .leaf) (.ref (.cut 3 .leaf .leaf)))) (.ref (.cut 2 (.ref (.cut 3 .leaf .leaf)) (.ref (.cut 3 .leaf .leaf)))))) (.ref (.cut 1 (.ref (.cut 2 (.cut 3 (.ref (.cut 0 .leaf (.cut 1 .leaf .leaf))) (.cut 0 .leaf (.cut 1 .leaf .leaf))) (.ref (.cut 3 (.cut 0 .leaf .leaf) (.cut 0 .leaf (.ref (.cut 1 .out .leaf))))))) (.ref (.cut 2 (.ref (.cut 3 (.cut 0 .leaf .leaf) (.cut 0 .leaf (.ref (.cut 1 .leaf .leaf))))) (.ref (.cut 3 (.cut 0 .leaf .leaf) (.cut 0 .leaf (.cut 1 .leaf .leaf)))))))))))
theorem h19 : check par t19 [28672, 20480, 20480, 8192] [4096, 4096, 4096, 8192] st = true := by decide +kernel
def t20 : Tree := (.ref (.cut 3 (.cut 0 (.ref (.cut 1 .out (.cut 2 .leaf .out))) (.cut 1 .out (.ref (.cut 2 (.ref (.cut 3 .leaf .leaf)) .out)))) (.cut 0 (.cut 1 .out (.ref (.cut 2 (.cut 3 .leaf .leaf) .out))) (.ref (.cut 1 .out (.cut 2 (.ref (.cut 3 .leaf (.cut 0 .leaf .leaf))) .out))))))
theorem h20 : check par t20 [28672, 20480, 28672, 8192] [4096, 4096, 4096, 8192] st = true := by decide +kernel
def t21 : Tree := (.ref (.cut 3 (.cut 0 (.ref (.cut 1 (.cut 2 .leaf .leaf) (.ref (.cut 2 (.ref (.cut 3 .leaf .leaf)) (.cut 3 .leaf .leaf))))) (.cut 1 (.ref (.cut 2 (.ref (.cut 3 .leaf .leaf)) (.cut 3 .leaf .leaf))) (.cut 2 .leaf .leaf))) (.cut 0 (.cut 1 (.cut 2 (.ref (.cut 3 .leaf .leaf)) (.ref (.cut 3 .leaf .leaf))) (.ref (.cut 2 (.cut 3 .leaf (.ref (.cut 0 .out .leaf))) (.cut 3 .leaf (.cut 0 .out .leaf))))) (.ref (.cut 1 (.ref (.cut 2 (.cut 3 .leaf (.ref (.cut 0 .leaf .leaf))) (.cut 3 .leaf (.cut 0 .leaf .leaf)))) (.cut 2 (.ref (.cut 3 .leaf .leaf)) (.cut 3 .leaf .leaf)))))))
theorem h21 : check par t21 [28672, 28672, 20480, 8192] [4096, 4096, 4096, 8192] st = true := by decide +kernel
def t22 : Tree := (.ref (.cut 3 (.ref (.cut 0 (.ref (.cut 1 (.cut 2 .leaf .leaf) (.ref (.cut 2 .leaf .leaf)))) (.cut 1 (.ref (.cut 2 .leaf .leaf)) (.cut 2 .leaf .leaf)))) (.ref (.cut 0 (.ref (.cut 1 (.cut 2 (.cut 3 .leaf .leaf) (.ref (.cut 3 .leaf (.ref (.cut 0 .leaf .leaf))))) (.ref (.cut 2 (.ref (.cut 3 .leaf (.ref (.cut 0 .out .leaf)))) (.ref (.cut 3 .leaf .leaf)))))) (.ref (.cut 1 (.ref (.cut 2 (.ref (.cut 3 .leaf (.ref (.cut 0 .leaf .leaf)))) (.ref (.cut 3 .leaf .leaf)))) (.cut 2 (.ref (.cut 3 .leaf .leaf)) (.cut 3 .leaf .leaf))))))))
theorem h22 : check par t22 [28672, 28672, 28672, 8192] [4096, 4096, 4096, 8192] st = true := by decide +kernel
def t23 : Tree := (.ref (.cut 1 (.cut 2 (.ref (.cut 3 (.ref (.cut 0 (.ref (.cut 1 (.ref (.cut 2 .leaf .leaf)) (.ref (.cut 2 .leaf .leaf)))) (.ref (.cut 1 (.ref (.cut 2 .leaf .leaf)) (.ref (.cut 2 .leaf .leaf)))))) (.ref (.cut 0 (.ref (.cut 1 (.cut 2 .out (.ref (.cut 3 .leaf .out))) (.ref (.cut 2 .out (.ref (.cut 3 .leaf .out)))))) (.cut 1 (.ref (.cut 2 .out (.ref (.cut 3 .leaf .out)))) (.cut 2 .out (.cut 3 .leaf .out))))))) (.ref (.cut 3 (.ref (.cut 0 (.cut 1 .out (.ref (.cut 2 (.ref (.cut 3 .leaf .leaf)) .out))) (.ref (.cut 1 .out (.cut 2 (.ref (.cut 3 .leaf .leaf)) .out))))) (.ref (.cut 0 (.ref (.cut 1 .out (.ref (.cut 2 (.ref (.cut 3 .leaf (.ref (.cut 0 .out (.ref (.cut 1 .out .out)))))) .out)))) (.ref (.cut 1 .out (.ref (.cut 2 (.ref (.cut 3 .leaf (.ref (.cut 0 (.ref (.cut 1 .out (.ref (.cut 2 .out .out)))) (.cut 1 .out (.cut 2 .out .out)))))) .out))))))))) (.ref (.cut 2 (.ref (.cut 3 (.ref (.cut 0 .out (.ref (.cut 1 (.cut 2 (.ref (.cut 3 .leaf .leaf)) (.ref (.cut 3 .leaf .leaf))) .out)))) (.ref (.cut 0 .out (.ref (.cut 1 (.ref (.cut 2 .out (.ref (.cut 3 .leaf .out)))) .out)))))) (.ref (.cut 3 (.ref (.cut 0 .out (.ref (.cut 1 (.ref (.cut 2 (.ref (.cut 3 .leaf .leaf)) (.ref (.cut 3 (.ref (.cut 0 .out (.cut 1 .out .out))) (.ref (.cut 0 .out (.cut 1 .out .out))))))) .out)))) (.ref (.cut 0 .out (.ref (.cut 1 (.ref (.cut 2 (.ref (.cut 3 .leaf (.ref (.cut 0 .out (.cut 1 (.ref (.cut 2 .out (.ref (.cut 3 .leaf .out)))) .out))))) (.ref (.cut 3 (.ref (.cut 0 .out (.cut 1 .out .out))) (.ref (.cut 0 .out (.cut 1 .out .out))))))) .out))))))))))
theorem h23 : check par t23 [20480, 24576, 24576, 24576] [4096, 8192, 8192, 8192] st = true := by decide +kernel
def t24 : Tree := (.ref (.cut 2 (.ref (.cut 3 (.ref (.cut 0 (.cut 1 (.cut 2 (.ref (.cut 3 .leaf .leaf)) (.ref (.cut 3 .leaf .leaf))) (.ref (.cut 2 (.ref (.cut 3 .leaf .leaf)) (.ref (.cut 3 .leaf .leaf))))) (.cut 1 (.ref (.cut 2 (.cut 3 (.cut 0 .leaf .leaf) (.ref (.cut 0 .leaf (.ref (.cut 1 .leaf .leaf))))) (.ref (.cut 3 (.ref (.cut 0 .leaf (.ref (.cut 1 .out .leaf)))) (.ref (.cut 0 .leaf (.cut 1 .out .leaf))))))) (.ref (.cut 2 (.ref (.cut 3 (.ref (.cut 0 .leaf (.ref (.cut 1 .leaf .leaf)))) (.ref (.cut 0 .leaf (.cut 1 .leaf .leaf))))) (.cut 3 (.ref (.cut 0 .leaf (.cut 1 .leaf .leaf))) (.cut 0 .leaf (.cut 1 .leaf .leaf)))))))) (.ref (.cut 0 (.ref (.cut 1 (.ref (.cut 2 .out (.ref (.cut 3 .leaf .out)))) (.ref (.cut 2 .out (.ref (.cut 3 .leaf .out)))))) (.ref (.cut 1 (.ref (.cut 2 .out (.ref (.cut 3 (.ref (.cut 0 (.ref (.cut 1 .out .leaf)) (.cut 1 .out (.ref (.cut 2 .out .out))))) .out)))) (.ref (.cut 2 .out (.ref (.cut 3 (.ref (.cut 0 (.ref (.cut 1 .leaf .leaf)) (.cut 1 (.ref (.cut 2 .out .leaf)) (.ref (.cut 2 .out .leaf))))) .out)))))))))) (.ref (.cut 3 (.ref (.cut 0 (.ref (.cut 1 .out (.ref (.cut 2 (.ref (.cut 3 .leaf .leaf)) .out)))) (.ref (.cut 1 .out (.ref (.cut 2 (.ref (.cut 3 (.ref (.cut 0 (.ref (.cut 1 .out .leaf)) (.cut 1 .out (.cut 2 .leaf .out)))) (.ref (.cut 0 (.ref (.cut 1 .out .leaf)) (.cut 1 .out (.ref (.cut 2 .leaf .out))))))) .out)))))) (.ref (.cut 0 (.ref (.cut 1 .out (.ref (.cut 2 (.ref (.cut 3 .leaf (.ref (.cut 0 (.ref (.cut 1 .out (.cut 2 .out .out))) (.ref (.cut 1 .out (.ref (.cut 2 .out .out)))))))) .out)))) (.cut 1 .out (.ref (.cut 2 (.ref (.cut 3 (.ref (.cut 0 .leaf (.ref (.cut 1 .out .leaf)))) (.ref (.cut 0 (.cut 1 .out (.cut 2 .out .out)) (.cut 1 .out (.cut 2 .out .out)))))) .out)))))))))
theorem h24 : check par t24 [28672, 20480, 24576, 24576] [4096, 4096, 8192, 8192] st = true := by decide +kernel
def t25 : Tree := (.ref (.cut 3 (.ref (.cut 0 (.ref (.cut 1 (.ref (.cut 2 (.cut 3 .leaf .leaf) (.cut 3 .leaf .leaf))) (.ref (.cut 2 (.ref (.cut 3 (.ref (.cut 0 .out (.cut 1 .leaf .out))) (.ref (.cut 0 .out (.ref (.cut 1 .leaf .out)))))) (.ref (.cut 3 (.ref (.cut 0 .out (.ref (.cut 1 .leaf .out)))) (.ref (.cut 0 .out (.ref (.cut 1 .leaf .out)))))))))) (.ref (.cut 1 (.ref (.cut 2 (.ref (.cut 3 (.ref (.cut 0 .leaf (.cut 1 .leaf .leaf))) (.ref (.cut 0 (.ref (.cut 1 .leaf .leaf)) (.cut 1 (.cut 2 .out .leaf) .leaf))))) (.ref (.cut 3 (.ref (.cut 0 (.ref (.cut 1 .leaf .leaf)) (.cut 1 (.cut 2 .leaf .leaf) .leaf))) (.ref (.cut 0 (.ref (.cut 1 .leaf .leaf)) (.cut 1 (.cut 2 .leaf .leaf) (.ref (.cut 2 .leaf .leaf))))))))) (.ref (.cut 2 (.ref (.cut 3 (.ref (.cut 0 .leaf .leaf)) (.ref (.cut 0 (.cut 1 .leaf .leaf) (.ref (.cut 1 .leaf .leaf)))))) (.cut 3 (.ref (.cut 0 (.cut 1 .leaf .leaf) (.ref (.cut 1 .leaf .leaf)))) (.ref (.cut 0 (.cut 1 .leaf .leaf) (.cut 1 .leaf .leaf)))))))))) (.ref (.cut 0 (.ref (.cut 1 (.cut 2 .out (.ref (.cut 3 .leaf .out))) (.ref (.cut 2 .out (.ref (.cut 3 (.ref (.cut 0 .out (.ref (.cut 1 .leaf .out)))) .out)))))) (.cut 1 (.ref (.cut 2 .out (.ref (.cut 3 (.ref (.cut 0 .leaf (.ref (.cut 1 (.ref (.cut 2 .out .leaf)) (.ref (.cut 2 .out .leaf)))))) .out)))) (.ref (.cut 2 .out (.ref (.cut 3 (.ref (.cut 0 (.cut 1 .leaf (.ref (.cut 2 .out .leaf))) (.cut 1 (.ref (.cut 2 .out .leaf)) (.cut 2 .out .leaf)))) .out)))))))))
theorem h25 : check par t25 [28672, 28672, 20480, 24576] [4096, 4096, 4096, 8192] st = true := by decide +kernel
end FastNoise.RangeCheck.OuterSuper4
