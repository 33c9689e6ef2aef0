import Verif.RangeCertSimplex4
/-! Generated by tools/rangecert/gen.py: a certificate for the checker `Verif.RangeCheck`. -/
namespace FastNoise.RangeCheck.Simplex4
set_option maxRecDepth 1000000
def t16 : Tree := (.ref (.cut 3 (.cut 0 (.cut 1 .out (.cut 2 (.cut 3 (.cut 0 (.cut 1 .out (.cut 2 (.ref .leaf) .out)) (.cut 1 .out (.cut 2 (.ref (.cut 3 .leaf .leaf)) .out))) (.cut 0 (.cut 1 .out (.cut 2 (.ref .leaf) .out)) (.cut 1 .out (.cut 2 (.ref (.cut 3 .leaf .leaf)) .out)))) .out)) (.cut 1 .out (.cut 2 (.ref (.cut 3 (.cut 0 (.cut 1 .out (.cut 2 (.cut 3 .leaf .leaf) .out)) (.cut 1 .out (.cut 2 (.cut 3 .leaf .leaf) .out))) (.cut 0 (.cut 1 .out (.cut 2 (.cut 3 (.cut 0 .leaf .leaf) .leaf) .out)) (.cut 1 .out (.cut 2 (.cut 3 (.cut 0 .leaf .leaf) .leaf) .out))))) .out))) (.cut 0 (.cut 1 .out (.cut 2 (.cut 3 (.cut 0 (.cut 1 .out (.cut 2 (.ref .leaf) .out)) (.cut 1 .out (.cut 2 (.ref .leaf) .out))) (.ref .leaf)) .out)) (.cut 1 .out (.cut 2 (.ref (.cut 3 (.cut 0 (.cut 1 .out (.cut 2 (.cut 3 .leaf .leaf) .out)) (.cut 1 .out (.cut 2 (.cut 3 .leaf .leaf) .out))) (.cut 0 .leaf (.cut 1 .out .leaf)))) .out)))))
theorem h16 : check par t16 [20928, 20800, 20928, 12672] [64, 64, 64, 128] st = true := by decide +kernel
def t17 : Tree := (.ref (.cut 2 (.cut 3 (.cut 0 (.cut 1 (.cut 2 (.cut 3 (.cut 0 (.cut 1 (.ref .leaf) (.ref (.cut 2 .leaf .leaf))) (.cut 1 (.ref (.cut 2 .leaf .leaf)) (.ref .leaf))) (.cut 0 (.cut 1 (.cut 2 (.ref .leaf) (.ref .leaf)) (.ref (.cut 2 .leaf (.cut 3 .leaf .leaf)))) (.cut 1 (.ref (.cut 2 .leaf (.cut 3 .leaf .leaf))) (.ref .leaf)))) (.cut 3 (.cut 0 (.cut 1 (.cut 2 (.ref .leaf) (.ref .leaf)) (.ref (.cut 2 (.cut 3 .leaf .leaf) (.cut 3 .leaf .leaf)))) (.cut 1 (.ref (.cut 2 (.cut 3 .leaf .leaf) (.cut 3 .leaf .leaf))) (.ref .leaf))) (.cut 0 (.cut 1 (.ref .leaf) (.ref (.cut 2 (.cut 3 .leaf .leaf) (.cut 3 .leaf .leaf)))) (.cut 1 (.ref (.cut 2 (.cut 3 .leaf .leaf) (.cut 3 .leaf .leaf))) (.ref .leaf))))) (.ref (.cut 2 (.cut 3 (.cut 0 .out (.cut 1 .leaf .out)) (.cut 0 .out .leaf)) (.cut 3 (.cut 0 .out (.cut 1 .leaf .out)) (.cut 0 .out (.cut 1 .leaf .out)))))) (.cut 1 (.ref (.cut 2 (.cut 3 (.cut 0 (.cut 1 (.cut 2 .leaf (.cut 3 .leaf .leaf)) .leaf) (.cut 1 (.cut 2 .leaf (.cut 3 .leaf .leaf)) .leaf)) (.cut 0 (.cut 1 (.cut 2 .leaf (.cut 3 .leaf .leaf)) .leaf) (.cut 1 (.cut 2 .leaf .leaf) .leaf))) (.cut 3 (.cut 0 (.cut 1 (.cut 2 (.cut 3 .leaf .leaf) (.cut 3 .leaf .leaf)) .leaf) (.cut 1 (.cut 2 (.cut 3 .leaf .leaf) (.cut 3 .leaf .leaf)) .leaf)) (.cut 0 (.cut 1 (.cut 2 (.cut 3 .leaf (.cut 0 .leaf .leaf)) (.cut 3 (.cut 0 .leaf .leaf) .leaf)) .leaf) (.cut 1 (.cut 2 (.cut 3 (.cut 0 .leaf .leaf) .leaf) (.cut 3 (.cut 0 .leaf .leaf) .leaf)) (.cut 2 .leaf .leaf)))))) (.cut 2 (.cut 3 (.ref .leaf) (.ref .leaf)) (.cut 3 (.ref .leaf) (.cut 0 (.ref .leaf) (.ref .leaf)))))) (.cut 0 (.cut 1 (.cut 2 (.cut 3 (.cut 0 (.cut 1 (.ref .leaf) (.ref .leaf)) (.cut 1 (.ref .leaf) (.ref .leaf))) (.ref .leaf)) (.cut 3 (.cut 0 (.cut 1 (.ref .leaf) (.ref (.cut 2 .leaf .leaf))) (.cut 1 (.ref (.cut 2 .leaf .leaf)) (.ref .leaf))) (.ref .leaf))) (.ref (.cut 2 (.cut 3 (.cut 0 .out .leaf) .leaf) (.cut 3 (.cut 0 .out (.cut 1 (.cut 2 .leaf .leaf) .out)) (.cut 0 .out (.cut 1 .leaf .out)))))) (.cut 1 (.ref (.cut 2 (.cut 3 (.cut 0 (.cut 1 (.cut 2 .leaf .leaf) .leaf) (.cut 1 .leaf .leaf)) .leaf) (.cut 3 (.cut 0 (.cut 1 (.cut 2 (.cut 3 .leaf .leaf) (.cut 3 .leaf .leaf)) (.cut 2 .leaf .leaf)) (.cut 1 (.cut 2 (.cut 3 .leaf .leaf) (.cut 3 .leaf .leaf)) (.cut 2 .leaf .leaf))) (.cut 0 .leaf (.cut 1 .leaf .leaf))))) (.cut 2 (.cut 3 (.ref .leaf) (.ref .leaf)) (.cut 3 (.cut 0 (.ref .leaf) (.ref .leaf)) (.cut 0 (.ref .leaf) (.ref .leaf))))))) (.cut 3 (.cut 0 (.cut 1 (.cut 2 (.cut 3 (.cut 0 (.cut 1 (.cut 2 .leaf (.ref .leaf)) (.cut 2 (.ref .leaf) (.ref .leaf))) (.cut 1 (.cut 2 (.ref .leaf) (.ref .leaf)) .leaf)) (.cut 0 (.cut 1 (.cut 2 .leaf (.ref .leaf)) (.cut 2 (.ref .leaf) (.ref .leaf))) (.cut 1 (.cut 2 (.ref .leaf) (.ref .leaf)) .leaf))) (.ref (.cut 3 (.cut 0 (.cut 1 .out .leaf) (.cut 1 .out .leaf)) (.cut 0 (.cut 1 .out (.cut 2 .leaf .out)) (.cut 1 .out .leaf))))) (.cut 2 (.ref (.cut 3 (.cut 0 .out (.cut 1 .leaf .out)) (.cut 0 .out (.cut 1 (.cut 2 .leaf .leaf) .out)))) (.cut 3 (.ref .leaf) (.cut 0 .out (.ref .leaf))))) (.cut 1 (.cut 2 (.ref (.cut 3 (.cut 0 (.cut 1 (.cut 2 (.cut 3 .leaf .leaf) .leaf) .leaf) (.cut 1 (.cut 2 (.cut 3 .leaf .leaf) .leaf) .leaf)) (.cut 0 (.cut 1 (.cut 2 (.cut 3 .leaf .leaf) .leaf) (.cut 2 .leaf .leaf)) (.cut 1 (.cut 2 (.cut 3 .leaf .leaf) .leaf) (.cut 2 .leaf .leaf))))) (.cut 3 (.ref .leaf) (.cut 0 (.ref .leaf) (.ref .leaf)))) (.cut 2 (.cut 3 (.ref .leaf) (.cut 0 (.ref .leaf) (.ref .leaf))) (.cut 3 .leaf .leaf)))) (.cut 0 (.cut 1 (.cut 2 (.cut 3 (.cut 0 (.cut 1 (.cut 2 .leaf (.ref .leaf)) (.ref .leaf)) (.cut 1 (.ref .leaf) .leaf)) .leaf) (.ref (.cut 3 (.cut 0 (.cut 1 .out (.cut 2 .leaf .out)) (.cut 1 .out .leaf)) (.cut 0 (.cut 1 .out .leaf) .leaf)))) (.cut 2 (.ref (.cut 3 (.cut 0 .out (.cut 1 .leaf .out)) (.cut 0 .out .leaf))) (.cut 3 (.cut 0 .out (.ref .leaf)) (.ref .leaf)))) (.cut 1 (.cut 2 (.ref (.cut 3 (.cut 0 (.cut 1 (.cut 2 (.cut 3 .leaf .leaf) .leaf) .leaf) (.cut 1 (.cut 2 (.cut 3 .leaf .leaf) .leaf) .leaf)) (.cut 0 .leaf .leaf))) (.cut 3 (.cut 0 (.ref .leaf) (.ref .leaf)) (.ref .leaf))) (.cut 2 (.cut 3 (.cut 0 (.ref .leaf) (.ref .leaf)) (.ref .leaf)) (.cut 3 .leaf .leaf)))))))
theorem h17 : check par t17 [20928, 20928, 20864, 12672] [64, 64, 128, 128] st = true := by decide +kernel
def t18 : Tree := (.ref (.cut 0 (.cut 1 (.cut 2 (.cut 3 (.cut 0 .leaf (.cut 1 (.ref .leaf) .leaf)) .leaf) (.ref (.cut 3 (.cut 0 (.cut 1 .out .leaf) (.cut 1 .out (.cut 2 .leaf .out))) .leaf))) (.cut 2 (.ref (.cut 3 (.cut 0 .out (.cut 1 (.cut 2 .leaf .leaf) .out)) .leaf)) (.cut 3 (.cut 0 .out (.cut 1 (.cut 2 (.cut 3 (.ref .leaf) (.ref .leaf)) (.ref (.cut 3 .leaf .leaf))) .out)) (.cut 0 .out (.ref .leaf))))) (.cut 1 (.cut 2 (.ref (.cut 3 (.cut 0 (.cut 1 .leaf (.cut 2 .leaf .leaf)) (.cut 1 .leaf (.cut 2 .leaf (.cut 3 .leaf .leaf)))) .leaf)) (.cut 3 (.cut 0 (.cut 1 .out (.cut 2 (.cut 3 (.ref .leaf) (.ref .leaf)) .out)) (.cut 1 .out (.cut 2 (.ref (.cut 3 .leaf .leaf)) .out))) (.cut 0 (.ref .leaf) (.ref .leaf)))) (.cut 2 (.cut 3 (.cut 0 (.cut 1 (.cut 2 (.ref .leaf) (.cut 3 (.ref .leaf) (.ref .leaf))) (.ref (.cut 2 .leaf (.cut 3 .leaf .leaf)))) (.cut 1 (.ref (.cut 2 .leaf (.cut 3 .leaf .leaf))) (.cut 2 (.ref .leaf) (.cut 3 (.ref .leaf) (.ref .leaf))))) (.cut 0 (.ref .leaf) (.ref .leaf))) (.cut 3 (.cut 0 (.cut 1 (.cut 2 (.cut 3 .leaf .leaf) (.ref (.cut 3 (.cut 0 (.cut 1 .out .leaf) (.cut 1 .out (.cut 2 .leaf .out))) .leaf))) (.cut 2 (.ref (.cut 3 (.cut 0 .out (.cut 1 .leaf .out)) .leaf)) (.cut 3 (.cut 0 .out (.cut 1 (.cut 2 (.ref .leaf) (.ref (.cut 3 .leaf .leaf))) .out)) (.ref .leaf)))) (.cut 1 (.cut 2 (.ref (.cut 3 (.cut 0 (.cut 1 .leaf .leaf) (.cut 1 .leaf (.cut 2 .leaf .leaf))) .leaf)) (.cut 3 (.cut 0 (.cut 1 .out (.cut 2 (.ref .leaf) .out)) (.cut 1 .out (.cut 2 (.ref (.cut 3 .leaf .leaf)) .out))) (.ref .leaf))) (.cut 2 (.cut 3 (.cut 0 (.cut 1 (.ref .leaf) (.ref (.cut 2 .leaf (.cut 3 .leaf .leaf)))) (.cut 1 (.ref (.cut 2 .leaf (.cut 3 .leaf .leaf))) (.cut 2 (.ref .leaf) (.ref .leaf)))) (.ref .leaf)) (.cut 3 (.cut 0 (.cut 1 (.cut 2 .leaf (.ref (.cut 3 .leaf .leaf))) (.cut 2 (.ref (.cut 3 .leaf .leaf)) (.cut 3 (.ref .leaf) (.ref .leaf)))) (.cut 1 (.cut 2 (.ref (.cut 3 .leaf .leaf)) (.cut 3 (.ref .leaf) (.ref .leaf))) (.cut 2 (.cut 3 (.ref .leaf) (.ref .leaf)) .leaf))) .leaf)))) (.cut 0 (.cut 1 .leaf (.ref .leaf)) (.cut 1 (.ref .leaf) (.cut 2 (.ref .leaf) .leaf))))))))
theorem h18 : check par t18 [20736, 20736, 20736, 13056] [256, 256, 256, 256] st = true := by decide +kernel
def t19 : Tree := (.ref (.cut 3 (.cut 0 (.cut 1 .out (.cut 2 (.cut 3 (.cut 0 .out (.cut 1 .out .out)) (.cut 0 .out (.cut 1 .out .out))) .out)) (.cut 1 .out (.cut 2 (.cut 3 (.cut 0 (.cut 1 .out (.cut 2 (.cut 3 (.cut 0 .out .leaf) (.cut 0 .out (.cut 1 .out .out))) .out)) (.cut 1 .out (.cut 2 (.cut 3 .leaf (.cut 0 (.cut 1 .out (.cut 2 .leaf .out)) (.cut 1 .out .leaf))) .out))) (.cut 0 (.cut 1 .out (.cut 2 (.cut 3 (.cut 0 .out (.cut 1 .out .out)) (.cut 0 .out (.cut 1 .out .out))) .out)) (.cut 1 .out (.cut 2 (.cut 3 (.cut 0 (.cut 1 .out (.cut 2 (.cut 3 .leaf (.cut 0 .out .leaf)) .out)) (.cut 1 .out (.cut 2 (.cut 3 .leaf .leaf) .out))) (.cut 0 (.cut 1 .out (.cut 2 (.cut 3 (.cut 0 .out .leaf) .leaf) .out)) (.cut 1 .out (.cut 2 (.cut 3 (.cut 0 .leaf .leaf) .leaf) .out)))) .out)))) .out))) (.cut 0 (.cut 1 .out (.cut 2 (.cut 3 (.cut 0 .out (.cut 1 .out .out)) (.cut 0 .out .leaf)) .out)) (.cut 1 .out (.cut 2 (.cut 3 (.cut 0 (.cut 1 .out (.cut 2 (.cut 3 (.cut 0 .out (.cut 1 .out .out)) .leaf) .out)) (.cut 1 .out (.cut 2 (.cut 3 (.cut 0 (.cut 1 .out (.cut 2 (.cut 3 .leaf .leaf) .out)) (.cut 1 .out (.cut 2 (.cut 3 .leaf .leaf) .out))) (.cut 0 (.cut 1 .out .leaf) (.cut 1 .out .leaf))) .out))) (.cut 0 (.cut 1 .out (.cut 2 .leaf .out)) (.cut 1 .out (.cut 2 (.cut 3 .leaf .leaf) .out)))) .out)))))
theorem h19 : check par t19 [20736, 20736, 21248, 12800] [256, 256, 256, 512] st = true := by decide +kernel
def t20 : Tree := (.ref (.cut 2 (.ref (.cut 3 (.cut 0 .out (.cut 1 (.cut 2 (.cut 3 (.cut 0 .out (.cut 1 (.cut 2 (.cut 3 .leaf .leaf) (.cut 3 .leaf (.cut 0 .out (.cut 1 .leaf .out)))) .out)) (.cut 0 .out (.cut 1 (.cut 2 .leaf (.cut 3 (.cut 0 .out (.cut 1 .leaf .out)) (.cut 0 .out (.cut 1 .leaf .out)))) .out))) (.cut 3 (.cut 0 .out (.cut 1 (.cut 2 (.cut 3 (.cut 0 .out .leaf) (.cut 0 .out (.cut 1 .leaf .out))) (.cut 3 .leaf (.cut 0 .out (.cut 1 (.cut 2 .leaf .leaf) .out)))) .out)) (.cut 0 .out (.cut 1 (.cut 2 (.cut 3 (.cut 0 .out (.cut 1 (.cut 2 (.cut 3 .leaf .leaf) (.cut 3 .leaf (.cut 0 .out .leaf))) .out)) (.cut 0 .out (.cut 1 (.cut 2 (.cut 3 .leaf .leaf) (.cut 3 (.cut 0 .out .leaf) .leaf)) .out))) (.cut 3 (.cut 0 .out (.cut 1 (.cut 2 (.cut 3 .leaf (.cut 0 .out .leaf)) (.cut 3 .leaf .leaf)) .out)) (.cut 0 .out (.cut 1 (.cut 2 (.cut 3 (.cut 0 .out .leaf) .leaf) (.cut 3 (.cut 0 .out .leaf) .leaf)) .out)))) .out)))) .out)) (.cut 0 .out (.cut 1 (.cut 2 (.cut 3 (.cut 0 .out (.cut 1 (.cut 2 .leaf (.cut 3 .leaf .leaf)) .out)) (.cut 0 .out .leaf)) (.cut 3 (.cut 0 .out (.cut 1 (.cut 2 (.cut 3 (.cut 0 .out (.cut 1 (.cut 2 .leaf (.cut 3 .leaf .leaf)) .out)) .leaf) (.cut 3 (.cut 0 .out (.cut 1 (.cut 2 (.cut 3 .leaf .leaf) (.cut 3 .leaf .leaf)) .out)) (.cut 0 .out (.cut 1 .leaf .out)))) .out)) (.cut 0 .out (.cut 1 (.cut 2 .leaf (.cut 3 .leaf .leaf)) .out)))) .out)))) (.cut 3 (.cut 0 .out (.cut 1 (.cut 2 (.cut 3 (.cut 0 .out (.cut 1 (.cut 2 (.cut 3 (.ref .leaf) (.ref .leaf)) (.ref .leaf)) .out)) (.cut 0 .out (.cut 1 (.cut 2 (.cut 3 (.cut 0 .out (.cut 1 (.cut 2 (.ref .leaf) (.ref .leaf)) .out)) (.cut 0 .out (.cut 1 (.cut 2 (.ref .leaf) (.ref .leaf)) .out))) (.ref (.cut 3 (.cut 0 .out .leaf) (.cut 0 .out (.cut 1 .out .out))))) .out))) (.ref (.cut 3 (.cut 0 .out (.cut 1 .out .out)) (.cut 0 .out (.cut 1 .out .out))))) .out)) (.cut 0 .out (.cut 1 (.cut 2 (.cut 3 (.cut 0 .out (.cut 1 (.cut 2 (.cut 3 (.cut 0 .out (.cut 1 (.cut 2 (.ref .leaf) (.ref .leaf)) .out)) (.cut 0 .out (.cut 1 (.ref .leaf) .out))) (.ref (.cut 3 (.cut 0 .out (.cut 1 .out .out)) (.cut 0 .out .leaf)))) .out)) (.cut 0 .out (.cut 1 (.cut 2 (.cut 3 (.ref .leaf) (.ref .leaf)) (.ref (.cut 3 .leaf .leaf))) .out))) (.ref (.cut 3 (.cut 0 .out (.cut 1 .out .out)) (.cut 0 .out (.cut 1 .out .out))))) .out)))))
theorem h20 : check par t20 [20736, 21248, 20992, 12800] [256, 256, 512, 512] st = true := by decide +kernel
def t21 : Tree := (.ref (.cut 2 (.ref (.cut 3 (.cut 0 (.cut 1 (.cut 2 (.cut 3 (.cut 0 (.cut 1 (.cut 2 .leaf (.cut 3 .leaf .leaf)) (.cut 2 (.cut 3 .leaf .leaf) (.cut 3 (.cut 0 .leaf .leaf) (.cut 0 (.cut 1 .leaf (.cut 2 .leaf .leaf)) .leaf)))) (.cut 1 .leaf (.cut 2 .leaf .leaf))) (.cut 0 (.cut 1 (.cut 2 .leaf (.cut 3 .leaf .leaf)) (.cut 2 (.cut 3 .leaf .leaf) (.cut 3 (.cut 0 (.cut 1 .leaf (.cut 2 .leaf (.cut 3 .leaf .leaf))) (.cut 1 .leaf .leaf)) (.cut 0 (.cut 1 .leaf .leaf) .leaf)))) (.cut 1 (.cut 2 .leaf .leaf) (.cut 2 .leaf (.cut 3 .leaf .leaf))))) (.cut 3 (.cut 0 (.cut 1 .out (.cut 2 (.cut 3 (.cut 0 (.cut 1 .out .leaf) .leaf) (.cut 0 (.cut 1 .out (.cut 2 (.cut 3 .leaf .leaf) .out)) .leaf)) .out)) (.cut 1 .out (.cut 2 (.cut 3 .leaf .leaf) .out))) (.cut 0 (.cut 1 .out (.cut 2 (.cut 3 (.cut 0 (.cut 1 .out (.cut 2 (.cut 3 .leaf .leaf) .out)) (.cut 1 .out .leaf)) (.cut 0 (.cut 1 .out (.cut 2 .leaf .out)) (.cut 1 .out .leaf))) .out)) (.cut 1 .out (.cut 2 (.cut 3 .leaf .leaf) .out))))) (.cut 2 (.cut 3 (.cut 0 (.cut 1 (.cut 2 (.cut 3 .leaf .leaf) (.cut 3 (.cut 0 (.cut 1 .leaf .leaf) .leaf) (.cut 0 (.cut 1 (.cut 2 .leaf (.cut 3 .leaf .leaf)) (.cut 2 .leaf (.cut 3 .leaf .leaf))) .leaf))) (.cut 2 (.cut 3 .leaf .leaf) (.cut 3 .leaf (.cut 0 (.cut 1 (.cut 2 .leaf .leaf) .leaf) .leaf)))) (.cut 1 (.cut 2 .leaf (.cut 3 .leaf .leaf)) (.cut 2 .leaf (.cut 3 .leaf .leaf)))) (.cut 0 (.cut 1 (.cut 2 (.cut 3 .leaf .leaf) (.cut 3 (.cut 0 (.cut 1 (.cut 2 .leaf (.cut 3 .leaf .leaf)) (.cut 2 .leaf (.cut 3 .leaf .leaf))) (.cut 1 .leaf .leaf)) (.cut 0 (.cut 1 (.cut 2 .leaf .leaf) (.cut 2 .leaf .leaf)) (.cut 1 .leaf .leaf)))) (.cut 2 .leaf (.cut 3 (.cut 0 (.cut 1 (.cut 2 .leaf .leaf) .leaf) (.cut 1 .leaf .leaf)) (.cut 0 (.cut 1 (.cut 2 .leaf .leaf) .leaf) (.cut 1 .leaf .leaf))))) (.cut 1 (.cut 2 .leaf (.cut 3 .leaf .leaf)) (.cut 2 .leaf (.cut 3 .leaf .leaf))))) (.cut 3 (.cut 0 (.cut 1 (.cut 2 (.cut 3 (.cut 0 (.cut 1 .leaf .leaf) .leaf) (.cut 0 (.cut 1 (.cut 2 (.cut 3 .leaf (.cut 0 .leaf .leaf)) (.cut 3 .leaf (.cut 0 (.cut 1 .out .leaf) .leaf))) (.cut 2 (.cut 3 .leaf (.cut 0 (.cut 1 .leaf .leaf) .leaf)) (.cut 3 .leaf (.cut 0 (.cut 1 .leaf .leaf) .leaf)))) (.cut 1 .leaf .leaf))) (.cut 3 (.cut 0 .leaf .leaf) (.cut 0 (.cut 1 .out (.cut 2 (.cut 3 .leaf .leaf) .out)) (.cut 1 .out (.cut 2 .leaf .out))))) (.cut 2 (.cut 3 (.cut 0 .leaf .leaf) (.cut 0 (.cut 1 (.cut 2 (.cut 3 .leaf .leaf) (.cut 3 .leaf .leaf)) .leaf) (.cut 1 .leaf .leaf))) (.cut 3 .leaf (.cut 0 (.cut 1 (.cut 2 (.cut 3 .leaf .leaf) .leaf) (.cut 2 .leaf .leaf)) (.cut 1 .leaf .leaf))))) (.cut 1 (.cut 2 (.cut 3 .leaf .leaf) (.cut 3 .leaf .leaf)) (.cut 2 (.cut 3 .leaf .leaf) (.cut 3 .leaf .leaf)))) (.cut 0 (.cut 1 (.cut 2 (.cut 3 (.cut 0 (.cut 1 (.cut 2 (.cut 3 (.cut 0 (.cut 1 .leaf .leaf) .leaf) (.cut 0 (.cut 1 .leaf (.cut 2 .leaf .leaf)) .leaf)) (.cut 3 (.cut 0 (.cut 1 .out (.cut 2 .leaf .out)) .leaf) (.cut 0 (.cut 1 .out (.cut 2 .leaf .out)) .leaf))) (.cut 2 (.cut 3 (.cut 0 (.cut 1 (.cut 2 .leaf .leaf) (.cut 2 .leaf .leaf)) .leaf) (.cut 0 (.cut 1 (.cut 2 .leaf .leaf) (.cut 2 .leaf .leaf)) .leaf)) (.cut 3 (.cut 0 (.cut 1 (.cut 2 .leaf (.cut 3 .leaf .leaf)) (.cut 2 (.cut 3 .leaf .leaf) (.cut 3 .leaf .leaf))) .leaf) (.cut 0 (.cut 1 (.cut 2 (.cut 3 .leaf .leaf) (.cut 3 .leaf .leaf)) (.cut 2 (.cut 3 .leaf .leaf) (.cut 3 .leaf .leaf))) (.cut 1 .leaf .leaf))))) (.cut 1 (.cut 2 .leaf .leaf) (.cut 2 .leaf (.cut 3 .leaf .leaf)))) (.cut 0 (.cut 1 (.cut 2 (.cut 3 (.cut 0 .leaf .leaf) .leaf) (.cut 3 (.cut 0 (.cut 1 .out .leaf) .leaf) .leaf)) (.cut 2 (.cut 3 (.cut 0 (.cut 1 .leaf .leaf) .leaf) .leaf) (.cut 3 (.cut 0 (.cut 1 (.cut 2 (.cut 3 .leaf .leaf) (.cut 3 .leaf .leaf)) (.cut 2 (.cut 3 .leaf .leaf) (.cut 3 .leaf .leaf))) (.cut 1 (.cut 2 .leaf .leaf) (.cut 2 .leaf .leaf))) (.cut 0 (.cut 1 .leaf .leaf) (.cut 1 .leaf .leaf))))) (.cut 1 (.cut 2 .leaf (.cut 3 .leaf .leaf)) (.cut 2 (.cut 3 .leaf .leaf) (.cut 3 (.cut 0 .leaf .leaf) .leaf))))) (.cut 3 (.cut 0 (.cut 1 .out (.cut 2 (.cut 3 (.cut 0 (.cut 1 .out (.cut 2 .leaf .out)) .leaf) (.cut 0 (.cut 1 .out (.cut 2 (.cut 3 .leaf .leaf) .out)) (.cut 1 .out (.cut 2 .leaf .out)))) .out)) (.cut 1 .out (.cut 2 (.cut 3 .leaf (.cut 0 .leaf .leaf)) .out))) (.cut 0 (.cut 1 .out (.cut 2 (.cut 3 (.cut 0 (.cut 1 .out (.cut 2 (.cut 3 .leaf .leaf) .out)) (.cut 1 .out .leaf)) (.cut 0 .leaf .leaf)) .out)) (.cut 1 .out (.cut 2 (.cut 3 (.cut 0 .leaf .leaf) .leaf) .out))))) (.cut 2 (.cut 3 (.cut 0 (.cut 1 (.cut 2 (.cut 3 (.cut 0 (.cut 1 .leaf .leaf) .leaf) (.cut 0 (.cut 1 .leaf .leaf) .leaf)) (.cut 3 (.cut 0 (.cut 1 (.cut 2 .leaf .leaf) .leaf) .leaf) (.cut 0 (.cut 1 (.cut 2 (.cut 3 .leaf .leaf) (.cut 3 .leaf .leaf)) (.cut 2 .leaf .leaf)) (.cut 1 (.cut 2 .leaf .leaf) .leaf)))) (.cut 2 (.cut 3 .leaf .leaf) (.cut 3 .leaf (.cut 0 .leaf .leaf)))) (.cut 1 (.cut 2 (.cut 3 .leaf .leaf) (.cut 3 .leaf (.cut 0 .leaf .leaf))) (.cut 2 .leaf (.cut 3 .leaf .leaf)))) (.cut 0 (.cut 1 (.cut 2 (.cut 3 (.cut 0 (.cut 1 .leaf .leaf) .leaf) .leaf) (.cut 3 (.cut 0 (.cut 1 (.cut 2 .leaf (.cut 3 .leaf .leaf)) (.cut 2 .leaf .leaf)) (.cut 1 (.cut 2 .leaf .leaf) .leaf)) (.cut 0 .leaf .leaf))) (.cut 2 (.cut 3 .leaf .leaf) (.cut 3 (.cut 0 .leaf .leaf) .leaf))) (.cut 1 (.cut 2 .leaf (.cut 3 (.cut 0 .leaf .leaf) .leaf)) (.cut 2 .leaf (.cut 3 .leaf .leaf))))) (.cut 3 (.cut 0 (.cut 1 (.cut 2 (.cut 3 (.cut 0 (.cut 1 (.cut 2 .leaf .leaf) .leaf) .leaf) (.cut 0 (.cut 1 (.cut 2 (.cut 3 .leaf .leaf) .leaf) (.cut 2 .leaf .leaf)) (.cut 1 (.cut 2 .leaf .leaf) .leaf))) (.cut 3 .leaf (.cut 0 (.cut 1 .out .leaf) .leaf))) (.cut 2 (.cut 3 .leaf (.cut 0 (.cut 1 .leaf .leaf) .leaf)) (.cut 3 .leaf .leaf))) (.cut 1 (.cut 2 (.cut 3 .leaf (.cut 0 .leaf .leaf)) (.cut 3 .leaf .leaf)) (.cut 2 (.cut 3 .leaf .leaf) (.cut 3 .leaf .leaf)))) (.cut 0 (.cut 1 (.cut 2 (.cut 3 (.cut 0 (.cut 1 (.cut 2 .leaf .leaf) .leaf) (.cut 1 .leaf .leaf)) .leaf) (.cut 3 (.cut 0 .leaf .leaf) .leaf)) (.cut 2 (.cut 3 (.cut 0 .leaf .leaf) .leaf) (.cut 3 (.cut 0 .leaf .leaf) .leaf))) (.cut 1 (.cut 2 (.cut 3 (.cut 0 .leaf .leaf) .leaf) (.cut 3 .leaf .leaf)) (.cut 2 (.cut 3 .leaf .leaf) (.cut 3 .leaf .leaf))))))) (.cut 1 (.cut 2 (.cut 3 (.cut 0 (.cut 1 .leaf .leaf) .leaf) (.cut 0 (.cut 1 .leaf (.cut 2 .leaf .leaf)) .leaf)) (.cut 3 (.cut 0 (.cut 1 .out (.cut 2 .leaf .out)) .leaf) (.cut 0 (.cut 1 .out .leaf) .leaf))) (.cut 2 (.cut 3 (.cut 0 (.cut 1 .leaf .leaf) .leaf) (.cut 0 (.cut 1 .leaf .leaf) .leaf)) (.cut 3 (.cut 0 (.cut 1 (.cut 2 .leaf .leaf) .leaf) .leaf) (.cut 0 (.cut 1 (.cut 2 .leaf .leaf) (.cut 2 .leaf .leaf)) .leaf)))))))) (.cut 1 (.cut 2 (.cut 3 (.cut 0 .leaf .leaf) (.cut 0 (.cut 1 .leaf .leaf) .leaf)) (.cut 3 (.cut 0 .leaf .leaf) (.cut 0 .leaf .leaf))) (.cut 2 (.cut 3 (.cut 0 .leaf .leaf) (.cut 0 .leaf .leaf)) (.cut 3 (.cut 0 (.cut 1 .leaf .leaf) .leaf) (.cut 0 (.cut 1 (.cut 2 .leaf .leaf) (.cut 2 .leaf (.cut 3 .leaf .leaf))) .leaf))))) (.cut 0 (.cut 1 (.cut 2 (.cut 3 (.cut 0 (.cut 1 .leaf (.cut 2 .leaf .leaf)) (.cut 1 .leaf (.cut 2 .leaf .leaf))) .leaf) (.cut 3 (.cut 0 (.cut 1 .out (.cut 2 (.cut 3 .leaf .leaf) .out)) (.cut 1 .out (.cut 2 (.cut 3 .leaf .leaf) .out))) (.cut 0 .leaf .leaf))) (.cut 2 (.cut 3 (.cut 0 (.cut 1 (.cut 2 .leaf (.cut 3 .leaf .leaf)) (.cut 2 .leaf (.cut 3 .leaf .leaf))) (.cut 1 (.cut 2 .leaf (.cut 3 .leaf .leaf)) (.cut 2 .leaf (.cut 3 .leaf .leaf)))) (.cut 0 .leaf .leaf)) (.cut 3 (.cut 0 (.cut 1 (.cut 2 (.cut 3 (.cut 0 (.cut 1 .leaf (.cut 2 .leaf (.cut 3 .leaf .leaf))) (.cut 1 .leaf (.cut 2 .leaf .leaf))) .leaf) (.cut 3 (.cut 0 (.cut 1 .out (.cut 2 (.cut 3 .leaf .leaf) .out)) (.cut 1 .out (.cut 2 .leaf .out))) .leaf)) (.cut 2 (.cut 3 (.cut 0 (.cut 1 (.cut 2 .leaf (.cut 3 .leaf .leaf)) (.cut 2 .leaf (.cut 3 .leaf .leaf))) (.cut 1 (.cut 2 .leaf .leaf) (.cut 2 .leaf .leaf))) .leaf) (.cut 3 (.cut 0 (.cut 1 (.cut 2 (.cut 3 .leaf .leaf) (.cut 3 .leaf .leaf)) (.cut 2 (.cut 3 .leaf .leaf) (.cut 3 .leaf .leaf))) (.cut 1 (.cut 2 (.cut 3 .leaf .leaf) .leaf) (.cut 2 .leaf .leaf))) (.cut 0 (.cut 1 .leaf .leaf) (.cut 1 .leaf .leaf))))) (.cut 1 (.cut 2 (.cut 3 (.cut 0 (.cut 1 .leaf .leaf) .leaf) .leaf) (.cut 3 (.cut 0 (.cut 1 .out .leaf) .leaf) .leaf)) (.cut 2 (.cut 3 (.cut 0 (.cut 1 (.cut 2 .leaf .leaf) .leaf) .leaf) .leaf) (.cut 3 (.cut 0 (.cut 1 (.cut 2 .leaf .leaf) .leaf) .leaf) (.cut 0 (.cut 1 .leaf .leaf) .leaf))))) (.cut 0 (.cut 1 (.cut 2 .leaf .leaf) (.cut 2 .leaf (.cut 3 .leaf .leaf))) (.cut 1 (.cut 2 .leaf .leaf) (.cut 2 .leaf (.cut 3 .leaf .leaf))))))) (.cut 1 (.cut 2 (.cut 3 (.cut 0 .leaf .leaf) .leaf) (.cut 3 (.cut 0 (.cut 1 .out .leaf) .leaf) (.cut 0 .leaf .leaf))) (.cut 2 (.cut 3 (.cut 0 (.cut 1 .leaf .leaf) .leaf) (.cut 0 .leaf .leaf)) (.cut 3 (.cut 0 (.cut 1 (.cut 2 .leaf (.cut 3 .leaf .leaf)) (.cut 2 (.cut 3 .leaf .leaf) (.cut 3 .leaf .leaf))) (.cut 1 .leaf .leaf)) (.cut 0 (.cut 1 .leaf (.cut 2 .leaf .leaf)) (.cut 1 .leaf .leaf)))))))) (.cut 3 (.cut 0 (.cut 1 .out (.cut 2 (.cut 3 (.cut 0 (.cut 1 .out (.cut 2 (.cut 3 (.ref .leaf) (.ref .leaf)) .out)) (.cut 1 .out (.cut 2 (.ref .leaf) .out))) (.cut 0 (.cut 1 .out (.cut 2 (.cut 3 (.cut 0 (.cut 1 .out (.cut 2 (.ref .leaf) .out)) (.cut 1 .out (.ref .leaf))) (.cut 0 (.cut 1 .out (.cut 2 (.ref .leaf) .out)) (.cut 1 .out (.cut 2 (.ref .leaf) .out)))) .out)) (.cut 1 .out (.cut 2 (.ref (.cut 3 (.cut 0 .leaf .leaf) (.cut 0 (.cut 1 .out (.cut 2 .leaf .out)) .leaf))) .out)))) .out)) (.cut 1 .out (.cut 2 (.ref (.cut 3 (.cut 0 .leaf .leaf) (.cut 0 (.cut 1 .out (.cut 2 (.cut 3 .leaf .leaf) .out)) (.cut 1 .out .leaf)))) .out))) (.cut 0 (.cut 1 .out (.cut 2 (.cut 3 (.cut 0 (.cut 1 .out (.cut 2 (.cut 3 (.cut 0 (.cut 1 .out (.cut 2 (.ref .leaf) .out)) (.cut 1 .out (.ref .leaf))) (.cut 0 (.cut 1 .out (.ref .leaf)) (.cut 1 .out (.ref .leaf)))) .out)) (.cut 1 .out (.cut 2 (.ref (.cut 3 (.cut 0 (.cut 1 .out .leaf) .leaf) (.cut 0 .leaf .leaf))) .out))) (.cut 0 (.cut 1 .out (.cut 2 (.cut 3 (.ref .leaf) (.ref .leaf)) .out)) (.cut 1 .out (.cut 2 (.ref (.cut 3 .leaf .leaf)) .out)))) .out)) (.cut 1 .out (.cut 2 (.ref (.cut 3 (.cut 0 (.cut 1 .out (.cut 2 .leaf .out)) (.cut 1 .out .leaf)) (.cut 0 (.cut 1 .out (.cut 2 .leaf .out)) (.cut 1 .out .leaf)))) .out))))))
theorem h21 : check par t21 [21248, 20736, 20992, 12800] [256, 256, 512, 512] st = true := by decide +kernel
def t22 : Tree := (.ref (.cut 2 (.cut 3 (.cut 0 (.cut 1 (.cut 2 (.cut 3 (.cut 0 (.cut 1 (.cut 2 (.ref .leaf) (.cut 3 (.ref .leaf) (.ref .leaf))) (.ref (.cut 2 .leaf .leaf))) (.cut 1 (.ref (.cut 2 .leaf .leaf)) (.ref .leaf))) (.cut 0 (.cut 1 (.cut 2 (.ref .leaf) (.cut 3 (.cut 0 (.ref .leaf) (.ref .leaf)) (.ref .leaf))) (.ref (.cut 2 .leaf (.cut 3 .leaf .leaf)))) (.cut 1 (.ref (.cut 2 .leaf (.cut 3 .leaf .leaf))) (.ref .leaf)))) (.cut 3 (.cut 0 (.cut 1 (.cut 2 (.cut 3 (.ref .leaf) (.ref .leaf)) (.cut 3 (.ref .leaf) (.ref .leaf))) (.ref (.cut 2 .leaf .leaf))) (.cut 1 (.ref (.cut 2 .leaf .leaf)) (.ref .leaf))) (.cut 0 (.cut 1 (.cut 2 (.cut 3 (.cut 0 (.cut 1 (.cut 2 (.ref .leaf) (.ref .leaf)) (.ref .leaf)) (.cut 1 (.ref .leaf) (.ref .leaf))) (.cut 0 (.cut 1 (.ref .leaf) (.ref .leaf)) (.cut 1 (.ref .leaf) (.ref .leaf)))) (.cut 3 (.cut 0 (.cut 1 (.cut 2 (.ref .leaf) (.ref .leaf)) (.ref (.cut 2 .leaf .leaf))) (.cut 1 (.ref (.cut 2 .leaf .leaf)) (.ref .leaf))) (.cut 0 (.cut 1 (.cut 2 (.ref .leaf) (.ref .leaf)) (.ref (.cut 2 .leaf .leaf))) (.cut 1 (.ref (.cut 2 .leaf .leaf)) (.ref .leaf))))) (.ref (.cut 2 (.cut 3 (.cut 0 .out .leaf) (.cut 0 .out .leaf)) (.cut 3 (.cut 0 .out .leaf) (.cut 0 .out .leaf))))) (.cut 1 (.ref (.cut 2 (.cut 3 (.cut 0 .leaf .leaf) (.cut 0 (.cut 1 .leaf .leaf) .leaf)) (.cut 3 (.cut 0 .leaf .leaf) (.cut 0 (.cut 1 .leaf .leaf) .leaf)))) (.cut 2 (.cut 3 (.ref .leaf) (.ref .leaf)) (.cut 3 (.ref .leaf) (.ref .leaf))))))) (.ref (.cut 2 (.cut 3 (.cut 0 .out .leaf) (.cut 0 .out .leaf)) (.cut 3 (.cut 0 .out .leaf) (.cut 0 .out (.cut 1 (.cut 2 .leaf .leaf) .out)))))) (.cut 1 (.ref (.cut 2 (.cut 3 (.cut 0 .leaf .leaf) (.cut 0 (.cut 1 .leaf .leaf) .leaf)) (.cut 3 (.cut 0 .leaf .leaf) (.cut 0 (.cut 1 (.cut 2 (.cut 3 .leaf .leaf) (.cut 3 .leaf .leaf)) (.cut 2 .leaf .leaf)) (.cut 1 .leaf .leaf))))) (.cut 2 (.cut 3 (.ref .leaf) (.ref .leaf)) (.cut 3 (.ref .leaf) (.cut 0 (.ref .leaf) (.ref .leaf)))))) (.cut 0 (.cut 1 (.cut 2 (.cut 3 (.cut 0 (.cut 1 (.cut 2 (.ref .leaf) (.cut 3 (.ref .leaf) (.ref .leaf))) (.ref (.cut 2 .leaf .leaf))) (.cut 1 (.ref (.cut 2 .leaf .leaf)) (.ref .leaf))) (.cut 0 (.ref .leaf) (.ref .leaf))) (.cut 3 (.cut 0 (.cut 1 (.cut 2 (.cut 3 (.cut 0 (.cut 1 (.cut 2 (.ref .leaf) (.ref .leaf)) (.ref .leaf)) (.cut 1 (.ref .leaf) (.ref .leaf))) (.ref .leaf)) (.cut 3 (.cut 0 (.cut 1 (.cut 2 (.ref .leaf) (.ref .leaf)) (.ref .leaf)) (.cut 1 (.ref .leaf) (.ref .leaf))) (.cut 0 (.cut 1 (.ref .leaf) (.ref .leaf)) (.cut 1 (.ref .leaf) (.ref .leaf))))) (.ref (.cut 2 (.cut 3 (.cut 0 .out .leaf) .leaf) (.cut 3 (.cut 0 .out .leaf) (.cut 0 .out .leaf))))) (.cut 1 (.ref (.cut 2 (.cut 3 (.cut 0 (.cut 1 .leaf .leaf) .leaf) .leaf) (.cut 3 (.cut 0 (.cut 1 .leaf .leaf) .leaf) (.cut 0 .leaf .leaf)))) (.cut 2 (.ref .leaf) (.ref .leaf)))) (.cut 0 (.cut 1 (.cut 2 (.ref .leaf) (.cut 3 (.ref .leaf) (.ref .leaf))) (.ref (.cut 2 .leaf (.cut 3 .leaf .leaf)))) (.cut 1 (.ref (.cut 2 .leaf (.cut 3 .leaf .leaf))) (.cut 2 (.ref .leaf) (.ref .leaf)))))) (.ref (.cut 2 (.cut 3 (.cut 0 .out .leaf) .leaf) (.cut 3 (.cut 0 .out (.cut 1 (.cut 2 .leaf .leaf) .out)) (.cut 0 .out (.cut 1 (.cut 2 .leaf .leaf) .out)))))) (.cut 1 (.ref (.cut 2 (.cut 3 (.cut 0 (.cut 1 .leaf .leaf) .leaf) .leaf) (.cut 3 (.cut 0 (.cut 1 (.cut 2 .leaf .leaf) (.cut 2 .leaf .leaf)) (.cut 1 .leaf .leaf)) (.cut 0 (.cut 1 (.cut 2 .leaf .leaf) (.cut 2 .leaf .leaf)) (.cut 1 .leaf .leaf))))) (.cut 2 (.cut 3 (.ref .leaf) (.ref .leaf)) (.cut 3 (.cut 0 (.cut 1 (.ref .leaf) (.ref .leaf)) (.ref .leaf)) (.cut 0 (.cut 1 (.ref .leaf) (.ref .leaf)) (.ref .leaf))))))) (.cut 3 (.cut 0 (.cut 1 (.cut 2 (.cut 3 (.cut 0 (.cut 1 (.cut 2 (.cut 3 .leaf .leaf) (.ref .leaf)) (.cut 2 (.ref .leaf) (.ref .leaf))) (.cut 1 (.cut 2 (.ref .leaf) (.ref .leaf)) .leaf)) (.cut 0 (.cut 1 (.cut 2 (.cut 3 (.cut 0 .leaf .leaf) (.cut 0 (.cut 1 (.cut 2 .leaf (.ref .leaf)) (.cut 2 (.ref .leaf) (.ref .leaf))) (.cut 1 (.cut 2 (.ref .leaf) (.ref .leaf)) .leaf))) (.ref (.cut 3 .leaf (.cut 0 (.cut 1 .out .leaf) .leaf)))) (.cut 2 (.ref (.cut 3 .leaf (.cut 0 .out .leaf))) (.cut 3 (.ref .leaf) (.ref .leaf)))) (.cut 1 (.cut 2 (.ref (.cut 3 .leaf (.cut 0 (.cut 1 (.cut 2 .leaf .leaf) .leaf) .leaf))) (.cut 3 (.ref .leaf) (.ref .leaf))) (.cut 2 (.cut 3 (.ref .leaf) (.ref .leaf)) .leaf)))) (.ref (.cut 3 (.cut 0 .leaf .leaf) (.cut 0 (.cut 1 .out (.cut 2 .leaf .out)) (.cut 1 .out .leaf))))) (.cut 2 (.ref (.cut 3 (.cut 0 .out .leaf) (.cut 0 .out (.cut 1 (.cut 2 .leaf .leaf) .out)))) (.cut 3 (.ref .leaf) (.cut 0 .out (.ref .leaf))))) (.cut 1 (.cut 2 (.ref (.cut 3 (.cut 0 .leaf .leaf) (.cut 0 (.cut 1 (.cut 2 (.cut 3 .leaf .leaf) .leaf) (.cut 2 .leaf .leaf)) (.cut 1 .leaf .leaf)))) (.cut 3 (.ref .leaf) (.cut 0 (.ref .leaf) (.ref .leaf)))) (.cut 2 (.cut 3 (.ref .leaf) (.cut 0 (.ref .leaf) (.ref .leaf))) (.cut 3 .leaf .leaf)))) (.cut 0 (.cut 1 (.cut 2 (.cut 3 (.cut 0 (.cut 1 (.cut 2 (.cut 3 (.cut 0 (.cut 1 .leaf (.ref .leaf)) (.cut 1 (.ref .leaf) .leaf)) (.cut 0 .leaf .leaf)) (.ref (.cut 3 (.cut 0 (.cut 1 .out .leaf) .leaf) .leaf))) (.cut 2 (.ref (.cut 3 (.cut 0 .out .leaf) .leaf)) (.cut 3 (.ref .leaf) (.ref .leaf)))) (.cut 1 (.cut 2 (.ref (.cut 3 (.cut 0 (.cut 1 .leaf .leaf) .leaf) .leaf)) (.cut 3 (.ref .leaf) (.ref .leaf))) (.cut 2 (.cut 3 (.ref .leaf) (.ref .leaf)) (.cut 3 .leaf .leaf)))) (.cut 0 (.cut 1 (.cut 2 (.cut 3 .leaf .leaf) (.ref (.cut 3 .leaf .leaf))) (.cut 2 (.ref (.cut 3 .leaf .leaf)) (.ref .leaf))) (.cut 1 (.cut 2 (.ref (.cut 3 .leaf .leaf)) (.ref .leaf)) (.cut 2 (.ref .leaf) .leaf)))) (.ref (.cut 3 (.cut 0 (.cut 1 .out (.cut 2 (.cut 3 .leaf .leaf) .out)) (.cut 1 .out (.cut 2 (.cut 3 .leaf .leaf) .out))) (.cut 0 (.cut 1 .out (.cut 2 .leaf .out)) (.cut 1 .out .leaf))))) (.cut 2 (.ref (.cut 3 (.cut 0 .out (.cut 1 (.cut 2 (.cut 3 .leaf .leaf) (.cut 3 .leaf .leaf)) .out)) (.cut 0 .out (.cut 1 .leaf .out)))) (.cut 3 (.cut 0 .out (.cut 1 (.cut 2 (.ref .leaf) (.ref .leaf)) .out)) (.cut 0 .out (.ref .leaf))))) (.cut 1 (.cut 2 (.ref (.cut 3 (.cut 0 (.cut 1 (.cut 2 (.cut 3 .leaf .leaf) (.cut 3 .leaf .leaf)) (.cut 2 (.cut 3 .leaf .leaf) (.cut 3 .leaf .leaf))) (.cut 1 (.cut 2 .leaf .leaf) (.cut 2 .leaf .leaf))) (.cut 0 (.cut 1 (.cut 2 .leaf .leaf) .leaf) .leaf))) (.cut 3 (.cut 0 (.cut 1 .out (.cut 2 (.ref .leaf) .out)) (.cut 1 .out (.ref .leaf))) (.cut 0 (.ref .leaf) (.ref .leaf)))) (.cut 2 (.cut 3 (.cut 0 (.cut 1 (.cut 2 (.ref .leaf) (.ref .leaf)) (.ref .leaf)) (.cut 1 (.ref .leaf) (.ref .leaf))) (.cut 0 (.ref .leaf) (.ref .leaf))) (.cut 3 (.cut 0 (.cut 1 .leaf (.ref .leaf)) .leaf) (.cut 0 .leaf (.cut 1 (.ref .leaf) .leaf)))))))))
theorem h22 : check par t22 [21248, 21248, 20992, 12800] [256, 256, 512, 512] st = true := by decide +kernel
def t23 : Tree := (.ref (.cut 0 (.cut 1 (.cut 2 (.cut 3 (.cut 0 (.cut 1 .leaf (.cut 2 (.ref .leaf) (.ref .leaf))) (.cut 1 (.cut 2 (.ref .leaf) (.ref .leaf)) (.cut 2 (.ref .leaf) (.cut 3 .leaf .leaf)))) .leaf) (.ref (.cut 3 (.cut 0 (.cut 1 .out (.cut 2 .leaf .out)) (.cut 1 .out (.cut 2 (.cut 3 .leaf .leaf) .out))) .leaf))) (.cut 2 (.ref (.cut 3 (.cut 0 .out (.cut 1 (.cut 2 .leaf (.cut 3 .leaf .leaf)) .out)) .leaf)) (.cut 3 (.cut 0 .out (.cut 1 (.cut 2 (.cut 3 (.cut 0 .out (.ref .leaf)) (.ref .leaf)) (.ref (.cut 3 .leaf .leaf))) .out)) (.cut 0 .out (.ref .leaf))))) (.cut 1 (.cut 2 (.ref (.cut 3 (.cut 0 (.cut 1 (.cut 2 .leaf .leaf) (.cut 2 .leaf (.cut 3 .leaf .leaf))) (.cut 1 (.cut 2 .leaf .leaf) (.cut 2 .leaf (.cut 3 .leaf .leaf)))) .leaf)) (.cut 3 (.cut 0 (.cut 1 .out (.cut 2 (.cut 3 (.cut 0 (.ref .leaf) (.ref .leaf)) (.ref .leaf)) .out)) (.cut 1 .out (.cut 2 (.ref (.cut 3 .leaf .leaf)) .out))) (.cut 0 (.ref .leaf) (.ref .leaf)))) (.cut 2 (.cut 3 (.cut 0 (.cut 1 (.cut 2 (.ref .leaf) (.cut 3 (.cut 0 (.ref .leaf) (.ref .leaf)) (.ref .leaf))) (.ref (.cut 2 .leaf (.cut 3 .leaf .leaf)))) (.cut 1 (.ref (.cut 2 .leaf (.cut 3 .leaf .leaf))) (.cut 2 (.ref .leaf) (.cut 3 (.ref .leaf) (.ref .leaf))))) (.cut 0 (.ref .leaf) (.ref .leaf))) (.cut 3 (.cut 0 (.cut 1 (.cut 2 (.cut 3 (.cut 0 .leaf .leaf) .leaf) (.ref (.cut 3 (.cut 0 .leaf .leaf) .leaf))) (.cut 2 (.ref (.cut 3 (.cut 0 .out .leaf) .leaf)) (.cut 3 (.cut 0 .out (.ref .leaf)) (.ref .leaf)))) (.cut 1 (.cut 2 (.ref (.cut 3 (.cut 0 (.cut 1 .leaf .leaf) .leaf) .leaf)) (.cut 3 (.cut 0 (.ref .leaf) (.ref .leaf)) (.ref .leaf))) (.cut 2 (.cut 3 (.cut 0 (.ref .leaf) (.ref .leaf)) (.ref .leaf)) (.cut 3 .leaf .leaf)))) (.cut 0 (.cut 1 .leaf (.cut 2 (.ref .leaf) (.ref .leaf))) (.cut 1 (.cut 2 (.ref .leaf) (.ref .leaf)) (.cut 2 (.ref .leaf) .leaf))))))))
theorem h23 : check par t23 [20992, 20992, 20992, 13824] [512, 512, 512, 512] st = true := by decide +kernel
def t24 : Tree := (.ref (.cut 3 (.cut 0 (.cut 1 .out (.cut 2 (.cut 3 (.cut 0 .out (.cut 1 .out .out)) (.cut 0 .out (.cut 1 .out .out))) .out)) (.cut 1 .out (.cut 2 (.cut 3 (.cut 0 (.cut 1 .out (.cut 2 (.cut 3 .leaf .leaf) .out)) (.cut 1 .out (.cut 2 .leaf .out))) (.cut 0 (.cut 1 .out (.cut 2 (.cut 3 .leaf (.cut 0 .out .leaf)) .out)) (.cut 1 .out (.cut 2 (.cut 3 .leaf (.cut 0 .leaf .leaf)) .out)))) .out))) (.cut 0 (.cut 1 .out (.cut 2 (.cut 3 (.cut 0 .out (.cut 1 .out .out)) (.cut 0 .out .leaf)) .out)) (.cut 1 .out (.cut 2 (.cut 3 (.cut 0 (.cut 1 .out (.cut 2 (.cut 3 .leaf .leaf) .out)) (.cut 1 .out (.cut 2 .leaf .out))) (.cut 0 (.cut 1 .out .leaf) (.cut 1 .out .leaf))) .out)))))
theorem h24 : check par t24 [20992, 20992, 22016, 13312] [512, 512, 512, 1024] st = true := by decide +kernel
def t25 : Tree := (.ref (.cut 2 (.ref (.cut 3 (.cut 0 .out (.cut 1 (.cut 2 (.cut 3 (.cut 0 .out (.cut 1 (.cut 2 .leaf .leaf) .out)) (.cut 0 .out (.cut 1 (.cut 2 .leaf (.cut 3 .leaf .leaf)) .out))) (.cut 3 (.cut 0 .out (.cut 1 (.cut 2 (.cut 3 .leaf .leaf) .leaf) .out)) (.cut 0 .out (.cut 1 (.cut 2 (.cut 3 .leaf (.cut 0 .out .leaf)) (.cut 3 .leaf (.cut 0 .out .leaf))) .out)))) .out)) (.cut 0 .out (.cut 1 (.cut 2 (.cut 3 (.cut 0 .out (.cut 1 (.cut 2 .leaf .leaf) .out)) (.cut 0 .out .leaf)) (.cut 3 (.cut 0 .out (.cut 1 (.cut 2 (.cut 3 .leaf .leaf) .leaf) .out)) (.cut 0 .out (.cut 1 (.cut 2 .leaf .leaf) .out)))) .out)))) (.cut 3 (.cut 0 .out (.cut 1 (.cut 2 (.cut 3 (.cut 0 .out (.cut 1 (.ref .leaf) .out)) (.cut 0 .out (.cut 1 (.cut 2 (.cut 3 (.ref .leaf) (.ref .leaf)) (.ref .leaf)) .out))) (.ref (.cut 3 .leaf (.cut 0 .out .leaf)))) .out)) (.cut 0 .out (.cut 1 (.cut 2 (.cut 3 (.cut 0 .out (.cut 1 (.cut 2 (.ref .leaf) (.ref .leaf)) .out)) (.cut 0 .out (.cut 1 (.ref .leaf) .out))) (.ref (.cut 3 (.cut 0 .out (.cut 1 .out .out)) (.cut 0 .out .leaf)))) .out)))))
theorem h25 : check par t25 [20992, 22016, 21504, 13312] [512, 512, 1024, 1024] st = true := by decide +kernel
def t26 : Tree := (.ref (.cut 1 (.cut 2 (.ref (.cut 3 (.cut 0 (.cut 1 (.cut 2 (.cut 3 (.cut 0 (.cut 1 (.cut 2 .leaf .leaf) (.cut 2 .leaf .leaf)) .leaf) (.cut 0 (.cut 1 (.cut 2 .leaf .leaf) (.cut 2 .leaf (.cut 3 .leaf .leaf))) (.cut 1 .leaf .leaf))) (.cut 3 (.cut 0 (.cut 1 .out (.cut 2 (.cut 3 .leaf .leaf) .out)) (.cut 1 .out .leaf)) (.cut 0 (.cut 1 .out (.cut 2 (.cut 3 .leaf .leaf) .out)) (.cut 1 .out .leaf)))) (.cut 2 (.cut 3 (.cut 0 (.cut 1 (.cut 2 .leaf (.cut 3 .leaf .leaf)) (.cut 2 .leaf .leaf)) (.cut 1 .leaf .leaf)) (.cut 0 (.cut 1 (.cut 2 .leaf (.cut 3 .leaf .leaf)) (.cut 2 .leaf (.cut 3 .leaf .leaf))) (.cut 1 .leaf .leaf))) (.cut 3 (.cut 0 (.cut 1 (.cut 2 (.cut 3 .leaf .leaf) (.cut 3 .leaf .leaf)) (.cut 2 (.cut 3 .leaf .leaf) .leaf)) (.cut 1 .leaf .leaf)) (.cut 0 (.cut 1 (.cut 2 (.cut 3 (.cut 0 .leaf .leaf) .leaf) (.cut 3 .leaf (.cut 0 .leaf .leaf))) (.cut 2 (.cut 3 .leaf (.cut 0 .leaf .leaf)) (.cut 3 .leaf (.cut 0 .leaf .leaf)))) (.cut 1 (.cut 2 .leaf .leaf) (.cut 2 .leaf .leaf)))))) (.cut 1 (.cut 2 (.cut 3 .leaf .leaf) (.cut 3 .leaf .leaf)) (.cut 2 (.cut 3 .leaf .leaf) (.cut 3 .leaf .leaf)))) (.cut 0 (.cut 1 (.cut 2 (.cut 3 (.cut 0 (.cut 1 .leaf (.cut 2 .leaf (.cut 3 .leaf .leaf))) (.cut 1 .leaf .leaf)) .leaf) (.cut 3 (.cut 0 (.cut 1 .out (.cut 2 (.cut 3 .leaf .leaf) .out)) (.cut 1 .out .leaf)) (.cut 0 .leaf .leaf))) (.cut 2 (.cut 3 (.cut 0 (.cut 1 (.cut 2 .leaf (.cut 3 .leaf .leaf)) (.cut 2 .leaf .leaf)) (.cut 1 (.cut 2 .leaf .leaf) .leaf)) (.cut 0 .leaf .leaf)) (.cut 3 (.cut 0 (.cut 1 (.cut 2 (.cut 3 (.cut 0 .leaf .leaf) .leaf) (.cut 3 .leaf .leaf)) (.cut 2 (.cut 3 .leaf .leaf) .leaf)) (.cut 1 (.cut 2 .leaf .leaf) .leaf)) (.cut 0 (.cut 1 .leaf (.cut 2 .leaf .leaf)) (.cut 1 .leaf (.cut 2 .leaf .leaf)))))) (.cut 1 (.cut 2 (.cut 3 .leaf .leaf) (.cut 3 .leaf .leaf)) (.cut 2 (.cut 3 .leaf .leaf) (.cut 3 (.cut 0 .leaf .leaf) (.cut 0 (.cut 1 .leaf .leaf) .leaf))))))) (.cut 3 (.cut 0 (.cut 1 .out (.cut 2 (.cut 3 (.cut 0 (.cut 1 .out (.ref .leaf)) (.ref .leaf)) (.cut 0 (.cut 1 .out (.cut 2 (.cut 3 (.ref .leaf) (.ref .leaf)) .out)) (.cut 1 .out (.cut 2 (.ref .leaf) .out)))) .out)) (.cut 1 .out (.cut 2 (.ref (.cut 3 .leaf (.cut 0 .leaf .leaf))) .out))) (.cut 0 (.cut 1 .out (.cut 2 (.cut 3 (.cut 0 (.cut 1 .out (.cut 2 (.ref .leaf) .out)) (.cut 1 .out (.cut 2 (.ref .leaf) .out))) (.cut 0 (.cut 1 .out (.ref .leaf)) (.cut 1 .out (.ref .leaf)))) .out)) (.cut 1 .out (.cut 2 (.ref (.cut 3 (.cut 0 .leaf .leaf) (.cut 0 .leaf .leaf))) .out))))) (.cut 2 (.cut 3 (.cut 0 (.cut 1 (.cut 2 (.cut 3 (.cut 0 (.cut 1 (.ref .leaf) (.ref .leaf)) (.ref .leaf)) (.cut 0 (.cut 1 (.cut 2 (.ref .leaf) (.ref .leaf)) (.ref .leaf)) (.cut 1 (.ref .leaf) (.ref .leaf)))) (.cut 3 (.cut 0 (.cut 1 (.ref .leaf) (.ref .leaf)) (.ref .leaf)) (.cut 0 (.cut 1 (.cut 2 (.cut 3 (.ref .leaf) (.ref .leaf)) (.cut 3 (.ref .leaf) (.ref .leaf))) (.ref .leaf)) (.cut 1 (.ref .leaf) (.ref .leaf))))) (.ref (.cut 2 (.cut 3 .leaf .leaf) (.cut 3 .leaf (.cut 0 .out .leaf))))) (.cut 1 (.ref (.cut 2 (.cut 3 .leaf .leaf) (.cut 3 .leaf (.cut 0 .leaf .leaf)))) (.cut 2 (.ref .leaf) (.ref .leaf)))) (.cut 0 (.cut 1 (.cut 2 (.cut 3 (.cut 0 (.cut 1 (.cut 2 (.ref .leaf) (.ref .leaf)) (.ref .leaf)) (.ref .leaf)) (.ref .leaf)) (.cut 3 (.cut 0 (.cut 1 (.cut 2 (.ref .leaf) (.ref .leaf)) (.ref .leaf)) (.cut 1 (.ref .leaf) (.ref .leaf))) (.cut 0 (.cut 1 (.cut 2 (.ref .leaf) (.ref .leaf)) (.ref .leaf)) (.cut 1 (.ref .leaf) (.ref .leaf))))) (.ref (.cut 2 (.cut 3 .leaf .leaf) (.cut 3 (.cut 0 .out .leaf) (.cut 0 .out .leaf))))) (.cut 1 (.ref (.cut 2 (.cut 3 .leaf .leaf) (.cut 3 (.cut 0 .leaf .leaf) (.cut 0 .leaf .leaf)))) (.cut 2 (.ref .leaf) (.cut 3 (.ref .leaf) (.ref .leaf)))))) (.cut 3 (.cut 0 (.cut 1 (.cut 2 (.cut 3 (.cut 0 .leaf .leaf) (.cut 0 (.cut 1 (.cut 2 .leaf (.ref .leaf)) (.ref .leaf)) (.cut 1 (.ref .leaf) .leaf))) (.ref (.cut 3 .leaf (.cut 0 .leaf .leaf)))) (.cut 2 (.ref (.cut 3 .leaf (.cut 0 .out .leaf))) (.cut 3 (.ref .leaf) (.ref .leaf)))) (.cut 1 (.cut 2 (.ref (.cut 3 .leaf (.cut 0 .leaf .leaf))) (.cut 3 (.ref .leaf) (.ref .leaf))) (.cut 2 (.cut 3 (.ref .leaf) (.ref .leaf)) .leaf))) (.cut 0 (.cut 1 (.cut 2 (.cut 3 (.cut 0 (.cut 1 (.cut 2 .leaf (.ref .leaf)) (.cut 2 (.ref .leaf) (.ref .leaf))) (.cut 1 (.cut 2 (.ref .leaf) (.ref .leaf)) .leaf)) (.cut 0 (.cut 1 .leaf (.ref .leaf)) .leaf)) (.ref (.cut 3 (.cut 0 (.cut 1 .out .leaf) .leaf) .leaf))) (.cut 2 (.ref (.cut 3 (.cut 0 .out .leaf) .leaf)) (.cut 3 (.ref .leaf) (.ref .leaf)))) (.cut 1 (.cut 2 (.ref (.cut 3 (.cut 0 (.cut 1 .leaf .leaf) .leaf) .leaf)) (.cut 3 (.ref .leaf) (.ref .leaf))) (.cut 2 (.cut 3 (.ref .leaf) (.ref .leaf)) (.cut 3 .leaf .leaf))))))))
theorem h26 : check par t26 [22016, 21504, 21504, 13312] [512, 1024, 1024, 1024] st = true := by decide +kernel
def t27 : Tree := (.ref (.cut 0 (.cut 1 (.cut 2 (.cut 3 (.cut 0 (.cut 1 (.cut 2 .leaf (.ref .leaf)) (.cut 2 (.ref .leaf) (.ref .leaf))) (.cut 1 (.cut 2 (.ref .leaf) (.ref .leaf)) (.cut 2 (.ref .leaf) (.cut 3 .leaf .leaf)))) .leaf) (.ref (.cut 3 (.cut 0 (.cut 1 .out (.cut 2 .leaf .out)) (.cut 1 .out (.cut 2 (.cut 3 .leaf .leaf) .out))) (.cut 0 .leaf .leaf)))) (.cut 2 (.ref (.cut 3 (.cut 0 .out (.cut 1 (.cut 2 .leaf (.cut 3 .leaf .leaf)) .out)) (.cut 0 .out .leaf))) (.cut 3 (.cut 0 .out (.cut 1 (.cut 2 (.cut 3 (.ref .leaf) (.ref .leaf)) (.ref (.cut 3 .leaf .leaf))) .out)) (.cut 0 .out (.ref .leaf))))) (.cut 1 (.cut 2 (.ref (.cut 3 (.cut 0 (.cut 1 (.cut 2 .leaf .leaf) (.cut 2 .leaf (.cut 3 .leaf .leaf))) (.cut 1 (.cut 2 .leaf .leaf) (.cut 2 .leaf (.cut 3 .leaf .leaf)))) (.cut 0 .leaf .leaf))) (.cut 3 (.cut 0 (.cut 1 .out (.cut 2 (.cut 3 (.ref .leaf) (.ref .leaf)) .out)) (.cut 1 .out (.cut 2 (.ref (.cut 3 .leaf .leaf)) .out))) (.cut 0 (.ref .leaf) (.ref .leaf)))) (.cut 2 (.cut 3 (.cut 0 (.cut 1 (.cut 2 (.ref .leaf) (.cut 3 (.ref .leaf) (.ref .leaf))) (.ref (.cut 2 .leaf (.cut 3 .leaf .leaf)))) (.cut 1 (.ref (.cut 2 .leaf (.cut 3 .leaf .leaf))) (.cut 2 (.ref .leaf) (.ref .leaf)))) (.cut 0 (.ref .leaf) (.ref .leaf))) (.cut 3 (.cut 0 (.cut 1 (.cut 2 (.cut 3 .leaf .leaf) (.ref (.cut 3 .leaf .leaf))) (.cut 2 (.ref (.cut 3 .leaf .leaf)) (.ref .leaf))) (.cut 1 (.cut 2 (.ref (.cut 3 .leaf .leaf)) (.ref .leaf)) (.cut 2 (.ref .leaf) .leaf))) (.cut 0 (.cut 1 .leaf (.ref .leaf)) (.cut 1 (.ref .leaf) .leaf)))))))
theorem h27 : check par t27 [21504, 21504, 21504, 15360] [1024, 1024, 1024, 1024] st = true := by decide +kernel
def t28 : Tree := (.ref (.cut 3 (.cut 0 (.cut 1 .out (.cut 2 (.cut 3 (.cut 0 .out (.cut 1 .out .out)) (.cut 0 .out (.cut 1 .out .out))) .out)) (.cut 1 .out (.cut 2 (.cut 3 (.cut 0 (.cut 1 .out .leaf) (.cut 1 .out .leaf)) (.cut 0 (.cut 1 .out (.cut 2 .leaf .out)) (.cut 1 .out (.cut 2 (.cut 3 .leaf .leaf) .out)))) .out))) (.cut 0 (.cut 1 .out (.cut 2 (.cut 3 (.cut 0 .out (.cut 1 .out .out)) (.cut 0 .out .leaf)) .out)) (.cut 1 .out (.cut 2 (.cut 3 (.cut 0 (.cut 1 .out (.cut 2 .leaf .out)) (.cut 1 .out (.cut 2 .leaf .out))) (.cut 0 (.cut 1 .out .leaf) (.cut 1 .out .leaf))) .out)))))
theorem h28 : check par t28 [21504, 21504, 23552, 14336] [1024, 1024, 1024, 2048] st = true := by decide +kernel
def t29 : Tree := (.ref (.cut 2 (.ref (.cut 3 (.cut 0 .out (.cut 1 (.cut 2 (.cut 3 (.cut 0 .out (.cut 1 .leaf .out)) (.cut 0 .out (.cut 1 (.cut 2 .leaf .leaf) .out))) (.cut 3 (.cut 0 .out (.cut 1 .leaf .out)) (.cut 0 .out (.cut 1 (.cut 2 .leaf (.cut 3 .leaf .leaf)) .out)))) .out)) (.cut 0 .out (.cut 1 (.cut 2 (.cut 3 (.cut 0 .out (.cut 1 (.cut 2 .leaf .leaf) .out)) (.cut 0 .out .leaf)) (.cut 3 (.cut 0 .out (.cut 1 .leaf .out)) (.cut 0 .out (.cut 1 .leaf .out)))) .out)))) (.cut 3 (.cut 0 .out (.cut 1 (.cut 2 (.cut 3 (.cut 0 .out (.ref .leaf)) (.cut 0 .out (.cut 1 (.cut 2 (.ref .leaf) (.ref .leaf)) .out))) (.ref (.cut 3 .leaf .leaf))) .out)) (.cut 0 .out (.cut 1 (.cut 2 (.cut 3 (.cut 0 .out (.cut 1 (.ref .leaf) .out)) (.cut 0 .out (.ref .leaf))) (.ref (.cut 3 (.cut 0 .out .leaf) .leaf))) .out)))))
theorem h29 : check par t29 [21504, 23552, 22528, 14336] [1024, 1024, 2048, 2048] st = true := by decide +kernel
def t30 : Tree := (.ref (.cut 1 (.cut 2 (.ref (.cut 3 (.cut 0 (.cut 1 (.cut 2 (.cut 3 (.cut 0 (.cut 1 .leaf .leaf) .leaf) (.cut 0 (.cut 1 .leaf (.cut 2 .leaf .leaf)) .leaf)) (.cut 3 (.cut 0 (.cut 1 .out (.cut 2 .leaf .out)) .leaf) (.cut 0 (.cut 1 .out (.cut 2 .leaf .out)) .leaf))) (.cut 2 (.cut 3 (.cut 0 (.cut 1 .leaf .leaf) .leaf) (.cut 0 (.cut 1 (.cut 2 .leaf .leaf) (.cut 2 .leaf .leaf)) .leaf)) (.cut 3 (.cut 0 (.cut 1 (.cut 2 .leaf .leaf) .leaf) .leaf) (.cut 0 (.cut 1 (.cut 2 .leaf .leaf) (.cut 2 .leaf (.cut 3 .leaf .leaf))) (.cut 1 .leaf .leaf))))) (.cut 1 (.cut 2 .leaf (.cut 3 .leaf .leaf)) (.cut 2 (.cut 3 .leaf .leaf) (.cut 3 .leaf .leaf)))) (.cut 0 (.cut 1 (.cut 2 (.cut 3 (.cut 0 (.cut 1 .leaf (.cut 2 .leaf .leaf)) .leaf) .leaf) (.cut 3 (.cut 0 (.cut 1 .out .leaf) .leaf) (.cut 0 .leaf .leaf))) (.cut 2 (.cut 3 (.cut 0 (.cut 1 (.cut 2 .leaf .leaf) (.cut 2 .leaf .leaf)) .leaf) (.cut 0 .leaf .leaf)) (.cut 3 (.cut 0 (.cut 1 (.cut 2 .leaf .leaf) .leaf) .leaf) (.cut 0 (.cut 1 .leaf .leaf) (.cut 1 .leaf .leaf))))) (.cut 1 (.cut 2 (.cut 3 .leaf .leaf) (.cut 3 .leaf .leaf)) (.cut 2 (.cut 3 .leaf .leaf) (.cut 3 .leaf (.cut 0 .leaf .leaf))))))) (.cut 3 (.cut 0 (.cut 1 .out (.cut 2 (.cut 3 (.cut 0 (.ref .leaf) (.ref .leaf)) (.cut 0 (.cut 1 .out (.cut 2 (.ref .leaf) .out)) (.ref .leaf))) .out)) (.cut 1 .out (.cut 2 (.ref (.cut 3 .leaf .leaf)) .out))) (.cut 0 (.cut 1 .out (.cut 2 (.cut 3 (.cut 0 (.cut 1 .out (.ref .leaf)) (.cut 1 .out (.ref .leaf))) (.cut 0 (.cut 1 .out (.ref .leaf)) (.ref .leaf))) .out)) (.cut 1 .out (.cut 2 (.ref (.cut 3 (.cut 0 .leaf .leaf) .leaf)) .out))))) (.cut 2 (.cut 3 (.cut 0 (.cut 1 (.cut 2 (.cut 3 (.cut 0 (.ref .leaf) (.ref .leaf)) (.cut 0 (.cut 1 (.ref .leaf) (.ref .leaf)) (.ref .leaf))) (.cut 3 (.cut 0 (.ref .leaf) (.ref .leaf)) (.cut 0 (.cut 1 (.cut 2 (.ref .leaf) (.ref .leaf)) (.ref .leaf)) (.ref .leaf)))) (.ref (.cut 2 (.cut 3 .leaf .leaf) (.cut 3 .leaf .leaf)))) (.cut 1 (.ref (.cut 2 (.cut 3 .leaf .leaf) (.cut 3 .leaf .leaf))) (.cut 2 (.ref .leaf) (.ref .leaf)))) (.cut 0 (.cut 1 (.cut 2 (.cut 3 (.cut 0 (.cut 1 (.ref .leaf) (.ref .leaf)) (.ref .leaf)) (.ref .leaf)) (.cut 3 (.cut 0 (.cut 1 (.ref .leaf) (.ref .leaf)) (.cut 1 (.ref .leaf) (.ref .leaf))) (.cut 0 (.cut 1 (.ref .leaf) (.ref .leaf)) (.ref .leaf)))) (.ref (.cut 2 .leaf (.cut 3 (.cut 0 .out .leaf) .leaf)))) (.cut 1 (.ref (.cut 2 .leaf (.cut 3 (.cut 0 .leaf .leaf) .leaf))) (.cut 2 (.ref .leaf) (.cut 3 (.ref .leaf) (.ref .leaf)))))) (.cut 3 (.cut 0 (.cut 1 (.cut 2 (.cut 3 .leaf (.cut 0 (.cut 1 .leaf (.ref .leaf)) .leaf)) (.ref (.cut 3 .leaf .leaf))) (.cut 2 (.ref (.cut 3 .leaf .leaf)) (.ref .leaf))) (.cut 1 (.cut 2 (.ref (.cut 3 .leaf .leaf)) (.ref .leaf)) (.cut 2 (.ref .leaf) .leaf))) (.cut 0 (.cut 1 (.cut 2 (.cut 3 (.cut 0 (.cut 1 .leaf (.ref .leaf)) (.cut 1 (.ref .leaf) .leaf)) .leaf) (.ref (.cut 3 (.cut 0 .leaf .leaf) .leaf))) (.cut 2 (.ref (.cut 3 (.cut 0 .out .leaf) .leaf)) (.cut 3 (.ref .leaf) (.ref .leaf)))) (.cut 1 (.cut 2 (.ref (.cut 3 (.cut 0 .leaf .leaf) .leaf)) (.cut 3 (.ref .leaf) (.ref .leaf))) (.cut 2 (.cut 3 (.ref .leaf) (.ref .leaf)) (.cut 3 .leaf .leaf))))))))
theorem h30 : check par t30 [23552, 22528, 22528, 14336] [1024, 2048, 2048, 2048] st = true := by decide +kernel
def t31 : Tree := (.ref (.cut 3 (.cut 0 (.ref (.cut 1 .out (.cut 2 (.cut 3 (.ref .leaf) (.ref (.cut 0 .out (.cut 1 .out .out)))) .out))) (.cut 1 .out (.ref (.cut 2 (.ref (.cut 3 .leaf (.cut 0 (.cut 1 .out .leaf) (.cut 1 .out .leaf)))) .out)))) (.ref (.cut 0 (.ref (.cut 1 .out (.cut 2 (.cut 3 (.cut 0 .out (.cut 1 .out .out)) (.ref (.cut 0 .out (.cut 1 .out .out)))) .out))) (.cut 1 .out (.ref (.cut 2 (.cut 3 (.cut 0 (.cut 1 .out (.cut 2 (.cut 3 .leaf (.ref .leaf)) .out)) (.cut 1 .out (.cut 2 (.cut 3 .leaf (.ref .leaf)) .out))) (.cut 0 (.ref (.cut 1 .out (.cut 2 (.cut 3 (.cut 0 .out (.cut 1 .out .out)) (.cut 0 .out (.cut 1 .out .out))) .out))) (.cut 1 .out (.cut 2 (.ref (.cut 3 (.cut 0 (.cut 1 .out .leaf) (.cut 1 .out .leaf)) (.cut 0 (.cut 1 .out (.cut 2 .leaf .out)) (.cut 1 .out (.cut 2 .leaf .out))))) .out)))) .out)))))))
theorem h31 : check par t31 [20480, 20480, 28672, 8192] [4096, 4096, 4096, 8192] st = true := by decide +kernel
def t32 : Tree := (.ref (.cut 2 (.ref (.cut 3 (.cut 0 .out (.cut 1 (.cut 2 (.cut 3 (.ref .leaf) (.ref (.cut 0 .out .leaf))) (.ref (.cut 3 .leaf (.cut 0 .out (.cut 1 .leaf .out))))) .out)) (.ref (.cut 0 .out (.cut 1 (.ref (.cut 2 (.cut 3 (.cut 0 .out (.ref (.cut 1 (.cut 2 (.ref .leaf) (.cut 3 .leaf (.ref .leaf))) .out))) (.ref (.cut 0 .out (.cut 1 (.cut 2 .leaf (.cut 3 (.cut 0 .out .leaf) .leaf)) .out)))) (.ref (.cut 3 (.cut 0 .out (.cut 1 (.cut 2 (.cut 3 .leaf (.ref .leaf)) (.cut 3 .leaf (.ref .leaf))) .out)) (.cut 0 .out (.cut 1 (.ref (.cut 2 (.cut 3 (.cut 0 .out (.cut 1 .leaf .out)) (.cut 0 .out (.cut 1 (.cut 2 .leaf .leaf) .out))) (.cut 3 (.cut 0 .out (.cut 1 .leaf .out)) (.cut 0 .out (.cut 1 (.cut 2 .leaf .leaf) .out))))) .out)))))) .out))))) (.ref (.cut 3 (.cut 0 .out (.cut 1 (.cut 2 (.cut 3 .leaf (.cut 0 .out (.ref .leaf))) (.ref (.cut 3 .leaf (.ref .leaf)))) .out)) (.cut 0 .out (.cut 1 (.cut 2 (.cut 3 (.cut 0 .out (.cut 1 (.cut 2 (.ref .leaf) (.ref .leaf)) .out)) (.ref (.cut 0 .out (.cut 1 (.cut 2 (.cut 3 (.ref .leaf) (.ref (.cut 0 .out (.cut 1 (.cut 2 .leaf (.ref .leaf)) .out)))) (.ref (.cut 3 .leaf (.ref .leaf)))) .out)))) (.ref (.cut 3 .leaf (.cut 0 .out (.cut 1 .out .out))))) .out))))))
theorem h32 : check par t32 [20480, 28672, 24576, 8192] [4096, 4096, 8192, 8192] st = true := by decide +kernel
def t33 : Tree := (.ref (.cut 1 (.ref (.cut 2 (.ref (.cut 3 (.cut 0 (.cut 1 (.ref (.cut 2 (.cut 3 .leaf (.ref (.cut 0 .leaf .leaf))) (.cut 3 (.ref .leaf) (.ref (.cut 0 (.cut 1 .out .leaf) .leaf))))) (.cut 2 (.cut 3 (.ref .leaf) (.ref (.cut 0 (.cut 1 .leaf .leaf) .leaf))) (.ref (.cut 3 .leaf (.cut 0 (.cut 1 .leaf .leaf) .leaf))))) (.cut 1 (.cut 2 (.cut 3 (.ref .leaf) (.ref .leaf)) (.ref (.cut 3 .leaf (.ref .leaf)))) (.cut 2 (.cut 3 (.ref .leaf) (.ref .leaf)) (.cut 3 .leaf (.ref .leaf))))) (.ref (.cut 0 (.ref (.cut 1 (.cut 2 (.ref (.cut 3 (.cut 0 (.cut 1 (.cut 2 .leaf .leaf) (.cut 2 .leaf (.cut 3 .leaf .leaf))) .leaf) (.cut 0 (.cut 1 (.cut 2 .leaf .leaf) (.cut 2 .leaf (.cut 3 .leaf .leaf))) (.cut 1 .leaf .leaf)))) (.cut 3 (.cut 0 (.cut 1 .out (.cut 2 (.ref (.cut 3 .leaf .leaf)) .out)) (.cut 1 .out (.ref .leaf))) (.ref (.cut 0 (.cut 1 .out (.cut 2 (.cut 3 .leaf (.cut 0 .leaf .leaf)) .out)) (.cut 1 .out (.cut 2 .leaf .out)))))) (.cut 2 (.cut 3 (.cut 0 (.cut 1 (.ref (.cut 2 .leaf (.cut 3 .leaf .leaf))) (.cut 2 (.ref .leaf) (.cut 3 (.ref .leaf) (.ref .leaf)))) (.cut 1 (.ref .leaf) (.ref .leaf))) (.ref (.cut 0 (.cut 1 (.cut 2 .leaf (.cut 3 .leaf (.cut 0 .leaf .leaf))) (.cut 2 .leaf (.cut 3 (.cut 0 .leaf .leaf) .leaf))) (.cut 1 .leaf (.cut 2 .leaf .leaf))))) (.cut 3 (.cut 0 (.cut 1 (.cut 2 (.cut 3 (.ref .leaf) (.ref .leaf)) (.cut 3 .leaf (.ref .leaf))) (.cut 2 (.cut 3 .leaf (.ref .leaf)) (.cut 3 .leaf (.ref .leaf)))) (.cut 1 (.ref .leaf) (.ref .leaf))) (.cut 0 (.ref (.cut 1 (.cut 2 (.cut 3 (.cut 0 .leaf .leaf) (.cut 0 (.ref (.cut 1 .leaf .leaf)) .leaf)) (.cut 3 (.cut 0 (.ref (.cut 1 .out .leaf)) .leaf) (.cut 0 (.ref (.cut 1 .out (.cut 2 .leaf .out))) .leaf))) (.cut 2 (.cut 3 (.cut 0 (.ref (.cut 1 .leaf .leaf)) .leaf) (.cut 0 (.ref (.cut 1 (.cut 2 .leaf .leaf) (.cut 2 .leaf .leaf))) .leaf)) (.ref (.cut 3 (.cut 0 (.cut 1 .leaf .leaf) .leaf) (.cut 0 (.cut 1 (.cut 2 .leaf .leaf) (.cut 2 .leaf .leaf)) (.cut 1 .leaf .leaf))))))) (.cut 1 (.ref (.cut 2 (.cut 3 .leaf .leaf) (.cut 3 .leaf .leaf))) (.cut 2 (.ref (.cut 3 .leaf .leaf)) (.ref (.cut 3 .leaf .leaf))))))))) (.cut 1 (.ref (.cut 2 (.cut 3 .leaf (.ref .leaf)) (.cut 3 (.cut 0 .leaf .leaf) (.ref (.cut 0 .leaf .leaf))))) (.cut 2 (.cut 3 (.cut 0 (.ref .leaf) (.ref .leaf)) (.ref (.cut 0 .leaf .leaf))) (.ref (.cut 3 (.cut 0 .leaf .leaf) (.cut 0 (.cut 1 (.ref .leaf) .leaf) .leaf))))))))) (.ref (.cut 3 (.cut 0 (.cut 1 .out (.cut 2 (.cut 3 .leaf (.cut 0 (.ref .leaf) (.ref .leaf))) .out)) (.cut 1 .out (.cut 2 (.ref (.cut 3 .leaf (.ref .leaf))) .out))) (.cut 0 (.cut 1 .out (.cut 2 (.cut 3 (.cut 0 (.cut 1 .out (.ref (.cut 2 .leaf .out))) (.cut 1 .out (.ref .leaf))) (.ref (.cut 0 (.ref (.cut 1 .out (.cut 2 (.cut 3 (.ref .leaf) (.ref (.cut 0 (.cut 1 .out (.cut 2 .leaf .out)) .leaf))) .out))) (.cut 1 .out (.cut 2 (.ref (.cut 3 .leaf (.ref .leaf))) .out))))) .out)) (.cut 1 .out (.cut 2 (.ref (.cut 3 .leaf (.cut 0 (.cut 1 .out (.cut 2 .leaf .out)) .leaf))) .out))))))) (.cut 2 (.ref (.cut 3 (.cut 0 (.cut 1 (.cut 2 (.cut 3 .leaf .leaf) (.cut 3 .leaf (.ref (.cut 0 .leaf .leaf)))) (.ref (.cut 2 (.cut 3 .leaf .leaf) (.cut 3 .leaf (.ref .leaf))))) (.cut 1 (.ref (.cut 2 (.cut 3 .leaf .leaf) (.cut 3 .leaf (.ref .leaf)))) (.cut 2 .leaf .leaf))) (.cut 0 (.cut 1 (.cut 2 (.cut 3 (.cut 0 (.ref (.cut 1 (.cut 2 (.ref .leaf) .leaf) (.ref .leaf))) (.ref .leaf)) (.ref (.cut 0 (.cut 1 (.cut 2 .leaf (.cut 3 .leaf (.ref .leaf))) (.ref .leaf)) (.cut 1 (.ref .leaf) .leaf)))) (.ref (.cut 3 (.cut 0 (.cut 1 (.cut 2 .leaf (.ref .leaf)) (.ref .leaf)) (.cut 1 (.ref .leaf) .leaf)) (.cut 0 (.ref (.cut 1 (.cut 2 (.ref (.cut 3 .leaf (.cut 0 (.cut 1 .leaf (.ref .leaf)) .leaf))) (.cut 3 (.ref .leaf) (.ref (.cut 0 (.cut 1 .leaf (.ref .leaf)) .leaf)))) (.ref (.cut 2 (.ref (.cut 3 .leaf .leaf)) (.cut 3 .leaf (.ref .leaf)))))) (.cut 1 (.ref (.cut 2 (.ref (.cut 3 .leaf .leaf)) (.cut 3 .leaf (.ref .leaf)))) (.cut 2 (.ref .leaf) (.ref .leaf))))))) (.ref (.cut 2 (.cut 3 .leaf (.cut 0 .out .leaf)) (.cut 3 .leaf (.ref (.cut 0 .out (.cut 1 .leaf .out))))))) (.cut 1 (.ref (.cut 2 (.cut 3 .leaf (.cut 0 (.ref .leaf) .leaf)) (.cut 3 .leaf (.ref (.cut 0 (.cut 1 .leaf .leaf) .leaf))))) (.cut 2 (.cut 3 (.ref .leaf) (.ref .leaf)) (.cut 3 (.ref .leaf) (.ref (.cut 0 (.ref .leaf) .leaf)))))))) (.cut 3 (.cut 0 (.ref (.cut 1 (.ref (.cut 2 (.cut 3 (.ref .leaf) .leaf) (.ref (.cut 3 (.ref .leaf) (.ref .leaf))))) (.ref (.cut 2 (.ref (.cut 3 (.ref .leaf) (.ref .leaf))) (.ref .leaf))))) (.ref (.cut 1 (.ref (.cut 2 (.ref (.cut 3 (.ref .leaf) (.ref .leaf))) (.ref .leaf))) (.cut 2 (.ref .leaf) (.ref .leaf))))) (.ref (.cut 0 (.ref (.cut 1 (.cut 2 (.cut 3 (.cut 0 (.ref (.cut 1 (.cut 2 .leaf (.ref .leaf)) (.ref .leaf))) (.cut 1 (.ref .leaf) (.ref .leaf))) (.cut 0 (.ref (.cut 1 (.cut 2 (.cut 3 .leaf (.ref (.cut 0 (.cut 1 .leaf (.ref .leaf)) .leaf))) (.ref (.cut 3 .leaf .leaf))) (.ref (.cut 2 (.ref (.cut 3 .leaf .leaf)) .leaf)))) (.cut 1 (.ref (.cut 2 (.ref (.cut 3 .leaf .leaf)) .leaf)) (.ref (.cut 2 (.ref .leaf) .leaf))))) (.ref (.cut 3 (.cut 0 (.ref .leaf) .leaf) (.cut 0 (.cut 1 .out (.ref .leaf)) (.cut 1 .out (.ref .leaf)))))) (.ref (.cut 2 (.ref (.cut 3 (.cut 0 .out .leaf) (.cut 0 .out (.cut 1 (.ref .leaf) .out)))) (.cut 3 .leaf (.cut 0 .out (.ref .leaf))))))) (.cut 1 (.ref (.cut 2 (.ref (.cut 3 (.cut 0 .leaf (.ref .leaf)) (.cut 0 (.cut 1 (.cut 2 (.ref .leaf) (.ref .leaf)) (.ref .leaf)) (.ref .leaf)))) (.cut 3 .leaf (.cut 0 (.ref .leaf) (.ref .leaf))))) (.cut 2 (.ref (.cut 3 .leaf (.ref (.cut 0 (.ref .leaf) .leaf)))) (.ref (.cut 3 .leaf (.ref .leaf)))))))))))
theorem h33 : check par t33 [28672, 24576, 24576, 8192] [4096, 8192, 8192, 8192] st = true := by decide +kernel
def t34 : Tree := (.ref (.cut 1 (.ref (.cut 2 (.ref (.cut 3 (.cut 0 (.ref (.cut 1 (.cut 2 (.cut 3 (.cut 0 (.cut 1 .leaf (.ref (.cut 2 (.ref .leaf) (.cut 3 (.ref .leaf) (.ref .leaf))))) (.cut 1 (.ref (.cut 2 (.ref .leaf) (.cut 3 (.ref .leaf) (.ref .leaf)))) (.cut 2 (.ref (.cut 3 (.ref .leaf) (.ref .leaf))) (.cut 3 (.ref .leaf) .leaf)))) (.ref (.cut 0 (.cut 1 .leaf (.cut 2 .out (.ref (.cut 3 .leaf .out)))) (.cut 1 (.cut 2 .out (.ref (.cut 3 .leaf .out))) (.cut 2 .out .leaf))))) (.ref (.cut 3 (.cut 0 (.cut 1 .out (.ref (.cut 2 (.cut 3 .leaf (.ref .leaf)) .out))) (.cut 1 .out (.cut 2 (.cut 3 (.ref .leaf) (.ref .leaf)) .out))) (.cut 0 (.cut 1 .out (.ref (.cut 2 (.cut 3 (.cut 0 .out .leaf) (.cut 0 .out (.ref .leaf))) .out))) (.cut 1 .out (.cut 2 (.ref .leaf) .out)))))) (.ref (.cut 2 (.cut 3 (.ref (.cut 0 .out (.cut 1 (.cut 2 (.cut 3 (.ref .leaf) (.ref .leaf)) (.cut 3 (.ref .leaf) .leaf)) .out))) (.ref (.cut 0 .out (.cut 1 (.cut 2 .out .leaf) .out)))) (.cut 3 (.ref (.cut 0 .out (.cut 1 (.cut 2 (.cut 3 (.cut 0 .out (.cut 1 (.ref .leaf) .out)) .leaf) (.cut 3 (.ref (.cut 0 .out (.cut 1 .out .out))) (.ref .leaf))) .out))) (.ref (.cut 0 .out (.cut 1 (.cut 2 (.cut 3 .leaf (.ref (.cut 0 .out .leaf))) (.cut 3 (.ref (.cut 0 .out .leaf)) (.cut 0 .out (.ref .leaf)))) .out)))))))) (.cut 1 (.ref (.cut 2 (.cut 3 (.ref (.cut 0 (.ref (.cut 1 (.cut 2 .leaf (.cut 3 (.ref .leaf) (.ref .leaf))) (.cut 2 (.cut 3 (.ref .leaf) (.ref .leaf)) (.cut 3 (.ref .leaf) .leaf)))) (.cut 1 (.cut 2 .leaf (.ref (.cut 3 .leaf (.ref .leaf)))) (.cut 2 (.ref (.cut 3 .leaf (.ref .leaf))) (.ref (.cut 3 (.ref .leaf) .leaf)))))) (.ref (.cut 0 (.ref (.cut 1 (.cut 2 .out (.cut 3 (.cut 0 (.ref .leaf) (.cut 1 .out (.ref .leaf))) .out)) (.cut 2 .out .leaf))) (.ref (.cut 1 (.cut 2 .out (.cut 3 (.ref (.cut 0 (.cut 1 .out .leaf) .leaf)) .out)) (.cut 2 .out .leaf)))))) (.ref (.cut 3 (.cut 0 (.ref (.cut 1 .out (.cut 2 (.cut 3 (.cut 0 (.ref .leaf) (.cut 1 .out (.ref .leaf))) .leaf) .out))) (.ref (.cut 1 .out (.cut 2 (.cut 3 (.ref (.cut 0 (.cut 1 .out .leaf) .leaf)) (.ref .leaf)) .out)))) (.ref (.cut 0 (.cut 1 .out (.cut 2 (.cut 3 .leaf (.ref (.cut 0 .leaf .leaf))) .out)) (.cut 1 .out (.cut 2 (.cut 3 (.ref (.cut 0 .leaf .leaf)) (.cut 0 (.cut 1 .out (.ref .leaf)) (.cut 1 .out (.ref .leaf)))) .out)))))))) (.cut 2 (.ref (.cut 3 (.cut 0 (.ref (.cut 1 (.cut 2 (.cut 3 .leaf (.cut 0 (.ref .leaf) (.cut 1 (.ref .leaf) (.ref .leaf)))) (.cut 3 (.cut 0 (.ref .leaf) (.cut 1 (.ref .leaf) (.ref .leaf))) .leaf)) (.cut 2 (.cut 3 (.ref .leaf) (.ref (.cut 0 .out .leaf))) (.cut 3 (.ref (.cut 0 .out .leaf)) (.ref .leaf))))) (.ref (.cut 1 (.cut 2 (.cut 3 (.ref .leaf) (.ref (.cut 0 (.cut 1 .leaf .leaf) .leaf))) (.cut 3 (.ref (.cut 0 (.cut 1 .leaf .leaf) .leaf)) (.ref .leaf))) (.cut 2 (.cut 3 .leaf (.cut 0 (.ref .leaf) (.ref .leaf))) (.cut 3 (.cut 0 (.ref .leaf) (.ref .leaf)) .leaf))))) (.ref (.cut 0 (.cut 1 (.cut 2 .out (.cut 3 .leaf .out)) (.cut 2 .out (.cut 3 (.ref (.cut 0 .out .leaf)) .out))) (.cut 1 (.cut 2 .out (.cut 3 (.ref (.cut 0 .leaf .leaf)) .out)) (.cut 2 .out (.cut 3 (.cut 0 (.cut 1 (.ref .leaf) (.ref .leaf)) (.cut 1 (.ref .leaf) (.ref .leaf))) .out))))))) (.ref (.cut 3 (.ref (.cut 0 (.cut 1 (.cut 2 (.cut 3 (.cut 0 (.cut 1 (.cut 2 .leaf (.ref .leaf)) (.cut 2 (.ref .leaf) (.ref .leaf))) (.cut 1 (.cut 2 (.ref .leaf) (.ref .leaf)) (.cut 2 (.ref .leaf) (.cut 3 .leaf .leaf)))) .leaf) (.ref (.cut 3 (.cut 0 (.cut 1 .out (.cut 2 .leaf .out)) (.cut 1 .out (.cut 2 (.cut 3 .leaf .leaf) .out))) (.cut 0 .leaf .leaf)))) (.cut 2 (.ref (.cut 3 (.cut 0 .out (.cut 1 (.cut 2 .leaf (.cut 3 .leaf .leaf)) .out)) (.cut 0 .out .leaf))) (.cut 3 (.cut 0 .out (.cut 1 (.cut 2 (.cut 3 (.ref .leaf) (.ref .leaf)) (.ref (.cut 3 .leaf .leaf))) .out)) (.cut 0 .out (.cut 1 (.ref .leaf) .out))))) (.cut 1 (.cut 2 (.ref (.cut 3 (.cut 0 (.cut 1 (.cut 2 .leaf .leaf) (.cut 2 .leaf (.cut 3 .leaf .leaf))) (.cut 1 (.cut 2 .leaf .leaf) (.cut 2 .leaf (.cut 3 .leaf .leaf)))) (.cut 0 .leaf .leaf))) (.cut 3 (.cut 0 (.cut 1 .out (.cut 2 (.cut 3 (.ref .leaf) (.ref .leaf)) .out)) (.cut 1 .out (.cut 2 (.ref (.cut 3 .leaf .leaf)) .out))) (.cut 0 (.cut 1 .out (.ref .leaf)) (.cut 1 .out (.ref .leaf))))) (.cut 2 (.cut 3 (.cut 0 (.cut 1 (.cut 2 (.ref .leaf) (.cut 3 (.ref .leaf) (.ref .leaf))) (.ref (.cut 2 .leaf (.cut 3 .leaf .leaf)))) (.cut 1 (.ref (.cut 2 .leaf (.cut 3 .leaf .leaf))) (.cut 2 (.ref .leaf) (.ref .leaf)))) (.cut 0 (.cut 1 (.ref .leaf) (.ref .leaf)) (.cut 1 (.ref .leaf) (.ref .leaf)))) (.cut 3 (.cut 0 (.cut 1 (.cut 2 (.cut 3 .leaf .leaf) (.ref (.cut 3 .leaf .leaf))) (.cut 2 (.ref (.cut 3 .leaf .leaf)) (.ref .leaf))) (.cut 1 (.cut 2 (.ref (.cut 3 .leaf .leaf)) (.ref .leaf)) (.cut 2 (.ref .leaf) .leaf))) (.cut 0 (.cut 1 (.cut 2 .leaf (.ref .leaf)) (.cut 2 (.ref .leaf) (.ref .leaf))) (.cut 1 (.cut 2 (.ref .leaf) (.ref .leaf)) (.cut 2 (.ref .leaf) .leaf)))))))) (.cut 0 (.cut 1 (.cut 2 .leaf (.ref (.cut 3 (.ref .leaf) (.ref .leaf)))) (.ref (.cut 2 (.cut 3 (.ref .leaf) (.ref .leaf)) (.cut 3 (.ref .leaf) (.ref .leaf))))) (.cut 1 (.ref (.cut 2 (.cut 3 (.ref .leaf) (.ref .leaf)) (.cut 3 (.ref .leaf) (.ref .leaf)))) (.cut 2 (.ref (.cut 3 (.ref .leaf) (.ref .leaf))) (.cut 3 (.ref .leaf) .leaf))))))))) (.ref (.cut 0 (.cut 1 (.cut 2 .out (.ref (.cut 3 (.cut 0 (.cut 1 .out (.cut 2 .out .out)) (.cut 1 .out (.cut 2 .out .out))) .out))) (.ref (.cut 2 .out (.cut 3 (.cut 0 .out (.cut 1 (.cut 2 .out (.cut 3 (.cut 0 .out (.ref .leaf)) .out)) .out)) .out)))) (.cut 1 (.ref (.cut 2 .out (.cut 3 (.cut 0 (.cut 1 .out (.cut 2 .out .out)) (.cut 1 .out (.cut 2 .out .out))) .out))) (.cut 2 .out (.cut 3 (.cut 0 (.cut 1 (.cut 2 .out (.ref (.cut 3 .leaf .out))) (.ref (.cut 2 .out (.cut 3 (.cut 0 .out (.ref .leaf)) .out)))) (.cut 1 (.ref (.cut 2 .out (.cut 3 (.cut 0 (.ref .leaf) (.ref .leaf)) .out))) (.cut 2 .out (.ref .leaf)))) .out))))))) (.ref (.cut 3 (.ref (.cut 0 (.cut 1 .out (.ref (.cut 2 (.cut 3 (.cut 0 .out (.cut 1 .out .out)) (.cut 0 .out (.cut 1 .out .out))) .out))) (.cut 1 .out (.cut 2 (.cut 3 (.ref (.cut 0 (.cut 1 .out (.cut 2 (.cut 3 (.cut 0 .out (.cut 1 .out .out)) (.cut 0 .out .leaf)) .out)) (.cut 1 .out (.cut 2 (.cut 3 (.cut 0 (.cut 1 .out (.cut 2 .leaf .out)) (.cut 1 .out (.cut 2 .leaf .out))) (.cut 0 (.cut 1 .out .leaf) (.cut 1 .out .leaf))) .out)))) (.cut 0 (.cut 1 .out (.ref (.cut 2 (.cut 3 .leaf (.cut 0 .out (.ref .leaf))) .out))) (.cut 1 .out (.cut 2 (.cut 3 (.ref (.cut 0 .leaf .leaf)) (.ref .leaf)) .out)))) .out)))) (.ref (.cut 0 (.cut 1 .out (.cut 2 (.cut 3 (.cut 0 .out (.cut 1 .out .out)) (.ref (.cut 0 .out (.cut 1 .out .out)))) .out)) (.cut 1 .out (.cut 2 (.cut 3 (.cut 0 (.cut 1 .out (.cut 2 (.cut 3 (.cut 0 .out (.ref .leaf)) (.ref .leaf)) .out)) (.cut 1 .out (.cut 2 (.cut 3 .leaf (.ref .leaf)) .out))) (.cut 0 (.cut 1 .out (.ref (.cut 2 .out .out))) (.cut 1 .out (.cut 2 .out .out)))) .out)))))))) (.ref (.cut 2 (.ref (.cut 3 (.ref (.cut 0 .out (.cut 1 (.cut 2 (.ref (.cut 3 (.cut 0 .out (.cut 1 (.cut 2 (.cut 3 .leaf (.ref .leaf)) (.cut 3 (.ref .leaf) .leaf)) .out)) (.cut 0 .out (.cut 1 (.cut 2 .out (.cut 3 (.cut 0 .out (.ref .leaf)) .out)) .out)))) (.cut 3 (.ref (.cut 0 .out (.cut 1 (.cut 2 (.cut 3 (.cut 0 .out (.cut 1 (.cut 2 .leaf .leaf) .out)) (.cut 0 .out .leaf)) (.cut 3 (.cut 0 .out (.cut 1 .leaf .out)) (.cut 0 .out (.cut 1 (.cut 2 .leaf .leaf) .out)))) .out))) (.cut 0 .out (.cut 1 (.cut 2 (.ref (.cut 3 .leaf (.cut 0 .out (.ref .leaf)))) (.cut 3 (.ref (.cut 0 .out .leaf)) (.ref .leaf))) .out)))) .out))) (.ref (.cut 0 .out (.cut 1 (.cut 2 .out (.cut 3 (.cut 0 .out (.cut 1 (.cut 2 .out (.cut 3 .leaf .out)) .out)) .out)) .out))))) (.ref (.cut 3 (.cut 0 .out (.cut 1 (.cut 2 (.ref (.cut 3 (.cut 0 .out (.cut 1 (.cut 2 (.cut 3 (.cut 0 .out (.cut 1 (.cut 2 (.ref .leaf) (.ref .leaf)) .out)) (.cut 0 .out (.cut 1 (.ref .leaf) .out))) (.ref (.cut 3 (.cut 0 .out .leaf) (.cut 0 .out .leaf)))) .out)) (.cut 0 .out (.cut 1 (.cut 2 (.cut 3 (.cut 0 .out (.ref .leaf)) .leaf) (.cut 3 (.ref .leaf) (.ref .leaf))) .out)))) (.ref (.cut 3 (.cut 0 .out (.ref (.cut 1 .out .out))) (.ref (.cut 0 .out (.cut 1 .out .out)))))) .out)) (.ref (.cut 0 .out (.cut 1 (.cut 2 (.cut 3 (.cut 0 .out (.cut 1 (.cut 2 (.cut 3 .leaf (.ref .leaf)) (.cut 3 (.ref .leaf) (.ref .leaf))) .out)) (.ref (.cut 0 .out (.cut 1 (.cut 2 .out (.cut 3 .leaf .out)) .out)))) (.cut 3 (.ref (.cut 0 .out (.cut 1 .out .out))) (.cut 0 .out (.cut 1 .out .out)))) .out)))))))))
theorem h34 : check par t34 [20480, 24576, 24576, 24576] [4096, 8192, 8192, 8192] st = true := by decide +kernel
end FastNoise.RangeCheck.Simplex4
