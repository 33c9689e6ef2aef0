import Verif.NormCertSimplex3
/-! Generated by tools/normcert/gen.py: a certificate for the checker `Verif.NormCheck`. -/
namespace FastNoise.NormCheck.Simplex3
open FastNoise.RangeCheck (Tree)
set_option maxRecDepth 1000000
def t0 : Tree := (.ref (.cut 1 (.cut 2 (.cut 0 (.cut 1 (.ref (.cut 2 .leaf .leaf)) (.ref (.cut 2 .leaf .leaf))) (.cut 1 (.ref (.cut 2 .leaf .leaf)) (.cut 2 (.cut 0 (.cut 1 .leaf .leaf) (.cut 1 .leaf .leaf)) (.ref (.cut 0 (.cut 1 .leaf .leaf) .leaf))))) (.ref (.cut 0 (.ref (.cut 1 .out (.cut 2 .leaf .out))) (.cut 1 .out (.cut 2 (.cut 0 .leaf (.cut 1 .out .leaf)) .out))))) (.cut 2 (.cut 0 .out (.cut 1 (.cut 2 (.cut 0 .out .leaf) (.cut 0 .out (.cut 1 .leaf .out))) .out)) (.cut 0 .out (.ref (.cut 1 (.ref (.cut 2 .leaf .leaf)) .out))))))
theorem h0 : check par t0 [2621440, 5242880, 5242880] [2621440, 5242880, 5242880] st = true := by decide +kernel
def t1 : Tree := (.ref (.cut 1 (.cut 2 (.cut 0 .leaf (.cut 1 (.ref (.cut 2 (.cut 0 .leaf .leaf) .leaf)) (.cut 2 .leaf .leaf))) (.ref (.cut 0 .leaf .leaf))) (.cut 2 (.cut 0 .leaf .leaf) (.cut 0 .leaf (.cut 1 .leaf .leaf)))))
theorem h1 : check par t1 [6553600, 2621440, 2621440] [1310720, 2621440, 2621440] st = true := by decide +kernel
def t2 : Tree := (.ref (.cut 1 (.ref (.cut 2 (.cut 0 (.cut 1 .leaf .leaf) (.cut 1 (.ref (.cut 2 .leaf .leaf)) .leaf)) (.cut 0 .leaf .leaf))) (.cut 2 (.cut 0 .leaf .leaf) .leaf)))
theorem h2 : check par t2 [8519680, 1310720, 1310720] [655360, 1310720, 1310720] st = true := by decide +kernel
def t3 : Tree := (.ref (.cut 1 (.ref (.cut 2 (.cut 0 .leaf (.cut 1 (.cut 2 .leaf .leaf) .leaf)) .leaf)) (.cut 2 .leaf .leaf)))
theorem h3 : check par t3 [9502720, 655360, 655360] [327680, 655360, 655360] st = true := by decide +kernel
def t4 : Tree := (.ref (.cut 1 (.cut 2 (.cut 0 .leaf (.cut 1 (.cut 2 .leaf .leaf) .leaf)) .leaf) (.cut 2 .leaf .leaf)))
theorem h4 : check par t4 [9994240, 327680, 327680] [163840, 327680, 327680] st = true := by decide +kernel
def t5 : Tree := (.ref (.cut 0 (.cut 1 (.cut 2 (.cut 0 .leaf (.cut 1 (.cut 2 .leaf .leaf) .leaf)) .leaf) (.cut 2 .leaf .leaf)) (.cut 1 (.cut 2 (.cut 0 (.cut 1 (.cut 2 (.cut 0 .leaf (.cut 1 (.cut 2 .leaf .leaf) .leaf)) .leaf) (.cut 2 .leaf .leaf)) (.cut 1 (.cut 2 (.cut 0 (.cut 1 (.cut 2 (.cut 0 .leaf (.cut 1 (.cut 2 .leaf .leaf) .leaf)) .leaf) (.cut 2 .leaf .leaf)) (.cut 1 (.cut 2 (.cut 0 (.cut 1 (.cut 2 (.cut 0 .leaf (.cut 1 .leaf .leaf)) .leaf) (.cut 2 .leaf .leaf)) (.cut 1 (.cut 2 (.cut 0 (.cut 1 (.cut 2 (.cut 0 .leaf .leaf) .leaf) .leaf) (.cut 1 (.cut 2 (.cut 0 .leaf .leaf) .leaf) (.cut 2 .leaf .leaf))) (.cut 0 .leaf .leaf)) (.cut 2 (.cut 0 .leaf .leaf) .leaf))) (.cut 0 .leaf .leaf)) (.cut 2 (.cut 0 .leaf .leaf) (.cut 0 .leaf .leaf)))) (.cut 0 .leaf .leaf)) (.cut 2 (.cut 0 .leaf .leaf) (.cut 0 .leaf .leaf)))) (.cut 0 .leaf .leaf)) (.cut 2 (.cut 0 .leaf .leaf) (.cut 0 .leaf .leaf)))))
theorem h5 : check par t5 [10321920, 163840, 163840] [163840, 163840, 163840] st = true := by decide +kernel
def t6 : Tree := (.ref (.cut 0 .leaf .leaf))
theorem h6 : check par t6 [10321920, 163840, 491520] [163840, 163840, 163840] st = true := by decide +kernel
def t7 : Tree := (.ref (.cut 2 (.cut 0 .leaf .leaf) (.cut 0 .leaf .leaf)))
theorem h7 : check par t7 [10321920, 491520, 327680] [163840, 163840, 327680] st = true := by decide +kernel
def t8 : Tree := (.ref (.cut 0 .leaf (.cut 1 .out .leaf)))
theorem h8 : check par t8 [10158080, 327680, 983040] [327680, 327680, 327680] st = true := by decide +kernel
def t9 : Tree := (.ref (.cut 2 (.ref (.cut 0 .leaf (.cut 1 .leaf .leaf))) (.cut 0 .leaf .leaf)))
theorem h9 : check par t9 [10158080, 983040, 655360] [327680, 327680, 655360] st = true := by decide +kernel
def t10 : Tree := (.ref (.cut 0 .leaf (.cut 1 .out .leaf)))
theorem h10 : check par t10 [9830400, 655360, 1966080] [655360, 655360, 655360] st = true := by decide +kernel
def t11 : Tree := (.ref (.cut 2 (.cut 0 .leaf (.cut 1 .leaf .leaf)) (.cut 0 .leaf (.cut 1 .leaf .leaf))))
theorem h11 : check par t11 [9830400, 1966080, 1310720] [655360, 655360, 1310720] st = true := by decide +kernel
def t12 : Tree := (.ref (.cut 0 (.cut 1 .out .leaf) (.cut 1 .out (.cut 2 .leaf .out))))
theorem h12 : check par t12 [9175040, 1310720, 3932160] [1310720, 1310720, 1310720] st = true := by decide +kernel
def t13 : Tree := (.ref (.cut 2 (.cut 0 (.cut 1 .leaf .leaf) (.cut 1 (.cut 2 .leaf .leaf) .leaf)) (.cut 0 (.cut 1 (.cut 2 .leaf .leaf) .leaf) (.cut 1 (.cut 2 .leaf .leaf) .leaf))))
theorem h13 : check par t13 [9175040, 3932160, 2621440] [1310720, 1310720, 2621440] st = true := by decide +kernel
def t14 : Tree := (.ref (.cut 0 (.ref (.cut 1 .out (.cut 2 .leaf .out))) (.cut 1 .out (.cut 2 (.ref (.cut 0 (.cut 1 .out .leaf) (.cut 1 .out .leaf))) .out))))
theorem h14 : check par t14 [7864320, 2621440, 7864320] [2621440, 2621440, 2621440] st = true := by decide +kernel
def t15 : Tree := (.ref (.cut 0 (.cut 1 (.cut 2 (.cut 0 .leaf (.cut 1 .leaf .leaf)) (.cut 0 (.cut 1 .leaf .leaf) .leaf)) (.cut 2 (.cut 0 .out .leaf) (.cut 0 .out (.cut 1 .leaf .out)))) (.cut 1 (.cut 2 (.cut 0 (.cut 1 .leaf .leaf) (.cut 1 .leaf .leaf)) (.cut 0 (.cut 1 .leaf .leaf) (.cut 1 .leaf .leaf))) (.cut 2 (.cut 0 .leaf .leaf) (.cut 0 (.cut 1 .leaf .leaf) (.cut 1 .leaf .leaf))))))
theorem h15 : check par t15 [7864320, 7864320, 2621440] [2621440, 2621440, 2621440] st = true := by decide +kernel
def t16 : Tree := (.ref (.cut 1 (.cut 2 (.cut 0 (.ref (.cut 1 (.cut 2 .leaf .leaf) .leaf)) (.cut 1 .leaf (.cut 2 .leaf .leaf))) (.ref (.cut 0 (.ref (.cut 1 .out .leaf)) (.cut 1 .out (.ref (.cut 2 .leaf .out)))))) (.cut 2 (.cut 0 .out (.cut 1 (.cut 2 .leaf .leaf) .out)) (.ref (.cut 0 .out (.cut 1 (.cut 2 .leaf .leaf) .out))))))
theorem h16 : check par t16 [6553600, 7864320, 7864320] [1310720, 2621440, 2621440] st = true := by decide +kernel
def t17 : Tree := (.ref (.cut 2 (.cut 0 (.cut 1 (.cut 2 .leaf .leaf) (.cut 2 .leaf .leaf)) (.cut 1 (.cut 2 .leaf .leaf) (.cut 2 .leaf (.cut 0 .leaf .leaf)))) (.ref (.cut 0 (.cut 1 .out (.cut 2 .leaf .out)) (.cut 1 .out (.cut 2 .leaf .out))))))
theorem h17 : check par t17 [9175040, 6553600, 7864320] [1310720, 1310720, 2621440] st = true := by decide +kernel
def t18 : Tree := (.ref (.cut 0 (.cut 1 (.cut 2 .leaf (.cut 0 .leaf .leaf)) (.cut 2 .leaf (.cut 0 .out .leaf))) (.cut 1 (.cut 2 .leaf .leaf) (.cut 2 .leaf (.cut 0 .leaf .leaf)))))
theorem h18 : check par t18 [9175040, 9175040, 6553600] [1310720, 1310720, 1310720] st = true := by decide +kernel
def t19 : Tree := (.ref (.cut 1 (.ref (.cut 2 (.cut 0 .leaf (.cut 1 .leaf .leaf)) (.ref (.cut 0 (.cut 1 .out .leaf) (.cut 1 .out (.cut 2 .leaf .out)))))) (.ref (.cut 2 (.cut 0 .out (.cut 1 (.ref (.cut 2 .leaf .leaf)) .out)) (.ref (.cut 0 .out (.cut 1 (.cut 2 .leaf .leaf) .out)))))))
theorem h19 : check par t19 [8519680, 9175040, 9175040] [655360, 1310720, 1310720] st = true := by decide +kernel
def t20 : Tree := (.ref (.cut 2 (.cut 0 (.ref (.cut 1 .leaf (.cut 2 .leaf .leaf))) (.cut 1 .leaf (.cut 2 .leaf .leaf))) (.ref (.cut 0 (.cut 1 .out (.ref (.cut 2 .leaf .out))) (.cut 1 .out (.cut 2 .leaf .out))))))
theorem h20 : check par t20 [9830400, 8519680, 9175040] [655360, 655360, 1310720] st = true := by decide +kernel
def t21 : Tree := (.ref (.cut 0 (.cut 1 (.cut 2 .leaf .leaf) (.ref (.cut 2 .leaf .leaf))) (.cut 1 (.cut 2 .leaf .leaf) (.cut 2 .leaf .leaf))))
theorem h21 : check par t21 [9830400, 9830400, 8519680] [655360, 655360, 655360] st = true := by decide +kernel
def t22 : Tree := (.ref (.cut 1 (.cut 2 .leaf (.cut 0 (.cut 1 .out .leaf) (.cut 1 .out (.cut 2 .leaf .out)))) (.cut 2 (.cut 0 .out (.cut 1 (.cut 2 .leaf .leaf) .out)) (.cut 0 .out (.cut 1 (.cut 2 .leaf .leaf) .out)))))
theorem h22 : check par t22 [9502720, 9830400, 9830400] [327680, 655360, 655360] st = true := by decide +kernel
def t23 : Tree := (.ref (.cut 2 (.cut 0 (.ref (.cut 1 .leaf (.cut 2 .leaf .leaf))) (.cut 1 .leaf (.ref (.cut 2 .leaf .leaf)))) (.ref (.cut 0 (.cut 1 .out (.cut 2 .leaf .out)) (.cut 1 .out (.cut 2 .leaf .out))))))
theorem h23 : check par t23 [10158080, 9502720, 9830400] [327680, 327680, 655360] st = true := by decide +kernel
def t24 : Tree := (.ref (.cut 0 (.cut 1 (.cut 2 .leaf .leaf) (.cut 2 .leaf .leaf)) (.cut 1 (.cut 2 .leaf .leaf) (.cut 2 .leaf .leaf))))
theorem h24 : check par t24 [10158080, 10158080, 9502720] [327680, 327680, 327680] st = true := by decide +kernel
def t25 : Tree := (.ref (.cut 1 (.cut 2 .leaf (.cut 0 (.cut 1 .out .leaf) (.cut 1 .out (.cut 2 .leaf .out)))) (.cut 2 (.cut 0 .out (.cut 1 (.cut 2 .leaf .leaf) .out)) (.cut 0 .out (.cut 1 (.cut 2 .leaf .leaf) .out)))))
theorem h25 : check par t25 [9994240, 10158080, 10158080] [163840, 327680, 327680] st = true := by decide +kernel
def t26 : Tree := (.ref (.cut 2 (.cut 0 (.cut 1 .leaf (.cut 2 .leaf .leaf)) (.cut 1 .leaf (.cut 2 .leaf .leaf))) (.cut 0 (.cut 1 .out (.cut 2 .leaf .out)) (.cut 1 .out (.cut 2 .leaf .out)))))
theorem h26 : check par t26 [10321920, 9994240, 10158080] [163840, 163840, 327680] st = true := by decide +kernel
def t27 : Tree := (.ref (.cut 0 (.cut 1 (.cut 2 .leaf .leaf) (.cut 2 .leaf .leaf)) (.cut 1 (.cut 2 .leaf .leaf) (.cut 2 .leaf .leaf))))
theorem h27 : check par t27 [10321920, 10321920, 9994240] [163840, 163840, 163840] st = true := by decide +kernel
def t28 : Tree := (.ref (.cut 1 (.cut 2 .leaf (.cut 0 (.cut 1 .out .leaf) (.cut 1 .out (.cut 2 .leaf .out)))) (.cut 2 (.cut 0 .out (.cut 1 (.cut 2 .leaf .leaf) .out)) (.cut 0 .out (.cut 1 (.cut 2 .leaf .leaf) .out)))))
theorem h28 : check par t28 [10240000, 10321920, 10321920] [81920, 163840, 163840] st = true := by decide +kernel
def t29 : Tree := (.ref (.cut 2 (.cut 0 (.cut 1 .leaf (.cut 2 .leaf .leaf)) (.cut 1 .leaf (.cut 2 .leaf .leaf))) (.cut 0 (.cut 1 .out (.cut 2 .leaf .out)) (.cut 1 .out (.cut 2 .leaf .out)))))
theorem h29 : check par t29 [10403840, 10240000, 10321920] [81920, 81920, 163840] st = true := by decide +kernel
def t30 : Tree := (.ref (.cut 0 (.cut 1 (.cut 2 .leaf .leaf) (.cut 2 .leaf .leaf)) (.cut 1 (.cut 2 .leaf .leaf) (.cut 2 .leaf .leaf))))
theorem h30 : check par t30 [10403840, 10403840, 10240000] [81920, 81920, 81920] st = true := by decide +kernel
def t31 : Tree := (.ref (.cut 1 (.cut 2 .leaf (.cut 0 (.cut 1 .out .leaf) (.cut 1 .out (.cut 2 .leaf .out)))) (.cut 2 (.cut 0 .out (.cut 1 (.cut 2 .leaf .leaf) .out)) (.cut 0 .out (.cut 1 (.cut 2 .leaf .leaf) .out)))))
theorem h31 : check par t31 [10362880, 10403840, 10403840] [40960, 81920, 81920] st = true := by decide +kernel
def t32 : Tree := (.ref (.cut 2 (.cut 0 (.cut 1 .leaf (.cut 2 .leaf .leaf)) (.cut 1 .leaf (.cut 2 .leaf .leaf))) (.cut 0 (.cut 1 .out (.cut 2 .leaf .out)) (.cut 1 .out (.cut 2 .leaf .out)))))
theorem h32 : check par t32 [10444800, 10362880, 10403840] [40960, 40960, 81920] st = true := by decide +kernel
end FastNoise.NormCheck.Simplex3
