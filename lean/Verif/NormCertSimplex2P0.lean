import Verif.NormCertSimplex2
/-! Generated by tools/normcert/gen.py: a certificate for the checker `Verif.NormCheck`. -/
namespace FastNoise.NormCheck.Simplex2
open FastNoise.RangeCheck (Tree)
set_option maxRecDepth 1000000
def t0 : Tree := (.ref (.cut 1 (.cut 0 (.cut 1 (.cut 0 .leaf .leaf) .leaf) (.cut 1 (.cut 0 .leaf .leaf) (.cut 0 .leaf .leaf))) (.cut 0 .out (.ref (.cut 1 .leaf .out)))))
theorem h0 : check par t0 [2097152, 4194304] [2097152, 4194304] st = true := by decide +kernel
def t1 : Tree := (.ref (.cut 1 (.cut 0 (.cut 1 .leaf .leaf) (.cut 1 (.cut 0 .leaf (.cut 1 (.cut 0 .leaf .leaf) .leaf)) (.cut 0 .leaf .leaf))) (.cut 0 .leaf (.cut 1 .leaf .leaf))))
theorem h1 : check par t1 [5242880, 2097152] [1048576, 2097152] st = true := by decide +kernel
def t2 : Tree := (.ref (.cut 1 (.cut 0 (.cut 1 (.cut 0 (.cut 1 .leaf .leaf) (.cut 1 .leaf .leaf)) (.cut 0 .leaf .leaf)) (.cut 1 (.cut 0 (.cut 1 (.cut 0 .leaf .leaf) .leaf) (.cut 1 (.cut 0 (.cut 1 .leaf .leaf) (.cut 1 .leaf .leaf)) .leaf)) (.cut 0 .leaf .leaf))) (.cut 0 .leaf .leaf)))
theorem h2 : check par t2 [6815744, 1048576] [524288, 1048576] st = true := by decide +kernel
def t3 : Tree := (.ref (.cut 1 (.cut 0 (.cut 1 (.cut 0 (.cut 1 (.cut 0 .leaf .leaf) .leaf) (.cut 1 (.cut 0 (.cut 1 .leaf .leaf) (.cut 1 .leaf .leaf)) .leaf)) (.cut 0 .leaf .leaf)) (.cut 1 (.cut 0 (.cut 1 (.cut 0 (.cut 1 (.cut 0 .leaf .leaf) .leaf) (.cut 1 (.cut 0 .leaf .leaf) .leaf)) .leaf) (.cut 1 (.cut 0 (.cut 1 (.cut 0 (.cut 1 .leaf .leaf) (.cut 1 .leaf .leaf)) .leaf) (.cut 1 (.cut 0 (.cut 1 .leaf .leaf) (.cut 1 .leaf .leaf)) .leaf)) (.cut 0 .leaf .leaf))) (.cut 0 .leaf .leaf))) (.cut 0 .leaf .leaf)))
theorem h3 : check par t3 [7602176, 524288] [262144, 524288] st = true := by decide +kernel
def t4 : Tree := (.ref (.cut 1 (.cut 0 (.cut 1 (.cut 0 (.cut 1 (.cut 0 (.cut 1 (.cut 0 .leaf .leaf) .leaf) (.cut 1 (.cut 0 .leaf .leaf) .leaf)) .leaf) (.cut 1 (.cut 0 (.cut 1 (.cut 0 .leaf (.cut 1 .leaf .leaf)) .leaf) (.cut 1 (.cut 0 (.cut 1 .leaf .leaf) (.cut 1 .leaf .leaf)) .leaf)) (.cut 0 .leaf .leaf))) (.cut 0 .leaf .leaf)) (.cut 1 (.cut 0 (.cut 1 (.cut 0 (.cut 1 (.cut 0 (.cut 1 .leaf .leaf) (.cut 1 .leaf .leaf)) .leaf) (.cut 1 (.cut 0 (.cut 1 (.cut 0 .leaf .leaf) .leaf) (.cut 1 (.cut 0 .leaf .leaf) .leaf)) .leaf)) (.cut 0 .leaf .leaf)) (.cut 1 (.cut 0 (.cut 1 (.cut 0 (.cut 1 (.cut 0 .leaf .leaf) .leaf) (.cut 1 (.cut 0 .leaf .leaf) .leaf)) (.cut 0 .leaf .leaf)) (.cut 1 (.cut 0 (.cut 1 (.cut 0 .leaf (.cut 1 .leaf .leaf)) .leaf) (.cut 1 (.cut 0 (.cut 1 .leaf .leaf) (.cut 1 .leaf .leaf)) .leaf)) (.cut 0 .leaf .leaf))) (.cut 0 .leaf .leaf))) (.cut 0 .leaf .leaf))) (.cut 0 .leaf .leaf)))
theorem h4 : check par t4 [7995392, 262144] [131072, 262144] st = true := by decide +kernel
def t5 : Tree := (.ref (.cut 0 (.cut 1 (.cut 0 (.cut 1 (.cut 0 (.cut 1 (.cut 0 (.cut 1 .leaf .leaf) (.cut 1 .leaf .leaf)) .leaf) (.cut 1 (.cut 0 (.cut 1 .leaf .leaf) (.cut 1 .leaf .leaf)) .leaf)) (.cut 0 .leaf .leaf)) (.cut 1 (.cut 0 (.cut 1 (.cut 0 (.cut 1 .leaf .leaf) (.cut 1 .leaf .leaf)) .leaf) (.cut 1 (.cut 0 (.cut 1 .leaf .leaf) (.cut 1 .leaf .leaf)) .leaf)) (.cut 0 .leaf .leaf))) (.cut 0 .leaf .leaf)) (.cut 1 (.cut 0 (.cut 1 (.cut 0 (.cut 1 (.cut 0 (.cut 1 .leaf .leaf) (.cut 1 (.cut 0 .leaf .leaf) .leaf)) .leaf) (.cut 1 (.cut 0 (.cut 1 (.cut 0 .leaf .leaf) .leaf) (.cut 1 (.cut 0 .leaf .leaf) .leaf)) .leaf)) (.cut 0 .leaf .leaf)) (.cut 1 (.cut 0 (.cut 1 (.cut 0 (.cut 1 (.cut 0 .leaf .leaf) .leaf) (.cut 1 (.cut 0 .leaf .leaf) .leaf)) .leaf) (.cut 1 (.cut 0 (.cut 1 (.cut 0 .leaf .leaf) .leaf) (.cut 1 (.cut 0 .leaf .leaf) .leaf)) .leaf)) (.cut 0 .leaf .leaf))) (.cut 0 .leaf .leaf))))
theorem h5 : check par t5 [8192000, 65536] [65536, 65536] st = true := by decide +kernel
def t6 : Tree := (.ref (.cut 0 .leaf .leaf))
theorem h6 : check par t6 [8192000, 196608] [65536, 65536] st = true := by decide +kernel
def t7 : Tree := (.ref (.cut 1 (.cut 0 (.cut 1 (.cut 0 (.cut 1 (.cut 0 (.cut 1 (.cut 0 .leaf .leaf) .leaf) (.cut 1 (.cut 0 .leaf .leaf) .leaf)) (.cut 0 .leaf .leaf)) (.cut 1 (.cut 0 (.cut 1 (.cut 0 .leaf .leaf) .leaf) (.cut 1 (.cut 0 .leaf .leaf) .leaf)) (.cut 0 .leaf .leaf))) (.cut 0 .leaf .leaf)) (.cut 1 (.cut 0 (.cut 1 (.cut 0 (.cut 1 (.cut 0 .leaf .leaf) .leaf) (.cut 1 (.cut 0 .leaf .leaf) .leaf)) (.cut 0 .leaf .leaf)) (.cut 1 (.cut 0 (.cut 1 (.cut 0 .leaf .leaf) .leaf) (.cut 1 (.cut 0 .leaf .leaf) .leaf)) (.cut 0 .leaf .leaf))) (.cut 0 .leaf .leaf))) (.cut 0 .leaf .leaf)))
theorem h7 : check par t7 [8290304, 65536] [32768, 65536] st = true := by decide +kernel
def t8 : Tree := (.ref (.cut 1 (.cut 0 (.cut 1 (.cut 0 (.cut 1 (.cut 0 (.cut 1 (.cut 0 .leaf .leaf) .leaf) (.cut 1 (.cut 0 .leaf .leaf) .leaf)) (.cut 0 .leaf .leaf)) (.cut 1 (.cut 0 (.cut 1 (.cut 0 .leaf .leaf) .leaf) (.cut 1 (.cut 0 .leaf .leaf) .leaf)) (.cut 0 .leaf .leaf))) (.cut 0 .leaf .leaf)) (.cut 1 (.cut 0 (.cut 1 (.cut 0 (.cut 1 (.cut 0 .leaf .leaf) .leaf) (.cut 1 (.cut 0 .leaf .leaf) .leaf)) (.cut 0 .leaf .leaf)) (.cut 1 (.cut 0 (.cut 1 (.cut 0 .leaf .leaf) .leaf) (.cut 1 (.cut 0 .leaf .leaf) .leaf)) (.cut 0 .leaf .leaf))) (.cut 0 .leaf .leaf))) (.cut 0 .leaf .leaf)))
theorem h8 : check par t8 [8355840, 65536] [32768, 65536] st = true := by decide +kernel
def t9 : Tree := (.ref (.cut 0 .leaf .leaf))
theorem h9 : check par t9 [8323072, 196608] [65536, 65536] st = true := by decide +kernel
def t10 : Tree := (.ref (.cut 0 .leaf .leaf))
theorem h10 : check par t10 [8257536, 393216] [131072, 131072] st = true := by decide +kernel
def t11 : Tree := (.ref (.cut 0 .leaf .leaf))
theorem h11 : check par t11 [8126464, 786432] [262144, 262144] st = true := by decide +kernel
def t12 : Tree := (.ref (.cut 0 (.cut 1 .leaf .leaf) .leaf))
theorem h12 : check par t12 [7864320, 1572864] [524288, 524288] st = true := by decide +kernel
def t13 : Tree := (.ref (.cut 0 (.cut 1 .leaf .leaf) (.cut 1 .leaf .leaf)))
theorem h13 : check par t13 [7340032, 3145728] [1048576, 1048576] st = true := by decide +kernel
def t14 : Tree := (.ref (.cut 1 (.cut 0 (.cut 1 .leaf .leaf) (.cut 1 .leaf (.cut 0 .leaf (.cut 1 .leaf .leaf)))) (.cut 0 .out (.ref (.cut 1 (.cut 0 .out (.cut 1 .leaf .out)) .out)))))
theorem h14 : check par t14 [5242880, 6291456] [1048576, 2097152] st = true := by decide +kernel
def t15 : Tree := (.ref (.cut 0 (.cut 1 (.cut 0 .leaf .leaf) (.cut 0 (.cut 1 .leaf .leaf) (.cut 1 .leaf .leaf))) (.cut 1 .leaf (.cut 0 (.cut 1 .leaf .leaf) .leaf))))
theorem h15 : check par t15 [7340032, 5242880] [1048576, 1048576] st = true := by decide +kernel
def t16 : Tree := (.ref (.cut 1 (.cut 0 (.cut 1 (.cut 0 .leaf .leaf) (.ref (.cut 0 .out (.cut 1 .leaf .out)))) (.cut 1 (.cut 0 (.cut 1 .leaf .leaf) (.cut 1 .leaf .leaf)) (.cut 0 (.cut 1 .leaf (.ref (.cut 0 .out .leaf))) (.cut 1 (.cut 0 .leaf .leaf) (.cut 0 .leaf (.cut 1 .leaf .leaf)))))) (.cut 0 .out (.ref (.cut 1 (.cut 0 .out (.cut 1 (.cut 0 .out (.cut 1 .leaf .out)) .out)) .out)))))
theorem h16 : check par t16 [6815744, 7340032] [524288, 1048576] st = true := by decide +kernel
def t17 : Tree := (.ref (.cut 0 (.cut 1 (.cut 0 .leaf .leaf) (.cut 0 (.cut 1 .leaf (.cut 0 (.cut 1 .leaf (.cut 0 .leaf .leaf)) (.cut 1 .leaf .leaf))) (.cut 1 .leaf (.cut 0 .leaf .leaf)))) (.cut 1 .leaf (.cut 0 .leaf .leaf))))
theorem h17 : check par t17 [7864320, 6815744] [524288, 524288] st = true := by decide +kernel
def t18 : Tree := (.ref (.cut 1 (.cut 0 (.cut 1 (.cut 0 (.cut 1 .leaf (.ref (.cut 0 .out .leaf))) (.cut 1 (.cut 0 .leaf .leaf) (.cut 0 .leaf (.cut 1 .leaf .leaf)))) (.ref (.cut 0 .out (.cut 1 (.cut 0 .out (.cut 1 .leaf .out)) .out)))) (.cut 1 (.cut 0 (.cut 1 .leaf (.cut 0 (.cut 1 .leaf .leaf) (.cut 1 .leaf .leaf))) (.cut 1 .leaf (.cut 0 .leaf .leaf))) (.cut 0 (.cut 1 (.cut 0 (.cut 1 .leaf (.ref (.cut 0 .out .leaf))) (.cut 1 (.cut 0 .leaf .leaf) .leaf)) (.ref (.cut 0 .out (.cut 1 (.cut 0 .out .leaf) .out)))) (.cut 1 (.cut 0 (.cut 1 .leaf (.cut 0 .leaf .leaf)) (.cut 1 .leaf .leaf)) (.cut 0 (.cut 1 .leaf (.ref (.cut 0 .out (.cut 1 .leaf .out)))) (.cut 1 (.cut 0 (.cut 1 .leaf .leaf) (.cut 1 .leaf .leaf)) (.cut 0 (.cut 1 .leaf .leaf) (.cut 1 .leaf .leaf)))))))) (.cut 0 .out (.ref (.cut 1 (.cut 0 .out (.cut 1 (.cut 0 .out (.cut 1 (.cut 0 .out (.cut 1 (.cut 0 .out .leaf) .out)) .out)) .out)) .out)))))
theorem h18 : check par t18 [7602176, 7864320] [262144, 524288] st = true := by decide +kernel
def t19 : Tree := (.ref (.cut 0 (.cut 1 (.cut 0 .leaf .leaf) (.cut 0 (.cut 1 (.cut 0 .leaf .leaf) (.cut 0 (.cut 1 (.cut 0 .leaf .leaf) (.cut 0 (.cut 1 .leaf (.cut 0 .leaf .leaf)) (.cut 1 .leaf .leaf))) (.cut 1 .leaf (.cut 0 .leaf .leaf)))) (.cut 1 .leaf (.cut 0 .leaf .leaf)))) (.cut 1 .leaf (.cut 0 .leaf .leaf))))
theorem h19 : check par t19 [8126464, 7602176] [262144, 262144] st = true := by decide +kernel
def t20 : Tree := (.ref (.cut 1 (.cut 0 (.cut 1 (.cut 0 (.cut 1 .leaf (.ref (.cut 0 .out .leaf))) (.cut 1 (.cut 0 .leaf .leaf) .leaf)) (.ref (.cut 0 .out (.cut 1 (.cut 0 .out .leaf) .out)))) (.cut 1 (.cut 0 (.cut 1 .leaf (.cut 0 .leaf .leaf)) (.cut 1 .leaf .leaf)) (.cut 0 (.cut 1 .leaf (.ref (.cut 0 .out (.cut 1 .leaf .out)))) (.cut 1 (.cut 0 (.cut 1 .leaf .leaf) .leaf) .leaf)))) (.ref (.cut 0 .out (.cut 1 (.cut 0 .out (.cut 1 (.cut 0 .out (.cut 1 .leaf .out)) .out)) .out)))))
theorem h20 : check par t20 [7929856, 7995392] [65536, 131072] st = true := by decide +kernel
def t21 : Tree := (.ref (.cut 0 (.cut 1 (.cut 0 .leaf .leaf) (.cut 0 (.cut 1 .leaf (.cut 0 (.cut 1 .leaf .leaf) (.cut 1 .leaf .leaf))) (.cut 1 .leaf (.cut 0 .leaf .leaf)))) (.cut 1 .leaf (.cut 0 .leaf .leaf))))
theorem h21 : check par t21 [8060928, 7929856] [65536, 65536] st = true := by decide +kernel
def t22 : Tree := (.ref (.cut 0 (.cut 1 (.cut 0 (.cut 1 (.cut 0 (.cut 1 .leaf .leaf) (.cut 1 .leaf .leaf)) (.ref (.cut 0 .out (.cut 1 (.cut 0 .out .leaf) .out)))) (.cut 1 (.cut 0 (.cut 1 .leaf (.cut 0 .leaf .leaf)) (.cut 1 .leaf .leaf)) (.cut 0 (.cut 1 .leaf (.ref (.cut 0 .out .leaf))) (.cut 1 (.cut 0 .leaf .leaf) .leaf)))) (.ref (.cut 0 .out (.cut 1 (.cut 0 .out (.cut 1 (.cut 0 .out .leaf) .out)) .out)))) (.cut 1 (.cut 0 (.cut 1 (.cut 0 .leaf .leaf) (.cut 0 (.cut 1 .leaf (.cut 0 .leaf .leaf)) (.cut 1 .leaf .leaf))) (.cut 1 .leaf (.cut 0 .leaf .leaf))) (.cut 0 (.cut 1 (.cut 0 (.cut 1 .leaf (.ref (.cut 0 .out .leaf))) (.cut 1 (.cut 0 .leaf .leaf) .leaf)) (.ref (.cut 0 .out (.cut 1 (.cut 0 .out (.cut 1 .leaf .out)) .out)))) (.cut 1 (.cut 0 (.cut 1 .leaf (.cut 0 (.cut 1 .leaf .leaf) .leaf)) (.cut 1 .leaf .leaf)) (.cut 0 (.cut 1 .leaf (.ref (.cut 0 .out (.cut 1 .leaf .out)))) (.cut 1 (.cut 0 (.cut 1 .leaf .leaf) .leaf) .leaf)))))))
theorem h22 : check par t22 [8060928, 8060928] [65536, 65536] st = true := by decide +kernel
def t23 : Tree := (.ref (.cut 0 .out (.ref (.cut 1 (.cut 0 .out (.cut 1 (.cut 0 .out (.cut 1 (.cut 0 .out (.cut 1 (.cut 0 .out (.cut 1 .leaf .out)) .out)) .out)) .out)) .out))))
theorem h23 : check par t23 [7995392, 8257536] [131072, 131072] st = true := by decide +kernel
def t24 : Tree := (.ref (.cut 0 (.cut 1 (.cut 0 .leaf .leaf) (.cut 0 (.cut 1 (.cut 0 .leaf .leaf) (.cut 0 (.cut 1 (.cut 0 .leaf .leaf) (.cut 0 (.cut 1 .leaf (.cut 0 (.cut 1 .leaf .leaf) (.cut 1 .leaf .leaf))) (.cut 1 .leaf .leaf))) (.cut 1 .leaf (.cut 0 .leaf .leaf)))) (.cut 1 .leaf (.cut 0 .leaf .leaf)))) (.cut 1 .leaf (.cut 0 .leaf .leaf))))
theorem h24 : check par t24 [8257536, 7995392] [131072, 131072] st = true := by decide +kernel
def t25 : Tree := (.ref (.cut 1 (.cut 0 (.cut 1 (.cut 0 (.cut 1 .leaf (.ref (.cut 0 .out (.cut 1 .leaf .out)))) (.cut 1 (.cut 0 (.cut 1 .leaf .leaf) (.cut 1 .leaf .leaf)) (.cut 0 (.cut 1 .leaf .leaf) (.cut 1 .leaf .leaf)))) (.ref (.cut 0 .out (.cut 1 (.cut 0 .out (.cut 1 .leaf .out)) .out)))) (.cut 1 (.cut 0 (.cut 1 .leaf (.cut 0 (.cut 1 .leaf .leaf) (.cut 1 .leaf .leaf))) (.cut 1 .leaf (.cut 0 .leaf .leaf))) (.cut 0 (.cut 1 (.cut 0 (.cut 1 .leaf .leaf) (.cut 1 .leaf .leaf)) (.ref (.cut 0 .out (.cut 1 .leaf .out)))) (.cut 1 (.cut 0 (.cut 1 .leaf .leaf) (.cut 1 .leaf .leaf)) (.cut 0 (.cut 1 .leaf (.ref (.cut 0 .out .leaf))) (.cut 1 (.cut 0 .leaf .leaf) .leaf)))))) (.ref (.cut 0 .out (.cut 1 (.cut 0 .out (.cut 1 (.cut 0 .out (.cut 1 (.cut 0 .out .leaf) .out)) .out)) .out)))))
theorem h25 : check par t25 [8159232, 8192000] [32768, 65536] st = true := by decide +kernel
def t26 : Tree := (.ref (.cut 0 (.cut 1 (.cut 0 .leaf .leaf) (.cut 0 (.cut 1 (.cut 0 .leaf .leaf) (.cut 0 (.cut 1 .leaf (.cut 0 .leaf .leaf)) (.cut 1 .leaf .leaf))) (.cut 1 .leaf (.cut 0 .leaf .leaf)))) (.cut 1 .leaf (.cut 0 .leaf .leaf))))
theorem h26 : check par t26 [8224768, 8159232] [32768, 32768] st = true := by decide +kernel
def t27 : Tree := (.ref (.cut 0 (.cut 1 (.cut 0 (.cut 1 (.cut 0 (.cut 1 .leaf (.ref (.cut 0 .out .leaf))) (.cut 1 (.cut 0 .leaf .leaf) .leaf)) (.ref (.cut 0 .out (.cut 1 (.cut 0 .out .leaf) .out)))) (.cut 1 (.cut 0 (.cut 1 .leaf (.cut 0 .leaf .leaf)) (.cut 1 .leaf .leaf)) (.cut 0 (.cut 1 .leaf (.ref (.cut 0 .out .leaf))) (.cut 1 (.cut 0 .leaf .leaf) .leaf)))) (.ref (.cut 0 .out (.cut 1 (.cut 0 .out (.cut 1 (.cut 0 .out .leaf) .out)) .out)))) (.cut 1 (.cut 0 (.cut 1 (.cut 0 .leaf .leaf) (.cut 0 (.cut 1 .leaf (.cut 0 .leaf .leaf)) (.cut 1 .leaf .leaf))) (.cut 1 .leaf (.cut 0 .leaf .leaf))) (.cut 0 (.cut 1 (.cut 0 (.cut 1 .leaf (.ref (.cut 0 .out .leaf))) (.cut 1 (.cut 0 .leaf .leaf) .leaf)) (.ref (.cut 0 .out (.cut 1 (.cut 0 .out .leaf) .out)))) (.cut 1 (.cut 0 (.cut 1 .leaf (.cut 0 .leaf .leaf)) (.cut 1 .leaf .leaf)) (.cut 0 (.cut 1 .leaf (.ref (.cut 0 .out .leaf))) (.cut 1 (.cut 0 .leaf .leaf) .leaf)))))))
theorem h27 : check par t27 [8224768, 8224768] [32768, 32768] st = true := by decide +kernel
def t28 : Tree := (.ref (.cut 0 .out (.ref (.cut 1 (.cut 0 .out (.cut 1 (.cut 0 .out (.cut 1 (.cut 0 .out (.cut 1 (.cut 0 .out .leaf) .out)) .out)) .out)) .out))))
theorem h28 : check par t28 [8192000, 8323072] [65536, 65536] st = true := by decide +kernel
def t29 : Tree := (.ref (.cut 0 (.cut 1 (.cut 0 .leaf .leaf) (.cut 0 (.cut 1 (.cut 0 .leaf .leaf) (.cut 0 (.cut 1 (.cut 0 .leaf .leaf) (.cut 0 (.cut 1 .leaf (.cut 0 .leaf .leaf)) (.cut 1 .leaf .leaf))) (.cut 1 .leaf (.cut 0 .leaf .leaf)))) (.cut 1 .leaf (.cut 0 .leaf .leaf)))) (.cut 1 .leaf (.cut 0 .leaf .leaf))))
theorem h29 : check par t29 [8323072, 8192000] [65536, 65536] st = true := by decide +kernel
def t30 : Tree := (.ref (.cut 0 (.cut 1 (.cut 0 (.cut 1 (.cut 0 (.cut 1 .leaf (.ref (.cut 0 .out .leaf))) (.cut 1 (.cut 0 .leaf .leaf) .leaf)) (.ref (.cut 0 .out (.cut 1 (.cut 0 .out .leaf) .out)))) (.cut 1 (.cut 0 (.cut 1 .leaf (.cut 0 .leaf .leaf)) (.cut 1 .leaf .leaf)) (.cut 0 (.cut 1 .leaf (.ref (.cut 0 .out .leaf))) (.cut 1 (.cut 0 .leaf .leaf) .leaf)))) (.ref (.cut 0 .out (.cut 1 (.cut 0 .out (.cut 1 (.cut 0 .out .leaf) .out)) .out)))) (.cut 1 (.cut 0 (.cut 1 (.cut 0 .leaf .leaf) (.cut 0 (.cut 1 .leaf (.cut 0 .leaf .leaf)) (.cut 1 .leaf .leaf))) (.cut 1 .leaf (.cut 0 .leaf .leaf))) (.cut 0 (.cut 1 (.cut 0 (.cut 1 .leaf (.ref (.cut 0 .out .leaf))) (.cut 1 (.cut 0 .leaf .leaf) .leaf)) (.ref (.cut 0 .out (.cut 1 (.cut 0 .out .leaf) .out)))) (.cut 1 (.cut 0 (.cut 1 .leaf (.cut 0 .leaf .leaf)) (.cut 1 .leaf .leaf)) (.cut 0 (.cut 1 .leaf (.ref (.cut 0 .out .leaf))) (.cut 1 (.cut 0 .leaf .leaf) .leaf)))))))
theorem h30 : check par t30 [8290304, 8290304] [32768, 32768] st = true := by decide +kernel
def t31 : Tree := (.ref (.cut 0 .out (.ref (.cut 1 (.cut 0 .out (.cut 1 (.cut 0 .out (.cut 1 (.cut 0 .out .leaf) .out)) .out)) .out))))
theorem h31 : check par t31 [8290304, 8355840] [32768, 32768] st = true := by decide +kernel
def t32 : Tree := (.ref (.cut 0 (.cut 1 (.cut 0 .leaf .leaf) (.cut 0 (.cut 1 (.cut 0 .leaf .leaf) (.cut 0 (.cut 1 .leaf (.cut 0 .leaf .leaf)) (.cut 1 .leaf .leaf))) (.cut 1 .leaf (.cut 0 .leaf .leaf)))) (.cut 1 .leaf (.cut 0 .leaf .leaf))))
theorem h32 : check par t32 [8355840, 8290304] [32768, 32768] st = true := by decide +kernel
def t33 : Tree := (.ref (.cut 0 (.cut 1 (.cut 0 (.cut 1 (.cut 0 (.cut 1 .leaf (.ref (.cut 0 .out .leaf))) (.cut 1 (.cut 0 .leaf .leaf) .leaf)) (.ref (.cut 0 .out (.cut 1 (.cut 0 .out .leaf) .out)))) (.cut 1 (.cut 0 (.cut 1 .leaf (.cut 0 .leaf .leaf)) (.cut 1 .leaf .leaf)) (.cut 0 (.cut 1 .leaf (.ref (.cut 0 .out .leaf))) (.cut 1 (.cut 0 .leaf .leaf) .leaf)))) (.cut 0 .out (.ref (.cut 1 (.cut 0 .out (.cut 1 (.cut 0 .out .leaf) .out)) .out)))) (.cut 1 (.cut 0 (.cut 1 (.cut 0 .leaf .leaf) (.cut 0 (.cut 1 .leaf (.cut 0 .leaf .leaf)) (.cut 1 .leaf .leaf))) (.cut 1 .leaf (.cut 0 .leaf .leaf))) (.cut 0 (.cut 1 (.cut 0 (.cut 1 .leaf (.ref (.cut 0 .out .leaf))) (.cut 1 (.cut 0 .leaf .leaf) .leaf)) (.cut 0 .out (.ref (.cut 1 (.cut 0 .out .leaf) .out)))) (.cut 1 (.cut 0 (.cut 1 .leaf (.cut 0 .leaf .leaf)) (.cut 1 .leaf .leaf)) (.cut 0 (.cut 1 .leaf (.cut 0 .out .leaf)) (.cut 1 (.cut 0 .leaf .leaf) .leaf)))))))
theorem h33 : check par t33 [8355840, 8355840] [32768, 32768] st = true := by decide +kernel
def t34 : Tree := (.ref (.cut 0 .out (.cut 1 (.cut 0 .out (.cut 1 (.cut 0 .out (.cut 1 (.cut 0 .out (.cut 1 (.cut 0 .out (.cut 1 (.cut 0 .out (.cut 1 (.cut 0 .out (.cut 1 (.cut 0 .out (.cut 1 (.cut 0 .out (.cut 1 (.cut 0 .out (.cut 1 (.cut 0 .out .leaf) .out)) .out)) .out)) .out)) .out)) .out)) .out)) .out)) .out)) .out)))
theorem h34 : check par t34 [4194304, 12582912] [4194304, 4194304] st = true := by decide +kernel
def t35 : Tree := (.ref (.cut 1 (.cut 0 (.cut 1 (.cut 0 (.cut 1 (.cut 0 (.cut 1 (.cut 0 .leaf .leaf) .leaf) (.cut 1 (.cut 0 .leaf .leaf) .leaf)) (.cut 0 .leaf .leaf)) (.cut 1 (.cut 0 (.cut 1 (.cut 0 .leaf .leaf) .leaf) (.cut 1 (.cut 0 .leaf .leaf) .leaf)) (.cut 0 .leaf .leaf))) (.cut 0 .leaf .leaf)) (.cut 1 (.cut 0 (.cut 1 (.cut 0 (.cut 1 (.cut 0 .leaf .leaf) .leaf) (.cut 1 (.cut 0 .leaf .leaf) .leaf)) (.cut 0 .leaf .leaf)) (.cut 1 (.cut 0 (.cut 1 (.cut 0 .leaf .leaf) .leaf) (.cut 1 (.cut 0 .leaf .leaf) .leaf)) (.cut 0 .leaf .leaf))) (.cut 0 .leaf .leaf))) (.cut 0 .leaf .leaf)))
theorem h35 : check par t35 [8421376, 65536] [32768, 65536] st = true := by decide +kernel
def t36 : Tree := (.ref (.cut 1 (.cut 0 (.cut 1 (.cut 0 (.cut 1 (.cut 0 (.cut 1 (.cut 0 .leaf .leaf) .leaf) (.cut 1 (.cut 0 .leaf .leaf) .leaf)) (.cut 0 .leaf .leaf)) (.cut 1 (.cut 0 (.cut 1 (.cut 0 .leaf .leaf) .leaf) (.cut 1 (.cut 0 .leaf .leaf) .leaf)) (.cut 0 .leaf .leaf))) (.cut 0 .leaf .leaf)) (.cut 1 (.cut 0 (.cut 1 (.cut 0 (.cut 1 (.cut 0 .leaf .leaf) .leaf) (.cut 1 (.cut 0 .leaf .leaf) .leaf)) (.cut 0 .leaf .leaf)) (.cut 1 (.cut 0 (.cut 1 (.cut 0 .leaf .leaf) .leaf) (.cut 1 (.cut 0 .leaf .leaf) .leaf)) (.cut 0 .leaf .leaf))) (.cut 0 .leaf .leaf))) (.cut 0 .leaf .leaf)))
theorem h36 : check par t36 [8486912, 65536] [32768, 65536] st = true := by decide +kernel
def t37 : Tree := (.ref (.cut 0 .leaf .leaf))
theorem h37 : check par t37 [8454144, 196608] [65536, 65536] st = true := by decide +kernel
def t38 : Tree := (.ref (.cut 0 (.cut 1 (.cut 0 (.cut 1 (.cut 0 (.cut 1 (.cut 0 (.cut 1 (.cut 0 .leaf .leaf) .leaf) (.cut 1 (.cut 0 .leaf .leaf) .leaf)) (.cut 0 .leaf .leaf)) (.cut 1 (.cut 0 (.cut 1 (.cut 0 .leaf .leaf) .leaf) (.cut 1 (.cut 0 .leaf .leaf) .leaf)) .leaf)) (.cut 0 .leaf .leaf)) (.cut 1 (.cut 0 (.cut 1 (.cut 0 (.cut 1 (.cut 0 .leaf .leaf) .leaf) (.cut 1 (.cut 0 .leaf .leaf) .leaf)) .leaf) (.cut 1 (.cut 0 (.cut 1 (.cut 0 .leaf .leaf) .leaf) (.cut 1 .leaf .leaf)) .leaf)) (.cut 0 .leaf .leaf))) (.cut 0 .leaf .leaf)) (.cut 1 (.cut 0 (.cut 1 (.cut 0 (.cut 1 (.cut 0 (.cut 1 .leaf .leaf) (.cut 1 .leaf .leaf)) .leaf) (.cut 1 (.cut 0 (.cut 1 .leaf .leaf) (.cut 1 .leaf .leaf)) .leaf)) (.cut 0 .leaf .leaf)) (.cut 1 (.cut 0 (.cut 1 (.cut 0 (.cut 1 .leaf .leaf) (.cut 1 .leaf .leaf)) .leaf) (.cut 1 (.cut 0 (.cut 1 .leaf .leaf) (.cut 1 .leaf .leaf)) .leaf)) (.cut 0 .leaf .leaf))) (.cut 0 .leaf .leaf))))
theorem h38 : check par t38 [8585216, 65536] [65536, 65536] st = true := by decide +kernel
def t39 : Tree := (.ref (.cut 0 .leaf .leaf))
theorem h39 : check par t39 [8585216, 196608] [65536, 65536] st = true := by decide +kernel
def t40 : Tree := (.ref (.cut 0 .leaf .leaf))
theorem h40 : check par t40 [8519680, 393216] [131072, 131072] st = true := by decide +kernel
def t41 : Tree := (.ref (.cut 0 (.cut 1 (.cut 0 (.cut 1 (.cut 0 (.cut 1 (.cut 0 (.cut 1 (.cut 0 (.cut 1 .leaf .leaf) (.cut 1 .leaf .leaf)) .leaf) (.cut 1 (.cut 0 (.cut 1 .leaf .leaf) .leaf) .leaf)) (.cut 0 .leaf .leaf)) (.cut 1 (.cut 0 (.cut 1 (.cut 0 .leaf .leaf) .leaf) (.cut 1 (.cut 0 .leaf .leaf) .leaf)) (.cut 0 .leaf .leaf))) (.cut 0 .leaf .leaf)) (.cut 1 (.cut 0 (.cut 1 (.cut 0 (.cut 1 (.cut 0 .leaf .leaf) .leaf) (.cut 1 (.cut 0 .leaf .leaf) .leaf)) (.cut 0 .leaf .leaf)) (.cut 1 (.cut 0 (.cut 1 .leaf .leaf) (.cut 1 .leaf .leaf)) .leaf)) (.cut 0 .leaf .leaf))) (.cut 0 .leaf .leaf)) (.cut 1 (.cut 0 (.cut 1 (.cut 0 (.cut 1 (.cut 0 (.cut 1 .leaf .leaf) (.cut 1 .leaf .leaf)) .leaf) (.cut 1 (.cut 0 (.cut 1 .leaf .leaf) .leaf) .leaf)) (.cut 0 .leaf .leaf)) (.cut 1 (.cut 0 (.cut 1 (.cut 0 .leaf .leaf) .leaf) (.cut 1 (.cut 0 .leaf .leaf) .leaf)) (.cut 0 .leaf .leaf))) (.cut 0 .leaf .leaf))))
theorem h41 : check par t41 [8781824, 131072] [131072, 131072] st = true := by decide +kernel
def t42 : Tree := (.ref (.cut 0 .leaf .leaf))
theorem h42 : check par t42 [8781824, 393216] [131072, 131072] st = true := by decide +kernel
def t43 : Tree := (.ref (.cut 0 .leaf .leaf))
theorem h43 : check par t43 [8650752, 786432] [262144, 262144] st = true := by decide +kernel
def t44 : Tree := (.ref (.cut 1 (.cut 0 (.cut 1 (.cut 0 (.cut 1 (.cut 0 (.cut 1 (.cut 0 (.cut 1 .leaf .leaf) (.cut 1 .leaf .leaf)) .leaf) (.cut 1 (.cut 0 (.cut 1 .leaf .leaf) .leaf) .leaf)) (.cut 0 .leaf .leaf)) (.cut 1 (.cut 0 (.cut 1 (.cut 0 .leaf .leaf) .leaf) (.cut 1 (.cut 0 .leaf .leaf) .leaf)) (.cut 0 .leaf .leaf))) (.cut 0 .leaf .leaf)) (.cut 1 (.cut 0 (.cut 1 (.cut 0 (.cut 1 .leaf .leaf) (.cut 1 .leaf .leaf)) .leaf) (.cut 1 (.cut 0 .leaf .leaf) .leaf)) (.cut 0 .leaf .leaf))) (.cut 0 .leaf .leaf)))
theorem h44 : check par t44 [9175040, 524288] [262144, 524288] st = true := by decide +kernel
def t45 : Tree := (.ref (.cut 0 .leaf .leaf))
theorem h45 : check par t45 [8912896, 1572864] [524288, 524288] st = true := by decide +kernel
def t46 : Tree := (.ref (.cut 1 (.cut 0 (.cut 1 (.cut 0 (.cut 1 (.cut 0 (.cut 1 .leaf .leaf) (.cut 1 .leaf .leaf)) (.cut 0 .leaf .leaf)) (.cut 1 (.cut 0 .leaf .leaf) .leaf)) (.cut 0 .leaf .leaf)) (.cut 1 (.cut 0 (.cut 1 .leaf .leaf) .leaf) (.cut 0 .leaf .leaf))) (.cut 0 .leaf .leaf)))
theorem h46 : check par t46 [9961472, 1048576] [524288, 1048576] st = true := by decide +kernel
def t47 : Tree := (.ref (.cut 0 (.cut 1 .leaf .leaf) (.cut 1 .leaf .leaf)))
theorem h47 : check par t47 [9437184, 3145728] [1048576, 1048576] st = true := by decide +kernel
def t48 : Tree := (.ref (.cut 1 (.cut 0 (.cut 1 (.cut 0 (.cut 1 (.cut 0 .leaf .leaf) .leaf) .leaf) (.cut 0 .leaf .leaf)) (.cut 1 (.cut 0 .leaf .leaf) (.cut 0 .leaf .leaf))) (.cut 0 (.cut 1 .leaf .leaf) (.cut 1 .leaf .leaf))))
theorem h48 : check par t48 [11534336, 2097152] [1048576, 2097152] st = true := by decide +kernel
def t49 : Tree := (.ref (.cut 0 (.cut 1 (.cut 0 (.cut 1 .leaf .leaf) .leaf) (.cut 0 (.cut 1 (.cut 0 (.cut 1 .leaf .leaf) .leaf) (.cut 0 (.cut 1 (.cut 0 .leaf .leaf) (.cut 0 (.cut 1 (.cut 0 .leaf .leaf) (.cut 0 (.cut 1 (.cut 0 .leaf .leaf) (.cut 0 (.cut 1 (.cut 0 .leaf .leaf) (.cut 0 (.cut 1 (.cut 0 .leaf .leaf) (.cut 0 (.cut 1 (.cut 0 .leaf .leaf) (.cut 0 (.cut 1 .leaf (.cut 0 .leaf .leaf)) (.cut 1 .leaf .leaf))) (.cut 1 .leaf (.cut 0 .leaf .out)))) (.cut 1 .leaf (.cut 0 .leaf .out)))) (.cut 1 .leaf (.cut 0 .leaf .out)))) (.cut 1 .leaf (.cut 0 .leaf .out)))) (.cut 1 .leaf (.cut 0 .leaf .out)))) (.cut 1 .leaf (.cut 0 .leaf .out)))) (.cut 1 .leaf (.cut 0 (.cut 1 .leaf .out) .out)))) (.cut 1 (.cut 0 .leaf .leaf) (.cut 0 (.cut 1 .leaf .out) .out))))
theorem h49 : check par t49 [10485760, 6291456] [2097152, 2097152] st = true := by decide +kernel
def t50 : Tree := (.ref (.cut 1 (.cut 0 (.cut 1 (.cut 0 (.cut 1 .leaf .leaf) (.cut 1 .leaf .leaf)) (.cut 0 (.cut 1 .leaf .leaf) (.cut 1 .leaf .leaf))) (.cut 1 (.cut 0 .leaf .leaf) (.cut 0 (.cut 1 .leaf .out) .out))) (.cut 0 (.cut 1 (.cut 0 (.cut 1 .leaf .out) .out) .out) .out)))
theorem h50 : check par t50 [14680064, 4194304] [2097152, 4194304] st = true := by decide +kernel
def t51 : Tree := (.ref (.cut 0 (.cut 1 (.cut 0 (.cut 1 (.cut 0 (.cut 1 (.cut 0 (.cut 1 (.cut 0 (.cut 1 (.cut 0 (.cut 1 (.cut 0 (.cut 1 (.cut 0 (.cut 1 (.cut 0 (.cut 1 (.cut 0 (.cut 1 .leaf .out) .out) .out) .out) .out) .out) .out) .out) .out) .out) .out) .out) .out) .out) .out) .out) .out) .out) .out) .out))
theorem h51 : check par t51 [12582912, 12582912] [4194304, 4194304] st = true := by decide +kernel
end FastNoise.NormCheck.Simplex2
