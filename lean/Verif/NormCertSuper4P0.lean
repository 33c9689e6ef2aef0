import Verif.NormCertSuper4
/-! Generated by tools/normcert/gen.py: a certificate for the checker `Verif.NormCheck`. -/
namespace FastNoise.NormCheck.Super4
open FastNoise.RangeCheck (Tree)
set_option maxRecDepth 1000000
def t0 : Tree := (.ref (.cut 2 (.ref (.cut 3 .leaf (.ref (.cut 0 (.ref (.cut 1 .leaf .leaf)) .leaf)))) (.ref (.cut 3 (.ref (.cut 0 (.ref (.cut 1 .out .leaf)) .leaf)) (.ref (.cut 0 (.cut 1 .out .leaf) (.ref (.cut 1 .out .leaf))))))))
theorem h0 : check par t0 [1048576, 1048576, 2097152, 2097152] [1048576, 1048576, 2097152, 2097152] st = true := by decide +kernel
def t1 : Tree := (.ref (.cut 2 (.ref (.cut 3 (.ref (.cut 0 .out .leaf)) (.ref (.cut 0 .out (.ref (.cut 1 .leaf .out)))))) (.ref (.cut 3 (.ref (.cut 0 .out (.ref (.cut 1 .leaf .out)))) (.ref (.cut 0 .out (.cut 1 (.ref (.cut 2 .leaf .leaf)) .out)))))))
theorem h1 : check par t1 [1048576, 3145728, 2097152, 2097152] [1048576, 1048576, 2097152, 2097152] st = true := by decide +kernel
def t2 : Tree := (.ref (.cut 2 (.ref (.cut 3 (.ref (.cut 0 .leaf (.cut 1 .leaf .leaf))) (.ref (.cut 0 (.cut 1 .leaf .leaf) (.cut 1 .leaf .leaf))))) (.ref (.cut 3 (.ref (.cut 0 (.cut 1 .out .leaf) (.cut 1 .out .leaf))) (.ref (.cut 0 (.cut 1 .out (.ref (.cut 2 .leaf .out))) (.ref (.cut 1 .out (.ref (.cut 2 .leaf .out))))))))))
theorem h2 : check par t2 [3145728, 1048576, 2097152, 2097152] [1048576, 1048576, 2097152, 2097152] st = true := by decide +kernel
def t3 : Tree := (.ref (.cut 3 (.ref (.cut 0 (.cut 1 .leaf .leaf) (.cut 1 .leaf .leaf))) (.ref (.cut 0 (.cut 1 .leaf (.ref (.cut 2 .out .leaf))) (.ref (.cut 1 (.ref (.cut 2 .out .leaf)) (.ref (.cut 2 .out .leaf))))))))
theorem h3 : check par t3 [3145728, 3145728, 1048576, 2097152] [1048576, 1048576, 1048576, 2097152] st = true := by decide +kernel
def t4 : Tree := (.ref (.cut 3 (.ref (.cut 0 (.cut 1 .leaf (.ref (.cut 2 .leaf .leaf))) (.ref (.cut 1 (.ref (.cut 2 .leaf .leaf)) (.ref (.cut 2 .leaf .leaf)))))) (.ref (.cut 0 .leaf (.ref (.cut 1 .leaf .leaf))))))
theorem h4 : check par t4 [3145728, 3145728, 3145728, 2097152] [1048576, 1048576, 1048576, 2097152] st = true := by decide +kernel
def t5 : Tree := (.ref (.cut 1 (.ref (.cut 2 .out (.ref (.cut 3 (.cut 0 (.ref (.cut 1 .out .leaf)) (.ref (.cut 1 .out .leaf))) .out)))) (.ref (.cut 2 .out (.ref (.cut 3 (.ref (.cut 0 .out (.cut 1 .leaf .out))) .out))))))
theorem h5 : check par t5 [1048576, 2097152, 2097152, 6291456] [1048576, 2097152, 2097152, 2097152] st = true := by decide +kernel
def t6 : Tree := (.ref (.cut 1 (.ref (.cut 2 .out (.ref (.cut 3 (.ref (.cut 0 (.cut 1 .out .leaf) .leaf)) .out)))) (.ref (.cut 2 .out (.ref (.cut 3 (.cut 0 (.cut 1 (.ref (.cut 2 .out .leaf)) (.ref (.cut 2 .out .leaf))) (.ref (.cut 1 (.ref (.cut 2 .out .leaf)) (.ref (.cut 2 .out .leaf))))) .out))))))
theorem h6 : check par t6 [3145728, 2097152, 2097152, 6291456] [1048576, 2097152, 2097152, 2097152] st = true := by decide +kernel
def t7 : Tree := (.ref (.cut 0 (.ref (.cut 1 .out (.ref (.cut 2 (.ref (.cut 3 (.ref (.cut 0 .out (.ref (.cut 1 .out .out)))) (.ref (.cut 0 .out (.cut 1 .out .out))))) .out)))) (.ref (.cut 1 .out (.ref (.cut 2 (.ref (.cut 3 (.ref (.cut 0 (.cut 1 .out .leaf) .leaf)) (.cut 0 (.cut 1 .out (.ref (.cut 2 .leaf .out))) (.ref (.cut 1 .out (.ref (.cut 2 .leaf .out))))))) .out))))))
theorem h7 : check par t7 [2097152, 2097152, 6291456, 2097152] [2097152, 2097152, 2097152, 2097152] st = true := by decide +kernel
def t8 : Tree := (.ref (.cut 0 (.ref (.cut 1 .out (.ref (.cut 2 (.ref (.cut 3 (.cut 0 .out (.cut 1 .out .out)) (.ref (.cut 0 .out (.cut 1 .out .out))))) .out)))) (.cut 1 .out (.ref (.cut 2 (.ref (.cut 3 (.ref (.cut 0 (.ref (.cut 1 .out .leaf)) (.ref (.cut 1 .out .leaf)))) (.ref (.cut 0 (.ref (.cut 1 .out (.ref (.cut 2 .out .out)))) (.ref (.cut 1 .out (.cut 2 .out .out))))))) .out)))))
theorem h8 : check par t8 [2097152, 2097152, 6291456, 6291456] [2097152, 2097152, 2097152, 2097152] st = true := by decide +kernel
def t9 : Tree := (.ref (.cut 3 (.ref (.cut 0 .out (.ref (.cut 1 (.ref (.cut 2 (.ref (.cut 3 (.ref (.cut 0 .out (.ref (.cut 1 .leaf .out)))) (.ref (.cut 0 .out .leaf)))) (.ref (.cut 3 (.ref (.cut 0 .out .leaf)) (.cut 0 .out (.ref (.cut 1 .leaf .out))))))) .out)))) (.ref (.cut 0 .out (.cut 1 (.cut 2 .out (.ref (.cut 3 (.ref (.cut 0 .out (.ref (.cut 1 .leaf .out)))) .out))) .out)))))
theorem h9 : check par t9 [2097152, 6291456, 2097152, 4194304] [2097152, 2097152, 2097152, 4194304] st = true := by decide +kernel
def t10 : Tree := (.ref (.cut 0 .out (.cut 1 (.cut 2 (.ref (.cut 3 (.ref (.cut 0 .out (.ref (.cut 1 .leaf .out)))) (.cut 0 .out (.ref (.cut 1 .leaf .out))))) (.ref (.cut 3 (.ref (.cut 0 .out (.ref (.cut 1 .out .out)))) (.cut 0 .out (.ref (.cut 1 .out .out)))))) .out)))
theorem h10 : check par t10 [2097152, 6291456, 6291456, 2097152] [2097152, 2097152, 2097152, 2097152] st = true := by decide +kernel
def t11 : Tree := (.ref (.cut 0 .out (.cut 1 (.ref (.cut 2 (.ref (.cut 3 (.ref (.cut 0 .out (.cut 1 (.ref (.cut 2 .leaf .leaf)) .out))) (.ref (.cut 0 .out (.ref (.cut 1 (.ref (.cut 2 .out .leaf)) .out)))))) (.ref (.cut 3 (.cut 0 .out (.ref (.cut 1 .out .out))) (.ref (.cut 0 .out (.cut 1 .out .out))))))) .out)))
theorem h11 : check par t11 [2097152, 6291456, 6291456, 6291456] [2097152, 2097152, 2097152, 2097152] st = true := by decide +kernel
def t12 : Tree := (.ref (.cut 3 (.ref (.cut 0 (.cut 1 (.ref (.cut 2 .leaf .leaf)) (.ref (.cut 2 .leaf .leaf))) (.cut 1 (.ref (.cut 2 (.ref (.cut 3 .leaf .leaf)) .leaf)) (.ref (.cut 2 .leaf .leaf))))) (.ref (.cut 0 (.ref (.cut 1 .leaf (.cut 2 .out .leaf))) (.ref (.cut 1 (.ref (.cut 2 .out .leaf)) .leaf))))))
theorem h12 : check par t12 [5242880, 1048576, 1048576, 2097152] [1048576, 1048576, 1048576, 2097152] st = true := by decide +kernel
def t13 : Tree := (.ref (.cut 3 (.ref (.cut 0 (.ref (.cut 1 .out (.cut 2 .leaf .out))) (.ref (.cut 1 .out .leaf)))) (.ref (.cut 0 (.cut 1 .out .leaf) (.cut 1 .out .leaf)))))
theorem h13 : check par t13 [5242880, 1048576, 3145728, 2097152] [1048576, 1048576, 1048576, 2097152] st = true := by decide +kernel
def t14 : Tree := (.ref (.cut 3 (.ref (.cut 0 (.ref (.cut 1 (.cut 2 .leaf .leaf) .leaf)) (.ref (.cut 1 (.ref (.cut 2 .leaf .leaf)) .leaf)))) (.ref (.cut 0 (.cut 1 .leaf .leaf) (.cut 1 .leaf .leaf)))))
theorem h14 : check par t14 [5242880, 3145728, 1048576, 2097152] [1048576, 1048576, 1048576, 2097152] st = true := by decide +kernel
def t15 : Tree := (.ref (.cut 3 (.ref (.cut 0 (.cut 1 .leaf .leaf) (.cut 1 .leaf .leaf))) (.cut 0 (.cut 1 (.ref (.cut 2 .leaf .leaf)) .leaf) (.cut 1 (.cut 2 .leaf .leaf) (.ref (.cut 2 .leaf .leaf))))))
theorem h15 : check par t15 [5242880, 3145728, 3145728, 2097152] [1048576, 1048576, 1048576, 2097152] st = true := by decide +kernel
def t16 : Tree := (.ref (.cut 0 (.ref (.cut 1 (.ref (.cut 2 .leaf .leaf)) (.ref (.cut 2 .leaf .leaf)))) (.cut 1 (.ref (.cut 2 (.ref (.cut 3 .leaf .leaf)) (.ref (.cut 3 .leaf .leaf)))) (.ref (.cut 2 (.ref (.cut 3 .leaf .leaf)) .leaf)))))
theorem h16 : check par t16 [7340032, 1048576, 1048576, 1048576] [1048576, 1048576, 1048576, 1048576] st = true := by decide +kernel
def t17 : Tree := (.ref (.cut 0 (.cut 1 (.ref (.cut 2 .out .leaf)) (.ref (.cut 2 .out .leaf))) (.ref (.cut 1 (.cut 2 .out (.ref (.cut 3 .leaf .out))) (.ref (.cut 2 .out (.cut 3 .leaf .out)))))))
theorem h17 : check par t17 [7340032, 1048576, 1048576, 3145728] [1048576, 1048576, 1048576, 1048576] st = true := by decide +kernel
def t18 : Tree := (.ref (.cut 3 (.ref (.cut 0 (.cut 1 .out (.ref (.cut 2 .leaf .out))) (.ref (.cut 1 .out (.ref (.cut 2 .leaf .out)))))) (.ref (.cut 0 (.ref (.cut 1 .out (.cut 2 .leaf .out))) (.cut 1 .out (.cut 2 (.ref (.cut 3 .leaf .leaf)) .out))))))
theorem h18 : check par t18 [7340032, 1048576, 3145728, 2097152] [1048576, 1048576, 1048576, 2097152] st = true := by decide +kernel
def t19 : Tree := (.ref (.cut 3 (.ref (.cut 0 (.cut 1 (.ref (.cut 2 .leaf .leaf)) (.ref (.cut 2 .leaf .leaf))) (.ref (.cut 1 (.ref (.cut 2 (.cut 3 .leaf .leaf) .leaf)) (.cut 2 .leaf .leaf))))) (.ref (.cut 0 (.ref (.cut 1 (.ref (.cut 2 .out .leaf)) (.ref (.cut 2 .out .leaf)))) (.cut 1 (.ref (.cut 2 .out (.cut 3 .leaf .out))) (.ref (.cut 2 .out (.cut 3 .leaf .out))))))))
theorem h19 : check par t19 [7340032, 3145728, 1048576, 2097152] [1048576, 1048576, 1048576, 2097152] st = true := by decide +kernel
def t20 : Tree := (.ref (.cut 3 (.ref (.cut 0 (.ref (.cut 1 (.ref (.cut 2 .leaf .leaf)) (.ref (.cut 2 .leaf .leaf)))) (.cut 1 (.ref (.cut 2 (.ref (.cut 3 .leaf .leaf)) .leaf)) (.ref (.cut 2 .leaf .leaf))))) (.cut 0 (.cut 1 (.ref (.cut 2 .leaf .leaf)) (.ref (.cut 2 .leaf .leaf))) (.cut 1 (.ref (.cut 2 (.ref (.cut 3 .leaf .leaf)) (.ref (.cut 3 .leaf .leaf)))) (.ref (.cut 2 (.ref (.cut 3 .leaf .leaf)) .leaf))))))
theorem h20 : check par t20 [7340032, 3145728, 3145728, 2097152] [1048576, 1048576, 1048576, 2097152] st = true := by decide +kernel
def t21 : Tree := (.ref (.cut 1 (.ref (.cut 2 .out (.ref (.cut 3 (.cut 0 (.cut 1 .out (.ref (.cut 2 .out .out))) (.cut 1 .out (.ref (.cut 2 .out .out)))) .out)))) (.cut 2 .out (.ref (.cut 3 (.ref (.cut 0 (.ref (.cut 1 .leaf .leaf)) (.ref (.cut 1 .leaf .leaf)))) .out)))))
theorem h21 : check par t21 [5242880, 2097152, 2097152, 6291456] [1048576, 2097152, 2097152, 2097152] st = true := by decide +kernel
def t22 : Tree := (.ref (.cut 1 (.ref (.cut 2 .out (.ref (.cut 3 (.ref (.cut 0 (.cut 1 .out (.cut 2 .out .out)) (.cut 1 .out (.ref (.cut 2 .out .out))))) .out)))) (.cut 2 .out (.ref (.cut 3 (.cut 0 (.ref (.cut 1 (.ref (.cut 2 .out .leaf)) (.ref (.cut 2 .out .leaf)))) (.ref (.cut 1 (.cut 2 .out .leaf) (.cut 2 .out .leaf)))) .out)))))
theorem h22 : check par t22 [7340032, 2097152, 2097152, 6291456] [1048576, 2097152, 2097152, 2097152] st = true := by decide +kernel
def t23 : Tree := (.ref (.cut 1 .out (.cut 2 (.ref (.cut 3 (.ref (.cut 0 (.cut 1 .out .leaf) (.cut 1 .out .leaf))) (.cut 0 (.ref (.cut 1 .out .leaf)) (.ref (.cut 1 .out .leaf))))) .out)))
theorem h23 : check par t23 [5242880, 2097152, 6291456, 2097152] [1048576, 2097152, 2097152, 2097152] st = true := by decide +kernel
def t24 : Tree := (.ref (.cut 1 .out (.cut 2 (.ref (.cut 3 (.ref (.cut 0 (.cut 1 .out .leaf) (.cut 1 .out (.ref (.cut 2 .leaf .out))))) (.cut 0 (.ref (.cut 1 .out (.ref (.cut 2 .leaf .out)))) (.ref (.cut 1 .out (.cut 2 .leaf .out)))))) .out)))
theorem h24 : check par t24 [7340032, 2097152, 6291456, 2097152] [1048576, 2097152, 2097152, 2097152] st = true := by decide +kernel
def t25 : Tree := (.ref (.cut 1 .out (.ref (.cut 2 (.ref (.cut 3 (.ref (.cut 0 (.ref (.cut 1 .out (.cut 2 .leaf .out))) (.ref (.cut 1 .out (.cut 2 .leaf .out))))) (.ref (.cut 0 (.ref (.cut 1 .out (.ref (.cut 2 .out .out)))) (.ref (.cut 1 .out (.ref (.cut 2 .out .out)))))))) .out))))
theorem h25 : check par t25 [5242880, 2097152, 6291456, 6291456] [1048576, 2097152, 2097152, 2097152] st = true := by decide +kernel
def t26 : Tree := (.ref (.cut 1 .out (.cut 2 (.ref (.cut 3 (.cut 0 (.ref (.cut 1 .out (.ref (.cut 2 .leaf .out)))) (.ref (.cut 1 .out .leaf))) (.ref (.cut 0 (.cut 1 .out (.cut 2 .out .out)) (.cut 1 .out (.cut 2 .out .out)))))) .out)))
theorem h26 : check par t26 [7340032, 2097152, 6291456, 6291456] [1048576, 2097152, 2097152, 2097152] st = true := by decide +kernel
def t27 : Tree := (.ref (.cut 2 (.ref (.cut 3 (.ref (.cut 0 .leaf .leaf)) (.ref (.cut 0 (.cut 1 (.ref (.cut 2 .out .leaf)) (.ref (.cut 2 .out .leaf))) (.cut 1 (.ref (.cut 2 .out .leaf)) .leaf))))) (.ref (.cut 3 (.ref (.cut 0 (.cut 1 (.ref (.cut 2 .leaf .leaf)) (.ref (.cut 2 .leaf .leaf))) (.cut 1 (.ref (.cut 2 .leaf .leaf)) .leaf))) (.cut 0 (.ref (.cut 1 .leaf .leaf)) (.ref (.cut 1 .leaf .leaf)))))))
theorem h27 : check par t27 [5242880, 5242880, 2097152, 2097152] [1048576, 1048576, 2097152, 2097152] st = true := by decide +kernel
def t28 : Tree := (.ref (.cut 2 (.ref (.cut 3 (.ref (.cut 0 .out (.ref (.cut 1 .leaf .out)))) (.ref (.cut 0 .out (.cut 1 (.cut 2 .out .leaf) .out))))) (.ref (.cut 3 (.ref (.cut 0 .out (.cut 1 (.cut 2 .leaf .leaf) .out))) (.cut 0 .out (.ref (.cut 1 (.ref (.cut 2 .leaf .leaf)) .out)))))))
theorem h28 : check par t28 [5242880, 7340032, 2097152, 2097152] [1048576, 1048576, 2097152, 2097152] st = true := by decide +kernel
end FastNoise.NormCheck.Super4
