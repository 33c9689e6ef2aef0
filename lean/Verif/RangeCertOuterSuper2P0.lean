import Verif.RangeCertOuterSuper2
/-! Generated by tools/rangecert/gen.py: a certificate for the checker `Verif.RangeCheck`. -/
namespace FastNoise.RangeCheck.OuterSuper2
set_option maxRecDepth 1000000
def t0 : Tree := (.ref (.cut 1 (.ref (.cut 0 (.cut 1 (.cut 0 (.cut 1 (.ref .leaf) (.ref .leaf)) (.ref (.cut 1 (.ref .leaf) (.ref .leaf)))) (.ref (.cut 0 .out (.cut 1 (.cut 0 .out (.ref .leaf)) .out)))) (.ref (.cut 1 (.ref (.cut 0 (.cut 1 (.ref (.cut 0 .leaf .leaf)) (.cut 0 (.ref .leaf) (.ref .leaf))) (.cut 1 (.ref (.cut 0 (.cut 1 .leaf .leaf) (.cut 1 (.cut 0 .leaf .leaf) (.cut 0 .leaf .leaf)))) (.cut 0 (.cut 1 (.ref .leaf) (.ref .leaf)) (.ref (.cut 1 (.cut 0 (.ref .leaf) (.ref .leaf)) (.ref (.cut 0 .leaf .leaf)))))))) (.ref (.cut 0 (.cut 1 (.cut 0 (.ref .leaf) (.ref .leaf)) (.ref (.cut 0 .out (.cut 1 .leaf .out)))) (.cut 1 (.ref (.cut 0 (.cut 1 .leaf .leaf) (.cut 1 (.cut 0 .leaf (.ref .leaf)) (.cut 0 .leaf .leaf)))) (.cut 0 (.cut 1 (.ref .leaf) (.ref (.cut 0 .out .leaf))) (.cut 1 (.ref (.cut 0 .leaf .leaf)) (.cut 0 (.ref .leaf) (.ref .leaf))))))))))) (.ref (.cut 0 .out (.ref (.cut 1 (.ref (.cut 0 .out (.cut 1 (.ref (.cut 0 .out (.cut 1 (.cut 0 .out .leaf) .out))) .out))) .out))))))
theorem h0 : check par t0 [16384, 32768] [16384, 32768] st = true := by decide +kernel
def t1 : Tree := (.ref (.cut 0 (.cut 1 (.cut 0 .leaf (.ref .leaf)) (.cut 0 (.ref (.cut 1 .leaf .leaf)) (.cut 1 .leaf .leaf))) (.ref (.cut 1 (.cut 0 .leaf .leaf) (.cut 0 (.cut 1 .leaf .leaf) (.cut 1 .leaf .leaf))))))
theorem h1 : check par t1 [36864, 4096] [4096, 4096] st = true := by decide +kernel
def t2 : Tree := (.ref (.cut 1 (.cut 0 (.cut 1 .leaf (.ref .leaf)) (.cut 1 (.cut 0 .leaf .leaf) (.ref (.cut 0 .leaf .leaf)))) (.ref (.cut 0 (.cut 1 .leaf .leaf) (.cut 1 (.cut 0 .leaf .leaf) (.cut 0 .leaf .leaf))))))
theorem h2 : check par t2 [34816, 12288] [2048, 4096] st = true := by decide +kernel
def t3 : Tree := (.ref (.cut 0 (.cut 1 (.cut 0 .leaf (.ref .leaf)) (.ref (.cut 0 (.cut 1 (.ref .leaf) (.ref .leaf)) (.cut 1 .leaf .leaf)))) (.ref (.cut 1 (.cut 0 .leaf .leaf) (.ref (.cut 0 (.cut 1 .leaf .leaf) (.cut 1 .leaf .leaf)))))))
theorem h3 : check par t3 [38912, 10240] [2048, 2048] st = true := by decide +kernel
def t4 : Tree := (.ref (.cut 1 (.cut 0 (.cut 1 (.ref .leaf) (.ref .leaf)) (.cut 1 (.cut 0 (.ref .leaf) (.ref .leaf)) (.cut 0 (.ref .leaf) (.cut 1 (.ref .leaf) (.ref .leaf))))) (.cut 0 (.cut 1 (.ref .leaf) (.ref .leaf)) (.cut 1 (.cut 0 (.ref .leaf) (.cut 1 (.ref .leaf) (.ref .leaf))) (.cut 0 (.ref .leaf) (.cut 1 (.ref .leaf) (.ref .leaf)))))))
theorem h4 : check par t4 [37888, 14336] [1024, 2048] st = true := by decide +kernel
def t5 : Tree := (.ref (.cut 0 (.cut 1 (.cut 0 .leaf (.ref .leaf)) (.cut 0 (.cut 1 (.ref .leaf) (.ref .leaf)) (.cut 1 .leaf .leaf))) (.cut 1 (.cut 0 (.ref .leaf) (.ref .leaf)) (.cut 0 (.cut 1 (.ref .leaf) (.ref .leaf)) (.cut 1 (.ref .leaf) (.ref .leaf))))))
theorem h5 : check par t5 [39936, 13312] [1024, 1024] st = true := by decide +kernel
def t6 : Tree := (.ref (.cut 1 (.cut 0 (.cut 1 (.ref .leaf) (.cut 0 (.ref .leaf) (.ref .leaf))) (.cut 1 (.cut 0 (.ref .leaf) (.ref .leaf)) (.cut 0 (.cut 1 (.ref .leaf) (.ref .leaf)) (.cut 1 (.ref .leaf) (.ref .leaf))))) (.cut 0 (.cut 1 (.cut 0 (.ref .leaf) (.ref .leaf)) (.cut 0 (.ref .leaf) (.ref .leaf))) (.cut 1 (.cut 0 (.cut 1 (.ref .leaf) (.ref .leaf)) (.cut 1 (.ref .leaf) (.cut 0 (.ref .leaf) (.ref .leaf)))) (.cut 0 (.cut 1 (.ref .leaf) (.ref .leaf)) (.cut 1 (.cut 0 (.ref .leaf) (.ref .leaf)) (.cut 0 (.ref .leaf) (.ref .leaf))))))))
theorem h6 : check par t6 [39424, 15360] [512, 1024] st = true := by decide +kernel
def t7 : Tree := (.ref (.cut 0 (.cut 1 (.cut 0 .leaf (.ref .leaf)) (.cut 0 (.cut 1 (.ref .leaf) (.ref .leaf)) (.cut 1 .leaf .leaf))) (.cut 1 (.cut 0 (.ref .leaf) (.ref .leaf)) (.cut 0 (.ref .leaf) (.cut 1 (.ref .leaf) (.ref .leaf))))))
theorem h7 : check par t7 [40448, 14848] [512, 512] st = true := by decide +kernel
def t8 : Tree := (.ref (.cut 1 (.cut 0 (.cut 1 (.ref .leaf) (.cut 0 (.ref .leaf) (.ref .leaf))) (.cut 1 (.ref .leaf) (.cut 0 (.ref .leaf) (.ref .leaf)))) (.cut 0 (.cut 1 (.cut 0 (.cut 1 (.ref .leaf) (.ref .leaf)) (.cut 1 (.ref .leaf) (.cut 0 (.ref .leaf) (.ref .leaf)))) (.cut 0 (.cut 1 (.ref .leaf) (.ref .leaf)) (.cut 1 (.cut 0 (.ref .leaf) (.ref .leaf)) (.cut 0 (.ref .leaf) (.cut 1 (.ref .leaf) (.ref .leaf)))))) (.cut 1 (.cut 0 (.cut 1 (.ref .leaf) (.cut 0 (.ref .leaf) (.ref .leaf))) (.cut 1 (.ref .leaf) (.ref .leaf))) (.cut 0 (.cut 1 (.cut 0 (.cut 1 (.ref .leaf) (.ref .leaf)) (.cut 1 (.ref .leaf) (.ref .leaf))) (.cut 0 (.cut 1 (.ref .leaf) (.cut 0 (.ref .leaf) (.ref .leaf))) (.cut 1 (.ref .leaf) (.cut 0 (.ref .leaf) (.ref .leaf))))) (.cut 1 (.cut 0 (.cut 1 (.ref .leaf) (.ref .leaf)) (.ref .leaf)) (.cut 0 (.cut 1 (.ref .leaf) (.cut 0 (.ref .leaf) (.ref .leaf))) (.cut 1 (.ref .leaf) (.cut 0 (.ref .leaf) (.ref .leaf))))))))))
theorem h8 : check par t8 [40192, 15872] [256, 512] st = true := by decide +kernel
def t9 : Tree := (.ref (.cut 1 (.cut 0 (.cut 1 .leaf .leaf) (.cut 1 (.ref .leaf) (.ref .leaf))) (.cut 0 (.cut 1 (.cut 0 (.cut 1 (.ref .leaf) (.ref .leaf)) (.ref .leaf)) (.cut 0 (.cut 1 (.ref .leaf) (.cut 0 (.cut 1 (.ref .leaf) (.ref .leaf)) (.ref .leaf))) (.cut 1 (.ref .leaf) (.ref .leaf)))) (.cut 1 .leaf (.cut 0 (.ref .leaf) .leaf)))))
theorem h9 : check par t9 [40704, 15872] [256, 512] st = true := by decide +kernel
def t10 : Tree := (.ref (.cut 0 (.cut 1 .leaf (.cut 0 .leaf .leaf)) (.cut 1 .leaf .leaf)))
theorem h10 : check par t10 [45056, 4096] [4096, 4096] st = true := by decide +kernel
def t11 : Tree := (.ref (.cut 0 (.cut 1 .leaf (.ref (.cut 0 (.cut 1 .leaf .leaf) .leaf))) (.cut 1 .leaf (.ref .leaf))))
theorem h11 : check par t11 [43008, 10240] [2048, 2048] st = true := by decide +kernel
def t12 : Tree := (.ref (.cut 0 (.cut 1 .leaf (.cut 0 (.cut 1 .leaf .leaf) .leaf)) (.cut 1 .leaf (.cut 0 .leaf .leaf))))
theorem h12 : check par t12 [41984, 13312] [1024, 1024] st = true := by decide +kernel
def t13 : Tree := (.ref (.cut 0 (.cut 1 (.cut 0 .leaf .leaf) (.cut 0 (.cut 1 .leaf .leaf) (.cut 1 .leaf .leaf))) (.cut 1 .leaf (.cut 0 .leaf .leaf))))
theorem h13 : check par t13 [41472, 14848] [512, 512] st = true := by decide +kernel
def t14 : Tree := (.ref (.cut 1 (.cut 0 (.cut 1 .leaf (.cut 0 .leaf .leaf)) (.cut 1 (.cut 0 .leaf .leaf) (.cut 0 .leaf (.cut 1 .leaf .leaf)))) (.cut 0 (.cut 1 (.cut 0 .leaf (.cut 1 .leaf .leaf)) (.cut 0 .leaf (.cut 1 .leaf .leaf))) (.cut 1 (.cut 0 (.cut 1 .leaf .leaf) (.cut 1 .leaf (.cut 0 .leaf .leaf))) (.cut 0 (.cut 1 .leaf (.cut 0 .leaf .leaf)) (.cut 1 (.cut 0 .leaf (.cut 1 .leaf .leaf)) (.cut 0 .leaf (.cut 1 .leaf .leaf))))))))
theorem h14 : check par t14 [41216, 15872] [256, 512] st = true := by decide +kernel
def t15 : Tree := (.ref (.cut 1 (.cut 0 (.cut 1 .leaf (.cut 0 .leaf .leaf)) (.cut 1 .leaf .leaf)) (.cut 0 (.cut 1 (.cut 0 (.cut 1 .leaf (.cut 0 .leaf .leaf)) (.cut 1 .leaf .leaf)) (.cut 0 (.cut 1 (.cut 0 (.cut 1 .leaf .leaf) (.cut 1 .leaf .leaf)) (.cut 0 (.cut 1 .leaf .leaf) (.cut 1 .leaf (.cut 0 .leaf .leaf)))) (.cut 1 (.cut 0 (.cut 1 .leaf .leaf) .leaf) (.cut 0 (.cut 1 .leaf (.cut 0 (.cut 1 .leaf .leaf) .leaf)) (.cut 1 .leaf (.cut 0 .leaf .leaf)))))) (.cut 1 (.cut 0 (.cut 1 .leaf .leaf) .leaf) (.cut 0 (.cut 1 .leaf (.cut 0 (.cut 1 .leaf .leaf) .leaf)) (.cut 1 .leaf .leaf))))))
theorem h15 : check par t15 [41728, 15872] [256, 512] st = true := by decide +kernel
def t16 : Tree := (.ref (.cut 1 (.cut 0 (.cut 1 .leaf .leaf) .leaf) (.cut 0 (.cut 1 (.cut 0 .leaf .leaf) (.cut 0 (.cut 1 .leaf (.cut 0 .leaf .leaf)) (.cut 1 .leaf .leaf))) (.cut 1 .leaf (.cut 0 .leaf .leaf)))))
theorem h16 : check par t16 [42496, 15360] [512, 1024] st = true := by decide +kernel
def t17 : Tree := (.ref (.cut 1 (.cut 0 (.cut 1 .leaf .leaf) .leaf) (.cut 0 (.cut 1 .leaf (.cut 0 (.cut 1 .leaf .leaf) .leaf)) (.cut 1 .leaf .leaf))))
theorem h17 : check par t17 [44032, 14336] [1024, 2048] st = true := by decide +kernel
def t18 : Tree := (.ref (.cut 1 (.cut 0 .leaf .leaf) (.ref (.cut 0 (.cut 1 .leaf (.cut 0 .leaf .leaf)) (.cut 1 .leaf .leaf)))))
theorem h18 : check par t18 [47104, 12288] [2048, 4096] st = true := by decide +kernel
def t19 : Tree := (.ref (.cut 1 (.ref (.cut 0 (.cut 1 .leaf (.ref .leaf)) (.cut 1 (.cut 0 .leaf .leaf) (.cut 0 (.ref .leaf) (.ref .leaf))))) (.cut 0 (.cut 1 (.ref .leaf) (.ref .leaf)) (.ref (.cut 1 (.cut 0 .leaf .leaf) (.cut 0 .leaf .leaf))))))
theorem h19 : check par t19 [34816, 20480] [2048, 4096] st = true := by decide +kernel
def t20 : Tree := (.ref (.cut 1 (.cut 0 (.cut 1 (.ref .leaf) (.ref .leaf)) (.cut 1 (.cut 0 (.ref .leaf) (.ref .leaf)) (.cut 0 (.ref .leaf) (.ref .leaf)))) (.cut 0 .leaf (.cut 1 .leaf (.ref .leaf)))))
theorem h20 : check par t20 [37888, 18432] [1024, 2048] st = true := by decide +kernel
def t21 : Tree := (.ref (.cut 1 (.cut 0 (.cut 1 (.cut 0 (.ref .leaf) (.ref .leaf)) (.ref .leaf)) (.cut 1 (.cut 0 (.cut 1 (.ref .leaf) (.ref .leaf)) (.cut 1 (.cut 0 (.ref .leaf) (.ref .leaf)) (.ref .leaf))) (.cut 0 (.ref .leaf) (.cut 1 (.ref .leaf) (.ref .leaf))))) (.cut 0 (.ref .leaf) (.cut 1 (.cut 0 (.ref .leaf) (.ref .leaf)) (.ref .leaf)))))
theorem h21 : check par t21 [39424, 17408] [512, 1024] st = true := by decide +kernel
def t22 : Tree := (.ref (.cut 1 (.cut 0 (.cut 1 (.ref .leaf) (.ref .leaf)) (.cut 1 (.cut 0 (.ref .leaf) (.cut 1 (.ref .leaf) (.ref .leaf))) (.cut 0 (.ref .leaf) (.ref .leaf)))) (.cut 0 (.ref .leaf) (.cut 1 (.ref .leaf) (.ref .leaf)))))
theorem h22 : check par t22 [40064, 16640] [128, 256] st = true := by decide +kernel
def t23 : Tree := (.ref (.cut 1 (.cut 0 (.cut 1 (.cut 0 (.ref .leaf) (.ref .leaf)) (.cut 0 (.ref .leaf) (.ref .leaf))) (.cut 1 (.cut 0 (.ref .leaf) (.cut 1 (.ref .leaf) (.ref .leaf))) (.cut 0 (.cut 1 (.ref .leaf) (.ref .leaf)) (.cut 1 (.ref .leaf) (.ref .leaf))))) (.cut 0 (.cut 1 (.ref .leaf) (.ref .leaf)) (.cut 1 (.cut 0 (.ref .leaf) (.cut 1 (.ref .leaf) (.ref .leaf))) (.cut 0 (.ref .leaf) (.cut 1 (.ref .leaf) (.ref .leaf)))))))
theorem h23 : check par t23 [40256, 16512] [64, 128] st = true := by decide +kernel
def t24 : Tree := (.ref (.cut 0 (.cut 1 (.cut 0 (.cut 1 (.ref .leaf) (.ref .leaf)) (.cut 1 (.ref .leaf) (.ref .leaf))) (.cut 0 (.cut 1 (.cut 0 (.ref .leaf) (.ref .leaf)) (.cut 0 (.ref .leaf) (.cut 1 (.ref .leaf) (.ref .leaf)))) (.cut 1 (.cut 0 (.ref .leaf) (.ref .leaf)) (.cut 0 (.cut 1 (.ref .leaf) (.ref .leaf)) (.cut 1 (.ref .leaf) (.ref .leaf)))))) (.cut 1 (.cut 0 (.cut 1 (.ref .leaf) (.ref .leaf)) (.ref .leaf)) (.cut 0 (.cut 1 (.cut 0 (.ref .leaf) (.ref .leaf)) (.cut 0 (.cut 1 (.ref .leaf) (.ref .leaf)) (.ref .leaf))) (.cut 1 (.ref .leaf) (.cut 0 (.ref .leaf) (.ref .leaf)))))))
theorem h24 : check par t24 [40384, 16448] [64, 64] st = true := by decide +kernel
def t25 : Tree := (.ref (.cut 0 (.cut 1 (.cut 0 (.cut 1 (.cut 0 (.ref .leaf) (.cut 1 (.ref .leaf) (.ref .leaf))) (.cut 0 (.ref .leaf) (.ref .leaf))) (.cut 1 (.cut 0 (.cut 1 (.ref .leaf) (.ref .leaf)) (.cut 1 (.ref .leaf) (.ref .leaf))) (.cut 0 (.cut 1 (.ref .leaf) (.ref .leaf)) (.cut 1 (.ref .leaf) (.ref .leaf))))) (.cut 0 (.cut 1 (.cut 0 (.ref .leaf) (.ref .leaf)) (.ref .leaf)) (.cut 1 (.cut 0 (.ref .leaf) (.cut 1 (.ref .leaf) (.ref .leaf))) (.cut 0 (.ref .leaf) (.ref .leaf))))) (.cut 1 (.cut 0 (.cut 1 (.cut 0 (.cut 1 (.ref .leaf) (.ref .leaf)) (.cut 1 (.ref .leaf) (.ref .leaf))) (.cut 0 (.cut 1 (.ref .leaf) (.ref .leaf)) (.cut 1 (.ref .leaf) (.ref .leaf)))) (.cut 1 (.cut 0 (.ref .leaf) (.ref .leaf)) (.cut 0 (.cut 1 (.ref .leaf) (.ref .leaf)) (.ref .leaf)))) (.cut 0 (.cut 1 (.cut 0 (.cut 1 (.ref .leaf) (.ref .leaf)) (.cut 1 (.ref .leaf) (.ref .leaf))) (.cut 0 (.ref .leaf) (.ref .leaf))) (.cut 1 (.cut 0 (.cut 1 (.ref .leaf) (.ref .leaf)) (.ref .leaf)) (.cut 0 (.ref .leaf) (.ref .leaf)))))))
theorem h25 : check par t25 [40384, 16576] [64, 64] st = true := by decide +kernel
def t26 : Tree := (.ref (.cut 0 (.cut 1 (.cut 0 (.ref .leaf) (.cut 1 (.ref .leaf) (.ref .leaf))) (.cut 0 (.ref .leaf) (.ref .leaf))) (.cut 1 (.cut 0 (.cut 1 (.cut 0 (.ref .leaf) (.cut 1 (.ref .leaf) (.ref .leaf))) (.cut 0 (.ref .leaf) (.ref .leaf))) (.cut 1 (.cut 0 (.cut 1 (.cut 0 (.ref .leaf) (.ref .leaf)) (.ref .leaf)) (.cut 1 (.ref .leaf) (.ref .leaf))) (.cut 0 (.ref .leaf) (.ref .leaf)))) (.cut 0 (.cut 1 (.ref .leaf) (.ref .leaf)) (.cut 1 (.ref .leaf) (.ref .leaf))))))
theorem h26 : check par t26 [40320, 16768] [128, 128] st = true := by decide +kernel
def t27 : Tree := (.ref (.cut 0 (.cut 1 (.cut 0 (.ref .leaf) (.ref .leaf)) (.ref .leaf)) (.cut 1 (.cut 0 (.cut 1 (.ref .leaf) (.ref .leaf)) (.cut 1 (.cut 0 (.ref .leaf) (.ref .leaf)) (.ref .leaf))) (.cut 0 (.ref .leaf) (.ref .leaf)))))
theorem h27 : check par t27 [40192, 17152] [256, 256] st = true := by decide +kernel
def t28 : Tree := (.ref (.cut 0 (.cut 1 (.cut 0 (.cut 1 (.cut 0 (.cut 1 (.ref .leaf) (.cut 0 (.cut 1 (.ref .leaf) (.ref .leaf)) (.ref .leaf))) (.cut 1 (.ref .leaf) (.ref .leaf))) (.cut 0 (.cut 1 (.cut 0 (.cut 1 (.ref .leaf) (.ref .leaf)) (.ref .leaf)) (.cut 0 (.cut 1 (.ref .leaf) (.ref .leaf)) (.cut 1 (.ref .leaf) (.ref .leaf)))) (.cut 1 (.ref .leaf) (.cut 0 (.ref .leaf) (.ref .leaf))))) (.cut 1 (.cut 0 (.ref .leaf) (.ref .leaf)) (.cut 0 (.cut 1 (.ref .leaf) (.ref .leaf)) (.ref .leaf)))) (.cut 0 (.cut 1 (.cut 0 (.cut 1 (.cut 0 (.cut 1 (.ref .leaf) (.ref .leaf)) (.ref .leaf)) (.cut 0 (.ref .leaf) (.ref .leaf))) (.cut 1 (.cut 0 (.ref .leaf) (.ref .leaf)) (.cut 0 (.ref .leaf) (.ref .leaf)))) (.cut 0 (.cut 1 (.ref .leaf) (.ref .leaf)) (.cut 1 (.ref .leaf) (.ref .leaf)))) (.cut 1 (.cut 0 (.cut 1 (.ref .leaf) (.ref .leaf)) (.ref .leaf)) (.cut 0 (.cut 1 (.ref .leaf) (.ref .leaf)) (.ref .leaf))))) (.cut 1 (.cut 0 (.cut 1 (.ref .leaf) (.ref .leaf)) (.ref .leaf)) (.cut 0 (.cut 1 (.ref .leaf) (.ref .leaf)) (.ref .leaf)))))
theorem h28 : check par t28 [40704, 16640] [256, 256] st = true := by decide +kernel
def t29 : Tree := (.ref (.cut 0 (.cut 1 (.cut 0 (.cut 1 (.cut 0 (.ref .leaf) (.ref .leaf)) (.ref .leaf)) (.cut 1 (.cut 0 (.ref .leaf) (.ref .leaf)) (.ref .leaf))) (.cut 0 (.cut 1 (.ref .leaf) (.ref .leaf)) (.cut 1 (.ref .leaf) (.ref .leaf)))) (.cut 1 (.cut 0 (.cut 1 (.ref .leaf) (.ref .leaf)) (.ref .leaf)) (.cut 0 (.ref .leaf) (.ref .leaf)))))
theorem h29 : check par t29 [40704, 17152] [256, 256] st = true := by decide +kernel
def t30 : Tree := (.ref (.cut 0 (.cut 1 (.cut 0 (.ref .leaf) (.cut 1 (.ref .leaf) (.ref .leaf))) (.cut 0 (.ref .leaf) (.ref .leaf))) (.cut 1 (.cut 0 (.cut 1 (.cut 0 (.ref .leaf) (.ref .leaf)) (.ref .leaf)) (.cut 1 (.ref .leaf) (.ref .leaf))) (.cut 0 (.ref .leaf) (.ref .leaf)))))
theorem h30 : check par t30 [40448, 17920] [512, 512] st = true := by decide +kernel
def t31 : Tree := (.ref (.cut 0 (.cut 1 (.cut 0 (.ref .leaf) (.ref .leaf)) .leaf) (.cut 1 (.cut 0 (.cut 1 (.ref .leaf) (.ref .leaf)) (.cut 1 (.ref .leaf) (.ref .leaf))) (.cut 0 .leaf .leaf))))
theorem h31 : check par t31 [39936, 19456] [1024, 1024] st = true := by decide +kernel
def t32 : Tree := (.ref (.cut 1 (.cut 0 (.cut 1 (.ref .leaf) (.ref .leaf)) (.cut 1 (.ref .leaf) (.cut 0 (.ref .leaf) (.ref .leaf)))) (.cut 0 (.cut 1 (.ref .leaf) (.ref .leaf)) (.cut 1 (.cut 0 (.ref .leaf) (.cut 1 (.ref .leaf) (.ref .leaf))) (.cut 0 (.ref .leaf) (.cut 1 (.ref .leaf) (.ref .leaf)))))))
theorem h32 : check par t32 [37888, 22528] [1024, 2048] st = true := by decide +kernel
def t33 : Tree := (.ref (.cut 0 (.cut 1 (.cut 0 (.ref .leaf) (.ref .leaf)) (.cut 0 (.cut 1 (.ref .leaf) (.ref .leaf)) (.cut 1 (.ref .leaf) (.ref .leaf)))) (.cut 1 (.cut 0 (.ref .leaf) (.ref .leaf)) (.cut 0 (.cut 1 (.ref .leaf) (.cut 0 (.ref .leaf) (.ref .leaf))) (.cut 1 (.ref .leaf) (.cut 0 (.ref .leaf) (.ref .leaf)))))))
theorem h33 : check par t33 [39936, 21504] [1024, 1024] st = true := by decide +kernel
def t34 : Tree := (.ref (.cut 1 (.cut 0 (.cut 1 (.ref .leaf) (.cut 0 (.ref .leaf) (.ref .leaf))) (.cut 1 (.cut 0 (.ref .leaf) (.cut 1 (.ref .leaf) (.ref .leaf))) (.cut 0 (.cut 1 (.ref .leaf) (.ref .leaf)) (.cut 1 (.ref .leaf) (.cut 0 (.ref .leaf) (.ref .leaf)))))) (.cut 0 (.cut 1 (.cut 0 (.ref .leaf) (.ref .leaf)) (.cut 0 (.ref .leaf) (.ref .leaf))) (.cut 1 (.cut 0 (.cut 1 (.ref .leaf) (.ref .leaf)) (.cut 1 (.cut 0 (.ref .leaf) (.ref .leaf)) (.cut 0 (.ref .leaf) (.ref .leaf)))) (.cut 0 (.cut 1 (.ref .leaf) (.ref .leaf)) (.cut 1 (.cut 0 (.ref .leaf) (.ref .leaf)) (.ref .leaf)))))))
theorem h34 : check par t34 [39424, 23552] [512, 1024] st = true := by decide +kernel
def t35 : Tree := (.ref (.cut 0 (.cut 1 (.cut 0 (.cut 1 (.ref .leaf) (.ref .leaf)) (.cut 1 (.ref .leaf) (.ref .leaf))) (.cut 0 (.cut 1 (.cut 0 (.ref .leaf) (.ref .leaf)) (.cut 0 (.cut 1 (.ref .leaf) (.ref .leaf)) (.cut 1 (.ref .leaf) (.ref .leaf)))) (.cut 1 (.cut 0 (.ref .leaf) (.ref .leaf)) (.cut 0 (.cut 1 (.ref .leaf) (.cut 0 (.ref .leaf) (.ref .leaf))) (.cut 1 (.ref .leaf) (.cut 0 (.ref .leaf) (.ref .leaf))))))) (.cut 1 (.cut 0 (.cut 1 (.ref .leaf) (.ref .leaf)) (.cut 1 (.ref .leaf) (.ref .leaf))) (.cut 0 (.cut 1 (.cut 0 (.ref .leaf) (.ref .leaf)) (.cut 0 (.cut 1 (.ref .leaf) (.cut 0 (.ref .leaf) (.ref .leaf))) (.cut 1 (.ref .leaf) (.ref .leaf)))) (.cut 1 (.ref .leaf) (.cut 0 (.cut 1 (.ref .leaf) (.ref .leaf)) (.ref .leaf)))))))
theorem h35 : check par t35 [40448, 23040] [512, 512] st = true := by decide +kernel
def t36 : Tree := (.ref (.cut 1 (.cut 0 (.cut 1 (.ref .leaf) (.ref .leaf)) (.cut 1 (.cut 0 (.ref .leaf) (.ref .leaf)) (.cut 0 (.ref .leaf) (.cut 1 (.ref .leaf) (.ref .leaf))))) (.cut 0 (.cut 1 (.ref .leaf) (.ref .leaf)) (.cut 1 (.cut 0 (.ref .leaf) (.cut 1 (.ref .leaf) (.ref .leaf))) (.cut 0 (.ref .leaf) (.ref .leaf))))))
theorem h36 : check par t36 [40064, 23808] [128, 256] st = true := by decide +kernel
def t37 : Tree := (.ref (.cut 0 (.cut 1 (.cut 0 (.cut 1 (.ref .leaf) (.ref .leaf)) (.cut 1 (.ref .leaf) (.ref .leaf))) (.cut 0 (.cut 1 (.ref .leaf) (.cut 0 (.ref .leaf) (.ref .leaf))) (.cut 1 (.cut 0 (.ref .leaf) (.ref .leaf)) (.cut 0 (.ref .leaf) (.cut 1 (.ref .leaf) (.ref .leaf)))))) (.cut 1 (.cut 0 (.cut 1 (.ref .leaf) (.ref .leaf)) (.cut 1 (.ref .leaf) (.ref .leaf))) (.cut 0 (.cut 1 (.cut 0 (.cut 1 (.ref .leaf) (.ref .leaf)) (.cut 1 (.ref .leaf) (.ref .leaf))) (.cut 0 (.cut 1 (.ref .leaf) (.cut 0 (.ref .leaf) (.ref .leaf))) (.cut 1 (.cut 0 (.ref .leaf) (.ref .leaf)) (.cut 0 (.cut 1 (.ref .leaf) (.ref .leaf)) (.cut 1 (.ref .leaf) (.ref .leaf)))))) (.cut 1 (.cut 0 (.cut 1 (.ref .leaf) (.ref .leaf)) (.cut 1 (.ref .leaf) (.ref .leaf))) (.cut 0 (.cut 1 (.cut 0 (.ref .leaf) (.ref .leaf)) (.cut 0 (.cut 1 (.ref .leaf) (.ref .leaf)) (.cut 1 (.ref .leaf) (.ref .leaf)))) (.cut 1 (.ref .leaf) (.cut 0 (.ref .leaf) (.ref .leaf)))))))))
theorem h37 : check par t37 [40320, 23680] [128, 128] st = true := by decide +kernel
def t38 : Tree := (.ref (.cut 1 (.cut 0 (.cut 1 (.cut 0 (.ref .leaf) (.ref .leaf)) (.ref .leaf)) (.cut 1 (.cut 0 (.ref .leaf) (.cut 1 (.ref .leaf) (.ref .leaf))) (.cut 0 (.ref .leaf) (.cut 1 (.ref .leaf) (.ref .leaf))))) (.cut 0 (.cut 1 (.ref .leaf) (.ref .leaf)) (.cut 1 (.cut 0 (.ref .leaf) (.ref .leaf)) (.ref .leaf)))))
theorem h38 : check par t38 [40256, 23936] [64, 128] st = true := by decide +kernel
def t39 : Tree := (.ref (.cut 0 (.cut 1 (.cut 0 (.cut 1 (.cut 0 (.ref .leaf) (.cut 1 (.ref .leaf) (.ref .leaf))) (.cut 0 (.ref .leaf) (.cut 1 (.ref .leaf) (.ref .leaf)))) (.cut 1 (.cut 0 (.cut 1 (.ref .leaf) (.ref .leaf)) (.cut 1 (.ref .leaf) (.ref .leaf))) (.cut 0 (.cut 1 (.ref .leaf) (.ref .leaf)) (.cut 1 (.ref .leaf) (.ref .leaf))))) (.cut 0 (.cut 1 (.cut 0 (.ref .leaf) (.ref .leaf)) (.ref .leaf)) (.cut 1 (.cut 0 (.cut 1 (.ref .leaf) (.ref .leaf)) (.cut 1 (.ref .leaf) (.ref .leaf))) (.cut 0 (.ref .leaf) (.ref .leaf))))) (.cut 1 (.cut 0 (.cut 1 (.cut 0 (.cut 1 (.ref .leaf) (.ref .leaf)) (.cut 1 (.ref .leaf) (.ref .leaf))) (.cut 0 (.cut 1 (.ref .leaf) (.ref .leaf)) (.cut 1 (.ref .leaf) (.ref .leaf)))) (.cut 1 (.cut 0 (.cut 1 (.ref .leaf) (.ref .leaf)) (.ref .leaf)) (.cut 0 (.cut 1 (.ref .leaf) (.ref .leaf)) (.ref .leaf)))) (.cut 0 (.cut 1 (.cut 0 (.cut 1 (.ref .leaf) (.ref .leaf)) (.cut 1 (.ref .leaf) (.ref .leaf))) (.cut 0 (.ref .leaf) (.ref .leaf))) (.cut 1 (.cut 0 (.ref .leaf) (.ref .leaf)) (.ref .leaf))))))
theorem h39 : check par t39 [40384, 23872] [64, 64] st = true := by decide +kernel
def t40 : Tree := (.ref (.cut 0 (.cut 1 (.cut 0 (.cut 1 (.ref .leaf) (.ref .leaf)) (.cut 1 (.ref .leaf) (.ref .leaf))) (.ref .leaf)) (.cut 1 (.cut 0 (.cut 1 (.ref .leaf) (.ref .leaf)) (.cut 1 (.ref .leaf) (.ref .leaf))) (.ref .leaf))))
theorem h40 : check par t40 [40384, 24000] [64, 64] st = true := by decide +kernel
def t41 : Tree := (.ref (.cut 0 (.cut 1 (.cut 0 (.cut 1 (.ref .leaf) (.ref .leaf)) (.cut 1 (.ref .leaf) (.ref .leaf))) (.cut 0 (.ref .leaf) (.ref .leaf))) (.cut 1 (.cut 0 (.cut 1 (.cut 0 (.ref .leaf) (.cut 1 (.ref .leaf) (.ref .leaf))) (.ref .leaf)) (.cut 1 (.cut 0 (.cut 1 (.ref .leaf) (.ref .leaf)) (.cut 1 (.ref .leaf) (.ref .leaf))) (.ref .leaf))) (.cut 0 (.ref .leaf) (.cut 1 (.ref .leaf) (.ref .leaf))))))
theorem h41 : check par t41 [40192, 24320] [256, 256] st = true := by decide +kernel
def t42 : Tree := (.ref (.cut 0 (.cut 1 (.cut 0 (.cut 1 (.cut 0 (.cut 1 (.ref .leaf) (.ref .leaf)) (.cut 1 (.ref .leaf) (.ref .leaf))) (.cut 0 (.cut 1 (.cut 0 (.ref .leaf) (.ref .leaf)) (.cut 0 (.cut 1 (.ref .leaf) (.ref .leaf)) (.ref .leaf))) (.cut 1 (.ref .leaf) (.cut 0 (.ref .leaf) (.ref .leaf))))) (.cut 1 (.cut 0 (.ref .leaf) (.ref .leaf)) (.cut 0 (.cut 1 (.ref .leaf) (.ref .leaf)) (.ref .leaf)))) (.cut 0 (.cut 1 (.cut 0 (.cut 1 (.cut 0 (.cut 1 (.ref .leaf) (.ref .leaf)) (.ref .leaf)) (.cut 0 (.cut 1 (.ref .leaf) (.ref .leaf)) (.ref .leaf))) (.cut 1 (.cut 0 (.ref .leaf) (.ref .leaf)) (.cut 0 (.ref .leaf) (.ref .leaf)))) (.cut 0 (.cut 1 (.cut 0 (.ref .leaf) (.ref .leaf)) (.ref .leaf)) (.cut 1 (.ref .leaf) (.ref .leaf)))) (.cut 1 (.cut 0 (.cut 1 (.ref .leaf) (.ref .leaf)) (.ref .leaf)) (.cut 0 (.ref .leaf) (.ref .leaf))))) (.cut 1 (.cut 0 (.cut 1 (.ref .leaf) (.ref .leaf)) (.ref .leaf)) (.cut 0 (.cut 1 (.ref .leaf) (.ref .leaf)) (.ref .leaf)))))
theorem h42 : check par t42 [40704, 23808] [256, 256] st = true := by decide +kernel
def t43 : Tree := (.ref (.cut 0 (.cut 1 (.cut 0 (.cut 1 (.cut 0 (.cut 1 (.ref .leaf) (.ref .leaf)) (.ref .leaf)) (.ref .leaf)) (.cut 1 (.cut 0 (.ref .leaf) (.ref .leaf)) (.ref .leaf))) (.cut 0 (.cut 1 (.ref .leaf) (.ref .leaf)) (.ref .leaf))) (.cut 1 (.cut 0 (.cut 1 (.ref .leaf) (.ref .leaf)) (.ref .leaf)) (.cut 0 (.ref .leaf) (.ref .leaf)))))
theorem h43 : check par t43 [40704, 24320] [256, 256] st = true := by decide +kernel
def t44 : Tree := (.ref (.cut 1 (.ref (.cut 0 (.cut 1 .leaf .leaf) (.cut 1 (.cut 0 .leaf .leaf) (.cut 0 .leaf .leaf)))) (.cut 0 .leaf (.cut 1 .leaf (.ref .leaf)))))
theorem h44 : check par t44 [34816, 28672] [2048, 4096] st = true := by decide +kernel
def t45 : Tree := (.ref (.cut 1 (.cut 0 (.cut 1 (.ref (.cut 0 (.cut 1 .leaf .leaf) (.cut 1 (.cut 0 .leaf (.cut 1 .leaf .leaf)) (.cut 0 .leaf .leaf)))) (.cut 0 .leaf (.cut 1 (.ref .leaf) (.ref .leaf)))) (.cut 1 (.ref (.cut 0 (.cut 1 (.cut 0 (.cut 1 (.ref .leaf) (.ref .leaf)) (.cut 1 (.cut 0 (.ref .leaf) (.cut 1 (.ref .leaf) (.ref .leaf))) (.ref .leaf))) (.cut 0 .leaf (.cut 1 .leaf (.ref .leaf)))) (.cut 1 (.cut 0 (.cut 1 (.cut 0 (.cut 1 (.ref .leaf) (.ref .leaf)) (.cut 1 (.ref .leaf) (.ref .leaf))) (.cut 0 .leaf .leaf)) (.cut 1 (.cut 0 (.cut 1 (.ref .leaf) .leaf) (.cut 1 .leaf (.ref .leaf))) (.cut 0 (.cut 1 (.ref .leaf) .out) .out))) (.cut 0 (.cut 1 (.ref .leaf) .out) .out)))) (.ref (.cut 0 (.cut 1 (.cut 0 .leaf .out) .out) .out)))) (.ref (.cut 0 (.cut 1 (.cut 0 .leaf .out) .out) .out))))
theorem h45 : check par t45 [38912, 28672] [2048, 4096] st = true := by decide +kernel
def t46 : Tree := (.ref (.cut 1 (.cut 0 (.cut 1 (.cut 0 .leaf (.ref .leaf)) (.cut 0 (.ref .leaf) .leaf)) (.cut 1 (.cut 0 (.cut 1 (.ref .leaf) (.ref .leaf)) (.cut 1 (.cut 0 (.ref .leaf) (.cut 1 (.ref .leaf) (.ref .leaf))) (.cut 0 (.ref .leaf) (.ref .leaf)))) (.cut 0 (.ref .leaf) (.cut 1 (.ref .leaf) (.ref .leaf))))) (.cut 0 (.cut 1 (.cut 0 (.ref .leaf) (.ref .leaf)) (.ref .leaf)) (.cut 1 (.cut 0 .leaf (.ref .leaf)) .leaf))))
theorem h46 : check par t46 [41216, 16896] [256, 512] st = true := by decide +kernel
def t47 : Tree := (.ref (.cut 1 (.cut 0 (.cut 1 (.cut 0 (.ref .leaf) (.ref .leaf)) (.cut 0 (.ref .leaf) (.ref .leaf))) (.cut 1 (.cut 0 (.ref .leaf) (.cut 1 (.ref .leaf) (.ref .leaf))) (.cut 0 (.ref .leaf) (.cut 1 (.ref .leaf) (.ref .leaf))))) (.cut 0 (.cut 1 (.ref .leaf) (.ref .leaf)) (.cut 1 (.cut 0 (.ref .leaf) (.cut 1 (.ref .leaf) (.ref .leaf))) (.ref .leaf)))))
theorem h47 : check par t47 [41536, 16512] [64, 128] st = true := by decide +kernel
def t48 : Tree := (.ref (.cut 0 (.cut 1 (.cut 0 (.cut 1 (.ref .leaf) (.ref .leaf)) (.cut 1 (.ref .leaf) (.cut 0 (.ref .leaf) (.ref .leaf)))) (.cut 0 (.cut 1 (.cut 0 (.ref .leaf) (.ref .leaf)) (.cut 0 (.ref .leaf) (.ref .leaf))) (.cut 1 (.cut 0 (.ref .leaf) (.ref .leaf)) (.cut 0 (.ref .leaf) (.cut 1 (.ref .leaf) (.ref .leaf)))))) (.cut 1 (.cut 0 (.cut 1 (.ref .leaf) (.ref .leaf)) (.cut 1 (.ref .leaf) (.ref .leaf))) (.cut 0 (.cut 1 (.cut 0 (.ref .leaf) (.ref .leaf)) (.cut 0 (.cut 1 (.ref .leaf) (.ref .leaf)) (.cut 1 (.ref .leaf) (.ref .leaf)))) (.cut 1 (.cut 0 (.ref .leaf) (.ref .leaf)) (.cut 0 (.cut 1 (.ref .leaf) (.ref .leaf)) (.ref .leaf)))))))
theorem h48 : check par t48 [41664, 16448] [64, 64] st = true := by decide +kernel
def t49 : Tree := (.ref (.cut 0 (.cut 1 (.cut 0 (.cut 1 (.cut 0 (.ref .leaf) (.ref .leaf)) (.ref .leaf)) (.cut 1 (.cut 0 (.ref .leaf) (.cut 1 (.ref .leaf) (.ref .leaf))) (.cut 0 (.ref .leaf) (.ref .leaf)))) (.cut 0 (.ref .leaf) (.cut 1 (.ref .leaf) (.ref .leaf)))) (.cut 1 (.cut 0 (.cut 1 (.cut 0 (.cut 1 (.ref .leaf) (.ref .leaf)) (.cut 1 (.ref .leaf) (.ref .leaf))) (.cut 0 (.cut 1 (.ref .leaf) (.ref .leaf)) (.cut 1 (.ref .leaf) (.ref .leaf)))) (.cut 1 (.cut 0 (.cut 1 (.ref .leaf) (.ref .leaf)) (.cut 1 (.ref .leaf) (.ref .leaf))) (.cut 0 (.cut 1 (.ref .leaf) (.ref .leaf)) (.cut 1 (.ref .leaf) (.ref .leaf))))) (.cut 0 (.cut 1 (.cut 0 (.ref .leaf) (.cut 1 (.ref .leaf) (.ref .leaf))) (.cut 0 (.ref .leaf) (.ref .leaf))) (.cut 1 (.cut 0 (.cut 1 (.ref .leaf) (.ref .leaf)) (.cut 1 (.ref .leaf) (.ref .leaf))) (.cut 0 (.ref .leaf) (.ref .leaf)))))))
theorem h49 : check par t49 [41664, 16576] [64, 64] st = true := by decide +kernel
def t50 : Tree := (.ref (.cut 0 (.cut 1 (.cut 0 (.ref .leaf) (.cut 1 (.ref .leaf) (.ref .leaf))) (.ref .leaf)) (.cut 1 (.cut 0 (.cut 1 (.cut 0 (.ref .leaf) (.ref .leaf)) (.ref .leaf)) (.cut 1 (.cut 0 (.cut 1 (.ref .leaf) (.ref .leaf)) (.cut 1 (.ref .leaf) (.ref .leaf))) (.cut 0 (.ref .leaf) (.ref .leaf)))) (.cut 0 (.ref .leaf) (.cut 1 (.ref .leaf) (.ref .leaf))))))
theorem h50 : check par t50 [41600, 16768] [128, 128] st = true := by decide +kernel
def t51 : Tree := (.ref (.cut 0 (.cut 1 (.cut 0 (.cut 1 (.cut 0 (.ref .leaf) (.ref .leaf)) (.cut 0 (.cut 1 (.ref .leaf) (.ref .leaf)) (.ref .leaf))) (.cut 1 (.ref .leaf) (.cut 0 (.ref .leaf) (.ref .leaf)))) (.cut 0 (.cut 1 (.cut 0 (.cut 1 (.cut 0 (.cut 1 (.ref .leaf) (.ref .leaf)) (.ref .leaf)) (.cut 0 (.cut 1 (.ref .leaf) (.ref .leaf)) (.ref .leaf))) (.cut 1 (.ref .leaf) (.cut 0 (.ref .leaf) (.ref .leaf)))) (.cut 0 (.cut 1 (.cut 0 (.cut 1 (.ref .leaf) (.ref .leaf)) (.ref .leaf)) (.cut 0 (.ref .leaf) (.ref .leaf))) (.cut 1 (.cut 0 (.ref .leaf) (.ref .leaf)) (.cut 0 (.ref .leaf) (.ref .leaf))))) (.cut 1 (.cut 0 (.cut 1 (.ref .leaf) (.ref .leaf)) (.ref .leaf)) (.cut 0 (.cut 1 (.ref .leaf) (.ref .leaf)) (.ref .leaf))))) (.cut 1 (.cut 0 (.ref .leaf) (.ref .leaf)) (.cut 0 (.cut 1 (.ref .leaf) (.cut 0 (.ref .leaf) (.ref .leaf))) (.cut 1 (.ref .leaf) (.ref .leaf))))))
theorem h51 : check par t51 [41856, 16512] [128, 128] st = true := by decide +kernel
def t52 : Tree := (.ref (.cut 0 (.cut 1 (.cut 0 (.cut 1 (.cut 0 (.cut 1 (.cut 0 (.ref .leaf) (.ref .leaf)) (.ref .leaf)) (.cut 1 (.ref .leaf) (.ref .leaf))) (.cut 0 (.ref .leaf) (.cut 1 (.ref .leaf) (.ref .leaf)))) (.cut 1 (.cut 0 (.cut 1 (.ref .leaf) (.ref .leaf)) (.ref .leaf)) (.cut 0 (.ref .leaf) (.ref .leaf)))) (.cut 0 (.cut 1 (.ref .leaf) (.ref .leaf)) (.cut 1 (.ref .leaf) (.ref .leaf)))) (.cut 1 (.cut 0 (.cut 1 (.cut 0 (.ref .leaf) (.ref .leaf)) (.cut 0 (.ref .leaf) (.ref .leaf))) (.cut 1 (.ref .leaf) (.ref .leaf))) (.cut 0 (.cut 1 (.ref .leaf) (.ref .leaf)) (.cut 1 (.ref .leaf) (.ref .leaf))))))
theorem h52 : check par t52 [41856, 16768] [128, 128] st = true := by decide +kernel
def t53 : Tree := (.ref (.cut 0 (.cut 1 (.cut 0 (.cut 1 (.ref .leaf) (.ref .leaf)) (.cut 1 (.ref .leaf) (.ref .leaf))) (.cut 0 (.ref .leaf) (.ref .leaf))) (.cut 1 (.cut 0 (.cut 1 (.cut 0 (.ref .leaf) (.ref .leaf)) (.ref .leaf)) (.cut 1 (.cut 0 (.ref .leaf) (.ref .leaf)) (.ref .leaf))) (.cut 0 (.ref .leaf) (.cut 1 (.ref .leaf) (.ref .leaf))))))
theorem h53 : check par t53 [41728, 17152] [256, 256] st = true := by decide +kernel
def t54 : Tree := (.ref (.cut 0 (.cut 1 (.cut 0 (.cut 1 (.ref .leaf) (.ref .leaf)) (.ref .leaf)) (.cut 0 (.ref .leaf) (.ref .leaf))) (.cut 1 (.cut 0 (.cut 1 .leaf .leaf) (.cut 1 (.ref .leaf) (.ref .leaf))) (.cut 0 (.ref .leaf) .leaf))))
theorem h54 : check par t54 [41472, 17920] [512, 512] st = true := by decide +kernel
def t55 : Tree := (.ref (.cut 1 (.cut 0 (.cut 1 (.cut 0 (.cut 1 (.cut 0 (.cut 1 (.ref .leaf) (.cut 0 (.ref .leaf) (.ref .leaf))) (.ref .leaf)) (.cut 0 (.cut 1 (.cut 0 (.ref .leaf) (.ref .leaf)) (.cut 0 (.ref .leaf) (.ref .leaf))) (.cut 1 (.ref .leaf) (.ref .leaf)))) (.cut 1 (.ref .leaf) (.cut 0 (.ref .leaf) (.ref .leaf)))) (.cut 0 (.cut 1 (.cut 0 (.cut 1 (.cut 0 (.ref .leaf) (.ref .leaf)) (.ref .leaf)) (.cut 1 (.ref .leaf) (.ref .leaf))) (.cut 0 (.cut 1 (.ref .leaf) (.ref .leaf)) (.cut 1 (.ref .leaf) (.ref .leaf)))) (.cut 1 (.cut 0 (.ref .leaf) (.ref .leaf)) (.cut 0 (.ref .leaf) (.ref .leaf))))) (.cut 1 (.cut 0 (.cut 1 (.ref .leaf) (.ref .leaf)) (.ref .leaf)) (.cut 0 (.cut 1 (.ref .leaf) (.ref .leaf)) (.cut 1 (.ref .leaf) (.ref .leaf))))) (.cut 0 (.cut 1 (.cut 0 (.cut 1 (.cut 0 (.ref .leaf) (.ref .leaf)) (.ref .leaf)) (.cut 1 (.ref .leaf) (.ref .leaf))) (.cut 0 (.ref .leaf) (.cut 1 (.ref .leaf) (.ref .leaf)))) (.cut 1 (.cut 0 (.cut 1 (.ref .leaf) (.ref .leaf)) (.ref .leaf)) (.cut 0 (.ref .leaf) (.ref .leaf))))))
theorem h55 : check par t55 [42496, 17408] [512, 1024] st = true := by decide +kernel
def t56 : Tree := (.ref (.cut 0 (.cut 1 (.cut 0 (.cut 1 (.ref .leaf) (.ref .leaf)) (.cut 1 (.ref .leaf) (.ref .leaf))) (.cut 0 (.ref .leaf) (.ref .leaf))) (.cut 1 (.cut 0 (.cut 1 .leaf .leaf) (.cut 1 (.ref .leaf) (.ref .leaf))) (.cut 0 (.ref .leaf) .leaf))))
theorem h56 : check par t56 [41984, 19456] [1024, 1024] st = true := by decide +kernel
def t57 : Tree := (.ref (.cut 1 (.cut 0 (.cut 1 (.cut 0 (.cut 1 (.ref .leaf) (.cut 0 (.ref .leaf) (.ref .leaf))) (.cut 1 (.ref .leaf) (.ref .leaf))) (.cut 0 (.cut 1 (.cut 0 (.ref .leaf) (.ref .leaf)) (.cut 0 (.ref .leaf) (.ref .leaf))) (.cut 1 (.ref .leaf) (.ref .leaf)))) (.cut 1 (.cut 0 (.ref .leaf) (.ref .leaf)) (.cut 0 (.ref .leaf) (.ref .leaf)))) (.cut 0 (.cut 1 (.cut 0 (.cut 1 (.ref .leaf) (.ref .leaf)) (.cut 1 (.ref .leaf) (.ref .leaf))) (.cut 0 (.ref .leaf) (.ref .leaf))) (.cut 1 (.cut 0 (.ref .leaf) (.ref .leaf)) (.cut 0 (.ref .leaf) (.ref .leaf))))))
theorem h57 : check par t57 [44032, 18432] [1024, 2048] st = true := by decide +kernel
def t58 : Tree := (.ref (.cut 0 (.cut 1 (.ref (.cut 0 (.cut 1 (.cut 0 .leaf .leaf) (.cut 0 (.cut 1 (.ref .leaf) (.ref .leaf)) (.cut 1 (.ref .leaf) (.ref .leaf)))) (.cut 1 .leaf (.cut 0 (.ref .leaf) (.ref .leaf))))) (.ref (.cut 0 (.cut 1 (.cut 0 (.cut 1 (.cut 0 (.ref .leaf) (.ref .leaf)) (.cut 0 (.cut 1 (.ref .leaf) (.ref .leaf)) (.ref .leaf))) (.cut 1 (.ref .leaf) (.ref .leaf))) (.cut 0 (.cut 1 (.cut 0 (.cut 1 (.ref .leaf) (.ref .leaf)) (.ref .leaf)) (.cut 0 (.cut 1 (.ref .leaf) .leaf) (.cut 1 .leaf (.ref .leaf)))) (.cut 1 (.cut 0 .leaf .leaf) (.cut 0 (.cut 1 (.ref .leaf) .out) .out)))) (.cut 1 (.cut 0 (.cut 1 (.ref .leaf) .leaf) .leaf) (.cut 0 (.cut 1 (.ref .leaf) .out) .out))))) (.cut 1 (.cut 0 (.cut 1 (.ref .leaf) .leaf) (.cut 1 (.ref .leaf) (.ref .leaf))) (.ref (.cut 0 (.cut 1 (.cut 0 (.ref .leaf) .out) .out) .out)))))
theorem h58 : check par t58 [43008, 22528] [2048, 2048] st = true := by decide +kernel
def t59 : Tree := (.ref (.cut 1 (.ref (.cut 0 (.cut 1 (.cut 0 (.cut 1 (.ref .leaf) (.ref .leaf)) (.ref .leaf)) (.cut 0 (.cut 1 (.ref .leaf) .leaf) (.cut 1 .leaf (.ref .leaf)))) (.cut 1 .leaf (.cut 0 (.cut 1 (.ref .leaf) .out) .out)))) (.ref (.cut 0 (.cut 1 (.cut 0 (.cut 1 (.cut 0 (.ref .leaf) .out) .out) .out) .out) .out))))
theorem h59 : check par t59 [47104, 20480] [2048, 4096] st = true := by decide +kernel
def t60 : Tree := (.ref (.cut 0 (.cut 1 (.ref (.cut 0 (.cut 1 (.cut 0 (.cut 1 (.cut 0 (.cut 1 (.cut 0 (.cut 1 (.cut 0 .leaf .out) .out) .out) .out) .out) .out) .out) .out) .out)) .out) .out))
theorem h60 : check par t60 [45056, 28672] [4096, 4096] st = true := by decide +kernel
def t61 : Tree := (.ref (.cut 1 (.ref (.cut 0 (.ref (.cut 1 (.ref (.cut 0 .leaf .leaf)) (.cut 0 (.ref (.cut 1 (.ref .leaf) (.ref (.cut 0 .leaf .leaf)))) (.ref (.cut 1 (.ref .leaf) (.ref .leaf)))))) (.cut 1 .leaf (.ref (.cut 0 .leaf .out))))) (.ref (.cut 0 (.cut 1 (.ref (.cut 0 (.ref (.cut 1 (.cut 0 (.cut 1 .leaf .out) .out) .out)) .out)) .out) .out))))
theorem h61 : check par t61 [57344, 16384] [8192, 16384] st = true := by decide +kernel
def t62 : Tree := (.ref (.cut 0 (.ref (.cut 1 (.ref (.cut 0 (.cut 1 (.cut 0 (.cut 1 (.cut 0 (.ref .leaf) .out) .out) .out) .out) .out)) .out)) .out))
theorem h62 : check par t62 [49152, 49152] [16384, 16384] st = true := by decide +kernel
end FastNoise.RangeCheck.OuterSuper2
