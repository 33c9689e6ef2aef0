import Verif.RangeCertOuterSuper4
/-! Generated by tools/rangecert/gen.py: a certificate for the checker `Verif.RangeCheck`. -/
namespace FastNoise.RangeCheck.OuterSuper4
set_option maxRecDepth 1000000
def t26 : Tree := (.ref (.cut 1 (.cut 2 (.ref (.cut 3 (.ref (.cut 0 .leaf .leaf)) .leaf)) (.ref (.cut 3 (.ref (.cut 0 (.ref (.cut 1 .out (.ref (.cut 2 .leaf .out)))) (.ref (.cut 1 .out (.ref (.cut 2 .leaf .out)))))) (.cut 0 (.ref (.cut 1 .out (.ref (.cut 2 .leaf .out)))) (.ref (.cut 1 .out (.ref (.cut 2 .leaf .out)))))))) (.ref (.cut 2 (.ref (.cut 3 (.ref (.cut 0 .out (.ref (.cut 1 .leaf .out)))) (.cut 0 .out (.ref (.cut 1 .leaf .out))))) (.ref (.cut 3 (.ref (.cut 0 .out (.ref (.cut 1 .leaf .out)))) (.ref (.cut 0 .out (.cut 1 (.cut 2 .leaf .leaf) .out)))))))))
theorem h26 : check par t26 [26624, 28672, 28672, 20480] [2048, 4096, 4096, 4096] st = true := by decide +kernel
def t27 : Tree := (.ref (.cut 1 (.ref (.cut 2 (.ref (.cut 3 (.ref (.cut 0 (.ref (.cut 1 .leaf .leaf)) (.cut 1 (.ref (.cut 2 .leaf .leaf)) (.ref (.cut 2 .leaf .leaf))))) (.cut 0 .leaf (.ref (.cut 1 (.ref (.cut 2 .leaf .leaf)) (.ref (.cut 2 .leaf (.ref (.cut 3 .leaf .leaf))))))))) (.ref (.cut 3 (.ref (.cut 0 (.ref (.cut 1 .out .leaf)) (.ref (.cut 1 .out .leaf)))) (.ref (.cut 0 (.cut 1 .out (.cut 2 .leaf .out)) (.cut 1 .out (.cut 2 .leaf .out)))))))) (.ref (.cut 2 (.ref (.cut 3 (.ref (.cut 0 (.ref (.cut 1 .leaf .leaf)) (.ref (.cut 1 .leaf .leaf)))) (.ref (.cut 0 (.cut 1 .leaf (.ref (.cut 2 .leaf .leaf))) (.cut 1 (.ref (.cut 2 .leaf .leaf)) (.cut 2 .leaf .leaf)))))) (.cut 3 (.ref (.cut 0 (.cut 1 .leaf .leaf) (.cut 1 .leaf .leaf))) (.ref (.cut 0 (.ref (.cut 1 (.ref (.cut 2 .leaf (.ref (.cut 3 .leaf .leaf)))) (.ref (.cut 2 (.ref (.cut 3 .leaf .leaf)) .leaf)))) (.ref (.cut 1 (.ref (.cut 2 (.ref (.cut 3 .leaf .leaf)) .leaf)) (.ref (.cut 2 .leaf .leaf)))))))))))
theorem h27 : check par t27 [30720, 28672, 28672, 20480] [2048, 4096, 4096, 4096] st = true := by decide +kernel
def t28 : Tree := (.ref (.cut 1 (.ref (.cut 2 (.ref (.cut 3 .leaf (.ref (.cut 0 (.cut 1 (.cut 2 .out .leaf) (.ref (.cut 2 .out .leaf))) (.cut 1 (.ref (.cut 2 .out .leaf)) (.cut 2 .out .leaf)))))) (.ref (.cut 3 (.ref (.cut 0 (.cut 1 .out (.ref (.cut 2 .leaf .out))) (.cut 1 .out (.cut 2 .leaf .out)))) (.ref (.cut 0 (.ref (.cut 1 .out (.ref (.cut 2 (.ref (.cut 3 .leaf .leaf)) .out)))) (.cut 1 .out (.ref (.cut 2 .leaf .out))))))))) (.ref (.cut 2 (.ref (.cut 3 (.ref (.cut 0 .out (.cut 1 .leaf .out))) (.ref (.cut 0 .out (.cut 1 (.ref (.cut 2 .out .leaf)) .out))))) (.ref (.cut 3 (.ref (.cut 0 .out (.cut 1 (.ref (.cut 2 .leaf .leaf)) .out))) (.ref (.cut 0 .out (.cut 1 (.cut 2 .leaf .leaf) .out)))))))))
theorem h28 : check par t28 [26624, 28672, 28672, 28672] [2048, 4096, 4096, 4096] st = true := by decide +kernel
def t29 : Tree := (.ref (.cut 1 (.ref (.cut 2 (.ref (.cut 3 (.ref (.cut 0 .leaf (.cut 1 (.cut 2 .leaf .leaf) (.cut 2 .leaf .leaf)))) (.ref (.cut 0 (.ref (.cut 1 (.ref (.cut 2 .out (.ref (.cut 3 .leaf .out)))) (.ref (.cut 2 .out .leaf)))) (.ref (.cut 1 (.ref (.cut 2 .out .leaf)) (.cut 2 .out .leaf))))))) (.ref (.cut 3 (.ref (.cut 0 (.ref (.cut 1 .out (.ref (.cut 2 .leaf .out)))) (.ref (.cut 1 .out (.cut 2 .leaf .out))))) (.ref (.cut 0 (.cut 1 .out (.cut 2 .leaf .out)) (.cut 1 .out (.cut 2 .leaf .out)))))))) (.ref (.cut 2 (.ref (.cut 3 (.ref (.cut 0 (.ref (.cut 1 .leaf (.ref (.cut 2 .leaf .leaf)))) (.ref (.cut 1 (.ref (.cut 2 .leaf .leaf)) (.ref (.cut 2 .leaf .leaf)))))) (.ref (.cut 0 (.cut 1 (.cut 2 .out .leaf) (.ref (.cut 2 .out .leaf))) (.cut 1 (.ref (.cut 2 .out .leaf)) (.ref (.cut 2 .out .leaf))))))) (.ref (.cut 3 (.ref (.cut 0 (.cut 1 (.cut 2 .leaf .leaf) (.ref (.cut 2 .leaf .leaf))) (.cut 1 (.ref (.cut 2 .leaf .leaf)) (.ref (.cut 2 .leaf .leaf))))) (.cut 0 (.cut 1 .leaf .leaf) (.cut 1 .leaf .leaf))))))))
theorem h29 : check par t29 [30720, 28672, 28672, 28672] [2048, 4096, 4096, 4096] st = true := by decide +kernel
def t30 : Tree := (.ref (.cut 0 (.ref (.cut 1 (.ref (.cut 2 .out (.ref (.cut 3 (.ref (.cut 0 (.ref (.cut 1 .out (.ref (.cut 2 .out .out)))) (.ref (.cut 1 .out (.ref (.cut 2 .out .out)))))) .out)))) (.ref (.cut 2 .out (.ref (.cut 3 (.ref (.cut 0 .out (.ref (.cut 1 (.ref (.cut 2 .out (.ref (.cut 3 (.ref (.cut 0 .out (.cut 1 .out .out))) .out)))) .out)))) .out)))))) (.ref (.cut 1 (.ref (.cut 2 .out (.ref (.cut 3 (.ref (.cut 0 (.ref (.cut 1 .out (.ref (.cut 2 .out .out)))) (.ref (.cut 1 .out (.ref (.cut 2 .out .out)))))) .out)))) (.ref (.cut 2 .out (.ref (.cut 3 (.ref (.cut 0 (.ref (.cut 1 (.ref (.cut 2 .out (.ref (.cut 3 (.ref (.cut 0 (.ref (.cut 1 .out (.ref (.cut 2 .out .out)))) (.ref (.cut 1 .out (.ref (.cut 2 .out .out)))))) .out)))) (.ref (.cut 2 .out (.ref (.cut 3 (.ref (.cut 0 .out (.ref (.cut 1 (.cut 2 .out (.ref (.cut 3 (.ref (.cut 0 .out (.ref (.cut 1 .out .out)))) .out))) .out)))) .out)))))) (.ref (.cut 1 (.ref (.cut 2 .out (.ref (.cut 3 (.ref (.cut 0 (.ref (.cut 1 .out (.ref (.cut 2 .out .out)))) (.ref (.cut 1 .out (.ref (.cut 2 .out .out)))))) .out)))) (.ref (.cut 2 .out (.ref (.cut 3 (.ref (.cut 0 (.ref (.cut 1 (.cut 2 .out (.ref (.cut 3 (.ref (.cut 0 (.ref (.cut 1 .out (.ref (.cut 2 .out .out)))) (.cut 1 .out (.cut 2 .out .out)))) .out))) (.ref (.cut 2 .out (.ref (.cut 3 (.cut 0 .out (.cut 1 (.ref (.cut 2 .out (.ref (.cut 3 .leaf .out)))) .out)) .out)))))) (.cut 1 (.ref (.cut 2 .out (.ref (.cut 3 (.cut 0 (.cut 1 .out (.ref (.cut 2 .out .out))) (.cut 1 .out (.ref (.cut 2 .out .out)))) .out)))) (.cut 2 .out (.cut 3 (.ref (.cut 0 (.ref (.cut 1 (.cut 2 .out (.ref (.cut 3 .leaf .out))) (.ref (.cut 2 .out (.ref (.cut 3 .leaf .out)))))) (.cut 1 (.ref (.cut 2 .out (.ref (.cut 3 .leaf .out)))) (.cut 2 .out (.cut 3 .leaf .out))))) .out))))) .out)))))))) .out))))))))
theorem h30 : check par t30 [16384, 16384, 16384, 49152] [16384, 16384, 16384, 16384] st = true := by decide +kernel
def t31 : Tree := (.ref (.cut 3 (.ref (.cut 0 (.ref (.cut 1 .out (.ref (.cut 2 (.ref (.cut 3 (.ref (.cut 0 .out (.ref (.cut 1 .out .out)))) (.ref (.cut 0 .out (.ref (.cut 1 .out .out)))))) .out)))) (.ref (.cut 1 .out (.ref (.cut 2 (.ref (.cut 3 (.ref (.cut 0 (.cut 1 .out (.ref (.cut 2 (.ref (.cut 3 (.cut 0 .out (.ref (.cut 1 .out .out))) (.ref (.cut 0 .out (.cut 1 .out .out))))) .out))) (.ref (.cut 1 .out (.ref (.cut 2 (.ref (.cut 3 (.ref (.cut 0 (.cut 1 .out (.ref (.cut 2 .leaf .out))) (.cut 1 .out (.cut 2 .leaf .out)))) (.cut 0 (.cut 1 .out (.ref (.cut 2 (.cut 3 .leaf (.ref (.cut 0 .out .leaf))) .out))) (.ref (.cut 1 .out (.ref (.cut 2 (.cut 3 .leaf (.cut 0 .leaf .leaf)) .out))))))) .out)))))) (.ref (.cut 0 (.ref (.cut 1 .out (.ref (.cut 2 (.ref (.cut 3 (.ref (.cut 0 .out (.ref (.cut 1 .out .out)))) (.ref (.cut 0 .out (.ref (.cut 1 .out .out)))))) .out)))) (.ref (.cut 1 .out (.ref (.cut 2 (.ref (.cut 3 (.ref (.cut 0 (.ref (.cut 1 .out (.ref (.cut 2 (.cut 3 (.ref (.cut 0 .out (.cut 1 .out .out))) (.ref (.cut 0 .out (.cut 1 .out .out)))) .out)))) (.ref (.cut 1 .out (.cut 2 (.cut 3 (.ref (.cut 0 (.ref (.cut 1 .out (.ref (.cut 2 .leaf .out)))) (.cut 1 .out .leaf))) (.ref (.cut 0 (.cut 1 .out (.ref (.cut 2 (.ref (.cut 3 .leaf .leaf)) .out))) (.ref (.cut 1 .out (.ref (.cut 2 (.cut 3 .leaf .leaf) .out))))))) .out))))) (.ref (.cut 0 (.ref (.cut 1 .out (.ref (.cut 2 (.ref (.cut 3 (.ref (.cut 0 .out (.cut 1 .out .out))) (.ref (.cut 0 .out (.cut 1 .out .out))))) .out)))) (.cut 1 .out (.cut 2 (.ref (.cut 3 (.ref (.cut 0 (.cut 1 .out (.ref (.cut 2 (.cut 3 (.ref (.cut 0 .out .leaf)) .leaf) .out))) (.cut 1 .out (.cut 2 (.ref (.cut 3 (.ref (.cut 0 .leaf .leaf)) .leaf)) .out)))) (.ref (.cut 0 (.ref (.cut 1 .out (.ref (.cut 2 (.cut 3 .leaf .leaf) .out)))) (.cut 1 .out (.cut 2 (.cut 3 .leaf .leaf) .out)))))) .out)))))) .out)))))))) .out)))))) (.ref (.cut 0 (.ref (.cut 1 .out (.ref (.cut 2 (.ref (.cut 3 (.ref (.cut 0 .out (.ref (.cut 1 .out .out)))) (.ref (.cut 0 .out (.ref (.cut 1 .out .out)))))) .out)))) (.ref (.cut 1 .out (.ref (.cut 2 (.ref (.cut 3 (.ref (.cut 0 (.cut 1 .out (.ref (.cut 2 (.ref (.cut 3 (.ref (.cut 0 .out (.ref (.cut 1 .out .out)))) (.ref (.cut 0 .out (.ref (.cut 1 .out .out)))))) .out))) (.ref (.cut 1 .out (.ref (.cut 2 (.ref (.cut 3 (.ref (.cut 0 (.ref (.cut 1 .out (.ref (.cut 2 (.ref (.cut 3 (.ref (.cut 0 .out (.cut 1 .out .out))) (.ref (.cut 0 .out (.cut 1 .out .out))))) .out)))) (.ref (.cut 1 .out (.ref (.cut 2 (.cut 3 (.cut 0 (.ref (.cut 1 .out (.ref (.cut 2 (.ref (.cut 3 .leaf (.ref (.cut 0 .out .leaf)))) .out)))) (.cut 1 .out (.ref (.cut 2 (.cut 3 .leaf .leaf) .out)))) (.ref (.cut 0 (.cut 1 .out (.ref (.cut 2 .out .out))) (.cut 1 .out (.cut 2 .out .out))))) .out)))))) (.ref (.cut 0 (.cut 1 .out (.ref (.cut 2 .out .out))) (.cut 1 .out (.cut 2 .out .out)))))) .out)))))) (.ref (.cut 0 (.ref (.cut 1 .out (.ref (.cut 2 .out .out)))) (.ref (.cut 1 .out (.ref (.cut 2 .out .out)))))))) .out))))))))
theorem h31 : check par t31 [16384, 16384, 49152, 32768] [16384, 16384, 16384, 32768] st = true := by decide +kernel
def t32 : Tree := .out
theorem h32 : check par t32 [8192, 49152, 16384, 16384] [8192, 16384, 16384, 16384] st = true := by decide +kernel
def t33 : Tree := (.ref (.cut 3 (.ref (.cut 0 .out (.ref (.cut 1 (.ref (.cut 2 (.ref (.cut 3 (.ref (.cut 0 .out (.cut 1 (.cut 2 .leaf .leaf) .out))) (.ref (.cut 0 .out (.cut 1 (.ref (.cut 2 .out (.ref (.cut 3 .leaf .out)))) .out))))) (.cut 3 (.ref (.cut 0 .out (.cut 1 (.ref (.cut 2 .leaf (.ref (.cut 3 .leaf .leaf)))) .out))) (.ref (.cut 0 .out (.ref (.cut 1 (.cut 2 (.cut 3 .leaf .leaf) (.cut 3 .leaf .leaf)) .out))))))) .out)))) (.ref (.cut 0 .out (.ref (.cut 1 (.ref (.cut 2 .out (.ref (.cut 3 (.ref (.cut 0 .out (.cut 1 (.cut 2 .out (.ref (.cut 3 (.ref (.cut 0 .out .leaf)) .out))) .out))) .out)))) .out))))))
theorem h33 : check par t33 [24576, 40960, 8192, 16384] [8192, 8192, 8192, 16384] st = true := by decide +kernel
def t34 : Tree := (.ref (.cut 3 (.ref (.cut 0 .out (.ref (.cut 1 (.ref (.cut 2 (.ref (.cut 3 (.cut 0 .out (.cut 1 (.cut 2 (.ref (.cut 3 .leaf .leaf)) (.ref (.cut 3 .leaf .leaf))) .out)) (.ref (.cut 0 .out (.cut 1 (.cut 2 (.ref (.cut 3 .leaf (.ref (.cut 0 .out .leaf)))) (.cut 3 .leaf (.ref (.cut 0 .out .leaf)))) .out))))) (.ref (.cut 3 (.ref (.cut 0 .out (.cut 1 (.cut 2 .leaf .leaf) .out))) (.cut 0 .out (.ref (.cut 1 (.cut 2 (.ref (.cut 3 .leaf (.ref (.cut 0 .out .leaf)))) (.ref (.cut 3 .leaf (.cut 0 .out .leaf)))) .out))))))) .out)))) (.ref (.cut 0 .out (.ref (.cut 1 (.ref (.cut 2 (.ref (.cut 3 (.ref (.cut 0 .out (.ref (.cut 1 (.ref (.cut 2 (.ref (.cut 3 (.ref (.cut 0 .out .leaf)) (.ref (.cut 0 .out (.ref (.cut 1 .leaf .out)))))) (.ref (.cut 3 (.ref (.cut 0 .out (.ref (.cut 1 .leaf .out)))) (.ref (.cut 0 .out (.cut 1 .leaf .out))))))) .out)))) (.ref (.cut 0 .out (.ref (.cut 1 (.cut 2 .out (.ref (.cut 3 (.ref (.cut 0 .out (.ref (.cut 1 (.cut 2 .out (.cut 3 .leaf .out)) .out)))) .out))) .out)))))) (.ref (.cut 3 (.ref (.cut 0 .out (.ref (.cut 1 (.cut 2 (.ref (.cut 3 (.ref (.cut 0 .out (.cut 1 .leaf .out))) (.ref (.cut 0 .out (.ref (.cut 1 (.cut 2 .leaf (.cut 3 .leaf .leaf)) .out)))))) (.cut 3 (.ref (.cut 0 .out (.cut 1 .leaf .out))) (.ref (.cut 0 .out (.ref (.cut 1 (.cut 2 (.ref (.cut 3 .leaf .leaf)) (.ref (.cut 3 .leaf .leaf))) .out)))))) .out)))) (.ref (.cut 0 .out (.cut 1 (.cut 2 (.ref (.cut 3 (.ref (.cut 0 .out (.cut 1 (.ref (.cut 2 (.cut 3 .leaf .leaf) (.cut 3 .leaf .leaf))) .out))) (.ref (.cut 0 .out (.cut 1 (.ref (.cut 2 .out (.ref (.cut 3 .leaf .out)))) .out))))) (.ref (.cut 3 (.ref (.cut 0 .out (.cut 1 (.ref (.cut 2 (.ref (.cut 3 (.ref (.cut 0 .out .leaf)) .leaf)) (.ref (.cut 3 (.ref (.cut 0 .out .leaf)) .leaf)))) .out))) (.ref (.cut 0 .out (.cut 1 (.cut 2 (.ref (.cut 3 .leaf .leaf)) (.cut 3 .leaf .leaf)) .out)))))) .out))))))) .out))))))
theorem h34 : check par t34 [24576, 40960, 24576, 16384] [8192, 8192, 8192, 16384] st = true := by decide +kernel
def t35 : Tree := .out
theorem h35 : check par t35 [24576, 57344, 16384, 16384] [8192, 8192, 16384, 16384] st = true := by decide +kernel
def t36 : Tree := (.ref (.cut 0 .out (.ref (.cut 1 (.ref (.cut 2 .out (.ref (.cut 3 (.ref (.cut 0 .out (.ref (.cut 1 (.ref (.cut 2 .out (.ref (.cut 3 (.ref (.cut 0 .out (.ref (.cut 1 (.ref (.cut 2 .out (.ref (.cut 3 (.cut 0 .out (.cut 1 (.ref (.cut 2 .out (.cut 3 .leaf .out))) .out)) .out)))) .out)))) .out)))) .out)))) .out)))) .out))))
theorem h36 : check par t36 [16384, 49152, 16384, 49152] [16384, 16384, 16384, 16384] st = true := by decide +kernel
def t37 : Tree := (.ref (.cut 3 (.ref (.cut 0 .out (.ref (.cut 1 (.ref (.cut 2 (.ref (.cut 3 (.ref (.cut 0 .out (.ref (.cut 1 (.ref (.cut 2 (.ref (.cut 3 (.ref (.cut 0 .out (.cut 1 (.cut 2 .leaf .leaf) .out))) (.cut 0 .out (.cut 1 (.ref (.cut 2 (.cut 3 .leaf .leaf) (.ref (.cut 3 .leaf .leaf)))) .out)))) (.ref (.cut 3 (.ref (.cut 0 .out (.cut 1 .out .out))) (.cut 0 .out (.cut 1 .out .out)))))) .out)))) (.ref (.cut 0 .out (.ref (.cut 1 (.ref (.cut 2 (.ref (.cut 3 (.ref (.cut 0 .out (.cut 1 (.cut 2 (.cut 3 (.cut 0 .out (.ref (.cut 1 .leaf .out))) (.ref (.cut 0 .out (.cut 1 (.ref (.cut 2 (.ref (.cut 3 .leaf .leaf)) (.ref (.cut 3 .leaf .leaf)))) .out)))) (.ref (.cut 3 (.cut 0 .out (.ref (.cut 1 .out .out))) (.ref (.cut 0 .out (.cut 1 .out .out)))))) .out))) (.ref (.cut 0 .out (.ref (.cut 1 (.ref (.cut 2 (.ref (.cut 3 (.ref (.cut 0 .out (.cut 1 (.cut 2 (.cut 3 .leaf .leaf) (.ref (.cut 3 (.cut 0 .out (.cut 1 .out .out)) (.cut 0 .out (.ref (.cut 1 .out .out)))))) .out))) (.cut 0 .out (.cut 1 (.ref (.cut 2 (.cut 3 .leaf .leaf) (.ref (.cut 3 (.ref (.cut 0 .out (.cut 1 .out .out))) .leaf)))) .out)))) (.ref (.cut 3 (.ref (.cut 0 .out (.cut 1 .out .out))) (.ref (.cut 0 .out (.cut 1 .out .out))))))) .out)))))) (.ref (.cut 3 (.ref (.cut 0 .out (.cut 1 .out .out))) (.ref (.cut 0 .out (.cut 1 .out .out))))))) .out)))))) (.ref (.cut 3 (.ref (.cut 0 .out (.ref (.cut 1 .out .out)))) (.ref (.cut 0 .out (.ref (.cut 1 .out .out)))))))) .out)))) (.ref (.cut 0 .out (.ref (.cut 1 (.ref (.cut 2 (.ref (.cut 3 (.ref (.cut 0 .out (.ref (.cut 1 (.ref (.cut 2 (.ref (.cut 3 (.ref (.cut 0 .out (.cut 1 (.cut 2 (.ref (.cut 3 (.ref (.cut 0 .out (.cut 1 (.cut 2 (.cut 3 .leaf .leaf) (.ref (.cut 3 .leaf .out))) .out))) (.ref (.cut 0 .out .out)))) (.ref (.cut 3 (.ref (.cut 0 .out .out)) .out))) .out))) (.ref (.cut 0 .out .out)))) (.ref (.cut 3 (.ref (.cut 0 .out .out)) .out)))) .out)))) (.ref (.cut 0 .out .out)))) (.ref (.cut 3 (.ref (.cut 0 .out .out)) .out)))) .out))))))
theorem h37 : check par t37 [16384, 49152, 49152, 32768] [16384, 16384, 16384, 32768] st = true := by decide +kernel
def t38 : Tree := (.ref (.cut 2 (.ref (.cut 3 (.cut 0 (.cut 1 (.cut 2 .leaf (.ref (.cut 3 .leaf .leaf))) (.ref (.cut 2 (.ref (.cut 3 .leaf .leaf)) (.cut 3 .leaf .leaf)))) (.cut 1 (.cut 2 (.cut 3 .leaf .leaf) (.ref (.cut 3 .leaf .leaf))) (.cut 2 (.ref (.cut 3 .leaf .leaf)) (.ref (.cut 3 .leaf .leaf))))) (.ref (.cut 0 (.cut 1 (.cut 2 .out (.ref (.cut 3 (.ref (.cut 0 .leaf .leaf)) .out))) (.cut 2 .out (.cut 3 (.cut 0 .leaf .leaf) .out))) (.cut 1 (.cut 2 .out (.ref (.cut 3 (.cut 0 .leaf .leaf) .out))) (.cut 2 .out (.cut 3 (.cut 0 .leaf .leaf) .out))))))) (.ref (.cut 3 (.ref (.cut 0 (.cut 1 .out (.cut 2 (.cut 3 (.ref (.cut 0 .leaf .leaf)) (.cut 0 .leaf .leaf)) .out)) (.cut 1 .out (.cut 2 (.cut 3 (.ref (.cut 0 .leaf .leaf)) (.cut 0 .leaf .leaf)) .out)))) (.ref (.cut 0 (.cut 1 .out (.cut 2 (.ref (.cut 3 (.cut 0 .leaf .leaf) (.ref (.cut 0 .leaf .leaf)))) .out)) (.cut 1 .out (.cut 2 (.ref (.cut 3 (.ref (.cut 0 .leaf .leaf)) (.ref (.cut 0 (.cut 1 .out .leaf) (.ref (.cut 1 .out (.cut 2 .out .out))))))) .out))))))))
theorem h38 : check par t38 [34816, 2048, 4096, 4096] [2048, 2048, 4096, 4096] st = true := by decide +kernel
def t39 : Tree := (.ref (.cut 3 (.ref (.cut 0 (.cut 1 (.cut 2 (.cut 3 .leaf (.ref (.cut 0 .leaf .leaf))) (.cut 3 (.ref (.cut 0 .leaf .leaf)) (.cut 0 .leaf .leaf))) (.cut 2 (.ref (.cut 3 (.ref (.cut 0 .leaf .leaf)) (.ref (.cut 0 .leaf .leaf)))) (.cut 3 (.ref (.cut 0 .leaf .leaf)) (.cut 0 .leaf .leaf)))) (.cut 1 (.cut 2 (.cut 3 (.cut 0 .leaf .leaf) (.ref (.cut 0 .leaf .leaf))) (.cut 3 (.ref (.cut 0 .leaf .leaf)) (.cut 0 .leaf .leaf))) (.cut 2 (.cut 3 (.cut 0 .leaf .leaf) (.ref (.cut 0 .leaf .leaf))) (.cut 3 (.ref (.cut 0 .leaf .leaf)) (.cut 0 .leaf .leaf)))))) (.ref (.cut 0 (.cut 1 (.cut 2 .out (.ref (.cut 3 (.cut 0 .leaf .leaf) .out))) (.ref (.cut 2 .out (.cut 3 (.ref (.cut 0 .leaf .leaf)) .out)))) (.cut 1 (.ref (.cut 2 .out (.ref (.cut 3 (.ref (.cut 0 .leaf .leaf)) .out)))) (.ref (.cut 2 .out (.cut 3 (.ref (.cut 0 (.cut 1 .leaf .leaf) (.ref (.cut 1 .leaf .leaf)))) .out))))))))
theorem h39 : check par t39 [34816, 6144, 2048, 4096] [2048, 2048, 2048, 4096] st = true := by decide +kernel
def t40 : Tree := (.ref (.cut 0 (.cut 1 (.cut 2 (.ref (.cut 3 .leaf (.cut 0 .leaf .leaf))) (.ref (.cut 3 (.ref (.cut 0 .leaf .leaf)) (.ref (.cut 0 .leaf .leaf))))) (.ref (.cut 2 (.ref (.cut 3 (.ref (.cut 0 .leaf .leaf)) (.ref (.cut 0 .leaf .leaf)))) (.ref (.cut 3 .leaf (.cut 0 .leaf .leaf)))))) (.cut 1 (.ref (.cut 2 (.ref (.cut 3 (.ref (.cut 0 .leaf .leaf)) (.cut 0 .leaf .leaf))) (.ref (.cut 3 (.ref (.cut 0 .leaf .leaf)) (.ref (.cut 0 (.cut 1 .out .leaf) (.ref (.cut 1 .out .leaf)))))))) (.ref (.cut 2 (.ref (.cut 3 (.ref (.cut 0 .leaf .leaf)) (.ref (.cut 0 (.cut 1 .leaf .leaf) (.ref (.cut 1 .leaf .leaf)))))) (.ref (.cut 3 .leaf (.cut 0 .leaf .leaf))))))))
theorem h40 : check par t40 [34816, 6144, 6144, 2048] [2048, 2048, 2048, 2048] st = true := by decide +kernel
def t41 : Tree := (.ref (.cut 0 (.cut 1 (.cut 2 (.cut 3 (.cut 0 .leaf .leaf) (.ref (.cut 0 .leaf .leaf))) (.ref (.cut 3 (.ref (.cut 0 .leaf .leaf)) (.ref (.cut 0 .leaf .leaf))))) (.cut 2 (.ref (.cut 3 (.ref (.cut 0 .leaf .leaf)) (.ref (.cut 0 .leaf .leaf)))) (.cut 3 (.ref (.cut 0 .leaf .leaf)) (.cut 0 .leaf .leaf)))) (.cut 1 (.cut 2 (.cut 3 (.cut 0 .leaf .leaf) (.ref (.cut 0 (.cut 1 .leaf .leaf) (.cut 1 .leaf .leaf)))) (.ref (.cut 3 (.ref (.cut 0 (.cut 1 .out .leaf) (.cut 1 .out .leaf))) (.ref (.cut 0 .leaf .leaf))))) (.ref (.cut 2 (.ref (.cut 3 (.ref (.cut 0 (.cut 1 .leaf .leaf) (.cut 1 .leaf .leaf))) (.ref (.cut 0 .leaf .leaf)))) (.ref (.cut 3 (.ref (.cut 0 .leaf .leaf)) (.ref (.cut 0 .leaf .leaf)))))))))
theorem h41 : check par t41 [34816, 6144, 6144, 6144] [2048, 2048, 2048, 2048] st = true := by decide +kernel
def t42 : Tree := (.ref (.cut 2 (.ref (.cut 3 (.cut 0 (.cut 1 (.cut 2 .leaf (.ref (.cut 3 .leaf .leaf))) (.cut 2 (.ref (.cut 3 .leaf .leaf)) (.ref (.cut 3 .leaf .leaf)))) (.cut 1 .leaf .leaf)) (.ref (.cut 0 (.ref (.cut 1 (.cut 2 .out (.ref (.cut 3 (.cut 0 .leaf .leaf) .out))) (.cut 2 .out (.cut 3 (.cut 0 .leaf .leaf) .out)))) (.cut 1 (.cut 2 .out (.ref (.cut 3 .leaf .out))) (.ref (.cut 2 .out (.cut 3 .leaf .out)))))))) (.ref (.cut 3 (.ref (.cut 0 (.ref (.cut 1 .out (.cut 2 (.cut 3 (.ref (.cut 0 .leaf .leaf)) (.cut 0 .leaf .leaf)) .out))) (.cut 1 .out (.ref (.cut 2 (.cut 3 .leaf .leaf) .out))))) (.ref (.cut 0 (.ref (.cut 1 .out (.cut 2 (.ref (.cut 3 (.cut 0 .leaf .leaf) (.ref (.cut 0 (.cut 1 .out (.cut 2 .out .out)) (.cut 1 .out (.cut 2 .out .out)))))) .out))) (.ref (.cut 1 .out (.cut 2 (.ref (.cut 3 .leaf (.ref (.cut 0 (.cut 1 .out .leaf) .leaf)))) .out)))))))))
theorem h42 : check par t42 [38912, 2048, 4096, 4096] [2048, 2048, 4096, 4096] st = true := by decide +kernel
def t43 : Tree := (.ref (.cut 3 (.ref (.cut 0 (.ref (.cut 1 (.cut 2 (.cut 3 (.cut 0 .leaf .leaf) (.ref (.cut 0 .leaf .leaf))) (.cut 3 (.ref (.cut 0 .leaf .leaf)) (.cut 0 .leaf .leaf))) (.cut 2 (.cut 3 (.cut 0 .leaf .leaf) (.ref (.cut 0 (.ref (.cut 1 .leaf .leaf)) (.cut 1 .leaf .leaf)))) (.cut 3 (.ref (.cut 0 (.ref (.cut 1 .leaf .leaf)) (.cut 1 .leaf .leaf))) (.cut 0 (.cut 1 .leaf .leaf) .leaf))))) (.cut 1 (.cut 2 (.cut 3 .leaf .leaf) (.ref (.cut 3 .leaf .leaf))) (.ref (.cut 2 (.cut 3 (.cut 0 .leaf .leaf) (.ref (.cut 0 .leaf .leaf))) (.cut 3 (.ref (.cut 0 .leaf .leaf)) (.cut 0 .leaf .leaf))))))) (.ref (.cut 0 (.cut 1 (.cut 2 .out (.ref (.cut 3 (.cut 0 .leaf .leaf) .out))) (.cut 2 .out (.cut 3 (.ref (.cut 0 (.cut 1 .leaf (.cut 2 .out .leaf)) (.cut 1 .leaf .leaf))) .out))) (.cut 1 (.cut 2 .out (.ref (.cut 3 .leaf .out))) (.cut 2 .out (.cut 3 (.ref (.cut 0 (.cut 1 .leaf .leaf) .leaf)) .out)))))))
theorem h43 : check par t43 [38912, 6144, 2048, 4096] [2048, 2048, 2048, 4096] st = true := by decide +kernel
def t44 : Tree := (.ref (.cut 0 (.cut 1 (.cut 2 (.ref (.cut 3 (.cut 0 .leaf .leaf) (.cut 0 .leaf .leaf))) (.ref (.cut 3 (.ref (.cut 0 (.cut 1 .out .leaf) .leaf)) (.ref (.cut 0 (.cut 1 .out .leaf) (.cut 1 .out .leaf)))))) (.cut 2 (.ref (.cut 3 (.ref (.cut 0 (.cut 1 .leaf .leaf) .leaf)) (.ref (.cut 0 (.cut 1 .leaf (.cut 2 .leaf .leaf)) (.cut 1 .leaf .leaf))))) (.cut 3 (.ref (.cut 0 .leaf .leaf)) (.cut 0 (.cut 1 .leaf .leaf) .leaf)))) (.cut 1 (.cut 2 (.ref (.cut 3 .leaf .leaf)) (.ref (.cut 3 (.ref (.cut 0 .leaf .leaf)) (.ref (.cut 0 (.cut 1 .out .leaf) .leaf))))) (.cut 2 (.ref (.cut 3 (.ref (.cut 0 .leaf .leaf)) (.ref (.cut 0 (.cut 1 .leaf .leaf) .leaf)))) (.cut 3 .leaf (.cut 0 .leaf .leaf))))))
theorem h44 : check par t44 [38912, 6144, 6144, 2048] [2048, 2048, 2048, 2048] st = true := by decide +kernel
def t45 : Tree := (.ref (.cut 0 (.cut 1 (.cut 2 (.ref (.cut 3 (.ref (.cut 0 .leaf .leaf)) (.ref (.cut 0 (.cut 1 (.cut 2 .out .leaf) .leaf) (.cut 1 (.ref (.cut 2 .out .leaf)) .leaf))))) (.ref (.cut 3 (.ref (.cut 0 (.cut 1 .out .leaf) (.cut 1 .out .leaf))) (.ref (.cut 0 (.cut 1 .out .leaf) .leaf))))) (.ref (.cut 2 (.ref (.cut 3 (.ref (.cut 0 (.cut 1 .leaf .leaf) (.cut 1 .leaf .leaf))) (.ref (.cut 0 (.cut 1 .leaf .leaf) .leaf)))) (.ref (.cut 3 (.ref (.cut 0 (.cut 1 .leaf .leaf) .leaf)) (.ref (.cut 0 .leaf .leaf))))))) (.cut 1 (.cut 2 (.ref (.cut 3 .leaf (.ref (.cut 0 .leaf .leaf)))) (.ref (.cut 3 (.ref (.cut 0 .leaf .leaf)) (.ref (.cut 0 .leaf .leaf))))) (.ref (.cut 2 (.ref (.cut 3 (.ref (.cut 0 .leaf .leaf)) (.ref (.cut 0 .leaf .leaf)))) (.ref (.cut 3 (.ref (.cut 0 .leaf .leaf)) (.ref (.cut 0 .leaf .leaf)))))))))
theorem h45 : check par t45 [38912, 6144, 6144, 6144] [2048, 2048, 2048, 2048] st = true := by decide +kernel
def t46 : Tree := (.ref (.cut 0 (.cut 1 (.cut 2 .out (.ref (.cut 3 (.ref (.cut 0 (.ref (.cut 1 .out (.cut 2 .out .out))) (.ref (.cut 1 .out (.cut 2 .out .out))))) .out))) (.ref (.cut 2 .out (.ref (.cut 3 (.cut 0 (.cut 1 (.cut 2 .out (.ref (.cut 3 (.cut 0 .leaf .leaf) .out))) (.cut 2 .out (.ref (.cut 3 (.cut 0 .leaf .leaf) .out)))) (.cut 1 (.cut 2 .out (.ref (.cut 3 (.ref (.cut 0 (.cut 1 .out .leaf) (.cut 1 .out (.ref (.cut 2 .out .out))))) .out))) (.cut 2 .out (.cut 3 (.ref (.cut 0 .leaf (.cut 1 .leaf .leaf))) .out)))) .out))))) (.ref (.cut 1 (.cut 2 .out (.ref (.cut 3 (.ref (.cut 0 (.cut 1 .out (.cut 2 .out .out)) (.cut 1 .out (.cut 2 .out .out)))) .out))) (.ref (.cut 2 .out (.cut 3 (.cut 0 (.cut 1 (.cut 2 .out (.ref (.cut 3 (.cut 0 (.cut 1 .out (.ref (.cut 2 .out .out))) (.cut 1 .out (.ref (.cut 2 .out .out)))) .out))) (.cut 2 .out (.cut 3 (.ref (.cut 0 (.cut 1 (.cut 2 .out .leaf) .leaf) (.cut 1 (.cut 2 .out .leaf) .leaf))) .out))) (.cut 1 (.cut 2 .out (.ref (.cut 3 (.cut 0 (.cut 1 .out (.ref (.cut 2 .out .out))) (.cut 1 .out .leaf)) .out))) (.cut 2 .out (.cut 3 (.ref (.cut 0 (.cut 1 (.cut 2 .out .leaf) .leaf) .leaf)) .out)))) .out)))))))
theorem h46 : check par t46 [36864, 4096, 4096, 12288] [4096, 4096, 4096, 4096] st = true := by decide +kernel
def t47 : Tree := (.ref (.cut 3 (.ref (.cut 0 (.cut 1 .out (.ref (.cut 2 (.ref (.cut 3 (.ref (.cut 0 (.ref (.cut 1 .out (.ref (.cut 2 (.cut 3 .leaf (.cut 0 .leaf .leaf)) .out)))) (.ref (.cut 1 .out (.ref (.cut 2 (.cut 3 (.cut 0 .leaf .leaf) (.cut 0 (.cut 1 .out .leaf) (.cut 1 .out .leaf))) .out)))))) (.cut 0 (.cut 1 .out (.cut 2 (.ref (.cut 3 (.ref (.cut 0 .leaf .leaf)) (.ref (.cut 0 .leaf .leaf)))) .out)) (.cut 1 .out (.cut 2 (.ref (.cut 3 (.ref (.cut 0 (.cut 1 .out .leaf) (.cut 1 .out .leaf))) (.ref (.cut 0 .leaf (.cut 1 .out .leaf))))) .out))))) .out))) (.ref (.cut 1 .out (.ref (.cut 2 (.cut 3 (.ref (.cut 0 (.cut 1 .out (.ref (.cut 2 (.cut 3 (.cut 0 .leaf .leaf) (.cut 0 (.cut 1 .out .leaf) (.cut 1 .out .leaf))) .out))) (.cut 1 .out (.ref (.cut 2 (.ref (.cut 3 (.cut 0 .leaf .leaf) (.cut 0 (.cut 1 .out .leaf) .leaf))) .out))))) (.cut 0 (.cut 1 .out (.cut 2 (.ref (.cut 3 (.ref (.cut 0 (.cut 1 .out .leaf) (.cut 1 .out .leaf))) (.ref (.cut 0 (.cut 1 .out .leaf) (.cut 1 .out .leaf))))) .out)) (.cut 1 .out (.cut 2 (.ref (.cut 3 (.ref (.cut 0 (.cut 1 .out .leaf) (.cut 1 .out .leaf))) (.ref (.cut 0 (.cut 1 .out .leaf) .leaf)))) .out)))) .out)))))) (.ref (.cut 0 (.ref (.cut 1 .out (.cut 2 (.ref (.cut 3 (.ref (.cut 0 (.cut 1 .out (.cut 2 (.cut 3 (.cut 0 .leaf .leaf) (.ref (.cut 0 .leaf .leaf))) .out)) (.cut 1 .out (.cut 2 (.cut 3 (.cut 0 .leaf .leaf) (.ref (.cut 0 .leaf .leaf))) .out)))) (.ref (.cut 0 (.cut 1 .out (.cut 2 .out .out)) (.cut 1 .out (.cut 2 .out .out)))))) .out))) (.ref (.cut 1 .out (.cut 2 (.ref (.cut 3 (.ref (.cut 0 (.cut 1 .out (.cut 2 (.cut 3 (.cut 0 .leaf .leaf) (.ref (.cut 0 .leaf .leaf))) .out)) (.cut 1 .out (.cut 2 (.cut 3 (.cut 0 .leaf .leaf) (.ref (.cut 0 .leaf .leaf))) .out)))) (.ref (.cut 0 (.cut 1 .out (.cut 2 .out .out)) (.cut 1 .out (.cut 2 .out .out)))))) .out)))))))
theorem h47 : check par t47 [36864, 4096, 12288, 8192] [4096, 4096, 4096, 8192] st = true := by decide +kernel
def t48 : Tree := (.ref (.cut 3 (.cut 0 (.cut 1 (.cut 2 (.ref (.cut 3 (.ref (.cut 0 .leaf .leaf)) (.ref (.cut 0 .leaf .leaf)))) (.ref (.cut 3 (.ref (.cut 0 .leaf .leaf)) (.ref (.cut 0 .leaf .leaf))))) (.ref (.cut 2 (.ref (.cut 3 .leaf .leaf)) (.cut 3 .leaf (.ref (.cut 0 .leaf .leaf)))))) (.cut 1 (.cut 2 (.ref (.cut 3 (.ref (.cut 0 .leaf (.cut 1 .leaf .leaf))) (.ref (.cut 0 .leaf (.cut 1 .leaf .leaf))))) (.ref (.cut 3 (.ref (.cut 0 .leaf (.cut 1 .leaf .leaf))) (.ref (.cut 0 (.cut 1 .leaf .leaf) (.cut 1 .leaf .leaf)))))) (.cut 2 (.ref (.cut 3 (.ref (.cut 0 .leaf .leaf)) (.ref (.cut 0 .leaf .leaf)))) (.ref (.cut 3 (.ref (.cut 0 .leaf .leaf)) (.ref (.cut 0 (.ref (.cut 1 .leaf .leaf)) (.ref (.cut 1 .leaf .leaf))))))))) (.ref (.cut 0 (.ref (.cut 1 (.cut 2 .out (.cut 3 (.cut 0 .leaf (.cut 1 .leaf .leaf)) .out)) (.cut 2 .out (.cut 3 (.cut 0 .leaf .leaf) .out)))) (.ref (.cut 1 (.cut 2 .out (.cut 3 (.cut 0 (.cut 1 .leaf .leaf) (.cut 1 (.ref (.cut 2 .out .leaf)) (.cut 2 .out .leaf))) .out)) (.cut 2 .out (.cut 3 (.cut 0 (.cut 1 .leaf .leaf) (.cut 1 .leaf .leaf)) .out))))))))
theorem h48 : check par t48 [34816, 10240, 2048, 4096] [2048, 2048, 2048, 4096] st = true := by decide +kernel
def t49 : Tree := (.ref (.cut 0 (.ref (.cut 1 (.cut 2 (.cut 3 (.cut 0 .leaf .leaf) (.cut 0 .leaf (.cut 1 .leaf .leaf))) (.ref (.cut 3 .leaf (.cut 0 .leaf .leaf)))) (.cut 2 (.cut 3 .leaf (.cut 0 .leaf .leaf)) (.ref (.cut 3 .leaf (.cut 0 .leaf .leaf)))))) (.ref (.cut 1 (.cut 2 (.cut 3 (.ref (.cut 0 .leaf (.cut 1 .leaf .leaf))) (.cut 0 (.cut 1 .leaf .leaf) (.cut 1 (.ref (.cut 2 .leaf .leaf)) (.cut 2 .leaf .leaf)))) (.ref (.cut 3 (.cut 0 .leaf .leaf) (.cut 0 (.cut 1 .leaf .leaf) (.cut 1 .leaf .leaf))))) (.cut 2 (.cut 3 (.cut 0 .leaf .leaf) (.cut 0 (.cut 1 .leaf .leaf) (.cut 1 .leaf .leaf))) (.ref (.cut 3 (.cut 0 .leaf .leaf) (.cut 0 .leaf (.cut 1 .leaf .leaf)))))))))
theorem h49 : check par t49 [34816, 10240, 6144, 2048] [2048, 2048, 2048, 2048] st = true := by decide +kernel
end FastNoise.RangeCheck.OuterSuper4
