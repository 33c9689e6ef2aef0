import Verif.RangeCertOuterSimplex2
/-! Generated by tools/rangecert/gen.py: a certificate for the checker `Verif.RangeCheck`. -/
namespace FastNoise.RangeCheck.OuterSimplex2
set_option maxRecDepth 1000000
def t0 : Tree := (.ref (.cut 1 (.cut 0 (.cut 1 (.ref .leaf) (.ref (.cut 0 .out (.ref .leaf)))) (.ref (.cut 1 (.ref (.cut 0 .leaf (.cut 1 (.ref .leaf) (.ref .leaf)))) (.ref (.cut 0 (.ref .leaf) (.ref .leaf)))))) (.ref (.cut 0 .out (.ref (.cut 1 (.cut 0 .out (.cut 1 (.ref .leaf) .out)) .out))))))
theorem h0 : check par t0 [8192, 16384] [8192, 16384] st = true := by decide +kernel
def t1 : Tree := (.ref (.cut 1 (.ref (.cut 0 (.cut 1 (.cut 0 .leaf .leaf) (.cut 0 .leaf .leaf)) (.cut 1 (.cut 0 (.cut 1 .leaf .leaf) (.cut 1 .leaf .leaf)) (.cut 0 .leaf (.cut 1 .leaf .leaf))))) (.cut 0 (.cut 1 (.ref .leaf) (.ref .leaf)) (.cut 1 (.cut 0 (.ref .leaf) (.ref .leaf)) (.ref (.cut 0 .leaf .leaf))))))
theorem h1 : check par t1 [20480, 8192] [4096, 8192] st = true := by decide +kernel
def t2 : Tree := (.ref (.cut 1 (.ref (.cut 0 (.cut 1 (.cut 0 (.cut 1 (.cut 0 .leaf .leaf) (.cut 0 .leaf .leaf)) (.cut 1 (.cut 0 .leaf .leaf) (.cut 0 .leaf .leaf))) (.cut 0 (.cut 1 (.cut 0 .leaf .leaf) .leaf) (.cut 1 (.cut 0 .leaf .leaf) .leaf))) (.cut 1 (.cut 0 (.cut 1 (.cut 0 .leaf .leaf) (.cut 0 .leaf .leaf)) (.cut 1 (.cut 0 .leaf .leaf) (.cut 0 .leaf .leaf))) (.cut 0 (.cut 1 (.cut 0 .leaf .leaf) .leaf) (.cut 1 (.cut 0 .leaf .leaf) .leaf))))) (.cut 0 (.cut 1 (.ref (.cut 0 .leaf .leaf)) (.cut 0 (.ref .leaf) (.ref .leaf))) (.cut 1 (.ref (.cut 0 (.cut 1 .leaf .leaf) (.cut 1 .leaf .leaf))) (.cut 0 (.ref .leaf) (.ref .leaf))))))
theorem h2 : check par t2 [28672, 8192] [4096, 8192] st = true := by decide +kernel
def t3 : Tree := (.ref (.cut 0 (.cut 1 (.cut 0 (.cut 1 (.ref .leaf) (.ref (.cut 0 .out (.cut 1 .leaf .out)))) (.cut 1 (.ref (.cut 0 .leaf .leaf)) (.cut 0 (.cut 1 (.ref .leaf) (.ref .leaf)) (.cut 1 (.ref .leaf) (.ref .leaf))))) (.ref (.cut 0 .out (.ref (.cut 1 (.cut 0 .out (.cut 1 .leaf .out)) .out))))) (.cut 1 (.ref (.cut 0 (.cut 1 (.cut 0 (.cut 1 .leaf .leaf) (.cut 1 .leaf .leaf)) (.cut 0 (.cut 1 .leaf .leaf) (.cut 1 .leaf .leaf))) (.cut 1 (.cut 0 .leaf .leaf) (.cut 0 (.cut 1 .leaf .leaf) (.cut 1 .leaf .leaf))))) (.cut 0 (.cut 1 (.cut 0 (.cut 1 (.ref .leaf) (.ref .leaf)) (.cut 1 (.ref .leaf) (.ref .leaf))) (.ref (.cut 0 .out (.ref (.cut 1 .leaf .out))))) (.cut 1 (.ref (.cut 0 (.cut 1 .leaf .leaf) (.cut 1 .leaf .leaf))) (.cut 0 (.cut 1 (.ref .leaf) (.ref .leaf)) (.cut 1 (.ref .leaf) (.ref .leaf))))))))
theorem h3 : check par t3 [24576, 24576] [8192, 8192] st = true := by decide +kernel
def t4 : Tree := (.ref (.cut 0 .out (.cut 1 (.ref (.cut 0 .out (.cut 1 (.ref (.cut 0 .out (.cut 1 (.cut 0 .out (.cut 1 .leaf .out)) .out))) .out))) .out)))
theorem h4 : check par t4 [16384, 49152] [16384, 16384] st = true := by decide +kernel
def t5 : Tree := (.ref (.cut 1 (.cut 0 (.cut 1 (.cut 0 (.cut 1 (.cut 0 .leaf (.ref .leaf)) (.cut 0 (.ref .leaf) .leaf)) (.cut 1 (.cut 0 (.ref .leaf) (.ref .leaf)) (.cut 0 (.ref .leaf) (.ref .leaf)))) (.cut 0 (.cut 1 (.cut 0 (.ref .leaf) (.ref .leaf)) (.ref .leaf)) (.cut 1 (.cut 0 .leaf (.ref .leaf)) .leaf))) (.cut 1 (.cut 0 (.cut 1 (.cut 0 (.ref .leaf) (.ref .leaf)) (.cut 0 (.ref .leaf) (.ref .leaf))) (.cut 1 (.cut 0 (.ref .leaf) (.ref .leaf)) (.cut 0 (.ref .leaf) (.ref .leaf)))) (.cut 0 (.cut 1 (.cut 0 (.ref .leaf) (.ref .leaf)) (.ref .leaf)) (.cut 1 (.cut 0 (.ref .leaf) (.ref .leaf)) (.ref .leaf))))) (.cut 0 (.cut 1 (.cut 0 (.cut 1 (.ref .leaf) (.ref .leaf)) (.ref .leaf)) (.cut 0 (.ref .leaf) (.ref .leaf))) (.cut 1 (.cut 0 (.cut 1 .leaf .leaf) (.cut 1 (.ref .leaf) (.ref .leaf))) (.cut 0 (.ref .leaf) .leaf)))))
theorem h5 : check par t5 [36864, 8192] [4096, 8192] st = true := by decide +kernel
def t6 : Tree := (.ref (.cut 1 (.cut 0 (.cut 1 (.cut 0 (.cut 1 (.cut 0 (.ref .leaf) (.ref .leaf)) (.cut 0 (.ref .leaf) (.ref .leaf))) (.cut 1 (.ref .leaf) (.cut 0 (.ref .leaf) (.ref .leaf)))) (.cut 0 (.cut 1 (.cut 0 (.ref .leaf) (.ref .leaf)) (.ref .leaf)) (.cut 1 (.cut 0 (.ref .leaf) (.ref .leaf)) (.ref .leaf)))) (.cut 1 (.cut 0 (.cut 1 (.ref .leaf) (.ref .leaf)) (.cut 1 (.ref .leaf) (.ref .leaf))) (.cut 0 (.cut 1 (.ref .leaf) (.ref .leaf)) (.cut 1 (.ref .leaf) (.ref .leaf))))) (.cut 0 (.cut 1 (.cut 0 (.cut 1 (.ref .leaf) (.ref .leaf)) (.cut 1 (.ref .leaf) (.ref .leaf))) (.cut 0 (.ref .leaf) (.ref .leaf))) (.cut 1 (.cut 0 (.cut 1 (.ref .leaf) (.ref .leaf)) (.cut 1 (.ref .leaf) (.ref .leaf))) (.cut 0 (.ref .leaf) (.ref .leaf))))))
theorem h6 : check par t6 [45056, 8192] [4096, 8192] st = true := by decide +kernel
def t7 : Tree := (.ref (.cut 0 (.cut 1 (.ref (.cut 0 (.cut 1 .leaf (.cut 0 (.ref .leaf) (.ref .leaf))) (.cut 1 .leaf (.ref .leaf)))) (.ref (.cut 0 (.cut 1 (.cut 0 (.cut 1 (.ref .leaf) (.ref .leaf)) (.cut 1 (.ref .leaf) (.ref .leaf))) (.cut 0 (.cut 1 (.ref .leaf) .leaf) (.cut 1 .leaf (.ref .leaf)))) (.cut 1 (.cut 0 .leaf .leaf) (.cut 0 (.cut 1 (.ref .leaf) .out) .out))))) (.cut 1 (.cut 0 (.cut 1 (.ref .leaf) .leaf) (.cut 1 (.ref .leaf) (.ref .leaf))) (.ref (.cut 0 (.cut 1 (.ref .leaf) .out) .out)))))
theorem h7 : check par t7 [40960, 24576] [8192, 8192] st = true := by decide +kernel
def t8 : Tree := (.ref (.cut 1 (.cut 0 (.cut 1 (.ref (.cut 0 (.cut 1 (.cut 0 .leaf .leaf) (.cut 0 (.cut 1 .leaf .leaf) .leaf)) (.cut 1 .leaf .leaf))) (.cut 0 (.cut 1 (.ref (.cut 0 (.cut 1 .leaf .leaf) .leaf)) (.cut 0 (.ref .leaf) (.ref .leaf))) (.cut 1 (.cut 0 (.ref .leaf) (.ref .leaf)) (.ref (.cut 0 .leaf .out))))) (.cut 1 (.cut 0 (.ref .leaf) (.ref .leaf)) (.ref (.cut 0 (.cut 1 .leaf .out) .out)))) (.cut 0 (.cut 1 (.ref (.cut 0 (.cut 1 (.cut 0 .leaf .out) .out) .out)) .out) .out)))
theorem h8 : check par t8 [57344, 16384] [8192, 16384] st = true := by decide +kernel
def t9 : Tree := (.ref (.cut 0 (.ref (.cut 1 (.ref (.cut 0 (.cut 1 (.cut 0 (.cut 1 (.cut 0 (.cut 1 (.ref .leaf) .out) .out) .out) .out) .out) .out)) .out)) .out))
theorem h9 : check par t9 [49152, 49152] [16384, 16384] st = true := by decide +kernel
end FastNoise.RangeCheck.OuterSimplex2
