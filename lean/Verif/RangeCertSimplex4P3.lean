import Verif.RangeCertSimplex4
/-! Generated by tools/rangecert/gen.py: a certificate for the checker `Verif.RangeCheck`. -/
namespace FastNoise.RangeCheck.Simplex4
set_option maxRecDepth 1000000
def t35 : Tree := (.ref (.cut 1 (.ref (.cut 2 (.ref (.cut 3 (.ref (.cut 0 (.cut 1 (.cut 2 (.cut 3 (.cut 0 (.cut 1 (.cut 2 (.ref .leaf) (.ref (.cut 3 .leaf (.ref .leaf)))) (.cut 2 (.ref (.cut 3 .leaf (.ref .leaf))) (.ref .leaf))) (.cut 1 (.ref .leaf) (.ref .leaf))) (.ref (.cut 0 (.cut 1 (.cut 2 .out (.ref (.cut 3 .leaf .out))) (.cut 2 .out .leaf)) (.cut 1 (.cut 2 .out (.ref .leaf)) (.cut 2 .out .leaf))))) (.ref (.cut 3 (.cut 0 (.cut 1 .out (.cut 2 (.cut 3 (.ref .leaf) .leaf) .out)) (.cut 1 .out (.cut 2 .leaf .out))) (.ref (.cut 0 (.cut 1 .out (.ref (.cut 2 (.cut 3 (.cut 0 .leaf .leaf) (.cut 0 .leaf .leaf)) .out))) (.cut 1 .out (.cut 2 (.cut 3 .leaf .leaf) .out))))))) (.cut 2 (.ref (.cut 3 (.cut 0 (.cut 1 (.cut 2 (.cut 3 .leaf (.ref .leaf)) (.cut 3 (.ref .leaf) .leaf)) (.cut 2 (.cut 3 .leaf (.ref .leaf)) (.cut 3 (.ref .leaf) (.ref .leaf)))) (.cut 1 (.cut 2 .leaf .leaf) .leaf)) (.ref (.cut 0 (.cut 1 (.cut 2 .out (.ref (.cut 3 (.cut 0 .leaf .leaf) .out))) (.ref (.cut 2 .out (.cut 3 (.cut 0 .leaf .leaf) .out)))) (.cut 1 (.cut 2 .out (.cut 3 .leaf .out)) (.cut 2 .out (.cut 3 .leaf .out))))))) (.cut 3 (.ref (.cut 0 (.cut 1 (.cut 2 (.cut 3 (.cut 0 (.ref (.cut 1 .leaf (.cut 2 .leaf .leaf))) .leaf) (.ref (.cut 0 .leaf .leaf))) (.ref (.cut 3 (.cut 0 (.cut 1 .out .leaf) .leaf) (.cut 0 .leaf .leaf)))) (.ref (.cut 2 (.cut 3 (.cut 0 (.cut 1 (.cut 2 .leaf .leaf) (.cut 2 .leaf .leaf)) .leaf) (.cut 0 .leaf .leaf)) (.cut 3 (.cut 0 (.cut 1 .leaf .leaf) .leaf) (.cut 0 (.cut 1 .leaf (.cut 2 .leaf .leaf)) (.cut 1 .leaf .leaf)))))) (.cut 1 (.cut 2 (.cut 3 .leaf .leaf) (.cut 3 .leaf .leaf)) (.cut 2 (.cut 3 .leaf .leaf) (.cut 3 .leaf (.cut 0 (.ref .leaf) .leaf)))))) (.cut 0 (.ref (.cut 1 (.cut 2 (.cut 3 .leaf (.ref .leaf)) (.cut 3 (.ref .leaf) (.ref (.cut 0 .leaf .leaf)))) (.cut 2 (.cut 3 (.ref .leaf) (.ref (.cut 0 .leaf .leaf))) (.cut 3 (.ref (.cut 0 .leaf .leaf)) .leaf)))) (.cut 1 (.cut 2 (.ref .leaf) (.ref (.cut 3 .leaf (.ref .leaf)))) (.cut 2 (.ref (.cut 3 .leaf (.ref .leaf))) (.ref (.cut 3 (.ref .leaf) .leaf)))))))) (.cut 1 (.cut 2 (.cut 3 (.ref .leaf) (.ref (.cut 0 .leaf .leaf))) (.ref (.cut 3 (.cut 0 .leaf .leaf) (.ref (.cut 0 (.cut 1 .out (.cut 2 .leaf .out)) .leaf))))) (.cut 2 (.ref (.cut 3 (.cut 0 .leaf .leaf) (.ref (.cut 0 (.cut 1 .leaf (.cut 2 .out .leaf)) .leaf)))) (.cut 3 (.ref (.cut 0 (.cut 1 .leaf (.cut 2 .leaf .leaf)) .leaf)) (.cut 0 (.cut 1 (.cut 2 (.ref .leaf) (.ref .leaf)) (.cut 2 (.ref .leaf) (.ref .leaf))) (.cut 1 (.ref .leaf) (.ref .leaf)))))))) (.ref (.cut 0 (.cut 1 (.cut 2 .out (.ref (.cut 3 (.cut 0 (.ref (.cut 1 .out (.cut 2 .out .out))) (.cut 1 .out (.cut 2 .out .out))) .out))) (.cut 2 .out (.ref (.cut 3 (.cut 0 (.cut 1 (.cut 2 .out (.cut 3 (.cut 0 (.ref .leaf) (.ref .leaf)) .out)) (.cut 2 .out (.cut 3 .leaf .out))) (.cut 1 (.cut 2 .out (.cut 3 (.ref .leaf) .out)) (.cut 2 .out .leaf))) .out)))) (.cut 1 (.cut 2 .out (.ref (.cut 3 (.cut 0 (.cut 1 .out (.cut 2 .out .out)) (.cut 1 .out (.ref .leaf))) .out))) (.cut 2 .out (.cut 3 (.cut 0 (.cut 1 (.cut 2 .out (.ref .leaf)) (.cut 2 .out (.ref .leaf))) (.ref .leaf)) .out))))))) (.ref (.cut 3 (.cut 0 (.cut 1 .out (.cut 2 (.ref (.cut 3 (.ref (.cut 0 (.ref (.cut 1 .out (.cut 2 (.cut 3 (.cut 0 (.cut 1 .out (.cut 2 .leaf .out)) (.cut 1 .out .leaf)) (.cut 0 (.cut 1 .out .leaf) (.cut 1 .out .leaf))) .out))) (.cut 1 .out (.ref (.cut 2 (.cut 3 (.cut 0 (.ref .leaf) (.ref .leaf)) (.cut 0 (.ref .leaf) (.ref .leaf))) .out))))) (.ref (.cut 0 (.cut 1 .out (.cut 2 (.cut 3 (.cut 0 (.ref .leaf) (.ref .leaf)) .leaf) .out)) (.cut 1 .out (.cut 2 (.cut 3 (.ref .leaf) (.ref .leaf)) .out)))))) .out)) (.cut 1 .out (.cut 2 (.ref (.cut 3 (.ref (.cut 0 (.ref (.cut 1 .out (.cut 2 .leaf .out))) (.ref (.cut 1 .out .leaf)))) (.ref (.cut 0 (.cut 1 .out (.cut 2 .leaf .out)) .leaf)))) .out))) (.ref (.cut 0 (.ref (.cut 1 .out (.cut 2 (.cut 3 (.cut 0 (.cut 1 .out (.cut 2 (.cut 3 .leaf (.ref .leaf)) .out)) (.cut 1 .out (.cut 2 (.cut 3 (.ref .leaf) (.ref .leaf)) .out))) (.ref (.cut 0 (.cut 1 .out (.cut 2 .out .out)) (.cut 1 .out (.cut 2 .out .out))))) .out))) (.cut 1 .out (.cut 2 (.cut 3 (.ref (.cut 0 (.cut 1 .out (.ref (.cut 2 (.cut 3 .leaf .leaf) .out))) (.cut 1 .out (.cut 2 .leaf .out)))) (.cut 0 (.ref (.cut 1 .out (.cut 2 .out .out))) (.cut 1 .out (.ref (.cut 2 .out .out))))) .out)))))))) (.cut 2 (.ref (.cut 3 (.cut 0 (.ref (.cut 1 (.ref (.cut 2 (.cut 3 (.cut 0 (.cut 1 (.cut 2 (.cut 3 (.ref .leaf) (.ref .leaf)) (.ref .leaf)) (.ref .leaf)) (.cut 1 (.ref .leaf) .leaf)) (.ref (.cut 0 (.ref (.cut 1 (.cut 2 .out (.cut 3 (.cut 0 .leaf .leaf) .out)) (.cut 2 .out (.cut 3 (.ref .leaf) .out)))) (.cut 1 (.cut 2 .out (.cut 3 (.ref .leaf) .out)) (.ref (.cut 2 .out (.cut 3 .leaf .out))))))) (.cut 3 (.ref (.cut 0 (.ref (.cut 1 (.cut 2 (.cut 3 (.cut 0 (.cut 1 .leaf (.ref .leaf)) .leaf) (.cut 0 .leaf .leaf)) (.cut 3 (.cut 0 (.cut 1 .leaf (.ref .leaf)) (.cut 1 (.ref .leaf) .leaf)) (.cut 0 (.cut 1 .leaf (.ref .leaf)) (.cut 1 (.ref .leaf) .leaf)))) (.cut 2 (.ref .leaf) (.cut 3 (.cut 0 .out (.ref .leaf)) (.cut 0 .out (.ref .leaf)))))) (.cut 1 (.cut 2 (.ref .leaf) (.ref (.cut 3 (.cut 0 .leaf .leaf) (.cut 0 .leaf .leaf)))) (.ref (.cut 2 .leaf (.cut 3 .leaf .leaf)))))) (.ref (.cut 0 (.cut 1 (.cut 2 (.cut 3 .leaf (.cut 0 (.ref .leaf) (.ref .leaf))) (.cut 3 (.cut 0 (.ref .leaf) (.ref .leaf)) .leaf)) (.cut 2 (.cut 3 (.ref .leaf) (.ref .leaf)) (.cut 3 (.ref .leaf) (.ref .leaf)))) (.cut 1 (.cut 2 (.cut 3 (.ref .leaf) (.ref .leaf)) (.cut 3 (.ref .leaf) (.ref .leaf))) (.cut 2 (.cut 3 .leaf (.ref .leaf)) (.cut 3 (.ref .leaf) .leaf)))))))) (.ref (.cut 2 (.ref (.cut 3 (.cut 0 .out .leaf) (.ref (.cut 0 .out (.cut 1 (.cut 2 .out .leaf) .out))))) (.ref (.cut 3 (.cut 0 .out (.ref (.cut 1 (.cut 2 .leaf (.cut 3 .leaf .leaf)) .out))) (.ref (.cut 0 .out (.cut 1 (.cut 2 .leaf .leaf) .out))))))))) (.ref (.cut 1 (.ref (.cut 2 (.ref (.cut 3 (.cut 0 .leaf .leaf) (.ref (.cut 0 (.cut 1 (.cut 2 .out .leaf) (.cut 2 .out .leaf)) (.cut 1 .leaf .leaf))))) (.cut 3 (.ref (.cut 0 (.ref (.cut 1 (.cut 2 .leaf .leaf) (.cut 2 .leaf (.cut 3 .leaf .leaf)))) (.ref (.cut 1 .leaf .leaf)))) (.ref (.cut 0 (.cut 1 (.cut 2 .leaf .leaf) (.cut 2 .leaf (.ref .leaf))) .leaf))))) (.cut 2 (.ref (.cut 3 .leaf (.ref (.cut 0 (.cut 1 .leaf (.ref .leaf)) .leaf)))) (.ref (.cut 3 (.ref (.cut 0 (.cut 1 .leaf (.ref .leaf)) .leaf)) (.ref (.cut 0 (.ref (.cut 1 .leaf (.ref .leaf))) (.cut 1 (.ref .leaf) .leaf))))))))) (.ref (.cut 0 (.ref (.cut 1 (.cut 2 .out (.cut 3 (.cut 0 (.cut 1 (.cut 2 .out (.cut 3 .leaf .out)) (.cut 2 .out (.cut 3 (.ref .leaf) .out))) (.cut 1 (.cut 2 .out (.cut 3 (.ref .leaf) .out)) (.cut 2 .out (.cut 3 (.ref .leaf) .out)))) .out)) (.cut 2 .out (.cut 3 (.ref (.cut 0 .out (.cut 1 (.cut 2 .out (.cut 3 .leaf .out)) .out))) .out)))) (.cut 1 (.cut 2 .out (.cut 3 (.ref (.cut 0 (.cut 1 (.ref (.cut 2 .out (.cut 3 .leaf .out))) (.ref (.cut 2 .out (.cut 3 .leaf .out)))) (.cut 1 (.cut 2 .out .leaf) (.cut 2 .out .leaf)))) .out)) (.cut 2 .out (.cut 3 (.cut 0 (.ref (.cut 1 (.cut 2 .out (.cut 3 .leaf .out)) (.cut 2 .out (.cut 3 (.ref .leaf) .out)))) (.cut 1 (.ref (.cut 2 .out (.ref (.cut 3 .leaf .out)))) (.ref (.cut 2 .out .leaf)))) .out))))))) (.ref (.cut 3 (.ref (.cut 0 (.ref (.cut 1 (.cut 2 (.cut 3 (.cut 0 (.ref (.cut 1 (.cut 2 (.cut 3 (.cut 0 (.cut 1 (.cut 2 .leaf (.ref .leaf)) (.ref .leaf)) (.cut 1 (.ref .leaf) .leaf)) (.cut 0 .leaf .leaf)) (.ref (.cut 3 (.cut 0 .leaf .leaf) (.cut 0 .leaf .leaf)))) (.cut 2 (.ref (.cut 3 (.cut 0 .out .leaf) (.cut 0 .out .leaf))) (.cut 3 (.ref .leaf) (.ref .leaf))))) (.cut 1 (.ref (.cut 2 (.cut 3 (.cut 0 (.ref .leaf) (.ref .leaf)) (.cut 0 (.ref .leaf) (.ref .leaf))) (.cut 3 .leaf .leaf))) (.cut 2 (.ref (.cut 3 .leaf .leaf)) (.cut 3 .leaf (.ref .leaf))))) (.ref (.cut 0 (.cut 1 (.cut 2 (.cut 3 .leaf .leaf) (.ref (.cut 3 .leaf .leaf))) (.cut 2 (.ref (.cut 3 .leaf .leaf)) (.cut 3 (.ref .leaf) (.ref .leaf)))) (.cut 1 (.cut 2 (.ref (.cut 3 .leaf .leaf)) (.cut 3 (.ref .leaf) (.ref .leaf))) (.cut 2 (.cut 3 (.ref .leaf) (.ref .leaf)) .leaf))))) (.ref (.cut 3 (.cut 0 (.cut 1 .out (.cut 2 (.cut 3 .leaf (.ref .leaf)) .out)) (.cut 1 .out (.cut 2 (.cut 3 .leaf (.ref .leaf)) .out))) (.ref (.cut 0 (.cut 1 .out (.cut 2 .leaf .out)) (.cut 1 .out (.cut 2 (.cut 3 .leaf .leaf) .out))))))) (.ref (.cut 2 (.ref (.cut 3 (.cut 0 .out (.cut 1 (.cut 2 (.cut 3 .leaf (.ref .leaf)) (.cut 3 .leaf (.ref .leaf))) .out)) (.ref (.cut 0 .out (.cut 1 (.cut 2 .leaf (.cut 3 .leaf .leaf)) .out))))) (.cut 3 (.cut 0 .out (.cut 1 (.cut 2 .leaf (.ref .leaf)) .out)) (.cut 0 .out (.cut 1 (.ref (.cut 2 (.cut 3 .leaf .leaf) (.cut 3 (.ref .leaf) (.ref .leaf)))) .out))))))) (.cut 1 (.ref (.cut 2 (.ref (.cut 3 (.cut 0 (.cut 1 (.cut 2 (.ref (.cut 3 .leaf .leaf)) (.cut 3 .leaf (.ref .leaf))) (.cut 2 (.cut 3 .leaf (.ref .leaf)) (.ref (.cut 3 .leaf (.ref .leaf))))) (.cut 1 .leaf .leaf)) (.ref (.cut 0 (.cut 1 (.ref (.cut 2 (.cut 3 .leaf .leaf) .leaf)) (.ref (.cut 2 .leaf (.cut 3 .leaf .leaf)))) (.cut 1 (.cut 2 .leaf .leaf) (.cut 2 .leaf .leaf)))))) (.cut 3 (.cut 0 (.ref (.cut 1 .out (.cut 2 .leaf .out))) (.cut 1 .out .leaf)) (.cut 0 (.ref (.cut 1 .out (.cut 2 (.cut 3 .leaf .leaf) .out))) (.cut 1 .out (.ref (.cut 2 (.ref (.cut 3 .leaf .leaf)) .out))))))) (.cut 2 (.ref (.cut 3 (.cut 0 (.ref (.cut 1 (.cut 2 .leaf .leaf) (.ref .leaf))) (.cut 1 (.ref .leaf) .leaf)) (.cut 0 (.ref (.cut 1 (.cut 2 .leaf (.cut 3 .leaf .leaf)) (.cut 2 (.ref .leaf) (.cut 3 (.ref .leaf) (.ref .leaf))))) (.cut 1 (.ref (.cut 2 .leaf (.ref (.cut 3 .leaf .leaf)))) (.ref (.cut 2 (.ref .leaf) .leaf)))))) (.ref (.cut 3 (.cut 0 (.cut 1 (.cut 2 .leaf (.ref .leaf)) (.ref .leaf)) (.cut 1 (.ref .leaf) .leaf)) (.cut 0 (.cut 1 (.cut 2 (.ref (.cut 3 .leaf .leaf)) (.ref (.cut 3 .leaf (.ref .leaf)))) (.ref (.cut 2 (.ref (.cut 3 .leaf (.ref .leaf))) .leaf))) (.cut 1 (.ref (.cut 2 (.ref (.cut 3 .leaf (.ref .leaf))) .leaf)) (.cut 2 (.ref .leaf) .leaf))))))))) (.ref (.cut 0 (.ref (.cut 1 (.cut 2 (.cut 3 (.cut 0 (.cut 1 (.cut 2 .leaf (.ref (.cut 3 (.ref .leaf) (.ref .leaf)))) (.ref (.cut 2 (.cut 3 (.ref .leaf) (.ref .leaf)) (.cut 3 (.ref .leaf) (.ref .leaf))))) (.cut 1 (.ref (.cut 2 (.cut 3 (.ref .leaf) (.ref .leaf)) (.cut 3 (.ref .leaf) (.ref .leaf)))) (.cut 2 (.ref (.cut 3 (.ref .leaf) (.ref .leaf))) (.cut 3 (.ref .leaf) .leaf)))) (.ref (.cut 0 (.cut 1 (.cut 2 .out (.cut 3 (.ref .leaf) .out)) (.cut 2 .out (.ref (.cut 3 .leaf .out)))) (.cut 1 (.cut 2 .out (.ref (.cut 3 .leaf .out))) (.cut 2 .out .leaf))))) (.ref (.cut 3 (.cut 0 (.cut 1 .out (.ref (.cut 2 (.cut 3 .leaf (.ref .leaf)) .out))) (.cut 1 .out (.cut 2 (.cut 3 (.ref .leaf) (.ref .leaf)) .out))) (.cut 0 (.cut 1 .out (.ref (.cut 2 (.cut 3 .leaf (.ref .leaf)) .out))) (.cut 1 .out (.cut 2 (.ref .leaf) .out)))))) (.ref (.cut 2 (.cut 3 (.ref (.cut 0 .out (.cut 1 (.cut 2 (.cut 3 (.ref .leaf) (.ref .leaf)) (.cut 3 (.ref .leaf) .leaf)) .out))) (.ref (.cut 0 .out (.cut 1 (.cut 2 .out .leaf) .out)))) (.cut 3 (.ref (.cut 0 .out (.cut 1 (.cut 2 (.cut 3 (.ref .leaf) .leaf) (.ref .leaf)) .out))) (.ref (.cut 0 .out (.cut 1 (.cut 2 .leaf (.ref .leaf)) .out)))))))) (.cut 1 (.ref (.cut 2 (.cut 3 (.ref (.cut 0 (.ref (.cut 1 (.cut 2 (.cut 3 .leaf (.ref .leaf)) (.cut 3 (.ref .leaf) (.ref .leaf))) (.cut 2 (.cut 3 (.ref .leaf) (.ref .leaf)) (.cut 3 (.ref .leaf) .leaf)))) (.cut 1 (.cut 2 .leaf (.ref (.cut 3 .leaf (.ref .leaf)))) (.ref (.cut 2 (.cut 3 (.ref .leaf) (.ref .leaf)) (.cut 3 (.ref .leaf) .leaf)))))) (.ref (.cut 0 (.cut 1 (.cut 2 .out (.cut 3 (.ref .leaf) .out)) (.cut 2 .out .leaf)) (.cut 1 (.cut 2 .out (.cut 3 (.ref .leaf) .out)) (.cut 2 .out .leaf))))) (.ref (.cut 3 (.cut 0 (.cut 1 .out (.cut 2 (.cut 3 (.ref .leaf) (.ref .leaf)) .out)) (.cut 1 .out (.cut 2 (.ref .leaf) .out))) (.cut 0 (.cut 1 .out (.cut 2 (.ref .leaf) .out)) (.cut 1 .out (.cut 2 (.ref .leaf) .out))))))) (.ref (.cut 2 (.ref (.cut 3 (.cut 0 (.cut 1 (.cut 2 (.cut 3 (.ref .leaf) (.ref .leaf)) (.cut 3 (.ref .leaf) (.ref .leaf))) (.ref (.cut 2 (.cut 3 .leaf (.ref .leaf)) .leaf))) (.cut 1 (.ref (.cut 2 (.cut 3 .leaf (.ref .leaf)) .leaf)) (.cut 2 (.ref .leaf) (.ref .leaf)))) (.cut 0 (.cut 1 (.cut 2 .out (.ref .leaf)) (.ref (.cut 2 .out .leaf))) (.cut 1 (.ref (.cut 2 .out .leaf)) (.cut 2 .out (.ref .leaf)))))) (.cut 3 (.ref (.cut 0 (.cut 1 (.cut 2 .leaf (.ref .leaf)) (.cut 2 (.ref .leaf) (.ref .leaf))) (.cut 1 (.cut 2 (.ref .leaf) (.ref .leaf)) (.cut 2 (.ref .leaf) .leaf)))) (.cut 0 (.cut 1 (.cut 2 .leaf (.ref .leaf)) (.ref (.cut 2 (.ref .leaf) (.ref .leaf)))) (.cut 1 (.ref (.cut 2 (.ref .leaf) (.ref .leaf))) (.cut 2 (.ref .leaf) .leaf))))))))))))))
theorem h35 : check par t35 [28672, 24576, 24576, 24576] [4096, 8192, 8192, 8192] st = true := by decide +kernel
def t36 : Tree := (.ref (.cut 0 (.ref (.cut 1 (.ref (.cut 2 .out (.ref (.cut 3 (.cut 0 (.ref (.cut 1 .out (.ref (.cut 2 .out .out)))) (.cut 1 .out (.cut 2 .out .out))) .out)))) (.ref (.cut 2 .out (.ref (.cut 3 (.ref (.cut 0 .out (.cut 1 (.cut 2 .out (.cut 3 (.cut 0 .out (.ref (.cut 1 .out .out))) .out)) .out))) .out)))))) (.ref (.cut 1 (.ref (.cut 2 .out (.ref (.cut 3 (.ref (.cut 0 (.ref (.cut 1 .out (.cut 2 .out .out))) (.cut 1 .out (.cut 2 .out .out)))) .out)))) (.ref (.cut 2 .out (.ref (.cut 3 (.ref (.cut 0 (.ref (.cut 1 (.cut 2 .out (.ref (.cut 3 (.cut 0 (.cut 1 .out (.ref (.cut 2 .out .out))) (.cut 1 .out (.cut 2 .out .out))) .out))) (.ref (.cut 2 .out (.ref (.cut 3 (.cut 0 .out (.cut 1 (.cut 2 .out (.cut 3 (.cut 0 .out (.cut 1 .out .out)) .out)) .out)) .out)))))) (.ref (.cut 1 (.ref (.cut 2 .out (.ref (.cut 3 (.cut 0 (.ref (.cut 1 .out (.cut 2 .out .out))) (.ref (.cut 1 .out (.cut 2 .out .out)))) .out)))) (.ref (.cut 2 .out (.ref (.cut 3 (.cut 0 (.cut 1 (.cut 2 .out (.cut 3 (.cut 0 (.cut 1 .out (.ref (.cut 2 .out .out))) (.cut 1 .out (.ref .leaf))) .out)) (.cut 2 .out (.ref (.cut 3 (.cut 0 .out (.cut 1 (.cut 2 .out .leaf) .out)) .out)))) (.cut 1 (.cut 2 .out (.ref (.cut 3 (.cut 0 (.cut 1 .out (.cut 2 .out .out)) (.cut 1 .out (.cut 2 .out .out))) .out))) (.cut 2 .out (.cut 3 (.cut 0 (.cut 1 (.cut 2 .out (.ref .leaf)) (.cut 2 .out (.ref .leaf))) (.cut 1 (.cut 2 .out (.ref .leaf)) (.cut 2 .out .leaf))) .out)))) .out)))))))) .out))))))))
theorem h36 : check par t36 [16384, 16384, 16384, 49152] [16384, 16384, 16384, 16384] st = true := by decide +kernel
def t37 : Tree := (.ref (.cut 3 (.ref (.cut 0 (.ref (.cut 1 .out (.ref (.cut 2 (.ref (.cut 3 (.ref (.cut 0 .out (.ref (.cut 1 .out .out)))) (.ref (.cut 0 .out (.cut 1 .out .out))))) .out)))) (.ref (.cut 1 .out (.ref (.cut 2 (.ref (.cut 3 (.ref (.cut 0 (.ref (.cut 1 .out (.cut 2 (.cut 3 (.cut 0 .out (.cut 1 .out .out)) (.ref (.cut 0 .out (.cut 1 .out .out)))) .out))) (.cut 1 .out (.ref (.cut 2 (.cut 3 (.cut 0 (.ref (.cut 1 .out (.ref .leaf))) (.cut 1 .out (.ref .leaf))) (.ref (.cut 0 (.ref (.cut 1 .out (.cut 2 (.cut 3 .leaf .leaf) .out))) (.cut 1 .out (.ref (.cut 2 (.cut 3 .leaf .leaf) .out)))))) .out))))) (.ref (.cut 0 (.ref (.cut 1 .out (.ref (.cut 2 (.cut 3 (.cut 0 .out (.cut 1 .out .out)) (.ref (.cut 0 .out (.cut 1 .out .out)))) .out)))) (.ref (.cut 1 .out (.ref (.cut 2 (.cut 3 (.ref (.cut 0 (.ref (.cut 1 .out (.cut 2 (.cut 3 (.cut 0 .out .leaf) (.cut 0 .out (.cut 1 .out .out))) .out))) (.ref (.cut 1 .out (.cut 2 (.cut 3 (.cut 0 .leaf .leaf) (.cut 0 (.cut 1 .out (.cut 2 .leaf .out)) (.cut 1 .out (.cut 2 .leaf .out)))) .out))))) (.ref (.cut 0 (.cut 1 .out (.ref (.cut 2 (.cut 3 (.cut 0 .out (.cut 1 .out .out)) (.cut 0 .out (.cut 1 .out .out))) .out))) (.cut 1 .out (.cut 2 (.cut 3 (.ref (.cut 0 (.ref (.cut 1 .out (.cut 2 .leaf .out))) (.ref (.cut 1 .out (.cut 2 .leaf .out))))) (.ref (.cut 0 (.cut 1 .out (.cut 2 (.ref .leaf) .out)) (.cut 1 .out (.cut 2 .leaf .out))))) .out))))) .out)))))))) .out)))))) (.ref (.cut 0 (.ref (.cut 1 .out (.ref (.cut 2 (.ref (.cut 3 (.ref (.cut 0 .out (.cut 1 .out .out))) (.ref (.cut 0 .out (.cut 1 .out .out))))) .out)))) (.ref (.cut 1 .out (.ref (.cut 2 (.cut 3 (.cut 0 (.ref (.cut 1 .out (.ref (.cut 2 (.ref (.cut 3 (.cut 0 .out (.cut 1 .out .out)) (.cut 0 .out (.cut 1 .out .out)))) .out)))) (.ref (.cut 1 .out (.cut 2 (.ref (.cut 3 (.cut 0 (.cut 1 .out (.cut 2 (.cut 3 (.cut 0 .out (.cut 1 .out .out)) (.ref (.cut 0 .out (.cut 1 .out .out)))) .out)) (.cut 1 .out (.cut 2 (.cut 3 (.cut 0 (.cut 1 .out (.cut 2 (.ref .leaf) .out)) (.cut 1 .out (.cut 2 .leaf .out))) (.cut 0 (.cut 1 .out (.ref (.cut 2 .out .out))) (.cut 1 .out (.cut 2 .out .out)))) .out))) (.cut 0 (.cut 1 .out (.ref (.cut 2 .out .out))) (.cut 1 .out (.cut 2 .out .out))))) .out)))) (.ref (.cut 0 (.cut 1 .out (.ref (.cut 2 .out .out))) (.cut 1 .out (.ref (.cut 2 .out .out)))))) .out))))))))
theorem h37 : check par t37 [16384, 16384, 49152, 32768] [16384, 16384, 16384, 32768] st = true := by decide +kernel
def t38 : Tree := (.ref (.cut 2 (.ref (.cut 3 (.ref (.cut 0 .out (.ref (.cut 1 (.ref (.cut 2 (.ref (.cut 3 (.ref (.cut 0 .out (.cut 1 (.ref (.cut 2 (.ref (.cut 3 (.cut 0 .out (.cut 1 (.ref .leaf) .out)) (.ref (.cut 0 .out (.cut 1 .leaf .out))))) (.ref (.cut 3 (.ref (.cut 0 .out (.cut 1 .leaf .out))) (.cut 0 .out (.cut 1 (.ref (.cut 2 .leaf .leaf)) .out)))))) .out))) (.ref (.cut 0 .out (.cut 1 (.cut 2 .out (.cut 3 (.ref (.cut 0 .out (.cut 1 (.cut 2 .out (.ref .leaf)) .out))) .out)) .out))))) (.ref (.cut 3 (.ref (.cut 0 .out (.cut 1 (.cut 2 (.cut 3 (.ref (.cut 0 .out (.cut 1 (.cut 2 .leaf .leaf) .out))) (.ref (.cut 0 .out (.cut 1 (.cut 2 (.ref .leaf) (.ref (.cut 3 .leaf .leaf))) .out)))) (.cut 3 (.cut 0 .out (.ref (.cut 1 .leaf .out))) (.ref (.cut 0 .out (.cut 1 (.cut 2 (.cut 3 .leaf (.ref .leaf)) (.ref (.cut 3 .leaf .leaf))) .out))))) .out))) (.ref (.cut 0 .out (.ref (.cut 1 (.cut 2 (.ref (.cut 3 (.cut 0 .out (.cut 1 (.cut 2 (.cut 3 (.ref .leaf) (.ref .leaf)) (.cut 3 (.ref .leaf) (.ref .leaf))) .out)) (.ref (.cut 0 .out (.ref (.cut 1 (.ref (.cut 2 .out (.cut 3 (.cut 0 .out (.cut 1 .leaf .out)) .out))) .out)))))) (.ref (.cut 3 (.ref (.cut 0 .out (.ref (.cut 1 (.ref (.cut 2 (.cut 3 (.cut 0 .out .leaf) (.cut 0 .out (.cut 1 .leaf .out))) (.cut 3 (.cut 0 .out .leaf) (.cut 0 .out (.cut 1 (.cut 2 .leaf .leaf) .out))))) .out)))) (.ref (.cut 0 .out (.cut 1 (.cut 2 (.ref (.cut 3 (.cut 0 .out (.cut 1 (.cut 2 .leaf .leaf) .out)) (.cut 0 .out (.cut 1 (.cut 2 .out (.ref .leaf)) .out)))) (.cut 3 (.ref (.cut 0 .out (.ref (.cut 1 (.cut 2 .leaf .leaf) .out)))) (.ref (.cut 0 .out (.cut 1 (.cut 2 (.ref .leaf) .leaf) .out))))) .out)))))) .out)))))))) .out)))) (.ref (.cut 0 .out (.ref (.cut 1 (.ref (.cut 2 .out (.cut 3 (.cut 0 .out (.ref (.cut 1 (.ref (.cut 2 .out (.cut 3 (.cut 0 .out (.cut 1 (.cut 2 .out (.cut 3 (.cut 0 .out (.cut 1 (.cut 2 .out .leaf) .out)) .out)) .out)) .out))) .out))) .out))) .out)))))) (.ref (.cut 3 (.ref (.cut 0 .out (.ref (.cut 1 (.ref (.cut 2 (.ref (.cut 3 (.cut 0 .out (.ref (.cut 1 (.ref (.cut 2 (.cut 3 (.cut 0 .out (.cut 1 (.ref .leaf) .out)) (.ref (.cut 0 .out (.cut 1 (.cut 2 (.cut 3 .leaf (.ref .leaf)) (.ref .leaf)) .out)))) (.ref (.cut 3 (.cut 0 .out (.cut 1 .out .out)) (.cut 0 .out (.ref (.cut 1 .out .out))))))) .out))) (.cut 0 .out (.ref (.cut 1 (.ref (.cut 2 (.cut 3 (.cut 0 .out (.cut 1 (.cut 2 (.cut 3 (.ref .leaf) (.cut 0 .out (.cut 1 (.ref .leaf) .out))) (.ref (.cut 3 .leaf .leaf))) .out)) (.cut 0 .out (.cut 1 (.cut 2 (.cut 3 (.cut 0 .out (.cut 1 (.cut 2 (.ref .leaf) (.ref .leaf)) .out)) (.ref (.cut 0 .out (.cut 1 (.cut 2 .leaf (.ref .leaf)) .out)))) (.ref (.cut 3 (.cut 0 .out (.cut 1 .out .out)) (.ref (.cut 0 .out (.cut 1 .out .out)))))) .out))) (.ref (.cut 3 (.cut 0 .out (.cut 1 .out .out)) (.cut 0 .out (.cut 1 .out .out)))))) .out))))) (.ref (.cut 3 (.ref (.cut 0 .out (.ref (.cut 1 .out .out)))) (.ref (.cut 0 .out (.ref (.cut 1 .out .out)))))))) .out)))) (.ref (.cut 0 .out (.cut 1 (.ref (.cut 2 (.ref (.cut 3 (.ref (.cut 0 .out (.cut 1 (.ref (.cut 2 (.ref (.cut 3 (.cut 0 .out (.cut 1 (.cut 2 (.cut 3 (.cut 0 .out (.cut 1 (.cut 2 .leaf (.ref .leaf)) .out)) (.ref (.cut 0 .out .out))) (.cut 3 (.ref (.cut 0 .out .out)) .out)) .out)) (.ref (.cut 0 .out .out)))) (.ref (.cut 3 (.cut 0 .out .out) .out)))) .out))) (.ref (.cut 0 .out .out)))) (.ref (.cut 3 (.ref (.cut 0 .out .out)) .out)))) .out)))))))
theorem h38 : check par t38 [16384, 49152, 32768, 32768] [16384, 16384, 32768, 32768] st = true := by decide +kernel
def t39 : Tree := (.ref (.cut 1 (.ref (.cut 2 (.ref (.cut 3 (.ref (.cut 0 (.ref (.cut 1 (.cut 2 (.ref (.cut 3 (.cut 0 (.cut 1 (.ref (.cut 2 (.ref (.cut 3 .leaf (.ref .leaf))) (.ref (.cut 3 (.ref .leaf) (.ref .leaf))))) (.cut 2 (.ref (.cut 3 (.ref .leaf) (.ref .leaf))) (.ref (.cut 3 (.ref .leaf) .leaf)))) (.ref (.cut 1 (.ref (.cut 2 (.ref (.cut 3 (.cut 0 .leaf .leaf) (.ref (.cut 0 .leaf .leaf)))) (.ref (.cut 3 (.ref (.cut 0 .leaf .leaf)) (.cut 0 (.ref .leaf) (.ref .leaf)))))) (.cut 2 (.ref (.cut 3 (.ref (.cut 0 .leaf .leaf)) (.ref (.cut 0 .leaf .leaf)))) (.ref (.cut 3 (.ref (.cut 0 .leaf .leaf)) .leaf)))))) (.ref (.cut 0 (.cut 1 (.ref (.cut 2 .out (.ref (.cut 3 .leaf .out)))) (.cut 2 .out .leaf)) (.ref (.cut 1 (.ref (.cut 2 .out (.ref (.cut 3 (.ref .leaf) .out)))) (.cut 2 .out (.cut 3 .leaf .out)))))))) (.ref (.cut 3 (.ref (.cut 0 (.cut 1 .out (.cut 2 (.cut 3 (.ref .leaf) .leaf) .out)) (.ref (.cut 1 .out (.cut 2 (.cut 3 (.ref .leaf) .leaf) .out))))) (.ref (.cut 0 (.cut 1 .out (.ref (.cut 2 .leaf .out))) (.cut 1 .out (.cut 2 (.cut 3 (.ref .leaf) (.ref .leaf)) .out))))))) (.cut 2 (.ref (.cut 3 (.ref (.cut 0 (.cut 1 (.ref (.cut 2 (.ref (.cut 3 (.ref .leaf) (.ref .leaf))) (.cut 3 (.ref .leaf) (.ref .leaf)))) (.ref (.cut 2 (.ref (.cut 3 (.ref .leaf) (.ref .leaf))) (.ref .leaf)))) (.ref (.cut 1 (.cut 2 (.ref (.cut 3 (.ref .leaf) (.ref .leaf))) (.cut 3 (.ref .leaf) .leaf)) (.cut 2 (.ref (.cut 3 (.ref .leaf) (.ref .leaf))) (.ref (.cut 3 (.ref .leaf) .leaf))))))) (.ref (.cut 0 (.cut 1 (.cut 2 .out (.ref .leaf)) (.ref (.cut 2 .out .leaf))) (.cut 1 (.cut 2 .out (.ref (.cut 3 .leaf .out))) (.ref (.cut 2 .out .leaf))))))) (.ref (.cut 3 (.ref (.cut 0 (.cut 1 (.cut 2 (.ref .leaf) (.ref .leaf)) (.ref (.cut 2 (.ref .leaf) (.ref .leaf)))) (.cut 1 (.cut 2 (.ref (.cut 3 (.ref .leaf) (.ref .leaf))) (.ref .leaf)) (.ref (.cut 2 (.ref .leaf) (.ref .leaf)))))) (.ref (.cut 0 (.cut 1 (.ref (.cut 2 .leaf (.ref .leaf))) (.ref (.cut 2 (.ref .leaf) (.ref .leaf)))) (.cut 1 (.ref (.cut 2 .leaf (.ref .leaf))) (.ref (.cut 2 (.ref .leaf) (.ref .leaf))))))))))) (.ref (.cut 1 (.ref (.cut 2 (.ref (.cut 3 (.ref (.cut 0 (.cut 1 (.ref (.cut 2 (.ref (.cut 3 (.cut 0 .leaf .leaf) (.ref (.cut 0 .leaf .leaf)))) (.ref (.cut 3 (.ref (.cut 0 .leaf .leaf)) (.cut 0 (.ref .leaf) (.ref .leaf)))))) (.cut 2 (.ref (.cut 3 (.ref (.cut 0 .leaf .leaf)) (.ref (.cut 0 .leaf (.ref .leaf))))) (.ref (.cut 3 (.ref (.cut 0 .leaf (.ref .leaf))) (.cut 0 (.ref .leaf) (.ref .leaf)))))) (.ref (.cut 1 (.ref (.cut 2 (.ref (.cut 3 (.cut 0 .leaf .leaf) (.ref (.cut 0 .leaf .leaf)))) (.ref (.cut 3 (.ref (.cut 0 .leaf .leaf)) (.cut 0 (.ref .leaf) (.ref (.cut 1 .out .leaf))))))) (.cut 2 (.ref (.cut 3 (.ref (.cut 0 .leaf (.ref .leaf))) (.ref (.cut 0 (.ref .leaf) (.ref (.cut 1 (.ref .leaf) (.ref .leaf))))))) (.ref (.cut 3 (.ref (.cut 0 (.ref .leaf) (.ref (.cut 1 (.ref .leaf) (.ref .leaf))))) (.ref (.cut 0 .leaf .leaf))))))))) (.ref (.cut 0 (.cut 1 (.ref (.cut 2 .out (.ref (.cut 3 (.cut 0 .leaf .leaf) .out)))) (.ref (.cut 2 .out (.cut 3 (.cut 0 (.ref .leaf) (.ref .leaf)) .out)))) (.ref (.cut 1 (.ref (.cut 2 .out (.cut 3 (.ref (.cut 0 .leaf (.cut 1 .out .leaf))) .out))) (.cut 2 .out (.cut 3 (.ref (.cut 0 .leaf .leaf)) .out)))))))) (.ref (.cut 3 (.ref (.cut 0 (.cut 1 .out (.ref (.cut 2 (.cut 3 (.ref (.cut 0 .leaf .leaf)) (.cut 0 (.ref .leaf) (.ref .leaf))) .out))) (.ref (.cut 1 .out (.cut 2 (.ref (.cut 3 (.ref (.cut 0 .leaf (.cut 1 .out .leaf))) (.cut 0 .leaf .leaf))) .out))))) (.ref (.cut 0 (.cut 1 .out (.cut 2 (.cut 3 (.cut 0 .leaf .leaf) (.ref .leaf)) .out)) (.cut 1 .out (.cut 2 (.cut 3 (.cut 0 .leaf (.ref (.cut 1 .out .leaf))) (.ref (.cut 0 .leaf .leaf))) .out)))))))) (.cut 2 (.ref (.cut 3 (.ref (.cut 0 (.cut 1 (.ref (.cut 2 (.ref (.cut 3 (.cut 0 (.ref .leaf) (.ref .leaf)) (.ref (.cut 0 .leaf (.ref .leaf))))) (.cut 3 (.ref (.cut 0 .leaf (.ref .leaf))) (.ref (.cut 0 (.ref .leaf) (.ref .leaf)))))) (.ref (.cut 2 (.ref (.cut 3 .leaf (.ref .leaf))) (.cut 3 (.ref .leaf) (.ref .leaf))))) (.ref (.cut 1 (.ref (.cut 2 (.cut 3 (.ref (.cut 0 .leaf (.ref .leaf))) (.ref (.cut 0 .leaf (.cut 1 .leaf .leaf)))) (.cut 3 (.ref (.cut 0 .leaf (.cut 1 .leaf .leaf))) (.ref (.cut 0 .leaf .leaf))))) (.cut 2 (.ref (.cut 3 (.cut 0 .leaf .leaf) (.ref (.cut 0 .leaf .leaf)))) (.cut 3 (.ref (.cut 0 .leaf .leaf)) (.ref (.cut 0 .leaf (.ref .leaf))))))))) (.ref (.cut 0 (.cut 1 (.cut 2 .out (.cut 3 (.ref (.cut 0 (.ref .leaf) .leaf)) .out)) (.ref (.cut 2 .out (.cut 3 (.ref .leaf) .out)))) (.cut 1 (.cut 2 .out (.cut 3 (.ref (.cut 0 .leaf (.ref (.cut 1 (.ref .leaf) (.ref .leaf))))) .out)) (.ref (.cut 2 .out (.cut 3 (.ref (.cut 0 .leaf .leaf)) .out)))))))) (.ref (.cut 3 (.ref (.cut 0 (.cut 1 (.cut 2 (.ref (.cut 3 (.ref (.cut 0 .leaf .leaf)) (.cut 0 (.ref .leaf) .leaf))) (.ref (.cut 3 (.ref .leaf) (.ref .leaf)))) (.ref (.cut 2 (.cut 3 (.ref .leaf) (.ref .leaf)) .leaf))) (.cut 1 (.cut 2 (.ref (.cut 3 (.ref (.cut 0 .leaf (.cut 1 .leaf .leaf))) (.cut 0 .leaf (.ref (.cut 1 (.ref .leaf) (.ref .leaf)))))) (.ref (.cut 3 (.ref (.cut 0 (.ref .leaf) .leaf)) (.ref (.cut 0 .leaf .leaf))))) (.ref (.cut 2 (.ref (.cut 3 (.ref (.cut 0 .leaf .leaf)) (.cut 0 .leaf .leaf))) (.cut 3 (.ref (.cut 0 .leaf .leaf)) (.ref (.cut 0 .leaf .leaf)))))))) (.ref (.cut 0 (.cut 1 (.ref (.cut 2 (.cut 3 .leaf (.ref .leaf)) (.ref (.cut 3 (.ref .leaf) (.ref .leaf))))) (.cut 2 (.ref (.cut 3 (.ref .leaf) (.ref .leaf))) (.ref .leaf))) (.ref (.cut 1 (.ref (.cut 2 (.cut 3 .leaf (.ref .leaf)) (.ref (.cut 3 (.ref .leaf) (.ref .leaf))))) (.cut 2 (.ref (.cut 3 (.ref .leaf) (.ref .leaf))) (.cut 3 (.ref .leaf) (.ref .leaf)))))))))))))) (.ref (.cut 0 (.ref (.cut 1 (.ref (.cut 2 .out (.ref (.cut 3 (.cut 0 (.cut 1 .out (.cut 2 .out .out)) (.cut 1 .out (.cut 2 .out .out))) .out)))) (.ref (.cut 2 .out (.ref (.cut 3 (.cut 0 (.cut 1 (.cut 2 .out (.ref .leaf)) (.cut 2 .out (.ref .leaf))) (.cut 1 (.cut 2 .out (.ref .leaf)) (.cut 2 .out .leaf))) .out)))))) (.cut 1 (.ref (.cut 2 .out (.ref (.cut 3 (.cut 0 (.cut 1 .out (.cut 2 .out .out)) (.cut 1 .out (.cut 2 .out .out))) .out)))) (.ref (.cut 2 .out (.cut 3 (.cut 0 (.ref (.cut 1 (.cut 2 .out (.ref .leaf)) (.cut 2 .out (.ref .leaf)))) (.cut 1 (.ref (.cut 2 .out (.ref (.cut 3 .leaf .out)))) (.ref (.cut 2 .out (.ref .leaf))))) .out)))))))) (.ref (.cut 3 (.ref (.cut 0 (.cut 1 .out (.ref (.cut 2 (.cut 3 (.ref (.cut 0 (.ref (.cut 1 .out (.cut 2 .leaf .out))) (.cut 1 .out (.cut 2 .leaf .out)))) (.ref (.cut 0 (.cut 1 .out (.cut 2 (.ref .leaf) .out)) (.cut 1 .out (.cut 2 (.ref .leaf) .out))))) .out))) (.cut 1 .out (.ref (.cut 2 (.cut 3 (.ref (.cut 0 (.cut 1 .out (.cut 2 .leaf .out)) (.cut 1 .out (.cut 2 (.cut 3 (.ref .leaf) .leaf) .out)))) (.cut 0 (.ref (.cut 1 .out (.cut 2 (.ref .leaf) .out))) (.cut 1 .out (.ref (.cut 2 (.ref (.cut 3 (.ref .leaf) (.ref .leaf))) .out))))) .out))))) (.ref (.cut 0 (.ref (.cut 1 .out (.cut 2 (.ref (.cut 3 (.cut 0 (.ref (.cut 1 .out (.cut 2 .leaf .out))) (.cut 1 .out (.ref .leaf))) (.cut 0 (.cut 1 .out (.ref (.cut 2 .out .out))) (.cut 1 .out (.ref (.cut 2 .out .out)))))) .out))) (.cut 1 .out (.ref (.cut 2 (.ref (.cut 3 (.cut 0 (.cut 1 .out (.ref .leaf)) (.cut 1 .out (.ref .leaf))) (.cut 0 (.cut 1 .out (.ref .leaf)) (.cut 1 .out (.ref .leaf))))) .out))))))))) (.ref (.cut 2 (.ref (.cut 3 (.ref (.cut 0 (.cut 1 (.ref (.cut 2 (.ref (.cut 3 (.cut 0 (.ref (.cut 1 (.ref (.cut 2 (.ref (.cut 3 .leaf (.ref .leaf))) (.ref .leaf))) (.ref (.cut 2 (.ref .leaf) (.ref .leaf))))) (.ref (.cut 1 (.ref (.cut 2 (.ref .leaf) (.ref .leaf))) (.cut 2 (.ref .leaf) (.ref .leaf))))) (.ref (.cut 0 (.cut 1 (.cut 2 .out .leaf) (.cut 2 .out .leaf)) (.cut 1 (.cut 2 .out .leaf) (.cut 2 .out .leaf)))))) (.ref (.cut 3 (.ref (.cut 0 (.cut 1 (.cut 2 .leaf .leaf) (.cut 2 .leaf .leaf)) (.cut 1 (.cut 2 .leaf .leaf) (.cut 2 (.ref .leaf) .leaf)))) (.ref (.cut 0 (.cut 1 (.ref (.cut 2 (.ref .leaf) (.ref .leaf))) (.cut 2 (.ref .leaf) .leaf)) (.cut 1 (.ref .leaf) .leaf))))))) (.ref (.cut 2 (.ref (.cut 3 (.cut 0 (.cut 1 (.ref .leaf) (.ref .leaf)) (.cut 1 (.ref .leaf) (.ref .leaf))) (.ref (.cut 0 (.cut 1 (.cut 2 .out .leaf) .leaf) (.cut 1 .leaf (.ref .leaf)))))) (.ref (.cut 3 (.ref (.cut 0 (.cut 1 (.cut 2 (.ref .leaf) (.ref .leaf)) .leaf) (.cut 1 (.ref .leaf) (.ref .leaf)))) (.cut 0 (.cut 1 (.cut 2 (.ref .leaf) (.ref .leaf)) (.ref (.cut 2 .leaf .leaf))) (.cut 1 (.ref .leaf) (.ref .leaf)))))))) (.cut 1 (.ref (.cut 2 (.ref (.cut 3 (.cut 0 (.cut 1 (.ref (.cut 2 (.cut 3 (.ref .leaf) (.ref .leaf)) (.ref (.cut 3 (.ref .leaf) .leaf)))) (.ref (.cut 2 (.ref .leaf) (.ref .leaf)))) (.cut 1 (.ref (.cut 2 (.ref (.cut 3 .leaf (.ref .leaf))) (.ref (.cut 3 (.ref .leaf) .leaf)))) (.cut 2 (.ref .leaf) (.ref .leaf)))) (.ref (.cut 0 (.cut 1 (.cut 2 .out .leaf) (.cut 2 .out .leaf)) (.cut 1 (.cut 2 .out (.cut 3 (.ref .leaf) .out)) (.cut 2 .out (.ref .leaf))))))) (.ref (.cut 3 (.ref (.cut 0 (.cut 1 (.cut 2 (.ref .leaf) .leaf) (.cut 2 (.ref .leaf) .leaf)) (.cut 1 (.cut 2 (.cut 3 (.ref .leaf) (.ref .leaf)) (.cut 3 (.ref .leaf) .leaf)) (.cut 2 (.ref .leaf) (.ref .leaf))))) (.cut 0 (.ref (.cut 1 (.ref (.cut 2 (.ref .leaf) (.ref .leaf))) (.ref .leaf))) (.cut 1 (.ref (.cut 2 (.ref (.cut 3 (.ref .leaf) (.ref .leaf))) (.ref (.cut 3 (.ref .leaf) (.ref .leaf))))) (.cut 2 (.ref .leaf) (.ref .leaf)))))))) (.ref (.cut 2 (.ref (.cut 3 (.cut 0 (.cut 1 (.ref .leaf) (.ref .leaf)) (.cut 1 (.cut 2 (.ref .leaf) (.ref .leaf)) (.cut 2 (.ref .leaf) (.ref .leaf)))) (.ref (.cut 0 (.cut 1 .leaf (.ref .leaf)) (.cut 1 (.cut 2 .out .leaf) .leaf))))) (.ref (.cut 3 (.ref (.cut 0 (.cut 1 .leaf (.ref .leaf)) (.cut 1 (.cut 2 .leaf .leaf) (.cut 2 .leaf .leaf)))) (.cut 0 (.cut 1 .leaf .leaf) (.cut 1 .leaf .leaf))))))))) (.ref (.cut 0 (.cut 1 (.ref (.cut 2 .out (.cut 3 (.cut 0 (.ref (.cut 1 (.ref (.cut 2 .out .leaf)) (.cut 2 .out (.cut 3 (.ref .leaf) .out)))) (.cut 1 (.cut 2 .out (.ref .leaf)) (.cut 2 .out (.ref .leaf)))) .out))) (.cut 2 .out (.cut 3 (.ref (.cut 0 (.cut 1 (.cut 2 .out (.ref (.cut 3 .leaf .out))) (.cut 2 .out (.ref .leaf))) (.cut 1 (.cut 2 .out (.ref .leaf)) (.cut 2 .out (.ref .leaf))))) .out))) (.cut 1 (.ref (.cut 2 .out (.cut 3 (.cut 0 (.cut 1 .leaf (.ref .leaf)) (.cut 1 (.cut 2 .out (.ref .leaf)) (.ref .leaf))) .out))) (.cut 2 .out (.cut 3 (.cut 0 (.ref (.cut 1 .leaf .leaf)) (.ref (.cut 1 .leaf .leaf))) .out))))))) (.ref (.cut 3 (.ref (.cut 0 (.cut 1 (.cut 2 (.cut 3 (.cut 0 (.cut 1 (.ref (.cut 2 .leaf (.ref .leaf))) (.cut 2 (.ref .leaf) (.ref .leaf))) (.ref (.cut 1 (.cut 2 .leaf (.ref .leaf)) (.cut 2 (.ref .leaf) .leaf)))) (.cut 0 (.ref (.cut 1 (.ref (.cut 2 .leaf (.cut 3 .leaf .leaf))) (.cut 2 (.cut 3 (.ref .leaf) (.ref .leaf)) (.ref (.cut 3 .leaf .leaf))))) (.cut 1 (.ref (.cut 2 (.ref .leaf) (.ref .leaf))) (.ref (.cut 2 .leaf (.ref .leaf)))))) (.cut 3 (.ref (.cut 0 (.ref (.cut 1 .out (.cut 2 .leaf .out))) (.cut 1 .out .leaf))) (.ref (.cut 0 (.cut 1 .out (.cut 2 (.cut 3 (.ref .leaf) (.ref .leaf)) .out)) (.cut 1 .out (.cut 2 (.ref .leaf) .out)))))) (.cut 2 (.cut 3 (.ref (.cut 0 (.cut 1 (.cut 2 .leaf .leaf) (.cut 2 .leaf .leaf)) (.cut 1 (.ref .leaf) .leaf))) (.ref (.cut 0 (.cut 1 (.cut 2 (.cut 3 (.ref .leaf) (.ref .leaf)) (.ref (.cut 3 .leaf .leaf))) (.cut 2 (.ref .leaf) (.ref (.cut 3 .leaf .leaf)))) (.cut 1 (.cut 2 .leaf (.ref .leaf)) (.cut 2 (.ref .leaf) (.ref .leaf)))))) (.cut 3 (.cut 0 (.cut 1 (.cut 2 (.ref .leaf) (.ref .leaf)) (.ref .leaf)) (.cut 1 (.ref .leaf) (.ref .leaf))) (.ref (.cut 0 (.cut 1 (.cut 2 (.ref (.cut 3 .leaf .leaf)) (.ref (.cut 3 .leaf .leaf))) (.cut 2 (.cut 3 .leaf .leaf) (.ref (.cut 3 .leaf .leaf)))) (.cut 1 (.cut 2 (.cut 3 .leaf .leaf) (.ref .leaf)) (.cut 2 .leaf .leaf))))))) (.cut 1 (.cut 2 (.cut 3 (.cut 0 (.cut 1 (.cut 2 (.ref .leaf) (.ref .leaf)) (.ref (.cut 2 (.ref .leaf) .leaf))) (.cut 1 (.cut 2 (.ref .leaf) (.ref .leaf)) (.cut 2 (.ref .leaf) (.ref .leaf)))) (.cut 0 (.cut 1 (.ref .leaf) (.ref .leaf)) (.cut 1 (.cut 2 (.ref .leaf) (.ref .leaf)) (.ref .leaf)))) (.cut 3 (.ref (.cut 0 (.cut 1 .out (.ref .leaf)) (.cut 1 .out (.ref .leaf)))) (.ref (.cut 0 (.cut 1 .out (.cut 2 (.ref .leaf) .out)) (.cut 1 .out .leaf))))) (.cut 2 (.cut 3 (.ref (.cut 0 (.cut 1 (.ref .leaf) (.ref .leaf)) (.cut 1 (.cut 2 .leaf (.ref .leaf)) (.ref .leaf)))) (.ref (.cut 0 (.cut 1 .leaf (.cut 2 .leaf .leaf)) (.cut 1 .leaf .leaf)))) (.cut 3 (.ref (.cut 0 (.cut 1 .leaf .leaf) (.cut 1 .leaf .leaf))) (.ref (.cut 0 (.cut 1 (.cut 2 .leaf .leaf) (.cut 2 .leaf (.ref .leaf))) (.cut 1 .leaf .leaf)))))))) (.ref (.cut 0 (.cut 1 (.ref (.cut 2 (.cut 3 (.cut 0 (.ref (.cut 1 (.ref (.cut 2 .leaf (.ref (.cut 3 .leaf (.ref .leaf))))) (.ref (.cut 2 (.ref (.cut 3 .leaf (.ref .leaf))) (.cut 3 (.ref .leaf) .leaf))))) (.cut 1 (.ref (.cut 2 .leaf (.ref .leaf))) (.ref (.cut 2 (.ref .leaf) (.ref .leaf))))) (.ref (.cut 0 (.cut 1 (.cut 2 .out (.ref (.cut 3 (.cut 0 .leaf .leaf) .out))) (.cut 2 .out (.cut 3 (.cut 0 .leaf .leaf) .out))) (.cut 1 (.cut 2 .out (.ref .leaf)) (.cut 2 .out .leaf))))) (.ref (.cut 3 (.cut 0 (.cut 1 .out (.cut 2 (.cut 3 (.ref (.cut 0 .leaf .leaf)) (.ref (.cut 0 .leaf .leaf))) .out)) (.cut 1 .out (.cut 2 .leaf .out))) (.ref (.cut 0 (.cut 1 .out (.cut 2 (.cut 3 (.cut 0 (.cut 1 .out .leaf) .leaf) (.cut 0 (.cut 1 .out (.cut 2 .out .out)) .leaf)) .out)) (.cut 1 .out (.cut 2 (.cut 3 .leaf .leaf) .out)))))))) (.ref (.cut 2 (.ref (.cut 3 (.cut 0 (.cut 1 (.cut 2 (.ref (.cut 3 .leaf (.ref (.cut 0 .leaf .leaf)))) (.ref (.cut 3 (.ref (.cut 0 .leaf .leaf)) (.ref (.cut 0 .leaf .leaf))))) (.cut 2 (.cut 3 (.ref .leaf) (.ref .leaf)) (.cut 3 (.ref .leaf) (.ref (.cut 0 .leaf .leaf))))) (.cut 1 (.cut 2 (.ref .leaf) .leaf) (.cut 2 .leaf (.cut 3 (.ref .leaf) .leaf)))) (.ref (.cut 0 (.cut 1 (.ref (.cut 2 .out (.cut 3 (.cut 0 (.cut 1 .leaf .leaf) .leaf) .out))) (.ref (.cut 2 .out (.cut 3 (.cut 0 (.cut 1 .leaf .leaf) .leaf) .out)))) (.cut 1 (.ref (.cut 2 .out (.cut 3 .leaf .out))) (.cut 2 .out (.ref (.cut 3 .leaf .out)))))))) (.ref (.cut 3 (.ref (.cut 0 (.cut 1 (.ref (.cut 2 (.cut 3 (.cut 0 .leaf .leaf) (.ref (.cut 0 (.cut 1 .leaf .leaf) .leaf))) (.cut 3 (.cut 0 .leaf .leaf) (.cut 0 (.cut 1 .out (.cut 2 (.ref .leaf) .out)) .leaf)))) (.ref (.cut 2 (.cut 3 (.cut 0 .leaf .leaf) (.cut 0 (.cut 1 .leaf .leaf) .leaf)) (.cut 3 (.cut 0 .leaf .leaf) (.cut 0 (.cut 1 (.cut 2 .leaf (.ref .leaf)) (.ref (.cut 2 .leaf .leaf))) .leaf))))) (.cut 1 (.ref (.cut 2 (.cut 3 .leaf .leaf) (.cut 3 .leaf .leaf))) (.cut 2 (.cut 3 .leaf (.ref .leaf)) (.ref (.cut 3 .leaf .leaf)))))) (.ref (.cut 0 (.cut 1 (.ref (.cut 2 (.cut 3 (.cut 0 (.cut 1 (.cut 2 .leaf (.ref .leaf)) (.cut 2 (.ref .leaf) .leaf)) .leaf) (.ref (.cut 0 (.cut 1 (.cut 2 .out (.ref .leaf)) (.ref (.cut 2 .out .leaf))) (.cut 1 .leaf .leaf)))) (.ref (.cut 3 (.cut 0 (.cut 1 .out (.ref (.cut 2 .leaf .out))) (.cut 1 .out .leaf)) (.ref (.cut 0 (.ref (.cut 1 .out (.cut 2 .leaf .out))) (.cut 1 .out (.cut 2 .leaf .out)))))))) (.cut 2 (.ref (.cut 3 (.cut 0 (.cut 1 (.cut 2 .leaf (.ref .leaf)) (.ref (.cut 2 .leaf .leaf))) (.cut 1 .leaf .leaf)) (.ref (.cut 0 (.ref (.cut 1 (.cut 2 .out .leaf) (.cut 2 .out .leaf))) (.cut 1 .leaf (.cut 2 .out (.ref .leaf))))))) (.cut 3 (.ref (.cut 0 (.ref (.cut 1 (.cut 2 .leaf .leaf) (.cut 2 .leaf .leaf))) (.ref (.cut 1 .leaf (.cut 2 .leaf (.ref .leaf)))))) (.ref (.cut 0 (.cut 1 (.cut 2 .leaf (.ref .leaf)) (.cut 2 (.ref .leaf) .leaf)) (.cut 1 (.cut 2 .leaf (.ref .leaf)) (.cut 2 (.ref .leaf) .leaf))))))) (.cut 1 (.ref (.cut 2 (.cut 3 (.cut 0 .leaf .leaf) (.ref (.cut 0 .leaf .leaf))) (.ref (.cut 3 (.cut 0 .leaf .leaf) (.ref (.cut 0 (.cut 1 .out .leaf) .leaf)))))) (.cut 2 (.ref (.cut 3 (.cut 0 .leaf .leaf) (.ref (.cut 0 (.cut 1 .leaf .leaf) .leaf)))) (.cut 3 (.ref (.cut 0 (.cut 1 (.ref .leaf) .leaf) .leaf)) (.ref (.cut 0 (.cut 1 (.cut 2 .leaf (.ref .leaf)) (.cut 2 (.ref .leaf) (.ref .leaf))) (.cut 1 .leaf .leaf))))))))))))) (.cut 1 (.cut 2 (.ref (.cut 3 (.cut 0 (.cut 1 (.ref .leaf) (.ref .leaf)) (.ref (.cut 1 (.ref .leaf) (.ref .leaf)))) (.ref (.cut 0 (.cut 1 (.ref .leaf) (.cut 2 .out (.ref .leaf))) (.cut 1 .leaf (.ref .leaf)))))) (.ref (.cut 3 (.ref (.cut 0 (.cut 1 .out (.cut 2 (.ref .leaf) .out)) (.cut 1 .out (.ref .leaf)))) (.ref (.cut 0 (.cut 1 .out (.cut 2 .leaf .out)) (.cut 1 .out .leaf)))))) (.ref (.cut 2 (.ref (.cut 3 (.cut 0 (.cut 1 (.ref .leaf) (.cut 2 (.ref .leaf) (.ref .leaf))) (.cut 1 (.ref .leaf) .leaf)) (.ref (.cut 0 (.cut 1 (.cut 2 .out (.ref .leaf)) (.cut 2 .out .leaf)) (.cut 1 .leaf .leaf))))) (.ref (.cut 3 (.ref (.cut 0 (.cut 1 (.cut 2 .leaf (.ref .leaf)) (.cut 2 .leaf (.cut 3 .leaf (.ref .leaf)))) (.cut 1 .leaf (.cut 2 .leaf .leaf)))) (.cut 0 (.ref (.cut 1 (.cut 2 (.ref (.cut 3 .leaf (.ref .leaf))) (.ref (.cut 3 .leaf (.ref .leaf)))) (.cut 2 (.ref (.cut 3 .leaf (.ref .leaf))) (.cut 3 (.ref .leaf) (.ref (.cut 0 .leaf .leaf)))))) (.cut 1 (.ref (.cut 2 (.ref .leaf) (.ref .leaf))) (.cut 2 (.ref .leaf) (.ref (.cut 3 (.ref .leaf) (.ref .leaf)))))))))))))))))))
theorem h39 : check par t39 [40960, 16384, 16384, 16384] [8192, 16384, 16384, 16384] st = true := by decide +kernel
def t40 : Tree := (.ref (.cut 1 (.ref (.cut 2 (.ref (.cut 3 (.ref (.cut 0 (.ref (.cut 1 (.ref (.cut 2 (.ref (.cut 3 (.cut 0 .leaf .leaf) (.ref (.cut 0 .leaf .leaf)))) (.ref (.cut 3 (.cut 0 (.ref .leaf) (.ref .leaf)) (.cut 0 (.cut 1 .out (.cut 2 (.ref .leaf) .out)) (.cut 1 .out (.cut 2 (.ref .leaf) .out))))))) (.ref (.cut 2 (.ref (.cut 3 (.cut 0 (.ref .leaf) (.ref .leaf)) (.cut 0 (.cut 1 (.ref .leaf) (.ref (.cut 2 .out .leaf))) (.cut 1 (.ref (.cut 2 .out .leaf)) (.cut 2 .out (.ref .leaf)))))) (.ref (.cut 3 (.ref (.cut 0 (.cut 1 (.ref .leaf) (.ref (.cut 2 (.ref .leaf) .leaf))) (.cut 1 (.ref (.cut 2 .leaf (.ref .leaf))) (.cut 2 (.ref .leaf) (.ref .leaf))))) (.ref (.cut 0 (.cut 1 (.ref .leaf) (.ref .leaf)) (.cut 1 (.ref .leaf) (.ref .leaf)))))))))) (.ref (.cut 1 (.ref (.cut 2 (.cut 3 .leaf (.ref (.cut 0 .leaf .leaf))) (.ref (.cut 3 (.cut 0 (.ref .leaf) (.ref .leaf)) (.cut 0 (.cut 1 .out (.cut 2 (.ref .leaf) .out)) (.cut 1 .out (.cut 2 (.ref .leaf) .out))))))) (.cut 2 (.ref (.cut 3 (.cut 0 (.ref .leaf) (.ref .leaf)) (.cut 0 (.cut 1 (.ref (.cut 2 .out .leaf)) (.ref (.cut 2 .out (.cut 3 (.ref .leaf) .out)))) (.ref (.cut 1 .leaf (.cut 2 .out .leaf)))))) (.ref (.cut 3 (.ref (.cut 0 (.cut 1 (.ref (.cut 2 .leaf (.ref .leaf))) (.ref (.cut 2 (.ref .leaf) .leaf))) (.ref (.cut 1 .leaf (.cut 2 (.ref .leaf) .leaf))))) (.ref (.cut 0 (.cut 1 (.ref (.cut 2 .leaf (.ref .leaf))) (.ref .leaf)) (.ref (.cut 1 .leaf .leaf))))))))))) (.ref (.cut 0 (.cut 1 (.cut 2 .out (.ref (.cut 3 (.cut 0 (.cut 1 .out (.cut 2 .out .out)) (.cut 1 .out (.cut 2 .out .out))) .out))) (.ref (.cut 2 .out (.cut 3 (.cut 0 (.cut 1 (.ref .leaf) (.ref .leaf)) (.ref (.cut 1 (.cut 2 .out (.ref .leaf)) (.cut 2 .out .leaf)))) .out)))) (.cut 1 (.cut 2 .out (.ref (.cut 3 (.cut 0 (.cut 1 .out (.cut 2 .out .out)) (.cut 1 .out (.cut 2 .out .out))) .out))) (.ref (.cut 2 .out (.cut 3 (.ref (.cut 0 (.cut 1 (.cut 2 .out (.ref .leaf)) (.cut 2 .out .leaf)) (.cut 1 (.cut 2 .out (.cut 3 (.ref .leaf) .out)) (.cut 2 .out .leaf)))) .out)))))))) (.ref (.cut 3 (.ref (.cut 0 (.cut 1 .out (.ref (.cut 2 (.cut 3 (.ref (.cut 0 (.cut 1 .out (.cut 2 (.ref .leaf) .out)) (.cut 1 .out (.cut 2 (.ref .leaf) .out)))) (.cut 0 (.cut 1 .out (.ref .leaf)) (.ref (.cut 1 .out (.cut 2 .leaf .out))))) .out))) (.cut 1 .out (.ref (.cut 2 (.cut 3 (.ref (.cut 0 (.cut 1 .out (.cut 2 (.cut 3 (.ref .leaf) (.ref .leaf)) .out)) (.cut 1 .out (.cut 2 (.cut 3 (.ref .leaf) (.ref .leaf)) .out)))) (.ref (.cut 0 (.cut 1 .out (.cut 2 .leaf .out)) (.cut 1 .out (.cut 2 .leaf .out))))) .out))))) (.ref (.cut 0 (.cut 1 .out (.cut 2 (.cut 3 (.ref (.cut 0 (.cut 1 .out .leaf) (.cut 1 .out .leaf))) (.ref (.cut 0 (.ref (.cut 1 .out .leaf)) (.ref (.cut 1 .out (.cut 2 .out .out)))))) .out)) (.cut 1 .out (.cut 2 (.ref (.cut 3 (.cut 0 (.cut 1 .out (.cut 2 (.ref .leaf) .out)) (.cut 1 .out (.cut 2 (.ref (.cut 3 .leaf (.ref .leaf))) .out))) (.ref (.cut 0 (.cut 1 .out (.cut 2 .out .out)) (.cut 1 .out (.cut 2 .out .out)))))) .out)))))))) (.ref (.cut 2 (.ref (.cut 3 (.ref (.cut 0 (.cut 1 (.ref (.cut 2 (.cut 3 (.ref (.cut 0 .leaf .leaf)) (.ref (.cut 0 (.cut 1 (.cut 2 .out (.ref .leaf)) (.cut 2 .out .leaf)) (.cut 1 (.cut 2 .out (.cut 3 (.ref .leaf) .out)) (.cut 2 .out (.cut 3 (.ref .leaf) .out)))))) (.cut 3 (.ref (.cut 0 (.cut 1 (.cut 2 (.ref .leaf) (.ref .leaf)) (.cut 2 (.ref .leaf) .leaf)) (.cut 1 (.cut 2 (.ref .leaf) (.ref .leaf)) (.cut 2 (.ref .leaf) .leaf)))) (.cut 0 (.cut 1 (.ref .leaf) (.ref .leaf)) (.ref (.cut 1 (.cut 2 .leaf (.ref .leaf)) (.cut 2 .leaf .leaf))))))) (.cut 2 (.cut 3 (.ref (.cut 0 .leaf .leaf)) (.ref (.cut 0 (.cut 1 (.ref .leaf) .leaf) (.cut 1 (.cut 2 .out (.ref .leaf)) (.ref .leaf))))) (.ref (.cut 3 (.ref (.cut 0 (.cut 1 (.ref .leaf) .leaf) (.cut 1 (.cut 2 (.ref .leaf) (.ref .leaf)) (.ref .leaf)))) (.cut 0 (.cut 1 (.ref .leaf) (.ref .leaf)) (.cut 1 (.ref .leaf) (.ref .leaf))))))) (.ref (.cut 1 (.cut 2 (.cut 3 (.ref (.cut 0 .leaf .leaf)) (.ref (.cut 0 (.cut 1 (.cut 2 .out (.cut 3 (.ref .leaf) .out)) (.cut 2 .out (.cut 3 (.ref .leaf) .out))) (.cut 1 (.cut 2 .out (.cut 3 (.ref .leaf) .out)) (.cut 2 .out (.cut 3 (.ref .leaf) .out)))))) (.ref (.cut 3 (.cut 0 (.cut 1 (.ref (.cut 2 .leaf (.cut 3 .leaf .leaf))) (.cut 2 (.ref .leaf) (.ref .leaf))) (.ref (.cut 1 (.cut 2 .leaf (.cut 3 .leaf .leaf)) (.cut 2 .leaf (.cut 3 .leaf .leaf))))) (.cut 0 (.cut 1 (.cut 2 (.ref .leaf) (.ref .leaf)) (.cut 2 (.ref .leaf) (.ref .leaf))) (.cut 1 (.cut 2 (.ref .leaf) (.ref .leaf)) (.cut 2 (.ref .leaf) (.ref .leaf))))))) (.cut 2 (.cut 3 (.cut 0 .leaf (.ref .leaf)) (.ref (.cut 0 (.cut 1 (.cut 2 .out (.cut 3 (.ref .leaf) .out)) .leaf) (.cut 1 (.cut 2 .out (.cut 3 (.ref .leaf) .out)) .leaf)))) (.ref (.cut 3 (.ref (.cut 0 (.cut 1 (.cut 2 .leaf .leaf) .leaf) (.cut 1 (.cut 2 (.ref .leaf) .leaf) .leaf))) (.cut 0 (.cut 1 (.cut 2 (.ref .leaf) (.ref .leaf)) .leaf) (.cut 1 (.ref (.cut 2 .leaf .leaf)) .leaf))))))))) (.ref (.cut 0 (.cut 1 (.cut 2 .out (.ref (.cut 3 (.ref (.cut 0 (.cut 1 (.ref .leaf) (.ref .leaf)) (.cut 1 (.ref (.cut 2 .out (.ref .leaf))) (.cut 2 .out (.ref .leaf))))) .out))) (.cut 2 .out (.ref (.cut 3 (.ref (.cut 0 (.ref (.cut 1 .leaf .leaf)) (.ref (.cut 1 (.cut 2 .out .leaf) .leaf)))) .out)))) (.cut 1 (.ref (.cut 2 .out (.cut 3 (.cut 0 (.cut 1 (.ref (.cut 2 .out (.ref .leaf))) (.cut 2 .out (.ref .leaf))) (.cut 1 (.ref (.cut 2 .out (.cut 3 .leaf .out))) (.cut 2 .out (.cut 3 (.ref .leaf) .out)))) .out))) (.ref (.cut 2 .out (.ref (.cut 3 (.cut 0 (.ref (.cut 1 (.cut 2 .out .leaf) (.cut 2 .out .leaf))) (.cut 1 (.cut 2 .out (.cut 3 (.ref .leaf) .out)) (.ref (.cut 2 .out (.cut 3 .leaf .out))))) .out))))))))) (.ref (.cut 3 (.ref (.cut 0 (.cut 1 (.ref (.cut 2 (.ref (.cut 3 (.cut 0 (.cut 1 (.cut 2 (.ref .leaf) (.ref .leaf)) (.cut 2 (.ref .leaf) .leaf)) (.cut 1 (.cut 2 (.cut 3 (.ref .leaf) (.ref .leaf)) (.ref (.cut 3 (.ref .leaf) .leaf))) (.cut 2 (.ref (.cut 3 (.ref .leaf) .leaf)) (.cut 3 (.cut 0 (.ref .leaf) (.ref .leaf)) (.ref .leaf))))) (.cut 0 (.cut 1 (.ref .leaf) (.ref .leaf)) (.cut 1 (.ref (.cut 2 (.ref .leaf) (.ref .leaf))) (.cut 2 (.ref .leaf) (.ref .leaf)))))) (.ref (.cut 3 (.ref (.cut 0 (.cut 1 .out (.ref .leaf)) (.cut 1 .out (.cut 2 (.ref .leaf) .out)))) (.ref (.cut 0 (.ref (.cut 1 .out .leaf)) (.ref (.cut 1 .out (.cut 2 .leaf .out))))))))) (.ref (.cut 2 (.ref (.cut 3 (.ref (.cut 0 (.cut 1 .leaf (.ref .leaf)) (.cut 1 (.cut 2 (.ref .leaf) (.ref .leaf)) (.ref .leaf)))) (.cut 0 (.ref (.cut 1 .leaf .leaf)) (.ref (.cut 1 (.cut 2 .leaf .leaf) .leaf))))) (.cut 3 (.ref (.cut 0 (.cut 1 .leaf .leaf) (.cut 1 (.ref (.cut 2 .leaf (.ref .leaf))) .leaf))) (.ref (.cut 0 (.ref .leaf) (.cut 1 (.ref (.cut 2 .leaf (.ref .leaf))) (.ref .leaf)))))))) (.cut 1 (.ref (.cut 2 (.cut 3 (.cut 0 (.cut 1 (.cut 2 (.cut 3 (.cut 0 (.ref .leaf) (.ref .leaf)) (.ref (.cut 0 .leaf (.ref .leaf)))) (.ref (.cut 3 (.cut 0 .leaf (.ref .leaf)) (.cut 0 (.ref .leaf) (.ref .leaf))))) (.cut 2 (.ref (.cut 3 (.cut 0 .leaf (.ref .leaf)) (.cut 0 (.ref .leaf) (.ref .leaf)))) (.cut 3 (.cut 0 (.ref .leaf) (.ref .leaf)) (.cut 0 (.ref .leaf) (.ref .leaf))))) (.cut 1 (.cut 2 (.ref (.cut 3 (.cut 0 .leaf (.ref .leaf)) (.ref (.cut 0 .leaf .leaf)))) (.ref (.cut 3 (.cut 0 .leaf .leaf) (.cut 0 .leaf .leaf)))) (.cut 2 (.ref (.cut 3 (.cut 0 .leaf .leaf) (.cut 0 .leaf .leaf))) (.cut 3 (.cut 0 (.ref .leaf) (.ref .leaf)) (.cut 0 (.ref .leaf) (.cut 1 (.ref .leaf) (.ref .leaf))))))) (.cut 0 (.cut 1 (.ref (.cut 2 (.cut 3 (.ref .leaf) (.ref .leaf)) (.cut 3 (.ref .leaf) (.ref .leaf)))) (.cut 2 (.ref (.cut 3 .leaf (.ref .leaf))) (.cut 3 (.ref .leaf) (.ref .leaf)))) (.cut 1 (.ref (.cut 2 (.cut 3 .leaf .leaf) (.cut 3 (.ref .leaf) (.ref .leaf)))) (.cut 2 (.ref (.cut 3 .leaf .leaf)) (.cut 3 (.cut 0 (.ref .leaf) (.ref .leaf)) (.ref .leaf)))))) (.ref (.cut 3 (.cut 0 (.cut 1 .out (.cut 2 (.cut 3 (.ref (.cut 0 .leaf .leaf)) (.ref (.cut 0 (.ref .leaf) .leaf))) .out)) (.cut 1 .out (.cut 2 (.cut 3 (.cut 0 (.ref (.cut 1 .out .leaf)) (.cut 1 .out (.ref (.cut 2 .leaf .out)))) (.ref (.cut 0 .leaf (.cut 1 .out (.ref .leaf))))) .out))) (.ref (.cut 0 (.cut 1 .out (.cut 2 (.cut 3 (.ref .leaf) (.ref .leaf)) .out)) (.cut 1 .out (.cut 2 (.cut 3 (.cut 0 (.ref .leaf) (.ref .leaf)) .leaf) .out)))))))) (.ref (.cut 2 (.ref (.cut 3 (.cut 0 (.cut 1 (.cut 2 (.cut 3 (.cut 0 (.ref .leaf) (.ref .leaf)) (.cut 0 (.ref .leaf) (.ref .leaf))) (.cut 3 (.ref (.cut 0 .leaf .leaf)) (.cut 0 (.ref .leaf) (.ref .leaf)))) (.cut 2 (.ref .leaf) (.ref (.cut 3 .leaf .leaf)))) (.cut 1 (.cut 2 (.cut 3 (.cut 0 (.ref .leaf) (.ref .leaf)) (.cut 0 (.ref .leaf) (.ref .leaf))) (.cut 3 (.cut 0 (.ref (.cut 1 .leaf .leaf)) (.cut 1 (.ref .leaf) (.ref .leaf))) (.cut 0 (.ref .leaf) (.cut 1 (.ref .leaf) (.ref .leaf))))) (.cut 2 (.cut 3 (.ref .leaf) (.ref .leaf)) (.ref (.cut 3 (.cut 0 .leaf .leaf) (.cut 0 .leaf .leaf)))))) (.cut 0 (.cut 1 (.cut 2 (.cut 3 (.ref .leaf) (.ref .leaf)) (.cut 3 (.ref .leaf) (.ref .leaf))) (.cut 2 (.ref .leaf) (.ref .leaf))) (.cut 1 (.cut 2 (.cut 3 (.cut 0 (.ref .leaf) (.ref .leaf)) (.ref .leaf)) (.cut 3 (.cut 0 (.ref .leaf) (.ref .leaf)) .leaf)) (.cut 2 (.cut 3 (.ref .leaf) (.ref .leaf)) (.cut 3 (.ref (.cut 0 .leaf .leaf)) (.ref .leaf))))))) (.ref (.cut 3 (.cut 0 (.ref (.cut 1 (.ref (.cut 2 (.cut 3 (.cut 0 .leaf .leaf) (.cut 0 .leaf .leaf)) (.cut 3 (.ref .leaf) (.ref .leaf)))) (.cut 2 (.ref (.cut 3 .leaf .leaf)) .leaf))) (.cut 1 (.ref (.cut 2 (.cut 3 (.cut 0 (.cut 1 .leaf .leaf) (.cut 1 (.cut 2 .leaf (.ref .leaf)) .leaf)) (.cut 0 .leaf (.cut 1 .leaf .leaf))) (.cut 3 (.cut 0 (.ref .leaf) (.ref .leaf)) (.cut 0 (.ref .leaf) (.ref .leaf))))) (.ref (.cut 2 (.ref (.cut 3 (.cut 0 .leaf .leaf) (.cut 0 .leaf .leaf))) (.cut 3 .leaf (.ref (.cut 0 .leaf .leaf))))))) (.ref (.cut 0 (.cut 1 (.cut 2 (.cut 3 (.ref .leaf) (.ref .leaf)) (.ref .leaf)) (.ref (.cut 2 (.ref .leaf) .leaf))) (.cut 1 (.cut 2 (.cut 3 (.cut 0 (.ref .leaf) (.ref .leaf)) .leaf) (.ref (.cut 3 (.cut 0 .leaf .leaf) (.ref .leaf)))) (.ref (.cut 2 (.cut 3 (.cut 0 (.ref .leaf) (.ref .leaf)) (.ref .leaf)) (.cut 3 .leaf .leaf))))))))))))) (.ref (.cut 0 (.cut 1 (.cut 2 (.ref (.cut 3 (.cut 0 .leaf (.ref .leaf)) (.ref (.cut 0 (.ref .leaf) .leaf)))) (.ref (.cut 3 (.ref (.cut 0 (.ref .leaf) .leaf)) (.ref (.cut 0 (.ref .leaf) (.ref .leaf)))))) (.cut 2 (.ref (.cut 3 (.ref (.cut 0 (.ref .leaf) .leaf)) (.ref (.cut 0 (.ref .leaf) (.ref .leaf))))) (.cut 3 (.ref (.cut 0 (.ref .leaf) .leaf)) (.ref .leaf)))) (.cut 1 (.cut 2 (.cut 3 (.ref (.cut 0 (.cut 1 (.ref .leaf) .leaf) (.cut 1 (.ref (.cut 2 (.ref .leaf) (.ref .leaf))) (.ref .leaf)))) (.ref (.cut 0 (.cut 1 (.ref .leaf) (.ref .leaf)) (.ref (.cut 1 (.ref (.cut 2 .out (.ref .leaf))) (.ref (.cut 2 .out (.ref .leaf)))))))) (.ref (.cut 3 (.ref (.cut 0 (.cut 1 .out (.ref .leaf)) (.ref (.cut 1 .out (.ref (.cut 2 (.ref .leaf) .out)))))) (.ref (.cut 0 (.cut 1 .out (.ref .leaf)) (.cut 1 .out .leaf)))))) (.cut 2 (.ref (.cut 3 (.ref (.cut 0 (.cut 1 (.ref .leaf) (.ref .leaf)) (.ref (.cut 1 (.ref .leaf) (.ref .leaf))))) (.ref (.cut 0 (.cut 1 (.ref .leaf) (.ref .leaf)) (.cut 1 (.ref (.cut 2 .out .leaf)) (.ref (.cut 2 .out .leaf))))))) (.cut 3 (.ref (.cut 0 (.cut 1 (.ref .leaf) (.ref .leaf)) (.cut 1 (.ref (.cut 2 .leaf (.ref .leaf))) (.ref (.cut 2 (.ref .leaf) .leaf))))) (.cut 0 (.ref .leaf) (.ref .leaf)))))))))))))
theorem h40 : check par t40 [53248, 8192, 8192, 8192] [4096, 8192, 8192, 8192] st = true := by decide +kernel
def t41 : Tree := (.ref (.cut 1 (.ref (.cut 2 (.ref (.cut 3 (.ref (.cut 0 (.ref (.cut 1 (.ref (.cut 2 (.ref .leaf) (.ref (.cut 3 (.ref .leaf) (.ref (.cut 0 (.cut 1 .out .leaf) .leaf)))))) (.ref (.cut 2 (.ref (.cut 3 (.ref .leaf) (.ref (.cut 0 (.cut 1 .leaf .leaf) .leaf)))) (.ref (.cut 3 (.ref (.cut 0 (.cut 1 .leaf .leaf) .leaf)) (.ref (.cut 0 (.ref .leaf) .leaf)))))))) (.cut 1 (.ref (.cut 2 (.ref .leaf) (.ref .leaf))) (.ref .leaf)))) (.ref (.cut 0 (.ref (.cut 1 (.ref (.cut 2 .out (.ref (.cut 3 (.ref (.cut 0 (.cut 1 .out (.cut 2 .out .out)) (.cut 1 .out (.cut 2 .out .out)))) .out)))) (.ref (.cut 2 .out (.cut 3 (.ref (.cut 0 (.cut 1 (.cut 2 .out (.ref .leaf)) (.cut 2 .out .leaf)) (.cut 1 .leaf .leaf))) .out))))) (.cut 1 (.ref (.cut 2 .out (.ref (.cut 3 (.ref .leaf) .out)))) (.ref (.cut 2 .out (.ref (.cut 3 .leaf .out))))))))) (.ref (.cut 3 (.ref (.cut 0 (.ref (.cut 1 .out (.ref (.cut 2 (.ref (.cut 3 (.cut 0 (.cut 1 .out (.cut 2 (.ref .leaf) .out)) (.cut 1 .out (.ref .leaf))) (.cut 0 (.cut 1 .out (.cut 2 .leaf .out)) (.cut 1 .out .leaf)))) .out)))) (.ref (.cut 1 .out (.ref (.cut 2 (.cut 3 (.ref .leaf) (.ref .leaf)) .out)))))) (.ref (.cut 0 (.ref (.cut 1 .out (.cut 2 (.cut 3 (.cut 0 (.cut 1 .out (.cut 2 (.ref (.cut 3 .leaf (.ref .leaf))) .out)) (.cut 1 .out (.cut 2 (.ref .leaf) .out))) (.cut 0 (.cut 1 .out (.cut 2 .out .out)) (.cut 1 .out (.ref (.cut 2 .out .out))))) .out))) (.cut 1 .out (.cut 2 (.ref (.cut 3 (.cut 0 (.ref (.cut 1 .out (.cut 2 (.ref .leaf) .out))) (.ref .leaf)) (.ref (.cut 0 (.cut 1 .out (.cut 2 .out .out)) (.cut 1 .out (.cut 2 .out .out)))))) .out)))))))) (.ref (.cut 2 (.ref (.cut 3 (.ref (.cut 0 (.cut 1 (.ref (.cut 2 (.cut 3 (.ref .leaf) (.ref (.cut 0 (.cut 1 (.cut 2 .out .leaf) (.cut 2 .out (.cut 3 .leaf .out))) (.cut 1 .leaf .leaf)))) (.ref (.cut 3 (.cut 0 (.cut 1 (.cut 2 (.ref .leaf) (.ref .leaf)) (.cut 2 (.ref .leaf) (.ref .leaf))) (.cut 1 (.ref .leaf) (.ref .leaf))) (.cut 0 (.cut 1 .leaf (.cut 2 .leaf .leaf)) (.cut 1 .leaf .leaf)))))) (.ref (.cut 2 (.cut 3 (.ref .leaf) (.ref (.cut 0 (.cut 1 (.cut 2 .out (.ref .leaf)) (.ref .leaf)) (.cut 1 (.ref .leaf) .leaf)))) (.cut 3 (.ref (.cut 0 (.cut 1 (.cut 2 (.ref .leaf) (.ref .leaf)) (.ref .leaf)) (.cut 1 (.ref .leaf) .leaf))) (.ref (.cut 0 (.cut 1 (.ref (.cut 2 .leaf .leaf)) .leaf) (.cut 1 (.ref .leaf) .leaf))))))) (.cut 1 (.ref (.cut 2 (.cut 3 (.ref .leaf) (.ref .leaf)) (.ref (.cut 3 (.ref .leaf) (.ref .leaf))))) (.cut 2 (.ref (.cut 3 (.ref .leaf) (.ref (.cut 0 .leaf (.ref .leaf))))) (.ref (.cut 3 (.ref (.cut 0 .leaf (.ref .leaf))) (.ref (.cut 0 (.ref .leaf) .leaf)))))))) (.ref (.cut 0 (.ref (.cut 1 (.cut 2 .out (.cut 3 (.cut 0 (.cut 1 (.ref (.cut 2 .out (.cut 3 .leaf .out))) (.cut 2 .out (.cut 3 (.ref .leaf) .out))) (.cut 1 (.ref (.cut 2 .out .leaf)) (.cut 2 .out (.ref (.cut 3 (.ref .leaf) .out))))) .out)) (.cut 2 .out (.cut 3 (.ref (.cut 0 (.cut 1 (.cut 2 .out (.cut 3 (.ref .leaf) .out)) (.cut 2 .out (.cut 3 (.ref .leaf) .out))) (.cut 1 (.cut 2 .out (.cut 3 (.ref .leaf) .out)) (.cut 2 .out (.cut 3 (.ref .leaf) .out))))) .out)))) (.cut 1 (.ref (.cut 2 .out (.cut 3 (.cut 0 (.ref (.cut 1 (.ref .leaf) (.cut 2 .out (.ref .leaf)))) (.ref .leaf)) .out))) (.ref (.cut 2 .out (.cut 3 (.ref (.cut 0 (.cut 1 (.cut 2 .out (.cut 3 (.ref .leaf) .out)) (.cut 2 .out (.cut 3 (.ref .leaf) .out))) (.cut 1 .leaf (.ref .leaf)))) .out)))))))) (.ref (.cut 3 (.ref (.cut 0 (.ref (.cut 1 (.ref (.cut 2 (.cut 3 (.cut 0 (.cut 1 (.cut 2 (.ref (.cut 3 (.cut 0 .leaf (.ref .leaf)) (.ref (.cut 0 .leaf .leaf)))) (.ref (.cut 3 (.cut 0 .leaf .leaf) (.cut 0 (.ref .leaf) (.ref .leaf))))) (.cut 2 (.ref (.cut 3 (.cut 0 .leaf .leaf) (.cut 0 (.ref .leaf) (.ref .leaf)))) (.cut 3 (.cut 0 (.cut 1 .leaf .leaf) (.cut 1 .leaf .leaf)) (.cut 0 (.cut 1 (.ref .leaf) .leaf) (.cut 1 (.ref .leaf) .leaf))))) (.cut 1 (.ref (.cut 2 .leaf (.ref .leaf))) (.cut 2 (.ref .leaf) (.cut 3 (.cut 0 .leaf .leaf) (.cut 0 (.cut 1 (.ref .leaf) .leaf) .leaf))))) (.cut 0 (.cut 1 (.ref (.cut 2 (.cut 3 .leaf .leaf) (.cut 3 (.cut 0 (.ref .leaf) (.ref .leaf)) (.ref .leaf)))) (.cut 2 (.ref (.cut 3 (.cut 0 .leaf .leaf) .leaf)) (.cut 3 (.cut 0 (.cut 1 (.ref .leaf) .leaf) (.ref (.cut 1 (.ref .leaf) .leaf))) (.ref .leaf)))) (.cut 1 (.ref (.cut 2 .leaf (.ref .leaf))) (.cut 2 (.ref .leaf) (.cut 3 (.ref (.cut 0 .leaf (.ref .leaf))) (.ref .leaf)))))) (.cut 3 (.cut 0 (.ref (.cut 1 .out (.cut 2 (.cut 3 (.cut 0 (.cut 1 .out (.ref .leaf)) (.cut 1 .out (.ref .leaf))) (.ref (.cut 0 (.cut 1 .out .leaf) (.cut 1 .out .leaf)))) .out))) (.cut 1 .out (.cut 2 (.cut 3 (.ref (.cut 0 .leaf (.ref .leaf))) (.ref (.cut 0 .leaf .leaf))) .out))) (.ref (.cut 0 (.cut 1 .out (.cut 2 (.cut 3 (.cut 0 (.ref .leaf) (.cut 1 .out (.ref .leaf))) .leaf) .out)) (.cut 1 .out (.cut 2 (.cut 3 (.cut 0 (.cut 1 .out (.ref .leaf)) (.ref .leaf)) (.cut 0 (.ref .leaf) (.ref .leaf))) .out))))))) (.cut 2 (.ref (.cut 3 (.cut 0 (.cut 1 (.cut 2 (.cut 3 (.cut 0 (.ref .leaf) (.ref .leaf)) (.cut 0 (.ref .leaf) (.ref .leaf))) (.cut 3 (.cut 0 (.cut 1 (.ref .leaf) (.ref .leaf)) (.cut 1 (.ref .leaf) (.ref .leaf))) (.cut 0 (.cut 1 (.ref .leaf) (.ref .leaf)) (.cut 1 (.ref .leaf) (.ref .leaf))))) (.cut 2 (.cut 3 (.ref .leaf) (.ref .leaf)) (.ref (.cut 3 (.cut 0 .leaf .leaf) (.cut 0 .leaf .leaf))))) (.cut 1 (.cut 2 (.ref .leaf) (.cut 3 (.cut 0 (.ref .leaf) (.ref .leaf)) (.cut 0 .leaf .leaf))) (.cut 2 (.ref .leaf) (.cut 3 (.ref (.cut 0 .leaf .leaf)) (.cut 0 (.ref .leaf) (.ref .leaf)))))) (.cut 0 (.cut 1 (.cut 2 (.cut 3 (.ref .leaf) (.ref .leaf)) (.cut 3 (.cut 0 .leaf (.cut 1 (.ref .leaf) (.ref .leaf))) (.ref .leaf))) (.cut 2 (.cut 3 (.ref .leaf) (.ref .leaf)) (.cut 3 (.cut 0 (.ref .leaf) (.ref .leaf)) (.ref .leaf)))) (.cut 1 (.cut 2 (.cut 3 (.ref .leaf) (.ref .leaf)) (.cut 3 (.cut 0 (.cut 1 (.ref .leaf) (.ref .leaf)) (.ref .leaf)) (.cut 0 (.ref .leaf) (.ref .leaf)))) (.cut 2 (.ref .leaf) (.cut 3 (.cut 0 (.ref .leaf) (.ref .leaf)) (.ref .leaf))))))) (.cut 3 (.ref (.cut 0 (.cut 1 (.cut 2 (.cut 3 (.ref (.cut 0 (.cut 1 (.cut 2 .leaf (.ref .leaf)) .leaf) (.cut 1 .leaf .leaf))) (.cut 0 (.cut 1 (.ref .leaf) (.ref .leaf)) (.cut 1 (.ref .leaf) (.ref .leaf)))) (.ref (.cut 3 (.cut 0 (.cut 1 .out .leaf) (.cut 1 .out .leaf)) (.cut 0 (.cut 1 .out .leaf) (.cut 1 .out .leaf))))) (.ref (.cut 2 (.cut 3 (.cut 0 (.cut 1 (.ref .leaf) (.ref .leaf)) (.cut 1 (.ref .leaf) (.ref .leaf))) (.cut 0 (.cut 1 (.ref .leaf) (.ref .leaf)) (.cut 1 (.ref .leaf) (.ref .leaf)))) (.cut 3 (.cut 0 .leaf .leaf) (.cut 0 .leaf (.cut 1 .leaf .leaf)))))) (.cut 1 (.cut 2 (.cut 3 (.cut 0 (.cut 1 (.ref .leaf) (.ref .leaf)) (.ref .leaf)) (.cut 0 .leaf .leaf)) (.ref (.cut 3 (.cut 0 .leaf .leaf) (.cut 0 (.cut 1 .out .leaf) .leaf)))) (.ref (.cut 2 (.cut 3 (.cut 0 (.ref .leaf) (.ref .leaf)) (.cut 0 (.cut 1 (.ref .leaf) (.ref .leaf)) (.cut 1 (.ref .leaf) (.ref .leaf)))) (.cut 3 (.cut 0 .leaf .leaf) (.cut 0 (.cut 1 .leaf .leaf) (.cut 1 .leaf .leaf)))))))) (.ref (.cut 0 (.cut 1 (.cut 2 (.cut 3 (.cut 0 (.cut 1 .leaf (.ref .leaf)) .leaf) .leaf) (.ref (.cut 3 (.cut 0 .leaf .leaf) (.ref (.cut 0 .leaf .leaf))))) (.ref (.cut 2 (.cut 3 (.cut 0 (.ref .leaf) (.ref .leaf)) (.cut 0 (.ref .leaf) (.ref .leaf))) (.cut 3 (.cut 0 .leaf .leaf) (.cut 0 .leaf .leaf))))) (.cut 1 (.cut 2 (.cut 3 (.cut 0 (.cut 1 .leaf (.ref .leaf)) (.cut 1 (.ref .leaf) (.ref .leaf))) (.cut 0 .leaf .leaf)) (.ref (.cut 3 (.cut 0 .leaf .leaf) (.ref .leaf)))) (.ref (.cut 2 (.cut 3 (.cut 0 (.ref .leaf) (.ref .leaf)) (.ref .leaf)) (.cut 3 (.cut 0 (.cut 1 .leaf .leaf) .leaf) (.cut 0 .leaf .leaf))))))))))) (.ref (.cut 1 (.ref (.cut 2 (.cut 3 (.cut 0 (.cut 1 (.ref .leaf) (.cut 2 (.ref .leaf) (.ref .leaf))) (.ref .leaf)) (.cut 0 (.ref (.cut 1 (.ref .leaf) (.cut 2 (.ref .leaf) (.ref .leaf)))) (.ref .leaf))) (.cut 3 (.ref (.cut 0 (.cut 1 .out (.ref (.cut 2 (.cut 3 .leaf .leaf) .out))) (.ref (.cut 1 .out .leaf)))) (.ref (.cut 0 (.cut 1 .out (.cut 2 (.cut 3 (.ref .leaf) (.ref .leaf)) .out)) (.cut 1 .out (.ref .leaf))))))) (.ref (.cut 2 (.cut 3 (.ref (.cut 0 (.cut 1 (.cut 2 (.ref .leaf) (.cut 3 (.ref .leaf) .leaf)) (.cut 2 (.ref .leaf) (.cut 3 (.ref .leaf) (.ref .leaf)))) (.ref (.cut 1 .leaf .leaf)))) (.ref (.cut 0 (.cut 1 (.cut 2 (.ref .leaf) (.cut 3 (.ref .leaf) (.ref .leaf))) (.cut 2 (.ref .leaf) (.cut 3 (.ref .leaf) (.ref .leaf)))) (.cut 1 .leaf (.ref .leaf))))) (.cut 3 (.cut 0 (.cut 1 (.cut 2 (.cut 3 (.ref .leaf) (.cut 0 (.ref .leaf) (.ref .leaf))) (.ref (.cut 3 .leaf (.cut 0 .leaf .leaf)))) (.ref (.cut 2 (.cut 3 (.ref .leaf) (.cut 0 (.ref .leaf) (.ref .leaf))) (.cut 3 .leaf (.cut 0 .leaf .leaf))))) (.cut 1 (.cut 2 (.ref .leaf) (.ref .leaf)) (.ref (.cut 2 (.ref .leaf) .leaf)))) (.cut 0 (.cut 1 (.cut 2 (.cut 3 (.cut 0 (.ref .leaf) (.ref .leaf)) (.cut 0 (.ref .leaf) (.ref .leaf))) (.ref (.cut 3 (.ref (.cut 0 .leaf .leaf)) (.ref .leaf)))) (.ref (.cut 2 (.cut 3 (.ref (.cut 0 .leaf .leaf)) (.ref .leaf)) (.cut 3 (.ref .leaf) (.ref .leaf))))) (.cut 1 (.cut 2 (.ref .leaf) (.ref .leaf)) (.cut 2 (.ref .leaf) (.ref .leaf))))))))))) (.ref (.cut 0 (.cut 1 (.cut 2 (.ref (.cut 3 (.ref (.cut 0 (.cut 1 (.ref (.cut 2 (.ref .leaf) (.ref .leaf))) (.cut 2 (.ref .leaf) (.ref .leaf))) (.cut 1 (.ref (.cut 2 (.ref .leaf) (.ref .leaf))) (.ref (.cut 2 (.ref .leaf) (.ref .leaf)))))) (.ref (.cut 0 (.cut 1 (.cut 2 .out (.ref .leaf)) (.cut 2 .out (.ref .leaf))) (.cut 1 (.cut 2 .out (.ref .leaf)) (.cut 2 .out (.ref .leaf))))))) (.ref (.cut 3 (.ref (.cut 0 (.cut 1 .out (.cut 2 (.ref .leaf) .out)) (.cut 1 .out (.cut 2 (.ref .leaf) .out)))) (.ref (.cut 0 (.cut 1 .out .leaf) (.cut 1 .out .leaf)))))) (.cut 2 (.ref (.cut 3 (.ref (.cut 0 (.cut 1 (.cut 2 (.ref .leaf) (.ref .leaf)) (.cut 2 (.ref .leaf) (.ref .leaf))) (.cut 1 (.cut 2 (.ref .leaf) (.ref .leaf)) (.cut 2 (.ref .leaf) (.ref .leaf))))) (.ref (.cut 0 (.cut 1 (.ref (.cut 2 .out .leaf)) (.ref (.cut 2 .out .leaf))) (.cut 1 (.ref (.cut 2 .out .leaf)) (.ref (.cut 2 .out .leaf))))))) (.cut 3 (.ref (.cut 0 (.cut 1 (.ref (.cut 2 .leaf (.ref .leaf))) (.ref (.cut 2 (.ref .leaf) (.ref .leaf)))) (.cut 1 (.ref (.cut 2 (.ref .leaf) (.ref .leaf))) (.ref (.cut 2 (.ref .leaf) (.ref .leaf)))))) (.cut 0 .leaf .leaf)))) (.ref (.cut 1 (.ref (.cut 2 (.ref (.cut 3 (.ref (.cut 0 (.cut 1 (.ref .leaf) .leaf) .leaf)) (.ref (.cut 0 (.cut 1 (.cut 2 .out (.ref .leaf)) (.cut 2 .out .leaf)) (.cut 1 (.ref .leaf) .leaf))))) (.ref (.cut 3 (.ref (.cut 0 (.cut 1 .out (.cut 2 (.ref .leaf) .out)) (.cut 1 .out .leaf))) (.ref (.cut 0 (.cut 1 .out (.cut 2 (.ref .leaf) .out)) (.cut 1 .out (.cut 2 (.ref .leaf) .out)))))))) (.cut 2 (.ref (.cut 3 (.ref (.cut 0 (.cut 1 .leaf .leaf) (.cut 1 (.ref .leaf) .leaf))) (.ref (.cut 0 (.cut 1 (.ref (.cut 2 .out .leaf)) (.ref (.cut 2 .out .leaf))) (.cut 1 (.ref (.cut 2 .out .leaf)) (.ref (.cut 2 .out .leaf))))))) (.cut 3 (.ref (.cut 0 (.cut 1 (.ref (.cut 2 (.ref .leaf) (.ref .leaf))) (.ref (.cut 2 (.ref .leaf) (.ref .leaf)))) (.ref (.cut 1 (.ref (.cut 2 (.ref .leaf) (.ref .leaf))) (.cut 2 (.ref .leaf) (.ref .leaf)))))) (.cut 0 .leaf .leaf)))))))))))))
theorem h41 : check par t41 [61440, 8192, 8192, 8192] [4096, 8192, 8192, 8192] st = true := by decide +kernel
def t42 : Tree := (.ref (.cut 0 (.ref (.cut 1 (.ref (.cut 2 .out (.ref (.cut 3 (.ref (.cut 0 (.cut 1 .out (.cut 2 .out .out)) (.cut 1 .out (.cut 2 .out .out)))) .out)))) (.ref (.cut 2 .out (.cut 3 (.ref (.cut 0 (.cut 1 (.ref (.cut 2 .out (.ref (.cut 3 (.cut 0 .leaf .leaf) .out)))) (.ref (.cut 2 .out (.ref (.cut 3 .leaf .out))))) (.cut 1 (.ref (.cut 2 .out (.ref (.cut 3 (.cut 0 .leaf (.cut 1 .out .leaf)) .out)))) (.ref (.cut 2 .out (.ref (.cut 3 (.ref (.cut 0 .leaf .leaf)) .out))))))) .out))))) (.cut 1 (.ref (.cut 2 .out (.ref (.cut 3 (.cut 0 (.cut 1 .out (.cut 2 .out .out)) (.ref (.cut 1 .out (.cut 2 .out .out)))) .out)))) (.ref (.cut 2 .out (.ref (.cut 3 (.cut 0 (.cut 1 (.ref (.cut 2 .out (.ref (.cut 3 (.cut 0 (.cut 1 .out .leaf) (.ref (.cut 1 .out (.cut 2 .out .out)))) .out)))) (.cut 2 .out (.ref (.cut 3 (.cut 0 (.ref .leaf) .leaf) .out)))) (.cut 1 (.ref (.cut 2 .out (.ref (.cut 3 (.ref (.cut 0 (.cut 1 .out (.cut 2 .out .out)) (.cut 1 .out .leaf))) .out)))) (.cut 2 .out (.ref (.cut 3 (.cut 0 .leaf (.ref .leaf)) .out))))) .out)))))))
theorem h42 : check par t42 [57344, 8192, 8192, 24576] [8192, 8192, 8192, 8192] st = true := by decide +kernel
def t43 : Tree := (.ref (.cut 3 (.ref (.cut 0 (.ref (.cut 1 .out (.ref (.cut 2 (.ref (.cut 3 (.ref (.cut 0 (.cut 1 .out (.cut 2 (.cut 3 (.cut 0 (.ref .leaf) (.ref .leaf)) (.cut 0 (.ref .leaf) (.ref .leaf))) .out)) (.cut 1 .out (.cut 2 (.cut 3 (.ref (.cut 0 (.cut 1 .out .leaf) (.cut 1 .out (.cut 2 (.ref .leaf) .out)))) (.ref (.cut 0 (.cut 1 .out .leaf) (.ref (.cut 1 .out .leaf))))) .out)))) (.cut 0 (.cut 1 .out (.ref (.cut 2 (.ref (.cut 3 (.ref (.cut 0 .leaf .leaf)) (.ref .leaf))) .out))) (.cut 1 .out (.ref (.cut 2 (.ref (.cut 3 (.ref (.cut 0 (.ref .leaf) (.cut 1 .out (.ref .leaf)))) (.ref (.cut 0 .leaf .leaf)))) .out)))))) .out)))) (.ref (.cut 1 .out (.ref (.cut 2 (.cut 3 (.ref (.cut 0 (.cut 1 .out (.ref (.cut 2 (.ref (.cut 3 (.cut 0 (.cut 1 .out (.cut 2 (.cut 3 .leaf (.ref .leaf)) .out)) (.cut 1 .out (.cut 2 (.cut 3 .leaf (.ref (.cut 0 .leaf .leaf))) .out))) (.cut 0 (.cut 1 .out (.cut 2 (.ref .leaf) .out)) (.ref (.cut 1 .out (.cut 2 (.cut 3 (.cut 0 .leaf .leaf) .leaf) .out)))))) .out))) (.ref (.cut 1 .out (.ref (.cut 2 (.cut 3 (.cut 0 (.cut 1 .out (.cut 2 (.ref (.cut 3 .leaf .leaf)) .out)) (.cut 1 .out (.cut 2 (.ref .leaf) .out))) (.ref (.cut 0 (.cut 1 .out (.cut 2 .leaf .out)) (.cut 1 .out (.cut 2 .leaf .out))))) .out)))))) (.ref (.cut 0 (.cut 1 .out (.cut 2 (.ref (.cut 3 (.ref (.cut 0 (.cut 1 .out (.ref (.cut 2 .leaf .out))) (.ref (.cut 1 .out (.ref (.cut 2 .leaf .out)))))) (.ref (.cut 0 (.ref .leaf) .leaf)))) .out)) (.ref (.cut 1 .out (.cut 2 (.cut 3 (.ref (.cut 0 (.ref (.cut 1 .out (.cut 2 (.ref .leaf) .out))) (.ref (.cut 1 .out (.cut 2 (.ref .leaf) .out))))) (.ref (.cut 0 .leaf (.ref .leaf)))) .out)))))) .out)))))) (.ref (.cut 0 (.cut 1 .out (.ref (.cut 2 (.ref (.cut 3 (.cut 0 (.cut 1 .out (.cut 2 (.ref (.cut 3 (.ref .leaf) .leaf)) .out)) (.cut 1 .out (.cut 2 (.cut 3 (.cut 0 (.ref .leaf) (.ref .leaf)) (.ref .leaf)) .out))) (.cut 0 (.cut 1 .out (.ref .leaf)) (.cut 1 .out (.cut 2 .out .out))))) .out))) (.ref (.cut 1 .out (.ref (.cut 2 (.ref (.cut 3 (.cut 0 (.ref (.cut 1 .out (.cut 2 (.cut 3 (.cut 0 (.ref .leaf) (.ref .leaf)) (.ref (.cut 0 .leaf .leaf))) .out))) (.cut 1 .out (.ref (.cut 2 (.cut 3 (.cut 0 (.ref .leaf) .leaf) (.ref (.cut 0 .leaf .leaf))) .out)))) (.ref (.cut 0 (.cut 1 .out (.cut 2 .out .out)) (.cut 1 .out (.cut 2 .out .out)))))) .out))))))))
theorem h43 : check par t43 [57344, 8192, 24576, 16384] [8192, 8192, 8192, 16384] st = true := by decide +kernel
end FastNoise.RangeCheck.Simplex4
