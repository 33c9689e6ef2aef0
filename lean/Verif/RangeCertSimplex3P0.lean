import Verif.RangeCertSimplex3
/-! Generated by tools/rangecert/gen.py: a certificate for the checker `Verif.RangeCheck`. -/
namespace FastNoise.RangeCheck.Simplex3
set_option maxRecDepth 1000000
def t0 : Tree := (.ref (.cut 1 (.cut 2 (.cut 0 (.cut 1 (.ref (.cut 2 .leaf (.ref .leaf))) (.ref (.cut 2 (.ref .leaf) (.ref (.cut 0 .out .leaf))))) (.cut 1 (.ref (.cut 2 (.cut 0 (.ref .leaf) (.ref .leaf)) (.ref (.cut 0 .leaf .leaf)))) (.cut 2 (.ref (.cut 0 .leaf .leaf)) (.ref .leaf)))) (.ref (.cut 0 (.ref (.cut 1 .out (.cut 2 (.cut 0 .out (.cut 1 .out .out)) .out))) (.cut 1 .out (.cut 2 (.cut 0 (.ref (.cut 1 .out (.cut 2 (.ref .leaf) .out))) (.cut 1 .out (.ref (.cut 2 .leaf .out)))) .out))))) (.ref (.cut 2 (.ref (.cut 0 .out (.cut 1 (.cut 2 (.cut 0 .out (.cut 1 (.cut 2 (.ref .leaf) (.ref .leaf)) .out)) (.cut 0 .out (.cut 1 (.ref (.cut 2 (.ref .leaf) (.ref .leaf))) .out))) .out))) (.cut 0 .out (.ref (.cut 1 (.ref (.cut 2 (.cut 0 .out (.cut 1 (.cut 2 .leaf (.cut 0 .out (.cut 1 .out .out))) .out)) (.cut 0 .out (.cut 1 .out .out)))) .out)))))))
theorem h0 : check par t0 [8192, 16384, 16384] [8192, 16384, 16384] st = true := by decide +kernel
def t1 : Tree := (.ref (.cut 1 (.cut 2 (.cut 0 (.ref (.cut 1 (.cut 2 .leaf (.ref .leaf)) (.cut 2 (.ref .leaf) .leaf))) (.cut 1 (.ref (.cut 2 (.cut 0 .leaf (.cut 1 (.ref .leaf) .leaf)) (.ref (.cut 0 .leaf (.cut 1 .out .leaf))))) (.cut 2 (.ref (.cut 0 (.ref .leaf) (.cut 1 (.ref .leaf) (.cut 2 .leaf (.ref .leaf))))) (.ref (.cut 0 (.cut 1 .leaf .leaf) (.cut 1 (.cut 2 .leaf (.ref (.cut 0 .leaf .leaf))) (.cut 2 (.ref (.cut 0 .leaf .leaf)) (.cut 0 .leaf .leaf)))))))) (.ref (.cut 0 (.cut 1 .out (.cut 2 (.cut 0 .leaf .leaf) .out)) (.cut 1 .out (.cut 2 (.cut 0 (.cut 1 .out .leaf) (.cut 1 .out (.cut 2 (.cut 0 .leaf (.cut 1 .out .leaf)) .out))) .out))))) (.cut 2 (.ref (.cut 0 (.cut 1 (.cut 2 .leaf (.ref (.cut 0 .leaf .leaf))) (.cut 2 .leaf .leaf)) (.cut 1 (.cut 2 (.cut 0 .leaf (.cut 1 .leaf .leaf)) (.cut 0 (.cut 1 (.ref (.cut 2 .leaf .leaf)) .leaf) (.cut 1 (.ref (.cut 2 (.cut 0 .leaf .leaf) (.cut 0 .leaf (.cut 1 .leaf .leaf)))) (.cut 2 .leaf (.ref (.cut 0 .leaf .leaf)))))) (.cut 2 (.cut 0 .leaf .leaf) (.cut 0 (.cut 1 .leaf .leaf) (.cut 1 (.cut 2 .leaf .leaf) .leaf)))))) (.cut 0 (.ref (.cut 1 (.cut 2 .leaf (.ref .leaf)) (.cut 2 (.ref .leaf) .leaf))) (.cut 1 (.ref (.cut 2 (.cut 0 (.cut 1 .leaf .leaf) (.cut 1 (.cut 2 (.cut 0 .leaf (.cut 1 .leaf .leaf)) (.ref (.cut 0 .leaf (.cut 1 .out (.cut 2 .leaf .out))))) (.cut 2 (.ref (.cut 0 .leaf (.cut 1 (.cut 2 .leaf .leaf) (.cut 2 .leaf .leaf)))) (.cut 0 .leaf (.cut 1 (.cut 2 .leaf (.ref .leaf)) (.cut 2 (.ref .leaf) .leaf)))))) (.ref (.cut 0 (.cut 1 .out (.cut 2 .leaf .out)) (.cut 1 .out (.cut 2 (.cut 0 .leaf (.cut 1 .out (.cut 2 .leaf .out))) .out)))))) (.cut 2 (.ref (.cut 0 (.cut 1 (.ref (.cut 2 .leaf .leaf)) .leaf) (.cut 1 (.ref (.cut 2 (.cut 0 .leaf (.cut 1 .leaf .leaf)) (.cut 0 .leaf (.cut 1 (.cut 2 .leaf .leaf) (.cut 2 .leaf .leaf))))) (.cut 2 .leaf (.ref (.cut 0 .leaf (.cut 1 .leaf .leaf))))))) (.ref (.cut 0 (.cut 1 .leaf .leaf) (.cut 1 (.cut 2 (.cut 0 .leaf (.cut 1 (.cut 2 .leaf (.ref .leaf)) .leaf)) (.ref (.cut 0 .leaf (.cut 1 .out (.cut 2 .leaf .out))))) (.cut 2 (.ref (.cut 0 .leaf (.cut 1 .leaf .leaf))) (.cut 0 .leaf (.cut 1 .leaf .leaf))))))))))))
theorem h1 : check par t1 [20480, 8192, 8192] [4096, 8192, 8192] st = true := by decide +kernel
def t2 : Tree := (.ref (.cut 2 (.cut 0 (.cut 1 (.ref (.cut 2 (.cut 0 (.cut 1 (.ref (.cut 2 .leaf (.ref .leaf))) (.cut 2 (.ref .leaf) .leaf)) (.cut 1 (.ref (.cut 2 .leaf (.cut 0 (.ref .leaf) (.ref .leaf)))) (.cut 2 (.ref (.cut 0 .leaf .leaf)) (.cut 0 .leaf .leaf)))) (.ref (.cut 0 (.cut 1 .out (.cut 2 (.cut 0 .leaf .leaf) .out)) (.cut 1 .out (.cut 2 (.cut 0 .leaf (.cut 1 .out .leaf)) .out)))))) (.cut 2 (.ref (.cut 0 (.cut 1 (.ref (.cut 2 .leaf (.cut 0 .leaf .leaf))) (.cut 2 .leaf (.ref (.cut 0 .leaf .leaf)))) (.cut 1 (.cut 2 (.cut 0 (.ref .leaf) .leaf) (.ref (.cut 0 .leaf (.cut 1 .leaf .leaf)))) (.cut 2 (.cut 0 .leaf .leaf) (.cut 0 .leaf (.cut 1 (.ref .leaf) .leaf)))))) (.ref (.cut 0 (.cut 1 (.cut 2 (.cut 0 .leaf .leaf) (.ref (.cut 0 .leaf (.cut 1 .out .leaf)))) (.cut 2 (.ref (.cut 0 .leaf (.cut 1 .leaf .leaf))) (.cut 0 (.cut 1 .leaf .leaf) (.cut 1 (.cut 2 .leaf (.ref .leaf)) (.cut 2 (.ref .leaf) (.cut 0 .leaf .leaf)))))) (.cut 1 (.cut 2 (.cut 0 (.cut 1 .leaf .leaf) (.cut 1 (.cut 2 .leaf (.ref .leaf)) (.cut 2 (.ref .leaf) .leaf))) (.ref (.cut 0 (.cut 1 .out (.cut 2 .leaf .out)) (.cut 1 .out (.cut 2 .leaf .out))))) (.cut 2 (.ref (.cut 0 (.cut 1 (.cut 2 .leaf .leaf) (.cut 2 .leaf .leaf)) (.cut 1 (.cut 2 .leaf .leaf) (.cut 2 .leaf (.cut 0 .leaf .leaf))))) (.cut 0 (.cut 1 (.cut 2 .leaf (.ref (.cut 0 .leaf .leaf))) (.cut 2 (.ref (.cut 0 .leaf .leaf)) (.cut 0 .leaf .leaf))) (.cut 1 (.cut 2 (.cut 0 .leaf .leaf) (.ref (.cut 0 .leaf .leaf))) (.cut 2 (.ref (.cut 0 .leaf .leaf)) (.cut 0 .leaf .leaf)))))))))) (.cut 1 (.ref (.cut 2 (.cut 0 (.cut 1 (.ref (.cut 2 .leaf (.cut 0 (.ref .leaf) (.ref .leaf)))) (.cut 2 (.ref (.cut 0 .leaf .leaf)) (.cut 0 .leaf .leaf))) (.cut 1 (.ref (.cut 2 .leaf (.cut 0 (.ref .leaf) (.ref .leaf)))) (.cut 2 (.ref (.cut 0 .leaf .leaf)) (.cut 0 .leaf (.cut 1 (.ref .leaf) .leaf))))) (.ref (.cut 0 (.cut 1 .out (.cut 2 (.cut 0 (.cut 1 .out .leaf) (.cut 1 .out (.cut 2 .leaf .out))) .out)) (.cut 1 .out (.cut 2 (.cut 0 (.cut 1 .out (.cut 2 .leaf .out)) (.cut 1 .out (.cut 2 .leaf .out))) .out)))))) (.cut 2 (.ref (.cut 0 (.cut 1 (.cut 2 (.cut 0 .leaf .leaf) (.ref (.cut 0 (.cut 1 .leaf .leaf) (.cut 1 .leaf (.cut 2 .leaf .leaf))))) (.cut 2 (.cut 0 .leaf .leaf) (.cut 0 (.cut 1 (.cut 2 .leaf (.ref .leaf)) .leaf) (.cut 1 (.cut 2 .leaf (.ref .leaf)) (.cut 2 .leaf .leaf))))) (.cut 1 (.cut 2 (.cut 0 (.cut 1 (.ref .leaf) .leaf) (.cut 1 (.ref .leaf) .leaf)) (.cut 0 (.ref (.cut 1 .leaf (.cut 2 .leaf .leaf))) (.cut 1 (.ref .leaf) (.cut 2 .leaf (.ref .leaf))))) (.cut 2 (.cut 0 (.cut 1 .leaf .leaf) (.cut 1 .leaf .leaf)) (.cut 0 (.cut 1 (.cut 2 .leaf .leaf) (.cut 2 .leaf .leaf)) (.cut 1 (.cut 2 .leaf .leaf) (.cut 2 .leaf .leaf))))))) (.cut 0 (.cut 1 (.ref (.cut 2 (.cut 0 (.cut 1 (.cut 2 .leaf (.ref .leaf)) (.cut 2 (.ref .leaf) .leaf)) (.cut 1 (.cut 2 .leaf (.ref .leaf)) (.cut 2 (.ref .leaf) .leaf))) (.ref (.cut 0 (.cut 1 .out (.cut 2 (.cut 0 .leaf .leaf) .out)) (.cut 1 .out (.cut 2 .leaf .out)))))) (.cut 2 (.ref (.cut 0 (.ref (.cut 1 (.cut 2 .leaf (.cut 0 .leaf .leaf)) (.cut 2 .leaf (.cut 0 .leaf .leaf)))) (.cut 1 (.ref (.cut 2 .leaf .leaf)) (.cut 2 .leaf (.ref (.cut 0 .leaf .leaf)))))) (.ref (.cut 0 (.cut 1 (.cut 2 (.cut 0 .leaf .leaf) (.ref (.cut 0 .leaf .leaf))) (.cut 2 (.ref (.cut 0 .leaf .leaf)) (.cut 0 .leaf .leaf))) (.cut 1 (.cut 2 (.cut 0 .leaf .leaf) (.ref (.cut 0 .leaf .leaf))) (.cut 2 (.ref (.cut 0 .leaf .leaf)) (.cut 0 .leaf .leaf))))))) (.cut 1 (.ref (.cut 2 (.cut 0 (.cut 1 (.cut 2 .leaf (.ref .leaf)) (.cut 2 (.ref .leaf) .leaf)) (.cut 1 (.cut 2 .leaf (.ref .leaf)) (.cut 2 (.ref .leaf) .leaf))) (.ref (.cut 0 (.cut 1 .out (.cut 2 (.cut 0 .leaf .leaf) .out)) (.cut 1 .out (.cut 2 .leaf .out)))))) (.cut 2 (.ref (.cut 0 (.cut 1 (.ref (.cut 2 .leaf (.cut 0 .leaf .leaf))) (.cut 2 .leaf (.ref (.cut 0 .leaf .leaf)))) (.cut 1 (.ref (.cut 2 .leaf .leaf)) (.cut 2 .leaf (.ref .leaf))))) (.ref (.cut 0 (.cut 1 (.cut 2 (.cut 0 .leaf .leaf) (.ref .leaf)) (.cut 2 (.ref .leaf) (.cut 0 .leaf .leaf))) (.cut 1 (.cut 2 .leaf (.ref .leaf)) (.cut 2 (.ref .leaf) .leaf)))))))))) (.ref (.cut 0 (.cut 1 .out (.cut 2 (.cut 0 (.cut 1 .out (.cut 2 (.cut 0 (.cut 1 .out (.cut 2 .leaf .out)) (.cut 1 .out (.cut 2 (.cut 0 .leaf .leaf) .out))) .out)) (.cut 1 .out (.cut 2 (.cut 0 (.cut 1 .out (.cut 2 (.cut 0 .leaf .leaf) .out)) (.cut 1 .out (.cut 2 (.cut 0 .leaf .leaf) .out))) .out))) .out)) (.cut 1 .out (.cut 2 (.cut 0 (.cut 1 .out (.cut 2 (.cut 0 (.cut 1 .out (.cut 2 (.cut 0 .leaf .leaf) .out)) (.cut 1 .out (.cut 2 (.cut 0 .leaf .leaf) .out))) .out)) (.cut 1 .out (.cut 2 (.cut 0 (.cut 1 .out (.cut 2 .leaf .out)) (.cut 1 .out (.cut 2 .leaf .out))) .out))) .out))))))
theorem h2 : check par t2 [28672, 4096, 8192] [4096, 4096, 8192] st = true := by decide +kernel
def t3 : Tree := (.ref (.cut 0 (.cut 1 (.cut 2 (.cut 0 (.cut 1 (.cut 2 .leaf .leaf) .leaf) (.cut 1 (.cut 2 .leaf (.cut 0 .leaf .leaf)) (.cut 2 .leaf .leaf))) (.cut 0 (.cut 1 (.cut 2 (.cut 0 (.ref .leaf) (.cut 1 (.ref .leaf) .leaf)) (.ref (.cut 0 (.cut 1 (.cut 2 .leaf .leaf) (.cut 2 .leaf .leaf)) (.cut 1 (.cut 2 .leaf (.cut 0 .leaf .leaf)) (.cut 2 .leaf (.cut 0 .leaf .leaf)))))) (.cut 2 (.cut 0 .leaf .leaf) (.cut 0 (.cut 1 (.ref (.cut 2 .leaf .leaf)) .leaf) (.cut 1 (.ref (.cut 2 .leaf .leaf)) .leaf)))) (.cut 1 (.cut 2 (.cut 0 (.cut 1 (.ref (.cut 2 .leaf .leaf)) .leaf) (.cut 1 (.cut 2 .leaf (.ref .leaf)) .leaf)) (.ref (.cut 0 (.cut 1 (.cut 2 (.cut 0 .leaf .leaf) (.cut 0 .leaf .leaf)) (.cut 2 .leaf (.cut 0 (.cut 1 .leaf .leaf) (.cut 1 .leaf .leaf)))) (.cut 1 (.cut 2 (.cut 0 .leaf .leaf) (.cut 0 .leaf .leaf)) (.cut 2 (.cut 0 .leaf .leaf) (.cut 0 (.cut 1 .leaf .leaf) (.cut 1 .leaf .leaf))))))) (.cut 2 (.cut 0 .leaf .leaf) (.cut 0 (.cut 1 (.cut 2 .leaf (.ref (.cut 0 .leaf .leaf))) .leaf) (.cut 1 (.cut 2 .leaf (.ref (.cut 0 .leaf .leaf))) .leaf)))))) (.cut 2 (.cut 0 .leaf (.cut 1 .leaf .leaf)) (.cut 0 (.cut 1 (.cut 2 .leaf (.cut 0 .leaf .leaf)) .leaf) (.cut 1 (.cut 2 .leaf (.cut 0 .leaf .leaf)) (.cut 2 .leaf .leaf))))) (.cut 1 (.cut 2 (.cut 0 (.cut 1 (.cut 2 .leaf (.cut 0 .leaf (.cut 1 .leaf .leaf))) (.cut 2 .leaf .leaf)) (.cut 1 (.cut 2 (.cut 0 .leaf .leaf) (.cut 0 (.cut 1 .leaf .leaf) (.cut 1 .leaf .leaf))) (.cut 2 .leaf .leaf))) (.cut 0 (.cut 1 (.cut 2 (.cut 0 (.cut 1 (.cut 2 .leaf (.ref .leaf)) .leaf) (.cut 1 (.cut 2 .leaf .leaf) .leaf)) (.cut 0 (.cut 1 (.ref (.cut 2 (.cut 0 .leaf .leaf) (.cut 0 .leaf .leaf))) (.cut 2 (.cut 0 (.ref .leaf) .leaf) (.ref (.cut 0 .leaf .leaf)))) (.cut 1 (.ref (.cut 2 (.cut 0 .leaf .leaf) (.cut 0 .leaf .leaf))) (.cut 2 .leaf (.ref (.cut 0 .leaf .leaf)))))) (.cut 2 (.cut 0 .leaf .leaf) (.cut 0 (.cut 1 (.cut 2 .leaf .leaf) .leaf) (.cut 1 (.cut 2 .leaf .leaf) .leaf)))) (.cut 1 (.cut 2 (.cut 0 (.cut 1 (.cut 2 .leaf .leaf) .leaf) (.cut 1 (.cut 2 .leaf .leaf) .leaf)) (.cut 0 (.cut 1 (.ref (.cut 2 .leaf .leaf)) (.cut 2 .leaf .leaf)) (.cut 1 (.cut 2 .leaf (.ref .leaf)) .leaf))) (.cut 2 (.cut 0 .leaf .leaf) (.cut 0 (.cut 1 .leaf .leaf) (.cut 1 .leaf .leaf)))))) (.cut 2 (.cut 0 (.cut 1 .leaf .leaf) (.cut 1 .leaf .leaf)) (.cut 0 (.cut 1 (.cut 2 .leaf (.cut 0 .leaf .leaf)) (.cut 2 .leaf .leaf)) (.cut 1 (.cut 2 .leaf (.cut 0 .leaf .leaf)) .leaf))))))
theorem h3 : check par t3 [28672, 12288, 4096] [4096, 4096, 4096] st = true := by decide +kernel
def t4 : Tree := (.ref (.cut 2 (.cut 0 (.ref (.cut 1 (.cut 2 (.cut 0 (.cut 1 (.cut 2 .leaf (.ref (.cut 0 .leaf .leaf))) (.cut 2 (.ref (.cut 0 .leaf .leaf)) (.cut 0 .leaf .leaf))) (.cut 1 (.cut 2 (.cut 0 .leaf .leaf) (.ref (.cut 0 .leaf (.cut 1 .out .leaf)))) (.cut 2 (.ref (.cut 0 .leaf (.cut 1 .leaf (.cut 2 .leaf .leaf)))) (.cut 0 (.cut 1 .leaf (.cut 2 (.ref .leaf) .leaf)) (.cut 1 (.cut 2 .leaf (.ref .leaf)) (.cut 2 (.ref .leaf) .leaf)))))) (.ref (.cut 0 (.cut 1 .out (.cut 2 (.cut 0 .leaf (.cut 1 .out .leaf)) .out)) (.cut 1 .out (.cut 2 (.cut 0 (.cut 1 .out (.cut 2 .leaf .out)) (.cut 1 .out (.cut 2 .leaf .out))) .out))))) (.cut 2 (.ref (.cut 0 (.cut 1 (.cut 2 (.cut 0 .leaf .leaf) (.cut 0 .leaf (.cut 1 .leaf .leaf))) (.cut 2 .leaf (.cut 0 .leaf (.cut 1 .leaf .leaf)))) (.cut 1 (.cut 2 (.cut 0 (.cut 1 .leaf .leaf) (.cut 1 .leaf .leaf)) (.cut 0 (.cut 1 (.cut 2 .leaf .leaf) (.cut 2 .leaf .leaf)) (.cut 1 (.cut 2 .leaf .leaf) (.cut 2 .leaf (.cut 0 .leaf .leaf))))) (.cut 2 (.cut 0 .leaf .leaf) (.cut 0 (.cut 1 (.cut 2 .leaf .leaf) .leaf) (.cut 1 (.cut 2 .leaf .leaf) .leaf)))))) (.cut 0 (.cut 1 (.cut 2 (.cut 0 .leaf (.cut 1 .leaf .leaf)) (.ref (.cut 0 .leaf (.cut 1 .out (.cut 2 .leaf .out))))) (.cut 2 (.ref (.cut 0 .leaf (.cut 1 (.cut 2 .leaf .leaf) (.cut 2 .leaf .leaf)))) (.cut 0 .leaf (.cut 1 (.cut 2 .leaf (.ref .leaf)) (.cut 2 (.ref .leaf) .leaf))))) (.cut 1 (.cut 2 (.cut 0 (.cut 1 (.cut 2 .leaf (.ref (.cut 0 .leaf .leaf))) (.cut 2 (.ref (.cut 0 .leaf .leaf)) (.cut 0 .leaf .leaf))) (.cut 1 (.cut 2 (.cut 0 .leaf .leaf) (.ref (.cut 0 .leaf .leaf))) (.cut 2 (.ref (.cut 0 .leaf .leaf)) (.cut 0 .leaf (.cut 1 .leaf .leaf))))) (.ref (.cut 0 (.cut 1 .out (.cut 2 (.cut 0 .leaf .leaf) .out)) (.cut 1 .out (.cut 2 (.cut 0 (.cut 1 .out .leaf) (.cut 1 .out .leaf)) .out))))) (.cut 2 (.ref (.cut 0 (.cut 1 (.cut 2 (.cut 0 .leaf .leaf) (.cut 0 .leaf .leaf)) (.cut 2 .leaf (.cut 0 .leaf (.cut 1 .leaf .leaf)))) (.cut 1 (.cut 2 (.cut 0 .leaf (.cut 1 .leaf .leaf)) (.cut 0 (.cut 1 .leaf (.cut 2 .leaf .leaf)) (.cut 1 .leaf (.cut 2 .leaf .leaf)))) (.cut 2 (.cut 0 .leaf .leaf) (.cut 0 (.cut 1 (.cut 2 .leaf .leaf) .leaf) (.cut 1 (.cut 2 .leaf .leaf) .leaf)))))) (.cut 0 (.cut 1 (.cut 2 (.cut 0 .leaf (.cut 1 .leaf .leaf)) (.ref (.cut 0 .leaf (.cut 1 .out .leaf)))) (.cut 2 (.ref (.cut 0 .leaf (.cut 1 .leaf (.cut 2 .leaf .leaf)))) (.cut 0 .leaf (.cut 1 (.cut 2 .leaf (.ref .leaf)) (.cut 2 (.ref .leaf) .leaf))))) (.cut 1 (.cut 2 (.cut 0 (.cut 1 (.cut 2 .leaf (.ref .leaf)) (.cut 2 (.ref .leaf) .leaf)) (.cut 1 (.cut 2 .leaf (.ref .leaf)) (.cut 2 (.ref .leaf) .leaf))) (.ref (.cut 0 (.cut 1 .out (.cut 2 .leaf .out)) (.cut 1 .out (.cut 2 .leaf .out))))) (.cut 2 (.ref (.cut 0 (.cut 1 (.cut 2 .leaf .leaf) (.cut 2 .leaf (.cut 0 .leaf .leaf))) (.cut 1 (.cut 2 .leaf .leaf) (.cut 2 .leaf (.cut 0 .leaf .leaf))))) (.cut 0 (.cut 1 (.cut 2 (.cut 0 .leaf .leaf) (.ref (.cut 0 .leaf .leaf))) (.cut 2 (.ref (.cut 0 .leaf .leaf)) (.cut 0 .leaf (.cut 1 .leaf .leaf)))) (.cut 1 (.cut 2 (.cut 0 .leaf .leaf) (.ref (.cut 0 .leaf .leaf))) (.cut 2 (.ref (.cut 0 .leaf .leaf)) (.cut 0 (.cut 1 .leaf .leaf) (.cut 1 .leaf .leaf)))))))))))))) (.cut 1 (.ref (.cut 2 (.cut 0 (.cut 1 (.cut 2 (.cut 0 (.cut 1 .leaf .leaf) (.cut 1 .leaf .leaf)) (.ref (.cut 0 (.cut 1 .out .leaf) (.cut 1 .out .leaf)))) (.cut 2 (.ref (.cut 0 (.cut 1 .leaf (.cut 2 .leaf .leaf)) (.cut 1 .leaf (.cut 2 .leaf .leaf)))) (.cut 0 (.cut 1 (.cut 2 .leaf (.ref .leaf)) (.cut 2 (.ref .leaf) .leaf)) (.cut 1 (.cut 2 .leaf (.ref .leaf)) (.cut 2 (.ref .leaf) .leaf))))) (.cut 1 (.cut 2 (.cut 0 (.cut 1 .leaf .leaf) (.cut 1 .leaf .leaf)) (.ref (.cut 0 (.cut 1 .out .leaf) (.cut 1 .out .leaf)))) (.cut 2 (.ref (.cut 0 (.cut 1 .leaf (.cut 2 .leaf .leaf)) (.cut 1 .leaf .leaf))) (.cut 0 (.cut 1 (.cut 2 .leaf (.ref .leaf)) (.cut 2 (.ref .leaf) .leaf)) (.cut 1 .leaf .leaf))))) (.ref (.cut 0 (.cut 1 .out (.cut 2 (.cut 0 (.cut 1 .out (.cut 2 .leaf .out)) (.cut 1 .out (.cut 2 .leaf .out))) .out)) (.cut 1 .out (.cut 2 (.cut 0 (.cut 1 .out (.cut 2 .leaf .out)) (.cut 1 .out .leaf)) .out)))))) (.cut 2 (.ref (.cut 0 (.cut 1 (.cut 2 (.cut 0 (.cut 1 (.cut 2 .leaf .leaf) .leaf) (.cut 1 (.cut 2 .leaf .leaf) .leaf)) (.cut 0 (.cut 1 (.cut 2 .leaf .leaf) (.cut 2 .leaf (.cut 0 .leaf .leaf))) (.cut 1 (.cut 2 .leaf .leaf) (.cut 2 .leaf (.cut 0 .leaf .leaf))))) (.cut 2 (.cut 0 .leaf .leaf) (.cut 0 (.cut 1 (.cut 2 .leaf .leaf) .leaf) (.cut 1 (.cut 2 .leaf .leaf) .leaf)))) (.cut 1 (.cut 2 (.cut 0 (.cut 1 .leaf .leaf) (.cut 1 .leaf .leaf)) (.cut 0 (.cut 1 (.cut 2 .leaf .leaf) (.cut 2 .leaf .leaf)) (.cut 1 .leaf .leaf))) (.cut 2 (.cut 0 .leaf .leaf) (.cut 0 (.cut 1 .leaf .leaf) (.cut 1 .leaf .leaf)))))) (.ref (.cut 0 (.cut 1 (.cut 2 (.cut 0 (.cut 1 (.cut 2 (.cut 0 .leaf .leaf) (.ref (.cut 0 .leaf .leaf))) (.cut 2 (.ref (.cut 0 .leaf .leaf)) (.cut 0 (.cut 1 .leaf .leaf) (.cut 1 .leaf .leaf)))) (.cut 1 (.cut 2 (.cut 0 .leaf .leaf) (.ref (.cut 0 .leaf .leaf))) (.cut 2 (.ref (.cut 0 .leaf .leaf)) (.cut 0 .leaf .leaf)))) (.ref (.cut 0 (.cut 1 .out (.cut 2 (.cut 0 (.cut 1 .out .leaf) (.cut 1 .out .leaf)) .out)) (.cut 1 .out (.cut 2 (.cut 0 .leaf .leaf) .out))))) (.cut 2 (.ref (.cut 0 (.cut 1 (.cut 2 (.cut 0 (.cut 1 .leaf .leaf) .leaf) (.cut 0 (.cut 1 .leaf (.cut 2 .leaf .leaf)) (.cut 1 .leaf .leaf))) (.cut 2 (.cut 0 .leaf .leaf) (.cut 0 (.cut 1 (.cut 2 .leaf .leaf) .leaf) (.cut 1 .leaf .leaf)))) (.cut 1 (.cut 2 (.cut 0 .leaf .leaf) (.cut 0 .leaf .leaf)) (.cut 2 .leaf (.cut 0 .leaf .leaf))))) (.cut 0 (.cut 1 (.cut 2 (.cut 0 (.cut 1 (.cut 2 .leaf (.ref .leaf)) (.cut 2 (.ref .leaf) .leaf)) (.cut 1 .leaf (.cut 2 (.ref .leaf) .leaf))) (.ref (.cut 0 (.cut 1 .out (.cut 2 .leaf .out)) (.cut 1 .out .leaf)))) (.cut 2 (.ref (.cut 0 (.cut 1 (.cut 2 .leaf .leaf) (.cut 2 .leaf (.cut 0 .leaf .leaf))) (.cut 1 .leaf (.cut 2 .leaf .leaf)))) (.cut 0 (.cut 1 (.cut 2 (.cut 0 .leaf .leaf) (.ref (.cut 0 .leaf .leaf))) (.cut 2 (.ref (.cut 0 .leaf .leaf)) (.cut 0 (.cut 1 .leaf .leaf) .leaf))) (.cut 1 (.cut 2 .leaf (.ref .leaf)) (.cut 2 (.ref .leaf) .leaf))))) (.cut 1 (.cut 2 (.cut 0 .leaf .leaf) (.ref (.cut 0 .leaf .leaf))) (.cut 2 (.ref (.cut 0 .leaf .leaf)) (.cut 0 (.cut 1 .leaf .leaf) .leaf)))))) (.cut 1 (.cut 2 (.cut 0 (.cut 1 (.cut 2 .leaf (.ref .leaf)) (.cut 2 (.ref .leaf) .leaf)) (.cut 1 .leaf .leaf)) (.ref (.cut 0 (.cut 1 .out (.cut 2 .leaf .out)) (.cut 1 .out .leaf)))) (.cut 2 (.ref (.cut 0 (.cut 1 (.cut 2 .leaf .leaf) (.cut 2 .leaf .leaf)) (.cut 1 .leaf .leaf))) (.cut 0 (.cut 1 (.cut 2 .leaf (.ref .leaf)) (.cut 2 (.ref .leaf) .leaf)) .leaf)))))))) (.ref (.cut 0 (.cut 1 .out (.cut 2 (.cut 0 (.cut 1 .out (.cut 2 (.cut 0 .leaf (.cut 1 .out (.cut 2 .leaf .out))) .out)) (.cut 1 .out (.cut 2 (.cut 0 (.cut 1 .out (.cut 2 (.cut 0 (.cut 1 .out .leaf) (.cut 1 .out (.cut 2 .leaf .out))) .out)) (.cut 1 .out (.cut 2 (.cut 0 (.cut 1 .out (.cut 2 (.cut 0 .leaf (.cut 1 .out .leaf)) .out)) (.cut 1 .out (.cut 2 (.cut 0 (.cut 1 .out .leaf) (.cut 1 .out .leaf)) .out))) .out))) .out))) .out)) (.cut 1 .out (.cut 2 (.cut 0 (.cut 1 .out (.cut 2 (.cut 0 (.cut 1 .out (.cut 2 (.cut 0 (.cut 1 .out (.cut 2 (.cut 0 .leaf .leaf) .out)) (.cut 1 .out (.cut 2 .leaf .out))) .out)) (.cut 1 .out (.cut 2 (.cut 0 .leaf .leaf) .out))) .out)) (.cut 1 .out (.cut 2 (.cut 0 (.cut 1 .out (.cut 2 .leaf .out)) .leaf) .out))) .out))))))
theorem h4 : check par t4 [26624, 10240, 12288] [2048, 2048, 4096] st = true := by decide +kernel
def t5 : Tree := (.ref (.cut 0 (.cut 1 (.cut 2 (.cut 0 (.cut 1 (.ref (.cut 2 .leaf .leaf)) .leaf) (.cut 1 (.ref (.cut 2 .leaf (.cut 0 .leaf .leaf))) .leaf)) (.ref (.cut 0 (.cut 1 (.cut 2 (.cut 0 .leaf (.cut 1 .leaf .leaf)) (.cut 0 .leaf (.cut 1 (.cut 2 .leaf .leaf) (.cut 2 .leaf .leaf)))) (.cut 2 .leaf (.cut 0 .leaf (.cut 1 (.cut 2 .leaf .leaf) .leaf)))) (.cut 1 (.cut 2 (.cut 0 (.cut 1 (.cut 2 .leaf (.cut 0 .leaf .leaf)) .leaf) (.cut 1 (.cut 2 .leaf (.cut 0 .leaf .leaf)) .leaf)) (.cut 0 (.cut 1 (.cut 2 (.cut 0 .leaf (.cut 1 (.cut 2 .leaf .leaf) .leaf)) (.cut 0 (.cut 1 .leaf .leaf) (.cut 1 (.cut 2 .leaf .leaf) (.cut 2 .leaf (.cut 0 .leaf .leaf))))) (.cut 2 (.cut 0 .leaf .leaf) (.cut 0 (.cut 1 .leaf .leaf) (.cut 1 (.cut 2 .leaf .leaf) .leaf)))) (.cut 1 (.cut 2 (.cut 0 (.cut 1 (.cut 2 .leaf (.cut 0 .leaf .leaf)) .leaf) (.cut 1 (.cut 2 .leaf (.cut 0 .leaf .leaf)) (.cut 2 .leaf .leaf))) (.cut 0 (.cut 1 (.cut 2 (.cut 0 .leaf (.cut 1 .leaf .leaf)) (.cut 0 .leaf (.cut 1 .leaf (.cut 2 .leaf .leaf)))) (.cut 2 (.cut 0 .leaf .leaf) (.cut 0 (.cut 1 .leaf .leaf) (.cut 1 (.cut 2 .leaf .leaf) (.cut 2 .leaf .leaf))))) (.cut 1 (.cut 2 (.cut 0 (.cut 1 .leaf .leaf) (.cut 1 .leaf .leaf)) (.cut 0 (.cut 1 .leaf (.cut 2 .leaf .leaf)) (.cut 1 .leaf (.cut 2 .leaf .leaf)))) (.cut 2 (.cut 0 .leaf .leaf) (.cut 0 (.cut 1 (.cut 2 .leaf .leaf) (.cut 2 .leaf .leaf)) (.cut 1 (.cut 2 .leaf .leaf) (.cut 2 .leaf .leaf))))))) (.cut 2 (.cut 0 .leaf .leaf) (.cut 0 (.cut 1 (.cut 2 .leaf (.cut 0 .leaf (.cut 1 .leaf .leaf))) (.cut 2 .leaf .leaf)) (.cut 1 (.cut 2 .leaf (.cut 0 (.cut 1 .leaf .leaf) (.cut 1 .leaf .leaf))) (.cut 2 .leaf .leaf))))))) (.cut 2 (.cut 0 .leaf .leaf) (.cut 0 (.cut 1 (.cut 2 .leaf (.cut 0 .leaf .leaf)) .leaf) (.cut 1 (.cut 2 .leaf (.cut 0 .leaf .leaf)) .leaf))))))) (.cut 2 (.cut 0 .leaf .leaf) (.cut 0 (.cut 1 (.ref (.cut 2 .leaf .leaf)) .leaf) (.cut 1 (.ref (.cut 2 .leaf (.cut 0 .leaf .leaf))) .leaf)))) (.cut 1 (.cut 2 (.cut 0 (.cut 1 (.cut 2 .leaf (.ref (.cut 0 .leaf .leaf))) .leaf) (.cut 1 (.cut 2 .leaf (.cut 0 (.ref .leaf) .leaf)) .leaf)) (.cut 0 (.ref (.cut 1 (.cut 2 (.cut 0 (.cut 1 (.cut 2 .leaf (.cut 0 .leaf .leaf)) .leaf) (.cut 1 (.cut 2 .leaf .leaf) .leaf)) (.cut 0 (.cut 1 (.cut 2 (.cut 0 (.cut 1 (.cut 2 .leaf (.cut 0 .leaf .leaf)) .leaf) (.cut 1 (.cut 2 .leaf .leaf) .leaf)) (.cut 0 (.cut 1 (.cut 2 (.cut 0 (.cut 1 .leaf .leaf) .leaf) (.cut 0 .leaf .leaf)) (.cut 2 (.cut 0 .leaf .leaf) (.cut 0 (.cut 1 .leaf .leaf) .leaf))) (.cut 1 (.cut 2 .leaf .leaf) (.cut 2 .leaf .leaf)))) (.cut 2 (.cut 0 .leaf .leaf) (.cut 0 (.cut 1 (.cut 2 .leaf (.cut 0 .leaf .leaf)) (.cut 2 .leaf .leaf)) (.cut 1 (.cut 2 .leaf .leaf) .leaf)))) (.cut 1 (.cut 2 (.cut 0 .leaf .leaf) (.cut 0 .leaf .leaf)) (.cut 2 .leaf (.cut 0 (.cut 1 .leaf .leaf) .leaf))))) (.cut 2 (.cut 0 .leaf .leaf) (.cut 0 (.cut 1 (.cut 2 .leaf (.cut 0 .leaf .leaf)) (.cut 2 .leaf .leaf)) (.cut 1 (.cut 2 .leaf .leaf) .leaf))))) (.cut 1 (.ref (.cut 2 (.cut 0 (.cut 1 .leaf .leaf) .leaf) (.cut 0 (.cut 1 (.cut 2 .leaf .leaf) (.cut 2 .leaf .leaf)) .leaf))) (.cut 2 (.cut 0 (.ref .leaf) .leaf) (.ref (.cut 0 (.cut 1 .leaf .leaf) .leaf)))))) (.cut 2 (.cut 0 .leaf .leaf) (.cut 0 (.cut 1 (.cut 2 .leaf (.ref (.cut 0 .leaf .leaf))) .leaf) (.cut 1 (.cut 2 .leaf .leaf) .leaf))))))
theorem h5 : check par t5 [26624, 14336, 10240] [2048, 2048, 2048] st = true := by decide +kernel
def t6 : Tree := (.ref (.cut 1 (.cut 2 (.cut 0 .leaf (.cut 1 (.cut 2 .leaf (.ref (.cut 0 .leaf .leaf))) (.cut 2 (.ref (.cut 0 .leaf .leaf)) .leaf))) (.ref (.cut 0 .leaf (.cut 1 .out (.cut 2 .leaf .out))))) (.cut 2 (.ref (.cut 0 .leaf (.cut 1 (.cut 2 .leaf .leaf) (.cut 2 .leaf .leaf)))) (.cut 0 .leaf (.cut 1 (.cut 2 .leaf (.ref .leaf)) (.cut 2 (.ref .leaf) .leaf))))))
theorem h6 : check par t6 [25088, 13312, 13312] [512, 1024, 1024] st = true := by decide +kernel
def t7 : Tree := (.ref (.cut 2 (.cut 0 (.cut 1 (.cut 2 (.cut 0 (.cut 1 .leaf .leaf) (.cut 1 (.cut 2 (.cut 0 .leaf .leaf) (.ref (.cut 0 .leaf .leaf))) (.cut 2 (.ref (.cut 0 .leaf .leaf)) (.cut 0 .leaf .leaf)))) (.ref (.cut 0 (.cut 1 .out .leaf) (.cut 1 .out (.cut 2 (.cut 0 .leaf .leaf) .out))))) (.cut 2 (.ref (.cut 0 (.cut 1 .leaf .leaf) (.cut 1 (.cut 2 (.cut 0 .leaf .leaf) (.cut 0 .leaf .leaf)) (.cut 2 .leaf (.cut 0 .leaf (.cut 1 .leaf .leaf)))))) (.cut 0 (.cut 1 .leaf .leaf) (.cut 1 (.cut 2 (.cut 0 .leaf .leaf) (.ref (.cut 0 .leaf .leaf))) (.cut 2 (.ref (.cut 0 .leaf .leaf)) (.cut 0 .leaf .leaf)))))) (.cut 1 (.cut 2 (.cut 0 (.cut 1 (.cut 2 (.cut 0 (.cut 1 .leaf .leaf) (.cut 1 (.cut 2 .leaf (.ref .leaf)) (.cut 2 (.ref .leaf) .leaf))) (.ref (.cut 0 (.cut 1 .out .leaf) (.cut 1 .out (.cut 2 (.cut 0 .leaf .leaf) .out))))) (.cut 2 (.ref (.cut 0 (.cut 1 .leaf .leaf) (.cut 1 (.cut 2 .leaf (.cut 0 .leaf .leaf)) (.cut 2 (.cut 0 .leaf .leaf) (.cut 0 .leaf .leaf))))) (.cut 0 (.cut 1 (.cut 2 .leaf (.ref .leaf)) (.cut 2 (.ref .leaf) .leaf)) (.cut 1 (.cut 2 (.cut 0 .leaf .leaf) (.ref (.cut 0 .leaf .leaf))) (.cut 2 (.ref (.cut 0 .leaf .leaf)) (.cut 0 .leaf .leaf)))))) (.cut 1 (.cut 2 (.cut 0 (.cut 1 (.cut 2 .leaf (.ref .leaf)) (.cut 2 (.ref .leaf) .leaf)) (.cut 1 (.cut 2 .leaf (.ref .leaf)) (.cut 2 (.ref .leaf) .leaf))) (.ref (.cut 0 (.cut 1 .out (.cut 2 (.cut 0 .leaf .leaf) .out)) (.cut 1 .out (.cut 2 (.cut 0 .leaf .leaf) .out))))) (.cut 2 (.ref (.cut 0 (.cut 1 (.cut 2 .leaf (.cut 0 .leaf .leaf)) (.cut 2 (.cut 0 .leaf .leaf) (.cut 0 .leaf .leaf))) (.cut 1 (.cut 2 .leaf (.cut 0 .leaf .leaf)) (.cut 2 (.cut 0 .leaf .leaf) (.cut 0 .leaf .leaf))))) (.cut 0 (.cut 1 (.cut 2 (.cut 0 .leaf .leaf) (.ref (.cut 0 (.cut 1 .out .leaf) (.cut 1 .out .leaf)))) (.cut 2 (.ref (.cut 0 (.cut 1 .leaf .leaf) (.cut 1 .leaf .leaf))) (.cut 0 (.cut 1 .leaf .leaf) (.cut 1 .leaf .leaf)))) (.cut 1 (.cut 2 (.cut 0 .leaf .leaf) (.ref (.cut 0 (.cut 1 .out .leaf) .leaf))) (.cut 2 (.ref (.cut 0 (.cut 1 .leaf .leaf) .leaf)) (.cut 0 (.cut 1 .leaf .leaf) .leaf))))))) (.ref (.cut 0 (.cut 1 .out (.cut 2 (.cut 0 (.cut 1 .out (.cut 2 .leaf .out)) (.cut 1 .out (.cut 2 (.cut 0 .leaf (.cut 1 .out .leaf)) .out))) .out)) (.cut 1 .out (.cut 2 (.cut 0 (.cut 1 .out (.cut 2 (.cut 0 (.cut 1 .out (.cut 2 .leaf .out)) (.cut 1 .out (.cut 2 .leaf .out))) .out)) (.cut 1 .out (.cut 2 (.cut 0 (.cut 1 .out (.cut 2 .leaf .out)) (.cut 1 .out .leaf)) .out))) .out))))) (.cut 2 (.ref (.cut 0 (.cut 1 (.cut 2 (.cut 0 (.cut 1 (.cut 2 .leaf .leaf) .leaf) (.cut 1 (.cut 2 .leaf (.cut 0 .leaf .leaf)) (.cut 2 .leaf (.cut 0 .leaf .leaf)))) (.cut 0 (.cut 1 .leaf (.cut 2 .leaf .leaf)) (.cut 1 (.cut 2 (.cut 0 .leaf .leaf) (.cut 0 .leaf (.cut 1 .leaf .leaf))) (.cut 2 (.cut 0 .leaf (.cut 1 .leaf .leaf)) (.cut 0 .leaf (.cut 1 .leaf (.cut 2 .leaf .leaf))))))) (.cut 2 (.cut 0 .leaf (.cut 1 .leaf .leaf)) (.cut 0 (.cut 1 (.cut 2 .leaf .leaf) (.cut 2 .leaf .leaf)) (.cut 1 (.cut 2 (.cut 0 .leaf .leaf) (.cut 0 (.cut 1 .leaf .leaf) (.cut 1 (.cut 2 .leaf .leaf) .leaf))) (.cut 2 .leaf (.cut 0 .leaf .leaf)))))) (.cut 1 (.cut 2 (.cut 0 (.cut 1 (.cut 2 .leaf (.cut 0 (.cut 1 .leaf .leaf) (.cut 1 .leaf .leaf))) (.cut 2 .leaf (.cut 0 .leaf .leaf))) (.cut 1 (.cut 2 .leaf (.cut 0 (.cut 1 .leaf .leaf) .leaf)) (.cut 2 .leaf (.cut 0 .leaf .leaf)))) (.cut 0 (.cut 1 (.cut 2 (.cut 0 (.cut 1 .leaf (.cut 2 .leaf .leaf)) (.cut 1 .leaf (.cut 2 .leaf .leaf))) (.cut 0 (.cut 1 (.cut 2 .leaf .leaf) (.cut 2 .leaf .leaf)) (.cut 1 (.cut 2 .leaf .leaf) (.cut 2 .leaf .leaf)))) (.cut 2 (.cut 0 (.cut 1 (.cut 2 .leaf .leaf) .leaf) (.cut 1 (.cut 2 .leaf .leaf) .leaf)) (.cut 0 (.cut 1 (.cut 2 .leaf .leaf) (.cut 2 .leaf (.cut 0 .leaf .leaf))) (.cut 1 (.cut 2 .leaf .leaf) (.cut 2 .leaf (.cut 0 .leaf .leaf)))))) (.cut 1 (.cut 2 (.cut 0 .leaf .leaf) (.cut 0 (.cut 1 .leaf (.cut 2 .leaf .leaf)) (.cut 1 .leaf .leaf))) (.cut 2 (.cut 0 (.cut 1 (.cut 2 .leaf .leaf) .leaf) (.cut 1 .leaf .leaf)) (.cut 0 (.cut 1 (.cut 2 .leaf .leaf) (.cut 2 .leaf .leaf)) .leaf))))) (.cut 2 (.cut 0 (.cut 1 (.cut 2 .leaf .leaf) .leaf) (.cut 1 .leaf .leaf)) (.cut 0 (.cut 1 (.cut 2 (.cut 0 .leaf .leaf) (.cut 0 (.cut 1 (.cut 2 .leaf (.cut 0 .leaf .leaf)) (.cut 2 .leaf .leaf)) (.cut 1 (.cut 2 .leaf (.cut 0 .leaf .leaf)) (.cut 2 .leaf .leaf)))) (.cut 2 .leaf (.cut 0 (.cut 1 .leaf .leaf) (.cut 1 .leaf .leaf)))) (.cut 1 (.cut 2 (.cut 0 .leaf .leaf) (.cut 0 (.cut 1 (.cut 2 .leaf (.cut 0 .leaf .leaf)) (.cut 2 .leaf .leaf)) (.cut 1 (.cut 2 .leaf .leaf) .leaf))) (.cut 2 .leaf (.cut 0 (.cut 1 .leaf .leaf) .leaf)))))))) (.cut 0 (.cut 1 (.cut 2 (.cut 0 (.cut 1 (.cut 2 .leaf (.ref .leaf)) (.cut 2 (.ref .leaf) .leaf)) (.cut 1 (.cut 2 (.cut 0 .leaf (.cut 1 .leaf .leaf)) (.ref (.cut 0 (.cut 1 .out .leaf) (.cut 1 .out (.cut 2 .leaf .out))))) (.cut 2 (.ref (.cut 0 (.cut 1 .leaf .leaf) (.cut 1 (.cut 2 .leaf .leaf) (.cut 2 .leaf .leaf)))) (.cut 0 .leaf (.cut 1 (.cut 2 .leaf (.ref .leaf)) (.cut 2 (.ref .leaf) .leaf)))))) (.ref (.cut 0 (.cut 1 .out (.cut 2 .leaf .out)) (.cut 1 .out (.cut 2 (.cut 0 (.cut 1 .out .leaf) (.cut 1 .out (.cut 2 .leaf .out))) .out))))) (.cut 2 (.ref (.cut 0 (.cut 1 (.cut 2 .leaf .leaf) (.cut 2 .leaf .leaf)) (.cut 1 (.cut 2 (.cut 0 .leaf (.cut 1 (.cut 2 .leaf .leaf) (.cut 2 .leaf (.cut 0 .leaf .leaf)))) (.cut 0 (.cut 1 .leaf .leaf) (.cut 1 (.cut 2 (.cut 0 .leaf .leaf) .leaf) (.cut 2 (.cut 0 .leaf .leaf) (.cut 0 .leaf .leaf))))) (.cut 2 (.cut 0 (.cut 1 .leaf .leaf) (.cut 1 (.cut 2 .leaf (.cut 0 .leaf .leaf)) (.cut 2 .leaf .leaf))) (.cut 0 (.cut 1 .leaf .leaf) (.cut 1 (.cut 2 (.cut 0 .leaf .leaf) (.cut 0 .leaf .leaf)) (.cut 2 (.cut 0 .leaf .leaf) (.cut 0 .leaf .leaf)))))))) (.cut 0 (.cut 1 (.cut 2 .leaf (.ref .leaf)) (.cut 2 (.ref .leaf) .leaf)) (.cut 1 (.cut 2 (.cut 0 .leaf (.cut 1 (.cut 2 .leaf (.ref .leaf)) (.cut 2 (.ref .leaf) .leaf))) (.ref (.cut 0 (.cut 1 .out .leaf) (.cut 1 .out (.cut 2 .leaf .out))))) (.cut 2 (.ref (.cut 0 (.cut 1 .leaf .leaf) (.cut 1 (.cut 2 (.cut 0 .leaf .leaf) .leaf) (.cut 2 (.cut 0 .leaf .leaf) (.cut 0 .leaf .leaf))))) (.cut 0 .leaf (.cut 1 (.cut 2 .leaf (.ref .leaf)) (.cut 2 (.ref .leaf) .leaf)))))))) (.cut 1 (.cut 2 (.cut 0 (.cut 1 (.cut 2 (.cut 0 (.cut 1 (.cut 2 .leaf (.ref .leaf)) (.cut 2 (.ref .leaf) .leaf)) (.cut 1 (.cut 2 .leaf (.ref .leaf)) (.cut 2 (.ref .leaf) .leaf))) (.ref (.cut 0 (.cut 1 .out (.cut 2 .leaf .out)) (.cut 1 .out (.cut 2 .leaf .out))))) (.cut 2 (.ref (.cut 0 (.cut 1 (.cut 2 (.cut 0 .leaf .leaf) .leaf) (.cut 2 (.cut 0 .leaf .leaf) (.cut 0 .leaf (.cut 1 .leaf .leaf)))) (.cut 1 (.cut 2 (.cut 0 .leaf .leaf) .leaf) (.cut 2 (.cut 0 .leaf .leaf) (.cut 0 (.cut 1 .leaf .leaf) (.cut 1 .leaf .leaf)))))) (.cut 0 (.cut 1 (.cut 2 .leaf (.ref .leaf)) (.cut 2 (.ref .leaf) .leaf)) (.cut 1 (.cut 2 .leaf (.ref .leaf)) (.cut 2 (.ref .leaf) .leaf))))) (.cut 1 (.cut 2 (.cut 0 (.cut 1 .leaf .leaf) (.cut 1 .leaf .leaf)) (.ref (.cut 0 (.cut 1 .out (.cut 2 .leaf .out)) (.cut 1 .out (.cut 2 .leaf .out))))) (.cut 2 (.ref (.cut 0 (.cut 1 (.cut 2 .leaf .leaf) (.cut 2 (.cut 0 .leaf .leaf) (.cut 0 .leaf .leaf))) (.cut 1 .leaf (.cut 2 .leaf .leaf)))) (.cut 0 (.cut 1 (.cut 2 .leaf (.ref .leaf)) (.cut 2 (.ref .leaf) .leaf)) (.cut 1 .leaf .leaf))))) (.ref (.cut 0 (.cut 1 .out (.cut 2 (.cut 0 (.cut 1 .out (.cut 2 (.cut 0 .leaf .leaf) .out)) (.cut 1 .out (.cut 2 (.cut 0 .leaf .leaf) .out))) .out)) (.cut 1 .out (.cut 2 (.cut 0 (.cut 1 .out (.cut 2 (.cut 0 .leaf .leaf) .out)) (.cut 1 .out (.cut 2 .leaf .out))) .out))))) (.cut 2 (.ref (.cut 0 (.cut 1 (.cut 2 (.cut 0 (.cut 1 (.cut 2 (.cut 0 .leaf (.cut 1 .leaf .leaf)) (.cut 0 .leaf (.cut 1 .leaf .leaf))) (.cut 2 (.cut 0 .leaf (.cut 1 .leaf .leaf)) (.cut 0 (.cut 1 .leaf .leaf) (.cut 1 (.cut 2 .leaf .leaf) (.cut 2 .leaf .leaf))))) (.cut 1 (.cut 2 (.cut 0 (.cut 1 .leaf .leaf) (.cut 1 .leaf .leaf)) (.cut 0 (.cut 1 .leaf .leaf) (.cut 1 .leaf .leaf))) (.cut 2 (.cut 0 (.cut 1 .leaf .leaf) (.cut 1 .leaf .leaf)) (.cut 0 (.cut 1 (.cut 2 .leaf .leaf) (.cut 2 .leaf .leaf)) (.cut 1 (.cut 2 .leaf .leaf) (.cut 2 .leaf .leaf)))))) (.cut 0 (.cut 1 (.cut 2 (.cut 0 (.cut 1 .leaf .leaf) (.cut 1 .leaf (.cut 2 .leaf .leaf))) (.cut 0 .leaf .leaf)) (.cut 2 (.cut 0 (.cut 1 .leaf .leaf) (.cut 1 (.cut 2 .leaf .leaf) (.cut 2 .leaf (.cut 0 .leaf .leaf)))) (.cut 0 (.cut 1 .leaf .leaf) (.cut 1 .leaf (.cut 2 .leaf .leaf))))) (.cut 1 (.cut 2 (.cut 0 (.cut 1 .leaf (.cut 2 .leaf .leaf)) (.cut 1 .leaf (.cut 2 .leaf .leaf))) (.cut 0 .leaf .leaf)) (.cut 2 (.cut 0 (.cut 1 (.cut 2 .leaf .leaf) (.cut 2 .leaf (.cut 0 .leaf .leaf))) (.cut 1 (.cut 2 .leaf .leaf) (.cut 2 .leaf (.cut 0 .leaf .leaf)))) (.cut 0 (.cut 1 .leaf (.cut 2 (.cut 0 .leaf .leaf) .leaf)) (.cut 1 .leaf (.cut 2 (.cut 0 .leaf .leaf) .leaf))))))) (.cut 2 (.cut 0 (.cut 1 (.cut 2 (.cut 0 .leaf .leaf) (.cut 0 (.cut 1 .leaf .leaf) (.cut 1 (.cut 2 .leaf .leaf) .leaf))) (.cut 2 .leaf (.cut 0 .leaf .leaf))) (.cut 1 (.cut 2 (.cut 0 .leaf .leaf) (.cut 0 (.cut 1 (.cut 2 .leaf .leaf) .leaf) (.cut 1 (.cut 2 .leaf .leaf) .leaf))) (.cut 2 .leaf (.cut 0 .leaf .leaf)))) (.cut 0 (.cut 1 (.cut 2 (.cut 0 (.cut 1 .leaf (.cut 2 .leaf .leaf)) (.cut 1 (.cut 2 (.cut 0 .leaf .leaf) (.cut 0 .leaf .leaf)) (.cut 2 .leaf (.cut 0 .leaf .leaf)))) (.cut 0 (.cut 1 (.cut 2 .leaf .leaf) .leaf) (.cut 1 (.cut 2 (.cut 0 .leaf .leaf) (.cut 0 .leaf .leaf)) (.cut 2 (.cut 0 .leaf .leaf) (.cut 0 .leaf (.cut 1 .leaf .leaf)))))) (.cut 2 (.cut 0 (.cut 1 .leaf .leaf) (.cut 1 (.cut 2 .leaf (.cut 0 .leaf .leaf)) (.cut 2 .leaf .leaf))) (.cut 0 (.cut 1 (.cut 2 .leaf .leaf) (.cut 2 .leaf .leaf)) (.cut 1 (.cut 2 (.cut 0 .leaf (.cut 1 .leaf .leaf)) (.cut 0 .leaf .leaf)) (.cut 2 (.cut 0 .leaf .leaf) (.cut 0 .leaf (.cut 1 (.cut 2 .leaf .leaf) .leaf))))))) (.cut 1 (.cut 2 (.cut 0 (.cut 1 (.cut 2 (.cut 0 .leaf .leaf) (.cut 0 .leaf .leaf)) (.cut 2 (.cut 0 .leaf .leaf) (.cut 0 (.cut 1 .leaf .leaf) (.cut 1 .leaf .leaf)))) (.cut 1 (.cut 2 (.cut 0 .leaf .leaf) (.cut 0 .leaf .leaf)) (.cut 2 (.cut 0 .leaf .leaf) (.cut 0 (.cut 1 .leaf .leaf) .leaf)))) (.cut 0 (.cut 1 (.cut 2 (.cut 0 (.cut 1 .leaf .leaf) (.cut 1 .leaf .leaf)) (.cut 0 .leaf .leaf)) (.cut 2 (.cut 0 (.cut 1 .leaf .leaf) (.cut 1 .leaf .leaf)) (.cut 0 (.cut 1 .leaf (.cut 2 .leaf .leaf)) (.cut 1 .leaf (.cut 2 .leaf .leaf))))) (.cut 1 (.cut 2 (.cut 0 (.cut 1 .leaf .leaf) .leaf) (.cut 0 .leaf .leaf)) (.cut 2 (.cut 0 (.cut 1 .leaf .leaf) .leaf) (.cut 0 (.cut 1 .leaf (.cut 2 .leaf .leaf)) (.cut 1 .leaf .leaf)))))) (.cut 2 (.cut 0 (.cut 1 (.cut 2 .leaf (.cut 0 .leaf .leaf)) (.cut 2 .leaf .leaf)) (.cut 1 (.cut 2 .leaf (.cut 0 .leaf .leaf)) (.cut 2 .leaf .leaf))) (.cut 0 (.cut 1 (.cut 2 (.cut 0 (.cut 1 (.cut 2 .leaf .leaf) (.cut 2 .leaf .leaf)) (.cut 1 (.cut 2 .leaf .leaf) (.cut 2 .leaf .leaf))) (.cut 0 (.cut 1 (.cut 2 .leaf .leaf) (.cut 2 .leaf .leaf)) (.cut 1 (.cut 2 .leaf .leaf) (.cut 2 (.cut 0 .leaf .leaf) .leaf)))) (.cut 2 (.cut 0 (.cut 1 .leaf .leaf) (.cut 1 .leaf .leaf)) (.cut 0 (.cut 1 (.cut 2 .leaf (.cut 0 .leaf .leaf)) (.cut 2 .leaf (.cut 0 .leaf .leaf))) (.cut 1 (.cut 2 .leaf (.cut 0 .leaf .leaf)) (.cut 2 .leaf (.cut 0 .leaf .leaf)))))) (.cut 1 (.cut 2 (.cut 0 (.cut 1 (.cut 2 .leaf .leaf) (.cut 2 .leaf .leaf)) (.cut 1 .leaf .leaf)) (.cut 0 (.cut 1 (.cut 2 .leaf (.cut 0 .leaf .leaf)) (.cut 2 .leaf (.cut 0 .leaf .leaf))) (.cut 1 .leaf .leaf))) (.cut 2 (.cut 0 (.cut 1 .leaf .leaf) .leaf) (.cut 0 (.cut 1 (.cut 2 .leaf (.cut 0 .leaf .leaf)) (.cut 2 .leaf (.cut 0 .leaf .leaf))) (.cut 1 (.cut 2 .leaf .leaf) (.cut 2 .leaf .leaf))))))))))) (.cut 1 (.cut 2 (.cut 0 (.cut 1 (.cut 2 (.cut 0 .leaf .leaf) (.cut 0 (.cut 1 .leaf .leaf) .leaf)) (.cut 2 (.cut 0 (.cut 1 .leaf .leaf) .leaf) (.cut 0 (.cut 1 .leaf .leaf) .leaf))) (.cut 1 .leaf (.cut 2 .leaf .leaf))) (.cut 0 (.cut 1 (.cut 2 (.cut 0 (.cut 1 .leaf .leaf) .leaf) (.cut 0 .leaf .leaf)) (.cut 2 (.cut 0 (.cut 1 (.cut 2 .leaf .leaf) .leaf) .leaf) (.cut 0 (.cut 1 .leaf (.cut 2 .leaf .leaf)) .leaf))) (.cut 1 (.cut 2 .leaf .leaf) (.cut 2 .leaf .leaf)))) (.cut 2 (.cut 0 (.cut 1 (.cut 2 .leaf (.cut 0 (.cut 1 .leaf .leaf) .leaf)) (.cut 2 .leaf (.cut 0 .leaf .leaf))) (.cut 1 (.cut 2 .leaf .leaf) (.cut 2 .leaf .leaf))) (.cut 0 (.cut 1 (.cut 2 (.cut 0 (.cut 1 (.cut 2 .leaf .leaf) (.cut 2 .leaf .leaf)) .leaf) (.cut 0 (.cut 1 (.cut 2 .leaf .leaf) (.cut 2 .leaf (.cut 0 .leaf .leaf))) (.cut 1 .leaf .leaf))) (.cut 2 (.cut 0 (.cut 1 (.cut 2 .leaf .leaf) .leaf) (.cut 1 .leaf .leaf)) (.cut 0 (.cut 1 (.cut 2 (.cut 0 .leaf .leaf) (.cut 0 .leaf .leaf)) (.cut 2 (.cut 0 .leaf .leaf) (.cut 0 .leaf .leaf))) (.cut 1 .leaf .leaf)))) (.cut 1 (.cut 2 .leaf .leaf) (.cut 2 .leaf .leaf))))))) (.cut 0 (.cut 1 (.cut 2 (.cut 0 (.cut 1 (.cut 2 .leaf (.ref (.cut 0 .leaf .leaf))) (.cut 2 (.ref (.cut 0 .leaf .leaf)) .leaf)) (.cut 1 (.cut 2 .leaf (.ref (.cut 0 .leaf .leaf))) (.cut 2 (.ref (.cut 0 .leaf .leaf)) .leaf))) (.ref (.cut 0 (.cut 1 .out (.cut 2 (.cut 0 .leaf .leaf) .out)) (.cut 1 .out (.cut 2 (.cut 0 .leaf (.cut 1 .out .leaf)) .out))))) (.cut 2 (.ref (.cut 0 (.cut 1 (.cut 2 (.cut 0 (.cut 1 .leaf (.cut 2 .leaf .leaf)) (.cut 1 (.cut 2 .leaf .leaf) (.cut 2 (.cut 0 .leaf .leaf) .leaf))) (.cut 0 .leaf .leaf)) (.cut 2 (.cut 0 (.cut 1 (.cut 2 .leaf .leaf) (.cut 2 .leaf .leaf)) (.cut 1 (.cut 2 (.cut 0 .leaf (.cut 1 .leaf (.cut 2 .leaf .leaf))) (.cut 0 .leaf (.cut 1 .leaf .leaf))) (.cut 2 (.cut 0 .leaf (.cut 1 .leaf (.cut 2 .leaf .leaf))) (.cut 0 .leaf (.cut 1 (.cut 2 .leaf .leaf) (.cut 2 .leaf .leaf)))))) (.cut 0 (.cut 1 .leaf (.cut 2 .leaf .leaf)) (.cut 1 (.cut 2 .leaf .leaf) (.cut 2 (.cut 0 .leaf (.cut 1 .leaf .leaf)) .leaf))))) (.cut 1 (.cut 2 (.cut 0 (.cut 1 (.cut 2 .leaf .leaf) (.cut 2 (.cut 0 (.cut 1 .leaf .leaf) (.cut 1 .leaf .leaf)) .leaf)) (.cut 1 (.cut 2 .leaf .leaf) (.cut 2 (.cut 0 (.cut 1 .leaf .leaf) .leaf) .leaf))) (.cut 0 .leaf (.cut 1 .leaf .leaf))) (.cut 2 (.cut 0 (.cut 1 (.cut 2 (.cut 0 (.cut 1 (.cut 2 .leaf .leaf) (.cut 2 (.cut 0 .leaf .leaf) (.cut 0 .leaf .leaf))) (.cut 1 (.cut 2 .leaf .leaf) (.cut 2 (.cut 0 .leaf .leaf) (.cut 0 .leaf .leaf)))) (.cut 0 (.cut 1 .leaf (.cut 2 .leaf .leaf)) (.cut 1 .leaf (.cut 2 .leaf .leaf)))) (.cut 2 (.cut 0 (.cut 1 (.cut 2 (.cut 0 .leaf .leaf) (.cut 0 .leaf (.cut 1 .leaf .leaf))) (.cut 2 (.cut 0 .leaf (.cut 1 .leaf .leaf)) (.cut 0 .leaf .leaf))) (.cut 1 (.cut 2 (.cut 0 .leaf .leaf) (.cut 0 (.cut 1 .leaf .leaf) (.cut 1 .leaf .leaf))) (.cut 2 (.cut 0 (.cut 1 .leaf .leaf) (.cut 1 .leaf .leaf)) (.cut 0 (.cut 1 .leaf .leaf) (.cut 1 .leaf .leaf))))) (.cut 0 (.cut 1 (.cut 2 (.cut 0 .leaf .leaf) .leaf) (.cut 2 (.cut 0 .leaf (.cut 1 .leaf .leaf)) (.cut 0 .leaf .leaf))) (.cut 1 (.cut 2 (.cut 0 .leaf .leaf) .leaf) (.cut 2 (.cut 0 (.cut 1 .leaf (.cut 2 .leaf .leaf)) (.cut 1 .leaf (.cut 2 .leaf .leaf))) (.cut 0 (.cut 1 .leaf .leaf) (.cut 1 .leaf .leaf))))))) (.cut 1 (.cut 2 (.cut 0 (.cut 1 (.cut 2 .leaf .leaf) (.cut 2 (.cut 0 .leaf .leaf) (.cut 0 .leaf .leaf))) (.cut 1 .leaf (.cut 2 .leaf .leaf))) (.cut 0 (.cut 1 .leaf (.cut 2 .leaf .leaf)) (.cut 1 .leaf .leaf))) (.cut 2 (.cut 0 (.cut 1 (.cut 2 (.cut 0 .leaf .leaf) (.cut 0 (.cut 1 .leaf .leaf) .leaf)) (.cut 2 (.cut 0 (.cut 1 .leaf .leaf) .leaf) (.cut 0 .leaf .leaf))) (.cut 1 (.cut 2 .leaf .leaf) (.cut 2 .leaf .leaf))) (.cut 0 (.cut 1 (.cut 2 (.cut 0 .leaf .leaf) .leaf) (.cut 2 (.cut 0 (.cut 1 .leaf (.cut 2 .leaf .leaf)) (.cut 1 .leaf .leaf)) (.cut 0 (.cut 1 .leaf .leaf) .leaf))) (.cut 1 (.cut 2 .leaf .leaf) (.cut 2 (.cut 0 .leaf .leaf) .leaf)))))) (.cut 0 (.cut 1 (.cut 2 .leaf .leaf) (.cut 2 (.cut 0 (.cut 1 .leaf (.cut 2 .leaf .leaf)) (.cut 1 .leaf (.cut 2 .leaf .leaf))) .leaf)) (.cut 1 (.cut 2 .leaf .leaf) (.cut 2 (.cut 0 (.cut 1 .leaf (.cut 2 .leaf .leaf)) (.cut 1 .leaf .leaf)) .leaf))))))) (.cut 0 (.cut 1 (.cut 2 .leaf (.ref (.cut 0 .leaf .leaf))) (.cut 2 (.ref (.cut 0 .leaf .leaf)) .leaf)) (.cut 1 (.cut 2 .leaf (.ref (.cut 0 (.cut 1 .out .leaf) (.cut 1 .out .leaf)))) (.cut 2 (.ref (.cut 0 (.cut 1 .leaf .leaf) (.cut 1 .leaf .leaf))) .leaf))))) (.cut 1 (.cut 2 (.cut 0 (.cut 1 (.cut 2 .leaf (.ref (.cut 0 .leaf .leaf))) (.cut 2 (.ref (.cut 0 .leaf .leaf)) .leaf)) (.cut 1 (.cut 2 .leaf (.ref .leaf)) (.cut 2 (.ref .leaf) .leaf))) (.ref (.cut 0 (.cut 1 .out (.cut 2 (.cut 0 .leaf .leaf) .out)) (.cut 1 .out (.cut 2 .leaf .out))))) (.cut 2 (.ref (.cut 0 (.cut 1 (.cut 2 (.cut 0 (.cut 1 .leaf (.cut 2 .leaf .leaf)) (.cut 1 .leaf .leaf)) (.cut 0 .leaf .leaf)) (.cut 2 (.cut 0 (.cut 1 (.cut 2 (.cut 0 .leaf .leaf) (.cut 0 .leaf .leaf)) (.cut 2 (.cut 0 .leaf .leaf) (.cut 0 (.cut 1 .leaf .leaf) .leaf))) (.cut 1 .leaf .leaf)) (.cut 0 (.cut 1 .leaf (.cut 2 (.cut 0 .leaf .leaf) .leaf)) (.cut 1 .leaf .leaf)))) (.cut 1 (.cut 2 (.cut 0 .leaf .leaf) .leaf) (.cut 2 (.cut 0 .leaf .leaf) (.cut 0 .leaf .leaf))))) (.cut 0 (.cut 1 (.cut 2 .leaf (.ref (.cut 0 .leaf .leaf))) (.cut 2 (.ref (.cut 0 .leaf .leaf)) .leaf)) (.cut 1 (.cut 2 .leaf (.ref .leaf)) (.cut 2 (.ref .leaf) .leaf)))))))))))) (.ref (.cut 0 (.cut 1 .out (.cut 2 (.cut 0 (.cut 1 .out .leaf) (.cut 1 .out (.cut 2 (.cut 0 .leaf .leaf) .out))) .out)) (.cut 1 .out (.cut 2 (.cut 0 (.cut 1 .out (.cut 2 (.cut 0 (.cut 1 .out (.cut 2 .leaf .out)) (.cut 1 .out (.cut 2 (.cut 0 (.cut 1 .out .leaf) (.cut 1 .out (.cut 2 .leaf .out))) .out))) .out)) (.cut 1 .out (.cut 2 (.cut 0 (.cut 1 .out (.cut 2 (.cut 0 (.cut 1 .out (.cut 2 (.cut 0 .leaf .leaf) .out)) (.cut 1 .out (.cut 2 (.cut 0 .leaf .leaf) .out))) .out)) (.cut 1 .out (.cut 2 (.cut 0 (.cut 1 .out (.cut 2 (.cut 0 .leaf .leaf) .out)) (.cut 1 .out (.cut 2 .leaf .out))) .out))) .out))) .out))))))
theorem h7 : check par t7 [26112, 12800, 13312] [512, 512, 1024] st = true := by decide +kernel
end FastNoise.RangeCheck.Simplex3
