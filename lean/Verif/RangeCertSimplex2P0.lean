import Verif.RangeCertSimplex2
/-! Generated by tools/rangecert/gen.py: a certificate for the checker `Verif.RangeCheck`. -/
namespace FastNoise.RangeCheck.Simplex2
set_option maxRecDepth 1000000
def t0 : Tree := (.ref (.cut 0 (.ref (.cut 1 (.ref (.cut 0 (.cut 1 (.cut 0 (.cut 1 (.ref .leaf) (.ref (.cut 0 .out .leaf))) (.cut 1 (.ref (.cut 0 .leaf (.cut 1 .leaf .leaf))) (.ref .leaf))) (.ref (.cut 0 .out (.ref (.cut 1 (.cut 0 .out (.cut 1 (.ref .leaf) .out)) .out))))) (.cut 1 (.ref (.cut 0 (.cut 1 (.cut 0 (.cut 1 (.cut 0 (.ref .leaf) (.cut 1 (.ref .leaf) (.ref .leaf))) .leaf) (.cut 1 (.cut 0 (.cut 1 (.cut 0 (.ref .leaf) (.ref .leaf)) (.ref .leaf)) (.cut 1 (.cut 0 (.cut 1 (.ref .leaf) (.ref .leaf)) (.cut 1 (.ref .leaf) (.ref .leaf))) (.ref .leaf))) (.cut 0 .leaf .leaf))) (.cut 0 (.cut 1 (.ref .leaf) (.ref .leaf)) (.cut 1 (.ref .leaf) (.cut 0 (.ref .leaf) (.ref .leaf))))) (.cut 1 (.cut 0 (.cut 1 (.cut 0 (.cut 1 (.cut 0 (.cut 1 (.cut 0 (.ref .leaf) (.ref .leaf)) (.ref .leaf)) (.cut 1 (.cut 0 (.cut 1 (.ref .leaf) (.ref .leaf)) (.cut 1 (.ref .leaf) (.ref .leaf))) (.ref .leaf))) (.cut 0 (.ref .leaf) (.ref .leaf))) (.cut 1 (.cut 0 (.cut 1 (.cut 0 (.cut 1 (.ref .leaf) (.ref .leaf)) (.cut 1 (.cut 0 (.ref .leaf) (.ref .leaf)) (.ref .leaf))) (.cut 0 (.ref .leaf) (.ref .leaf))) (.cut 1 (.cut 0 (.cut 1 (.cut 0 (.ref .leaf) (.ref .leaf)) (.ref .leaf)) (.cut 1 (.cut 0 (.cut 1 (.ref .leaf) (.ref .leaf)) (.cut 1 (.ref .leaf) (.ref .leaf))) (.ref .leaf))) (.cut 0 (.ref .leaf) (.ref .leaf)))) (.cut 0 (.ref .leaf) (.cut 1 (.ref .leaf) (.ref .leaf))))) (.cut 0 (.cut 1 (.ref .leaf) .leaf) (.cut 1 (.ref .leaf) .leaf))) (.cut 1 (.cut 0 (.cut 1 (.cut 0 (.cut 1 (.cut 0 (.cut 1 (.cut 0 (.cut 1 (.ref .leaf) (.ref .leaf)) (.cut 1 (.ref .leaf) (.ref .leaf))) (.ref .leaf)) (.cut 1 (.cut 0 (.cut 1 (.cut 0 (.ref .leaf) (.ref .leaf)) (.ref .leaf)) (.cut 1 (.cut 0 (.ref .leaf) (.ref .leaf)) (.ref .leaf))) (.cut 0 (.ref .leaf) (.ref .leaf)))) (.cut 0 (.ref .leaf) (.ref .leaf))) (.cut 1 (.cut 0 (.cut 1 (.cut 0 (.cut 1 (.cut 0 (.ref .leaf) (.ref .leaf)) (.ref .leaf)) (.cut 1 (.cut 0 (.ref .leaf) (.ref .leaf)) (.ref .leaf))) (.cut 0 (.ref .leaf) (.ref .leaf))) (.cut 1 (.cut 0 (.cut 1 (.cut 0 (.ref .leaf) (.ref .leaf)) (.ref .leaf)) (.cut 1 (.cut 0 (.ref .leaf) (.ref .leaf)) (.ref .leaf))) (.cut 0 (.ref .leaf) (.ref .leaf)))) (.cut 0 (.ref .leaf) (.cut 1 (.ref .leaf) (.ref .leaf))))) (.cut 0 (.cut 1 (.ref .leaf) (.ref .leaf)) (.cut 1 (.ref .leaf) (.ref .leaf)))) (.cut 1 (.cut 0 (.cut 1 (.cut 0 (.cut 1 (.cut 0 (.cut 1 (.cut 0 (.ref .leaf) (.ref .leaf)) (.ref .leaf)) (.cut 1 (.cut 0 (.ref .leaf) (.ref .leaf)) (.ref .leaf))) (.cut 0 (.ref .leaf) (.ref .leaf))) (.cut 1 (.cut 0 (.cut 1 (.cut 0 (.ref .leaf) (.ref .leaf)) (.ref .leaf)) (.cut 1 (.cut 0 (.ref .leaf) (.ref .leaf)) (.ref .leaf))) (.cut 0 (.ref .leaf) (.ref .leaf)))) (.cut 0 (.cut 1 (.ref .leaf) (.ref .leaf)) (.cut 1 (.ref .leaf) (.ref .leaf)))) (.cut 1 (.cut 0 (.cut 1 (.cut 0 (.cut 1 (.cut 0 (.ref .leaf) (.ref .leaf)) (.ref .leaf)) (.cut 1 (.cut 0 (.ref .leaf) (.ref .leaf)) (.cut 0 (.ref .leaf) (.ref .leaf)))) (.cut 0 (.ref .leaf) (.cut 1 (.ref .leaf) (.ref .leaf)))) (.cut 1 (.cut 0 (.cut 1 (.cut 0 (.ref .leaf) (.ref .leaf)) (.cut 0 (.ref .leaf) (.ref .leaf))) (.cut 1 (.cut 0 (.ref .leaf) (.ref .leaf)) (.cut 0 (.ref .leaf) (.ref .leaf)))) (.cut 0 (.cut 1 (.ref .leaf) (.ref .leaf)) (.cut 1 (.ref .leaf) (.ref .leaf))))) (.cut 0 (.cut 1 (.ref .leaf) (.ref .leaf)) (.cut 1 (.ref .leaf) (.ref .leaf))))) (.cut 0 (.cut 1 (.ref .leaf) (.ref .leaf)) (.cut 1 (.ref .leaf) (.ref .leaf))))) (.cut 0 (.cut 1 (.ref .leaf) .leaf) (.cut 1 (.ref .leaf) (.ref .leaf))))) (.cut 0 (.cut 1 (.cut 0 (.ref .leaf) (.ref .leaf)) (.cut 0 (.ref .leaf) (.ref .leaf))) (.cut 1 (.cut 0 .leaf .leaf) (.cut 0 (.ref .leaf) (.ref .leaf))))))) (.ref (.cut 0 (.cut 1 (.cut 0 (.cut 1 (.ref .leaf) (.ref (.cut 0 .out .leaf))) (.cut 1 (.ref (.cut 0 .leaf .leaf)) (.cut 0 (.ref .leaf) (.ref .leaf)))) (.ref (.cut 0 .out (.ref (.cut 1 (.cut 0 .out .leaf) .out))))) (.cut 1 (.ref (.cut 0 (.cut 1 (.cut 0 .leaf .leaf) (.cut 0 .leaf .leaf)) (.cut 1 (.cut 0 .leaf .leaf) (.cut 0 .leaf .leaf)))) (.cut 0 (.cut 1 (.cut 0 (.ref .leaf) (.ref .leaf)) (.ref .leaf)) (.cut 1 (.ref (.cut 0 .leaf .leaf)) (.cut 0 (.ref .leaf) (.ref .leaf)))))))))) (.ref (.cut 0 .out (.cut 1 (.ref (.cut 0 .out (.cut 1 (.cut 0 .out (.cut 1 (.cut 0 .out .leaf) .out)) .out))) .out))))) (.ref (.cut 1 (.ref (.cut 0 (.cut 1 (.cut 0 (.ref (.cut 1 (.cut 0 (.cut 1 (.cut 0 (.cut 1 (.cut 0 (.cut 1 (.cut 0 (.cut 1 (.cut 0 (.cut 1 (.cut 0 (.ref .leaf) (.ref .leaf)) (.cut 0 (.ref .leaf) (.ref .leaf))) (.cut 1 (.cut 0 (.ref .leaf) (.ref .leaf)) (.cut 0 (.ref .leaf) (.ref .leaf)))) (.cut 0 (.cut 1 (.ref .leaf) (.ref .leaf)) (.cut 1 (.ref .leaf) (.ref .leaf)))) (.cut 1 (.cut 0 (.cut 1 (.cut 0 (.ref .leaf) (.ref .leaf)) (.cut 0 (.ref .leaf) (.ref .leaf))) (.cut 1 (.cut 0 (.ref .leaf) (.ref .leaf)) (.cut 0 (.ref .leaf) (.ref .leaf)))) (.cut 0 (.cut 1 (.ref .leaf) (.ref .leaf)) (.cut 1 (.ref .leaf) (.ref .leaf))))) (.cut 0 (.cut 1 (.ref .leaf) (.ref .leaf)) (.cut 1 (.cut 0 (.ref .leaf) (.ref .leaf)) (.ref .leaf)))) (.cut 1 (.cut 0 (.cut 1 (.cut 0 (.cut 1 (.cut 0 (.ref .leaf) (.cut 1 (.ref .leaf) (.ref .leaf))) (.cut 0 (.cut 1 (.ref .leaf) (.ref .leaf)) (.cut 1 (.ref .leaf) (.ref .leaf)))) (.cut 1 (.cut 0 (.cut 1 (.ref .leaf) (.ref .leaf)) (.cut 1 (.ref .leaf) (.ref .leaf))) (.cut 0 (.cut 1 (.ref .leaf) (.ref .leaf)) (.cut 1 (.ref .leaf) (.ref .leaf))))) (.cut 0 (.cut 1 (.cut 0 (.ref .leaf) (.ref .leaf)) (.ref .leaf)) (.cut 1 (.cut 0 (.ref .leaf) (.ref .leaf)) (.ref .leaf)))) (.cut 1 (.cut 0 (.cut 1 (.cut 0 (.cut 1 (.ref .leaf) (.ref .leaf)) (.cut 1 (.ref .leaf) (.ref .leaf))) (.cut 0 (.cut 1 (.ref .leaf) (.ref .leaf)) (.cut 1 (.ref .leaf) (.ref .leaf)))) (.cut 1 (.cut 0 (.cut 1 (.ref .leaf) (.ref .leaf)) (.cut 1 (.ref .leaf) (.ref .leaf))) (.cut 0 (.cut 1 (.ref .leaf) (.ref .leaf)) (.cut 1 (.ref .leaf) (.ref .leaf))))) (.cut 0 (.cut 1 (.cut 0 (.ref .leaf) (.ref .leaf)) (.ref .leaf)) (.cut 1 (.cut 0 (.ref .leaf) (.ref .leaf)) (.ref .leaf))))) (.cut 0 (.cut 1 (.cut 0 (.ref .leaf) (.ref .leaf)) (.ref .leaf)) (.cut 1 (.cut 0 (.ref .leaf) (.ref .leaf)) (.ref .leaf))))) (.cut 0 (.cut 1 (.cut 0 (.ref .leaf) (.ref .leaf)) (.ref .leaf)) (.cut 1 (.cut 0 (.ref .leaf) (.ref .leaf)) (.ref .leaf)))) (.cut 1 (.cut 0 (.cut 1 (.cut 0 (.cut 1 (.cut 0 (.cut 1 (.cut 0 (.cut 1 (.ref .leaf) (.ref .leaf)) (.cut 1 (.ref .leaf) (.cut 0 (.ref .leaf) (.ref .leaf)))) (.cut 0 (.cut 1 (.cut 0 (.ref .leaf) (.ref .leaf)) (.ref .leaf)) (.cut 1 (.cut 0 (.ref .leaf) (.ref .leaf)) (.cut 0 (.ref .leaf) (.ref .leaf))))) (.cut 1 (.cut 0 (.cut 1 (.ref .leaf) (.cut 0 (.ref .leaf) (.ref .leaf))) (.cut 1 (.ref .leaf) (.cut 0 (.ref .leaf) (.ref .leaf)))) (.cut 0 (.cut 1 (.cut 0 (.ref .leaf) (.ref .leaf)) (.cut 0 (.ref .leaf) (.ref .leaf))) (.cut 1 (.cut 0 (.ref .leaf) (.ref .leaf)) (.cut 0 (.ref .leaf) (.ref .leaf)))))) (.cut 0 (.cut 1 (.cut 0 (.cut 1 (.ref .leaf) (.ref .leaf)) (.cut 1 (.ref .leaf) (.ref .leaf))) (.ref .leaf)) (.cut 1 (.cut 0 (.cut 1 (.ref .leaf) (.ref .leaf)) (.cut 1 (.ref .leaf) (.ref .leaf))) (.cut 0 (.ref .leaf) (.ref .leaf))))) (.cut 1 (.cut 0 (.cut 1 (.cut 0 (.cut 1 (.ref .leaf) (.cut 0 (.ref .leaf) (.ref .leaf))) (.cut 1 (.ref .leaf) (.cut 0 (.ref .leaf) (.ref .leaf)))) (.cut 0 (.cut 1 (.cut 0 (.ref .leaf) (.ref .leaf)) (.cut 0 (.ref .leaf) (.ref .leaf))) (.cut 1 (.cut 0 (.ref .leaf) (.cut 1 (.ref .leaf) (.ref .leaf))) (.cut 0 (.cut 1 (.ref .leaf) (.ref .leaf)) (.cut 1 (.ref .leaf) (.ref .leaf)))))) (.cut 1 (.cut 0 (.cut 1 (.ref .leaf) (.cut 0 (.ref .leaf) (.ref .leaf))) (.cut 1 (.ref .leaf) (.cut 0 (.ref .leaf) (.ref .leaf)))) (.cut 0 (.cut 1 (.cut 0 (.cut 1 (.ref .leaf) (.ref .leaf)) (.cut 1 (.ref .leaf) (.ref .leaf))) (.cut 0 (.cut 1 (.ref .leaf) (.ref .leaf)) (.cut 1 (.ref .leaf) (.ref .leaf)))) (.cut 1 (.cut 0 (.cut 1 (.ref .leaf) (.ref .leaf)) (.cut 1 (.ref .leaf) (.ref .leaf))) (.cut 0 (.cut 1 (.ref .leaf) (.ref .leaf)) (.cut 1 (.ref .leaf) (.ref .leaf))))))) (.cut 0 (.cut 1 (.cut 0 (.cut 1 (.cut 0 (.ref .leaf) (.ref .leaf)) (.ref .leaf)) (.cut 1 (.cut 0 (.ref .leaf) (.ref .leaf)) (.ref .leaf))) (.cut 0 (.ref .leaf) (.ref .leaf))) (.cut 1 (.cut 0 (.cut 1 (.cut 0 (.ref .leaf) (.ref .leaf)) (.ref .leaf)) (.cut 1 (.cut 0 (.cut 1 (.ref .leaf) (.ref .leaf)) (.cut 1 (.ref .leaf) (.ref .leaf))) (.ref .leaf))) (.cut 0 (.ref .leaf) (.ref .leaf)))))) (.cut 0 (.cut 1 (.cut 0 (.ref .leaf) (.ref .leaf)) (.ref .leaf)) (.cut 1 (.cut 0 (.cut 1 (.ref .leaf) (.ref .leaf)) (.cut 1 (.ref .leaf) (.ref .leaf))) (.ref .leaf)))) (.cut 1 (.cut 0 (.cut 1 (.cut 0 (.cut 1 (.cut 0 (.cut 1 (.ref .leaf) (.cut 0 (.ref .leaf) (.ref .leaf))) (.cut 1 (.ref .leaf) (.cut 0 (.ref .leaf) (.ref .leaf)))) (.cut 0 (.cut 1 (.cut 0 (.cut 1 (.ref .leaf) (.ref .leaf)) (.cut 1 (.ref .leaf) (.ref .leaf))) (.cut 0 (.cut 1 (.cut 0 (.ref .leaf) (.ref .leaf)) (.cut 0 (.ref .leaf) (.ref .leaf))) (.cut 1 (.cut 0 (.ref .leaf) (.ref .leaf)) (.cut 0 (.ref .leaf) (.ref .leaf))))) (.cut 1 (.cut 0 (.cut 1 (.ref .leaf) (.ref .leaf)) (.cut 1 (.ref .leaf) (.cut 0 (.ref .leaf) (.ref .leaf)))) (.cut 0 (.cut 1 (.cut 0 (.ref .leaf) (.ref .leaf)) (.cut 0 (.ref .leaf) (.ref .leaf))) (.cut 1 (.cut 0 (.ref .leaf) (.ref .leaf)) (.cut 0 (.ref .leaf) (.ref .leaf))))))) (.cut 1 (.cut 0 (.cut 1 (.ref .leaf) (.cut 0 (.ref .leaf) (.ref .leaf))) (.cut 1 (.ref .leaf) (.cut 0 (.ref .leaf) (.ref .leaf)))) (.cut 0 (.cut 1 (.cut 0 (.cut 1 (.ref .leaf) (.cut 0 (.ref .leaf) (.ref .leaf))) (.cut 1 (.ref .leaf) (.cut 0 (.ref .leaf) (.ref .leaf)))) (.cut 0 (.cut 1 (.cut 0 (.ref .leaf) (.cut 1 (.ref .leaf) (.ref .leaf))) (.cut 0 (.cut 1 (.ref .leaf) (.ref .leaf)) (.cut 1 (.ref .leaf) (.ref .leaf)))) (.cut 1 (.cut 0 (.cut 1 (.ref .leaf) (.ref .leaf)) (.cut 1 (.ref .leaf) (.ref .leaf))) (.cut 0 (.cut 1 (.ref .leaf) (.ref .leaf)) (.cut 1 (.ref .leaf) (.ref .leaf)))))) (.cut 1 (.cut 0 (.cut 1 (.ref .leaf) (.ref .leaf)) (.cut 1 (.ref .leaf) (.ref .leaf))) (.cut 0 (.cut 1 (.cut 0 (.cut 1 (.ref .leaf) (.ref .leaf)) (.cut 1 (.ref .leaf) (.ref .leaf))) (.cut 0 (.cut 1 (.ref .leaf) (.ref .leaf)) (.cut 1 (.cut 0 (.ref .leaf) (.ref .leaf)) (.cut 0 (.ref .leaf) (.ref .leaf))))) (.cut 1 (.cut 0 (.cut 1 (.ref .leaf) (.ref .leaf)) (.cut 1 (.ref .leaf) (.ref .leaf))) (.cut 0 (.cut 1 (.cut 0 (.ref .leaf) (.ref .leaf)) (.cut 0 (.ref .leaf) (.ref .leaf))) (.cut 1 (.cut 0 (.ref .leaf) (.ref .leaf)) (.cut 0 (.ref .leaf) (.ref .leaf)))))))))) (.cut 0 (.cut 1 (.cut 0 (.cut 1 (.cut 0 (.cut 1 (.ref .leaf) (.ref .leaf)) (.cut 1 (.ref .leaf) (.ref .leaf))) (.cut 0 (.ref .leaf) (.ref .leaf))) (.cut 1 (.cut 0 (.cut 1 (.cut 0 (.ref .leaf) (.ref .leaf)) (.ref .leaf)) (.cut 1 (.cut 0 (.ref .leaf) (.ref .leaf)) (.ref .leaf))) (.cut 0 (.ref .leaf) (.ref .leaf)))) (.cut 0 (.cut 1 (.ref .leaf) (.ref .leaf)) (.cut 1 (.ref .leaf) (.ref .leaf)))) (.cut 1 (.cut 0 (.cut 1 (.cut 0 (.cut 1 (.cut 0 (.ref .leaf) (.cut 1 (.ref .leaf) (.ref .leaf))) (.ref .leaf)) (.cut 1 (.cut 0 (.cut 1 (.ref .leaf) (.ref .leaf)) (.cut 1 (.ref .leaf) (.ref .leaf))) (.cut 0 (.ref .leaf) (.ref .leaf)))) (.cut 0 (.ref .leaf) (.cut 1 (.ref .leaf) (.ref .leaf)))) (.cut 1 (.cut 0 (.cut 1 (.cut 0 (.cut 1 (.ref .leaf) (.ref .leaf)) (.cut 1 (.cut 0 (.ref .leaf) (.ref .leaf)) (.ref .leaf))) (.cut 0 (.ref .leaf) (.ref .leaf))) (.cut 1 (.cut 0 (.cut 1 (.cut 0 (.ref .leaf) (.ref .leaf)) (.ref .leaf)) (.cut 1 (.cut 0 (.ref .leaf) (.ref .leaf)) (.cut 0 (.ref .leaf) (.ref .leaf)))) (.cut 0 (.ref .leaf) (.cut 1 (.ref .leaf) (.ref .leaf))))) (.cut 0 (.cut 1 (.ref .leaf) (.ref .leaf)) (.cut 1 (.ref .leaf) (.ref .leaf))))) (.cut 0 (.cut 1 (.ref .leaf) (.ref .leaf)) (.cut 1 (.ref .leaf) (.ref .leaf)))))) (.cut 1 (.cut 0 (.cut 1 (.cut 0 (.cut 1 (.ref .leaf) (.ref .leaf)) (.cut 1 (.ref .leaf) (.ref .leaf))) (.cut 0 (.cut 1 (.cut 0 (.cut 1 (.ref .leaf) (.ref .leaf)) (.cut 1 (.ref .leaf) (.ref .leaf))) (.cut 0 (.cut 1 (.cut 0 (.cut 1 (.ref .leaf) (.ref .leaf)) (.cut 1 (.ref .leaf) (.ref .leaf))) (.cut 0 (.cut 1 (.cut 0 (.ref .leaf) (.ref .leaf)) (.cut 0 (.ref .leaf) (.cut 1 (.ref .leaf) (.ref .leaf)))) (.cut 1 (.cut 0 (.ref .leaf) (.ref .leaf)) (.cut 0 (.cut 1 (.ref .leaf) (.ref .leaf)) (.cut 1 (.ref .leaf) (.ref .leaf)))))) (.cut 1 (.cut 0 (.cut 1 (.ref .leaf) (.ref .leaf)) (.cut 1 (.ref .leaf) (.ref .leaf))) (.cut 0 (.cut 1 (.cut 0 (.ref .leaf) (.ref .leaf)) (.cut 0 (.cut 1 (.ref .leaf) (.ref .leaf)) (.cut 1 (.ref .leaf) (.ref .leaf)))) (.cut 1 (.cut 0 (.ref .leaf) (.ref .leaf)) (.cut 0 (.cut 1 (.ref .leaf) (.ref .leaf)) (.cut 1 (.ref .leaf) (.ref .leaf)))))))) (.cut 1 (.cut 0 (.cut 1 (.ref .leaf) (.ref .leaf)) (.cut 1 (.ref .leaf) (.ref .leaf))) (.cut 0 (.cut 1 (.cut 0 (.cut 1 (.ref .leaf) (.ref .leaf)) (.ref .leaf)) (.cut 0 (.cut 1 (.cut 0 (.ref .leaf) (.ref .leaf)) (.cut 0 (.cut 1 (.ref .leaf) (.ref .leaf)) (.cut 1 (.ref .leaf) (.ref .leaf)))) (.cut 1 (.cut 0 (.ref .leaf) (.ref .leaf)) (.cut 0 (.cut 1 (.ref .leaf) (.ref .leaf)) (.cut 1 (.ref .leaf) (.ref .leaf)))))) (.cut 1 (.cut 0 (.ref .leaf) (.ref .leaf)) (.cut 0 (.cut 1 (.ref .leaf) (.cut 0 (.cut 1 (.ref .leaf) (.ref .leaf)) (.cut 1 (.ref .leaf) (.ref .leaf)))) (.cut 1 (.ref .leaf) (.cut 0 (.cut 1 (.ref .leaf) (.ref .leaf)) (.cut 1 (.ref .leaf) (.ref .leaf)))))))))) (.cut 1 (.cut 0 (.cut 1 (.ref .leaf) (.ref .leaf)) (.cut 1 (.ref .leaf) (.ref .leaf))) (.cut 0 (.cut 1 (.cut 0 (.cut 1 (.ref .leaf) (.ref .leaf)) (.ref .leaf)) (.cut 0 (.cut 1 (.cut 0 (.ref .leaf) (.ref .leaf)) (.cut 0 (.cut 1 (.ref .leaf) (.cut 0 (.ref .leaf) (.ref .leaf))) (.cut 1 (.ref .leaf) (.cut 0 (.ref .leaf) (.ref .leaf))))) (.cut 1 (.cut 0 (.ref .leaf) (.ref .leaf)) (.cut 0 (.cut 1 (.ref .leaf) (.cut 0 (.ref .leaf) (.ref .leaf))) (.cut 1 (.ref .leaf) (.ref .leaf)))))) (.cut 1 (.cut 0 (.ref .leaf) (.ref .leaf)) (.cut 0 (.cut 1 (.ref .leaf) (.cut 0 (.cut 1 (.ref .leaf) (.ref .leaf)) (.cut 1 (.ref .leaf) (.ref .leaf)))) (.cut 1 (.ref .leaf) (.cut 0 (.cut 1 (.ref .leaf) (.ref .leaf)) (.ref .leaf)))))))) (.cut 0 (.cut 1 (.cut 0 (.cut 1 (.cut 0 (.cut 1 (.cut 0 (.cut 1 (.cut 0 (.ref .leaf) (.cut 1 (.ref .leaf) (.ref .leaf))) (.cut 0 (.ref .leaf) (.ref .leaf))) (.cut 1 (.cut 0 (.cut 1 (.ref .leaf) (.ref .leaf)) (.cut 1 (.ref .leaf) (.ref .leaf))) (.cut 0 (.ref .leaf) (.ref .leaf)))) (.cut 0 (.cut 1 (.ref .leaf) (.ref .leaf)) (.cut 1 (.ref .leaf) (.ref .leaf)))) (.cut 1 (.cut 0 (.cut 1 (.cut 0 (.cut 1 (.ref .leaf) (.ref .leaf)) (.cut 1 (.ref .leaf) (.ref .leaf))) (.cut 0 (.cut 1 (.ref .leaf) (.ref .leaf)) (.cut 1 (.ref .leaf) (.ref .leaf)))) (.cut 1 (.cut 0 (.cut 1 (.ref .leaf) (.cut 0 (.ref .leaf) (.ref .leaf))) (.cut 1 (.cut 0 (.ref .leaf) (.ref .leaf)) (.cut 0 (.ref .leaf) (.ref .leaf)))) (.cut 0 (.cut 1 (.ref .leaf) (.ref .leaf)) (.cut 1 (.ref .leaf) (.ref .leaf))))) (.cut 0 (.cut 1 (.ref .leaf) (.ref .leaf)) (.cut 1 (.cut 0 (.ref .leaf) (.ref .leaf)) (.ref .leaf))))) (.cut 0 (.cut 1 (.ref .leaf) (.ref .leaf)) (.cut 1 (.cut 0 (.ref .leaf) (.ref .leaf)) (.ref .leaf)))) (.cut 1 (.cut 0 (.cut 1 (.cut 0 (.cut 1 (.cut 0 (.cut 1 (.cut 0 (.ref .leaf) (.ref .leaf)) (.cut 0 (.ref .leaf) (.ref .leaf))) (.cut 1 (.cut 0 (.ref .leaf) (.ref .leaf)) (.cut 0 (.ref .leaf) (.ref .leaf)))) (.cut 0 (.cut 1 (.cut 0 (.ref .leaf) (.ref .leaf)) (.ref .leaf)) (.cut 1 (.cut 0 (.ref .leaf) (.ref .leaf)) (.ref .leaf)))) (.cut 1 (.cut 0 (.cut 1 (.cut 0 (.ref .leaf) (.ref .leaf)) (.cut 0 (.ref .leaf) (.ref .leaf))) (.cut 1 (.cut 0 (.ref .leaf) (.ref .leaf)) (.cut 0 (.ref .leaf) (.ref .leaf)))) (.cut 0 (.cut 1 (.cut 0 (.ref .leaf) (.ref .leaf)) (.ref .leaf)) (.cut 1 (.cut 0 (.ref .leaf) (.ref .leaf)) (.ref .leaf))))) (.cut 0 (.cut 1 (.cut 0 (.ref .leaf) (.ref .leaf)) (.ref .leaf)) (.cut 1 (.cut 0 (.ref .leaf) (.ref .leaf)) (.ref .leaf)))) (.cut 1 (.cut 0 (.cut 1 (.cut 0 (.cut 1 (.cut 0 (.ref .leaf) (.ref .leaf)) (.cut 0 (.ref .leaf) (.ref .leaf))) (.cut 1 (.cut 0 (.ref .leaf) (.ref .leaf)) (.cut 0 (.ref .leaf) (.cut 1 (.ref .leaf) (.ref .leaf))))) (.cut 0 (.cut 1 (.cut 0 (.ref .leaf) (.ref .leaf)) (.cut 0 (.ref .leaf) (.ref .leaf))) (.cut 1 (.cut 0 (.cut 1 (.ref .leaf) (.ref .leaf)) (.cut 1 (.ref .leaf) (.ref .leaf))) (.cut 0 (.ref .leaf) (.ref .leaf))))) (.cut 1 (.cut 0 (.cut 1 (.cut 0 (.ref .leaf) (.ref .leaf)) (.cut 0 (.cut 1 (.ref .leaf) (.ref .leaf)) (.cut 1 (.ref .leaf) (.ref .leaf)))) (.cut 1 (.cut 0 (.ref .leaf) (.ref .leaf)) (.cut 0 (.cut 1 (.ref .leaf) (.ref .leaf)) (.ref .leaf)))) (.cut 0 (.cut 1 (.cut 0 (.cut 1 (.ref .leaf) (.ref .leaf)) (.cut 1 (.ref .leaf) (.ref .leaf))) (.cut 0 (.ref .leaf) (.ref .leaf))) (.cut 1 (.cut 0 (.ref .leaf) (.ref .leaf)) (.cut 0 (.ref .leaf) (.ref .leaf)))))) (.cut 0 (.cut 1 (.cut 0 (.cut 1 (.ref .leaf) (.ref .leaf)) (.cut 1 (.ref .leaf) (.ref .leaf))) (.ref .leaf)) (.cut 1 (.cut 0 (.cut 1 (.ref .leaf) (.ref .leaf)) (.cut 1 (.ref .leaf) (.ref .leaf))) (.ref .leaf))))) (.cut 0 (.cut 1 (.cut 0 (.ref .leaf) (.ref .leaf)) (.ref .leaf)) (.cut 1 (.cut 0 (.ref .leaf) (.ref .leaf)) (.ref .leaf))))) (.cut 0 (.cut 1 (.cut 0 (.ref .leaf) (.ref .leaf)) (.ref .leaf)) (.cut 1 (.cut 0 (.ref .leaf) (.ref .leaf)) (.ref .leaf)))) (.cut 1 (.cut 0 (.cut 1 (.cut 0 (.cut 1 (.cut 0 (.cut 1 (.cut 0 (.cut 1 (.cut 0 (.ref .leaf) (.ref .leaf)) (.cut 0 (.ref .leaf) (.ref .leaf))) (.cut 1 (.ref .leaf) (.cut 0 (.ref .leaf) (.ref .leaf)))) (.cut 0 (.cut 1 (.cut 0 (.ref .leaf) (.ref .leaf)) (.cut 0 (.ref .leaf) (.ref .leaf))) (.cut 1 (.cut 0 (.ref .leaf) (.ref .leaf)) (.cut 0 (.ref .leaf) (.ref .leaf))))) (.cut 1 (.cut 0 (.cut 1 (.ref .leaf) (.cut 0 (.ref .leaf) (.ref .leaf))) (.cut 1 (.ref .leaf) (.cut 0 (.ref .leaf) (.ref .leaf)))) (.cut 0 (.cut 1 (.cut 0 (.ref .leaf) (.ref .leaf)) (.cut 0 (.ref .leaf) (.ref .leaf))) (.cut 1 (.cut 0 (.ref .leaf) (.ref .leaf)) (.cut 0 (.ref .leaf) (.ref .leaf)))))) (.cut 0 (.cut 1 (.cut 0 (.cut 1 (.ref .leaf) (.ref .leaf)) (.cut 1 (.ref .leaf) (.ref .leaf))) (.cut 0 (.ref .leaf) (.ref .leaf))) (.cut 1 (.cut 0 (.cut 1 (.ref .leaf) (.ref .leaf)) (.cut 1 (.ref .leaf) (.ref .leaf))) (.cut 0 (.ref .leaf) (.ref .leaf))))) (.cut 1 (.cut 0 (.cut 1 (.cut 0 (.cut 1 (.ref .leaf) (.ref .leaf)) (.cut 1 (.ref .leaf) (.ref .leaf))) (.cut 0 (.cut 1 (.cut 0 (.ref .leaf) (.ref .leaf)) (.cut 0 (.ref .leaf) (.ref .leaf))) (.cut 1 (.cut 0 (.ref .leaf) (.ref .leaf)) (.cut 0 (.ref .leaf) (.ref .leaf))))) (.cut 1 (.cut 0 (.cut 1 (.ref .leaf) (.ref .leaf)) (.cut 1 (.ref .leaf) (.ref .leaf))) (.cut 0 (.cut 1 (.ref .leaf) (.ref .leaf)) (.cut 1 (.ref .leaf) (.ref .leaf))))) (.cut 0 (.cut 1 (.cut 0 (.cut 1 (.ref .leaf) (.ref .leaf)) (.cut 1 (.ref .leaf) (.ref .leaf))) (.cut 0 (.ref .leaf) (.ref .leaf))) (.cut 1 (.cut 0 (.cut 1 (.ref .leaf) (.ref .leaf)) (.cut 1 (.ref .leaf) (.ref .leaf))) (.cut 0 (.ref .leaf) (.ref .leaf)))))) (.cut 0 (.cut 1 (.cut 0 (.ref .leaf) (.cut 1 (.ref .leaf) (.ref .leaf))) (.ref .leaf)) (.cut 1 (.cut 0 (.cut 1 (.ref .leaf) (.ref .leaf)) (.cut 1 (.ref .leaf) (.ref .leaf))) (.ref .leaf)))) (.cut 1 (.cut 0 (.cut 1 (.cut 0 (.cut 1 (.cut 0 (.ref .leaf) (.ref .leaf)) (.cut 0 (.cut 1 (.ref .leaf) (.ref .leaf)) (.cut 1 (.ref .leaf) (.ref .leaf)))) (.cut 1 (.cut 0 (.ref .leaf) (.ref .leaf)) (.cut 0 (.cut 1 (.ref .leaf) (.ref .leaf)) (.ref .leaf)))) (.cut 0 (.cut 1 (.cut 0 (.cut 1 (.ref .leaf) (.ref .leaf)) (.cut 1 (.ref .leaf) (.ref .leaf))) (.cut 0 (.ref .leaf) (.ref .leaf))) (.cut 1 (.cut 0 (.cut 1 (.ref .leaf) (.ref .leaf)) (.ref .leaf)) (.cut 0 (.ref .leaf) (.ref .leaf))))) (.cut 1 (.cut 0 (.cut 1 (.cut 0 (.ref .leaf) (.ref .leaf)) (.cut 0 (.ref .leaf) (.ref .leaf))) (.cut 1 (.ref .leaf) (.cut 0 (.ref .leaf) (.ref .leaf)))) (.cut 0 (.cut 1 (.cut 0 (.ref .leaf) (.ref .leaf)) (.cut 0 (.ref .leaf) (.ref .leaf))) (.cut 1 (.cut 0 (.ref .leaf) (.ref .leaf)) (.cut 0 (.ref .leaf) (.ref .leaf)))))) (.cut 0 (.cut 1 (.cut 0 (.cut 1 (.ref .leaf) (.ref .leaf)) (.cut 1 (.ref .leaf) (.ref .leaf))) (.ref .leaf)) (.cut 1 (.cut 0 (.cut 1 (.ref .leaf) (.ref .leaf)) (.cut 1 (.ref .leaf) (.ref .leaf))) (.ref .leaf))))) (.cut 0 (.cut 1 (.cut 0 (.ref .leaf) (.ref .leaf)) (.ref .leaf)) (.cut 1 (.cut 0 (.ref .leaf) (.ref .leaf)) (.ref .leaf))))))) (.cut 0 (.cut 1 (.cut 0 (.cut 1 (.ref .leaf) (.ref .leaf)) (.cut 1 (.ref .leaf) (.ref .leaf))) (.ref .leaf)) (.cut 1 (.cut 0 (.cut 1 (.cut 0 (.ref .leaf) (.ref .leaf)) (.ref .leaf)) (.cut 1 (.cut 0 (.ref .leaf) (.ref .leaf)) (.ref .leaf))) (.cut 0 (.ref .leaf) (.ref .leaf)))))) (.cut 0 (.cut 1 (.cut 0 (.ref .leaf) (.ref .leaf)) (.ref .leaf)) (.cut 1 (.cut 0 (.ref .leaf) (.ref .leaf)) (.ref .leaf))))) (.cut 0 (.cut 1 (.cut 0 (.ref .leaf) (.ref .leaf)) (.ref .leaf)) (.cut 1 (.cut 0 (.ref .leaf) (.ref .leaf)) (.ref .leaf)))) (.cut 1 (.cut 0 (.cut 1 (.cut 0 (.cut 1 (.cut 0 (.cut 1 (.cut 0 (.cut 1 (.cut 0 (.ref .leaf) (.ref .leaf)) (.cut 0 (.cut 1 (.cut 0 (.ref .leaf) (.ref .leaf)) (.cut 0 (.cut 1 (.ref .leaf) (.cut 0 (.ref .leaf) (.ref .leaf))) (.cut 1 (.ref .leaf) (.cut 0 (.ref .leaf) (.ref .leaf))))) (.cut 1 (.ref .leaf) (.cut 0 (.cut 1 (.ref .leaf) (.ref .leaf)) (.cut 1 (.ref .leaf) (.ref .leaf)))))) (.cut 1 (.cut 0 (.ref .leaf) (.ref .leaf)) (.cut 0 (.cut 1 (.ref .leaf) (.cut 0 (.cut 1 (.ref .leaf) (.ref .leaf)) (.ref .leaf))) (.cut 1 (.ref .leaf) (.cut 0 (.ref .leaf) (.ref .leaf)))))) (.cut 0 (.cut 1 (.cut 0 (.cut 1 (.cut 0 (.cut 1 (.cut 0 (.cut 1 (.ref .leaf) (.cut 0 (.ref .leaf) (.ref .leaf))) (.cut 1 (.ref .leaf) (.ref .leaf))) (.cut 0 (.cut 1 (.cut 0 (.ref .leaf) (.ref .leaf)) (.ref .leaf)) (.cut 1 (.ref .leaf) (.ref .leaf)))) (.cut 1 (.cut 0 (.cut 1 (.ref .leaf) (.ref .leaf)) (.cut 1 (.ref .leaf) (.ref .leaf))) (.cut 0 (.cut 1 (.ref .leaf) (.ref .leaf)) (.cut 1 (.ref .leaf) (.ref .leaf))))) (.cut 0 (.cut 1 (.cut 0 (.cut 1 (.ref .leaf) (.ref .leaf)) (.cut 1 (.ref .leaf) (.ref .leaf))) (.ref .leaf)) (.cut 1 (.cut 0 (.cut 1 (.ref .leaf) (.ref .leaf)) (.cut 1 (.ref .leaf) (.ref .leaf))) (.ref .leaf)))) (.cut 1 (.cut 0 (.cut 1 (.cut 0 (.ref .leaf) (.ref .leaf)) (.cut 0 (.ref .leaf) (.ref .leaf))) (.cut 1 (.cut 0 (.ref .leaf) (.ref .leaf)) (.cut 0 (.ref .leaf) (.ref .leaf)))) (.cut 0 (.cut 1 (.cut 0 (.ref .leaf) (.ref .leaf)) (.ref .leaf)) (.cut 1 (.cut 0 (.ref .leaf) (.ref .leaf)) (.ref .leaf))))) (.cut 0 (.cut 1 (.cut 0 (.ref .leaf) (.ref .leaf)) (.ref .leaf)) (.cut 1 (.cut 0 (.ref .leaf) (.ref .leaf)) (.ref .leaf)))) (.cut 1 (.cut 0 (.cut 1 (.cut 0 (.cut 1 (.ref .leaf) (.cut 0 (.ref .leaf) (.ref .leaf))) (.cut 1 (.ref .leaf) (.ref .leaf))) (.cut 0 (.cut 1 (.cut 0 (.ref .leaf) (.ref .leaf)) (.ref .leaf)) (.cut 1 (.ref .leaf) (.ref .leaf)))) (.cut 1 (.cut 0 (.cut 1 (.ref .leaf) (.ref .leaf)) (.cut 1 (.ref .leaf) (.ref .leaf))) (.cut 0 (.cut 1 (.ref .leaf) (.ref .leaf)) (.cut 1 (.ref .leaf) (.ref .leaf))))) (.cut 0 (.cut 1 (.cut 0 (.ref .leaf) (.ref .leaf)) (.ref .leaf)) (.cut 1 (.cut 0 (.ref .leaf) (.ref .leaf)) (.ref .leaf)))))) (.cut 1 (.cut 0 (.cut 1 (.cut 0 (.ref .leaf) (.ref .leaf)) (.cut 0 (.cut 1 (.ref .leaf) (.cut 0 (.ref .leaf) (.ref .leaf))) (.cut 1 (.ref .leaf) (.ref .leaf)))) (.cut 1 (.ref .leaf) (.cut 0 (.cut 1 (.ref .leaf) (.ref .leaf)) (.ref .leaf)))) (.cut 0 (.cut 1 (.cut 0 (.cut 1 (.cut 0 (.cut 1 (.ref .leaf) (.ref .leaf)) (.ref .leaf)) (.cut 0 (.ref .leaf) (.ref .leaf))) (.cut 1 (.cut 0 (.ref .leaf) (.ref .leaf)) (.cut 0 (.ref .leaf) (.ref .leaf)))) (.cut 0 (.cut 1 (.cut 0 (.ref .leaf) (.ref .leaf)) (.ref .leaf)) (.cut 1 (.cut 0 (.ref .leaf) (.ref .leaf)) (.ref .leaf)))) (.cut 1 (.cut 0 (.cut 1 (.cut 0 (.ref .leaf) (.ref .leaf)) (.cut 0 (.ref .leaf) (.ref .leaf))) (.cut 1 (.ref .leaf) (.ref .leaf))) (.cut 0 (.cut 1 (.cut 0 (.ref .leaf) (.ref .leaf)) (.ref .leaf)) (.cut 1 (.ref .leaf) (.ref .leaf))))))) (.cut 0 (.cut 1 (.cut 0 (.cut 1 (.cut 0 (.ref .leaf) (.ref .leaf)) (.ref .leaf)) (.cut 1 (.cut 0 (.ref .leaf) (.ref .leaf)) (.ref .leaf))) (.cut 0 (.ref .leaf) (.ref .leaf))) (.cut 1 (.cut 0 (.cut 1 (.cut 0 (.ref .leaf) (.ref .leaf)) (.ref .leaf)) (.cut 1 (.cut 0 (.ref .leaf) (.ref .leaf)) (.ref .leaf))) (.cut 0 (.ref .leaf) (.ref .leaf))))) (.cut 1 (.cut 0 (.cut 1 (.cut 0 (.cut 1 (.ref .leaf) (.cut 0 (.ref .leaf) (.ref .leaf))) (.cut 1 (.ref .leaf) (.cut 0 (.ref .leaf) (.ref .leaf)))) (.cut 0 (.cut 1 (.cut 0 (.cut 1 (.ref .leaf) (.ref .leaf)) (.cut 1 (.ref .leaf) (.ref .leaf))) (.cut 0 (.cut 1 (.ref .leaf) (.ref .leaf)) (.cut 1 (.ref .leaf) (.ref .leaf)))) (.cut 1 (.cut 0 (.ref .leaf) (.ref .leaf)) (.cut 0 (.ref .leaf) (.ref .leaf))))) (.cut 1 (.cut 0 (.cut 1 (.ref .leaf) (.ref .leaf)) (.cut 1 (.ref .leaf) (.ref .leaf))) (.cut 0 (.cut 1 (.cut 0 (.ref .leaf) (.ref .leaf)) (.cut 0 (.ref .leaf) (.ref .leaf))) (.cut 1 (.ref .leaf) (.ref .leaf))))) (.cut 0 (.cut 1 (.cut 0 (.cut 1 (.cut 0 (.ref .leaf) (.ref .leaf)) (.ref .leaf)) (.cut 1 (.cut 0 (.ref .leaf) (.ref .leaf)) (.ref .leaf))) (.cut 0 (.ref .leaf) (.ref .leaf))) (.cut 1 (.cut 0 (.cut 1 (.cut 0 (.ref .leaf) (.ref .leaf)) (.ref .leaf)) (.cut 1 (.ref .leaf) (.ref .leaf))) (.cut 0 (.ref .leaf) (.ref .leaf)))))) (.cut 0 (.cut 1 (.cut 0 (.cut 1 (.ref .leaf) (.ref .leaf)) (.cut 1 (.ref .leaf) (.ref .leaf))) (.ref .leaf)) (.cut 1 (.cut 0 (.cut 1 (.ref .leaf) (.ref .leaf)) (.cut 1 (.ref .leaf) (.ref .leaf))) (.ref .leaf)))) (.cut 1 (.cut 0 (.cut 1 (.cut 0 (.cut 1 (.cut 0 (.ref .leaf) (.ref .leaf)) (.cut 0 (.cut 1 (.ref .leaf) (.ref .leaf)) (.cut 1 (.ref .leaf) (.ref .leaf)))) (.cut 1 (.cut 0 (.ref .leaf) (.ref .leaf)) (.cut 0 (.ref .leaf) (.ref .leaf)))) (.cut 0 (.cut 1 (.cut 0 (.cut 1 (.ref .leaf) (.ref .leaf)) (.cut 1 (.ref .leaf) (.ref .leaf))) (.cut 0 (.ref .leaf) (.ref .leaf))) (.cut 1 (.cut 0 (.ref .leaf) (.ref .leaf)) (.cut 0 (.ref .leaf) (.ref .leaf))))) (.cut 1 (.cut 0 (.cut 1 (.ref .leaf) (.cut 0 (.ref .leaf) (.ref .leaf))) (.cut 1 (.ref .leaf) (.ref .leaf))) (.cut 0 (.cut 1 (.cut 0 (.ref .leaf) (.ref .leaf)) (.cut 0 (.ref .leaf) (.ref .leaf))) (.cut 1 (.ref .leaf) (.ref .leaf))))) (.cut 0 (.cut 1 (.cut 0 (.cut 1 (.ref .leaf) (.ref .leaf)) (.cut 1 (.ref .leaf) (.ref .leaf))) (.ref .leaf)) (.cut 1 (.cut 0 (.cut 1 (.ref .leaf) (.ref .leaf)) (.cut 1 (.ref .leaf) (.ref .leaf))) (.ref .leaf))))) (.cut 0 (.cut 1 (.cut 0 (.ref .leaf) (.ref .leaf)) (.ref .leaf)) (.cut 1 (.cut 0 (.ref .leaf) (.ref .leaf)) (.ref .leaf))))) (.cut 0 (.cut 1 (.cut 0 .leaf .leaf) (.ref .leaf)) (.cut 1 (.cut 0 .leaf .leaf) (.ref .leaf))))) (.cut 1 (.ref (.cut 0 (.cut 1 (.cut 0 (.cut 1 (.cut 0 (.cut 1 (.cut 0 (.cut 1 (.ref .leaf) (.ref .leaf)) (.ref .leaf)) (.cut 0 (.ref .leaf) (.ref .leaf))) (.cut 1 (.cut 0 (.ref .leaf) (.ref .leaf)) (.cut 0 (.ref .leaf) (.ref .leaf)))) (.cut 0 (.cut 1 (.cut 0 (.ref .leaf) (.ref .leaf)) (.ref .leaf)) (.cut 1 (.cut 0 (.ref .leaf) (.ref .leaf)) (.ref .leaf)))) (.cut 1 (.cut 0 (.cut 1 (.ref .leaf) (.ref .leaf)) (.ref .leaf)) (.cut 0 (.cut 1 (.ref .leaf) (.ref .leaf)) (.ref .leaf)))) (.cut 0 (.cut 1 (.cut 0 (.cut 1 (.ref .leaf) (.ref .leaf)) (.ref .leaf)) (.ref .leaf)) (.cut 1 (.cut 0 (.ref .leaf) (.ref .leaf)) (.ref .leaf)))) (.cut 1 (.cut 0 (.cut 1 (.cut 0 (.ref .leaf) (.ref .leaf)) (.cut 0 (.ref .leaf) (.ref .leaf))) (.cut 1 .leaf .leaf)) (.cut 0 (.cut 1 (.cut 0 (.ref .leaf) (.ref .leaf)) (.ref .leaf)) (.cut 1 .leaf (.ref .leaf)))))) (.ref (.cut 0 (.cut 1 (.cut 0 .leaf (.cut 1 (.ref .leaf) .leaf)) (.ref .leaf)) (.cut 1 (.cut 0 (.cut 1 (.ref .leaf) .leaf) (.ref .leaf)) (.cut 0 .leaf .leaf)))))) (.ref (.cut 0 (.cut 1 (.cut 0 (.cut 1 (.ref .leaf) (.cut 0 (.ref .leaf) (.ref .leaf))) (.cut 1 (.ref .leaf) (.ref .leaf))) (.cut 0 (.cut 1 (.cut 0 (.ref .leaf) (.ref .leaf)) (.cut 0 .leaf .leaf)) (.cut 1 (.cut 0 .leaf .leaf) (.cut 0 (.ref .leaf) .out)))) (.cut 1 (.cut 0 (.cut 1 (.ref .leaf) .leaf) (.cut 1 .leaf (.ref .leaf))) (.cut 0 (.cut 1 (.ref .leaf) .out) .out))))) (.cut 1 (.cut 0 (.cut 1 (.ref (.cut 0 (.cut 1 (.cut 0 (.ref .leaf) (.ref .leaf)) (.cut 0 .leaf (.ref .leaf))) (.cut 1 (.ref .leaf) (.ref .leaf)))) (.cut 0 (.cut 1 (.ref (.cut 0 .leaf .leaf)) .leaf) (.cut 1 (.ref .leaf) (.ref (.cut 0 .leaf .out))))) (.cut 1 (.ref (.cut 0 .leaf (.ref .leaf))) (.ref (.cut 0 (.cut 1 (.ref .leaf) .out) .out)))) (.cut 0 (.ref (.cut 1 (.cut 0 (.cut 1 (.cut 0 (.ref .leaf) .out) .out) .out) .out)) .out)))) (.ref (.cut 0 (.cut 1 (.ref (.cut 0 (.cut 1 (.cut 0 (.cut 1 (.cut 0 (.ref .leaf) .out) .out) .out) .out) .out)) .out) .out))))))
theorem h0 : check par t0 [32768, 32768] [32768, 32768] st = true := by decide +kernel
end FastNoise.RangeCheck.Simplex2
