import Verif.RangeCertSimplex3
/-! Generated by tools/rangecert/gen.py: a certificate for the checker `Verif.RangeCheck`. -/
namespace FastNoise.RangeCheck.Simplex3
set_option maxRecDepth 1000000
def t8 : Tree := (.ref (.cut 0 (.cut 1 (.cut 2 (.cut 0 (.cut 1 .leaf .leaf) (.cut 1 (.cut 2 .leaf (.cut 0 .leaf .leaf)) .leaf)) (.cut 0 (.cut 1 .leaf .leaf) (.cut 1 (.cut 2 (.cut 0 .leaf .leaf) (.cut 0 .leaf .leaf)) (.cut 2 .leaf (.cut 0 .leaf .leaf))))) (.cut 2 (.cut 0 .leaf .leaf) (.cut 0 .leaf (.cut 1 (.cut 2 .leaf .leaf) .leaf)))) (.cut 1 (.cut 2 (.cut 0 (.cut 1 (.cut 2 .leaf (.cut 0 (.cut 1 .leaf .leaf) (.cut 1 (.cut 2 .leaf .leaf) .leaf))) (.cut 2 .leaf .leaf)) (.cut 1 (.cut 2 .leaf (.cut 0 (.cut 1 (.cut 2 .leaf .leaf) .leaf) (.cut 1 (.cut 2 .leaf .leaf) .leaf))) (.cut 2 .leaf .leaf))) (.cut 0 (.cut 1 (.cut 2 (.cut 0 (.cut 1 (.cut 2 .leaf .leaf) (.cut 2 .leaf .leaf)) (.cut 1 (.cut 2 (.cut 0 .leaf (.cut 1 .leaf .leaf)) (.cut 0 (.cut 1 .leaf .leaf) (.cut 1 (.cut 2 .leaf (.cut 0 .leaf .leaf)) (.cut 2 .leaf .leaf)))) (.cut 2 .leaf (.cut 0 .leaf (.cut 1 .leaf .leaf))))) (.cut 0 (.cut 1 (.cut 2 .leaf .leaf) (.cut 2 .leaf .leaf)) (.cut 1 (.cut 2 (.cut 0 .leaf (.cut 1 (.cut 2 (.cut 0 .leaf .leaf) (.cut 0 .leaf .leaf)) (.cut 2 (.cut 0 .leaf .leaf) (.cut 0 .leaf .leaf)))) (.cut 0 (.cut 1 .leaf .leaf) (.cut 1 (.cut 2 (.cut 0 .leaf .leaf) .leaf) (.cut 2 (.cut 0 .leaf .leaf) (.cut 0 .leaf .leaf))))) (.cut 2 (.cut 0 (.cut 1 .leaf .leaf) (.cut 1 (.cut 2 .leaf (.cut 0 .leaf .leaf)) (.cut 2 .leaf .leaf))) (.cut 0 .leaf (.cut 1 (.cut 2 (.cut 0 .leaf .leaf) .leaf) (.cut 2 .leaf .leaf))))))) (.cut 2 (.cut 0 (.cut 1 .leaf .leaf) (.cut 1 (.cut 2 .leaf .leaf) .leaf)) (.cut 0 (.cut 1 (.cut 2 .leaf .leaf) .leaf) (.cut 1 (.cut 2 (.cut 0 .leaf .leaf) (.cut 0 .leaf (.cut 1 (.cut 2 .leaf .leaf) .leaf))) (.cut 2 .leaf (.cut 0 .leaf .leaf)))))) (.cut 1 (.cut 2 (.cut 0 (.cut 1 (.cut 2 (.cut 0 (.cut 1 .leaf .leaf) (.cut 1 .leaf .leaf)) (.cut 0 (.cut 1 (.cut 2 (.cut 0 .leaf .leaf) (.cut 0 (.cut 1 (.cut 2 .leaf .leaf) .leaf) (.cut 1 (.cut 2 .leaf (.cut 0 .leaf (.cut 1 .leaf .leaf))) (.cut 2 .leaf .leaf)))) (.cut 2 .leaf (.cut 0 .leaf .leaf))) (.cut 1 (.cut 2 (.cut 0 .leaf .leaf) (.cut 0 (.cut 1 (.cut 2 .leaf (.cut 0 (.cut 1 .leaf .leaf) (.cut 1 (.cut 2 .leaf .leaf) .leaf))) (.cut 2 .leaf .leaf)) (.cut 1 (.cut 2 .leaf (.cut 0 (.cut 1 (.cut 2 .leaf .leaf) .leaf) (.cut 1 .leaf .leaf))) (.cut 2 .leaf .leaf)))) (.cut 2 .leaf (.cut 0 (.cut 1 .leaf .leaf) (.cut 1 .leaf .leaf)))))) (.cut 2 .leaf (.cut 0 (.cut 1 .leaf .leaf) (.cut 1 .leaf .leaf)))) (.cut 1 (.cut 2 (.cut 0 (.cut 1 .leaf .leaf) .leaf) (.cut 0 (.cut 1 (.cut 2 (.cut 0 .leaf .leaf) (.cut 0 (.cut 1 (.cut 2 .leaf (.cut 0 .leaf .leaf)) (.cut 2 .leaf .leaf)) (.cut 1 .leaf .leaf))) (.cut 2 .leaf (.cut 0 .leaf .leaf))) (.cut 1 (.cut 2 .leaf (.cut 0 .leaf .leaf)) (.cut 2 .leaf .leaf)))) (.cut 2 .leaf (.cut 0 (.cut 1 .leaf .leaf) (.cut 1 .leaf .leaf))))) (.cut 0 (.cut 1 (.cut 2 (.cut 0 (.cut 1 (.cut 2 (.cut 0 (.cut 1 (.cut 2 .leaf .leaf) (.cut 2 .leaf .leaf)) (.cut 1 (.cut 2 (.cut 0 .leaf (.cut 1 (.cut 2 .leaf .leaf) (.cut 2 .leaf .leaf))) (.cut 0 .leaf (.cut 1 (.cut 2 .leaf .leaf) (.cut 2 .leaf .leaf)))) (.cut 2 (.cut 0 .leaf (.cut 1 .leaf .leaf)) (.cut 0 .leaf (.cut 1 (.cut 2 .leaf .leaf) (.cut 2 .leaf .leaf)))))) (.cut 0 (.cut 1 (.cut 2 .leaf .leaf) (.cut 2 .leaf .leaf)) (.cut 1 (.cut 2 (.cut 0 .leaf (.cut 1 (.cut 2 .leaf .leaf) (.cut 2 .leaf .leaf))) (.cut 0 .leaf (.cut 1 .leaf .leaf))) (.cut 2 (.cut 0 .leaf (.cut 1 (.cut 2 .leaf .leaf) (.cut 2 .leaf .leaf))) (.cut 0 .leaf (.cut 1 .leaf (.cut 2 .leaf .leaf))))))) (.cut 2 (.cut 0 (.cut 1 (.cut 2 .leaf .leaf) .leaf) (.cut 1 (.cut 2 .leaf (.cut 0 .leaf (.cut 1 .leaf .leaf))) (.cut 2 .leaf .leaf))) (.cut 0 (.cut 1 (.cut 2 .leaf .leaf) (.cut 2 .leaf .leaf)) (.cut 1 (.cut 2 (.cut 0 .leaf (.cut 1 (.cut 2 .leaf .leaf) .leaf)) (.cut 0 .leaf .leaf)) (.cut 2 (.cut 0 .leaf .leaf) (.cut 0 .leaf (.cut 1 .leaf .leaf))))))) (.cut 1 (.cut 2 (.cut 0 (.cut 1 (.cut 2 (.cut 0 (.cut 1 (.cut 2 (.cut 0 .leaf .leaf) (.cut 0 .leaf (.cut 1 .leaf .leaf))) (.cut 2 .leaf (.cut 0 .leaf .leaf))) (.cut 1 (.cut 2 (.cut 0 .leaf .leaf) (.cut 0 (.cut 1 (.cut 2 .leaf .leaf) (.cut 2 .leaf .leaf)) (.cut 1 (.cut 2 .leaf .leaf) (.cut 2 .leaf .leaf)))) (.cut 2 .leaf (.cut 0 (.cut 1 .leaf .leaf) (.cut 1 .leaf .leaf))))) (.cut 0 (.cut 1 (.cut 2 (.cut 0 .leaf .leaf) (.cut 0 .leaf (.cut 1 .leaf .leaf))) (.cut 2 (.cut 0 .leaf (.cut 1 .leaf .leaf)) (.cut 0 .leaf .leaf))) (.cut 1 (.cut 2 (.cut 0 (.cut 1 (.cut 2 .leaf .leaf) (.cut 2 .leaf .leaf)) (.cut 1 (.cut 2 .leaf .leaf) (.cut 2 .leaf .leaf))) (.cut 0 (.cut 1 (.cut 2 .leaf .leaf) (.cut 2 .leaf .leaf)) (.cut 1 (.cut 2 .leaf .leaf) (.cut 2 .leaf .leaf)))) (.cut 2 (.cut 0 (.cut 1 (.cut 2 .leaf .leaf) (.cut 2 .leaf .leaf)) (.cut 1 (.cut 2 .leaf .leaf) (.cut 2 .leaf .leaf))) (.cut 0 (.cut 1 (.cut 2 .leaf .leaf) (.cut 2 .leaf .leaf)) (.cut 1 (.cut 2 .leaf .leaf) (.cut 2 .leaf .leaf))))))) (.cut 2 (.cut 0 (.cut 1 (.cut 2 .leaf .leaf) .leaf) (.cut 1 (.cut 2 .leaf .leaf) .leaf)) (.cut 0 (.cut 1 (.cut 2 (.cut 0 .leaf .leaf) (.cut 0 .leaf (.cut 1 .leaf .leaf))) (.cut 2 .leaf (.cut 0 .leaf .leaf))) (.cut 1 (.cut 2 (.cut 0 (.cut 1 .leaf .leaf) (.cut 1 .leaf .leaf)) (.cut 0 (.cut 1 (.cut 2 .leaf .leaf) (.cut 2 .leaf .leaf)) (.cut 1 (.cut 2 .leaf .leaf) (.cut 2 .leaf .leaf)))) (.cut 2 .leaf (.cut 0 (.cut 1 .leaf .leaf) (.cut 1 .leaf .leaf))))))) (.cut 1 (.cut 2 (.cut 0 (.cut 1 (.cut 2 (.cut 0 .leaf .leaf) (.cut 0 (.cut 1 (.cut 2 .leaf .leaf) .leaf) (.cut 1 .leaf .leaf))) (.cut 2 .leaf (.cut 0 (.cut 1 .leaf .leaf) .leaf))) (.cut 1 (.cut 2 .leaf (.cut 0 .leaf .leaf)) (.cut 2 .leaf .leaf))) (.cut 0 (.cut 1 (.cut 2 (.cut 0 (.cut 1 .leaf (.cut 2 .leaf .leaf)) .leaf) (.cut 0 (.cut 1 (.cut 2 .leaf .leaf) (.cut 2 .leaf .leaf)) (.cut 1 .leaf .leaf))) (.cut 2 (.cut 0 (.cut 1 (.cut 2 .leaf .leaf) (.cut 2 .leaf .leaf)) (.cut 1 .leaf .leaf)) (.cut 0 (.cut 1 (.cut 2 .leaf .leaf) (.cut 2 .leaf .leaf)) .leaf))) (.cut 1 (.cut 2 .leaf (.cut 0 .leaf .leaf)) (.cut 2 (.cut 0 .leaf .leaf) .leaf)))) (.cut 2 (.cut 0 (.cut 1 (.cut 2 .leaf .leaf) .leaf) (.cut 1 .leaf .leaf)) (.cut 0 (.cut 1 (.cut 2 (.cut 0 (.cut 1 .leaf .leaf) .leaf) (.cut 0 (.cut 1 (.cut 2 .leaf .leaf) (.cut 2 .leaf .leaf)) (.cut 1 .leaf .leaf))) (.cut 2 .leaf (.cut 0 (.cut 1 .leaf .leaf) .leaf))) (.cut 1 (.cut 2 .leaf (.cut 0 .leaf .leaf)) (.cut 2 .leaf .leaf)))))) (.cut 0 (.cut 1 (.cut 2 (.cut 0 (.cut 1 (.cut 2 (.cut 0 .leaf .leaf) .leaf) (.cut 2 (.cut 0 .leaf (.cut 1 .leaf .leaf)) (.cut 0 .leaf .leaf))) (.cut 1 (.cut 2 (.cut 0 (.cut 1 .leaf .leaf) (.cut 1 .leaf .leaf)) .leaf) (.cut 2 (.cut 0 (.cut 1 (.cut 2 .leaf .leaf) (.cut 2 .leaf .leaf)) (.cut 1 (.cut 2 .leaf .leaf) (.cut 2 .leaf .leaf))) (.cut 0 (.cut 1 .leaf .leaf) (.cut 1 .leaf .leaf))))) (.cut 0 (.cut 1 .leaf (.cut 2 .leaf .leaf)) (.cut 1 .leaf (.cut 2 .leaf .leaf)))) (.cut 2 (.cut 0 (.cut 1 (.cut 2 (.cut 0 .leaf .leaf) (.cut 0 .leaf (.cut 1 .leaf .leaf))) (.cut 2 (.cut 0 .leaf (.cut 1 .leaf .leaf)) (.cut 0 .leaf .leaf))) (.cut 1 (.cut 2 (.cut 0 (.cut 1 (.cut 2 .leaf .leaf) (.cut 2 .leaf .leaf)) (.cut 1 (.cut 2 .leaf .leaf) (.cut 2 .leaf .leaf))) (.cut 0 (.cut 1 (.cut 2 .leaf .leaf) (.cut 2 .leaf .leaf)) (.cut 1 (.cut 2 .leaf .leaf) (.cut 2 .leaf .leaf)))) (.cut 2 (.cut 0 (.cut 1 (.cut 2 .leaf .leaf) (.cut 2 .leaf .leaf)) (.cut 1 (.cut 2 .leaf .leaf) (.cut 2 .leaf .leaf))) (.cut 0 (.cut 1 (.cut 2 .leaf .leaf) .leaf) (.cut 1 (.cut 2 .leaf .leaf) .leaf))))) (.cut 0 (.cut 1 (.cut 2 (.cut 0 .leaf .leaf) .leaf) (.cut 2 (.cut 0 .leaf (.cut 1 .leaf .leaf)) (.cut 0 .leaf .leaf))) (.cut 1 (.cut 2 (.cut 0 (.cut 1 .leaf .leaf) (.cut 1 .leaf .leaf)) .leaf) (.cut 2 (.cut 0 (.cut 1 .leaf .leaf) (.cut 1 .leaf (.cut 2 .leaf .leaf))) (.cut 0 .leaf .leaf)))))) (.cut 1 (.cut 2 (.cut 0 (.cut 1 (.cut 2 (.cut 0 (.cut 1 .leaf .leaf) .leaf) .leaf) (.cut 2 (.cut 0 (.cut 1 (.cut 2 .leaf .leaf) (.cut 2 .leaf .leaf)) (.cut 1 .leaf .leaf)) (.cut 0 (.cut 1 .leaf .leaf) .leaf))) (.cut 1 (.cut 2 .leaf .leaf) (.cut 2 (.cut 0 .leaf .leaf) .leaf))) (.cut 0 (.cut 1 .leaf (.cut 2 .leaf .leaf)) (.cut 1 .leaf .leaf))) (.cut 2 (.cut 0 (.cut 1 (.cut 2 (.cut 0 (.cut 1 (.cut 2 .leaf .leaf) (.cut 2 .leaf .leaf)) .leaf) (.cut 0 (.cut 1 (.cut 2 .leaf .leaf) (.cut 2 .leaf .leaf)) (.cut 1 .leaf .leaf))) (.cut 2 (.cut 0 (.cut 1 (.cut 2 .leaf .leaf) (.cut 2 .leaf .leaf)) (.cut 1 .leaf .leaf)) (.cut 0 (.cut 1 (.cut 2 .leaf .leaf) .leaf) .leaf))) (.cut 1 (.cut 2 .leaf (.cut 0 .leaf .leaf)) (.cut 2 (.cut 0 .leaf .leaf) .leaf))) (.cut 0 (.cut 1 (.cut 2 (.cut 0 (.cut 1 .leaf .leaf) .leaf) .leaf) (.cut 2 (.cut 0 (.cut 1 .leaf (.cut 2 .leaf .leaf)) (.cut 1 .leaf .leaf)) (.cut 0 .leaf .leaf))) (.cut 1 (.cut 2 .leaf .leaf) (.cut 2 (.cut 0 .leaf .leaf) .leaf))))))) (.cut 2 (.cut 0 (.cut 1 (.cut 2 .leaf (.cut 0 (.cut 1 (.cut 2 .leaf .leaf) .leaf) (.cut 1 (.cut 2 .leaf .leaf) .leaf))) (.cut 2 .leaf .leaf)) (.cut 1 (.cut 2 .leaf (.cut 0 (.cut 1 (.cut 2 .leaf .leaf) .leaf) (.cut 1 .leaf .leaf))) (.cut 2 .leaf .leaf))) (.cut 0 (.cut 1 (.cut 2 (.cut 0 (.cut 1 (.cut 2 (.cut 0 .leaf .leaf) (.cut 0 .leaf (.cut 1 .leaf .leaf))) (.cut 2 .leaf (.cut 0 .leaf .leaf))) (.cut 1 (.cut 2 (.cut 0 .leaf (.cut 1 .leaf .leaf)) (.cut 0 (.cut 1 (.cut 2 .leaf .leaf) .leaf) (.cut 1 (.cut 2 .leaf .leaf) .leaf))) (.cut 2 .leaf (.cut 0 .leaf .leaf)))) (.cut 0 (.cut 1 (.cut 2 (.cut 0 .leaf .leaf) (.cut 0 .leaf .leaf)) (.cut 2 (.cut 0 .leaf .leaf) .leaf)) (.cut 1 (.cut 2 (.cut 0 .leaf .leaf) (.cut 0 (.cut 1 .leaf .leaf) (.cut 1 .leaf .leaf))) (.cut 2 (.cut 0 (.cut 1 .leaf .leaf) (.cut 1 .leaf .leaf)) (.cut 0 .leaf .leaf))))) (.cut 2 (.cut 0 (.cut 1 .leaf .leaf) (.cut 1 (.cut 2 .leaf .leaf) .leaf)) (.cut 0 (.cut 1 (.cut 2 .leaf .leaf) (.cut 2 .leaf .leaf)) (.cut 1 (.cut 2 (.cut 0 .leaf .leaf) (.cut 0 .leaf .leaf)) (.cut 2 .leaf .leaf))))) (.cut 1 (.cut 2 (.cut 0 (.cut 1 (.cut 2 (.cut 0 (.cut 1 .leaf .leaf) .leaf) (.cut 0 (.cut 1 (.cut 2 .leaf .leaf) .leaf) (.cut 1 .leaf .leaf))) (.cut 2 .leaf (.cut 0 .leaf .leaf))) (.cut 1 (.cut 2 .leaf (.cut 0 .leaf .leaf)) (.cut 2 .leaf .leaf))) (.cut 0 (.cut 1 (.cut 2 (.cut 0 .leaf .leaf) (.cut 0 (.cut 1 .leaf .leaf) .leaf)) (.cut 2 (.cut 0 (.cut 1 .leaf .leaf) .leaf) (.cut 0 .leaf .leaf))) (.cut 1 (.cut 2 .leaf (.cut 0 .leaf .leaf)) (.cut 2 (.cut 0 .leaf .leaf) .leaf)))) (.cut 2 (.cut 0 (.cut 1 (.cut 2 .leaf .leaf) .leaf) (.cut 1 .leaf .leaf)) (.cut 0 (.cut 1 (.cut 2 (.cut 0 .leaf .leaf) (.cut 0 .leaf .leaf)) (.cut 2 .leaf .leaf)) (.cut 1 (.cut 2 .leaf .leaf) (.cut 2 .leaf .leaf))))))))) (.cut 0 (.cut 1 (.cut 2 (.cut 0 (.cut 1 .leaf (.cut 2 .leaf .leaf)) (.cut 1 (.cut 2 .leaf .leaf) (.cut 2 (.cut 0 .leaf .leaf) .leaf))) (.cut 0 .leaf .leaf)) (.cut 2 (.cut 0 (.cut 1 (.cut 2 .leaf .leaf) .leaf) (.cut 1 (.cut 2 (.cut 0 .leaf (.cut 1 .leaf .leaf)) (.cut 0 .leaf .leaf)) (.cut 2 (.cut 0 .leaf .leaf) (.cut 0 .leaf .leaf)))) (.cut 0 (.cut 1 .leaf .leaf) (.cut 1 .leaf (.cut 2 .leaf .leaf))))) (.cut 1 (.cut 2 (.cut 0 (.cut 1 (.cut 2 .leaf .leaf) (.cut 2 (.cut 0 (.cut 1 .leaf .leaf) (.cut 1 .leaf (.cut 2 .leaf .leaf))) .leaf)) (.cut 1 (.cut 2 .leaf .leaf) (.cut 2 (.cut 0 (.cut 1 .leaf (.cut 2 .leaf .leaf)) (.cut 1 .leaf .leaf)) .leaf))) (.cut 0 .leaf .leaf)) (.cut 2 (.cut 0 (.cut 1 (.cut 2 (.cut 0 (.cut 1 (.cut 2 .leaf .leaf) (.cut 2 .leaf .leaf)) (.cut 1 (.cut 2 (.cut 0 .leaf .leaf) .leaf) (.cut 2 (.cut 0 .leaf .leaf) .leaf))) (.cut 0 (.cut 1 .leaf .leaf) (.cut 1 .leaf .leaf))) (.cut 2 (.cut 0 (.cut 1 (.cut 2 .leaf .leaf) .leaf) (.cut 1 (.cut 2 (.cut 0 .leaf .leaf) .leaf) (.cut 2 (.cut 0 .leaf .leaf) .leaf))) (.cut 0 (.cut 1 .leaf .leaf) (.cut 1 (.cut 2 .leaf .leaf) (.cut 2 .leaf .leaf))))) (.cut 1 (.cut 2 (.cut 0 (.cut 1 (.cut 2 (.cut 0 .leaf .leaf) .leaf) (.cut 2 (.cut 0 .leaf .leaf) .leaf)) (.cut 1 (.cut 2 .leaf .leaf) (.cut 2 .leaf .leaf))) (.cut 0 (.cut 1 .leaf .leaf) (.cut 1 .leaf .leaf))) (.cut 2 (.cut 0 (.cut 1 (.cut 2 .leaf (.cut 0 .leaf .leaf)) (.cut 2 .leaf .leaf)) (.cut 1 (.cut 2 .leaf .leaf) .leaf)) (.cut 0 (.cut 1 (.cut 2 .leaf .leaf) (.cut 2 .leaf .leaf)) (.cut 1 .leaf (.cut 2 .leaf .leaf)))))) (.cut 0 (.cut 1 (.cut 2 .leaf .leaf) (.cut 2 (.cut 0 .leaf .leaf) .leaf)) (.cut 1 (.cut 2 .leaf .leaf) (.cut 2 (.cut 0 .leaf .leaf) .leaf))))))) (.cut 2 (.cut 0 (.cut 1 (.cut 2 (.cut 0 .leaf .leaf) (.cut 0 (.cut 1 .leaf .leaf) (.cut 1 (.cut 2 .leaf (.cut 0 .leaf .leaf)) .leaf))) (.cut 2 .leaf (.cut 0 .leaf .leaf))) (.cut 1 (.cut 2 (.cut 0 .leaf .leaf) (.cut 0 (.cut 1 (.cut 2 .leaf (.cut 0 (.cut 1 .leaf .leaf) (.cut 1 .leaf .leaf))) (.cut 2 .leaf .leaf)) (.cut 1 (.cut 2 .leaf (.cut 0 (.cut 1 .leaf .leaf) (.cut 1 .leaf .leaf))) (.cut 2 .leaf .leaf)))) (.cut 2 .leaf (.cut 0 .leaf .leaf)))) (.cut 0 (.cut 1 (.cut 2 (.cut 0 (.cut 1 .leaf .leaf) (.cut 1 (.cut 2 (.cut 0 .leaf .leaf) (.cut 0 .leaf .leaf)) (.cut 2 .leaf (.cut 0 .leaf .leaf)))) (.cut 0 (.cut 1 .leaf .leaf) (.cut 1 (.cut 2 (.cut 0 .leaf .leaf) .leaf) (.cut 2 .leaf .leaf)))) (.cut 2 (.cut 0 (.cut 1 .leaf .leaf) (.cut 1 (.cut 2 .leaf .leaf) .leaf)) (.cut 0 .leaf (.cut 1 (.cut 2 .leaf .leaf) (.cut 2 .leaf .leaf))))) (.cut 1 (.cut 2 (.cut 0 (.cut 1 (.cut 2 (.cut 0 (.cut 1 .leaf .leaf) (.cut 1 (.cut 2 .leaf .leaf) .leaf)) (.cut 0 .leaf (.cut 1 .leaf .leaf))) (.cut 2 (.cut 0 .leaf .leaf) (.cut 0 .leaf (.cut 1 .leaf .leaf)))) (.cut 1 (.cut 2 (.cut 0 (.cut 1 (.cut 2 .leaf .leaf) .leaf) (.cut 1 .leaf .leaf)) (.cut 0 (.cut 1 .leaf .leaf) .leaf)) (.cut 2 (.cut 0 .leaf .leaf) (.cut 0 (.cut 1 .leaf .leaf) (.cut 1 .leaf .leaf))))) (.cut 0 (.cut 1 (.cut 2 (.cut 0 .leaf (.cut 1 .leaf .leaf)) (.cut 0 .leaf .leaf)) (.cut 2 (.cut 0 .leaf .leaf) (.cut 0 .leaf .leaf))) (.cut 1 (.cut 2 (.cut 0 (.cut 1 .leaf .leaf) (.cut 1 .leaf .leaf)) (.cut 0 .leaf .leaf)) (.cut 2 (.cut 0 .leaf .leaf) (.cut 0 .leaf .leaf))))) (.cut 2 (.cut 0 (.cut 1 (.cut 2 .leaf (.cut 0 .leaf .leaf)) .leaf) (.cut 1 (.cut 2 .leaf (.cut 0 .leaf .leaf)) .leaf)) (.cut 0 (.cut 1 (.cut 2 (.cut 0 .leaf .leaf) .leaf) (.cut 2 .leaf .leaf)) (.cut 1 (.cut 2 (.cut 0 .leaf .leaf) .leaf) (.cut 2 .leaf .leaf)))))))) (.cut 1 (.cut 2 (.cut 0 (.cut 1 (.cut 2 (.cut 0 (.cut 1 (.cut 2 (.cut 0 (.cut 1 .leaf .leaf) .leaf) (.cut 0 .leaf .leaf)) (.cut 2 (.cut 0 .leaf .leaf) (.cut 0 (.cut 1 .leaf .leaf) .leaf))) (.cut 1 .leaf (.cut 2 .leaf .leaf))) (.cut 0 (.cut 1 (.cut 2 (.cut 0 (.cut 1 .leaf .leaf) .leaf) (.cut 0 .leaf .leaf)) (.cut 2 (.cut 0 .leaf .leaf) (.cut 0 (.cut 1 .leaf .leaf) .leaf))) (.cut 1 (.cut 2 .leaf .leaf) .leaf))) (.cut 2 (.cut 0 (.cut 1 (.cut 2 .leaf (.cut 0 .leaf .leaf)) (.cut 2 .leaf .leaf)) (.cut 1 .leaf .leaf)) (.cut 0 (.cut 1 (.cut 2 (.cut 0 (.cut 1 .leaf .leaf) .leaf) (.cut 0 .leaf .leaf)) (.cut 2 (.cut 0 .leaf .leaf) (.cut 0 (.cut 1 .leaf .leaf) .leaf))) (.cut 1 .leaf (.cut 2 .leaf .leaf))))) (.cut 1 (.cut 2 (.cut 0 .leaf .leaf) (.cut 0 .leaf .leaf)) (.cut 2 (.cut 0 .leaf .leaf) (.cut 0 .leaf .leaf)))) (.cut 0 (.cut 1 (.cut 2 (.cut 0 (.cut 1 (.cut 2 .leaf .leaf) (.cut 2 (.cut 0 .leaf .leaf) .leaf)) (.cut 1 .leaf .leaf)) (.cut 0 .leaf .leaf)) (.cut 2 (.cut 0 (.cut 1 (.cut 2 (.cut 0 (.cut 1 .leaf .leaf) .leaf) (.cut 0 .leaf .leaf)) (.cut 2 (.cut 0 .leaf .leaf) (.cut 0 .leaf .leaf))) (.cut 1 (.cut 2 .leaf .leaf) .leaf)) (.cut 0 (.cut 1 .leaf (.cut 2 .leaf .leaf)) (.cut 1 .leaf .leaf)))) (.cut 1 (.cut 2 (.cut 0 .leaf .leaf) .leaf) (.cut 2 (.cut 0 .leaf .leaf) (.cut 0 .leaf .leaf))))) (.cut 2 (.cut 0 (.cut 1 (.cut 2 (.cut 0 .leaf .leaf) (.cut 0 (.cut 1 (.cut 2 .leaf (.cut 0 .leaf .leaf)) .leaf) (.cut 1 .leaf .leaf))) (.cut 2 .leaf (.cut 0 .leaf .leaf))) (.cut 1 (.cut 2 .leaf (.cut 0 .leaf .leaf)) (.cut 2 .leaf .leaf))) (.cut 0 (.cut 1 (.cut 2 (.cut 0 (.cut 1 (.cut 2 (.cut 0 .leaf .leaf) (.cut 0 .leaf .leaf)) (.cut 2 .leaf (.cut 0 .leaf .leaf))) (.cut 1 .leaf .leaf)) (.cut 0 (.cut 1 (.cut 2 (.cut 0 .leaf .leaf) .leaf) (.cut 2 .leaf .leaf)) (.cut 1 .leaf .leaf))) (.cut 2 (.cut 0 (.cut 1 (.cut 2 .leaf .leaf) .leaf) (.cut 1 .leaf .leaf)) (.cut 0 (.cut 1 (.cut 2 .leaf .leaf) (.cut 2 .leaf .leaf)) (.cut 1 .leaf .leaf)))) (.cut 1 (.cut 2 (.cut 0 .leaf .leaf) (.cut 0 .leaf .leaf)) (.cut 2 (.cut 0 .leaf .leaf) .leaf))))))) (.cut 2 (.cut 0 (.cut 1 (.cut 2 .leaf .leaf) .leaf) (.cut 1 (.cut 2 .leaf .leaf) .leaf)) (.cut 0 (.cut 1 (.cut 2 (.cut 0 (.cut 1 .leaf .leaf) (.cut 1 .leaf .leaf)) (.cut 0 (.cut 1 (.cut 2 (.cut 0 .leaf .leaf) (.cut 0 .leaf (.cut 1 .leaf .leaf))) (.cut 2 .leaf .leaf)) (.cut 1 (.cut 2 (.cut 0 .leaf .leaf) (.cut 0 (.cut 1 (.cut 2 .leaf .leaf) .leaf) (.cut 1 (.cut 2 .leaf .leaf) .leaf))) (.cut 2 .leaf .leaf)))) (.cut 2 .leaf (.cut 0 (.cut 1 .leaf .leaf) (.cut 1 .leaf .leaf)))) (.cut 1 (.cut 2 (.cut 0 (.cut 1 .leaf .leaf) (.cut 1 .leaf .leaf)) (.cut 0 (.cut 1 (.cut 2 (.cut 0 .leaf .leaf) (.cut 0 (.cut 1 .leaf .leaf) .leaf)) (.cut 2 .leaf .leaf)) (.cut 1 (.cut 2 .leaf .leaf) (.cut 2 .leaf .leaf)))) (.cut 2 .leaf (.cut 0 (.cut 1 .leaf .leaf) .leaf)))))))) (.cut 2 (.cut 0 .leaf .leaf) (.cut 0 (.cut 1 (.cut 2 .leaf (.cut 0 .leaf (.cut 1 .leaf .leaf))) (.cut 2 .leaf .leaf)) (.cut 1 (.cut 2 .leaf (.cut 0 (.cut 1 (.cut 2 .leaf .leaf) .leaf) (.cut 1 (.cut 2 .leaf .leaf) .leaf))) (.cut 2 .leaf .leaf)))))))
theorem h8 : check par t8 [26112, 13824, 12800] [512, 512, 512] st = true := by decide +kernel
def t9 : Tree := (.ref (.cut 0 (.cut 1 (.cut 2 (.cut 0 .leaf (.cut 1 (.cut 2 (.cut 0 .leaf .leaf) (.ref (.cut 0 .leaf .leaf))) (.cut 2 (.ref (.cut 0 .leaf .leaf)) (.cut 0 .leaf .leaf)))) (.ref (.cut 0 .leaf (.cut 1 .out (.cut 2 .leaf .out))))) (.cut 2 (.ref (.cut 0 .leaf (.cut 1 (.cut 2 (.cut 0 .leaf .leaf) .leaf) (.cut 2 .leaf .leaf)))) (.cut 0 .leaf (.cut 1 (.cut 2 .leaf (.ref .leaf)) (.cut 2 (.ref .leaf) .leaf))))) (.cut 1 (.cut 2 (.cut 0 (.cut 1 (.cut 2 (.cut 0 (.cut 1 (.cut 2 .leaf (.ref .leaf)) (.cut 2 (.ref .leaf) .leaf)) (.cut 1 (.cut 2 (.cut 0 .leaf (.cut 1 (.cut 2 .leaf (.ref .leaf)) (.cut 2 (.ref .leaf) .leaf))) (.ref (.cut 0 .leaf (.cut 1 .out (.cut 2 .leaf .out))))) (.cut 2 (.ref (.cut 0 .leaf (.cut 1 (.cut 2 .leaf .leaf) (.cut 2 .leaf .leaf)))) (.cut 0 .leaf (.cut 1 .leaf .leaf))))) (.ref (.cut 0 (.cut 1 .out .leaf) (.cut 1 .out (.cut 2 (.cut 0 .leaf (.cut 1 .out .leaf)) .out))))) (.cut 2 (.ref (.cut 0 (.cut 1 .leaf .leaf) (.cut 1 (.cut 2 (.cut 0 .leaf (.cut 1 .leaf .leaf)) (.cut 0 .leaf (.cut 1 .leaf .leaf))) (.cut 2 (.cut 0 .leaf (.cut 1 .leaf .leaf)) (.cut 0 .leaf .leaf))))) (.cut 0 (.cut 1 .leaf .leaf) (.cut 1 (.cut 2 (.cut 0 .leaf .leaf) (.ref (.cut 0 .leaf .leaf))) (.cut 2 (.ref (.cut 0 .leaf .leaf)) (.cut 0 .leaf .leaf)))))) (.cut 1 (.cut 2 (.cut 0 (.cut 1 (.cut 2 (.cut 0 (.cut 1 (.cut 2 .leaf (.ref (.cut 0 .leaf .leaf))) (.cut 2 (.ref (.cut 0 .leaf .leaf)) .leaf)) (.cut 1 (.cut 2 .leaf (.ref (.cut 0 .leaf .leaf))) (.cut 2 (.ref (.cut 0 .leaf .leaf)) .leaf))) (.ref (.cut 0 (.cut 1 .out (.cut 2 .leaf .out)) (.cut 1 .out (.cut 2 .leaf .out))))) (.cut 2 (.ref (.cut 0 (.cut 1 (.cut 2 (.cut 0 .leaf (.cut 1 .leaf .leaf)) .leaf) (.cut 2 (.cut 0 .leaf (.cut 1 (.cut 2 .leaf .leaf) .leaf)) (.cut 0 .leaf (.cut 1 .leaf .leaf)))) (.cut 1 (.cut 2 (.cut 0 (.cut 1 .leaf (.cut 2 .leaf .leaf)) (.cut 1 .leaf (.cut 2 .leaf .leaf))) .leaf) (.cut 2 (.cut 0 (.cut 1 (.cut 2 .leaf .leaf) (.cut 2 .leaf .leaf)) (.cut 1 (.cut 2 .leaf .leaf) (.cut 2 .leaf .leaf))) (.cut 0 (.cut 1 .leaf .leaf) (.cut 1 .leaf .leaf)))))) (.cut 0 (.cut 1 (.cut 2 .leaf (.ref .leaf)) (.cut 2 (.ref .leaf) .leaf)) (.cut 1 (.cut 2 .leaf (.ref .leaf)) (.cut 2 (.ref .leaf) .leaf))))) (.cut 1 (.cut 2 (.cut 0 (.cut 1 (.cut 2 .leaf (.ref (.cut 0 .leaf .leaf))) (.cut 2 (.ref (.cut 0 .leaf .leaf)) .leaf)) (.cut 1 (.cut 2 .leaf (.ref .leaf)) (.cut 2 (.ref .leaf) .leaf))) (.ref (.cut 0 (.cut 1 .out (.cut 2 (.cut 0 .leaf .leaf) .out)) (.cut 1 .out (.cut 2 .leaf .out))))) (.cut 2 (.ref (.cut 0 (.cut 1 (.cut 2 (.cut 0 (.cut 1 .leaf (.cut 2 .leaf .leaf)) (.cut 1 .leaf .leaf)) (.cut 0 .leaf .leaf)) (.cut 2 (.cut 0 (.cut 1 (.cut 2 .leaf .leaf) .leaf) .leaf) (.cut 0 (.cut 1 .leaf .leaf) .leaf))) (.cut 1 (.cut 2 .leaf .leaf) (.cut 2 .leaf .leaf)))) (.cut 0 (.cut 1 (.cut 2 .leaf (.ref .leaf)) (.cut 2 (.ref .leaf) .leaf)) (.cut 1 .leaf .leaf))))) (.ref (.cut 0 (.cut 1 .out (.cut 2 (.cut 0 (.cut 1 .out (.cut 2 .leaf .out)) (.cut 1 .out (.cut 2 .leaf .out))) .out)) (.cut 1 .out (.cut 2 (.cut 0 (.cut 1 .out (.cut 2 .leaf .out)) (.cut 1 .out (.cut 2 .leaf .out))) .out))))) (.cut 2 (.ref (.cut 0 (.cut 1 (.cut 2 (.cut 0 (.cut 1 (.cut 2 (.cut 0 .leaf (.cut 1 .leaf .leaf)) (.cut 0 .leaf .leaf)) (.cut 2 (.cut 0 .leaf .leaf) (.cut 0 .leaf .leaf))) (.cut 1 (.cut 2 (.cut 0 (.cut 1 .leaf .leaf) (.cut 1 .leaf .leaf)) (.cut 0 (.cut 1 .leaf .leaf) (.cut 1 .leaf .leaf))) (.cut 2 (.cut 0 (.cut 1 .leaf .leaf) (.cut 1 .leaf .leaf)) (.cut 0 .leaf .leaf)))) (.cut 0 (.cut 1 (.cut 2 (.cut 0 .leaf .leaf) .leaf) (.cut 2 .leaf .leaf)) (.cut 1 (.cut 2 (.cut 0 .leaf .leaf) .leaf) (.cut 2 (.cut 0 .leaf .leaf) .leaf)))) (.cut 2 (.cut 0 (.cut 1 (.cut 2 .leaf .leaf) .leaf) (.cut 1 (.cut 2 .leaf (.cut 0 .leaf .leaf)) (.cut 2 .leaf .leaf))) (.cut 0 (.cut 1 (.cut 2 .leaf .leaf) (.cut 2 .leaf .leaf)) (.cut 1 (.cut 2 .leaf .leaf) (.cut 2 .leaf .leaf))))) (.cut 1 (.cut 2 (.cut 0 (.cut 1 (.cut 2 (.cut 0 (.cut 1 .leaf .leaf) .leaf) (.cut 0 (.cut 1 .leaf .leaf) .leaf)) (.cut 2 (.cut 0 .leaf .leaf) (.cut 0 .leaf .leaf))) (.cut 1 (.cut 2 .leaf .leaf) (.cut 2 .leaf .leaf))) (.cut 0 (.cut 1 (.cut 2 (.cut 0 .leaf .leaf) .leaf) (.cut 2 (.cut 0 .leaf .leaf) .leaf)) (.cut 1 (.cut 2 .leaf .leaf) (.cut 2 .leaf .leaf)))) (.cut 2 (.cut 0 (.cut 1 (.cut 2 .leaf (.cut 0 .leaf .leaf)) (.cut 2 .leaf .leaf)) (.cut 1 (.cut 2 .leaf .leaf) .leaf)) (.cut 0 (.cut 1 (.cut 2 .leaf .leaf) (.cut 2 .leaf .leaf)) (.cut 1 .leaf .leaf)))))) (.cut 0 (.cut 1 (.cut 2 (.cut 0 (.cut 1 .leaf .leaf) (.cut 1 .leaf .leaf)) (.ref (.cut 0 (.cut 1 .out .leaf) (.cut 1 .out .leaf)))) (.cut 2 (.ref (.cut 0 (.cut 1 (.cut 2 .leaf .leaf) .leaf) (.cut 1 (.cut 2 .leaf .leaf) (.cut 2 .leaf .leaf)))) (.cut 0 .leaf .leaf))) (.cut 1 (.cut 2 (.cut 0 (.cut 1 .leaf .leaf) (.cut 1 .leaf .leaf)) (.ref (.cut 0 (.cut 1 .out .leaf) (.cut 1 .out .leaf)))) (.cut 2 (.ref (.cut 0 (.cut 1 (.cut 2 .leaf .leaf) (.cut 2 .leaf .leaf)) (.cut 1 .leaf .leaf))) (.cut 0 .leaf .leaf))))))) (.ref (.cut 0 (.cut 1 .out (.cut 2 (.cut 0 .leaf (.cut 1 .out (.cut 2 .leaf .out))) .out)) (.cut 1 .out (.cut 2 (.cut 0 (.cut 1 .out (.cut 2 (.cut 0 .leaf (.cut 1 .out .leaf)) .out)) (.cut 1 .out (.cut 2 (.cut 0 (.cut 1 .out .leaf) .leaf) .out))) .out))))) (.cut 2 (.ref (.cut 0 (.cut 1 (.cut 2 (.cut 0 (.cut 1 .leaf .leaf) (.cut 1 (.cut 2 (.cut 0 .leaf .leaf) (.cut 0 .leaf .leaf)) (.cut 2 .leaf .leaf))) (.cut 0 .leaf (.cut 1 (.cut 2 (.cut 0 .leaf .leaf) .leaf) (.cut 2 .leaf .leaf)))) (.cut 2 (.cut 0 .leaf (.cut 1 .leaf .leaf)) (.cut 0 .leaf (.cut 1 (.cut 2 .leaf .leaf) .leaf)))) (.cut 1 (.cut 2 (.cut 0 (.cut 1 (.cut 2 (.cut 0 .leaf .leaf) (.cut 0 (.cut 1 .leaf .leaf) (.cut 1 (.cut 2 .leaf .leaf) .leaf))) (.cut 2 .leaf (.cut 0 .leaf .leaf))) (.cut 1 (.cut 2 (.cut 0 .leaf .leaf) (.cut 0 (.cut 1 (.cut 2 .leaf .leaf) .leaf) (.cut 1 .leaf .leaf))) (.cut 2 .leaf (.cut 0 .leaf .leaf)))) (.cut 0 (.cut 1 (.cut 2 (.cut 0 .leaf .leaf) (.cut 0 .leaf (.cut 1 .leaf .leaf))) (.cut 2 (.cut 0 .leaf (.cut 1 .leaf .leaf)) (.cut 0 .leaf .leaf))) (.cut 1 (.cut 2 (.cut 0 .leaf .leaf) (.cut 0 (.cut 1 .leaf .leaf) .leaf)) (.cut 2 (.cut 0 (.cut 1 .leaf .leaf) .leaf) (.cut 0 .leaf .leaf))))) (.cut 2 (.cut 0 (.cut 1 .leaf .leaf) (.cut 1 .leaf .leaf)) (.cut 0 (.cut 1 (.cut 2 .leaf (.cut 0 .leaf .leaf)) (.cut 2 .leaf .leaf)) (.cut 1 (.cut 2 .leaf (.cut 0 .leaf .leaf)) (.cut 2 .leaf .leaf))))))) (.cut 0 (.cut 1 (.cut 2 (.cut 0 .leaf (.cut 1 (.cut 2 .leaf (.ref .leaf)) (.cut 2 (.ref .leaf) .leaf))) (.ref (.cut 0 .leaf (.cut 1 .out .leaf)))) (.cut 2 (.ref (.cut 0 .leaf (.cut 1 .leaf .leaf))) (.cut 0 .leaf (.cut 1 .leaf .leaf)))) (.cut 1 (.cut 2 (.cut 0 (.cut 1 (.cut 2 (.cut 0 .leaf .leaf) (.ref (.cut 0 .leaf .leaf))) (.cut 2 (.ref (.cut 0 .leaf .leaf)) .leaf)) (.cut 1 (.cut 2 (.cut 0 .leaf .leaf) (.ref (.cut 0 .leaf .leaf))) (.cut 2 (.ref (.cut 0 .leaf .leaf)) .leaf))) (.ref (.cut 0 (.cut 1 .out .leaf) (.cut 1 .out .leaf)))) (.cut 2 (.ref (.cut 0 (.cut 1 (.cut 2 .leaf .leaf) (.cut 2 .leaf .leaf)) (.cut 1 (.cut 2 .leaf .leaf) (.cut 2 .leaf .leaf)))) (.cut 0 (.cut 1 (.cut 2 .leaf (.ref .leaf)) .leaf) (.cut 1 (.cut 2 .leaf (.ref .leaf)) (.cut 2 (.ref .leaf) .leaf))))))))))
theorem h9 : check par t9 [26112, 13824, 13824] [512, 512, 512] st = true := by decide +kernel
def t10 : Tree := (.ref (.cut 0 (.cut 1 .out (.cut 2 (.cut 0 .leaf (.cut 1 .out (.cut 2 .leaf .out))) .out)) (.cut 1 .out (.cut 2 (.cut 0 (.cut 1 .out (.cut 2 (.cut 0 .leaf (.cut 1 .out .leaf)) .out)) (.cut 1 .out (.cut 2 (.cut 0 (.cut 1 .out (.cut 2 (.cut 0 .leaf .leaf) .out)) (.cut 1 .out (.cut 2 (.cut 0 .leaf .leaf) .out))) .out))) .out))))
theorem h10 : check par t10 [25600, 13312, 15360] [1024, 1024, 1024] st = true := by decide +kernel
def t11 : Tree := (.ref (.cut 2 (.ref (.cut 0 (.cut 1 (.cut 2 (.cut 0 .leaf (.cut 1 .leaf .leaf)) (.cut 0 .leaf (.cut 1 (.cut 2 .leaf .leaf) .leaf))) (.cut 2 .leaf (.cut 0 .leaf .leaf))) (.cut 1 (.cut 2 (.cut 0 (.cut 1 (.cut 2 .leaf (.cut 0 .leaf .leaf)) .leaf) (.cut 1 (.cut 2 .leaf (.cut 0 .leaf .leaf)) .leaf)) (.cut 0 (.cut 1 (.cut 2 (.cut 0 .leaf (.cut 1 .leaf .leaf)) (.cut 0 .leaf (.cut 1 .leaf .leaf))) (.cut 2 .leaf (.cut 0 .leaf (.cut 1 .leaf .leaf)))) (.cut 1 (.cut 2 (.cut 0 (.cut 1 (.cut 2 .leaf (.cut 0 .leaf .leaf)) .leaf) (.cut 1 (.cut 2 .leaf (.cut 0 (.cut 1 .leaf .leaf) (.cut 1 .leaf .leaf))) (.cut 2 .leaf .leaf))) (.cut 0 (.cut 1 (.cut 2 (.cut 0 .leaf (.cut 1 .leaf .leaf)) (.cut 0 .leaf .leaf)) (.cut 2 .leaf (.cut 0 .leaf .leaf))) (.cut 1 (.cut 2 (.cut 0 (.cut 1 .leaf .leaf) (.cut 1 (.cut 2 .leaf .leaf) .leaf)) (.cut 0 .leaf .leaf)) (.cut 2 (.cut 0 .leaf .leaf) (.cut 0 .leaf (.cut 1 .leaf .leaf)))))) (.cut 2 (.cut 0 .leaf .leaf) (.cut 0 (.cut 1 (.cut 2 .leaf .leaf) .leaf) (.cut 1 (.cut 2 .leaf .leaf) .leaf)))))) (.cut 2 (.cut 0 .leaf .leaf) (.cut 0 (.cut 1 (.cut 2 .leaf .leaf) .leaf) (.cut 1 (.cut 2 .leaf (.cut 0 .leaf .leaf)) .leaf)))))) (.cut 0 (.cut 1 (.cut 2 (.cut 0 .leaf (.cut 1 .leaf .leaf)) (.ref (.cut 0 .leaf .leaf))) (.cut 2 (.ref (.cut 0 .leaf .leaf)) (.cut 0 .leaf .leaf))) (.cut 1 (.cut 2 (.cut 0 (.cut 1 (.cut 2 (.cut 0 .leaf (.cut 1 .leaf .leaf)) (.ref (.cut 0 .leaf .leaf))) (.cut 2 (.ref (.cut 0 .leaf .leaf)) (.cut 0 .leaf .leaf))) (.cut 1 (.cut 2 (.cut 0 (.cut 1 (.cut 2 (.cut 0 .leaf .leaf) (.ref .leaf)) (.cut 2 (.ref .leaf) .leaf)) (.cut 1 (.cut 2 (.cut 0 .leaf .leaf) (.ref (.cut 0 .leaf .leaf))) (.cut 2 (.ref (.cut 0 .leaf .leaf)) (.cut 0 .leaf .leaf)))) (.ref (.cut 0 (.cut 1 .out .leaf) (.cut 1 .out (.cut 2 .leaf .out))))) (.cut 2 (.ref (.cut 0 (.cut 1 .leaf .leaf) (.cut 1 (.cut 2 (.cut 0 .leaf .leaf) .leaf) (.cut 2 .leaf .leaf)))) (.cut 0 (.cut 1 .leaf .leaf) (.cut 1 (.cut 2 .leaf (.ref .leaf)) .leaf))))) (.ref (.cut 0 (.cut 1 .out (.cut 2 .leaf .out)) (.cut 1 .out (.cut 2 (.cut 0 .leaf (.cut 1 .out .leaf)) .out))))) (.cut 2 (.ref (.cut 0 (.cut 1 (.cut 2 (.cut 0 .leaf .leaf) .leaf) (.cut 2 .leaf .leaf)) (.cut 1 (.cut 2 (.cut 0 (.cut 1 .leaf .leaf) (.cut 1 .leaf .leaf)) (.cut 0 .leaf (.cut 1 .leaf .leaf))) (.cut 2 .leaf (.cut 0 .leaf .leaf))))) (.cut 0 (.cut 1 (.cut 2 .leaf (.ref .leaf)) .leaf) (.cut 1 (.cut 2 (.cut 0 .leaf .leaf) (.ref (.cut 0 .leaf .leaf))) (.cut 2 (.ref (.cut 0 .leaf .leaf)) (.cut 0 .leaf .leaf)))))))))
theorem h11 : check par t11 [25600, 15360, 14336] [1024, 1024, 2048] st = true := by decide +kernel
def t12 : Tree := (.ref (.cut 1 (.ref (.cut 2 (.cut 0 (.cut 1 (.cut 2 (.cut 0 (.cut 1 (.cut 2 (.cut 0 (.cut 1 (.cut 2 (.cut 0 (.cut 1 (.cut 2 .leaf (.ref .leaf)) (.cut 2 (.ref .leaf) .leaf)) .leaf) (.ref (.cut 0 (.cut 1 .out (.cut 2 .leaf .out)) .leaf))) (.cut 2 (.ref (.cut 0 (.cut 1 .leaf (.cut 2 .leaf .leaf)) .leaf)) (.cut 0 (.cut 1 (.cut 2 .leaf (.ref .leaf)) (.cut 2 (.ref .leaf) .leaf)) (.cut 1 .leaf .leaf)))) (.cut 1 (.cut 2 .leaf (.ref .leaf)) (.cut 2 (.ref .leaf) (.cut 0 .leaf .leaf)))) (.ref (.cut 0 (.cut 1 .out (.cut 2 (.cut 0 (.cut 1 .out (.cut 2 (.cut 0 .leaf .leaf) .out)) .leaf) .out)) (.cut 1 .out (.cut 2 .leaf .out))))) (.cut 2 (.ref (.cut 0 (.cut 1 (.cut 2 (.cut 0 (.cut 1 (.cut 2 .leaf .leaf) (.cut 2 .leaf .leaf)) (.cut 1 .leaf .leaf)) (.cut 0 (.cut 1 (.cut 2 .leaf (.cut 0 .leaf .leaf)) (.cut 2 (.cut 0 .leaf .leaf) (.cut 0 .leaf .leaf))) .leaf)) (.cut 2 (.cut 0 (.cut 1 .leaf .leaf) .leaf) (.cut 0 (.cut 1 (.cut 2 .leaf (.cut 0 .leaf .leaf)) (.cut 2 .leaf .leaf)) (.cut 1 .leaf .leaf)))) (.cut 1 (.cut 2 (.cut 0 .leaf .leaf) .leaf) (.cut 2 .leaf (.cut 0 .leaf .leaf))))) (.cut 0 (.cut 1 (.cut 2 (.cut 0 (.cut 1 (.cut 2 (.cut 0 .leaf .leaf) (.ref (.cut 0 .leaf .leaf))) (.cut 2 (.ref (.cut 0 .leaf .leaf)) (.cut 0 .leaf .leaf))) (.cut 1 .leaf .leaf)) (.ref (.cut 0 (.cut 1 .out (.cut 2 (.cut 0 .leaf .leaf) .out)) .leaf))) (.cut 2 (.ref (.cut 0 (.cut 1 (.cut 2 (.cut 0 .leaf .leaf) (.cut 0 .leaf .leaf)) (.cut 2 (.cut 0 .leaf .leaf) (.cut 0 .leaf .leaf))) .leaf)) (.cut 0 (.cut 1 (.cut 2 (.cut 0 .leaf .leaf) (.ref (.cut 0 (.cut 1 .out .leaf) .leaf))) (.cut 2 (.ref (.cut 0 (.cut 1 .leaf .leaf) .leaf)) (.cut 0 .leaf .leaf))) (.cut 1 .leaf .leaf)))) (.cut 1 (.cut 2 (.cut 0 .leaf .leaf) (.ref .leaf)) (.cut 2 (.ref .leaf) (.cut 0 .leaf .leaf)))))) (.cut 1 (.cut 2 (.cut 0 (.cut 1 .leaf .leaf) .leaf) (.ref (.cut 0 (.cut 1 .out .leaf) .leaf))) (.cut 2 (.ref (.cut 0 (.cut 1 .leaf .leaf) .leaf)) (.cut 0 (.cut 1 .leaf .leaf) .leaf)))) (.ref (.cut 0 (.cut 1 .out (.cut 2 (.cut 0 (.cut 1 .out (.cut 2 (.cut 0 (.cut 1 .out (.cut 2 (.cut 0 (.cut 1 .out .leaf) .leaf) .out)) .leaf) .out)) (.cut 1 .out (.cut 2 .leaf .out))) .out)) (.cut 1 .out (.cut 2 (.cut 0 (.cut 1 .out .leaf) .leaf) .out))))) (.cut 2 (.ref (.cut 0 (.cut 1 (.cut 2 (.cut 0 (.cut 1 (.cut 2 .leaf (.cut 0 (.cut 1 .leaf .leaf) .leaf)) (.cut 2 .leaf .leaf)) (.cut 1 (.cut 2 .leaf .leaf) .leaf)) (.cut 0 (.cut 1 (.cut 2 (.cut 0 (.cut 1 (.cut 2 (.cut 0 .leaf .leaf) (.cut 0 (.cut 1 .leaf .leaf) .leaf)) (.cut 2 .leaf (.cut 0 .leaf .leaf))) (.cut 1 .leaf .leaf)) (.cut 0 (.cut 1 (.cut 2 (.cut 0 .leaf .leaf) (.cut 0 (.cut 1 .leaf .leaf) .leaf)) (.cut 2 (.cut 0 (.cut 1 .leaf .leaf) .leaf) (.cut 0 .leaf .leaf))) .leaf)) (.cut 2 (.cut 0 (.cut 1 .leaf .leaf) .leaf) (.cut 0 (.cut 1 (.cut 2 (.cut 0 .leaf .leaf) (.cut 0 (.cut 1 .leaf .leaf) .leaf)) (.cut 2 .leaf (.cut 0 .leaf .leaf))) (.cut 1 .leaf .leaf)))) (.cut 1 (.cut 2 (.cut 0 .leaf .leaf) .leaf) (.cut 2 .leaf (.cut 0 .leaf .leaf))))) (.cut 2 (.cut 0 .leaf .leaf) (.cut 0 (.cut 1 (.cut 2 .leaf (.cut 0 (.cut 1 .leaf .leaf) .leaf)) (.cut 2 .leaf .leaf)) (.cut 1 (.cut 2 .leaf .leaf) .leaf)))) (.cut 1 (.cut 2 (.cut 0 (.cut 1 .leaf .leaf) .leaf) (.cut 0 (.cut 1 .leaf .leaf) .leaf)) (.cut 2 .leaf (.cut 0 (.cut 1 .leaf .leaf) .leaf))))) (.cut 0 (.cut 1 (.cut 2 (.cut 0 (.cut 1 (.cut 2 (.cut 0 (.cut 1 (.cut 2 (.cut 0 .leaf .leaf) (.ref (.cut 0 (.cut 1 .out .leaf) .leaf))) (.cut 2 (.ref (.cut 0 (.cut 1 .leaf .leaf) .leaf)) (.cut 0 .leaf .leaf))) (.cut 1 .leaf .leaf)) (.ref (.cut 0 (.cut 1 .out (.cut 2 (.cut 0 .leaf .leaf) .out)) .leaf))) (.cut 2 (.ref (.cut 0 (.cut 1 (.cut 2 (.cut 0 .leaf .leaf) (.cut 0 .leaf .leaf)) (.cut 2 (.cut 0 .leaf .leaf) (.cut 0 .leaf .leaf))) .leaf)) (.cut 0 (.cut 1 (.cut 2 (.cut 0 .leaf .leaf) (.ref (.cut 0 .leaf .leaf))) (.cut 2 (.ref (.cut 0 .leaf .leaf)) .leaf)) (.cut 1 .leaf .leaf)))) (.cut 1 (.cut 2 (.cut 0 .leaf .leaf) (.ref .leaf)) (.cut 2 (.ref .leaf) (.cut 0 .leaf .leaf)))) (.ref (.cut 0 (.cut 1 .out (.cut 2 (.cut 0 (.cut 1 .out (.cut 2 (.cut 0 .leaf .leaf) .out)) .leaf) .out)) (.cut 1 .out (.cut 2 .leaf .out))))) (.cut 2 (.ref (.cut 0 (.cut 1 (.cut 2 (.cut 0 (.cut 1 (.cut 2 .leaf (.cut 0 .leaf .leaf)) (.cut 2 .leaf .leaf)) (.cut 1 .leaf .leaf)) (.cut 0 (.cut 1 (.cut 2 .leaf (.cut 0 .leaf .leaf)) (.cut 2 (.cut 0 .leaf .leaf) .leaf)) .leaf)) (.cut 2 (.cut 0 (.cut 1 .leaf .leaf) .leaf) (.cut 0 (.cut 1 (.cut 2 .leaf .leaf) (.cut 2 .leaf .leaf)) (.cut 1 .leaf .leaf)))) (.cut 1 (.cut 2 (.cut 0 .leaf .leaf) .leaf) (.cut 2 .leaf (.cut 0 .leaf .leaf))))) (.cut 0 (.cut 1 (.cut 2 (.cut 0 (.cut 1 (.cut 2 .leaf (.ref .leaf)) (.cut 2 (.ref .leaf) .leaf)) (.cut 1 .leaf .leaf)) (.ref (.cut 0 (.cut 1 .out .leaf) .leaf))) (.cut 2 (.ref (.cut 0 (.cut 1 (.cut 2 .leaf .leaf) .leaf) .leaf)) (.cut 0 (.cut 1 .leaf .leaf) (.cut 1 .leaf .leaf)))) (.cut 1 (.cut 2 (.cut 0 .leaf .leaf) (.ref .leaf)) (.cut 2 (.ref .leaf) (.cut 0 .leaf .leaf)))))) (.cut 1 (.cut 2 (.cut 0 (.cut 1 .leaf .leaf) .leaf) (.ref (.cut 0 (.cut 1 .out .leaf) .leaf))) (.cut 2 (.ref (.cut 0 (.cut 1 .leaf .leaf) .leaf)) (.cut 0 (.cut 1 .leaf .leaf) .leaf)))))) (.cut 1 (.cut 2 (.cut 0 (.cut 1 (.cut 2 .leaf (.ref .leaf)) (.cut 2 (.ref .leaf) .leaf)) .leaf) (.ref (.cut 0 (.cut 1 .out (.cut 2 .leaf .out)) .leaf))) (.cut 2 (.ref (.cut 0 (.cut 1 (.cut 2 .leaf .leaf) (.cut 2 .leaf .leaf)) .leaf)) (.cut 0 (.cut 1 (.cut 2 .leaf (.ref .leaf)) (.cut 2 (.ref .leaf) .leaf)) .leaf)))) (.ref (.cut 0 (.cut 1 .out (.cut 2 (.cut 0 (.cut 1 .out (.cut 2 (.cut 0 (.cut 1 .out (.cut 2 (.cut 0 .leaf .leaf) .out)) (.cut 1 .out (.cut 2 .leaf .out))) .out)) (.cut 1 .out (.cut 2 (.cut 0 (.cut 1 .out .leaf) .leaf) .out))) .out)) (.cut 1 .out (.cut 2 (.cut 0 (.cut 1 .out (.cut 2 .leaf .out)) .leaf) .out)))))) (.cut 2 (.ref (.cut 0 (.ref (.cut 1 (.cut 2 (.cut 0 (.cut 1 (.cut 2 .leaf (.cut 0 .leaf .leaf)) .leaf) (.cut 1 (.cut 2 .leaf .leaf) .leaf)) (.cut 0 (.cut 1 (.cut 2 (.cut 0 (.cut 1 (.cut 2 .leaf (.cut 0 .leaf .leaf)) (.cut 2 .leaf .leaf)) (.cut 1 (.cut 2 .leaf .leaf) .leaf)) (.cut 0 (.cut 1 (.cut 2 (.cut 0 (.cut 1 .leaf .leaf) .leaf) (.cut 0 .leaf .leaf)) (.cut 2 (.cut 0 .leaf .leaf) (.cut 0 .leaf .leaf))) (.cut 1 (.cut 2 .leaf .leaf) (.cut 2 .leaf .leaf)))) (.cut 2 (.cut 0 .leaf .leaf) (.cut 0 (.cut 1 (.cut 2 .leaf .leaf) .leaf) (.cut 1 (.cut 2 .leaf .leaf) .leaf)))) (.cut 1 (.cut 2 (.cut 0 (.cut 1 .leaf .leaf) .leaf) (.cut 0 (.cut 1 .leaf .leaf) .leaf)) (.cut 2 .leaf (.cut 0 .leaf .leaf))))) (.cut 2 (.cut 0 .leaf .leaf) (.cut 0 (.cut 1 (.cut 2 .leaf (.cut 0 .leaf .leaf)) .leaf) (.cut 1 (.cut 2 .leaf .leaf) .leaf))))) (.cut 1 (.ref (.cut 2 (.cut 0 (.cut 1 .leaf .leaf) .leaf) (.cut 0 (.cut 1 (.cut 2 .leaf .leaf) (.cut 2 .leaf .leaf)) .leaf))) (.cut 2 .leaf (.ref (.cut 0 (.cut 1 .leaf .leaf) .leaf)))))) (.ref (.cut 0 (.cut 1 (.cut 2 (.cut 0 (.cut 1 (.cut 2 (.cut 0 (.cut 1 (.cut 2 (.cut 0 (.cut 1 .leaf .leaf) .leaf) (.ref (.cut 0 .leaf .leaf))) (.cut 2 (.ref (.cut 0 .leaf .leaf)) (.cut 0 .leaf .leaf))) (.cut 1 (.cut 2 .leaf (.ref .leaf)) (.cut 2 (.ref .leaf) .leaf))) (.ref (.cut 0 (.cut 1 .out (.cut 2 .leaf .out)) (.cut 1 .out .leaf)))) (.cut 2 (.ref (.cut 0 (.cut 1 (.cut 2 (.cut 0 .leaf .leaf) .leaf) (.cut 2 .leaf .leaf)) (.cut 1 (.cut 2 .leaf .leaf) (.cut 2 .leaf .leaf)))) (.cut 0 (.cut 1 (.cut 2 .leaf (.ref .leaf)) (.cut 2 (.ref .leaf) .leaf)) (.cut 1 (.cut 2 .leaf (.ref .leaf)) .leaf)))) (.cut 1 (.cut 2 (.cut 0 (.cut 1 .leaf .leaf) .leaf) (.ref (.cut 0 .leaf .leaf))) (.cut 2 (.ref (.cut 0 .leaf .leaf)) (.cut 0 .leaf .leaf)))) (.ref (.cut 0 (.cut 1 .out (.cut 2 (.cut 0 (.cut 1 .out .leaf) (.cut 1 .out .leaf)) .out)) (.cut 1 .out (.cut 2 (.cut 0 .leaf .leaf) .out))))) (.cut 2 (.ref (.cut 0 (.cut 1 (.cut 2 (.cut 0 (.cut 1 (.cut 2 .leaf .leaf) .leaf) (.cut 1 .leaf .leaf)) (.cut 0 (.cut 1 .leaf .leaf) (.cut 1 .leaf .leaf))) (.cut 2 .leaf (.cut 0 (.cut 1 .leaf .leaf) (.cut 1 .leaf .leaf)))) (.cut 1 (.cut 2 (.cut 0 .leaf .leaf) (.cut 0 .leaf .leaf)) (.cut 2 .leaf (.cut 0 .leaf .leaf))))) (.cut 0 (.cut 1 (.cut 2 (.cut 0 (.cut 1 .leaf .leaf) (.cut 1 .leaf .leaf)) (.ref (.cut 0 .leaf .leaf))) (.cut 2 (.ref (.cut 0 .leaf .leaf)) (.cut 0 .leaf .leaf))) (.cut 1 (.cut 2 (.cut 0 .leaf .leaf) (.ref (.cut 0 .leaf .leaf))) (.cut 2 (.ref (.cut 0 .leaf .leaf)) (.cut 0 .leaf .leaf)))))) (.cut 1 (.cut 2 (.cut 0 (.cut 1 (.cut 2 .leaf (.ref .leaf)) (.cut 2 (.ref .leaf) .leaf)) .leaf) (.ref (.cut 0 (.cut 1 .out (.cut 2 .leaf .out)) .leaf))) (.cut 2 (.ref (.cut 0 (.cut 1 (.cut 2 .leaf .leaf) (.cut 2 .leaf .leaf)) .leaf)) (.cut 0 (.cut 1 (.cut 2 .leaf (.ref .leaf)) (.cut 2 (.ref .leaf) .leaf)) .leaf))))))))
theorem h12 : check par t12 [27648, 14336, 14336] [1024, 2048, 2048] st = true := by decide +kernel
def t13 : Tree := (.ref (.cut 1 (.cut 2 (.cut 0 (.cut 1 (.ref (.cut 2 (.cut 0 (.cut 1 (.cut 2 (.cut 0 .leaf .leaf) (.ref (.cut 0 .leaf .leaf))) (.cut 2 (.ref (.cut 0 .leaf .leaf)) (.cut 0 .leaf .leaf))) (.cut 1 (.cut 2 (.cut 0 .leaf .leaf) (.ref .leaf)) (.cut 2 (.ref .leaf) .leaf))) (.ref (.cut 0 (.cut 1 .out (.cut 2 (.cut 0 .leaf .leaf) .out)) (.cut 1 .out (.cut 2 .leaf .out)))))) (.cut 2 (.ref (.cut 0 (.cut 1 (.ref (.cut 2 (.cut 0 .leaf .leaf) (.cut 0 .leaf .leaf))) (.cut 2 .leaf (.ref (.cut 0 .leaf .leaf)))) (.cut 1 (.ref (.cut 2 .leaf .leaf)) (.cut 2 .leaf .leaf)))) (.ref (.cut 0 (.cut 1 (.cut 2 (.cut 0 .leaf .leaf) (.ref (.cut 0 .leaf .leaf))) (.cut 2 (.ref (.cut 0 .leaf .leaf)) (.cut 0 .leaf .leaf))) (.cut 1 (.cut 2 .leaf (.ref .leaf)) .leaf))))) (.cut 1 (.ref (.cut 2 (.cut 0 (.cut 1 (.cut 2 .leaf (.ref .leaf)) .leaf) (.cut 1 .leaf .leaf)) (.ref (.cut 0 (.cut 1 .out .leaf) .leaf)))) (.cut 2 (.ref (.cut 0 (.cut 1 .leaf .leaf) .leaf)) (.cut 0 (.ref .leaf) (.ref .leaf))))) (.ref (.cut 0 (.cut 1 .out (.cut 2 (.cut 0 (.cut 1 .out (.cut 2 .leaf .out)) (.cut 1 .out .leaf)) .out)) (.cut 1 .out (.cut 2 (.cut 0 .leaf .leaf) .out))))) (.cut 2 (.ref (.cut 0 (.cut 1 (.cut 2 (.cut 0 (.cut 1 (.cut 2 .leaf .leaf) .leaf) (.cut 1 .leaf .leaf)) (.cut 0 (.cut 1 (.ref (.cut 2 .leaf .leaf)) (.cut 2 .leaf (.ref .leaf))) (.cut 1 .leaf .leaf))) (.cut 2 (.cut 0 .leaf .leaf) (.cut 0 (.cut 1 .leaf .leaf) .leaf))) (.cut 1 (.cut 2 (.cut 0 .leaf .leaf) (.cut 0 .leaf .leaf)) (.cut 2 .leaf (.cut 0 .leaf .leaf))))) (.cut 0 (.cut 1 (.ref (.cut 2 (.cut 0 (.cut 1 (.cut 2 .leaf (.ref .leaf)) (.cut 2 (.ref .leaf) .leaf)) .leaf) (.ref (.cut 0 (.cut 1 .out (.cut 2 .leaf .out)) (.cut 1 .out .leaf))))) (.cut 2 (.ref (.cut 0 (.cut 1 (.ref (.cut 2 .leaf .leaf)) (.cut 2 .leaf (.ref .leaf))) (.cut 1 .leaf .leaf))) (.ref (.cut 0 (.cut 1 (.cut 2 .leaf (.ref .leaf)) (.cut 2 (.ref .leaf) .leaf)) .leaf)))) (.cut 1 (.cut 2 (.cut 0 (.ref .leaf) (.ref .leaf)) (.ref (.cut 0 .leaf .leaf))) (.cut 2 (.ref (.cut 0 .leaf .leaf)) (.ref .leaf)))))))
theorem h13 : check par t13 [30720, 12288, 12288] [2048, 4096, 4096] st = true := by decide +kernel
def t14 : Tree := (.ref (.cut 0 (.ref (.cut 1 .out (.cut 2 (.cut 0 (.cut 1 .out (.cut 2 .leaf .out)) (.cut 1 .out (.cut 2 (.cut 0 (.ref .leaf) (.cut 1 .out (.cut 2 (.cut 0 (.ref .leaf) (.ref .leaf)) .out))) .out))) .out))) (.cut 1 .out (.cut 2 (.ref (.cut 0 (.cut 1 .out (.cut 2 (.cut 0 (.cut 1 .out (.cut 2 (.cut 0 (.cut 1 .out (.cut 2 .leaf .out)) (.cut 1 .out (.cut 2 (.cut 0 (.cut 1 .out .leaf) (.cut 1 .out (.cut 2 .leaf .out))) .out))) .out)) (.cut 1 .out (.cut 2 (.cut 0 (.cut 1 .out (.cut 2 (.cut 0 (.cut 1 .out (.cut 2 .leaf .out)) (.cut 1 .out (.cut 2 .leaf .out))) .out)) (.cut 1 .out (.cut 2 (.cut 0 (.cut 1 .out .leaf) .leaf) .out))) .out))) .out)) (.cut 1 .out (.cut 2 (.cut 0 (.cut 1 .out (.cut 2 (.cut 0 (.cut 1 .out (.cut 2 .leaf .out)) (.cut 1 .out .leaf)) .out)) (.cut 1 .out (.cut 2 (.cut 0 .leaf .leaf) .out))) .out)))) .out))))
theorem h14 : check par t14 [24576, 8192, 24576] [8192, 8192, 8192] st = true := by decide +kernel
def t15 : Tree := (.ref (.cut 2 (.ref (.cut 0 (.cut 1 (.cut 2 (.cut 0 (.cut 1 .leaf (.ref (.cut 2 .leaf .leaf))) (.cut 1 (.ref (.cut 2 .leaf (.cut 0 .leaf .leaf))) (.cut 2 .leaf .leaf))) (.cut 0 (.cut 1 .leaf (.ref (.cut 2 (.cut 0 .out .leaf) (.cut 0 .out (.cut 1 (.ref .leaf) .out))))) (.cut 1 (.ref (.cut 2 (.cut 0 .leaf (.cut 1 (.cut 2 .leaf .leaf) .leaf)) (.cut 0 .leaf (.cut 1 (.ref (.cut 2 (.cut 0 .leaf .leaf) (.cut 0 .leaf .leaf))) (.cut 2 .leaf (.ref .leaf)))))) (.cut 2 .leaf (.cut 0 (.cut 1 .leaf (.ref .leaf)) (.cut 1 (.ref .leaf) .leaf)))))) (.ref (.cut 2 (.cut 0 .out (.cut 1 (.cut 2 .leaf .leaf) .out)) (.cut 0 .out (.cut 1 (.cut 2 (.cut 0 .out .leaf) (.cut 0 .out (.cut 1 .leaf .out))) .out))))) (.cut 1 (.ref (.cut 2 (.cut 0 (.cut 1 (.cut 2 .leaf (.cut 0 .leaf (.cut 1 .leaf .leaf))) (.cut 2 .leaf .leaf)) (.cut 1 (.cut 2 .leaf (.cut 0 (.cut 1 .leaf .leaf) .leaf)) (.cut 2 .leaf .leaf))) (.cut 0 (.cut 1 (.cut 2 (.cut 0 (.cut 1 (.cut 2 .leaf (.cut 0 .leaf .leaf)) .leaf) (.cut 1 (.cut 2 .leaf (.cut 0 .leaf .leaf)) (.cut 2 .leaf .leaf))) (.cut 0 (.cut 1 (.cut 2 (.cut 0 (.cut 1 (.ref (.cut 2 .leaf .leaf)) .leaf) (.cut 1 (.ref (.cut 2 .leaf (.cut 0 .leaf .leaf))) .leaf)) (.ref (.cut 0 (.cut 1 (.cut 2 .leaf .leaf) (.cut 2 .leaf .leaf)) (.cut 1 (.cut 2 (.cut 0 (.cut 1 .leaf .leaf) (.cut 1 (.cut 2 .leaf .leaf) .leaf)) (.cut 0 (.cut 1 .leaf .leaf) (.cut 1 (.cut 2 (.cut 0 .leaf .leaf) .leaf) (.cut 2 .leaf .leaf)))) (.cut 2 .leaf (.cut 0 .leaf (.cut 1 .leaf .leaf))))))) (.cut 2 (.cut 0 .leaf .leaf) (.cut 0 (.ref (.cut 1 .leaf .leaf)) (.cut 1 (.ref (.cut 2 .leaf .leaf)) .leaf)))) (.cut 1 (.cut 2 (.cut 0 (.cut 1 (.cut 2 .leaf (.ref (.cut 0 .leaf .leaf))) .leaf) (.cut 1 (.cut 2 .leaf .leaf) .leaf)) (.cut 0 (.ref (.cut 1 (.cut 2 (.cut 0 (.cut 1 (.cut 2 .leaf .leaf) .leaf) (.cut 1 (.cut 2 .leaf .leaf) .leaf)) (.cut 0 (.cut 1 (.cut 2 (.cut 0 .leaf .leaf) .leaf) (.cut 2 .leaf .leaf)) (.cut 1 (.cut 2 (.cut 0 .leaf .leaf) .leaf) (.cut 2 .leaf .leaf)))) (.cut 2 .leaf (.cut 0 (.cut 1 .leaf .leaf) (.cut 1 (.cut 2 .leaf .leaf) .leaf))))) (.cut 1 (.ref (.cut 2 (.cut 0 (.cut 1 .leaf .leaf) .leaf) (.cut 0 (.cut 1 (.cut 2 .leaf .leaf) (.cut 2 .leaf .leaf)) .leaf))) (.cut 2 .leaf (.ref (.cut 0 (.cut 1 .leaf .leaf) .leaf)))))) (.cut 2 (.cut 0 .leaf .leaf) (.cut 0 (.cut 1 (.cut 2 .leaf (.ref .leaf)) .leaf) (.cut 1 (.cut 2 .leaf .leaf) .leaf)))))) (.cut 2 (.cut 0 .leaf .leaf) (.cut 0 (.cut 1 (.cut 2 .leaf .leaf) .leaf) (.cut 1 (.cut 2 .leaf .leaf) .leaf)))) (.cut 1 (.cut 2 (.cut 0 (.cut 1 (.cut 2 .leaf (.cut 0 .leaf .leaf)) .leaf) (.cut 1 (.cut 2 .leaf .leaf) .leaf)) (.cut 0 (.cut 1 (.cut 2 (.cut 0 (.cut 1 .leaf .leaf) .leaf) (.cut 0 (.cut 1 (.ref (.cut 2 .leaf .leaf)) (.cut 2 .leaf (.ref .leaf))) (.cut 1 .leaf .leaf))) (.cut 2 (.cut 0 .leaf .leaf) (.cut 0 (.cut 1 (.cut 2 .leaf .leaf) .leaf) .leaf))) (.cut 1 (.cut 2 (.cut 0 .leaf .leaf) (.cut 0 .leaf .leaf)) (.cut 2 .leaf (.cut 0 .leaf .leaf))))) (.cut 2 (.cut 0 .leaf .leaf) (.cut 0 (.cut 1 (.cut 2 .leaf (.cut 0 .leaf .leaf)) (.cut 2 .leaf .leaf)) (.cut 1 (.cut 2 .leaf .leaf) .leaf))))))) (.cut 2 (.cut 0 (.cut 1 .leaf (.ref .leaf)) (.cut 1 (.ref .leaf) .leaf)) (.cut 0 (.cut 1 (.cut 2 .leaf (.cut 0 .leaf .leaf)) (.ref (.cut 2 .leaf (.cut 0 .out .leaf)))) (.cut 1 (.ref (.cut 2 .leaf (.cut 0 .leaf .leaf))) (.cut 2 .leaf .leaf))))))) (.cut 0 (.cut 1 (.cut 2 (.cut 0 (.ref (.cut 1 (.cut 2 .leaf (.ref (.cut 0 (.cut 1 .out (.cut 2 (.ref .leaf) .out)) (.cut 1 .out (.cut 2 .leaf .out))))) (.ref (.cut 2 (.cut 0 .out (.cut 1 (.ref .leaf) .out)) (.cut 0 .out (.cut 1 (.cut 2 (.ref .leaf) (.ref .leaf)) .out)))))) (.cut 1 (.ref (.cut 2 (.cut 0 (.ref .leaf) (.cut 1 (.cut 2 (.cut 0 (.ref .leaf) (.ref .leaf)) (.ref .leaf)) (.cut 2 (.ref .leaf) (.ref .leaf)))) (.ref (.cut 0 (.cut 1 .out (.ref (.cut 2 .leaf .out))) (.cut 1 .out .leaf))))) (.cut 2 (.ref (.cut 0 (.ref (.cut 1 .leaf (.ref .leaf))) (.cut 1 (.ref .leaf) .leaf))) (.ref (.cut 0 (.ref (.cut 1 .leaf (.ref .leaf))) .leaf))))) (.ref (.cut 0 (.ref (.cut 1 .out (.cut 2 (.cut 0 .out (.cut 1 .out .out)) .out))) (.cut 1 .out (.ref (.cut 2 (.cut 0 (.cut 1 .out (.cut 2 (.ref .leaf) .out)) (.cut 1 .out (.cut 2 .leaf .out))) .out)))))) (.ref (.cut 2 (.ref (.cut 0 .out (.cut 1 (.cut 2 (.cut 0 .out (.cut 1 (.cut 2 (.ref .leaf) (.ref .leaf)) .out)) (.ref (.cut 0 .out (.cut 1 (.cut 2 (.ref .leaf) .leaf) .out)))) .out))) (.ref (.cut 0 .out (.cut 1 (.cut 2 (.cut 0 .out (.cut 1 (.cut 2 .leaf (.cut 0 .out (.ref .leaf))) .out)) (.cut 0 .out (.cut 1 .out .out))) .out)))))) (.cut 1 (.ref (.cut 2 (.cut 0 (.cut 1 (.cut 2 (.cut 0 (.ref (.cut 1 (.cut 2 (.cut 0 (.cut 1 (.cut 2 .leaf (.ref .leaf)) .leaf) (.cut 1 (.cut 2 (.cut 0 .leaf (.cut 1 (.cut 2 .leaf (.ref .leaf)) .leaf)) (.ref (.cut 0 .leaf (.cut 1 .out .leaf)))) (.cut 2 (.ref (.cut 0 .leaf (.cut 1 .leaf .leaf))) (.cut 0 .leaf .leaf)))) (.ref (.cut 0 .leaf (.cut 1 .out (.cut 2 .leaf .out))))) (.cut 2 (.ref (.cut 0 .leaf (.cut 1 (.cut 2 (.cut 0 .leaf .leaf) .leaf) (.cut 2 .leaf .leaf)))) (.cut 0 .leaf (.cut 1 (.cut 2 .leaf (.ref .leaf)) .leaf))))) (.cut 1 (.ref (.cut 2 (.cut 0 (.cut 1 (.cut 2 (.cut 0 (.cut 1 (.cut 2 .leaf (.ref .leaf)) (.cut 2 (.ref .leaf) .leaf)) (.cut 1 (.cut 2 .leaf (.ref .leaf)) (.cut 2 (.ref .leaf) .leaf))) (.ref (.cut 0 (.cut 1 .out .leaf) (.cut 1 .out .leaf)))) (.cut 2 (.ref (.cut 0 (.cut 1 .leaf .leaf) (.cut 1 (.cut 2 .leaf .leaf) .leaf))) (.cut 0 (.cut 1 .leaf .leaf) (.cut 1 .leaf .leaf)))) (.cut 1 (.cut 2 (.cut 0 (.cut 1 (.cut 2 .leaf (.ref .leaf)) (.cut 2 (.ref .leaf) .leaf)) .leaf) (.ref (.cut 0 (.cut 1 .out .leaf) .leaf))) (.cut 2 (.ref (.cut 0 (.cut 1 .leaf (.cut 2 .leaf .leaf)) .leaf)) (.cut 0 (.cut 1 .leaf .leaf) .leaf)))) (.ref (.cut 0 (.cut 1 .out (.cut 2 (.cut 0 .leaf (.cut 1 .out .leaf)) .out)) (.cut 1 .out (.cut 2 (.cut 0 (.cut 1 .out .leaf) .leaf) .out)))))) (.cut 2 (.ref (.cut 0 (.cut 1 (.cut 2 (.cut 0 (.cut 1 .leaf .leaf) (.cut 1 .leaf .leaf)) (.cut 0 .leaf (.cut 1 .leaf .leaf))) (.cut 2 .leaf (.cut 0 .leaf .leaf))) (.cut 1 (.cut 2 (.cut 0 (.cut 1 .leaf .leaf) .leaf) (.cut 0 (.cut 1 .leaf .leaf) .leaf)) (.cut 2 .leaf (.cut 0 .leaf .leaf))))) (.ref (.cut 0 (.cut 1 (.cut 2 (.cut 0 .leaf .leaf) (.ref (.cut 0 .leaf .leaf))) (.cut 2 (.ref (.cut 0 .leaf .leaf)) .leaf)) (.cut 1 (.cut 2 (.cut 0 .leaf .leaf) (.ref (.cut 0 .leaf .leaf))) (.cut 2 (.ref (.cut 0 .leaf .leaf)) (.cut 0 .leaf .leaf)))))))) (.ref (.cut 0 (.cut 1 .out (.cut 2 (.cut 0 .leaf .leaf) .out)) (.cut 1 .out (.cut 2 (.cut 0 (.cut 1 .out (.cut 2 .leaf .out)) (.cut 1 .out (.cut 2 .leaf .out))) .out))))) (.cut 2 (.ref (.cut 0 (.cut 1 (.cut 2 (.cut 0 (.ref .leaf) (.cut 1 (.ref .leaf) .leaf)) (.ref (.cut 0 .leaf .leaf))) (.cut 2 .leaf (.ref .leaf))) (.cut 1 (.cut 2 (.cut 0 (.cut 1 (.cut 2 .leaf (.ref .leaf)) .leaf) (.cut 1 (.cut 2 .leaf (.ref .leaf)) .leaf)) (.ref (.cut 0 (.cut 1 (.cut 2 .leaf .leaf) .leaf) (.cut 1 (.cut 2 (.cut 0 .leaf .leaf) .leaf) (.cut 2 .leaf .leaf))))) (.cut 2 .leaf (.cut 0 (.cut 1 (.ref .leaf) .leaf) (.cut 1 (.cut 2 .leaf (.ref .leaf)) .leaf)))))) (.ref (.cut 0 (.cut 1 (.cut 2 (.cut 0 .leaf .leaf) (.ref .leaf)) (.cut 2 (.ref .leaf) .leaf)) (.cut 1 (.cut 2 (.cut 0 (.cut 1 (.cut 2 .leaf (.ref .leaf)) .leaf) (.cut 1 (.cut 2 .leaf (.ref .leaf)) (.cut 2 (.ref .leaf) .leaf))) (.ref (.cut 0 .leaf (.cut 1 .out .leaf)))) (.cut 2 (.ref (.cut 0 .leaf (.cut 1 .leaf .leaf))) (.cut 0 .leaf (.cut 1 .leaf .leaf)))))))) (.cut 1 (.cut 2 (.cut 0 (.cut 1 (.ref (.cut 2 (.cut 0 (.cut 1 (.cut 2 .leaf (.ref .leaf)) (.cut 2 (.ref .leaf) .leaf)) .leaf) (.ref (.cut 0 (.cut 1 .out (.cut 2 (.cut 0 .leaf .leaf) .out)) (.cut 1 .out .leaf))))) (.cut 2 (.ref (.cut 0 (.cut 1 (.ref (.cut 2 .leaf (.cut 0 .leaf .leaf))) (.cut 2 .leaf (.ref (.cut 0 .leaf .leaf)))) (.cut 1 .leaf .leaf))) (.ref (.cut 0 (.cut 1 (.cut 2 (.cut 0 .leaf .leaf) (.ref (.cut 0 .leaf .leaf))) (.cut 2 (.ref (.cut 0 .leaf .leaf)) (.cut 0 .leaf .leaf))) (.cut 1 .leaf (.cut 2 (.ref .leaf) .leaf)))))) (.cut 1 (.cut 2 (.ref .leaf) (.ref (.cut 0 .leaf .leaf))) (.cut 2 (.ref (.cut 0 .leaf .leaf)) (.cut 0 (.ref .leaf) (.ref .leaf))))) (.ref (.cut 0 (.cut 1 .out (.cut 2 (.cut 0 (.cut 1 .out (.cut 2 .leaf .out)) (.cut 1 .out (.cut 2 .leaf .out))) .out)) (.cut 1 .out (.cut 2 (.cut 0 (.cut 1 .out .leaf) .leaf) .out))))) (.cut 2 (.ref (.cut 0 (.cut 1 (.cut 2 (.cut 0 (.cut 1 (.cut 2 .leaf .leaf) .leaf) (.cut 1 .leaf .leaf)) (.cut 0 (.cut 1 (.ref (.cut 2 (.cut 0 .leaf .leaf) .leaf)) (.cut 2 .leaf (.ref (.cut 0 .leaf .leaf)))) (.cut 1 (.cut 2 .leaf (.ref .leaf)) (.cut 2 .leaf (.ref .leaf))))) (.cut 2 (.cut 0 .leaf .leaf) (.cut 0 (.cut 1 (.cut 2 .leaf .leaf) .leaf) (.cut 1 (.cut 2 .leaf .leaf) .leaf)))) (.cut 1 (.cut 2 (.cut 0 .leaf .leaf) (.cut 0 (.cut 1 .leaf .leaf) .leaf)) (.cut 2 .leaf (.cut 0 (.cut 1 .leaf .leaf) .leaf))))) (.cut 0 (.cut 1 (.ref (.cut 2 (.cut 0 (.cut 1 (.cut 2 (.cut 0 .leaf .leaf) (.ref .leaf)) (.cut 2 (.ref .leaf) .leaf)) (.cut 1 (.cut 2 .leaf (.ref .leaf)) (.cut 2 (.ref .leaf) .leaf))) (.ref (.cut 0 (.cut 1 .out (.cut 2 .leaf .out)) (.cut 1 .out (.cut 2 .leaf .out)))))) (.cut 2 (.ref (.cut 0 (.ref (.cut 1 (.cut 2 .leaf .leaf) (.cut 2 .leaf .leaf))) (.cut 1 (.ref (.cut 2 .leaf .leaf)) (.cut 2 .leaf (.ref .leaf))))) (.ref (.cut 0 (.cut 1 (.cut 2 .leaf (.ref .leaf)) (.cut 2 (.ref .leaf) .leaf)) (.cut 1 (.cut 2 .leaf (.ref .leaf)) (.cut 2 (.ref .leaf) .leaf)))))) (.cut 1 (.cut 2 (.cut 0 (.ref (.cut 1 .leaf .leaf)) (.ref .leaf)) (.ref (.cut 0 (.cut 1 .out .leaf) .leaf))) (.cut 2 (.ref (.cut 0 (.cut 1 .leaf (.cut 2 .leaf .leaf)) .leaf)) (.ref (.cut 0 (.cut 1 (.cut 2 .leaf (.ref .leaf)) (.cut 2 (.ref .leaf) .leaf)) (.cut 1 .leaf .leaf))))))))) (.ref (.cut 0 (.cut 1 .out (.cut 2 (.cut 0 (.cut 1 .out (.ref (.cut 2 .leaf .out))) (.cut 1 .out (.cut 2 (.cut 0 (.ref .leaf) (.ref .leaf)) .out))) .out)) (.cut 1 .out (.cut 2 (.cut 0 (.cut 1 .out (.cut 2 (.cut 0 (.cut 1 .out (.ref .leaf)) (.cut 1 .out (.ref .leaf))) .out)) (.cut 1 .out (.cut 2 (.cut 0 (.cut 1 .out (.ref .leaf)) (.cut 1 .out (.ref .leaf))) .out))) .out)))))) (.cut 2 (.ref (.cut 0 (.cut 1 (.cut 2 (.cut 0 (.cut 1 .leaf (.ref (.cut 2 .leaf .leaf))) (.cut 1 (.ref (.cut 2 .leaf .leaf)) .leaf)) (.cut 0 (.cut 1 (.ref .leaf) (.ref (.cut 2 (.cut 0 .out .leaf) (.ref (.cut 0 .out .leaf))))) (.cut 1 (.ref (.cut 2 (.cut 0 .leaf .leaf) (.ref (.cut 0 .leaf .leaf)))) (.cut 2 .leaf .leaf)))) (.ref (.cut 2 (.cut 0 .out (.cut 1 .leaf .out)) (.cut 0 .out (.cut 1 (.cut 2 (.cut 0 .out .leaf) (.ref (.cut 0 .out .leaf))) .out))))) (.cut 1 (.ref (.cut 2 (.cut 0 (.cut 1 (.cut 2 .leaf .leaf) .leaf) (.cut 1 (.cut 2 .leaf (.cut 0 .leaf .leaf)) (.cut 2 .leaf .leaf))) (.cut 0 (.cut 1 (.cut 2 (.cut 0 (.cut 1 .leaf .leaf) (.cut 1 (.cut 2 .leaf .leaf) .leaf)) (.cut 0 (.ref (.cut 1 .leaf .leaf)) (.cut 1 (.ref .leaf) .leaf))) (.cut 2 (.cut 0 .leaf .leaf) (.cut 0 .leaf (.cut 1 .leaf .leaf)))) (.cut 1 (.cut 2 (.cut 0 (.cut 1 (.cut 2 .leaf .leaf) .leaf) (.cut 1 .leaf .leaf)) (.cut 0 (.cut 1 (.ref .leaf) (.cut 2 .leaf (.ref .leaf))) (.cut 1 .leaf (.cut 2 .leaf .leaf)))) (.cut 2 (.cut 0 .leaf .leaf) (.cut 0 (.cut 1 (.cut 2 .leaf .leaf) .leaf) (.cut 1 (.cut 2 .leaf .leaf) .leaf))))))) (.cut 2 (.cut 0 .leaf (.cut 1 (.ref .leaf) .leaf)) (.cut 0 (.cut 1 (.cut 2 .leaf .leaf) (.ref (.cut 2 .leaf (.cut 0 .out .leaf)))) (.cut 1 (.ref (.cut 2 .leaf (.cut 0 .leaf .leaf))) (.cut 2 .leaf .leaf))))))) (.cut 0 (.cut 1 (.ref (.cut 2 (.cut 0 (.ref (.cut 1 (.cut 2 .leaf (.ref .leaf)) (.ref (.cut 2 (.ref .leaf) (.ref .leaf))))) (.cut 1 (.ref (.cut 2 (.ref .leaf) (.ref .leaf))) (.ref (.cut 2 (.ref .leaf) .leaf)))) (.ref (.cut 0 (.cut 1 .out (.cut 2 (.cut 0 .out (.cut 1 .out .out)) .out)) (.cut 1 .out (.cut 2 .leaf .out)))))) (.ref (.cut 2 (.cut 0 .out (.cut 1 (.ref (.cut 2 (.cut 0 .out (.ref .leaf)) .leaf)) .out)) (.ref (.cut 0 .out (.cut 1 (.cut 2 .leaf (.cut 0 .out (.cut 1 .out .out))) .out)))))) (.cut 1 (.ref (.cut 2 (.cut 0 (.ref (.cut 1 (.cut 2 (.cut 0 .leaf (.cut 1 (.cut 2 .leaf (.ref .leaf)) .leaf)) (.ref (.cut 0 .leaf (.cut 1 .out .leaf)))) (.cut 2 (.ref (.cut 0 .leaf (.cut 1 .leaf .leaf))) .leaf))) (.cut 1 (.ref (.cut 2 (.cut 0 (.cut 1 (.cut 2 .leaf (.ref .leaf)) (.cut 2 (.ref .leaf) .leaf)) (.cut 1 (.cut 2 .leaf (.ref .leaf)) (.cut 2 (.ref .leaf) .leaf))) (.ref (.cut 0 (.cut 1 .out .leaf) (.cut 1 .out .leaf))))) (.cut 2 (.ref (.cut 0 (.cut 1 (.ref .leaf) .leaf) (.cut 1 (.ref .leaf) .leaf))) (.ref (.cut 0 (.cut 1 .leaf .leaf) (.cut 1 .leaf (.cut 2 (.ref .leaf) .leaf))))))) (.ref (.cut 0 (.cut 1 .out (.ref (.cut 2 .leaf .out))) (.cut 1 .out (.cut 2 (.cut 0 (.ref .leaf) (.cut 1 .out (.ref .leaf))) .out)))))) (.cut 2 (.ref (.cut 0 (.cut 1 (.cut 2 .leaf (.ref .leaf)) (.ref (.cut 2 (.cut 0 .out (.cut 1 .leaf .out)) (.cut 0 .out (.cut 1 (.ref .leaf) .out))))) (.cut 1 (.ref (.cut 2 (.cut 0 (.cut 1 .leaf .leaf) (.cut 1 .leaf .leaf)) (.cut 0 (.ref .leaf) (.cut 1 (.ref .leaf) .leaf)))) (.cut 2 (.cut 0 .leaf .leaf) (.cut 0 (.ref .leaf) .leaf))))) (.ref (.cut 0 (.ref (.cut 1 (.cut 2 .leaf (.ref (.cut 0 .leaf .leaf))) (.ref (.cut 2 (.cut 0 .out (.ref .leaf)) (.cut 0 .out (.ref .leaf)))))) (.cut 1 (.ref (.cut 2 (.cut 0 (.ref .leaf) (.ref .leaf)) (.ref (.cut 0 .leaf .leaf)))) (.ref (.cut 2 (.ref (.cut 0 .leaf .leaf)) .leaf)))))))))))))
theorem h15 : check par t15 [24576, 24576, 16384] [8192, 8192, 16384] st = true := by decide +kernel
def t16 : Tree := (.ref (.cut 0 (.ref (.cut 1 .out (.ref (.cut 2 (.cut 0 .out (.cut 1 .out .out)) .out)))) (.cut 1 .out (.cut 2 (.cut 0 (.ref (.cut 1 .out (.cut 2 (.cut 0 .out (.cut 1 .out .out)) .out))) (.ref (.cut 1 .out (.cut 2 (.cut 0 (.ref (.cut 1 .out (.cut 2 (.cut 0 .out (.cut 1 .out .out)) .out))) (.cut 1 .out (.ref (.cut 2 (.cut 0 (.cut 1 .out (.cut 2 (.cut 0 .out (.ref .leaf)) .out)) (.cut 1 .out (.cut 2 (.cut 0 .leaf .leaf) .out))) .out)))) .out)))) .out))))
theorem h16 : check par t16 [16384, 16384, 49152] [16384, 16384, 16384] st = true := by decide +kernel
def t17 : Tree := (.ref (.cut 2 (.ref (.cut 0 .out (.cut 1 (.cut 2 (.ref (.cut 0 .out (.cut 1 (.cut 2 (.cut 0 .out .leaf) (.cut 0 .out (.cut 1 (.cut 2 .leaf .leaf) .out))) .out))) (.cut 0 .out (.cut 1 (.cut 2 (.ref (.cut 0 .out (.cut 1 (.cut 2 (.cut 0 .out .leaf) (.cut 0 .out (.cut 1 (.cut 2 .leaf .leaf) .out))) .out))) (.cut 0 .out (.cut 1 (.cut 2 (.ref (.cut 0 .out (.ref (.cut 1 (.cut 2 (.cut 0 .out .leaf) (.cut 0 .out (.cut 1 .leaf .out))) .out)))) (.ref (.cut 0 .out (.cut 1 (.cut 2 (.cut 0 .out (.cut 1 (.ref .leaf) .out)) (.ref (.cut 0 .out .leaf))) .out)))) .out))) .out))) .out))) (.ref (.cut 0 .out (.cut 1 (.cut 2 (.cut 0 .out (.ref (.cut 1 (.cut 2 (.cut 0 .out (.cut 1 (.ref (.cut 2 (.cut 0 .out (.cut 1 (.cut 2 (.cut 0 .out .leaf) (.cut 0 .out .out)) .out)) (.cut 0 .out .out))) .out)) (.ref (.cut 0 .out .out))) .out))) (.ref (.cut 0 .out .out))) .out)))))
theorem h17 : check par t17 [16384, 49152, 32768] [16384, 16384, 32768] st = true := by decide +kernel
end FastNoise.RangeCheck.Simplex3
