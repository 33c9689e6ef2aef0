import Verif.RangeCertSimplex3
/-! Generated by tools/rangecert/gen.py: a certificate for the checker `Verif.RangeCheck`. -/
namespace FastNoise.RangeCheck.Simplex3
set_option maxRecDepth 1000000
def t18 : Tree := (.ref (.cut 2 (.cut 0 (.cut 1 (.cut 2 (.cut 0 (.cut 1 (.cut 2 (.cut 0 (.cut 1 (.ref (.cut 2 .leaf (.cut 0 (.ref .leaf) (.cut 1 .out (.ref .leaf))))) (.ref (.cut 2 (.ref (.cut 0 .leaf (.cut 1 .leaf .leaf))) (.cut 0 (.cut 1 (.ref .leaf) .leaf) (.cut 1 (.ref .leaf) (.ref .leaf)))))) (.ref (.cut 1 (.ref (.cut 2 (.cut 0 .leaf .leaf) (.cut 0 (.cut 1 .out (.ref .leaf)) (.cut 1 .out (.ref .leaf))))) (.cut 2 (.cut 0 (.cut 1 (.ref .leaf) (.ref .leaf)) (.cut 1 (.ref .leaf) (.ref .leaf))) (.ref (.cut 0 (.cut 1 .leaf .leaf) (.cut 1 .leaf .leaf))))))) (.ref (.cut 0 (.cut 1 .out (.cut 2 (.cut 0 (.cut 1 .out (.cut 2 .leaf .out)) (.cut 1 .out (.cut 2 .leaf .out))) .out)) (.cut 1 .out (.cut 2 (.cut 0 (.cut 1 .out (.cut 2 .leaf .out)) (.cut 1 .out (.cut 2 .leaf .out))) .out))))) (.cut 2 (.ref (.cut 0 (.cut 1 (.cut 2 (.cut 0 (.cut 1 (.ref .leaf) (.cut 2 (.ref .leaf) .leaf)) (.ref (.cut 1 .leaf (.cut 2 .leaf .leaf)))) (.cut 0 (.cut 1 (.ref .leaf) (.cut 2 .leaf (.ref .leaf))) (.cut 1 (.ref (.cut 2 (.ref .leaf) .leaf)) (.cut 2 .leaf (.ref .leaf))))) (.cut 2 (.cut 0 (.cut 1 .leaf .leaf) (.cut 1 (.cut 2 (.ref .leaf) .leaf) .leaf)) (.cut 0 (.cut 1 (.cut 2 .leaf .leaf) (.cut 2 .leaf .leaf)) (.cut 1 (.cut 2 .leaf .leaf) (.cut 2 .leaf .leaf))))) (.cut 1 (.cut 2 (.ref (.cut 0 (.cut 1 .leaf (.cut 2 .leaf .leaf)) (.cut 1 .leaf (.cut 2 .leaf .leaf)))) (.cut 0 (.cut 1 (.ref (.cut 2 (.ref .leaf) .leaf)) (.cut 2 .leaf .leaf)) (.cut 1 (.ref (.cut 2 (.ref .leaf) .leaf)) (.cut 2 .leaf .leaf)))) (.cut 2 (.cut 0 (.cut 1 (.cut 2 (.ref .leaf) .leaf) .leaf) (.cut 1 (.cut 2 (.ref .leaf) .leaf) .leaf)) (.cut 0 (.cut 1 (.cut 2 .leaf .leaf) (.cut 2 .leaf .leaf)) (.cut 1 (.cut 2 .leaf .leaf) (.cut 2 .leaf .leaf))))))) (.cut 0 (.cut 1 (.ref (.cut 2 (.cut 0 (.cut 1 (.cut 2 .leaf (.ref .leaf)) (.cut 2 (.ref .leaf) .leaf)) (.cut 1 (.cut 2 .leaf (.ref .leaf)) (.cut 2 (.ref .leaf) .leaf))) (.ref (.cut 0 (.cut 1 .out (.cut 2 .leaf .out)) (.cut 1 .out (.cut 2 .leaf .out)))))) (.cut 2 (.ref (.cut 0 (.cut 1 (.ref (.cut 2 .leaf .leaf)) (.cut 2 .leaf .leaf)) (.cut 1 (.cut 2 .leaf (.ref .leaf)) (.cut 2 .leaf .leaf)))) (.ref (.cut 0 (.cut 1 (.cut 2 .leaf (.ref .leaf)) (.cut 2 (.ref .leaf) .leaf)) (.cut 1 (.cut 2 .leaf (.ref .leaf)) .leaf))))) (.cut 1 (.ref (.cut 2 (.cut 0 (.cut 1 (.cut 2 .leaf (.ref .leaf)) (.cut 2 (.ref .leaf) .leaf)) (.cut 1 (.cut 2 .leaf (.ref .leaf)) (.cut 2 (.ref .leaf) .leaf))) (.ref (.cut 0 (.cut 1 .out .leaf) (.cut 1 .out .leaf))))) (.cut 2 (.ref (.cut 0 (.cut 1 (.cut 2 .leaf (.ref .leaf)) (.cut 2 .leaf .leaf)) (.cut 1 (.cut 2 .leaf .leaf) .leaf))) (.cut 0 (.cut 1 (.ref .leaf) .leaf) (.cut 1 (.ref .leaf) .leaf))))))) (.cut 1 (.cut 2 (.ref (.cut 0 (.cut 1 (.ref (.cut 2 (.cut 0 .leaf .leaf) (.cut 0 (.cut 1 .out (.ref .leaf)) (.cut 1 .out (.ref .leaf))))) (.cut 2 (.cut 0 (.cut 1 (.ref .leaf) (.ref .leaf)) (.cut 1 (.ref .leaf) (.ref .leaf))) (.ref (.cut 0 (.cut 1 .leaf .leaf) (.cut 1 .leaf .leaf))))) (.cut 1 (.ref (.cut 2 .leaf (.cut 0 (.cut 1 .out (.ref .leaf)) (.cut 1 .out (.ref .leaf))))) (.cut 2 (.cut 0 (.cut 1 (.ref .leaf) (.ref .leaf)) (.cut 1 (.ref .leaf) (.ref .leaf))) (.ref (.cut 0 (.cut 1 .leaf .leaf) .leaf)))))) (.ref (.cut 0 (.cut 1 .out (.cut 2 (.cut 0 (.cut 1 .out (.cut 2 (.ref .leaf) .out)) (.cut 1 .out (.cut 2 (.ref .leaf) .out))) .out)) (.cut 1 .out (.cut 2 (.cut 0 (.cut 1 .out (.cut 2 (.ref .leaf) .out)) (.ref (.cut 1 .out (.cut 2 .leaf .out)))) .out))))) (.cut 2 (.ref (.cut 0 (.cut 1 (.cut 2 (.ref (.cut 0 (.cut 1 .leaf (.cut 2 .leaf .leaf)) (.cut 1 .leaf (.cut 2 .leaf .leaf)))) (.cut 0 (.cut 1 (.ref (.cut 2 .leaf (.ref .leaf))) (.cut 2 (.ref .leaf) .leaf)) (.cut 1 (.ref (.cut 2 .leaf (.ref .leaf))) (.cut 2 (.ref .leaf) .leaf)))) (.cut 2 (.cut 0 (.cut 1 (.ref (.cut 2 .leaf .leaf)) (.cut 2 (.ref .leaf) .leaf)) (.cut 1 (.ref (.cut 2 .leaf (.cut 0 .leaf .leaf))) (.cut 2 (.ref .leaf) .leaf))) (.cut 0 (.cut 1 (.cut 2 .leaf .leaf) (.cut 2 .leaf .leaf)) (.cut 1 (.cut 2 .leaf .leaf) (.cut 2 .leaf .leaf))))) (.cut 1 (.cut 2 (.ref (.cut 0 (.cut 1 (.cut 2 .leaf .leaf) (.cut 2 .leaf .leaf)) (.cut 1 (.cut 2 .leaf .leaf) (.cut 2 .leaf (.cut 0 .leaf .leaf))))) (.cut 0 (.cut 1 (.ref (.cut 2 .leaf (.ref .leaf))) (.cut 2 (.ref (.cut 0 .leaf .leaf)) .leaf)) (.ref (.cut 1 .leaf (.cut 2 .leaf .leaf))))) (.cut 2 (.ref (.cut 0 (.cut 1 (.cut 2 (.cut 0 .leaf .leaf) (.cut 0 .leaf .leaf)) (.cut 2 .leaf .leaf)) (.cut 1 (.cut 2 (.cut 0 .leaf .leaf) .leaf) (.cut 2 (.cut 0 .leaf .leaf) (.cut 0 .leaf .leaf))))) (.cut 0 (.cut 1 (.cut 2 (.ref .leaf) .leaf) (.cut 2 .leaf .leaf)) (.cut 1 (.cut 2 (.ref .leaf) .leaf) (.cut 2 .leaf .leaf))))))) (.cut 0 (.cut 1 (.cut 2 (.cut 0 (.ref (.cut 1 (.cut 2 .leaf (.ref .leaf)) (.cut 2 (.ref .leaf) .leaf))) (.cut 1 (.ref (.cut 2 .leaf (.ref .leaf))) .leaf)) (.ref (.cut 0 (.cut 1 .out .leaf) (.cut 1 .out .leaf)))) (.cut 2 (.ref (.cut 0 (.cut 1 (.cut 2 .leaf .leaf) .leaf) (.cut 1 (.cut 2 .leaf .leaf) .leaf))) (.cut 0 .leaf .leaf))) (.cut 1 (.cut 2 (.cut 0 (.cut 1 (.ref .leaf) .leaf) (.cut 1 (.ref .leaf) .leaf)) (.ref (.cut 0 (.cut 1 .out .leaf) (.cut 1 .out .leaf)))) (.cut 2 (.ref (.cut 0 (.cut 1 .leaf .leaf) (.cut 1 .leaf .leaf))) (.cut 0 .leaf .leaf))))))) (.ref (.cut 0 (.ref (.cut 1 .out (.cut 2 (.cut 0 (.cut 1 .out (.cut 2 (.cut 0 (.cut 1 .out .leaf) (.cut 1 .out .leaf)) .out)) (.cut 1 .out (.cut 2 (.cut 0 .leaf .leaf) .out))) .out))) (.cut 1 .out (.cut 2 (.cut 0 (.ref (.cut 1 .out (.cut 2 (.cut 0 .leaf .leaf) .out))) (.ref (.cut 1 .out (.cut 2 (.cut 0 .leaf .leaf) .out)))) .out))))) (.cut 2 (.ref (.cut 0 (.cut 1 (.cut 2 (.cut 0 (.cut 1 (.cut 2 (.cut 0 .leaf .leaf) (.cut 0 (.cut 1 .leaf .leaf) (.cut 1 .leaf .leaf))) (.cut 2 .leaf .leaf)) (.cut 1 (.cut 2 (.cut 0 .leaf .leaf) (.cut 0 (.cut 1 .leaf .leaf) (.cut 1 .leaf .leaf))) (.cut 2 .leaf (.cut 0 .leaf .leaf)))) (.cut 0 (.cut 1 (.cut 2 (.cut 0 (.cut 1 (.cut 2 .leaf .leaf) .leaf) (.cut 1 .leaf .leaf)) (.cut 0 (.cut 1 .leaf .leaf) (.cut 1 .leaf .leaf))) (.cut 2 (.cut 0 .leaf .leaf) (.cut 0 .leaf .leaf))) (.cut 1 (.cut 2 (.cut 0 (.cut 1 .leaf .leaf) (.cut 1 .leaf .leaf)) (.cut 0 .leaf .leaf)) (.cut 2 (.cut 0 .leaf .leaf) (.cut 0 .leaf .leaf))))) (.cut 2 (.cut 0 (.cut 1 .leaf .leaf) (.cut 1 .leaf .leaf)) (.cut 0 (.cut 1 (.cut 2 .leaf .leaf) .leaf) (.cut 1 (.cut 2 .leaf .leaf) .leaf)))) (.cut 1 (.cut 2 (.cut 0 (.cut 1 (.cut 2 (.cut 0 (.cut 1 .leaf .leaf) (.cut 1 .leaf .leaf)) (.cut 0 (.cut 1 .leaf .leaf) (.cut 1 .leaf .leaf))) (.cut 2 .leaf (.cut 0 .leaf .leaf))) (.cut 1 (.cut 2 (.cut 0 (.cut 1 .leaf .leaf) (.cut 1 (.cut 2 (.ref .leaf) .leaf) .leaf)) (.cut 0 (.cut 1 .leaf .leaf) (.cut 1 .leaf .leaf))) (.cut 2 (.cut 0 .leaf .leaf) (.cut 0 .leaf .leaf)))) (.cut 0 (.cut 1 (.cut 2 (.cut 0 (.cut 1 .leaf .leaf) (.cut 1 .leaf .leaf)) (.cut 0 .leaf .leaf)) (.cut 2 (.cut 0 .leaf .leaf) .leaf)) (.cut 1 (.cut 2 (.cut 0 (.cut 1 .leaf .leaf) (.cut 1 .leaf .leaf)) (.cut 0 .leaf .leaf)) (.cut 2 (.cut 0 .leaf .leaf) .leaf)))) (.cut 2 (.cut 0 (.cut 1 .leaf .leaf) (.cut 1 (.cut 2 .leaf .leaf) .leaf)) (.cut 0 (.cut 1 .leaf .leaf) (.cut 1 .leaf .leaf)))))) (.cut 0 (.cut 1 (.cut 2 (.cut 0 (.cut 1 (.cut 2 (.cut 0 .leaf .leaf) (.ref (.cut 0 .leaf .leaf))) (.cut 2 (.ref (.cut 0 .leaf .leaf)) .leaf)) (.cut 1 (.cut 2 (.cut 0 .leaf .leaf) (.ref .leaf)) (.cut 2 (.ref .leaf) .leaf))) (.ref (.cut 0 (.ref (.cut 1 .out (.cut 2 .leaf .out))) (.ref (.cut 1 .out .leaf))))) (.cut 2 (.ref (.cut 0 (.cut 1 (.cut 2 .leaf .leaf) (.cut 2 .leaf .leaf)) (.cut 1 .leaf .leaf))) (.cut 0 (.cut 1 (.cut 2 .leaf (.ref .leaf)) .leaf) (.cut 1 .leaf .leaf)))) (.cut 1 (.cut 2 (.cut 0 (.cut 1 (.cut 2 .leaf (.ref .leaf)) (.cut 2 (.ref .leaf) .leaf)) (.cut 1 (.cut 2 .leaf (.ref .leaf)) (.cut 2 (.ref .leaf) .leaf))) (.ref (.cut 0 (.cut 1 .out .leaf) (.cut 1 .out .leaf)))) (.cut 2 (.ref (.cut 0 (.cut 1 .leaf .leaf) (.cut 1 .leaf .leaf))) (.cut 0 .leaf .leaf)))))) (.cut 1 (.cut 2 (.cut 0 (.cut 1 (.cut 2 (.ref (.cut 0 (.cut 1 (.ref (.cut 2 .leaf (.cut 0 (.ref .leaf) (.ref .leaf)))) (.cut 2 (.cut 0 (.ref .leaf) (.ref .leaf)) (.ref (.cut 0 .leaf .leaf)))) (.cut 1 (.ref (.cut 2 .leaf (.cut 0 (.ref .leaf) (.ref .leaf)))) (.cut 2 (.cut 0 (.ref .leaf) (.ref .leaf)) (.ref .leaf))))) (.ref (.cut 0 (.cut 1 .out (.cut 2 (.ref (.cut 0 (.cut 1 .out (.cut 2 .leaf .out)) (.cut 1 .out .leaf))) .out)) (.cut 1 .out (.cut 2 (.ref (.cut 0 (.cut 1 .out .leaf) (.cut 1 .out .leaf))) .out))))) (.cut 2 (.ref (.cut 0 (.cut 1 (.ref (.cut 2 (.cut 0 (.cut 1 (.cut 2 .leaf .leaf) (.cut 2 .leaf (.cut 0 .leaf .leaf))) (.cut 1 .leaf (.cut 2 .leaf (.cut 0 .leaf .leaf)))) (.cut 0 (.cut 1 .leaf (.cut 2 .leaf .leaf)) (.cut 1 .leaf (.cut 2 .leaf .leaf))))) (.cut 2 (.ref (.cut 0 (.cut 1 (.cut 2 (.cut 0 .leaf .leaf) (.cut 0 .leaf .leaf)) (.cut 2 (.cut 0 .leaf .leaf) (.cut 0 .leaf .leaf))) (.cut 1 (.cut 2 (.cut 0 .leaf .leaf) (.cut 0 .leaf .leaf)) (.cut 2 (.cut 0 .leaf .leaf) (.cut 0 .leaf .leaf))))) (.cut 0 (.cut 1 (.cut 2 (.ref (.cut 0 .leaf .leaf)) .leaf) (.cut 2 (.ref .leaf) .leaf)) (.cut 1 (.ref (.cut 2 (.cut 0 .leaf .leaf) .leaf)) (.cut 2 (.ref .leaf) .leaf))))) (.cut 1 (.ref (.cut 2 (.cut 0 (.cut 1 .leaf (.cut 2 .leaf .leaf)) (.cut 1 .leaf (.cut 2 .leaf .leaf))) (.cut 0 (.cut 1 .leaf .leaf) (.cut 1 .leaf .leaf)))) (.cut 2 (.ref (.cut 0 (.cut 1 (.cut 2 (.cut 0 .leaf .leaf) (.cut 0 .leaf .leaf)) (.cut 2 (.cut 0 .leaf .leaf) (.cut 0 .leaf .leaf))) (.cut 1 (.cut 2 (.cut 0 .leaf .leaf) (.cut 0 .leaf .leaf)) (.cut 2 (.cut 0 .leaf .leaf) (.cut 0 .leaf (.cut 1 .leaf .leaf)))))) (.cut 0 (.cut 1 (.ref (.cut 2 (.cut 0 .leaf .leaf) .leaf)) (.cut 2 (.ref (.cut 0 .leaf .leaf)) .leaf)) (.ref (.cut 1 (.cut 2 .leaf .leaf) (.cut 2 (.cut 0 .leaf .leaf) .leaf)))))))) (.cut 0 (.cut 1 (.cut 2 (.cut 0 .leaf .leaf) (.ref (.cut 0 (.cut 1 .out .leaf) (.cut 1 .out .leaf)))) (.cut 2 (.ref (.cut 0 (.cut 1 .leaf .leaf) (.cut 1 .leaf .leaf))) (.cut 0 .leaf .leaf))) (.cut 1 (.cut 2 (.cut 0 .leaf (.ref .leaf)) (.ref (.cut 0 (.cut 1 .out .leaf) (.cut 1 .out .leaf)))) (.cut 2 (.ref (.cut 0 (.cut 1 .leaf .leaf) (.cut 1 .leaf .leaf))) .leaf))))) (.cut 1 (.ref (.cut 2 (.cut 0 (.cut 1 (.ref (.cut 2 .leaf (.ref .leaf))) (.cut 2 (.ref .leaf) (.ref .leaf))) (.cut 1 (.ref .leaf) .leaf)) (.ref (.cut 0 (.cut 1 .out (.cut 2 (.cut 0 .leaf .leaf) .out)) (.cut 1 .out (.cut 2 .leaf .out)))))) (.cut 2 (.ref (.cut 0 (.cut 1 (.cut 2 (.cut 0 (.cut 1 .leaf .leaf) (.cut 1 .leaf .leaf)) (.cut 0 .leaf .leaf)) (.cut 2 (.cut 0 (.cut 1 (.cut 2 (.cut 0 .leaf .leaf) (.cut 0 .leaf .leaf)) (.cut 2 (.cut 0 (.cut 1 .leaf .leaf) (.cut 1 .leaf .leaf)) (.cut 0 (.cut 1 .leaf .leaf) (.cut 1 .leaf .leaf)))) (.cut 1 (.cut 2 .leaf .leaf) (.cut 2 (.cut 0 (.cut 1 .leaf .leaf) (.cut 1 .leaf .leaf)) (.cut 0 (.cut 1 .leaf .leaf) .leaf)))) (.cut 0 (.cut 1 (.cut 2 .leaf .leaf) (.cut 2 (.cut 0 .leaf .leaf) .leaf)) (.cut 1 .leaf (.cut 2 (.cut 0 .leaf .leaf) .leaf))))) (.cut 1 (.cut 2 (.cut 0 .leaf .leaf) .leaf) (.cut 2 (.cut 0 (.cut 1 .leaf (.cut 2 (.cut 0 .leaf .leaf) (.cut 0 .leaf .leaf))) (.cut 1 .leaf (.cut 2 (.cut 0 .leaf .leaf) .leaf))) (.cut 0 (.cut 1 .leaf (.cut 2 .leaf .leaf)) (.cut 1 .leaf .leaf)))))) (.cut 0 (.cut 1 (.cut 2 (.ref .leaf) (.ref (.cut 0 (.cut 1 .out .leaf) .leaf))) (.cut 2 (.ref (.cut 0 (.cut 1 .leaf .leaf) .leaf)) .leaf)) (.cut 1 (.cut 2 (.ref .leaf) (.ref (.cut 0 .leaf .leaf))) (.cut 2 (.ref (.cut 0 .leaf .leaf)) .leaf)))))) (.ref (.cut 0 (.cut 1 .out (.cut 2 (.cut 0 (.cut 1 .out (.cut 2 (.cut 0 (.ref .leaf) .leaf) .out)) (.cut 1 .out (.cut 2 .leaf .out))) .out)) (.cut 1 .out (.cut 2 (.cut 0 (.cut 1 .out (.cut 2 .leaf .out)) (.cut 1 .out (.cut 2 .leaf .out))) .out))))) (.cut 2 (.ref (.cut 0 (.cut 1 (.cut 2 (.cut 0 (.cut 1 (.cut 2 (.cut 0 (.cut 1 (.ref (.cut 2 .leaf .leaf)) .leaf) (.cut 1 (.ref (.cut 2 (.cut 0 .leaf .leaf) (.cut 0 .leaf .leaf))) (.cut 2 (.ref .leaf) .leaf))) (.cut 0 (.cut 1 (.cut 2 .leaf .leaf) .leaf) (.cut 1 (.cut 2 .leaf .leaf) .leaf))) (.cut 2 (.cut 0 .leaf (.cut 1 .leaf .leaf)) (.cut 0 .leaf .leaf))) (.cut 1 (.cut 2 (.ref (.cut 0 (.cut 1 (.cut 2 (.cut 0 .leaf .leaf) (.cut 0 .leaf .leaf)) (.cut 2 .leaf .leaf)) (.cut 1 (.cut 2 (.cut 0 (.cut 1 .leaf .leaf) (.cut 1 .leaf .leaf)) (.cut 0 .leaf .leaf)) (.cut 2 (.cut 0 .leaf .leaf) (.cut 0 .leaf .leaf))))) (.cut 0 (.cut 1 (.cut 2 (.ref (.cut 0 .leaf .leaf)) .leaf) (.cut 2 .leaf .leaf)) (.cut 1 (.cut 2 (.ref (.cut 0 .leaf .leaf)) .leaf) (.cut 2 (.cut 0 .leaf (.ref .leaf)) .leaf)))) (.cut 2 (.cut 0 (.cut 1 .leaf .leaf) (.cut 1 (.ref (.cut 2 .leaf .leaf)) .leaf)) (.cut 0 (.cut 1 .leaf .leaf) (.cut 1 .leaf .leaf))))) (.cut 0 (.cut 1 (.cut 2 (.cut 0 (.cut 1 .leaf .leaf) (.cut 1 .leaf .leaf)) (.cut 0 .leaf .leaf)) (.cut 2 (.cut 0 .leaf .leaf) .leaf)) (.cut 1 (.cut 2 (.cut 0 (.cut 1 .leaf .leaf) .leaf) .leaf) (.cut 2 (.cut 0 .leaf .leaf) .leaf)))) (.cut 2 (.cut 0 (.cut 1 (.cut 2 .leaf .leaf) .leaf) (.cut 1 (.cut 2 (.cut 0 .leaf .leaf) (.cut 0 .leaf .leaf)) .leaf)) (.cut 0 (.cut 1 (.cut 2 .leaf .leaf) .leaf) (.cut 1 (.cut 2 .leaf .leaf) .leaf)))) (.cut 1 (.cut 2 (.cut 0 (.cut 1 (.cut 2 (.ref (.cut 0 (.cut 1 (.cut 2 (.cut 0 (.cut 1 .leaf .leaf) (.cut 1 .leaf .leaf)) (.cut 0 .leaf (.cut 1 .leaf .leaf))) (.cut 2 (.cut 0 (.cut 1 .leaf .leaf) (.cut 1 .leaf .leaf)) (.cut 0 .leaf (.cut 1 .leaf .leaf)))) (.cut 1 (.cut 2 (.cut 0 (.cut 1 .leaf .leaf) (.cut 1 .leaf .leaf)) (.cut 0 (.cut 1 .leaf .leaf) (.cut 1 .leaf .leaf))) (.cut 2 (.cut 0 (.cut 1 .leaf .leaf) (.cut 1 .leaf .leaf)) (.cut 0 (.cut 1 .leaf .leaf) (.cut 1 .leaf .leaf)))))) (.cut 0 (.cut 1 (.ref (.cut 2 (.cut 0 .leaf .leaf) .leaf)) (.cut 2 (.ref (.cut 0 .leaf .leaf)) .leaf)) (.cut 1 (.ref (.cut 2 (.cut 0 .leaf .leaf) .leaf)) (.cut 2 (.ref (.cut 0 .leaf .leaf)) .leaf)))) (.cut 2 (.cut 0 (.cut 1 (.ref (.cut 2 (.cut 0 .leaf .leaf) (.cut 0 .leaf .leaf))) .leaf) (.ref (.cut 1 (.cut 2 (.cut 0 .leaf (.cut 1 .leaf .leaf)) (.cut 0 .leaf (.cut 1 .leaf .leaf))) (.cut 2 .leaf .leaf)))) (.cut 0 (.cut 1 (.cut 2 .leaf .leaf) .leaf) (.cut 1 (.cut 2 (.ref (.cut 0 .leaf .leaf)) .leaf) (.cut 2 .leaf .leaf))))) (.cut 1 (.ref (.cut 2 (.cut 0 (.cut 1 (.cut 2 (.cut 0 (.cut 1 .leaf (.cut 2 .leaf .leaf)) (.cut 1 .leaf (.cut 2 .leaf .leaf))) (.cut 0 (.cut 1 .leaf .leaf) (.cut 1 .leaf .leaf))) (.cut 2 (.cut 0 (.cut 1 .leaf (.cut 2 .leaf .leaf)) (.cut 1 (.cut 2 .leaf .leaf) (.cut 2 (.cut 0 .leaf .leaf) .leaf))) (.cut 0 (.cut 1 .leaf .leaf) (.cut 1 (.cut 2 .leaf .leaf) .leaf)))) (.cut 1 (.cut 2 (.cut 0 (.cut 1 .leaf .leaf) (.cut 1 .leaf .leaf)) (.cut 0 (.cut 1 .leaf .leaf) .leaf)) (.cut 2 (.cut 0 (.cut 1 (.cut 2 (.cut 0 .leaf .leaf) .leaf) (.cut 2 (.cut 0 .leaf .leaf) (.cut 0 .leaf .leaf))) (.cut 1 (.cut 2 .leaf .leaf) (.cut 2 (.cut 0 .leaf .leaf) (.cut 0 .leaf .leaf)))) (.cut 0 (.cut 1 (.cut 2 .leaf .leaf) (.cut 2 .leaf .leaf)) (.cut 1 .leaf (.cut 2 .leaf .leaf)))))) (.cut 0 (.cut 1 (.cut 2 (.cut 0 .leaf .leaf) .leaf) (.cut 2 (.cut 0 .leaf .leaf) .leaf)) (.cut 1 (.cut 2 (.cut 0 .leaf .leaf) .leaf) (.cut 2 (.cut 0 .leaf .leaf) .leaf))))) (.cut 2 (.ref (.cut 0 (.cut 1 (.cut 2 (.cut 0 (.cut 1 .leaf .leaf) (.cut 1 (.cut 2 .leaf .leaf) .leaf)) (.cut 0 (.cut 1 .leaf .leaf) (.cut 1 (.cut 2 .leaf .leaf) .leaf))) (.cut 2 (.cut 0 .leaf .leaf) (.cut 0 .leaf .leaf))) (.cut 1 (.cut 2 (.cut 0 (.cut 1 (.cut 2 (.cut 0 .leaf .leaf) (.cut 0 .leaf .leaf)) (.cut 2 (.cut 0 .leaf .leaf) .leaf)) (.cut 1 (.cut 2 (.cut 0 .leaf .leaf) (.cut 0 .leaf .leaf)) (.cut 2 (.cut 0 .leaf .leaf) (.cut 0 .leaf .leaf)))) (.cut 0 (.cut 1 (.cut 2 .leaf .leaf) (.cut 2 .leaf .leaf)) (.cut 1 (.cut 2 .leaf .leaf) (.cut 2 .leaf .leaf)))) (.cut 2 (.cut 0 (.cut 1 .leaf .leaf) (.cut 1 (.cut 2 (.cut 0 .leaf .leaf) (.cut 0 .leaf .leaf)) .leaf)) (.cut 0 (.cut 1 .leaf .leaf) (.cut 1 (.cut 2 .leaf .leaf) .leaf)))))) (.cut 0 (.cut 1 (.cut 2 (.ref (.cut 0 .leaf .leaf)) .leaf) (.cut 2 (.cut 0 (.ref .leaf) (.ref .leaf)) .leaf)) (.cut 1 (.ref (.cut 2 (.cut 0 .leaf .leaf) .leaf)) (.cut 2 (.ref (.cut 0 .leaf .leaf)) .leaf)))))) (.cut 0 (.cut 1 (.cut 2 (.cut 0 (.cut 1 .leaf .leaf) (.cut 1 .leaf .leaf)) .leaf) (.cut 2 (.cut 0 (.cut 1 .leaf .leaf) (.cut 1 .leaf .leaf)) .leaf)) (.cut 1 (.cut 2 (.cut 0 (.cut 1 .leaf .leaf) (.cut 1 .leaf .leaf)) .leaf) (.cut 2 (.cut 0 (.cut 1 .leaf .leaf) .leaf) .leaf)))) (.cut 2 (.cut 0 (.cut 1 (.cut 2 (.cut 0 .leaf (.cut 1 .leaf .leaf)) (.cut 0 .leaf (.cut 1 .leaf .leaf))) (.cut 2 .leaf .leaf)) (.cut 1 (.cut 2 (.cut 0 (.cut 1 (.ref .leaf) .leaf) (.ref (.cut 1 (.cut 2 (.cut 0 .leaf .leaf) (.cut 0 .leaf .leaf)) .leaf))) (.cut 0 (.cut 1 .leaf .leaf) (.cut 1 (.cut 2 .leaf .leaf) .leaf))) (.cut 2 (.cut 0 .leaf .leaf) (.cut 0 .leaf .leaf)))) (.cut 0 (.cut 1 (.cut 2 (.cut 0 .leaf .leaf) .leaf) (.cut 2 .leaf .leaf)) (.cut 1 (.cut 2 (.cut 0 .leaf (.cut 1 .leaf .leaf)) .leaf) (.cut 2 (.cut 0 .leaf .leaf) .leaf))))))) (.cut 0 (.cut 1 (.cut 2 (.cut 0 (.cut 1 (.cut 2 .leaf (.ref .leaf)) .leaf) (.cut 1 .leaf .leaf)) (.ref (.cut 0 (.cut 1 .out .leaf) (.cut 1 .out .leaf)))) (.cut 2 (.ref (.cut 0 (.cut 1 .leaf .leaf) (.cut 1 .leaf .leaf))) (.cut 0 .leaf .leaf))) (.cut 1 (.cut 2 (.cut 0 (.cut 1 .leaf .leaf) (.cut 1 .leaf .leaf)) (.ref (.cut 0 (.cut 1 .out .leaf) (.cut 1 .out .leaf)))) (.cut 2 (.ref (.cut 0 (.cut 1 .leaf .leaf) (.cut 1 .leaf .leaf))) (.cut 0 .leaf .leaf))))))) (.ref (.cut 0 (.cut 1 .out (.cut 2 (.cut 0 (.cut 1 .out (.cut 2 (.cut 0 (.ref (.cut 1 .out .leaf)) (.cut 1 .out .leaf)) .out)) (.cut 1 .out (.cut 2 (.cut 0 .leaf .leaf) .out))) .out)) (.cut 1 .out (.cut 2 (.cut 0 (.cut 1 .out (.cut 2 .leaf .out)) (.cut 1 .out (.cut 2 .leaf .out))) .out))))))
theorem h18 : check par t18 [40960, 8192, 16384] [8192, 8192, 16384] st = true := by decide +kernel
def t19 : Tree := (.ref (.cut 2 (.ref (.cut 0 (.cut 1 (.cut 2 (.cut 0 (.cut 1 (.cut 2 (.cut 0 .leaf .leaf) (.cut 0 .leaf .leaf)) (.cut 2 .leaf .leaf)) (.cut 1 (.cut 2 (.cut 0 .leaf .leaf) (.cut 0 .leaf .leaf)) (.cut 2 .leaf .leaf))) (.cut 0 (.cut 1 (.cut 2 (.cut 0 (.cut 1 .leaf .leaf) (.cut 1 .leaf .leaf)) (.cut 0 (.cut 1 .leaf .leaf) (.cut 1 .leaf .leaf))) (.cut 2 (.cut 0 .leaf .leaf) (.cut 0 (.cut 1 .leaf .leaf) .leaf))) (.cut 1 (.cut 2 (.cut 0 .leaf .leaf) (.cut 0 .leaf .leaf)) (.cut 2 .leaf (.cut 0 .leaf .leaf))))) (.cut 2 (.cut 0 (.cut 1 .leaf .leaf) (.cut 1 (.cut 2 .leaf .leaf) .leaf)) (.cut 0 (.cut 1 (.cut 2 .leaf (.cut 0 .leaf .leaf)) (.cut 2 .leaf .leaf)) (.cut 1 (.cut 2 .leaf .leaf) (.cut 2 .leaf .leaf))))) (.cut 1 (.cut 2 (.cut 0 (.cut 1 (.cut 2 (.cut 0 .leaf (.cut 1 .leaf .leaf)) (.cut 0 .leaf .leaf)) (.cut 2 .leaf .leaf)) (.cut 1 (.cut 2 (.cut 0 (.cut 1 .leaf .leaf) (.cut 1 (.cut 2 .leaf .leaf) .leaf)) (.cut 0 (.cut 1 .leaf .leaf) (.cut 1 .leaf .leaf))) (.cut 2 (.cut 0 .leaf (.cut 1 .leaf .leaf)) (.cut 0 .leaf .leaf)))) (.cut 0 (.cut 1 (.cut 2 (.cut 0 .leaf .leaf) (.cut 0 .leaf .leaf)) (.cut 2 .leaf .leaf)) (.cut 1 (.cut 2 (.cut 0 .leaf .leaf) .leaf) (.cut 2 (.cut 0 .leaf .leaf) .leaf)))) (.cut 2 (.cut 0 (.cut 1 (.cut 2 .leaf .leaf) .leaf) (.cut 1 (.cut 2 (.cut 0 .leaf .leaf) .leaf) (.cut 2 .leaf .leaf))) (.cut 0 (.cut 1 (.cut 2 .leaf .leaf) (.cut 2 .leaf .leaf)) (.cut 1 (.cut 2 .leaf .leaf) (.cut 2 .leaf .leaf))))))) (.cut 0 (.cut 1 (.cut 2 (.cut 0 (.cut 1 (.cut 2 (.cut 0 (.cut 1 .leaf .leaf) .leaf) (.ref (.cut 0 (.ref (.cut 1 .out (.cut 2 .leaf .out))) (.cut 1 .out .leaf)))) (.cut 2 (.ref (.cut 0 (.cut 1 (.cut 2 .leaf .leaf) (.cut 2 .leaf .leaf)) (.cut 1 .leaf .leaf))) (.cut 0 (.cut 1 (.cut 2 .leaf (.ref .leaf)) (.cut 2 (.ref .leaf) (.cut 0 .leaf .leaf))) (.cut 1 .leaf .leaf)))) (.cut 1 (.cut 2 (.cut 0 .leaf .leaf) (.ref (.cut 0 .leaf .leaf))) (.cut 2 (.ref (.cut 0 .leaf .leaf)) (.cut 0 .leaf .leaf)))) (.ref (.cut 0 (.cut 1 .out (.cut 2 (.cut 0 (.ref (.cut 1 .out (.cut 2 (.cut 0 .leaf .leaf) .out))) (.ref (.cut 1 .out (.cut 2 .leaf .out)))) .out)) (.cut 1 .out (.cut 2 (.cut 0 .leaf .leaf) .out))))) (.cut 2 (.ref (.cut 0 (.cut 1 (.cut 2 (.cut 0 (.cut 1 (.cut 2 .leaf .leaf) .leaf) (.cut 1 .leaf .leaf)) (.cut 0 (.cut 1 (.cut 2 (.cut 0 .leaf .leaf) (.cut 0 .leaf .leaf)) (.cut 2 .leaf (.cut 0 (.cut 1 .leaf .leaf) .leaf))) (.cut 1 (.cut 2 .leaf .leaf) (.cut 2 .leaf .leaf)))) (.cut 2 (.cut 0 .leaf .leaf) (.cut 0 (.cut 1 (.cut 2 .leaf (.cut 0 .leaf .leaf)) (.cut 2 .leaf .leaf)) (.cut 1 (.cut 2 .leaf .leaf) (.cut 2 .leaf .leaf))))) (.cut 1 (.cut 2 (.cut 0 .leaf .leaf) (.cut 0 (.cut 1 .leaf .leaf) .leaf)) (.cut 2 (.cut 0 .leaf .leaf) (.cut 0 (.cut 1 .leaf .leaf) .leaf))))) (.cut 0 (.cut 1 (.cut 2 (.cut 0 (.cut 1 (.cut 2 (.cut 0 (.ref (.cut 1 .leaf .leaf)) .leaf) (.ref (.cut 0 (.cut 1 .out .leaf) (.cut 1 .out .leaf)))) (.cut 2 (.ref (.cut 0 (.cut 1 .leaf .leaf) (.cut 1 .leaf .leaf))) (.ref (.cut 0 (.cut 1 .leaf .leaf) (.cut 1 .leaf .leaf))))) (.cut 1 (.cut 2 .leaf (.ref (.cut 0 .leaf .leaf))) (.cut 2 (.ref (.cut 0 .leaf .leaf)) (.cut 0 .leaf .leaf)))) (.ref (.cut 0 (.cut 1 .out (.cut 2 (.cut 0 (.cut 1 .out .leaf) (.cut 1 .out .leaf)) .out)) (.cut 1 .out (.cut 2 (.cut 0 (.cut 1 .out .leaf) .leaf) .out))))) (.cut 2 (.ref (.cut 0 (.cut 1 (.cut 2 (.cut 0 (.cut 1 (.cut 2 .leaf .leaf) .leaf) (.cut 1 .leaf .leaf)) (.cut 0 (.cut 1 (.ref .leaf) .leaf) (.cut 1 .leaf .leaf))) (.cut 2 (.cut 0 (.cut 1 .leaf .leaf) (.cut 1 .leaf .leaf)) (.cut 0 (.cut 1 .leaf .leaf) (.cut 1 .leaf .leaf)))) (.cut 1 (.cut 2 (.cut 0 .leaf .leaf) (.cut 0 (.cut 1 .leaf .leaf) .leaf)) (.cut 2 (.cut 0 .leaf .leaf) (.cut 0 (.cut 1 .leaf (.cut 2 .leaf .leaf)) (.cut 1 .leaf .leaf)))))) (.cut 0 (.cut 1 (.ref (.cut 2 (.cut 0 (.cut 1 .leaf .leaf) (.cut 1 .leaf .leaf)) (.ref (.cut 0 (.ref .leaf) (.cut 1 .out .leaf))))) (.cut 2 (.ref (.cut 0 (.ref .leaf) (.cut 1 (.ref .leaf) .leaf))) (.ref (.cut 0 .leaf .leaf)))) (.cut 1 (.cut 2 (.cut 0 (.ref (.cut 1 .leaf .leaf)) (.cut 1 (.ref .leaf) .leaf)) (.ref (.cut 0 (.cut 1 .out .leaf) (.cut 1 .out .leaf)))) (.cut 2 (.ref (.cut 0 (.cut 1 .leaf .leaf) (.cut 1 .leaf .leaf))) (.ref (.cut 0 (.cut 1 .leaf .leaf) (.cut 1 .leaf .leaf)))))))) (.cut 1 (.cut 2 (.cut 0 (.cut 1 .leaf (.cut 2 (.ref .leaf) .leaf)) .leaf) (.ref (.cut 0 (.cut 1 .out (.cut 2 (.ref .leaf) .out)) (.cut 1 .out .leaf)))) (.cut 2 (.ref (.cut 0 (.cut 1 (.cut 2 .leaf .leaf) (.cut 2 .leaf (.cut 0 .leaf .leaf))) (.cut 1 .leaf (.cut 2 .leaf .leaf)))) (.cut 0 (.cut 1 (.cut 2 .leaf (.ref (.cut 0 .leaf .leaf))) (.cut 2 (.ref (.cut 0 .leaf .leaf)) (.cut 0 (.cut 1 (.ref .leaf) .out) .out))) (.cut 1 (.cut 2 .leaf (.ref .leaf)) (.cut 2 (.ref .leaf) .out)))))))) (.cut 1 (.cut 2 (.cut 0 (.cut 1 (.cut 2 .leaf (.ref .leaf)) (.cut 2 (.ref .leaf) .leaf)) (.cut 1 (.cut 2 .leaf (.ref .leaf)) (.cut 2 (.ref .leaf) .leaf))) (.ref (.cut 0 (.cut 1 .out (.cut 2 .leaf .out)) (.cut 1 .out .leaf)))) (.cut 2 (.ref (.cut 0 (.cut 1 (.cut 2 .leaf .leaf) (.cut 2 .leaf .leaf)) (.cut 1 (.cut 2 .leaf .leaf) (.cut 2 .leaf .leaf)))) (.cut 0 (.cut 1 (.cut 2 .leaf (.ref (.cut 0 .leaf .leaf))) (.cut 2 (.ref (.cut 0 .leaf .leaf)) (.cut 0 (.cut 1 .leaf .out) .out))) (.cut 1 (.cut 2 .leaf (.ref .leaf)) (.cut 2 (.ref .leaf) .out))))))))
theorem h19 : check par t19 [40960, 24576, 16384] [8192, 8192, 16384] st = true := by decide +kernel
def t20 : Tree := (.ref (.cut 2 (.cut 0 (.cut 1 (.ref (.cut 2 (.cut 0 .leaf .leaf) (.ref (.cut 0 (.cut 1 .out (.cut 2 .leaf .out)) (.cut 1 .out (.cut 2 .leaf .out)))))) (.cut 2 (.ref (.cut 0 (.cut 1 .leaf (.cut 2 (.cut 0 (.cut 1 .leaf .leaf) .leaf) (.cut 0 .leaf .leaf))) (.cut 1 .leaf (.cut 2 .leaf .leaf)))) (.cut 0 (.cut 1 (.ref (.cut 2 .leaf (.ref .leaf))) (.cut 2 (.ref .leaf) .leaf)) (.ref (.cut 1 .leaf .leaf))))) (.ref (.cut 1 (.cut 2 .leaf (.ref (.cut 0 (.cut 1 .out .leaf) .leaf))) (.cut 2 (.cut 0 (.cut 1 (.ref .leaf) (.ref .leaf)) (.ref .leaf)) (.cut 0 .leaf .leaf))))) (.ref (.cut 0 (.cut 1 .out (.cut 2 (.cut 0 (.cut 1 .out (.cut 2 .leaf .out)) (.cut 1 .out (.cut 2 .leaf .out))) .out)) (.cut 1 .out (.cut 2 (.cut 0 (.cut 1 .out (.cut 2 (.ref .leaf) .out)) (.cut 1 .out .leaf)) .out))))))
theorem h20 : check par t20 [53248, 4096, 8192] [4096, 4096, 8192] st = true := by decide +kernel
def t21 : Tree := (.ref (.cut 2 (.cut 0 (.cut 1 (.ref (.cut 2 (.cut 0 (.cut 1 (.cut 2 (.cut 0 .leaf .leaf) (.cut 0 .leaf .leaf)) (.cut 2 (.cut 0 (.cut 1 (.cut 2 .leaf .leaf) (.cut 2 (.cut 0 .leaf .leaf) (.cut 0 .leaf .leaf))) (.cut 1 .leaf (.cut 2 (.cut 0 .leaf .leaf) .leaf))) (.cut 0 (.cut 1 .leaf (.cut 2 .leaf .leaf)) (.cut 1 .leaf .leaf)))) (.cut 1 (.cut 2 .leaf .leaf) (.cut 2 (.cut 0 (.cut 1 .leaf .leaf) .leaf) (.cut 0 (.cut 1 .leaf .leaf) .leaf)))) (.cut 0 (.cut 1 (.cut 2 .leaf .leaf) (.cut 2 (.cut 0 .leaf .leaf) .leaf)) (.cut 1 .leaf (.cut 2 .leaf .leaf))))) (.cut 2 (.ref (.cut 0 (.cut 1 (.cut 2 (.cut 0 (.cut 1 (.cut 2 (.cut 0 .leaf (.cut 1 .leaf .leaf)) (.cut 0 .leaf (.cut 1 .leaf .leaf))) (.cut 2 (.cut 0 (.cut 1 .leaf .leaf) (.cut 1 .leaf .leaf)) (.cut 0 (.cut 1 .leaf .leaf) (.cut 1 .leaf .leaf)))) (.cut 1 (.cut 2 (.cut 0 (.cut 1 .leaf .leaf) (.cut 1 .leaf .leaf)) (.cut 0 (.cut 1 .leaf .leaf) .leaf)) (.cut 2 (.cut 0 (.cut 1 .leaf .leaf) (.cut 1 .leaf .leaf)) (.cut 0 (.cut 1 .leaf .leaf) (.cut 1 .leaf .leaf))))) (.cut 0 (.cut 1 (.cut 2 (.cut 0 .leaf .leaf) .leaf) (.cut 2 .leaf .leaf)) (.cut 1 (.cut 2 (.cut 0 .leaf .leaf) .leaf) (.cut 2 (.cut 0 .leaf .leaf) .leaf)))) (.cut 2 (.cut 0 (.cut 1 (.cut 2 (.cut 0 .leaf (.cut 1 .leaf .leaf)) (.cut 0 .leaf (.cut 1 .leaf .leaf))) (.cut 2 (.cut 0 .leaf .leaf) .leaf)) (.cut 1 (.cut 2 (.cut 0 (.cut 1 .leaf .leaf) (.cut 1 .leaf .leaf)) (.cut 0 (.cut 1 .leaf .leaf) (.cut 1 .leaf .leaf))) (.cut 2 (.cut 0 .leaf (.cut 1 .leaf .leaf)) (.cut 0 .leaf (.cut 1 .leaf .leaf))))) (.cut 0 (.cut 1 (.cut 2 (.cut 0 .leaf .leaf) .leaf) (.cut 2 .leaf .leaf)) (.cut 1 (.cut 2 (.cut 0 .leaf .leaf) .leaf) (.cut 2 (.cut 0 .leaf .leaf) .leaf))))) (.cut 1 (.cut 2 (.cut 0 (.cut 1 (.cut 2 (.cut 0 .leaf .leaf) (.cut 0 .leaf .leaf)) (.cut 2 (.cut 0 (.cut 1 .leaf (.cut 2 .leaf .leaf)) (.cut 1 .leaf (.cut 2 .leaf .leaf))) (.cut 0 (.cut 1 .leaf .leaf) (.cut 1 .leaf .leaf)))) (.cut 1 (.cut 2 .leaf .leaf) (.cut 2 (.cut 0 (.cut 1 .leaf .leaf) .leaf) (.cut 0 (.cut 1 .leaf .leaf) .leaf)))) (.cut 0 (.cut 1 (.cut 2 .leaf .leaf) (.cut 2 (.cut 0 .leaf .leaf) .leaf)) (.cut 1 .leaf (.cut 2 (.cut 0 .leaf .leaf) .leaf)))) (.cut 2 (.cut 0 (.cut 1 (.cut 2 (.cut 0 (.cut 1 (.cut 2 .leaf .leaf) (.cut 2 (.cut 0 .leaf .leaf) .leaf)) (.cut 1 (.cut 2 .leaf (.cut 0 .leaf .leaf)) (.cut 2 (.cut 0 .leaf .leaf) (.cut 0 .leaf .leaf)))) (.cut 0 (.cut 1 .leaf (.cut 2 .leaf .leaf)) (.cut 1 (.cut 2 .leaf .leaf) (.cut 2 .leaf .leaf)))) (.cut 2 (.cut 0 (.cut 1 (.cut 2 .leaf .leaf) .leaf) (.cut 1 (.cut 2 (.cut 0 .leaf .leaf) (.cut 0 .leaf .leaf)) (.cut 2 (.cut 0 .leaf .leaf) (.cut 0 .leaf .leaf)))) (.cut 0 (.cut 1 (.cut 2 .leaf .leaf) .leaf) (.cut 1 (.cut 2 .leaf .leaf) (.cut 2 .leaf .leaf))))) (.cut 1 (.cut 2 (.cut 0 (.cut 1 (.cut 2 .leaf .leaf) (.cut 2 (.cut 0 .leaf .leaf) (.cut 0 .leaf .leaf))) (.cut 1 .leaf (.cut 2 (.cut 0 .leaf .leaf) (.cut 0 .leaf .leaf)))) (.cut 0 (.cut 1 (.cut 2 .leaf .leaf) (.cut 2 .leaf .leaf)) (.cut 1 .leaf (.cut 2 .leaf .leaf)))) (.cut 2 (.cut 0 (.cut 1 (.cut 2 (.cut 0 .leaf .leaf) (.cut 0 .leaf .leaf)) (.cut 2 (.cut 0 .leaf (.cut 1 .leaf .leaf)) (.cut 0 .leaf (.cut 1 .leaf .leaf)))) (.cut 1 (.cut 2 (.cut 0 (.cut 1 .leaf .leaf) (.cut 1 .leaf .leaf)) (.cut 0 (.cut 1 .leaf .leaf) (.cut 1 .leaf .leaf))) (.cut 2 (.cut 0 (.cut 1 .leaf .leaf) (.cut 1 .leaf .leaf)) (.cut 0 (.cut 1 .leaf .leaf) (.cut 1 .leaf .leaf))))) (.cut 0 (.cut 1 (.cut 2 .leaf .leaf) (.cut 2 (.cut 0 .leaf .leaf) .leaf)) (.cut 1 (.cut 2 (.cut 0 .leaf .leaf) .leaf) (.cut 2 (.cut 0 .leaf .leaf) .leaf)))))) (.cut 0 (.cut 1 (.cut 2 (.cut 0 .leaf .leaf) .leaf) (.cut 2 (.cut 0 .leaf .leaf) .leaf)) (.cut 1 (.cut 2 (.cut 0 .leaf .leaf) .leaf) (.cut 2 (.cut 0 .leaf (.cut 1 .leaf .leaf)) .leaf))))))) (.ref (.cut 0 (.cut 1 (.cut 2 (.cut 0 .leaf (.cut 1 .leaf .leaf)) .leaf) (.cut 2 (.cut 0 .leaf .leaf) .leaf)) (.cut 1 (.cut 2 (.cut 0 .leaf .leaf) .leaf) (.cut 2 (.cut 0 .leaf (.cut 1 .leaf .leaf)) .leaf)))))) (.ref (.cut 1 (.cut 2 (.cut 0 (.cut 1 .leaf (.cut 2 (.cut 0 .leaf .leaf) .leaf)) (.cut 1 .leaf .leaf)) (.cut 0 (.cut 1 .leaf .leaf) .leaf)) (.cut 2 (.cut 0 (.cut 1 (.cut 2 (.cut 0 (.cut 1 .leaf (.cut 2 (.cut 0 .leaf .leaf) .leaf)) (.cut 1 .leaf .leaf)) (.cut 0 (.cut 1 .leaf .leaf) .leaf)) (.cut 2 (.cut 0 (.cut 1 (.cut 2 (.cut 0 (.cut 1 .leaf (.cut 2 .leaf .leaf)) (.cut 1 .leaf .leaf)) (.cut 0 (.cut 1 .leaf .leaf) (.cut 1 .leaf .leaf))) (.cut 2 (.cut 0 (.cut 1 (.cut 2 (.cut 0 (.cut 1 .leaf .leaf) .leaf) (.cut 0 (.cut 1 .leaf .leaf) .leaf)) (.cut 2 (.cut 0 (.cut 1 .leaf .leaf) (.cut 1 .leaf .leaf)) (.cut 0 (.cut 1 .leaf .leaf) (.cut 1 .leaf (.cut 2 .leaf .leaf))))) (.cut 1 (.cut 2 (.cut 0 .leaf .leaf) (.cut 0 .leaf .leaf)) (.cut 2 (.cut 0 (.cut 1 .leaf .leaf) (.cut 1 .leaf .leaf)) (.cut 0 (.cut 1 .leaf .leaf) (.cut 1 .leaf .leaf))))) (.cut 0 (.cut 1 (.cut 2 (.cut 0 .leaf .leaf) .leaf) (.cut 2 (.cut 0 .leaf (.cut 1 .leaf .leaf)) .leaf)) (.cut 1 (.cut 2 .leaf .leaf) (.cut 2 (.cut 0 .leaf .leaf) .leaf))))) (.cut 1 (.cut 2 (.cut 0 .leaf .leaf) (.cut 0 .leaf .leaf)) (.cut 2 (.cut 0 (.cut 1 .leaf (.cut 2 (.cut 0 .leaf .leaf) (.cut 0 .leaf .leaf))) (.cut 1 .leaf .leaf)) (.cut 0 (.cut 1 .leaf (.cut 2 .leaf .leaf)) (.cut 1 .leaf .leaf))))) (.cut 0 (.cut 1 (.cut 2 (.cut 0 .leaf .leaf) .leaf) (.cut 2 (.cut 0 (.cut 1 .leaf .leaf) (.cut 1 .leaf .leaf)) .leaf)) (.cut 1 (.cut 2 .leaf .leaf) (.cut 2 (.cut 0 .leaf .leaf) .leaf))))) (.cut 1 (.cut 2 (.cut 0 .leaf .leaf) (.cut 0 .leaf .leaf)) (.cut 2 (.cut 0 (.cut 1 .leaf (.cut 2 (.cut 0 .leaf .leaf) (.cut 0 .leaf .leaf))) (.cut 1 .leaf .leaf)) (.cut 0 (.cut 1 .leaf (.cut 2 .leaf .leaf)) (.cut 1 .leaf .leaf))))) (.cut 0 (.cut 1 (.cut 2 (.cut 0 .leaf .leaf) .leaf) (.cut 2 (.cut 0 (.cut 1 .leaf .leaf) (.cut 1 .leaf .leaf)) .leaf)) (.cut 1 .leaf (.cut 2 (.cut 0 .leaf .leaf) .leaf))))))) (.cut 0 (.cut 1 (.cut 2 (.cut 0 .leaf (.ref .leaf)) .leaf) (.cut 2 (.cut 0 (.cut 1 .leaf .leaf) (.cut 1 .leaf .leaf)) .leaf)) (.cut 1 (.cut 2 (.ref (.cut 0 .leaf .leaf)) .leaf) (.cut 2 (.cut 0 (.cut 1 (.ref .leaf) .leaf) .leaf) .leaf)))))
theorem h21 : check par t21 [51200, 10240, 4096] [2048, 2048, 4096] st = true := by decide +kernel
def t22 : Tree := (.ref (.cut 1 (.cut 2 (.ref (.cut 0 (.cut 1 (.cut 2 (.cut 0 (.cut 1 .leaf .leaf) (.cut 1 (.cut 2 (.cut 0 .leaf .leaf) .leaf) .leaf)) (.cut 0 (.cut 1 .leaf .leaf) (.cut 1 (.cut 2 .leaf .leaf) .leaf))) (.cut 2 (.cut 0 .leaf .leaf) (.cut 0 .leaf .leaf))) (.cut 1 (.cut 2 (.cut 0 (.cut 1 (.cut 2 (.cut 0 .leaf (.cut 1 .leaf .leaf)) (.cut 0 .leaf (.cut 1 .leaf .leaf))) (.cut 2 .leaf .leaf)) (.cut 1 (.cut 2 (.cut 0 (.cut 1 (.cut 2 (.cut 0 .leaf .leaf) (.cut 0 .leaf .leaf)) .leaf) (.cut 1 (.cut 2 (.cut 0 (.cut 1 .leaf .leaf) (.cut 1 .leaf .leaf)) (.cut 0 (.cut 1 .leaf .leaf) (.cut 1 .leaf .leaf))) (.cut 2 (.cut 0 .leaf .leaf) (.cut 0 .leaf .leaf)))) (.cut 0 (.cut 1 (.cut 2 .leaf .leaf) .leaf) (.cut 1 (.cut 2 (.cut 0 .leaf .leaf) .leaf) (.cut 2 (.cut 0 .leaf .leaf) .leaf)))) (.cut 2 (.cut 0 .leaf (.cut 1 .leaf .leaf)) (.cut 0 .leaf (.cut 1 .leaf .leaf))))) (.cut 0 (.cut 1 (.cut 2 (.cut 0 .leaf .leaf) .leaf) (.cut 2 .leaf .leaf)) (.cut 1 (.cut 2 (.cut 0 (.cut 1 .leaf .leaf) (.cut 1 .leaf .leaf)) .leaf) (.cut 2 (.cut 0 .leaf .leaf) .leaf)))) (.cut 2 (.cut 0 (.cut 1 .leaf .leaf) (.cut 1 (.cut 2 .leaf .leaf) .leaf)) (.cut 0 (.cut 1 .leaf .leaf) (.cut 1 (.cut 2 .leaf .leaf) .leaf)))))) (.cut 0 (.cut 1 (.cut 2 (.ref (.cut 0 .leaf .leaf)) .leaf) (.cut 2 .leaf .leaf)) (.cut 1 (.cut 2 (.ref (.cut 0 (.cut 1 .leaf .leaf) (.cut 1 .leaf .leaf))) .leaf) (.cut 2 (.ref (.cut 0 .leaf .leaf)) .leaf)))) (.cut 2 (.cut 0 (.cut 1 (.ref .leaf) .leaf) (.ref (.cut 1 (.cut 2 (.cut 0 .leaf .leaf) (.cut 0 .leaf .leaf)) .leaf))) (.cut 0 (.cut 1 .leaf .leaf) (.cut 1 (.cut 2 .leaf .leaf) .leaf)))))
theorem h22 : check par t22 [50176, 14336, 2048] [1024, 2048, 2048] st = true := by decide +kernel
def t23 : Tree := (.ref (.cut 1 (.cut 2 (.cut 0 (.cut 1 (.cut 2 (.cut 0 (.cut 1 (.cut 2 (.cut 0 (.cut 1 (.cut 2 .leaf .leaf) (.cut 2 .leaf .leaf)) (.cut 1 (.cut 2 .leaf .leaf) (.cut 2 (.cut 0 .leaf .leaf) .leaf))) (.cut 0 (.cut 1 .leaf (.cut 2 .leaf .leaf)) (.cut 1 (.cut 2 .leaf .leaf) (.cut 2 .leaf .leaf)))) (.cut 2 (.cut 0 (.cut 1 .leaf .leaf) (.cut 1 (.cut 2 .leaf .leaf) .leaf)) (.cut 0 (.cut 1 .leaf .leaf) (.cut 1 (.cut 2 .leaf .leaf) .leaf)))) (.cut 1 (.cut 2 (.cut 0 (.cut 1 (.cut 2 .leaf (.cut 0 .leaf .leaf)) (.cut 2 (.cut 0 .leaf .leaf) (.cut 0 .leaf .leaf))) (.cut 1 (.cut 2 .leaf .leaf) (.cut 2 (.cut 0 .leaf .leaf) (.cut 0 .leaf .leaf)))) (.cut 0 (.cut 1 (.cut 2 .leaf .leaf) (.cut 2 (.cut 0 .leaf .leaf) .leaf)) (.cut 1 (.cut 2 .leaf .leaf) (.cut 2 (.cut 0 .leaf .leaf) .leaf)))) (.cut 2 (.cut 0 (.cut 1 (.cut 2 (.cut 0 .leaf .leaf) (.cut 0 .leaf .leaf)) (.cut 2 (.cut 0 .leaf .leaf) (.cut 0 .leaf .leaf))) (.cut 1 (.cut 2 (.cut 0 .leaf .leaf) (.cut 0 .leaf .leaf)) (.cut 2 (.cut 0 .leaf (.cut 1 .leaf .leaf)) (.cut 0 .leaf (.cut 1 .leaf .leaf))))) (.cut 0 (.cut 1 (.cut 2 (.cut 0 .leaf .leaf) .leaf) (.cut 2 (.cut 0 .leaf .leaf) .leaf)) (.cut 1 (.cut 2 (.cut 0 .leaf .leaf) .leaf) (.cut 2 (.cut 0 .leaf (.cut 1 .leaf .leaf)) (.cut 0 .leaf .leaf))))))) (.cut 0 (.cut 1 (.cut 2 (.cut 0 (.cut 1 .leaf .leaf) (.cut 1 .leaf .leaf)) .leaf) (.cut 2 (.cut 0 .leaf (.cut 1 .leaf .leaf)) .leaf)) (.cut 1 (.cut 2 (.cut 0 (.cut 1 .leaf .leaf) (.cut 1 .leaf .leaf)) .leaf) (.cut 2 (.cut 0 (.cut 1 .leaf .leaf) (.cut 1 .leaf .leaf)) .leaf)))) (.cut 2 (.cut 0 (.cut 1 (.cut 2 (.cut 0 .leaf .leaf) (.cut 0 .leaf .leaf)) .leaf) (.cut 1 (.cut 2 (.cut 0 (.cut 1 .leaf .leaf) (.cut 1 (.cut 2 (.cut 0 .leaf .leaf) (.cut 0 .leaf .leaf)) (.cut 2 .leaf .leaf))) (.cut 0 (.cut 1 .leaf .leaf) (.cut 1 (.cut 2 (.cut 0 .leaf .leaf) .leaf) (.cut 2 .leaf .leaf)))) (.cut 2 (.cut 0 .leaf (.cut 1 .leaf .leaf)) (.cut 0 .leaf (.cut 1 .leaf .leaf))))) (.cut 0 (.cut 1 (.cut 2 (.cut 0 .leaf .leaf) .leaf) .leaf) (.cut 1 (.cut 2 (.cut 0 (.cut 1 .leaf .leaf) (.cut 1 .leaf .leaf)) (.cut 0 .leaf .leaf)) (.cut 2 (.cut 0 .leaf .leaf) .leaf))))) (.cut 1 (.cut 2 (.cut 0 (.cut 1 (.cut 2 (.cut 0 (.cut 1 .leaf (.cut 2 (.cut 0 .leaf .leaf) (.cut 0 .leaf .leaf))) (.cut 1 .leaf .leaf)) (.cut 0 (.cut 1 .leaf (.cut 2 (.cut 0 .leaf .leaf) .leaf)) (.cut 1 .leaf (.cut 2 .leaf .leaf)))) (.cut 2 (.cut 0 (.cut 1 (.cut 2 (.cut 0 (.cut 1 .leaf .leaf) (.cut 1 .leaf .leaf)) (.cut 0 (.cut 1 .leaf .leaf) (.cut 1 .leaf .leaf))) (.cut 2 (.cut 0 (.cut 1 .leaf .leaf) (.cut 1 .leaf .leaf)) (.cut 0 (.cut 1 .leaf .leaf) (.cut 1 .leaf .leaf)))) (.cut 1 (.cut 2 (.cut 0 .leaf .leaf) (.cut 0 (.cut 1 .leaf .leaf) .leaf)) (.cut 2 (.cut 0 (.cut 1 .leaf .leaf) (.cut 1 .leaf .leaf)) (.cut 0 (.cut 1 .leaf .leaf) (.cut 1 .leaf .leaf))))) (.cut 0 (.cut 1 (.cut 2 (.cut 0 (.cut 1 .leaf .leaf) (.cut 1 .leaf .leaf)) (.cut 0 .leaf .leaf)) (.cut 2 (.cut 0 (.cut 1 .leaf .leaf) (.cut 1 .leaf .leaf)) (.cut 0 .leaf .leaf))) (.cut 1 (.cut 2 (.cut 0 (.cut 1 .leaf .leaf) .leaf) (.cut 0 .leaf .leaf)) (.cut 2 (.cut 0 (.cut 1 .leaf .leaf) (.cut 1 .leaf .leaf)) (.cut 0 .leaf .leaf)))))) (.cut 1 (.cut 2 (.cut 0 (.cut 1 .leaf .leaf) .leaf) (.cut 0 (.cut 1 .leaf .leaf) .leaf)) (.cut 2 (.cut 0 (.cut 1 (.cut 2 .leaf .leaf) (.cut 2 (.cut 0 (.cut 1 .leaf .leaf) .leaf) (.cut 0 (.cut 1 .leaf .leaf) (.cut 1 .leaf .leaf)))) (.cut 1 .leaf (.cut 2 (.cut 0 .leaf .leaf) (.cut 0 .leaf .leaf)))) (.cut 0 (.cut 1 (.cut 2 .leaf .leaf) (.cut 2 (.cut 0 (.cut 1 .leaf .leaf) (.cut 1 .leaf .leaf)) (.cut 0 .leaf .leaf))) (.cut 1 .leaf (.cut 2 (.cut 0 .leaf .leaf) .leaf)))))) (.cut 0 (.cut 1 (.cut 2 (.cut 0 (.cut 1 .leaf .leaf) (.cut 1 .leaf .leaf)) .leaf) (.cut 2 (.cut 0 (.cut 1 .leaf .leaf) (.cut 1 .leaf (.cut 2 .leaf .leaf))) (.cut 0 .leaf .leaf))) (.cut 1 (.cut 2 (.cut 0 .leaf .leaf) .leaf) (.cut 2 (.cut 0 (.cut 1 .leaf .leaf) (.cut 1 .leaf .leaf)) (.cut 0 .leaf .leaf))))) (.cut 2 (.cut 0 (.cut 1 (.cut 2 (.cut 0 (.cut 1 (.cut 2 (.cut 0 (.cut 1 .leaf .leaf) (.cut 1 .leaf .leaf)) (.cut 0 (.cut 1 .leaf .leaf) (.cut 1 .leaf .leaf))) (.cut 2 (.cut 0 .leaf .leaf) (.cut 0 .leaf (.cut 1 .leaf .leaf)))) (.cut 1 (.cut 2 (.cut 0 (.cut 1 .leaf (.cut 2 .leaf .leaf)) (.cut 1 .leaf (.cut 2 .leaf .leaf))) (.cut 0 (.cut 1 .leaf (.cut 2 .leaf .leaf)) (.cut 1 (.cut 2 .leaf .leaf) (.cut 2 .leaf .leaf)))) (.cut 2 (.cut 0 (.cut 1 .leaf .leaf) (.cut 1 (.cut 2 .leaf .leaf) .leaf)) (.cut 0 (.cut 1 .leaf .leaf) (.cut 1 (.cut 2 (.cut 0 .leaf .leaf) (.cut 0 .leaf .leaf)) (.cut 2 .leaf .leaf)))))) (.cut 0 (.cut 1 (.cut 2 (.cut 0 (.cut 1 .leaf .leaf) (.cut 1 .leaf .leaf)) (.cut 0 .leaf .leaf)) (.cut 2 (.cut 0 .leaf (.cut 1 .leaf .leaf)) (.cut 0 .leaf .leaf))) (.cut 1 (.cut 2 (.cut 0 (.cut 1 .leaf (.cut 2 .leaf .leaf)) (.cut 1 (.cut 2 .leaf .leaf) (.cut 2 .leaf .leaf))) (.cut 0 .leaf .leaf)) (.cut 2 (.cut 0 (.cut 1 .leaf .leaf) (.cut 1 (.cut 2 (.cut 0 .leaf .leaf) .leaf) (.cut 2 .leaf .leaf))) (.cut 0 .leaf (.cut 1 .leaf .leaf)))))) (.cut 2 (.cut 0 (.cut 1 (.cut 2 .leaf .leaf) .leaf) (.cut 1 (.cut 2 (.cut 0 .leaf (.cut 1 .leaf .leaf)) (.cut 0 .leaf (.cut 1 .leaf .leaf))) (.cut 2 .leaf .leaf))) (.cut 0 (.cut 1 (.cut 2 .leaf .leaf) .leaf) (.cut 1 (.cut 2 (.cut 0 .leaf (.cut 1 .leaf .leaf)) (.cut 0 .leaf .leaf)) (.cut 2 .leaf .leaf))))) (.cut 1 (.cut 2 (.cut 0 (.cut 1 (.cut 2 (.cut 0 (.cut 1 (.cut 2 .leaf .leaf) (.cut 2 .leaf .leaf)) (.cut 1 .leaf (.cut 2 .leaf .leaf))) (.cut 0 (.cut 1 (.cut 2 .leaf .leaf) (.cut 2 (.cut 0 .leaf .leaf) (.cut 0 .leaf .leaf))) (.cut 1 .leaf (.cut 2 (.cut 0 .leaf .leaf) (.cut 0 .leaf .leaf))))) (.cut 2 (.cut 0 (.cut 1 (.cut 2 .leaf (.cut 0 .leaf .leaf)) (.cut 2 .leaf (.cut 0 .leaf .leaf))) (.cut 1 (.cut 2 .leaf (.cut 0 .leaf .leaf)) (.cut 2 .leaf (.cut 0 .leaf .leaf)))) (.cut 0 (.cut 1 (.cut 2 (.cut 0 .leaf .leaf) (.cut 0 .leaf .leaf)) (.cut 2 (.cut 0 .leaf .leaf) (.cut 0 .leaf .leaf))) (.cut 1 (.cut 2 (.cut 0 .leaf (.cut 1 .leaf .leaf)) (.cut 0 .leaf (.cut 1 .leaf .leaf))) (.cut 2 (.cut 0 (.cut 1 .leaf .leaf) (.cut 1 .leaf .leaf)) (.cut 0 (.cut 1 .leaf .leaf) (.cut 1 .leaf .leaf))))))) (.cut 1 (.cut 2 (.cut 0 (.cut 1 .leaf (.cut 2 .leaf .leaf)) (.cut 1 .leaf .leaf)) (.cut 0 (.cut 1 .leaf (.cut 2 .leaf .leaf)) (.cut 1 .leaf .leaf))) (.cut 2 (.cut 0 (.cut 1 (.cut 2 .leaf (.cut 0 .leaf .leaf)) (.cut 2 .leaf (.cut 0 .leaf .leaf))) (.cut 1 (.cut 2 .leaf .leaf) (.cut 2 .leaf (.cut 0 .leaf .leaf)))) (.cut 0 (.cut 1 (.cut 2 (.cut 0 (.cut 1 .leaf .leaf) .leaf) (.cut 0 (.cut 1 .leaf .leaf) .leaf)) (.cut 2 (.cut 0 (.cut 1 .leaf .leaf) (.cut 1 .leaf .leaf)) (.cut 0 (.cut 1 .leaf .leaf) (.cut 1 .leaf .leaf)))) (.cut 1 (.cut 2 (.cut 0 .leaf .leaf) (.cut 0 .leaf .leaf)) (.cut 2 (.cut 0 (.cut 1 .leaf .leaf) (.cut 1 .leaf .leaf)) (.cut 0 (.cut 1 .leaf .leaf) (.cut 1 .leaf .leaf)))))))) (.cut 0 (.cut 1 (.cut 2 (.cut 0 (.cut 1 (.cut 2 .leaf .leaf) (.cut 2 (.cut 0 .leaf .leaf) .leaf)) (.cut 1 .leaf (.cut 2 (.cut 0 .leaf .leaf) .leaf))) (.cut 0 (.cut 1 .leaf .leaf) (.cut 1 .leaf .leaf))) (.cut 2 (.cut 0 (.cut 1 (.cut 2 (.cut 0 .leaf .leaf) .leaf) (.cut 2 (.cut 0 .leaf .leaf) .leaf)) (.cut 1 (.cut 2 (.cut 0 .leaf .leaf) .leaf) (.cut 2 (.cut 0 .leaf .leaf) .leaf))) (.cut 0 (.cut 1 .leaf .leaf) (.cut 1 .leaf .leaf)))) (.cut 1 (.cut 2 (.cut 0 (.cut 1 .leaf (.cut 2 .leaf .leaf)) (.cut 1 .leaf .leaf)) (.cut 0 (.cut 1 .leaf .leaf) .leaf)) (.cut 2 (.cut 0 (.cut 1 (.cut 2 (.cut 0 .leaf .leaf) .leaf) (.cut 2 (.cut 0 (.cut 1 .leaf .leaf) (.cut 1 .leaf .leaf)) (.cut 0 .leaf .leaf))) (.cut 1 (.cut 2 (.cut 0 .leaf .leaf) .leaf) (.cut 2 (.cut 0 (.cut 1 .leaf .leaf) (.cut 1 .leaf .leaf)) (.cut 0 .leaf .leaf)))) (.cut 0 (.cut 1 .leaf .leaf) (.cut 1 .leaf .leaf)))))) (.cut 2 (.cut 0 (.cut 1 (.cut 2 (.cut 0 (.cut 1 (.cut 2 .leaf .leaf) .leaf) (.cut 1 (.cut 2 .leaf (.cut 0 .leaf .leaf)) (.cut 2 .leaf .leaf))) (.cut 0 (.cut 1 (.cut 2 (.cut 0 .leaf .leaf) (.cut 0 .leaf .leaf)) .leaf) (.cut 1 (.cut 2 (.cut 0 .leaf (.cut 1 .leaf .leaf)) (.cut 0 .leaf (.cut 1 .leaf .leaf))) (.cut 2 (.cut 0 .leaf .leaf) (.cut 0 .leaf .leaf))))) (.cut 2 (.cut 0 .leaf (.cut 1 .leaf .leaf)) (.cut 0 .leaf (.cut 1 .leaf .leaf)))) (.cut 1 (.cut 2 (.cut 0 (.cut 1 (.cut 2 .leaf (.cut 0 .leaf .leaf)) (.cut 2 .leaf (.cut 0 .leaf (.cut 1 .leaf .leaf)))) (.cut 1 (.cut 2 .leaf (.cut 0 .leaf (.cut 1 .leaf .leaf))) (.cut 2 .leaf (.cut 0 (.cut 1 .leaf .leaf) (.cut 1 .leaf .leaf))))) (.cut 0 (.cut 1 (.cut 2 (.cut 0 (.cut 1 .leaf .leaf) (.cut 1 .leaf (.cut 2 .leaf .leaf))) (.cut 0 (.cut 1 .leaf .leaf) (.cut 1 .leaf (.cut 2 .leaf .leaf)))) (.cut 2 (.cut 0 (.cut 1 .leaf .leaf) (.cut 1 .leaf .leaf)) (.cut 0 (.cut 1 .leaf .leaf) (.cut 1 .leaf .leaf)))) (.cut 1 (.cut 2 (.cut 0 (.cut 1 (.cut 2 .leaf .leaf) (.cut 2 .leaf .leaf)) (.cut 1 (.cut 2 .leaf .leaf) (.cut 2 .leaf .leaf))) (.cut 0 (.cut 1 (.cut 2 .leaf .leaf) (.cut 2 .leaf .leaf)) (.cut 1 (.cut 2 .leaf .leaf) (.cut 2 (.cut 0 .leaf .leaf) (.cut 0 .leaf .leaf))))) (.cut 2 (.cut 0 (.cut 1 (.cut 2 .leaf (.cut 0 .leaf .leaf)) (.cut 2 .leaf .leaf)) (.cut 1 (.cut 2 .leaf (.cut 0 .leaf .leaf)) (.cut 2 .leaf (.cut 0 .leaf .leaf)))) (.cut 0 (.cut 1 (.cut 2 (.cut 0 .leaf .leaf) (.cut 0 .leaf .leaf)) (.cut 2 .leaf .leaf)) (.cut 1 (.cut 2 (.cut 0 .leaf .leaf) (.cut 0 .leaf .leaf)) (.cut 2 (.cut 0 .leaf .leaf) (.cut 0 .leaf .leaf)))))))) (.cut 2 (.cut 0 (.cut 1 (.cut 2 .leaf .leaf) .leaf) (.cut 1 (.cut 2 .leaf (.cut 0 .leaf (.cut 1 .leaf .leaf))) (.cut 2 .leaf (.cut 0 .leaf .leaf)))) (.cut 0 (.cut 1 (.cut 2 (.cut 0 .leaf .leaf) (.cut 0 .leaf .leaf)) .leaf) (.cut 1 (.cut 2 (.cut 0 (.cut 1 .leaf .leaf) (.cut 1 (.cut 2 .leaf (.cut 0 .leaf .leaf)) .leaf)) (.cut 0 (.cut 1 .leaf .leaf) (.cut 1 (.cut 2 (.cut 0 .leaf .leaf) (.cut 0 .leaf .leaf)) .leaf))) (.cut 2 (.cut 0 .leaf .leaf) (.cut 0 .leaf .leaf))))))) (.cut 0 (.cut 1 (.cut 2 (.cut 0 (.cut 1 (.cut 2 .leaf .leaf) .leaf) (.cut 1 (.cut 2 (.cut 0 .leaf (.cut 1 .leaf .leaf)) (.cut 0 .leaf .leaf)) (.cut 2 (.cut 0 .leaf .leaf) .leaf))) (.cut 0 (.cut 1 .leaf .leaf) (.cut 1 .leaf .leaf))) (.cut 2 (.cut 0 .leaf (.cut 1 .leaf .leaf)) (.cut 0 .leaf .leaf))) (.cut 1 (.cut 2 (.cut 0 (.cut 1 (.cut 2 (.cut 0 (.cut 1 .leaf .leaf) (.cut 1 .leaf .leaf)) (.cut 0 .leaf .leaf)) (.cut 2 (.cut 0 (.cut 1 .leaf .leaf) (.cut 1 .leaf .leaf)) (.cut 0 .leaf .leaf))) (.cut 1 (.cut 2 (.cut 0 (.cut 1 .leaf .leaf) (.cut 1 .leaf (.cut 2 .leaf .leaf))) (.cut 0 .leaf .leaf)) (.cut 2 (.cut 0 (.cut 1 (.cut 2 .leaf .leaf) .leaf) (.cut 1 (.cut 2 .leaf .leaf) (.cut 2 (.cut 0 .leaf .leaf) .leaf))) (.cut 0 .leaf .leaf)))) (.cut 0 (.cut 1 .leaf .leaf) (.cut 1 .leaf .leaf))) (.cut 2 (.cut 0 (.cut 1 (.cut 2 (.cut 0 .leaf .leaf) .leaf) .leaf) (.cut 1 (.cut 2 (.cut 0 (.cut 1 .leaf .leaf) (.cut 1 (.cut 2 .leaf .leaf) .leaf)) (.cut 0 .leaf .leaf)) (.cut 2 (.cut 0 .leaf .leaf) .leaf))) (.cut 0 (.cut 1 .leaf .leaf) (.cut 1 .leaf .leaf)))))))) (.cut 0 (.cut 1 (.cut 2 (.cut 0 (.cut 1 .leaf .leaf) (.cut 1 .leaf (.cut 2 .leaf .leaf))) (.cut 0 .leaf .leaf)) (.cut 2 (.cut 0 (.cut 1 .leaf .leaf) (.cut 1 .leaf .leaf)) (.cut 0 .leaf .leaf))) (.cut 1 (.cut 2 (.cut 0 (.cut 1 (.cut 2 .leaf .leaf) (.cut 2 .leaf .leaf)) (.cut 1 (.cut 2 .leaf .leaf) (.cut 2 .leaf .leaf))) (.cut 0 .leaf .leaf)) (.cut 2 (.cut 0 (.cut 1 (.cut 2 .leaf .leaf) (.cut 2 .leaf .leaf)) (.cut 1 (.cut 2 .leaf .leaf) (.cut 2 (.cut 0 .leaf .leaf) .leaf))) (.cut 0 .leaf .leaf))))))) (.cut 0 (.cut 1 (.cut 2 (.cut 0 (.cut 1 .leaf .leaf) (.cut 1 .leaf .leaf)) .leaf) (.cut 2 (.cut 0 (.cut 1 .leaf .leaf) (.cut 1 .leaf .leaf)) .leaf)) (.cut 1 (.cut 2 (.cut 0 (.cut 1 .leaf .leaf) (.cut 1 .leaf .leaf)) .leaf) (.cut 2 (.cut 0 (.cut 1 .leaf .leaf) (.cut 1 .leaf .leaf)) .leaf)))) (.cut 2 (.cut 0 (.cut 1 (.cut 2 (.cut 0 .leaf (.cut 1 .leaf .leaf)) (.cut 0 .leaf (.cut 1 .leaf .leaf))) (.cut 2 .leaf .leaf)) (.cut 1 (.cut 2 (.cut 0 (.cut 1 (.cut 2 (.cut 0 .leaf (.cut 1 .leaf .leaf)) (.cut 0 .leaf (.cut 1 .leaf .leaf))) .leaf) (.cut 1 (.cut 2 (.cut 0 (.cut 1 (.cut 2 .leaf .leaf) .leaf) (.cut 1 (.cut 2 (.cut 0 .leaf (.cut 1 .leaf .leaf)) (.cut 0 .leaf (.cut 1 .leaf .leaf))) (.cut 2 .leaf .leaf))) (.cut 0 (.cut 1 (.cut 2 .leaf .leaf) .leaf) (.cut 1 (.cut 2 (.cut 0 .leaf (.cut 1 .leaf .leaf)) (.cut 0 .leaf (.cut 1 .leaf .leaf))) (.cut 2 .leaf .leaf)))) (.cut 2 (.cut 0 .leaf (.cut 1 .leaf .leaf)) (.cut 0 .leaf (.cut 1 .leaf .leaf))))) (.cut 0 (.cut 1 (.cut 2 (.cut 0 .leaf .leaf) .leaf) .leaf) (.cut 1 (.cut 2 (.cut 0 (.cut 1 .leaf .leaf) (.cut 1 (.cut 2 .leaf .leaf) .leaf)) (.cut 0 .leaf .leaf)) (.cut 2 (.cut 0 .leaf .leaf) .leaf)))) (.cut 2 (.cut 0 .leaf (.cut 1 .leaf .leaf)) (.cut 0 .leaf (.cut 1 .leaf .leaf))))) (.cut 0 (.cut 1 (.cut 2 (.cut 0 .leaf .leaf) .leaf) (.cut 2 .leaf .leaf)) (.cut 1 (.cut 2 (.cut 0 (.cut 1 .leaf .leaf) (.cut 1 .leaf .leaf)) .leaf) (.cut 2 (.cut 0 .leaf .leaf) .leaf))))))
theorem h23 : check par t23 [51712, 13312, 1024] [512, 1024, 1024] st = true := by decide +kernel
end FastNoise.RangeCheck.Simplex3
