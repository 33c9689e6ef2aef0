import Verif.RangeCertSimplex4
/-! Generated by tools/rangecert/gen.py: a certificate for the checker `Verif.RangeCheck`. -/
namespace FastNoise.RangeCheck.Simplex4
set_option maxRecDepth 1000000
def t51 : Tree := (.ref (.cut 3 (.ref (.cut 0 (.ref (.cut 1 (.ref (.cut 2 (.ref (.cut 3 (.ref (.cut 0 (.ref (.cut 1 (.ref (.cut 2 (.ref (.cut 3 (.cut 0 (.cut 1 .leaf (.ref .leaf)) (.cut 1 (.ref .leaf) .leaf)) (.cut 0 (.cut 1 (.ref (.cut 2 (.ref .leaf) (.ref .leaf))) (.ref (.cut 2 (.ref .leaf) (.ref .leaf)))) (.cut 1 (.ref (.cut 2 (.ref .leaf) (.ref .leaf))) .leaf)))) (.ref (.cut 3 (.ref (.cut 0 (.cut 1 .out (.ref .leaf)) (.cut 1 .out (.ref (.cut 2 .leaf .out))))) (.ref (.cut 0 (.cut 1 .out .leaf) (.cut 1 .out .leaf))))))) (.ref (.cut 2 (.ref (.cut 3 (.ref (.cut 0 .out (.cut 1 (.cut 2 (.ref .leaf) (.ref .leaf)) .out))) (.ref (.cut 0 .out (.cut 1 .leaf .out))))) (.ref (.cut 3 (.cut 0 .out (.cut 1 (.ref (.cut 2 .leaf (.ref (.cut 3 .leaf (.ref .leaf))))) .out)) (.cut 0 .out (.cut 1 (.ref .leaf) .out)))))))) (.cut 1 (.ref (.cut 2 (.ref (.cut 3 (.cut 0 (.cut 1 (.ref .leaf) (.cut 2 (.ref .leaf) (.ref .leaf))) (.cut 1 (.cut 2 (.ref .leaf) (.ref .leaf)) (.cut 2 (.ref .leaf) (.ref (.cut 3 .leaf (.ref .leaf)))))) (.ref (.cut 0 (.cut 1 .leaf .leaf) (.cut 1 .leaf .leaf))))) (.cut 3 (.cut 0 (.ref (.cut 1 .out (.ref (.cut 2 .leaf .out)))) (.ref (.cut 1 .out (.cut 2 (.ref (.cut 3 .leaf (.ref .leaf))) .out)))) (.ref (.cut 0 (.ref (.cut 1 .out .leaf)) (.ref (.cut 1 .out (.cut 2 (.ref .leaf) .out)))))))) (.ref (.cut 2 (.ref (.cut 3 (.cut 0 (.ref (.cut 1 (.cut 2 (.ref .leaf) (.ref .leaf)) (.ref (.cut 2 .leaf (.ref (.cut 3 .leaf (.ref .leaf))))))) (.cut 1 (.ref (.cut 2 .leaf (.ref (.cut 3 .leaf (.ref .leaf))))) (.cut 2 (.cut 3 (.ref .leaf) (.ref .leaf)) (.ref (.cut 3 .leaf (.ref .leaf)))))) (.cut 0 (.ref (.cut 1 .leaf (.ref (.cut 2 .leaf .leaf)))) (.ref (.cut 1 (.ref (.cut 2 .leaf .leaf)) (.cut 2 .leaf .out)))))) (.cut 3 (.cut 0 (.ref (.cut 1 (.ref (.cut 2 (.cut 3 .leaf .leaf) (.ref (.cut 3 .leaf .leaf)))) (.ref (.cut 2 (.ref (.cut 3 .leaf .leaf)) (.ref (.cut 3 .leaf .out)))))) (.cut 1 (.ref (.cut 2 (.ref (.cut 3 (.ref .leaf) .leaf)) (.ref (.cut 3 .leaf .out)))) (.ref (.cut 2 (.ref (.cut 3 .leaf .out)) .out)))) (.ref (.cut 0 (.ref (.cut 1 (.ref (.cut 2 .leaf .out)) .out)) .out)))))))) (.ref (.cut 0 (.ref (.cut 1 (.ref (.cut 2 (.cut 3 (.ref (.cut 0 (.ref (.cut 1 (.cut 2 (.cut 3 .leaf (.cut 0 .leaf .leaf)) (.ref (.cut 3 .leaf .leaf))) (.ref (.cut 2 (.ref (.cut 3 .leaf .leaf)) (.cut 3 .leaf .leaf))))) (.cut 1 (.ref (.cut 2 (.ref (.cut 3 .leaf .leaf)) (.cut 3 .leaf .leaf))) (.cut 2 (.ref (.cut 3 .leaf (.ref .leaf))) (.ref (.cut 3 .leaf .leaf)))))) (.ref (.cut 0 (.ref (.cut 1 (.cut 2 (.cut 3 (.cut 0 (.cut 1 (.cut 2 .leaf (.ref .leaf)) (.ref (.cut 2 (.ref .leaf) .leaf))) (.cut 1 (.ref (.cut 2 (.ref .leaf) .leaf)) .leaf)) (.ref (.cut 0 (.cut 1 (.cut 2 .leaf (.ref .leaf)) (.cut 2 (.ref .leaf) (.ref .leaf))) (.cut 1 (.cut 2 (.ref .leaf) (.ref .leaf)) (.cut 2 (.ref .leaf) .out))))) (.ref (.cut 3 (.cut 0 (.cut 1 .out .leaf) (.cut 1 .out .leaf)) (.cut 0 (.cut 1 .out .out) .out)))) (.ref (.cut 2 (.ref (.cut 3 (.cut 0 .out (.cut 1 .leaf .out)) (.cut 0 .out .out))) (.cut 3 (.cut 0 .out .out) .out))))) (.cut 1 (.ref (.cut 2 (.ref (.cut 3 (.cut 0 (.ref (.cut 1 .leaf .leaf)) .leaf) (.cut 0 (.ref (.cut 1 (.ref (.cut 2 .leaf .out)) .out)) .out))) (.ref (.cut 3 (.cut 0 .leaf .out) .out)))) (.ref (.cut 2 (.ref (.cut 3 (.cut 0 .leaf .out) .out)) .out)))))) (.ref (.cut 3 (.ref (.cut 0 (.cut 1 .out (.cut 2 (.cut 3 .leaf .leaf) .out)) (.cut 1 .out (.cut 2 (.cut 3 .leaf .out) .out)))) (.ref (.cut 0 (.cut 1 .out .out) .out)))))) (.ref (.cut 2 (.ref (.cut 3 (.ref (.cut 0 .out (.cut 1 (.cut 2 (.cut 3 (.ref .leaf) .leaf) (.ref (.cut 3 .leaf .out))) .out))) (.ref (.cut 0 .out .out)))) (.ref (.cut 3 (.ref (.cut 0 .out .out)) .out)))))) (.cut 1 (.ref (.cut 2 (.ref (.cut 3 (.cut 0 (.cut 1 (.cut 2 (.cut 3 (.ref .leaf) (.ref .leaf)) (.ref (.cut 3 .leaf .leaf))) (.cut 2 (.cut 3 (.ref .leaf) .leaf) (.ref (.cut 3 .leaf .out)))) (.cut 1 (.cut 2 .leaf (.ref .leaf)) (.cut 2 .leaf .out))) (.cut 0 (.cut 1 (.ref (.cut 2 (.cut 3 .leaf .out) .out)) .out) .out))) (.cut 3 (.ref (.cut 0 (.cut 1 .out .out) .out)) .out))) (.ref (.cut 2 (.ref (.cut 3 (.cut 0 (.cut 1 (.cut 2 (.ref .leaf) .out) .out) .out) .out)) .out))))))) (.ref (.cut 3 (.ref (.cut 0 (.ref (.cut 1 .out (.ref (.cut 2 (.cut 3 (.cut 0 .out (.cut 1 .out .out)) (.ref (.cut 0 .out .out))) .out)))) (.ref (.cut 1 .out (.ref (.cut 2 (.ref (.cut 3 (.cut 0 (.cut 1 .out .out) .out) .out)) .out)))))) (.ref (.cut 0 (.ref (.cut 1 .out .out)) .out)))))) (.ref (.cut 2 (.ref (.cut 3 (.cut 0 .out (.ref (.cut 1 (.cut 2 (.ref (.cut 3 (.ref (.cut 0 .out (.cut 1 (.cut 2 (.cut 3 (.ref .leaf) (.ref .leaf)) (.cut 3 .leaf .out)) .out))) (.ref (.cut 0 .out .out)))) (.ref (.cut 3 (.cut 0 .out .out) .out))) .out))) (.ref (.cut 0 .out .out)))) (.ref (.cut 3 (.ref (.cut 0 .out .out)) .out)))))) (.ref (.cut 1 (.ref (.cut 2 (.ref (.cut 3 (.cut 0 (.cut 1 (.ref (.cut 2 (.ref (.cut 3 (.cut 0 (.cut 1 (.ref (.cut 2 (.ref .leaf) (.ref .leaf))) (.ref (.cut 2 .leaf (.ref (.cut 3 .leaf .leaf))))) (.cut 1 (.cut 2 (.ref .leaf) (.ref .leaf)) (.cut 2 (.ref .leaf) (.cut 3 (.ref .leaf) (.ref .leaf))))) (.ref (.cut 0 (.ref (.cut 1 .leaf (.cut 2 .leaf .leaf))) (.cut 1 (.ref .leaf) (.cut 2 (.ref .leaf) .out)))))) (.ref (.cut 3 (.cut 0 (.cut 1 .out (.cut 2 (.ref (.cut 3 .leaf (.ref .leaf))) .out)) (.ref (.cut 1 .out (.cut 2 (.cut 3 .leaf .out) .out)))) (.ref (.cut 0 (.cut 1 .out .out) .out)))))) (.ref (.cut 2 (.ref (.cut 3 (.cut 0 (.cut 1 (.ref (.cut 2 (.cut 3 .leaf .leaf) (.cut 3 .leaf (.ref .leaf)))) (.cut 2 (.ref (.cut 3 .leaf .leaf)) (.cut 3 (.ref .leaf) .out))) (.ref (.cut 1 (.cut 2 (.cut 3 .leaf .leaf) (.cut 3 .leaf .out)) (.cut 2 (.cut 3 (.ref .leaf) .out) .out)))) (.ref (.cut 0 (.cut 1 (.cut 2 .leaf .out) .out) .out)))) (.cut 3 (.ref (.cut 0 (.ref (.cut 1 (.cut 2 (.ref (.cut 3 (.cut 0 (.ref .leaf) .out) .out)) .out) .out)) .out)) .out)))) (.ref (.cut 1 (.ref (.cut 2 (.cut 3 (.cut 0 (.cut 1 (.cut 2 .leaf (.ref .leaf)) (.cut 2 (.ref .leaf) (.cut 3 (.ref .leaf) .out))) (.cut 1 (.cut 2 .leaf (.ref .leaf)) (.cut 2 (.ref .leaf) .out))) (.ref (.cut 0 (.cut 1 .leaf .out) .out))) (.ref (.cut 3 (.cut 0 (.cut 1 .out .out) .out) .out)))) (.ref (.cut 2 (.ref (.cut 3 (.cut 0 (.cut 1 (.cut 2 (.cut 3 (.ref .leaf) .out) .out) .out) .out) .out)) .out))))) (.ref (.cut 0 (.cut 1 (.ref (.cut 2 (.cut 3 (.cut 0 (.cut 1 (.cut 2 (.ref .leaf) .out) .out) .out) .out) .out)) .out) .out)))) (.ref (.cut 3 (.ref (.cut 0 (.ref (.cut 1 .out .out)) .out)) .out)))) (.cut 2 (.ref (.cut 3 (.cut 0 (.ref (.cut 1 (.cut 2 (.ref (.cut 3 (.ref (.cut 0 (.cut 1 (.cut 2 (.cut 3 (.ref .leaf) .out) .out) .out) .out)) .out)) .out) .out)) .out) .out)) .out))))) (.ref (.cut 0 (.ref (.cut 1 (.ref (.cut 2 (.ref (.cut 3 (.ref (.cut 0 (.ref (.cut 1 (.ref (.cut 2 (.cut 3 (.ref (.cut 0 (.ref (.cut 1 (.cut 2 (.cut 3 (.cut 0 (.cut 1 (.cut 2 .leaf .out) .out) .out) .out) .out) .out)) .out)) .out) .out)) .out)) .out)) .out)) .out)) .out)) .out))))
theorem h51 : check par t51 [49152, 49152, 49152, 32768] [16384, 16384, 16384, 32768] st = true := by decide +kernel
end FastNoise.RangeCheck.Simplex4
