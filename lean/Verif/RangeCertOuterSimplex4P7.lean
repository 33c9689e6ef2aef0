import Verif.RangeCertOuterSimplex4
/-! Generated by tools/rangecert/gen.py: a certificate for the checker `Verif.RangeCheck`. -/
namespace FastNoise.RangeCheck.OuterSimplex4
set_option maxRecDepth 1000000
def t627 : Tree := (.ref (.cut 0 (.ref (.cut 1 (.cut 2 (.cut 3 (.cut 0 .leaf .leaf) (.ref (.cut 0 (.cut 1 .leaf .leaf) (.cut 1 .leaf .leaf)))) (.ref (.cut 3 (.ref (.cut 0 .leaf (.cut 1 .out .leaf))) (.ref (.cut 0 (.cut 1 .out .leaf) (.cut 1 .out .leaf)))))) (.ref (.cut 2 (.ref (.cut 3 (.ref (.cut 0 .out (.cut 1 .leaf .out))) (.ref (.cut 0 .out (.cut 1 .leaf .out))))) (.ref (.cut 3 (.cut 0 .out (.cut 1 .leaf .out)) (.cut 0 .out (.cut 1 .leaf .out)))))))) (.cut 1 (.ref (.cut 2 (.ref (.cut 3 (.cut 0 .leaf (.cut 1 .leaf .leaf)) (.cut 0 (.cut 1 .leaf .leaf) (.cut 1 .leaf .leaf)))) (.ref (.cut 3 (.cut 0 (.ref (.cut 1 .out .leaf)) (.cut 1 .out (.cut 2 .leaf .out))) (.cut 0 (.ref (.cut 1 .out .leaf)) (.cut 1 .out .leaf)))))) (.cut 2 (.ref (.cut 3 (.cut 0 (.cut 1 (.cut 2 .leaf .leaf) (.ref (.cut 2 .leaf .leaf))) (.cut 1 (.ref (.cut 2 .leaf .leaf)) (.cut 2 .leaf (.ref (.cut 3 .leaf .leaf))))) (.cut 0 (.cut 1 .leaf (.ref (.cut 2 .leaf .leaf))) (.cut 1 (.ref (.cut 2 .leaf .leaf)) (.cut 2 .leaf .out))))) (.cut 3 (.cut 0 (.ref (.cut 1 (.cut 2 .leaf .leaf) (.ref (.cut 2 .leaf .leaf)))) (.cut 1 (.ref (.cut 2 .leaf .leaf)) (.ref (.cut 2 .leaf .out)))) (.ref (.cut 0 (.ref (.cut 1 .leaf .out)) .out)))))))
theorem h627 : check par t627 [40960, 40960, 40960, 8192] [8192, 8192, 8192, 8192] st = true := by decide +kernel
def t628 : Tree := (.ref (.cut 0 (.cut 1 (.cut 2 (.cut 3 (.cut 0 (.ref (.cut 1 (.cut 2 (.cut 3 .leaf .leaf) (.ref (.cut 3 .leaf .leaf))) (.ref (.cut 2 (.cut 3 .leaf .leaf) (.cut 3 .leaf .leaf))))) (.cut 1 (.ref (.cut 2 (.cut 3 .leaf .leaf) (.ref (.cut 3 .leaf .leaf)))) (.cut 2 (.ref (.cut 3 .leaf .leaf)) (.ref (.cut 3 .leaf .leaf))))) (.ref (.cut 0 (.ref (.cut 1 (.cut 2 (.cut 3 .leaf .leaf) (.ref (.cut 3 .leaf .leaf))) (.ref (.cut 2 (.cut 3 .leaf .leaf) (.cut 3 .leaf .out))))) (.cut 1 (.ref (.cut 2 (.cut 3 .leaf .leaf) (.ref (.cut 3 .leaf .out)))) (.ref (.cut 2 (.ref (.cut 3 .leaf .out)) .out)))))) (.ref (.cut 3 (.ref (.cut 0 (.cut 1 .out (.cut 2 (.cut 3 .leaf .leaf) .out)) (.cut 1 .out (.cut 2 .leaf .out)))) (.ref (.cut 0 (.cut 1 .out .out) .out))))) (.ref (.cut 2 (.ref (.cut 3 (.ref (.cut 0 .out (.cut 1 (.cut 2 (.cut 3 .leaf .leaf) .leaf) .out))) (.ref (.cut 0 .out .out)))) (.ref (.cut 3 (.ref (.cut 0 .out .out)) .out))))) (.cut 1 (.ref (.cut 2 (.cut 3 (.cut 0 (.cut 1 (.cut 2 (.cut 3 .leaf .leaf) (.ref (.cut 3 .leaf .leaf))) (.cut 2 (.ref (.cut 3 .leaf .leaf)) .leaf)) (.cut 1 (.cut 2 .leaf .leaf) (.cut 2 .leaf .out))) (.cut 0 (.cut 1 (.ref (.cut 2 (.cut 3 .leaf .out) .out)) .out) .out)) (.ref (.cut 3 (.ref (.cut 0 (.cut 1 .out .out) .out)) .out)))) (.cut 2 (.ref (.cut 3 (.cut 0 (.cut 1 (.cut 2 .leaf .out) .out) .out) .out)) .out))))
theorem h628 : check par t628 [40960, 40960, 40960, 24576] [8192, 8192, 8192, 8192] st = true := by decide +kernel
def t629 : Tree := (.ref (.cut 3 (.cut 0 (.ref (.cut 1 .out (.cut 2 (.cut 3 (.cut 0 .out (.cut 1 .out .out)) (.cut 0 .out .out)) .out))) (.cut 1 .out (.ref (.cut 2 (.cut 3 (.cut 0 (.ref (.cut 1 .out .out)) .out) .out) .out)))) (.ref (.cut 0 (.ref (.cut 1 .out .out)) .out))))
theorem h629 : check par t629 [40960, 40960, 57344, 16384] [8192, 8192, 8192, 16384] st = true := by decide +kernel
def t630 : Tree := (.ref (.cut 2 (.ref (.cut 3 (.cut 0 .out (.ref (.cut 1 (.cut 2 (.cut 3 (.ref (.cut 0 .out (.cut 1 (.cut 2 (.cut 3 .leaf .leaf) (.cut 3 .leaf .out)) .out))) (.cut 0 .out .out)) (.ref (.cut 3 (.cut 0 .out .out) .out))) .out))) (.ref (.cut 0 .out .out)))) (.ref (.cut 3 (.cut 0 .out .out) .out))))
theorem h630 : check par t630 [40960, 57344, 49152, 16384] [8192, 8192, 16384, 16384] st = true := by decide +kernel
def t631 : Tree := (.ref (.cut 1 (.ref (.cut 2 (.ref (.cut 3 (.cut 0 (.cut 1 (.cut 2 (.cut 3 (.cut 0 (.cut 1 .leaf (.cut 2 .leaf .leaf)) (.cut 1 .leaf (.cut 2 .leaf .leaf))) (.cut 0 (.cut 1 .leaf .leaf) (.cut 1 .leaf .leaf))) (.ref (.cut 3 (.cut 0 (.cut 1 .out (.cut 2 .leaf .out)) (.cut 1 .out (.cut 2 .leaf .out))) (.cut 0 (.cut 1 .out .out) .out)))) (.cut 2 (.ref (.cut 3 (.cut 0 (.cut 1 (.cut 2 .leaf .leaf) (.cut 2 (.cut 3 .leaf .leaf) (.cut 3 .leaf .out))) (.cut 1 (.cut 2 .leaf .leaf) (.cut 2 (.cut 3 .leaf .out) .out))) (.cut 0 (.cut 1 (.cut 2 .leaf .out) .out) .out))) (.cut 3 (.cut 0 (.cut 1 (.cut 2 .leaf .out) .out) .out) .out))) (.cut 1 (.cut 2 (.cut 3 (.cut 0 (.cut 1 .leaf (.cut 2 .leaf .leaf)) (.cut 1 .leaf .leaf)) (.cut 0 (.cut 1 .leaf .out) .out)) (.ref (.cut 3 (.cut 0 (.cut 1 .out .out) .out) .out))) (.cut 2 (.ref (.cut 3 (.cut 0 (.cut 1 (.cut 2 .leaf .out) .out) .out) .out)) .out))) (.cut 0 (.cut 1 (.cut 2 (.cut 3 (.cut 0 (.cut 1 .leaf .out) .out) .out) .out) .out) .out))) (.ref (.cut 3 (.cut 0 (.cut 1 .out .out) .out) .out)))) (.cut 2 (.ref (.cut 3 (.cut 0 (.ref (.cut 1 (.cut 2 (.cut 3 (.cut 0 (.cut 1 (.cut 2 (.cut 3 .leaf .out) .out) .out) .out) .out) .out) .out)) .out) .out)) .out)))
theorem h631 : check par t631 [57344, 49152, 49152, 16384] [8192, 16384, 16384, 16384] st = true := by decide +kernel
def t632 : Tree := (.ref (.cut 0 (.ref (.cut 1 (.ref (.cut 2 (.ref (.cut 3 (.ref (.cut 0 (.cut 1 (.ref (.cut 2 (.cut 3 (.ref (.cut 0 (.ref (.cut 1 (.cut 2 (.cut 3 .leaf .out) .out) .out)) .out)) .out) .out)) .out) .out)) .out)) .out)) .out)) .out))
theorem h632 : check par t632 [49152, 49152, 49152, 49152] [16384, 16384, 16384, 16384] st = true := by decide +kernel
end FastNoise.RangeCheck.OuterSimplex4
