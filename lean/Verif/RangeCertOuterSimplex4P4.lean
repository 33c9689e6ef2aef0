import Verif.RangeCertOuterSimplex4
/-! Generated by tools/rangecert/gen.py: a certificate for the checker `Verif.RangeCheck`. -/
namespace FastNoise.RangeCheck.OuterSimplex4
set_option maxRecDepth 1000000
def t375 : Tree := (.ref (.cut 0 (.cut 1 (.cut 2 (.cut 3 (.cut 0 (.cut 1 .leaf .leaf) (.cut 1 .leaf .leaf)) (.cut 0 .leaf .leaf)) (.cut 3 (.cut 0 .leaf .leaf) .leaf)) (.cut 2 (.cut 3 (.cut 0 (.cut 1 .leaf .leaf) .leaf) (.cut 0 .leaf .leaf)) (.cut 3 (.cut 0 .leaf .leaf) .leaf))) (.cut 1 (.cut 2 (.cut 3 (.cut 0 .leaf .leaf) (.cut 0 .leaf .leaf)) (.cut 3 (.cut 0 .leaf .leaf) .leaf)) (.cut 2 (.cut 3 (.cut 0 .leaf .leaf) .leaf) (.cut 3 .leaf .leaf)))))
theorem h375 : check par t375 [53344, 12320, 96, 96] [32, 32, 32, 32] st = true := by decide +kernel
def t376 : Tree := (.ref (.cut 2 (.cut 3 (.cut 0 (.cut 1 (.cut 2 (.cut 3 (.cut 0 .leaf .leaf) (.cut 0 .leaf .leaf)) (.cut 3 (.cut 0 .leaf .leaf) (.cut 0 .leaf .leaf))) .leaf) (.cut 1 (.cut 2 (.cut 3 .leaf .leaf) (.cut 3 .leaf .leaf)) .leaf)) (.cut 0 (.cut 1 (.cut 2 .out (.cut 3 (.cut 0 .leaf .leaf) .out)) .leaf) (.cut 1 (.cut 2 .out (.cut 3 .leaf .out)) (.cut 2 .out .leaf)))) (.cut 3 (.cut 0 (.cut 1 (.cut 2 (.cut 3 (.cut 0 .leaf .leaf) (.cut 0 .leaf .leaf)) (.cut 3 .leaf (.cut 0 .leaf .leaf))) .leaf) (.cut 1 (.cut 2 (.cut 3 .leaf .leaf) (.cut 3 .leaf .leaf)) (.cut 2 .leaf .leaf))) (.cut 0 (.cut 1 (.cut 2 (.cut 3 (.cut 0 .leaf .leaf) .leaf) (.cut 3 .leaf .leaf)) .leaf) (.cut 1 (.cut 2 (.cut 3 .leaf .leaf) .leaf) .leaf)))))
theorem h376 : check par t376 [53344, 12384, 64, 64] [32, 32, 64, 64] st = true := by decide +kernel
def t377 : Tree := (.ref (.cut 0 (.cut 1 (.cut 2 .out (.cut 3 (.cut 0 (.cut 1 .leaf .leaf) (.cut 1 .leaf .leaf)) .out)) (.cut 2 .out (.cut 3 (.cut 0 .leaf (.cut 1 .leaf .leaf)) .out))) (.cut 1 (.cut 2 .out (.cut 3 (.cut 0 (.cut 1 .leaf .leaf) (.cut 1 .leaf .leaf)) .out)) (.cut 2 .out (.cut 3 (.cut 0 (.cut 1 .leaf .leaf) (.cut 1 .leaf .leaf)) .out)))))
theorem h377 : check par t377 [53312, 12352, 64, 192] [64, 64, 64, 64] st = true := by decide +kernel
def t378 : Tree := (.ref (.cut 0 (.cut 1 (.cut 2 (.cut 3 (.cut 0 (.cut 1 .leaf .leaf) (.cut 1 .leaf (.cut 2 .leaf .leaf))) (.cut 0 (.cut 1 .leaf .leaf) (.cut 1 .leaf .leaf))) (.cut 3 .leaf .leaf)) (.cut 2 (.cut 3 (.cut 0 .leaf (.cut 1 .leaf .leaf)) (.cut 0 .leaf (.cut 1 .leaf .leaf))) (.cut 3 .leaf .leaf))) (.cut 1 (.cut 2 (.cut 3 (.cut 0 (.cut 1 (.cut 2 .leaf .leaf) (.cut 2 .leaf .leaf)) (.cut 1 (.cut 2 .leaf .leaf) (.cut 2 .leaf .leaf))) (.cut 0 (.cut 1 .leaf .leaf) (.cut 1 .leaf .leaf))) (.cut 3 .leaf .leaf)) (.cut 2 (.cut 3 (.cut 0 (.cut 1 (.cut 2 .leaf .leaf) .leaf) (.cut 1 .leaf .leaf)) (.cut 0 (.cut 1 .leaf .leaf) (.cut 1 .leaf .leaf))) (.cut 3 .leaf .leaf)))))
theorem h378 : check par t378 [53312, 12352, 192, 64] [64, 64, 64, 64] st = true := by decide +kernel
def t379 : Tree := (.ref (.cut 0 (.cut 1 (.cut 2 (.cut 3 (.cut 0 .leaf .leaf) .leaf) .leaf) (.cut 2 (.cut 3 (.cut 0 .leaf .leaf) .leaf) .leaf)) (.cut 1 (.cut 2 (.cut 3 (.cut 0 .leaf (.cut 1 .leaf .leaf)) .leaf) .leaf) (.cut 2 (.cut 3 (.cut 0 .leaf .leaf) .leaf) (.cut 3 .leaf .leaf)))))
theorem h379 : check par t379 [53312, 12352, 192, 192] [64, 64, 64, 64] st = true := by decide +kernel
def t380 : Tree := (.ref (.cut 2 (.cut 3 (.cut 0 (.cut 1 (.cut 2 (.cut 3 .leaf .leaf) .leaf) .leaf) (.cut 1 (.cut 2 (.cut 3 (.cut 0 .leaf .leaf) (.cut 0 .leaf (.cut 1 .leaf .leaf))) (.cut 3 (.cut 0 .leaf (.cut 1 .leaf .leaf)) (.cut 0 .leaf .leaf))) .leaf)) (.cut 0 (.cut 1 (.cut 2 .out .leaf) .leaf) (.cut 1 (.cut 2 .out (.cut 3 (.cut 0 .leaf .leaf) .out)) .leaf))) (.cut 3 (.cut 0 (.cut 1 (.cut 2 .leaf .leaf) .leaf) (.cut 1 (.cut 2 (.cut 3 (.cut 0 .leaf .leaf) (.cut 0 .leaf .leaf)) (.cut 3 .leaf .leaf)) .leaf)) (.cut 0 (.cut 1 .leaf .leaf) (.cut 1 (.cut 2 (.cut 3 (.cut 0 .leaf .leaf) .leaf) .leaf) .leaf)))))
theorem h380 : check par t380 [53312, 12480, 128, 128] [64, 64, 128, 128] st = true := by decide +kernel
def t381 : Tree := (.ref (.cut 1 (.cut 2 (.cut 3 (.cut 0 (.cut 1 (.cut 2 .leaf (.cut 3 .leaf .leaf)) (.cut 2 (.cut 3 .leaf .leaf) (.cut 3 .leaf .leaf))) (.cut 1 .leaf .leaf)) (.cut 0 (.cut 1 (.cut 2 .out (.cut 3 .leaf .out)) (.cut 2 .out (.cut 3 .leaf .out))) (.cut 1 .leaf .leaf))) (.cut 3 (.cut 0 (.cut 1 (.cut 2 (.cut 3 .leaf .leaf) .leaf) (.cut 2 (.cut 3 .leaf .leaf) (.cut 3 .leaf .leaf))) (.cut 1 .leaf .leaf)) (.cut 0 (.cut 1 (.cut 2 .leaf .leaf) (.cut 2 (.cut 3 .leaf .leaf) .leaf)) (.cut 1 .leaf .leaf)))) (.cut 2 (.cut 3 (.cut 0 (.cut 1 (.cut 2 .leaf (.cut 3 .leaf .leaf)) .leaf) (.cut 1 .leaf .leaf)) (.cut 0 (.cut 1 (.cut 2 .out .leaf) .leaf) (.cut 1 .leaf .leaf))) (.cut 3 (.cut 0 (.cut 1 (.cut 2 (.cut 3 .leaf .leaf) .leaf) .leaf) (.cut 1 .leaf .leaf)) (.cut 0 (.cut 1 .leaf .leaf) (.cut 1 .leaf .leaf))))))
theorem h381 : check par t381 [53408, 12352, 64, 64] [32, 64, 64, 64] st = true := by decide +kernel
def t382 : Tree := (.ref (.cut 1 (.cut 2 (.cut 3 (.cut 0 .leaf .leaf) (.cut 0 .leaf .leaf)) (.cut 3 (.cut 0 .leaf .leaf) (.cut 0 .leaf .leaf))) (.cut 2 (.cut 3 (.cut 0 .leaf .leaf) (.cut 0 .leaf .leaf)) (.cut 3 (.cut 0 .leaf .leaf) (.cut 0 .leaf .leaf)))))
theorem h382 : check par t382 [53472, 12352, 64, 64] [32, 64, 64, 64] st = true := by decide +kernel
def t383 : Tree := (.ref (.cut 0 (.cut 1 (.cut 2 .out (.cut 3 (.cut 0 (.cut 1 .leaf .leaf) .leaf) .out)) (.cut 2 .out (.cut 3 (.cut 0 .leaf .leaf) .out))) (.cut 1 (.cut 2 .out (.cut 3 .leaf .out)) (.cut 2 .out (.cut 3 (.cut 0 .leaf .leaf) .out)))))
theorem h383 : check par t383 [53440, 12352, 64, 192] [64, 64, 64, 64] st = true := by decide +kernel
def t384 : Tree := (.ref (.cut 3 (.cut 0 (.cut 1 (.cut 2 (.cut 3 (.cut 0 (.cut 1 .leaf .leaf) (.cut 1 .leaf .leaf)) (.cut 0 (.cut 1 .leaf .leaf) .leaf)) (.cut 3 .leaf .leaf)) (.cut 2 (.cut 3 (.cut 0 (.cut 1 .leaf .leaf) .leaf) (.cut 0 .leaf .leaf)) (.cut 3 .leaf .leaf))) (.cut 1 (.cut 2 (.cut 3 (.cut 0 .leaf .leaf) .leaf) .leaf) (.cut 2 (.cut 3 (.cut 0 .leaf .leaf) (.cut 0 .leaf .leaf)) (.cut 3 .leaf .leaf)))) (.cut 0 (.cut 1 (.cut 2 (.cut 3 (.cut 0 (.cut 1 .leaf .leaf) .leaf) .leaf) (.cut 3 .leaf .leaf)) (.cut 2 (.cut 3 (.cut 0 .leaf .leaf) .leaf) .leaf)) (.cut 1 (.cut 2 (.cut 3 .leaf .leaf) .leaf) (.cut 2 (.cut 3 (.cut 0 .leaf .leaf) .leaf) .leaf)))))
theorem h384 : check par t384 [53440, 12352, 192, 128] [64, 64, 64, 128] st = true := by decide +kernel
def t385 : Tree := (.ref (.cut 2 (.cut 3 (.cut 0 (.cut 1 (.cut 2 (.cut 3 (.cut 0 (.cut 1 .leaf .leaf) .leaf) (.cut 0 (.cut 1 .leaf .leaf) .leaf)) (.cut 3 (.cut 0 (.cut 1 .leaf .leaf) .leaf) (.cut 0 .leaf .leaf))) (.cut 2 .leaf (.cut 3 .leaf .leaf))) (.cut 1 (.cut 2 (.cut 3 (.cut 0 .leaf .leaf) (.cut 0 .leaf .leaf)) (.cut 3 (.cut 0 .leaf .leaf) .leaf)) .leaf)) (.cut 0 (.cut 1 (.cut 2 .out (.cut 3 (.cut 0 .leaf .leaf) .out)) (.cut 2 .out (.cut 3 .leaf .out))) (.cut 1 (.cut 2 .out (.cut 3 .leaf .out)) (.cut 2 .out .leaf)))) (.cut 3 (.cut 0 (.cut 1 (.cut 2 (.cut 3 (.cut 0 .leaf .leaf) (.cut 0 .leaf .leaf)) (.cut 3 .leaf .leaf)) (.cut 2 (.cut 3 .leaf .leaf) .leaf)) (.cut 1 (.cut 2 (.cut 3 .leaf .leaf) .leaf) (.cut 2 .leaf .leaf))) (.cut 0 (.cut 1 (.cut 2 (.cut 3 (.cut 0 .leaf .leaf) .leaf) .leaf) (.cut 2 .leaf .leaf)) (.cut 1 (.cut 2 .leaf .leaf) .leaf)))))
theorem h385 : check par t385 [53440, 12480, 128, 128] [64, 64, 128, 128] st = true := by decide +kernel
def t386 : Tree := (.ref (.cut 0 (.cut 1 (.cut 2 .out (.cut 3 (.cut 0 .leaf .leaf) .out)) (.cut 2 .out (.cut 3 (.cut 0 .leaf (.cut 1 .leaf .leaf)) .out))) (.cut 1 (.cut 2 .out (.cut 3 (.cut 0 (.cut 1 .leaf .leaf) (.cut 1 .leaf .leaf)) .out)) (.cut 2 .out (.cut 3 (.cut 0 (.cut 1 .leaf .leaf) .leaf) .out)))))
theorem h386 : check par t386 [53376, 12416, 128, 384] [128, 128, 128, 128] st = true := by decide +kernel
def t387 : Tree := (.ref (.cut 3 (.cut 0 (.cut 1 (.cut 2 (.cut 3 (.cut 0 (.cut 1 .leaf .leaf) (.cut 1 .leaf .leaf)) (.cut 0 .leaf .leaf)) .leaf) (.cut 2 (.cut 3 (.cut 0 .leaf (.cut 1 .leaf .leaf)) (.cut 0 .leaf (.cut 1 .leaf .leaf))) .leaf)) (.cut 1 (.cut 2 (.cut 3 (.cut 0 (.cut 1 .leaf .leaf) (.cut 1 .leaf .leaf)) (.cut 0 (.cut 1 .leaf .leaf) (.cut 1 .leaf .leaf))) .leaf) (.cut 2 (.cut 3 (.cut 0 (.cut 1 .leaf .leaf) (.cut 1 .leaf .leaf)) (.cut 0 (.cut 1 .leaf .leaf) .leaf)) .leaf))) (.cut 0 (.cut 1 (.cut 2 (.cut 3 (.cut 0 .leaf .leaf) .leaf) .leaf) (.cut 2 (.cut 3 (.cut 0 .leaf .leaf) .leaf) .leaf)) (.cut 1 (.cut 2 (.cut 3 (.cut 0 .leaf .leaf) .leaf) .leaf) (.cut 2 (.cut 3 (.cut 0 .leaf .leaf) .leaf) .leaf)))))
theorem h387 : check par t387 [53376, 12416, 384, 256] [128, 128, 128, 256] st = true := by decide +kernel
def t388 : Tree := (.ref (.cut 2 (.cut 3 (.cut 0 (.cut 1 (.cut 2 (.cut 3 (.cut 0 .leaf .leaf) (.cut 0 .leaf .leaf)) (.cut 3 (.cut 0 .leaf .leaf) (.cut 0 .leaf .leaf))) .leaf) (.cut 1 (.cut 2 (.cut 3 (.cut 0 (.cut 1 .leaf .leaf) (.cut 1 .leaf .leaf)) (.cut 0 (.cut 1 .leaf .leaf) (.cut 1 .leaf .leaf))) (.cut 3 (.cut 0 (.cut 1 .leaf .leaf) (.cut 1 .leaf .leaf)) (.cut 0 .leaf (.cut 1 .leaf .leaf)))) .leaf)) (.cut 0 (.cut 1 (.cut 2 .out (.cut 3 .leaf .out)) .leaf) (.cut 1 (.cut 2 .out (.cut 3 (.cut 0 .leaf .leaf) .out)) (.cut 2 .out .leaf)))) (.cut 3 (.cut 0 (.cut 1 (.cut 2 (.cut 3 .leaf .leaf) .leaf) .leaf) (.cut 1 (.cut 2 (.cut 3 (.cut 0 .leaf .leaf) (.cut 0 .leaf .leaf)) (.cut 3 .leaf .leaf)) (.cut 2 .leaf .leaf))) (.cut 0 (.cut 1 (.cut 2 .leaf .leaf) .leaf) (.cut 1 (.cut 2 (.cut 3 (.cut 0 .leaf .leaf) .leaf) .leaf) .leaf)))))
theorem h388 : check par t388 [53376, 12672, 256, 256] [128, 128, 256, 256] st = true := by decide +kernel
def t389 : Tree := (.ref (.cut 3 (.cut 0 (.cut 1 (.cut 2 (.cut 3 (.cut 0 (.cut 1 .leaf .leaf) .leaf) (.cut 0 (.cut 1 .leaf (.cut 2 .out .leaf)) .leaf)) (.cut 3 (.cut 0 (.cut 1 .leaf (.cut 2 .leaf .leaf)) .leaf) (.cut 0 (.cut 1 .leaf .leaf) .leaf))) (.cut 2 (.cut 3 (.cut 0 (.cut 1 .leaf .leaf) .leaf) (.cut 0 (.cut 1 (.cut 2 .out .leaf) .leaf) (.cut 1 .leaf .leaf))) (.cut 3 (.cut 0 (.cut 1 (.cut 2 .leaf .leaf) .leaf) (.cut 1 .leaf .leaf)) (.cut 0 (.cut 1 .leaf .leaf) (.cut 1 .leaf .leaf))))) (.cut 1 .leaf (.cut 2 (.cut 3 (.cut 0 .leaf .leaf) (.cut 0 .leaf .leaf)) (.cut 3 (.cut 0 .leaf .leaf) (.cut 0 .leaf .leaf))))) (.cut 0 (.cut 1 (.cut 2 .out (.cut 3 (.cut 0 .leaf .leaf) .out)) (.cut 2 .out (.cut 3 (.cut 0 .leaf .leaf) .out))) (.cut 1 (.cut 2 .out .leaf) (.cut 2 .out (.cut 3 .leaf .out))))))
theorem h389 : check par t389 [53632, 12416, 128, 256] [128, 128, 128, 256] st = true := by decide +kernel
def t390 : Tree := (.ref (.cut 3 (.cut 0 (.cut 1 (.cut 2 (.cut 3 (.cut 0 (.cut 1 .leaf .leaf) .leaf) (.cut 0 .leaf .leaf)) .leaf) (.cut 2 (.cut 3 (.cut 0 .leaf .leaf) (.cut 0 .leaf .leaf)) (.cut 3 .leaf .leaf))) (.cut 1 (.cut 2 .leaf .leaf) (.cut 2 (.cut 3 (.cut 0 .leaf .leaf) .leaf) .leaf))) (.cut 0 (.cut 1 (.cut 2 (.cut 3 (.cut 0 .leaf .leaf) .leaf) .leaf) (.cut 2 (.cut 3 (.cut 0 .leaf .leaf) .leaf) .leaf)) (.cut 1 .leaf (.cut 2 (.cut 3 .leaf .leaf) .leaf)))))
theorem h390 : check par t390 [53632, 12416, 384, 256] [128, 128, 128, 256] st = true := by decide +kernel
def t391 : Tree := (.ref (.cut 2 (.cut 3 (.cut 0 (.cut 1 (.cut 2 (.cut 3 (.cut 0 (.cut 1 .leaf .leaf) .leaf) (.cut 0 (.cut 1 .leaf .leaf) .leaf)) (.cut 3 (.cut 0 (.cut 1 .leaf .leaf) .leaf) (.cut 0 .leaf .leaf))) (.cut 2 .leaf (.cut 3 .leaf .leaf))) (.cut 1 (.cut 2 (.cut 3 .leaf .leaf) (.cut 3 .leaf .leaf)) .leaf)) (.cut 0 (.cut 1 (.cut 2 .out (.cut 3 .leaf .out)) (.cut 2 .out (.cut 3 .leaf .out))) (.cut 1 (.cut 2 .out (.cut 3 .leaf .out)) (.cut 2 .out .leaf)))) (.cut 3 (.cut 0 (.cut 1 (.cut 2 (.cut 3 (.cut 0 .leaf .leaf) .leaf) .leaf) (.cut 2 (.cut 3 .leaf .leaf) .leaf)) (.cut 1 (.cut 2 (.cut 3 .leaf .leaf) .leaf) (.cut 2 .leaf .leaf))) (.cut 0 (.cut 1 (.cut 2 (.cut 3 .leaf .leaf) .leaf) (.cut 2 .leaf .leaf)) (.cut 1 (.cut 2 .leaf .leaf) .leaf)))))
theorem h391 : check par t391 [53632, 12672, 256, 256] [128, 128, 256, 256] st = true := by decide +kernel
def t392 : Tree := (.ref (.cut 0 (.cut 1 (.cut 2 .out (.cut 3 (.cut 0 .leaf .leaf) .out)) (.cut 2 .out (.cut 3 (.cut 0 .leaf (.cut 1 .leaf .leaf)) .out))) (.cut 1 (.cut 2 .out (.cut 3 (.cut 0 (.cut 1 .leaf .leaf) (.cut 1 .leaf .leaf)) .out)) (.cut 2 .out (.cut 3 (.cut 0 (.cut 1 .leaf .leaf) .leaf) .out)))))
theorem h392 : check par t392 [53504, 12544, 256, 768] [256, 256, 256, 256] st = true := by decide +kernel
def t393 : Tree := (.ref (.cut 3 (.cut 0 (.cut 1 (.cut 2 (.cut 3 (.cut 0 (.cut 1 .leaf .leaf) (.cut 1 .leaf .leaf)) (.cut 0 .leaf .leaf)) .leaf) (.cut 2 (.cut 3 (.cut 0 (.cut 1 .leaf .leaf) (.cut 1 .leaf .leaf)) (.cut 0 .leaf (.cut 1 .leaf .leaf))) .leaf)) (.cut 1 (.cut 2 (.cut 3 (.cut 0 (.cut 1 .leaf .leaf) (.cut 1 .leaf .leaf)) (.cut 0 (.cut 1 .leaf .leaf) (.cut 1 .leaf .leaf))) .leaf) (.cut 2 (.cut 3 (.cut 0 (.cut 1 .leaf .leaf) .leaf) (.cut 0 (.cut 1 .leaf .leaf) .leaf)) .leaf))) (.cut 0 (.cut 1 (.cut 2 (.cut 3 (.cut 0 .leaf .leaf) .leaf) .leaf) (.cut 2 (.cut 3 (.cut 0 .leaf .leaf) .leaf) .leaf)) (.cut 1 (.cut 2 (.cut 3 (.cut 0 .leaf .leaf) .leaf) .leaf) (.cut 2 (.cut 3 (.cut 0 .leaf .leaf) .leaf) .leaf)))))
theorem h393 : check par t393 [53504, 12544, 768, 512] [256, 256, 256, 512] st = true := by decide +kernel
def t394 : Tree := (.ref (.cut 3 (.cut 0 (.cut 1 (.cut 2 (.cut 3 (.cut 0 .leaf .leaf) (.cut 0 .leaf (.ref .leaf))) (.cut 3 (.cut 0 .leaf (.ref .leaf)) (.cut 0 .leaf .leaf))) .leaf) (.cut 1 (.cut 2 (.cut 3 (.cut 0 (.cut 1 .leaf .leaf) (.cut 1 .leaf .leaf)) (.cut 0 (.cut 1 .leaf .leaf) (.cut 1 .leaf .leaf))) (.cut 3 (.cut 0 (.cut 1 .leaf .leaf) (.cut 1 .leaf .leaf)) (.cut 0 (.cut 1 .leaf .leaf) (.cut 1 .leaf .leaf)))) .leaf)) (.cut 0 (.cut 1 (.cut 2 .out (.cut 3 .leaf .out)) .leaf) (.cut 1 (.cut 2 .out (.cut 3 (.cut 0 .leaf .leaf) .out)) (.cut 2 .out .leaf)))))
theorem h394 : check par t394 [53504, 13056, 256, 512] [256, 256, 256, 512] st = true := by decide +kernel
def t395 : Tree := (.ref (.cut 3 (.cut 0 (.cut 1 (.cut 2 (.cut 3 (.cut 0 .leaf .leaf) .leaf) .leaf) .leaf) (.cut 1 (.cut 2 (.cut 3 (.cut 0 .leaf .leaf) (.cut 0 .leaf .leaf)) .leaf) (.cut 2 .leaf .leaf))) (.cut 0 (.cut 1 (.cut 2 (.cut 3 .leaf .leaf) .leaf) .leaf) (.cut 1 (.cut 2 (.cut 3 (.cut 0 .leaf .leaf) .leaf) .leaf) .leaf))))
theorem h395 : check par t395 [53504, 13056, 768, 512] [256, 256, 256, 512] st = true := by decide +kernel
def t396 : Tree := (.ref (.cut 3 (.cut 0 (.cut 1 (.cut 2 (.cut 3 (.cut 0 (.cut 1 .leaf .leaf) .leaf) (.cut 0 (.cut 1 .leaf .leaf) .leaf)) (.cut 3 (.cut 0 (.cut 1 .leaf .leaf) .leaf) (.cut 0 (.cut 1 .leaf .leaf) .leaf))) (.cut 2 (.cut 3 (.cut 0 (.cut 1 .leaf .leaf) .leaf) (.cut 0 (.cut 1 .leaf .leaf) (.cut 1 .leaf .leaf))) (.cut 3 (.cut 0 (.cut 1 .leaf .leaf) (.cut 1 .leaf .leaf)) (.cut 0 (.cut 1 .leaf .leaf) .leaf)))) (.cut 1 .leaf (.cut 2 (.cut 3 .leaf (.cut 0 .leaf .leaf)) (.cut 3 (.cut 0 .leaf .leaf) .leaf)))) (.cut 0 (.cut 1 (.cut 2 .out (.cut 3 (.cut 0 .leaf .leaf) .out)) (.cut 2 .out (.cut 3 (.cut 0 .leaf .leaf) .out))) (.cut 1 .leaf (.cut 2 .out (.cut 3 .leaf .out))))))
theorem h396 : check par t396 [54016, 12544, 256, 512] [256, 256, 256, 512] st = true := by decide +kernel
def t397 : Tree := (.ref (.cut 3 (.cut 0 (.cut 1 (.cut 2 (.cut 3 (.cut 0 .leaf .leaf) (.cut 0 .leaf .leaf)) .leaf) (.cut 2 (.cut 3 (.cut 0 .leaf .leaf) (.cut 0 .leaf .leaf)) .leaf)) (.cut 1 .leaf (.cut 2 (.cut 3 .leaf .leaf) .leaf))) (.cut 0 (.cut 1 (.cut 2 (.cut 3 (.cut 0 .leaf .leaf) .leaf) .leaf) (.cut 2 (.cut 3 (.cut 0 .leaf .leaf) .leaf) .leaf)) (.cut 1 .leaf (.cut 2 .leaf .leaf)))))
theorem h397 : check par t397 [54016, 12544, 768, 512] [256, 256, 256, 512] st = true := by decide +kernel
def t398 : Tree := (.ref (.cut 2 (.cut 3 (.cut 0 (.cut 1 (.cut 2 (.cut 3 (.cut 0 (.cut 1 .leaf .leaf) .leaf) (.cut 0 (.cut 1 .leaf .leaf) .leaf)) (.cut 3 (.cut 0 (.cut 1 .leaf .leaf) .leaf) (.cut 0 .leaf .leaf))) (.cut 2 .leaf (.cut 3 .leaf .leaf))) (.cut 1 (.cut 2 .leaf (.cut 3 .leaf .leaf)) .leaf)) (.cut 0 (.cut 1 (.cut 2 .out (.cut 3 .leaf .out)) (.cut 2 .out (.cut 3 .leaf .out))) (.cut 1 (.cut 2 .out (.cut 3 .leaf .out)) (.cut 2 .out .leaf)))) (.cut 3 (.cut 0 (.cut 1 (.cut 2 (.cut 3 (.cut 0 .leaf .leaf) .leaf) .leaf) (.cut 2 (.cut 3 .leaf .leaf) .leaf)) (.cut 1 (.cut 2 (.cut 3 .leaf .leaf) .leaf) (.cut 2 .leaf .leaf))) (.cut 0 (.cut 1 (.cut 2 .leaf .leaf) (.cut 2 .leaf .leaf)) (.cut 1 (.cut 2 .leaf .leaf) .leaf)))))
theorem h398 : check par t398 [54016, 13056, 512, 512] [256, 256, 512, 512] st = true := by decide +kernel
def t399 : Tree := (.ref (.cut 0 (.cut 1 (.cut 2 .out (.cut 3 (.cut 0 .leaf .leaf) .out)) (.cut 2 .out (.cut 3 (.cut 0 .leaf (.cut 1 .leaf .leaf)) .out))) (.cut 1 (.cut 2 .out (.cut 3 (.cut 0 (.cut 1 .leaf .leaf) .leaf) .out)) (.cut 2 .out (.cut 3 (.cut 0 .leaf .leaf) .out)))))
theorem h399 : check par t399 [53760, 12800, 512, 1536] [512, 512, 512, 512] st = true := by decide +kernel
def t400 : Tree := (.ref (.cut 3 (.cut 0 (.cut 1 (.cut 2 (.cut 3 (.cut 0 .leaf (.cut 1 .leaf .leaf)) (.cut 0 .leaf .leaf)) .leaf) (.cut 2 (.cut 3 (.cut 0 (.cut 1 .leaf .leaf) (.cut 1 .leaf .leaf)) (.cut 0 .leaf (.cut 1 .leaf .leaf))) .leaf)) (.cut 1 (.cut 2 (.cut 3 (.cut 0 (.cut 1 .leaf .leaf) (.cut 1 .leaf .leaf)) (.cut 0 (.cut 1 .leaf .leaf) .leaf)) .leaf) (.cut 2 (.cut 3 (.cut 0 (.cut 1 .leaf .leaf) .leaf) (.cut 0 .leaf .leaf)) .leaf))) (.cut 0 (.cut 1 (.cut 2 (.cut 3 (.cut 0 .leaf .leaf) .leaf) .leaf) (.cut 2 (.cut 3 (.cut 0 .leaf .leaf) .leaf) .leaf)) (.cut 1 (.cut 2 (.cut 3 (.cut 0 .leaf .leaf) .leaf) .leaf) (.cut 2 (.cut 3 .leaf .leaf) .leaf)))))
theorem h400 : check par t400 [53760, 12800, 1536, 1024] [512, 512, 512, 1024] st = true := by decide +kernel
def t401 : Tree := (.ref (.cut 3 (.cut 0 (.cut 1 (.cut 2 (.cut 3 (.cut 0 .leaf (.cut 1 .leaf .leaf)) (.cut 0 .leaf (.cut 1 .leaf .leaf))) (.cut 3 (.cut 0 .leaf (.cut 1 .leaf .leaf)) (.cut 0 .leaf .leaf))) .leaf) (.cut 1 (.cut 2 (.cut 3 (.cut 0 (.cut 1 .leaf .leaf) (.cut 1 .leaf .leaf)) (.cut 0 (.cut 1 .leaf .leaf) (.cut 1 .leaf .leaf))) (.cut 3 (.cut 0 (.cut 1 .leaf .leaf) (.cut 1 .leaf .leaf)) (.cut 0 (.cut 1 .leaf .leaf) (.cut 1 .leaf .leaf)))) (.cut 2 (.cut 3 .leaf (.cut 0 .leaf .leaf)) (.cut 3 (.cut 0 .leaf .leaf) .leaf)))) (.cut 0 (.cut 1 (.cut 2 .out (.cut 3 (.cut 0 .leaf .leaf) .out)) .leaf) (.cut 1 (.cut 2 .out (.cut 3 (.cut 0 .leaf .leaf) .out)) (.cut 2 .out (.cut 3 .leaf .out))))))
theorem h401 : check par t401 [53760, 13824, 512, 1024] [512, 512, 512, 1024] st = true := by decide +kernel
def t402 : Tree := (.ref (.cut 3 (.cut 0 (.cut 1 (.cut 2 (.cut 3 (.cut 0 .leaf .leaf) (.cut 0 .leaf .leaf)) .leaf) .leaf) (.cut 1 (.cut 2 (.cut 3 (.cut 0 .leaf .leaf) (.cut 0 .leaf .leaf)) .leaf) (.cut 2 (.cut 3 .leaf .leaf) .leaf))) (.cut 0 (.cut 1 (.cut 2 (.cut 3 .leaf .leaf) .leaf) .leaf) (.cut 1 (.cut 2 (.cut 3 (.cut 0 .leaf .leaf) .leaf) .leaf) (.cut 2 .leaf .leaf)))))
theorem h402 : check par t402 [53760, 13824, 1536, 1024] [512, 512, 512, 1024] st = true := by decide +kernel
def t403 : Tree := (.ref (.cut 3 (.cut 0 (.cut 1 (.cut 2 (.cut 3 (.cut 0 (.cut 1 .leaf .leaf) .leaf) (.cut 0 (.cut 1 .leaf .leaf) .leaf)) (.cut 3 (.cut 0 (.cut 1 .leaf .leaf) .leaf) (.cut 0 (.cut 1 .leaf .leaf) .leaf))) (.cut 2 (.cut 3 (.cut 0 (.cut 1 .leaf .leaf) .leaf) (.cut 0 (.cut 1 .leaf .leaf) .leaf)) (.cut 3 (.cut 0 (.cut 1 .leaf .leaf) .leaf) (.cut 0 (.cut 1 .leaf .leaf) .leaf)))) (.cut 1 .leaf (.cut 2 .leaf (.cut 3 .leaf .leaf)))) (.cut 0 (.cut 1 (.cut 2 .out (.cut 3 (.cut 0 .leaf .leaf) .out)) (.cut 2 .out (.cut 3 (.cut 0 .leaf .leaf) .out))) (.cut 1 .leaf (.cut 2 .out (.cut 3 .leaf .out))))))
theorem h403 : check par t403 [54784, 12800, 512, 1024] [512, 512, 512, 1024] st = true := by decide +kernel
def t404 : Tree := (.ref (.cut 3 (.cut 0 (.cut 1 (.cut 2 (.cut 3 (.cut 0 .leaf .leaf) (.cut 0 .leaf .leaf)) .leaf) (.cut 2 (.cut 3 (.cut 0 .leaf .leaf) (.cut 0 .leaf .leaf)) .leaf)) (.cut 1 .leaf (.cut 2 (.cut 3 .leaf .leaf) .leaf))) (.cut 0 (.cut 1 (.cut 2 (.cut 3 .leaf .leaf) .leaf) (.cut 2 (.cut 3 (.cut 0 .leaf .leaf) .leaf) .leaf)) (.cut 1 .leaf (.cut 2 .leaf .leaf)))))
theorem h404 : check par t404 [54784, 12800, 1536, 1024] [512, 512, 512, 1024] st = true := by decide +kernel
def t405 : Tree := (.ref (.cut 2 (.cut 3 (.cut 0 (.cut 1 (.cut 2 (.cut 3 (.cut 0 (.cut 1 .leaf .leaf) .leaf) (.cut 0 (.cut 1 .leaf .leaf) .leaf)) (.cut 3 (.cut 0 (.cut 1 .leaf .leaf) .leaf) (.cut 0 .leaf .leaf))) (.cut 2 .leaf (.cut 3 .leaf .leaf))) (.cut 1 (.cut 2 .leaf (.cut 3 .leaf .leaf)) (.cut 2 .leaf .leaf))) (.cut 0 (.cut 1 (.cut 2 .out (.cut 3 .leaf .out)) (.cut 2 .out (.cut 3 .leaf .out))) (.cut 1 (.cut 2 .out (.cut 3 .leaf .out)) (.cut 2 .out .leaf)))) (.cut 3 (.cut 0 (.cut 1 (.cut 2 (.cut 3 (.cut 0 .leaf .leaf) .leaf) .leaf) (.cut 2 (.cut 3 .leaf .leaf) .leaf)) (.cut 1 (.cut 2 (.cut 3 .leaf .leaf) .leaf) (.cut 2 .leaf .leaf))) (.cut 0 (.cut 1 (.cut 2 (.cut 3 .leaf .leaf) .leaf) (.cut 2 .leaf .leaf)) (.cut 1 (.cut 2 .leaf .leaf) .leaf)))))
theorem h405 : check par t405 [54784, 13824, 1024, 1024] [512, 512, 1024, 1024] st = true := by decide +kernel
def t406 : Tree := (.ref (.cut 0 (.cut 1 (.cut 2 .out (.cut 3 (.cut 0 .leaf .leaf) .out)) (.cut 2 .out (.cut 3 (.cut 0 .leaf (.cut 1 .leaf .leaf)) .out))) (.cut 1 (.cut 2 .out (.cut 3 (.cut 0 (.cut 1 .leaf .leaf) .leaf) .out)) (.cut 2 .out (.cut 3 (.cut 0 .leaf .leaf) .out)))))
theorem h406 : check par t406 [54272, 13312, 1024, 3072] [1024, 1024, 1024, 1024] st = true := by decide +kernel
def t407 : Tree := (.ref (.cut 3 (.cut 0 (.cut 1 (.cut 2 (.cut 3 (.cut 0 .leaf (.cut 1 .leaf .leaf)) (.cut 0 .leaf .leaf)) .leaf) (.cut 2 (.cut 3 (.cut 0 (.cut 1 .leaf .leaf) (.cut 1 .leaf .leaf)) (.cut 0 .leaf (.cut 1 .leaf .leaf))) (.cut 3 .leaf .leaf))) (.cut 1 (.cut 2 (.cut 3 (.cut 0 (.cut 1 .leaf .leaf) (.cut 1 .leaf .leaf)) (.cut 0 (.cut 1 .leaf .leaf) .leaf)) .leaf) (.cut 2 (.cut 3 (.cut 0 (.cut 1 .leaf .leaf) .leaf) (.cut 0 .leaf .leaf)) .leaf))) (.cut 0 (.cut 1 (.cut 2 (.cut 3 (.cut 0 .leaf .leaf) .leaf) .leaf) (.cut 2 (.cut 3 (.cut 0 .leaf .leaf) .leaf) .leaf)) (.cut 1 (.cut 2 (.cut 3 (.cut 0 .leaf .leaf) .leaf) .leaf) (.cut 2 (.cut 3 .leaf .leaf) .leaf)))))
theorem h407 : check par t407 [54272, 13312, 3072, 2048] [1024, 1024, 1024, 2048] st = true := by decide +kernel
def t408 : Tree := (.ref (.cut 3 (.cut 0 (.cut 1 (.cut 2 (.cut 3 (.cut 0 .leaf (.cut 1 .leaf .leaf)) (.cut 0 .leaf (.cut 1 .leaf .leaf))) (.cut 3 (.cut 0 .leaf (.cut 1 .leaf .leaf)) (.cut 0 .leaf (.cut 1 .leaf .leaf)))) (.cut 2 .leaf .leaf)) (.cut 1 (.cut 2 (.cut 3 (.cut 0 (.cut 1 .leaf .leaf) (.cut 1 .leaf .leaf)) (.cut 0 (.cut 1 .leaf .leaf) (.cut 1 .leaf .leaf))) (.cut 3 (.cut 0 (.cut 1 .leaf .leaf) (.cut 1 .leaf .leaf)) (.cut 0 (.cut 1 .leaf .leaf) (.cut 1 .leaf .leaf)))) (.cut 2 (.cut 3 (.cut 0 .leaf .leaf) (.cut 0 .leaf .leaf)) (.cut 3 (.cut 0 .leaf .leaf) (.cut 0 .leaf .leaf))))) (.cut 0 (.cut 1 (.cut 2 .out (.cut 3 (.cut 0 .leaf .leaf) .out)) (.cut 2 .out .leaf)) (.cut 1 (.cut 2 .out (.cut 3 (.cut 0 .leaf .leaf) .out)) (.cut 2 .out (.cut 3 .leaf .out))))))
theorem h408 : check par t408 [54272, 15360, 1024, 2048] [1024, 1024, 1024, 2048] st = true := by decide +kernel
def t409 : Tree := (.ref (.cut 3 (.cut 0 (.cut 1 (.cut 2 (.cut 3 (.cut 0 .leaf .leaf) (.cut 0 .leaf .leaf)) .leaf) (.cut 2 .leaf .leaf)) (.cut 1 (.cut 2 (.cut 3 (.cut 0 (.cut 1 .leaf .leaf) (.cut 1 .leaf .leaf)) (.cut 0 .leaf .leaf)) (.cut 3 .leaf .leaf)) (.cut 2 (.cut 3 .leaf .leaf) .leaf))) (.cut 0 (.cut 1 (.cut 2 (.cut 3 .leaf .leaf) .leaf) .leaf) (.cut 1 (.cut 2 (.cut 3 (.cut 0 .leaf .leaf) .leaf) .leaf) (.cut 2 (.cut 3 .leaf .leaf) .leaf)))))
theorem h409 : check par t409 [54272, 15360, 3072, 2048] [1024, 1024, 1024, 2048] st = true := by decide +kernel
def t410 : Tree := (.ref (.cut 3 (.cut 0 (.cut 1 (.cut 2 (.cut 3 (.cut 0 (.cut 1 .leaf .leaf) .leaf) (.cut 0 (.cut 1 .leaf .leaf) .leaf)) (.cut 3 (.cut 0 (.cut 1 .leaf .leaf) .leaf) (.cut 0 (.cut 1 .leaf .leaf) .leaf))) (.cut 2 (.cut 3 (.cut 0 (.cut 1 .leaf .leaf) .leaf) (.cut 0 (.cut 1 .leaf .leaf) .leaf)) (.cut 3 (.cut 0 (.cut 1 .leaf .leaf) .leaf) (.cut 0 (.cut 1 .leaf .leaf) .leaf)))) (.cut 1 .leaf (.cut 2 .leaf (.cut 3 .leaf .leaf)))) (.cut 0 (.cut 1 (.cut 2 .out (.cut 3 (.cut 0 .leaf .leaf) .out)) (.cut 2 .out (.cut 3 (.cut 0 .leaf .leaf) .out))) (.cut 1 .leaf (.cut 2 .out (.cut 3 .leaf .out))))))
theorem h410 : check par t410 [56320, 13312, 1024, 2048] [1024, 1024, 1024, 2048] st = true := by decide +kernel
def t411 : Tree := (.ref (.cut 3 (.cut 0 (.cut 1 (.cut 2 (.cut 3 (.cut 0 .leaf .leaf) (.cut 0 .leaf .leaf)) .leaf) (.cut 2 (.cut 3 (.cut 0 .leaf .leaf) (.cut 0 .leaf .leaf)) .leaf)) (.cut 1 .leaf (.cut 2 (.cut 3 .leaf .leaf) .leaf))) (.cut 0 (.cut 1 (.cut 2 (.cut 3 .leaf .leaf) .leaf) (.cut 2 (.cut 3 (.cut 0 .leaf .leaf) .leaf) .leaf)) (.cut 1 .leaf (.cut 2 .leaf .leaf)))))
theorem h411 : check par t411 [56320, 13312, 3072, 2048] [1024, 1024, 1024, 2048] st = true := by decide +kernel
def t412 : Tree := (.ref (.cut 2 (.cut 3 (.cut 0 (.cut 1 (.cut 2 (.cut 3 (.cut 0 (.cut 1 .leaf .leaf) .leaf) (.cut 0 (.cut 1 .leaf .leaf) .leaf)) (.cut 3 (.cut 0 (.cut 1 .leaf .leaf) .leaf) (.cut 0 .leaf .leaf))) (.cut 2 (.cut 3 .leaf .leaf) (.cut 3 .leaf .leaf))) (.cut 1 (.cut 2 (.cut 3 .leaf .leaf) (.cut 3 .leaf .leaf)) (.cut 2 .leaf .leaf))) (.cut 0 (.cut 1 (.cut 2 .out (.cut 3 .leaf .out)) (.cut 2 .out (.cut 3 .leaf .out))) (.cut 1 (.cut 2 .out (.cut 3 .leaf .out)) (.cut 2 .out .leaf)))) (.cut 3 (.cut 0 (.cut 1 (.cut 2 (.cut 3 (.cut 0 .leaf .leaf) .leaf) .leaf) (.cut 2 (.cut 3 .leaf .leaf) .leaf)) (.cut 1 (.cut 2 (.cut 3 .leaf .leaf) .leaf) (.cut 2 .leaf .leaf))) (.cut 0 (.cut 1 (.cut 2 (.cut 3 .leaf .leaf) .leaf) (.cut 2 (.cut 3 .leaf .leaf) .leaf)) (.cut 1 (.cut 2 .leaf .leaf) .leaf)))))
theorem h412 : check par t412 [56320, 15360, 2048, 2048] [1024, 1024, 2048, 2048] st = true := by decide +kernel
def t413 : Tree := (.ref (.cut 0 (.cut 1 (.cut 2 .out (.cut 3 (.cut 0 .leaf (.cut 1 .leaf .leaf)) .out)) (.cut 2 .out (.cut 3 (.cut 0 (.cut 1 .leaf .leaf) (.cut 1 .leaf .leaf)) .out))) (.cut 1 (.cut 2 .out (.cut 3 (.cut 0 (.cut 1 .leaf .leaf) .leaf) .out)) (.cut 2 .out (.cut 3 (.cut 0 (.cut 1 .leaf .leaf) .leaf) .out)))))
theorem h413 : check par t413 [55296, 14336, 2048, 6144] [2048, 2048, 2048, 2048] st = true := by decide +kernel
def t414 : Tree := (.ref (.cut 0 (.cut 1 (.cut 2 (.cut 3 (.cut 0 (.cut 1 .leaf .leaf) (.cut 1 .leaf .leaf)) (.cut 0 .leaf (.cut 1 .leaf .leaf))) .leaf) (.cut 2 (.cut 3 (.cut 0 (.cut 1 .leaf .leaf) (.cut 1 .leaf .leaf)) (.cut 0 (.cut 1 .leaf .leaf) (.cut 1 .leaf .leaf))) (.cut 3 .leaf .leaf))) (.cut 1 (.cut 2 (.cut 3 (.cut 0 (.cut 1 .leaf .leaf) (.cut 1 .leaf .leaf)) (.cut 0 (.cut 1 .leaf .leaf) .leaf)) .leaf) (.cut 2 (.cut 3 (.cut 0 (.cut 1 .leaf .leaf) (.cut 1 .leaf .leaf)) (.cut 0 (.cut 1 .leaf .leaf) .leaf)) .leaf))))
theorem h414 : check par t414 [55296, 14336, 6144, 2048] [2048, 2048, 2048, 2048] st = true := by decide +kernel
def t415 : Tree := (.ref (.cut 0 (.cut 1 (.cut 2 (.cut 3 (.cut 0 .leaf .leaf) .leaf) .leaf) (.cut 2 (.cut 3 (.cut 0 .leaf .leaf) .leaf) (.cut 3 .leaf .leaf))) (.cut 1 (.cut 2 (.cut 3 (.cut 0 .leaf .leaf) .leaf) .leaf) (.cut 2 (.cut 3 (.cut 0 .leaf .leaf) .leaf) .leaf))))
theorem h415 : check par t415 [55296, 14336, 6144, 6144] [2048, 2048, 2048, 2048] st = true := by decide +kernel
def t416 : Tree := (.ref (.cut 0 (.cut 1 (.cut 2 .out (.cut 3 (.ref (.cut 0 .leaf .leaf)) .out)) (.cut 2 .out (.cut 3 (.cut 0 .leaf .leaf) .out))) (.cut 1 (.ref (.cut 2 .out (.cut 3 (.cut 0 .leaf .leaf) .out))) (.cut 2 .out (.ref (.cut 3 (.cut 0 (.cut 1 .leaf .leaf) (.cut 1 .leaf .leaf)) .out))))))
theorem h416 : check par t416 [53248, 12288, 4096, 12288] [4096, 4096, 4096, 4096] st = true := by decide +kernel
def t417 : Tree := (.ref (.cut 0 (.cut 1 (.ref (.cut 2 (.ref (.cut 3 (.cut 0 .leaf .leaf) (.cut 0 .leaf .leaf))) (.cut 3 (.ref (.cut 0 (.cut 1 .out .leaf) (.cut 1 .out .leaf))) (.ref (.cut 0 .leaf .leaf))))) (.cut 2 (.ref (.cut 3 (.ref (.cut 0 (.cut 1 .leaf .leaf) (.cut 1 .leaf .leaf))) (.cut 0 .leaf .leaf))) (.cut 3 .leaf .leaf))) (.cut 1 (.ref (.cut 2 (.cut 3 (.cut 0 .leaf .leaf) (.cut 0 .leaf .leaf)) (.cut 3 (.cut 0 (.cut 1 .out .leaf) (.cut 1 .out .leaf)) (.ref (.cut 0 .leaf (.cut 1 .out .leaf)))))) (.cut 2 (.ref (.cut 3 (.cut 0 (.cut 1 .leaf .leaf) (.cut 1 .leaf .leaf)) (.cut 0 (.cut 1 .leaf .leaf) (.cut 1 .leaf .leaf)))) (.ref (.cut 3 .leaf .leaf))))))
theorem h417 : check par t417 [53248, 12288, 12288, 4096] [4096, 4096, 4096, 4096] st = true := by decide +kernel
def t418 : Tree := (.ref (.cut 0 (.cut 1 (.cut 2 (.ref (.cut 3 (.cut 0 .leaf .leaf) (.ref (.cut 0 .leaf .leaf)))) (.ref (.cut 3 (.cut 0 .leaf .leaf) .leaf))) (.cut 2 (.ref (.cut 3 (.cut 0 .leaf .leaf) .leaf)) (.cut 3 .leaf .leaf))) (.cut 1 (.cut 2 (.cut 3 (.ref (.cut 0 .leaf .leaf)) (.ref (.cut 0 .leaf .leaf))) (.ref (.cut 3 (.cut 0 .leaf .leaf) .leaf))) (.cut 2 (.ref (.cut 3 (.cut 0 .leaf .leaf) .leaf)) (.cut 3 .leaf .leaf)))))
theorem h418 : check par t418 [53248, 12288, 12288, 12288] [4096, 4096, 4096, 4096] st = true := by decide +kernel
def t419 : Tree := (.ref (.cut 2 (.ref (.cut 3 (.cut 0 (.cut 1 (.ref (.cut 2 (.cut 3 .leaf .leaf) .leaf)) (.ref (.cut 2 .leaf .leaf))) .leaf) (.ref (.cut 0 (.cut 1 (.cut 2 .out (.cut 3 (.cut 0 (.cut 1 .out (.cut 2 .out .out)) .leaf) .out)) (.cut 2 .out (.cut 3 (.cut 0 (.cut 1 (.cut 2 .out .leaf) .leaf) .leaf) .out))) (.cut 1 (.cut 2 .out (.cut 3 .leaf .out)) (.cut 2 .out (.cut 3 .leaf .out))))))) (.ref (.cut 3 (.ref (.cut 0 (.cut 1 .out (.cut 2 (.cut 3 (.cut 0 (.cut 1 .out .leaf) .leaf) (.cut 0 (.cut 1 .out .leaf) .leaf)) .out)) (.cut 1 .out (.cut 2 .leaf .out)))) (.ref (.cut 0 (.cut 1 .out (.cut 2 (.ref (.cut 3 (.cut 0 .leaf .leaf) (.cut 0 (.cut 1 .out .leaf) .leaf))) .out)) (.cut 1 .out (.cut 2 (.ref (.cut 3 .leaf .leaf)) .out))))))))
theorem h419 : check par t419 [61440, 4096, 8192, 8192] [4096, 4096, 8192, 8192] st = true := by decide +kernel
def t420 : Tree := (.ref (.cut 2 (.cut 3 (.cut 0 (.cut 1 .leaf .leaf) .leaf) (.cut 0 (.cut 1 .leaf .leaf) .leaf)) (.cut 3 (.cut 0 (.cut 1 .leaf .leaf) .leaf) (.cut 0 (.cut 1 .leaf .leaf) .leaf))))
theorem h420 : check par t420 [59392, 10240, 4096, 4096] [2048, 2048, 4096, 4096] st = true := by decide +kernel
def t421 : Tree := (.ref (.cut 3 (.cut 0 (.cut 1 (.cut 2 (.cut 3 (.cut 0 .leaf .leaf) (.cut 0 (.cut 1 .leaf .leaf) .leaf)) (.cut 3 (.cut 0 (.cut 1 .leaf .leaf) .leaf) (.cut 0 .leaf .leaf))) (.cut 2 (.cut 3 (.cut 0 (.cut 1 .leaf .leaf) .leaf) (.cut 0 (.cut 1 .leaf .leaf) .leaf)) (.cut 3 (.cut 0 (.cut 1 .leaf .leaf) .leaf) (.cut 0 (.cut 1 .leaf .leaf) .leaf)))) (.cut 1 .leaf (.cut 2 .leaf (.cut 3 .leaf .leaf)))) (.cut 0 (.cut 1 (.cut 2 .out (.cut 3 (.cut 0 .leaf .leaf) .out)) (.cut 2 .out (.cut 3 (.cut 0 .leaf .leaf) .out))) (.cut 1 .leaf (.cut 2 .out .leaf)))))
theorem h421 : check par t421 [59392, 14336, 2048, 4096] [2048, 2048, 2048, 4096] st = true := by decide +kernel
def t422 : Tree := (.ref (.cut 3 (.cut 0 (.cut 1 (.cut 2 (.cut 3 (.cut 0 .leaf .leaf) (.cut 0 .leaf .leaf)) .leaf) (.cut 2 (.cut 3 (.cut 0 (.cut 1 .leaf .leaf) .leaf) (.cut 0 .leaf .leaf)) (.cut 3 .leaf .leaf))) (.cut 1 .leaf (.cut 2 (.cut 3 .leaf .leaf) .leaf))) (.cut 0 (.cut 1 (.cut 2 (.cut 3 .leaf .leaf) .leaf) (.cut 2 (.cut 3 (.cut 0 .leaf .leaf) .leaf) .leaf)) (.cut 1 .leaf (.cut 2 .leaf .leaf)))))
theorem h422 : check par t422 [59392, 14336, 6144, 4096] [2048, 2048, 2048, 4096] st = true := by decide +kernel
def t423 : Tree := (.ref (.cut 1 .leaf (.cut 2 (.cut 3 (.cut 0 (.cut 1 .leaf .leaf) .leaf) (.cut 0 (.cut 1 .leaf .leaf) .leaf)) (.cut 3 (.cut 0 (.cut 1 .leaf .leaf) .leaf) (.cut 0 .leaf .leaf)))))
theorem h423 : check par t423 [63488, 12288, 4096, 4096] [2048, 4096, 4096, 4096] st = true := by decide +kernel
def t424 : Tree := (.ref (.cut 0 (.cut 1 (.ref (.cut 2 .out (.cut 3 (.cut 0 .leaf .leaf) .out))) (.ref (.cut 2 .out (.cut 3 (.cut 0 (.cut 1 .leaf .leaf) .leaf) .out)))) (.cut 1 (.ref (.cut 2 .out (.cut 3 .leaf .out))) (.cut 2 .out (.cut 3 .leaf .out)))))
theorem h424 : check par t424 [61440, 12288, 4096, 12288] [4096, 4096, 4096, 4096] st = true := by decide +kernel
def t425 : Tree := (.ref (.cut 3 (.ref (.cut 0 (.cut 1 (.ref (.cut 2 (.cut 3 (.cut 0 .leaf .leaf) (.cut 0 .leaf .leaf)) (.cut 3 (.cut 0 (.cut 1 .out .leaf) .leaf) (.ref (.cut 0 (.cut 1 .out .leaf) .leaf))))) (.ref (.cut 2 (.ref (.cut 3 (.cut 0 (.cut 1 .leaf .leaf) (.cut 1 .leaf .leaf)) (.cut 0 (.cut 1 .leaf .leaf) .leaf))) (.cut 3 .leaf .leaf)))) (.ref (.cut 1 (.ref (.cut 2 .leaf (.cut 3 .leaf .leaf))) (.cut 2 (.ref (.cut 3 (.cut 0 .leaf .leaf) .leaf)) .leaf))))) (.ref (.cut 0 (.cut 1 (.ref (.cut 2 (.ref (.cut 3 .leaf (.ref (.cut 0 .leaf .leaf)))) (.ref (.cut 3 (.cut 0 .leaf .leaf) .leaf)))) (.ref (.cut 2 (.ref (.cut 3 (.cut 0 .leaf .leaf) .leaf)) (.cut 3 .leaf .leaf)))) (.ref (.cut 1 (.ref (.cut 2 (.cut 3 .leaf .leaf) (.cut 3 .leaf .leaf))) (.cut 2 (.ref (.cut 3 .leaf .leaf)) .leaf)))))))
theorem h425 : check par t425 [61440, 12288, 12288, 8192] [4096, 4096, 4096, 8192] st = true := by decide +kernel
def t426 : Tree := (.ref (.cut 0 (.cut 1 (.ref (.cut 2 .out (.cut 3 (.cut 0 (.cut 1 .out (.cut 2 .out .out)) (.cut 1 .out (.cut 2 .out .out))) .out))) (.cut 2 .out (.cut 3 (.cut 0 (.cut 1 (.ref (.cut 2 .out (.cut 3 .leaf .out))) (.cut 2 .out (.ref (.cut 3 .leaf .out)))) (.cut 1 (.ref (.cut 2 .out (.cut 3 .leaf .out))) (.cut 2 .out (.ref (.cut 3 .leaf .out))))) .out))) (.cut 1 (.ref (.cut 2 .out (.ref (.cut 3 (.cut 0 (.cut 1 .out (.cut 2 .out .out)) (.ref (.cut 1 .out (.cut 2 .out .out)))) .out)))) (.cut 2 .out (.cut 3 (.cut 0 (.cut 1 (.ref (.cut 2 .out (.cut 3 .leaf .out))) (.cut 2 .out (.ref (.cut 3 .leaf .out)))) (.cut 1 (.ref (.cut 2 .out (.ref (.cut 3 .leaf .out)))) (.cut 2 .out .leaf))) .out)))))
theorem h426 : check par t426 [57344, 8192, 8192, 24576] [8192, 8192, 8192, 8192] st = true := by decide +kernel
def t427 : Tree := (.ref (.cut 3 (.ref (.cut 0 (.cut 1 .out (.cut 2 (.cut 3 (.ref (.cut 0 (.cut 1 .out (.cut 2 (.cut 3 .leaf .leaf) .out)) (.cut 1 .out (.cut 2 (.cut 3 .leaf .leaf) .out)))) (.cut 0 (.cut 1 .out (.cut 2 (.ref (.cut 3 .leaf .leaf)) .out)) (.cut 1 .out (.cut 2 (.ref (.cut 3 .leaf .leaf)) .out)))) .out)) (.cut 1 .out (.cut 2 (.cut 3 (.ref (.cut 0 (.cut 1 .out (.cut 2 (.ref (.cut 3 .leaf .leaf)) .out)) (.ref (.cut 1 .out (.cut 2 .leaf .out))))) (.cut 0 (.cut 1 .out (.cut 2 (.ref (.cut 3 .leaf .leaf)) .out)) (.ref (.cut 1 .out (.cut 2 .leaf .out))))) .out)))) (.ref (.cut 0 (.cut 1 .out (.ref (.cut 2 (.ref (.cut 3 (.cut 0 (.cut 1 .out .leaf) (.cut 1 .out (.cut 2 .leaf .out))) (.cut 0 .leaf (.cut 1 .out .leaf)))) .out))) (.cut 1 .out (.ref (.cut 2 (.ref (.cut 3 (.cut 0 (.cut 1 .out (.cut 2 .leaf .out)) (.cut 1 .out .leaf)) (.cut 0 (.cut 1 .out (.cut 2 .out .out)) (.cut 1 .out (.cut 2 .out .out))))) .out)))))))
theorem h427 : check par t427 [57344, 8192, 24576, 16384] [8192, 8192, 8192, 16384] st = true := by decide +kernel
def t428 : Tree := (.ref (.cut 1 (.ref (.cut 2 (.cut 3 (.cut 0 (.cut 1 .leaf .leaf) (.cut 1 (.cut 2 (.cut 3 (.cut 0 .leaf .leaf) (.cut 0 .leaf .leaf)) (.cut 3 (.cut 0 .leaf .leaf) .leaf)) .leaf)) (.cut 0 (.cut 1 .leaf .leaf) (.cut 1 (.cut 2 .out (.cut 3 .leaf .out)) .leaf))) (.cut 3 (.cut 0 (.cut 1 .leaf .leaf) (.cut 1 (.cut 2 .leaf .leaf) .leaf)) (.cut 0 (.cut 1 .leaf .leaf) (.cut 1 (.cut 2 .leaf .leaf) .leaf))))) (.cut 2 (.ref (.cut 3 (.cut 0 .leaf (.cut 1 .leaf .leaf)) (.cut 0 .leaf (.cut 1 .leaf .leaf)))) (.cut 3 (.ref (.cut 0 .leaf (.ref (.cut 1 .leaf .leaf)))) (.ref (.cut 0 .leaf .leaf))))))
theorem h428 : check par t428 [51200, 20480, 4096, 4096] [2048, 4096, 4096, 4096] st = true := by decide +kernel
def t429 : Tree := (.ref (.cut 0 (.cut 1 (.cut 2 (.cut 3 (.cut 0 (.cut 1 .leaf .leaf) (.cut 1 .leaf .leaf)) (.cut 0 (.cut 1 .leaf .leaf) (.cut 1 .leaf .leaf))) (.cut 3 (.cut 0 (.cut 1 .leaf .leaf) (.cut 1 .leaf .leaf)) (.cut 0 .leaf (.cut 1 .leaf .leaf)))) (.cut 2 (.cut 3 .leaf (.ref .leaf)) (.cut 3 (.ref .leaf) .leaf))) (.cut 1 (.cut 2 (.cut 3 (.cut 0 (.cut 1 .leaf .leaf) (.cut 1 .leaf .leaf)) (.cut 0 (.cut 1 (.cut 2 .out .leaf) .leaf) (.cut 1 .leaf .leaf))) (.cut 3 (.cut 0 (.cut 1 (.cut 2 .leaf .leaf) .leaf) (.cut 1 .leaf .leaf)) (.cut 0 (.cut 1 .leaf .leaf) (.cut 1 .leaf .leaf)))) (.cut 2 (.cut 3 (.cut 0 .leaf .leaf) (.cut 0 .leaf (.cut 1 .leaf .leaf))) (.cut 3 (.cut 0 .leaf (.cut 1 .leaf .leaf)) (.cut 0 .leaf .leaf))))))
theorem h429 : check par t429 [55296, 18432, 2048, 2048] [2048, 2048, 2048, 2048] st = true := by decide +kernel
def t430 : Tree := (.ref (.cut 0 (.cut 1 (.cut 2 .out (.cut 3 (.cut 0 .leaf .leaf) .out)) (.cut 2 .out (.cut 3 .leaf .out))) (.cut 1 (.cut 2 .out (.cut 3 (.cut 0 (.cut 1 .leaf .leaf) .leaf) .out)) (.cut 2 .out (.cut 3 (.cut 0 .leaf .leaf) .out)))))
theorem h430 : check par t430 [55296, 18432, 2048, 6144] [2048, 2048, 2048, 2048] st = true := by decide +kernel
def t431 : Tree := (.ref (.cut 3 (.cut 0 (.cut 1 (.cut 2 (.cut 3 (.cut 0 .leaf (.cut 1 .leaf .leaf)) (.cut 0 .leaf .leaf)) (.cut 3 .leaf .leaf)) (.cut 2 .leaf .leaf)) (.cut 1 (.cut 2 (.cut 3 (.cut 0 (.cut 1 .leaf .leaf) (.cut 1 .leaf .leaf)) (.cut 0 (.cut 1 .leaf .leaf) .leaf)) (.cut 3 .leaf .leaf)) (.cut 2 (.cut 3 (.cut 0 .leaf .leaf) (.cut 0 .leaf .leaf)) (.cut 3 .leaf .leaf)))) (.cut 0 (.cut 1 (.cut 2 (.cut 3 (.cut 0 .leaf .leaf) .leaf) .leaf) (.cut 2 .leaf .leaf)) (.cut 1 (.cut 2 (.cut 3 (.cut 0 .leaf .leaf) .leaf) (.cut 3 .leaf .leaf)) (.cut 2 (.cut 3 .leaf .leaf) .leaf)))))
theorem h431 : check par t431 [55296, 18432, 6144, 4096] [2048, 2048, 2048, 4096] st = true := by decide +kernel
def t432 : Tree := (.ref (.cut 2 (.cut 3 (.cut 0 (.cut 1 (.cut 2 .leaf .leaf) .leaf) (.cut 1 (.cut 2 (.cut 3 .leaf .leaf) (.cut 3 .leaf .leaf)) .leaf)) (.cut 0 (.cut 1 .leaf .leaf) (.cut 1 (.cut 2 .out .leaf) .leaf))) (.cut 3 (.cut 0 (.cut 1 .leaf .leaf) (.cut 1 (.cut 2 .leaf .leaf) .leaf)) (.cut 0 (.cut 1 .leaf .leaf) (.cut 1 (.cut 2 .leaf .leaf) .leaf)))))
theorem h432 : check par t432 [55296, 22528, 4096, 4096] [2048, 2048, 4096, 4096] st = true := by decide +kernel
def t433 : Tree := (.ref (.cut 0 (.cut 1 (.cut 2 .out (.cut 3 (.cut 0 .leaf .leaf) .out)) (.cut 2 .out (.cut 3 (.cut 0 .leaf .leaf) .out))) (.cut 1 (.cut 2 .out (.cut 3 (.ref (.cut 0 (.cut 1 .leaf .leaf) (.cut 1 .leaf .leaf))) .out)) (.cut 2 .out (.cut 3 (.cut 0 .leaf (.ref (.cut 1 .leaf .leaf))) .out)))))
theorem h433 : check par t433 [53248, 20480, 4096, 12288] [4096, 4096, 4096, 4096] st = true := by decide +kernel
def t434 : Tree := (.ref (.cut 0 (.cut 1 (.cut 2 (.cut 3 (.ref (.cut 0 .leaf (.cut 1 .leaf .leaf))) (.ref (.cut 0 .leaf .leaf))) (.cut 3 .leaf .leaf)) (.cut 2 (.cut 3 (.ref (.cut 0 .leaf .leaf)) (.cut 0 .leaf .leaf)) (.cut 3 .leaf .leaf))) (.cut 1 (.cut 2 (.ref (.cut 3 (.cut 0 (.cut 1 .leaf .leaf) (.ref (.cut 1 .leaf .leaf))) (.ref (.cut 0 (.cut 1 .leaf .leaf) (.cut 1 .leaf .leaf))))) (.cut 3 (.ref (.cut 0 .leaf .leaf)) (.cut 0 .leaf .leaf))) (.cut 2 (.cut 3 (.ref (.cut 0 (.cut 1 .leaf .leaf) (.cut 1 .leaf .leaf))) (.cut 0 .leaf (.ref (.cut 1 .leaf .leaf)))) (.cut 3 (.ref (.cut 0 .leaf .leaf)) .leaf)))))
theorem h434 : check par t434 [53248, 20480, 12288, 4096] [4096, 4096, 4096, 4096] st = true := by decide +kernel
def t435 : Tree := (.ref (.cut 0 (.cut 1 (.ref (.cut 2 (.cut 3 (.cut 0 .leaf .leaf) .leaf) (.cut 3 .leaf .leaf))) (.cut 2 (.ref (.cut 3 .leaf .leaf)) .leaf)) (.cut 1 (.ref (.cut 2 (.cut 3 (.cut 0 .leaf (.cut 1 .leaf .leaf)) .leaf) (.cut 3 .leaf .leaf))) (.cut 2 (.ref (.cut 3 (.cut 0 .leaf .leaf) .leaf)) (.cut 3 .leaf .leaf)))))
theorem h435 : check par t435 [53248, 20480, 12288, 12288] [4096, 4096, 4096, 4096] st = true := by decide +kernel
def t436 : Tree := (.ref (.cut 3 (.cut 0 (.cut 1 (.cut 2 (.ref (.cut 3 (.cut 0 .leaf .leaf) .leaf)) (.cut 3 .leaf .leaf)) (.cut 2 (.ref (.cut 3 .leaf .leaf)) (.cut 3 .leaf .leaf))) (.ref (.cut 1 (.cut 2 (.ref (.cut 3 (.cut 0 (.cut 1 .leaf .leaf) (.cut 1 .leaf .leaf)) (.cut 0 .leaf (.cut 1 .leaf .leaf)))) (.cut 3 (.cut 0 .leaf (.cut 1 .leaf .leaf)) (.ref (.cut 0 .leaf (.cut 1 .leaf .leaf))))) (.cut 2 (.ref (.cut 3 (.cut 0 .leaf (.cut 1 .leaf .leaf)) (.cut 0 .leaf .leaf))) (.cut 3 (.cut 0 .leaf .leaf) (.cut 0 .leaf .leaf)))))) (.ref (.cut 0 (.cut 1 (.cut 2 .out (.cut 3 .leaf .out)) (.cut 2 .out .leaf)) (.cut 1 (.cut 2 .out (.cut 3 (.cut 0 .leaf .leaf) .out)) (.cut 2 .out (.cut 3 .leaf .out)))))))
theorem h436 : check par t436 [53248, 28672, 4096, 8192] [4096, 4096, 4096, 8192] st = true := by decide +kernel
def t437 : Tree := (.ref (.cut 3 (.ref (.cut 0 (.cut 1 (.cut 2 (.cut 3 .leaf .leaf) .leaf) (.cut 2 .leaf .leaf)) (.cut 1 (.cut 2 (.cut 3 (.ref (.cut 0 .leaf .leaf)) (.cut 0 .leaf .leaf)) (.cut 3 .leaf .leaf)) (.cut 2 (.cut 3 .leaf .leaf) .leaf)))) (.cut 0 (.cut 1 (.cut 2 .leaf .leaf) (.cut 2 .leaf .leaf)) (.cut 1 (.cut 2 (.ref (.cut 3 .leaf .leaf)) .leaf) (.cut 2 (.cut 3 .leaf .leaf) .leaf)))))
theorem h437 : check par t437 [53248, 28672, 12288, 8192] [4096, 4096, 4096, 8192] st = true := by decide +kernel
def t438 : Tree := (.ref (.cut 3 (.cut 0 (.cut 1 (.cut 2 (.cut 3 (.cut 0 (.cut 1 .leaf .leaf) .leaf) (.cut 0 (.cut 1 .leaf .leaf) .leaf)) (.cut 3 (.cut 0 (.cut 1 .leaf .leaf) .leaf) (.cut 0 (.cut 1 .leaf .leaf) .leaf))) (.cut 2 (.cut 3 (.cut 0 .leaf .leaf) (.cut 0 (.ref .leaf) .leaf)) (.cut 3 (.cut 0 (.ref .leaf) .leaf) (.cut 0 .leaf .leaf)))) (.cut 1 (.cut 2 (.cut 3 (.cut 0 .leaf .leaf) .leaf) (.cut 3 .leaf .leaf)) (.cut 2 (.cut 3 .leaf .leaf) (.cut 3 .leaf .leaf)))) (.cut 0 (.cut 1 (.cut 2 .out (.cut 3 (.cut 0 .leaf .leaf) .out)) (.cut 2 .out (.cut 3 .leaf .out))) (.cut 1 (.cut 2 .out (.cut 3 .leaf .out)) (.cut 2 .out (.cut 3 .leaf .out))))))
theorem h438 : check par t438 [59392, 18432, 2048, 4096] [2048, 2048, 2048, 4096] st = true := by decide +kernel
def t439 : Tree := (.ref (.cut 3 (.cut 0 (.cut 1 (.cut 2 (.cut 3 (.cut 0 .leaf .leaf) (.cut 0 .leaf .leaf)) .leaf) (.cut 2 (.cut 3 (.cut 0 .leaf .leaf) .leaf) (.cut 3 .leaf .leaf))) (.cut 1 (.cut 2 (.cut 3 .leaf .leaf) .leaf) (.cut 2 (.cut 3 .leaf .leaf) .leaf))) (.cut 0 (.cut 1 (.cut 2 (.cut 3 .leaf .leaf) .leaf) (.cut 2 (.cut 3 .leaf .leaf) .leaf)) (.cut 1 (.cut 2 .leaf .leaf) (.cut 2 .leaf .leaf)))))
theorem h439 : check par t439 [59392, 18432, 6144, 4096] [2048, 2048, 2048, 4096] st = true := by decide +kernel
def t440 : Tree := (.ref (.cut 2 (.cut 3 (.cut 0 (.cut 1 (.cut 2 (.cut 3 .leaf .leaf) (.cut 3 .leaf .leaf)) (.cut 2 .leaf .leaf)) (.cut 1 (.cut 2 .leaf (.cut 3 .leaf .leaf)) .leaf)) (.cut 0 (.cut 1 (.cut 2 .out (.cut 3 .leaf .out)) (.cut 2 .out .leaf)) (.cut 1 (.cut 2 .out .leaf) (.cut 2 .out .leaf)))) (.cut 3 (.cut 0 (.cut 1 (.cut 2 (.cut 3 .leaf .leaf) .leaf) (.cut 2 .leaf .leaf)) (.cut 1 (.cut 2 .leaf .leaf) (.cut 2 .leaf .leaf))) (.cut 0 (.cut 1 (.cut 2 (.cut 3 .leaf .leaf) .leaf) .leaf) (.cut 1 .leaf .leaf)))))
theorem h440 : check par t440 [59392, 22528, 4096, 4096] [2048, 2048, 4096, 4096] st = true := by decide +kernel
def t441 : Tree := (.ref (.cut 1 (.cut 2 (.cut 3 (.cut 0 (.cut 1 .leaf .leaf) (.ref (.cut 1 .leaf .leaf))) (.cut 0 (.cut 1 .leaf (.cut 2 .out .leaf)) (.ref (.cut 1 .leaf .leaf)))) (.cut 3 (.cut 0 (.cut 1 .leaf (.cut 2 .leaf .leaf)) (.ref (.cut 1 .leaf .leaf))) (.cut 0 (.cut 1 .leaf .leaf) .leaf))) (.cut 2 (.cut 3 (.cut 0 (.cut 1 .leaf .leaf) (.ref (.cut 1 .leaf .leaf))) (.cut 0 (.cut 1 (.cut 2 .out .leaf) .leaf) (.ref (.cut 1 .leaf .leaf)))) (.cut 3 (.cut 0 (.cut 1 (.cut 2 .leaf .leaf) .leaf) (.ref (.cut 1 .leaf .leaf))) (.cut 0 (.cut 1 .leaf .leaf) .leaf)))))
theorem h441 : check par t441 [63488, 20480, 4096, 4096] [2048, 4096, 4096, 4096] st = true := by decide +kernel
def t442 : Tree := (.ref (.cut 0 (.cut 1 (.ref (.cut 2 .out (.cut 3 (.cut 0 (.cut 1 .leaf .leaf) .leaf) .out))) (.cut 2 .out (.cut 3 (.ref (.cut 0 (.cut 1 .leaf .leaf) (.cut 1 .leaf .leaf))) .out))) (.ref (.cut 1 (.cut 2 .out (.cut 3 (.cut 0 .leaf .leaf) .out)) (.cut 2 .out (.cut 3 (.cut 0 (.cut 1 .leaf .leaf) .leaf) .out))))))
theorem h442 : check par t442 [61440, 20480, 4096, 12288] [4096, 4096, 4096, 4096] st = true := by decide +kernel
def t443 : Tree := (.ref (.cut 0 (.cut 1 (.ref (.cut 2 (.ref (.cut 3 (.cut 0 (.cut 1 .leaf .leaf) (.cut 1 .leaf .leaf)) (.cut 0 (.cut 1 .leaf .leaf) .leaf))) (.cut 3 .leaf .leaf))) (.cut 2 (.ref (.cut 3 (.cut 0 (.cut 1 .leaf .leaf) (.cut 1 .leaf .leaf)) (.ref (.cut 0 (.cut 1 .leaf .leaf) (.cut 1 .leaf .leaf))))) (.cut 3 (.ref (.cut 0 .leaf .leaf)) (.cut 0 .leaf .leaf)))) (.ref (.cut 1 (.cut 2 (.ref (.cut 3 (.cut 0 (.cut 1 .leaf .leaf) .leaf) (.cut 0 .leaf .leaf))) (.cut 3 .leaf .leaf)) (.cut 2 (.cut 3 (.cut 0 (.cut 1 .leaf .leaf) .leaf) (.ref (.cut 0 (.cut 1 .leaf .leaf) .leaf))) (.cut 3 .leaf .leaf))))))
theorem h443 : check par t443 [61440, 20480, 12288, 4096] [4096, 4096, 4096, 4096] st = true := by decide +kernel
def t444 : Tree := (.ref (.cut 0 (.cut 1 (.ref (.cut 2 (.cut 3 (.ref (.cut 0 .leaf .leaf)) .leaf) (.cut 3 .leaf .leaf))) (.cut 2 (.ref (.cut 3 (.cut 0 (.cut 1 .leaf .leaf) (.ref (.cut 1 .leaf .leaf))) (.ref (.cut 0 .leaf .leaf)))) (.cut 3 (.ref (.cut 0 .leaf .leaf)) .leaf))) (.ref (.cut 1 (.cut 2 (.ref (.cut 3 (.cut 0 .leaf .leaf) .leaf)) .leaf) (.cut 2 (.cut 3 (.ref (.cut 0 .leaf .leaf)) .leaf) (.cut 3 .leaf .leaf))))))
theorem h444 : check par t444 [61440, 20480, 12288, 12288] [4096, 4096, 4096, 4096] st = true := by decide +kernel
def t445 : Tree := (.ref (.cut 1 (.cut 2 (.ref (.cut 3 (.cut 0 (.cut 1 .leaf .leaf) (.cut 1 .leaf .leaf)) (.cut 0 (.cut 1 .leaf .leaf) (.cut 1 .leaf .leaf)))) (.cut 3 (.ref (.cut 0 (.cut 1 .leaf .leaf) (.cut 1 .leaf .leaf))) (.ref (.cut 0 (.cut 1 .leaf .leaf) (.cut 1 .leaf .leaf))))) (.cut 2 (.ref (.cut 3 (.cut 0 (.cut 1 .leaf .leaf) (.cut 1 .leaf .leaf)) (.cut 0 (.cut 1 .leaf .leaf) (.cut 1 .leaf .leaf)))) (.cut 3 (.cut 0 (.cut 1 .leaf .leaf) (.cut 1 .leaf .leaf)) (.ref (.cut 0 (.cut 1 .leaf .leaf) (.cut 1 .leaf .leaf)))))))
theorem h445 : check par t445 [59392, 28672, 4096, 4096] [2048, 4096, 4096, 4096] st = true := by decide +kernel
def t446 : Tree := (.ref (.cut 1 (.ref (.cut 2 (.cut 3 (.ref (.cut 0 (.cut 1 .leaf .leaf) (.cut 1 .leaf .leaf))) (.cut 0 (.cut 1 .leaf .leaf) (.ref (.cut 1 .leaf .leaf)))) (.cut 3 (.cut 0 (.cut 1 .leaf .leaf) (.ref (.cut 1 .leaf .leaf))) (.cut 0 (.cut 1 .leaf .leaf) (.cut 1 .leaf .leaf))))) (.cut 2 (.ref (.cut 3 (.ref (.cut 0 (.cut 1 .leaf .leaf) (.cut 1 .leaf .leaf))) (.cut 0 (.cut 1 .leaf .leaf) (.ref (.cut 1 .leaf .leaf))))) (.cut 3 (.cut 0 (.cut 1 .leaf .leaf) (.ref (.cut 1 .leaf .leaf))) (.ref (.cut 0 (.cut 1 .leaf .leaf) (.ref (.cut 1 .leaf .leaf))))))))
theorem h446 : check par t446 [63488, 28672, 4096, 4096] [2048, 4096, 4096, 4096] st = true := by decide +kernel
def t447 : Tree := (.ref (.cut 0 (.cut 1 (.cut 2 .out (.cut 3 (.ref (.cut 0 .leaf (.cut 1 .leaf .leaf))) .out)) (.cut 2 .out (.cut 3 (.ref (.cut 0 .leaf .leaf)) .out))) (.ref (.cut 1 (.cut 2 .out (.cut 3 (.cut 0 (.cut 1 .leaf .leaf) .leaf) .out)) (.cut 2 .out (.cut 3 (.cut 0 (.cut 1 .leaf .leaf) .leaf) .out))))))
theorem h447 : check par t447 [61440, 28672, 4096, 12288] [4096, 4096, 4096, 4096] st = true := by decide +kernel
def t448 : Tree := (.ref (.cut 0 (.cut 1 (.cut 2 (.ref (.cut 3 (.cut 0 (.cut 1 .leaf .leaf) (.cut 1 .leaf .leaf)) (.cut 0 (.cut 1 .leaf .leaf) (.cut 1 .leaf .leaf)))) (.cut 3 (.ref (.cut 0 .leaf .leaf)) .leaf)) (.cut 2 (.ref (.cut 3 (.cut 0 .leaf .leaf) (.cut 0 .leaf .leaf))) (.cut 3 .leaf .leaf))) (.ref (.cut 1 (.cut 2 (.cut 3 (.cut 0 (.cut 1 .leaf .leaf) (.ref (.cut 1 .leaf .leaf))) (.cut 0 (.cut 1 .leaf .leaf) .leaf)) (.cut 3 .leaf .leaf)) (.cut 2 (.cut 3 (.cut 0 (.cut 1 .leaf .leaf) (.ref (.cut 1 .leaf .leaf))) (.cut 0 (.cut 1 .leaf .leaf) .leaf)) (.cut 3 .leaf .leaf))))))
theorem h448 : check par t448 [61440, 28672, 12288, 4096] [4096, 4096, 4096, 4096] st = true := by decide +kernel
def t449 : Tree := (.ref (.cut 0 (.cut 1 (.cut 2 (.ref (.cut 3 (.cut 0 .leaf .leaf) .leaf)) (.cut 3 .leaf .leaf)) (.cut 2 (.cut 3 .leaf .leaf) (.cut 3 .leaf .leaf))) (.cut 1 (.cut 2 (.ref (.cut 3 (.ref (.cut 0 .leaf .leaf)) .leaf)) (.cut 3 .leaf .leaf)) (.cut 2 (.ref (.cut 3 (.ref (.cut 0 .leaf .leaf)) .leaf)) (.cut 3 .leaf .leaf)))))
theorem h449 : check par t449 [61440, 28672, 12288, 12288] [4096, 4096, 4096, 4096] st = true := by decide +kernel
end FastNoise.RangeCheck.OuterSimplex4
