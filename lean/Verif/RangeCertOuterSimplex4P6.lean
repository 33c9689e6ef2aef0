import Verif.RangeCertOuterSimplex4
/-! Generated by tools/rangecert/gen.py: a certificate for the checker `Verif.RangeCheck`. -/
namespace FastNoise.RangeCheck.OuterSimplex4
set_option maxRecDepth 1000000
def t518 : Tree := (.ref (.cut 0 (.cut 1 (.cut 2 (.cut 3 (.cut 0 .leaf .leaf) .leaf) (.cut 3 (.cut 0 (.cut 1 .leaf .leaf) (.cut 1 .leaf (.cut 2 .leaf .leaf))) .leaf)) (.cut 2 (.cut 3 .leaf .leaf) (.cut 3 (.cut 0 (.cut 1 (.cut 2 .leaf .leaf) (.cut 2 .leaf .leaf)) (.cut 1 (.cut 2 .leaf .leaf) (.cut 2 .leaf .leaf))) (.cut 0 .leaf (.cut 1 .leaf .leaf))))) (.cut 1 (.cut 2 (.cut 3 .leaf .leaf) (.cut 3 (.cut 0 (.cut 1 .leaf (.cut 2 .leaf .leaf)) (.cut 1 .leaf (.cut 2 .leaf .leaf))) (.cut 0 .leaf .leaf))) (.cut 2 (.cut 3 .leaf .leaf) (.cut 3 (.cut 0 (.cut 1 (.cut 2 .leaf .leaf) (.cut 2 .leaf .leaf)) (.cut 1 (.cut 2 .leaf .leaf) (.cut 2 .leaf .leaf))) (.cut 0 (.cut 1 .leaf .leaf) (.cut 1 .leaf .leaf)))))))
theorem h518 : check par t518 [65472, 53184, 12096, 64] [64, 64, 64, 64] st = true := by decide +kernel
def t519 : Tree := (.ref (.cut 0 (.cut 1 (.cut 2 .leaf .leaf) (.cut 2 .leaf .leaf)) (.cut 1 (.cut 2 .leaf .leaf) (.cut 2 .leaf .leaf))))
theorem h519 : check par t519 [65472, 53184, 12096, 192] [64, 64, 64, 64] st = true := by decide +kernel
def t520 : Tree := (.ref (.cut 2 (.cut 3 (.cut 0 (.cut 1 .leaf (.cut 2 .leaf .leaf)) (.cut 1 (.cut 2 .leaf .leaf) (.cut 2 .leaf (.cut 3 .leaf .leaf)))) (.cut 0 .leaf (.cut 1 .leaf .leaf))) (.cut 3 (.cut 0 (.cut 1 .leaf (.cut 2 .leaf .leaf)) (.cut 1 .leaf (.cut 2 .leaf .leaf))) (.cut 0 .leaf (.cut 1 .leaf .leaf)))))
theorem h520 : check par t520 [65440, 53152, 12224, 64] [32, 32, 64, 64] st = true := by decide +kernel
def t521 : Tree := (.ref (.cut 3 (.cut 0 (.cut 1 (.cut 2 .leaf .leaf) (.cut 2 .leaf .leaf)) (.cut 1 (.cut 2 (.cut 3 .leaf .leaf) (.cut 3 (.cut 0 .leaf (.cut 1 .leaf .leaf)) .leaf)) (.cut 2 (.cut 3 (.cut 0 .leaf (.cut 1 .leaf .leaf)) .leaf) (.cut 3 (.cut 0 .leaf (.cut 1 .leaf (.cut 2 .leaf .leaf))) .leaf)))) (.cut 0 (.cut 1 .leaf .leaf) (.cut 1 .leaf (.cut 2 .leaf .leaf)))))
theorem h521 : check par t521 [65440, 53216, 12192, 64] [32, 32, 32, 64] st = true := by decide +kernel
def t522 : Tree := (.ref (.cut 3 (.cut 0 (.cut 1 (.cut 2 .leaf .leaf) (.cut 2 (.cut 3 .leaf .leaf) .leaf)) (.cut 1 (.cut 2 (.cut 3 (.cut 0 .leaf (.cut 1 .leaf .leaf)) .leaf) (.cut 3 .leaf .leaf)) (.cut 2 (.cut 3 (.cut 0 (.cut 1 .leaf .leaf) (.cut 1 (.cut 2 .leaf .leaf) (.cut 2 .leaf .leaf))) (.cut 0 .leaf (.cut 1 .leaf .leaf))) (.cut 3 (.cut 0 (.cut 1 .leaf .leaf) (.cut 1 .leaf .leaf)) (.cut 0 .leaf (.cut 1 .leaf .leaf)))))) (.cut 0 (.cut 1 .leaf .leaf) (.cut 1 (.cut 2 .leaf .leaf) (.cut 2 .leaf .leaf)))))
theorem h522 : check par t522 [65440, 53216, 12256, 64] [32, 32, 32, 64] st = true := by decide +kernel
def t523 : Tree := (.ref (.cut 2 (.cut 3 (.cut 0 (.cut 1 (.cut 2 .leaf .leaf) (.cut 2 .leaf (.cut 3 .leaf .leaf))) (.cut 1 (.cut 2 .leaf .leaf) (.cut 2 .leaf .leaf))) (.cut 0 (.cut 1 .leaf .leaf) (.cut 1 .leaf .leaf))) (.cut 3 (.cut 0 (.cut 1 .leaf (.cut 2 .leaf .leaf)) (.cut 1 .leaf (.cut 2 .leaf .leaf))) (.cut 0 (.cut 1 .leaf .leaf) (.cut 1 .leaf .leaf)))))
theorem h523 : check par t523 [65504, 53152, 12224, 64] [32, 32, 64, 64] st = true := by decide +kernel
def t524 : Tree := (.ref (.cut 1 (.cut 2 (.cut 3 (.cut 0 .leaf .leaf) .leaf) (.cut 3 (.cut 0 (.cut 1 .leaf .leaf) (.cut 1 .leaf .leaf)) .leaf)) (.cut 2 (.cut 3 (.cut 0 (.cut 1 .leaf .leaf) (.cut 1 .leaf .leaf)) .leaf) (.cut 3 (.cut 0 (.cut 1 (.cut 2 .leaf .leaf) (.cut 2 .leaf .leaf)) (.cut 1 (.cut 2 .leaf .leaf) (.cut 2 .leaf .leaf))) (.cut 0 (.cut 1 .leaf .leaf) (.cut 1 .leaf (.cut 2 .leaf .leaf)))))))
theorem h524 : check par t524 [65488, 53216, 12192, 32] [16, 32, 32, 32] st = true := by decide +kernel
def t525 : Tree := (.ref (.cut 1 (.cut 2 (.cut 3 (.cut 0 .leaf .leaf) .leaf) (.cut 3 (.cut 0 (.cut 1 .leaf .leaf) (.cut 1 .leaf .leaf)) .leaf)) (.cut 2 (.cut 3 (.cut 0 (.cut 1 .leaf .leaf) (.cut 1 .leaf .leaf)) .leaf) (.cut 3 (.cut 0 (.cut 1 (.cut 2 .leaf .leaf) (.cut 2 .leaf .leaf)) (.cut 1 (.cut 2 .leaf .leaf) (.cut 2 .leaf .leaf))) (.cut 0 (.cut 1 .leaf (.cut 2 .leaf .leaf)) (.cut 1 .leaf (.cut 2 .leaf .leaf)))))))
theorem h525 : check par t525 [65520, 53216, 12192, 32] [16, 32, 32, 32] st = true := by decide +kernel
def t526 : Tree := (.ref (.cut 0 (.cut 1 (.cut 2 .leaf .leaf) (.cut 2 .leaf .leaf)) (.cut 1 (.cut 2 .leaf .leaf) (.cut 2 .leaf (.cut 3 .leaf .leaf)))))
theorem h526 : check par t526 [65504, 53216, 12192, 96] [32, 32, 32, 32] st = true := by decide +kernel
def t527 : Tree := (.ref (.cut 1 (.cut 2 (.cut 3 (.cut 0 (.cut 1 .leaf (.cut 2 .leaf .leaf)) (.cut 1 .leaf (.cut 2 .leaf .leaf))) (.cut 0 (.cut 1 .leaf .leaf) (.cut 1 .leaf .leaf))) (.cut 3 (.cut 0 .leaf .leaf) .leaf)) (.cut 2 (.cut 3 (.cut 0 (.cut 1 (.cut 2 .leaf .leaf) (.cut 2 .leaf (.cut 3 .leaf .leaf))) (.cut 1 (.cut 2 .leaf .leaf) (.cut 2 (.cut 3 .leaf .leaf) (.cut 3 (.cut 0 .leaf (.cut 1 .leaf .leaf)) (.cut 0 .leaf .leaf))))) (.cut 0 (.cut 1 .leaf .leaf) (.cut 1 (.cut 2 .leaf .leaf) (.cut 2 .leaf .leaf)))) (.cut 3 (.cut 0 (.cut 1 .leaf (.cut 2 .leaf .leaf)) (.cut 1 (.cut 2 .leaf .leaf) (.cut 2 (.cut 3 .leaf .leaf) .leaf))) (.cut 0 (.cut 1 .leaf .leaf) (.cut 1 .leaf (.cut 2 .leaf .leaf)))))))
theorem h527 : check par t527 [65488, 53216, 12256, 32] [16, 32, 32, 32] st = true := by decide +kernel
def t528 : Tree := (.ref (.cut 1 (.cut 2 (.cut 3 (.cut 0 (.cut 1 .leaf .leaf) (.cut 1 .leaf .leaf)) (.cut 0 (.cut 1 .leaf .leaf) (.cut 1 .leaf .leaf))) (.cut 3 .leaf .leaf)) (.cut 2 (.cut 3 (.cut 0 (.cut 1 (.cut 2 .leaf .leaf) (.cut 2 (.cut 3 .leaf .leaf) (.cut 3 (.cut 0 (.cut 1 .leaf .leaf) .leaf) (.cut 0 .leaf .leaf)))) (.cut 1 (.cut 2 .leaf .leaf) (.cut 2 .leaf (.cut 3 (.cut 0 .leaf .leaf) .leaf)))) (.cut 0 (.cut 1 (.cut 2 .leaf .leaf) (.cut 2 .leaf .leaf)) (.cut 1 .leaf (.cut 2 .leaf .leaf)))) (.cut 3 (.cut 0 (.cut 1 .leaf (.cut 2 .leaf .leaf)) (.cut 1 .leaf (.cut 2 .leaf .leaf))) (.cut 0 (.cut 1 .leaf (.cut 2 .leaf .leaf)) (.cut 1 .leaf (.cut 2 .leaf .leaf)))))))
theorem h528 : check par t528 [65520, 53216, 12256, 32] [16, 32, 32, 32] st = true := by decide +kernel
def t529 : Tree := (.ref (.cut 0 (.cut 1 (.cut 2 .leaf .leaf) (.cut 2 (.cut 3 .leaf .leaf) (.cut 3 (.cut 0 .leaf .leaf) .leaf))) (.cut 1 (.cut 2 .leaf .leaf) (.cut 2 (.cut 3 .leaf .leaf) (.cut 3 (.cut 0 (.cut 1 .leaf .leaf) (.cut 1 .leaf .leaf)) .leaf)))))
theorem h529 : check par t529 [65504, 53216, 12256, 96] [32, 32, 32, 32] st = true := by decide +kernel
def t530 : Tree := (.ref (.cut 0 (.cut 1 (.cut 2 .leaf .leaf) (.cut 2 .leaf (.cut 3 .leaf .leaf))) (.cut 1 (.cut 2 .leaf (.cut 3 .leaf .leaf)) (.cut 2 (.cut 3 .leaf .leaf) (.cut 3 (.cut 0 .leaf (.cut 1 .leaf .leaf)) .leaf)))))
theorem h530 : check par t530 [65472, 53184, 12224, 192] [64, 64, 64, 64] st = true := by decide +kernel
def t531 : Tree := (.ref (.cut 0 (.cut 1 (.cut 2 .leaf .leaf) (.cut 2 .leaf .leaf)) (.cut 1 (.cut 2 .leaf (.cut 3 .leaf .leaf)) (.cut 2 (.cut 3 .leaf .leaf) (.cut 3 .leaf .leaf)))))
theorem h531 : check par t531 [65408, 53120, 12160, 384] [128, 128, 128, 128] st = true := by decide +kernel
def t532 : Tree := (.ref (.cut 0 (.cut 1 (.cut 2 .leaf .leaf) (.cut 2 .leaf .leaf)) (.cut 1 (.cut 2 .leaf (.cut 3 .leaf .leaf)) (.cut 2 (.cut 3 .leaf .leaf) (.cut 3 .leaf .leaf)))))
theorem h532 : check par t532 [65280, 52992, 12032, 768] [256, 256, 256, 256] st = true := by decide +kernel
def t533 : Tree := (.ref (.cut 0 (.cut 1 (.cut 2 .leaf .leaf) (.cut 2 .leaf .leaf)) (.cut 1 (.cut 2 .leaf (.cut 3 .leaf .leaf)) (.cut 2 (.cut 3 .leaf .leaf) (.cut 3 .leaf .leaf)))))
theorem h533 : check par t533 [65024, 52736, 11776, 1536] [512, 512, 512, 512] st = true := by decide +kernel
def t534 : Tree := (.ref (.cut 0 (.cut 1 (.cut 2 .leaf .leaf) (.cut 2 .leaf .leaf)) (.cut 1 (.cut 2 (.cut 3 .leaf .leaf) (.cut 3 .leaf .leaf)) (.cut 2 (.cut 3 .leaf .leaf) (.cut 3 (.cut 0 .leaf .leaf) .leaf)))))
theorem h534 : check par t534 [64512, 52224, 11264, 3072] [1024, 1024, 1024, 1024] st = true := by decide +kernel
def t535 : Tree := (.ref (.cut 0 (.cut 1 (.cut 2 .leaf (.cut 3 .leaf .leaf)) (.cut 2 .leaf (.cut 3 .leaf .leaf))) (.cut 1 (.cut 2 (.cut 3 .leaf .leaf) (.cut 3 (.cut 0 .leaf .leaf) .leaf)) (.cut 2 (.cut 3 .leaf .leaf) (.cut 3 (.cut 0 .leaf (.cut 1 .leaf .leaf)) .leaf)))))
theorem h535 : check par t535 [63488, 51200, 10240, 6144] [2048, 2048, 2048, 2048] st = true := by decide +kernel
def t536 : Tree := (.ref (.cut 1 (.cut 2 (.cut 3 (.cut 0 (.cut 1 .leaf (.cut 2 .leaf .leaf)) (.cut 1 .leaf (.cut 2 .leaf .leaf))) (.cut 0 .leaf (.cut 1 .leaf .leaf))) (.cut 3 (.cut 0 .leaf .leaf) .leaf)) (.cut 2 (.cut 3 (.cut 0 (.cut 1 (.cut 2 .leaf .leaf) (.cut 2 .leaf .leaf)) (.cut 1 (.cut 2 (.cut 3 (.cut 0 .leaf .leaf) .leaf) .leaf) (.cut 2 (.cut 3 (.cut 0 .leaf (.cut 1 .leaf .leaf)) .leaf) (.cut 3 .leaf .leaf)))) (.cut 0 (.cut 1 .leaf .leaf) (.cut 1 (.cut 2 .leaf .leaf) (.cut 2 .leaf .leaf)))) (.cut 3 (.cut 0 (.cut 1 .leaf .leaf) (.cut 1 .leaf (.cut 2 .leaf .leaf))) (.cut 0 .leaf (.cut 1 .leaf .leaf))))))
theorem h536 : check par t536 [62464, 51200, 14336, 2048] [1024, 2048, 2048, 2048] st = true := by decide +kernel
def t537 : Tree := (.ref (.cut 2 (.cut 3 (.cut 0 (.cut 1 (.cut 2 .leaf .leaf) (.cut 2 (.cut 3 .leaf .leaf) .leaf)) (.cut 1 (.cut 2 .leaf .leaf) (.cut 2 (.cut 3 .leaf .leaf) .leaf))) (.cut 0 (.cut 1 .leaf (.cut 2 .leaf .leaf)) (.cut 1 .leaf (.cut 2 .leaf .leaf)))) (.cut 3 (.cut 0 (.cut 1 .leaf .leaf) (.cut 1 .leaf .leaf)) (.cut 0 .leaf .leaf))))
theorem h537 : check par t537 [64512, 50176, 14336, 2048] [1024, 1024, 2048, 2048] st = true := by decide +kernel
def t538 : Tree := (.ref (.cut 1 (.cut 2 (.cut 3 (.cut 0 (.cut 1 .leaf .leaf) (.cut 1 .leaf (.cut 2 .leaf .leaf))) (.cut 0 .leaf (.cut 1 .leaf .leaf))) (.cut 3 .leaf .leaf)) (.cut 2 (.cut 3 (.cut 0 (.cut 1 (.cut 2 .leaf .leaf) (.cut 2 .leaf .leaf)) (.cut 1 (.cut 2 (.cut 3 .leaf .leaf) .leaf) (.cut 2 (.cut 3 (.cut 0 .leaf (.cut 1 .leaf .leaf)) .leaf) (.cut 3 .leaf .leaf)))) (.cut 0 (.cut 1 .leaf .leaf) (.cut 1 .leaf (.cut 2 .leaf .leaf)))) (.cut 3 (.cut 0 (.cut 1 .leaf .leaf) (.cut 1 .leaf (.cut 2 .leaf .leaf))) (.cut 0 .leaf (.cut 1 .leaf .leaf))))))
theorem h538 : check par t538 [64000, 52224, 13312, 1024] [512, 1024, 1024, 1024] st = true := by decide +kernel
def t539 : Tree := (.ref (.cut 2 (.cut 3 (.cut 0 (.cut 1 .leaf (.cut 2 .leaf .leaf)) (.cut 1 .leaf (.cut 2 (.cut 3 .leaf .leaf) .leaf))) (.cut 0 (.cut 1 .leaf .leaf) (.cut 1 .leaf (.cut 2 .leaf .leaf)))) (.cut 3 (.cut 0 .leaf .leaf) .leaf)))
theorem h539 : check par t539 [65024, 51712, 13312, 1024] [512, 512, 1024, 1024] st = true := by decide +kernel
def t540 : Tree := (.ref (.cut 1 (.cut 2 (.cut 3 (.cut 0 (.cut 1 .leaf .leaf) (.cut 1 .leaf (.cut 2 .leaf .leaf))) (.cut 0 .leaf (.cut 1 .leaf .leaf))) (.cut 3 .leaf .leaf)) (.cut 2 (.cut 3 (.cut 0 (.cut 1 (.cut 2 .leaf .leaf) (.cut 2 .leaf .leaf)) (.cut 1 (.cut 2 (.cut 3 .leaf .leaf) .leaf) (.cut 2 (.cut 3 (.cut 0 .leaf (.cut 1 .leaf .leaf)) .leaf) .leaf))) (.cut 0 (.cut 1 .leaf .leaf) (.cut 1 .leaf (.cut 2 .leaf .leaf)))) (.cut 3 (.cut 0 (.cut 1 .leaf .leaf) (.cut 1 .leaf .leaf)) (.cut 0 .leaf (.cut 1 .leaf .leaf))))))
theorem h540 : check par t540 [64768, 52736, 12800, 512] [256, 512, 512, 512] st = true := by decide +kernel
def t541 : Tree := (.ref (.cut 2 (.cut 3 (.cut 0 (.cut 1 .leaf (.cut 2 .leaf .leaf)) (.cut 1 .leaf (.cut 2 .leaf .leaf))) (.cut 0 (.cut 1 .leaf .leaf) (.cut 1 .leaf .leaf))) (.cut 3 .leaf .leaf)))
theorem h541 : check par t541 [65280, 52480, 12800, 512] [256, 256, 512, 512] st = true := by decide +kernel
def t542 : Tree := (.ref (.cut 1 (.cut 2 (.cut 3 (.cut 0 (.cut 1 .leaf .leaf) (.cut 1 .leaf (.cut 2 .leaf .leaf))) (.cut 0 .leaf .leaf)) .leaf) (.cut 2 (.cut 3 (.cut 0 (.cut 1 (.cut 2 .leaf .leaf) (.cut 2 .leaf .leaf)) (.cut 1 (.cut 2 (.cut 3 .leaf .leaf) .leaf) (.cut 2 (.cut 3 (.cut 0 .leaf (.cut 1 .leaf .leaf)) .leaf) .leaf))) (.cut 0 (.cut 1 .leaf .leaf) (.cut 1 .leaf (.cut 2 .leaf .leaf)))) (.cut 3 (.cut 0 .leaf (.cut 1 .leaf .leaf)) (.cut 0 .leaf .leaf)))))
theorem h542 : check par t542 [65152, 52992, 12544, 256] [128, 256, 256, 256] st = true := by decide +kernel
def t543 : Tree := (.ref (.cut 2 (.cut 3 (.cut 0 (.cut 1 .leaf (.cut 2 .leaf .leaf)) (.cut 1 .leaf (.cut 2 .leaf .leaf))) (.cut 0 (.cut 1 .leaf .leaf) (.cut 1 .leaf .leaf))) .leaf))
theorem h543 : check par t543 [65408, 52864, 12544, 256] [128, 128, 256, 256] st = true := by decide +kernel
def t544 : Tree := (.ref (.cut 1 (.cut 2 (.cut 3 (.cut 0 (.cut 1 .leaf .leaf) (.cut 1 .leaf .leaf)) .leaf) .leaf) (.cut 2 (.cut 3 (.cut 0 (.cut 1 .leaf (.cut 2 .leaf .leaf)) (.cut 1 (.cut 2 .leaf .leaf) (.cut 2 (.cut 3 (.cut 0 .leaf (.cut 1 .leaf .leaf)) .leaf) .leaf))) (.cut 0 (.cut 1 .leaf .leaf) (.cut 1 .leaf (.cut 2 .leaf .leaf)))) (.cut 3 (.cut 0 .leaf (.cut 1 .leaf .leaf)) .leaf))))
theorem h544 : check par t544 [65344, 53120, 12416, 128] [64, 128, 128, 128] st = true := by decide +kernel
def t545 : Tree := (.ref (.cut 2 (.cut 3 (.cut 0 (.cut 1 .leaf .leaf) (.cut 1 .leaf .leaf)) (.cut 0 (.cut 1 .leaf .leaf) (.cut 1 .leaf .leaf))) .leaf))
theorem h545 : check par t545 [65472, 53056, 12416, 128] [64, 64, 128, 128] st = true := by decide +kernel
def t546 : Tree := (.ref (.cut 3 (.cut 0 (.cut 1 (.cut 2 (.cut 3 .leaf .leaf) .leaf) (.cut 2 (.cut 3 (.cut 0 (.cut 1 .leaf (.cut 2 .leaf .leaf)) (.cut 1 .leaf (.cut 2 .leaf .leaf))) (.cut 0 (.cut 1 .leaf .leaf) (.cut 1 .leaf (.cut 2 .leaf .leaf)))) (.cut 3 .leaf .leaf))) (.cut 1 (.cut 2 (.cut 3 .leaf .leaf) .leaf) (.cut 2 (.cut 3 (.cut 0 (.cut 1 (.cut 2 .leaf .leaf) (.cut 2 (.cut 3 (.cut 0 .leaf .leaf) (.cut 0 .leaf .leaf)) .leaf)) (.cut 1 (.cut 2 .leaf .leaf) (.cut 2 (.cut 3 (.cut 0 .leaf .leaf) (.cut 0 .leaf .leaf)) .leaf))) (.cut 0 (.cut 1 .leaf (.cut 2 .leaf .leaf)) (.cut 1 .leaf (.cut 2 .leaf .out)))) (.cut 3 .leaf .leaf)))) (.cut 0 (.cut 1 (.cut 2 .leaf .leaf) (.cut 2 (.cut 3 .leaf .leaf) .leaf)) (.cut 1 (.cut 2 .leaf .leaf) (.cut 2 (.cut 3 (.cut 0 .leaf .out) .out) .out)))))
theorem h546 : check par t546 [65472, 53184, 12352, 128] [64, 64, 64, 128] st = true := by decide +kernel
def t547 : Tree := (.ref (.cut 3 (.cut 0 (.cut 1 .leaf .leaf) (.cut 1 .leaf .leaf)) (.cut 0 (.cut 1 .leaf .out) .out)))
theorem h547 : check par t547 [65472, 53184, 12480, 128] [64, 64, 64, 128] st = true := by decide +kernel
def t548 : Tree := (.ref (.cut 0 (.cut 1 (.cut 2 .leaf .leaf) (.cut 2 (.cut 3 .leaf .leaf) .leaf)) (.cut 1 (.cut 2 .leaf .leaf) (.cut 2 (.cut 3 (.cut 0 .leaf .out) .out) .out))))
theorem h548 : check par t548 [65408, 53120, 12416, 384] [128, 128, 128, 128] st = true := by decide +kernel
def t549 : Tree := (.ref (.cut 3 (.cut 0 (.cut 1 .leaf (.cut 2 .leaf .leaf)) (.cut 1 .leaf (.cut 2 .leaf .out))) (.cut 0 (.cut 1 .leaf .out) .out)))
theorem h549 : check par t549 [65408, 53120, 12672, 256] [128, 128, 128, 256] st = true := by decide +kernel
def t550 : Tree := (.ref (.cut 0 (.cut 1 (.cut 2 .leaf .leaf) (.cut 2 (.cut 3 .leaf .leaf) .leaf)) (.cut 1 (.cut 2 .leaf .leaf) (.cut 2 (.cut 3 (.cut 0 .leaf .out) .out) .out))))
theorem h550 : check par t550 [65280, 52992, 12544, 768] [256, 256, 256, 256] st = true := by decide +kernel
def t551 : Tree := (.ref (.cut 3 (.cut 0 (.cut 1 .leaf (.cut 2 .leaf .leaf)) (.cut 1 .leaf (.cut 2 .leaf .out))) (.cut 0 (.cut 1 .leaf .out) .out)))
theorem h551 : check par t551 [65280, 52992, 13056, 512] [256, 256, 256, 512] st = true := by decide +kernel
def t552 : Tree := (.ref (.cut 0 (.cut 1 (.cut 2 .leaf .leaf) (.cut 2 (.cut 3 .leaf .leaf) .leaf)) (.cut 1 (.cut 2 (.cut 3 .leaf .leaf) .leaf) (.cut 2 (.cut 3 (.cut 0 .leaf .out) .out) .out))))
theorem h552 : check par t552 [65024, 52736, 12800, 1536] [512, 512, 512, 512] st = true := by decide +kernel
def t553 : Tree := (.ref (.cut 3 (.cut 0 (.cut 1 .leaf (.cut 2 .leaf .leaf)) (.cut 1 .leaf (.cut 2 (.cut 3 .leaf .out) .out))) (.cut 0 (.cut 1 .leaf .out) .out)))
theorem h553 : check par t553 [65024, 52736, 13824, 1024] [512, 512, 512, 1024] st = true := by decide +kernel
def t554 : Tree := (.ref (.cut 0 (.cut 1 (.cut 2 .leaf .leaf) (.cut 2 (.cut 3 .leaf .leaf) .leaf)) (.cut 1 (.cut 2 (.cut 3 .leaf .leaf) .leaf) (.cut 2 (.cut 3 (.cut 0 .leaf .out) .out) .out))))
theorem h554 : check par t554 [64512, 52224, 13312, 3072] [1024, 1024, 1024, 1024] st = true := by decide +kernel
def t555 : Tree := (.ref (.cut 3 (.cut 0 (.cut 1 (.cut 2 .leaf .leaf) (.cut 2 (.cut 3 .leaf .leaf) .leaf)) (.cut 1 (.cut 2 .leaf .leaf) (.cut 2 (.cut 3 .leaf .out) .out))) (.cut 0 (.cut 1 .leaf .out) .out)))
theorem h555 : check par t555 [64512, 52224, 15360, 2048] [1024, 1024, 1024, 2048] st = true := by decide +kernel
def t556 : Tree := (.ref (.cut 0 (.cut 1 (.cut 2 (.cut 3 .leaf .leaf) .leaf) (.cut 2 (.cut 3 .leaf .leaf) (.cut 3 .leaf .out))) (.cut 1 (.cut 2 (.cut 3 (.cut 0 .leaf .leaf) .leaf) (.cut 3 .leaf .out)) (.cut 2 (.cut 3 (.cut 0 (.cut 1 .leaf .out) .out) .out) .out))))
theorem h556 : check par t556 [63488, 51200, 14336, 6144] [2048, 2048, 2048, 2048] st = true := by decide +kernel
def t557 : Tree := (.ref (.cut 1 (.cut 2 (.cut 3 (.cut 0 (.cut 1 .leaf .leaf) (.cut 1 (.cut 2 .leaf .leaf) .leaf)) (.cut 0 .leaf (.cut 1 .leaf .leaf))) (.cut 3 (.cut 0 (.cut 1 (.cut 2 .leaf .leaf) (.cut 2 .leaf .leaf)) (.cut 1 (.cut 2 (.cut 3 .leaf .leaf) (.cut 3 (.cut 0 .leaf (.cut 1 .leaf .leaf)) .leaf)) (.cut 2 .leaf (.cut 3 .leaf .leaf)))) (.cut 0 (.cut 1 .leaf .leaf) (.cut 1 (.cut 2 .leaf .leaf) .leaf)))) (.cut 2 .leaf (.cut 3 (.cut 0 .leaf (.cut 1 .leaf .leaf)) (.cut 0 .leaf (.cut 1 .leaf .leaf))))))
theorem h557 : check par t557 [62464, 55296, 10240, 2048] [1024, 2048, 2048, 2048] st = true := by decide +kernel
def t558 : Tree := (.ref (.cut 3 (.cut 0 (.cut 1 (.cut 2 .leaf .leaf) .leaf) (.cut 1 (.cut 2 .leaf .leaf) .leaf)) (.cut 0 (.cut 1 .leaf .leaf) (.cut 1 .leaf .leaf))))
theorem h558 : check par t558 [64512, 54272, 9216, 2048] [1024, 1024, 1024, 2048] st = true := by decide +kernel
def t559 : Tree := (.ref (.cut 1 (.cut 2 (.cut 3 (.cut 0 (.cut 1 .leaf .leaf) (.cut 1 (.cut 2 .leaf .leaf) .leaf)) (.cut 0 .leaf (.cut 1 .leaf .leaf))) (.cut 3 (.cut 0 (.cut 1 (.cut 2 .leaf .leaf) .leaf) (.cut 1 (.cut 2 (.cut 3 (.cut 0 .leaf .leaf) .leaf) (.cut 3 (.cut 0 .leaf (.cut 1 .leaf .leaf)) .leaf)) (.cut 2 .leaf (.cut 3 .leaf .leaf)))) (.cut 0 (.cut 1 .leaf .leaf) (.cut 1 (.cut 2 .leaf .leaf) .leaf)))) (.cut 2 .leaf (.cut 3 (.cut 0 (.cut 1 .leaf .leaf) (.cut 1 (.cut 2 .leaf .leaf) .leaf)) (.cut 0 .leaf (.cut 1 .leaf .leaf))))))
theorem h559 : check par t559 [64000, 54272, 11264, 1024] [512, 1024, 1024, 1024] st = true := by decide +kernel
def t560 : Tree := (.ref (.cut 3 (.cut 0 (.cut 1 (.cut 2 .leaf (.cut 3 .leaf .leaf)) .leaf) (.cut 1 (.cut 2 .leaf (.cut 3 .leaf .leaf)) .leaf)) (.cut 0 (.cut 1 .leaf .leaf) (.cut 1 .leaf .leaf))))
theorem h560 : check par t560 [65024, 53760, 10752, 1024] [512, 512, 512, 1024] st = true := by decide +kernel
def t561 : Tree := (.ref (.cut 1 (.cut 2 (.cut 3 (.cut 0 (.cut 1 .leaf .leaf) (.cut 1 (.cut 2 .leaf .leaf) .leaf)) (.cut 0 .leaf (.cut 1 .leaf .leaf))) (.cut 3 (.cut 0 (.cut 1 (.cut 2 .leaf .leaf) (.cut 2 .leaf .leaf)) (.cut 1 (.cut 2 (.cut 3 (.cut 0 .leaf .leaf) .leaf) (.cut 3 (.cut 0 .leaf (.cut 1 .leaf .leaf)) .leaf)) (.cut 2 .leaf (.cut 3 .leaf .leaf)))) (.cut 0 (.cut 1 .leaf .leaf) (.cut 1 (.cut 2 .leaf .leaf) .leaf)))) (.cut 2 (.cut 3 .leaf .leaf) (.cut 3 (.cut 0 (.cut 1 .leaf .leaf) (.cut 1 (.cut 2 .leaf .leaf) .leaf)) (.cut 0 .leaf (.cut 1 .leaf .leaf))))))
theorem h561 : check par t561 [64768, 53760, 11776, 512] [256, 512, 512, 512] st = true := by decide +kernel
def t562 : Tree := (.ref (.cut 3 (.cut 0 (.cut 1 (.cut 2 .leaf (.cut 3 .leaf .leaf)) .leaf) (.cut 1 (.cut 2 .leaf (.cut 3 .leaf .leaf)) (.cut 2 .leaf .leaf))) (.cut 0 (.cut 1 .leaf .leaf) (.cut 1 (.cut 2 .leaf .leaf) .leaf))))
theorem h562 : check par t562 [65280, 53504, 11520, 512] [256, 256, 256, 512] st = true := by decide +kernel
def t563 : Tree := (.ref (.cut 1 (.cut 2 (.cut 3 (.cut 0 (.cut 1 (.cut 2 .leaf .leaf) .leaf) (.cut 1 (.cut 2 .leaf .leaf) .leaf)) (.cut 0 .leaf (.cut 1 .leaf .leaf))) (.cut 3 (.cut 0 (.cut 1 (.cut 2 .leaf .leaf) (.cut 2 .leaf .leaf)) (.cut 1 (.cut 2 (.cut 3 (.cut 0 .leaf (.cut 1 .leaf .leaf)) .leaf) (.cut 3 (.cut 0 .leaf (.cut 1 .leaf .leaf)) .leaf)) (.cut 2 .leaf (.cut 3 .leaf .leaf)))) (.cut 0 (.cut 1 .leaf .leaf) (.cut 1 (.cut 2 .leaf .leaf) (.cut 2 .leaf .leaf))))) (.cut 2 (.cut 3 .leaf .leaf) (.cut 3 (.cut 0 (.cut 1 .leaf .leaf) (.cut 1 (.cut 2 .leaf .leaf) .leaf)) (.cut 0 .leaf (.cut 1 .leaf .leaf))))))
theorem h563 : check par t563 [65152, 53504, 12032, 256] [128, 256, 256, 256] st = true := by decide +kernel
def t564 : Tree := (.ref (.cut 3 (.cut 0 (.cut 1 (.cut 2 .leaf (.cut 3 (.cut 0 .leaf .leaf) .leaf)) (.cut 2 .leaf .leaf)) (.cut 1 (.cut 2 .leaf (.cut 3 (.cut 0 (.cut 1 .leaf .leaf) (.cut 1 .leaf .leaf)) .leaf)) (.cut 2 .leaf .leaf))) (.cut 0 (.cut 1 (.cut 2 .leaf .leaf) .leaf) (.cut 1 (.cut 2 .leaf .leaf) .leaf))))
theorem h564 : check par t564 [65408, 53376, 11904, 256] [128, 128, 128, 256] st = true := by decide +kernel
def t565 : Tree := (.ref (.cut 1 (.cut 2 (.cut 3 (.cut 0 (.cut 1 (.cut 2 .leaf .leaf) .leaf) (.cut 1 (.cut 2 .leaf (.cut 3 (.cut 0 .leaf .leaf) .leaf)) (.cut 2 .leaf .leaf))) (.cut 0 (.cut 1 .leaf .leaf) (.cut 1 .leaf .leaf))) (.cut 3 (.cut 0 (.cut 1 (.cut 2 .leaf .leaf) (.cut 2 .leaf .leaf)) (.cut 1 (.cut 2 (.cut 3 (.cut 0 .leaf (.cut 1 .leaf .leaf)) .leaf) (.cut 3 (.cut 0 .leaf (.cut 1 .leaf .leaf)) .leaf)) (.cut 2 (.cut 3 .leaf .leaf) (.cut 3 (.cut 0 .leaf (.cut 1 .leaf .leaf)) .leaf)))) (.cut 0 (.cut 1 .leaf .leaf) (.cut 1 (.cut 2 .leaf .leaf) (.cut 2 .leaf .leaf))))) (.cut 2 (.cut 3 (.cut 0 .leaf (.cut 1 .leaf .leaf)) .leaf) (.cut 3 (.cut 0 (.cut 1 .leaf .leaf) (.cut 1 (.cut 2 .leaf .leaf) .leaf)) (.cut 0 .leaf (.cut 1 .leaf .leaf))))))
theorem h565 : check par t565 [65344, 53376, 12160, 128] [64, 128, 128, 128] st = true := by decide +kernel
def t566 : Tree := (.ref (.cut 3 (.cut 0 (.cut 1 (.cut 2 .leaf (.cut 3 (.cut 0 (.cut 1 .leaf .leaf) (.cut 1 .leaf .leaf)) (.cut 0 .leaf .leaf))) (.cut 2 .leaf .leaf)) (.cut 1 (.cut 2 .leaf (.cut 3 (.cut 0 (.cut 1 (.cut 2 .leaf .leaf) .leaf) (.cut 1 .leaf .leaf)) (.cut 0 (.cut 1 .leaf .leaf) (.cut 1 .leaf .leaf)))) (.cut 2 .leaf .leaf))) (.cut 0 (.cut 1 (.cut 2 .leaf .leaf) .leaf) (.cut 1 (.cut 2 .leaf .leaf) (.cut 2 .leaf .leaf)))))
theorem h566 : check par t566 [65472, 53312, 12096, 128] [64, 64, 64, 128] st = true := by decide +kernel
def t567 : Tree := (.ref (.cut 3 (.cut 0 (.cut 1 (.cut 2 .leaf (.cut 3 .leaf .leaf)) (.cut 2 .leaf .leaf)) (.cut 1 (.cut 2 (.cut 3 .leaf .leaf) (.cut 3 (.cut 0 (.cut 1 .leaf .leaf) (.cut 1 (.cut 2 .leaf .leaf) .leaf)) (.cut 0 .leaf (.cut 1 .leaf .leaf)))) (.cut 2 .leaf (.cut 3 .leaf .leaf)))) (.cut 0 (.cut 1 .leaf .leaf) (.cut 1 (.cut 2 .leaf .leaf) (.cut 2 .leaf .leaf)))))
theorem h567 : check par t567 [65440, 53280, 12192, 64] [32, 32, 32, 64] st = true := by decide +kernel
def t568 : Tree := (.ref (.cut 3 (.cut 0 (.cut 1 (.cut 2 .leaf .leaf) (.cut 2 .leaf .leaf)) (.cut 1 (.cut 2 (.cut 3 (.cut 0 (.cut 1 .leaf .leaf) (.cut 1 .leaf (.cut 2 .leaf .leaf))) (.cut 0 .leaf (.cut 1 .leaf .leaf))) (.cut 3 (.cut 0 .leaf (.cut 1 (.cut 2 .leaf .leaf) .leaf)) (.cut 0 .leaf (.cut 1 .leaf .leaf)))) (.cut 2 (.cut 3 (.cut 0 .leaf (.cut 1 .leaf .leaf)) (.cut 0 .leaf (.cut 1 .leaf .leaf))) (.cut 3 (.cut 0 .leaf (.cut 1 .leaf .leaf)) (.cut 0 .leaf .leaf))))) (.cut 0 (.cut 1 .leaf .leaf) (.cut 1 (.cut 2 .leaf .leaf) (.cut 2 .leaf .leaf)))))
theorem h568 : check par t568 [65440, 53280, 12256, 64] [32, 32, 32, 64] st = true := by decide +kernel
def t569 : Tree := (.ref (.cut 2 (.cut 3 (.cut 0 (.cut 1 .leaf .leaf) (.cut 1 (.cut 2 .leaf .leaf) .leaf)) (.cut 0 .leaf (.cut 1 .leaf .leaf))) (.cut 3 (.cut 0 (.cut 1 (.cut 2 .leaf .leaf) .leaf) (.cut 1 (.cut 2 (.cut 3 .leaf .leaf) (.cut 3 .leaf .leaf)) (.cut 2 .leaf .leaf))) (.cut 0 (.cut 1 .leaf .leaf) (.cut 1 (.cut 2 .leaf .leaf) .leaf)))))
theorem h569 : check par t569 [65440, 53344, 12224, 64] [32, 32, 64, 64] st = true := by decide +kernel
def t570 : Tree := (.ref (.cut 1 (.cut 2 (.cut 3 (.cut 0 .leaf .leaf) .leaf) (.cut 3 (.cut 0 (.cut 1 (.cut 2 .leaf .leaf) (.cut 2 .leaf .leaf)) (.cut 1 (.cut 2 .leaf (.cut 3 .leaf .leaf)) (.cut 2 .leaf .leaf))) (.cut 0 (.cut 1 .leaf .leaf) (.cut 1 (.cut 2 .leaf .leaf) .leaf)))) (.cut 2 .leaf (.cut 3 (.cut 0 (.cut 1 .leaf .leaf) (.cut 1 .leaf .leaf)) (.cut 0 .leaf (.cut 1 .leaf .leaf))))))
theorem h570 : check par t570 [65488, 53280, 12192, 32] [16, 32, 32, 32] st = true := by decide +kernel
def t571 : Tree := (.ref (.cut 1 (.cut 2 (.cut 3 .leaf .leaf) (.cut 3 (.cut 0 (.cut 1 (.cut 2 .leaf .leaf) (.cut 2 .leaf .leaf)) (.cut 1 (.cut 2 .leaf .leaf) (.cut 2 .leaf .leaf))) (.cut 0 (.cut 1 (.cut 2 .leaf .leaf) (.cut 2 .leaf .leaf)) (.cut 1 (.cut 2 .leaf .leaf) .leaf)))) (.cut 2 .leaf (.cut 3 (.cut 0 (.cut 1 .leaf .leaf) (.cut 1 .leaf .leaf)) (.cut 0 (.cut 1 .leaf .leaf) (.cut 1 .leaf .leaf))))))
theorem h571 : check par t571 [65520, 53280, 12192, 32] [16, 32, 32, 32] st = true := by decide +kernel
def t572 : Tree := (.ref (.cut 0 (.cut 1 (.cut 2 .leaf (.cut 3 .leaf .leaf)) (.cut 2 .leaf .leaf)) (.cut 1 (.cut 2 .leaf (.cut 3 .leaf .leaf)) (.cut 2 .leaf (.cut 3 .leaf .leaf)))))
theorem h572 : check par t572 [65504, 53280, 12192, 96] [32, 32, 32, 32] st = true := by decide +kernel
def t573 : Tree := (.ref (.cut 3 (.cut 0 (.cut 1 (.cut 2 (.cut 3 .leaf .leaf) .leaf) (.cut 2 .leaf (.cut 3 .leaf .leaf))) (.cut 1 (.cut 2 (.cut 3 (.cut 0 .leaf (.cut 1 .leaf .leaf)) (.cut 0 .leaf .leaf)) (.cut 3 (.cut 0 .leaf .leaf) (.cut 0 .leaf .leaf))) (.cut 2 (.cut 3 (.cut 0 .leaf .leaf) (.cut 0 .leaf .leaf)) (.cut 3 (.cut 0 .leaf (.cut 1 .leaf .leaf)) (.cut 0 .leaf (.cut 1 .leaf .leaf)))))) (.cut 0 (.cut 1 .leaf (.cut 2 .leaf .leaf)) (.cut 1 (.cut 2 .leaf .leaf) (.cut 2 .leaf (.cut 3 .leaf .leaf))))))
theorem h573 : check par t573 [65488, 53264, 12240, 32] [16, 16, 16, 32] st = true := by decide +kernel
def t574 : Tree := (.ref (.cut 3 (.cut 0 (.cut 1 (.cut 2 (.cut 3 .leaf .leaf) .leaf) (.cut 2 .leaf .leaf)) (.cut 1 (.cut 2 (.cut 3 (.cut 0 .leaf (.cut 1 .leaf .leaf)) (.cut 0 .leaf (.cut 1 .leaf .leaf))) (.cut 3 .leaf .leaf)) (.cut 2 (.cut 3 (.cut 0 .leaf .leaf) (.cut 0 .leaf (.cut 1 .leaf .leaf))) (.cut 3 (.cut 0 .leaf (.cut 1 .leaf .leaf)) (.cut 0 .leaf (.cut 1 .leaf .leaf)))))) (.cut 0 (.cut 1 (.cut 2 .leaf .leaf) (.cut 2 .leaf .leaf)) (.cut 1 (.cut 2 (.cut 3 .leaf .leaf) .leaf) (.cut 2 (.cut 3 .leaf .leaf) (.cut 3 .leaf .leaf))))))
theorem h574 : check par t574 [65488, 53264, 12272, 32] [16, 16, 16, 32] st = true := by decide +kernel
def t575 : Tree := (.ref (.cut 2 (.cut 3 (.cut 0 (.cut 1 (.cut 2 .leaf .leaf) .leaf) (.cut 1 (.cut 2 .leaf (.cut 3 (.cut 0 .leaf .leaf) (.cut 0 .leaf (.cut 1 .leaf .leaf)))) (.cut 2 .leaf .leaf))) (.cut 0 (.cut 1 (.cut 2 .leaf .leaf) .leaf) (.cut 1 (.cut 2 .leaf (.cut 3 .leaf .leaf)) (.cut 2 .leaf .leaf)))) (.cut 3 (.cut 0 (.cut 1 (.cut 2 .leaf .leaf) (.cut 2 .leaf .leaf)) (.cut 1 (.cut 2 (.cut 3 (.cut 0 .leaf (.cut 1 .leaf .leaf)) (.cut 0 .leaf (.cut 1 .leaf .leaf))) (.cut 3 .leaf .leaf)) (.cut 2 .leaf .leaf))) (.cut 0 (.cut 1 .leaf .leaf) (.cut 1 (.cut 2 (.cut 3 .leaf .leaf) .leaf) (.cut 2 .leaf .out))))))
theorem h575 : check par t575 [65488, 53296, 12256, 32] [16, 16, 32, 32] st = true := by decide +kernel
def t576 : Tree := (.ref (.cut 1 (.cut 2 (.cut 3 (.cut 0 (.cut 1 .leaf .leaf) .leaf) (.cut 0 .leaf .leaf)) (.cut 3 (.cut 0 (.cut 1 .leaf .leaf) (.cut 1 .leaf .leaf)) (.cut 0 (.cut 1 .leaf .leaf) (.cut 1 .leaf .leaf)))) (.cut 2 (.cut 3 (.cut 0 (.cut 1 .leaf .leaf) (.cut 1 .leaf .leaf)) (.cut 0 (.cut 1 .leaf .leaf) (.cut 1 .leaf .leaf))) (.cut 3 (.cut 0 (.cut 1 .leaf .leaf) (.cut 1 .leaf .leaf)) (.cut 0 (.cut 1 .leaf .leaf) (.cut 1 .leaf (.cut 2 .leaf .leaf)))))))
theorem h576 : check par t576 [65512, 53264, 12240, 16] [8, 16, 16, 16] st = true := by decide +kernel
def t577 : Tree := (.ref (.cut 1 (.cut 2 (.cut 3 (.cut 0 .leaf .leaf) .leaf) (.cut 3 (.cut 0 (.cut 1 .leaf .leaf) .leaf) (.cut 0 (.cut 1 .leaf .leaf) .leaf))) (.cut 2 (.cut 3 (.cut 0 (.cut 1 .leaf .leaf) .leaf) (.cut 0 .leaf .leaf)) (.cut 3 (.cut 0 (.cut 1 .leaf .leaf) (.cut 1 .leaf .leaf)) (.cut 0 (.cut 1 .leaf .leaf) (.cut 1 .leaf .leaf))))))
theorem h577 : check par t577 [65528, 53264, 12240, 16] [8, 16, 16, 16] st = true := by decide +kernel
def t578 : Tree := (.ref (.cut 0 (.cut 1 (.cut 2 .leaf (.cut 3 .leaf .leaf)) (.cut 2 (.cut 3 .leaf .leaf) (.cut 3 (.cut 0 .leaf (.cut 1 .leaf .leaf)) .leaf))) (.cut 1 (.cut 2 .leaf (.cut 3 .leaf .leaf)) (.cut 2 .leaf (.cut 3 (.cut 0 (.cut 1 .leaf .leaf) .leaf) .leaf)))))
theorem h578 : check par t578 [65520, 53264, 12240, 48] [16, 16, 16, 16] st = true := by decide +kernel
def t579 : Tree := (.ref (.cut 1 (.cut 2 (.cut 3 (.cut 0 (.cut 1 .leaf .leaf) (.cut 1 .leaf .leaf)) (.cut 0 (.cut 1 .leaf .leaf) (.cut 1 .leaf .leaf))) (.cut 3 .leaf (.cut 0 .leaf .leaf))) (.cut 2 (.cut 3 (.cut 0 (.cut 1 .leaf .leaf) (.cut 1 .leaf .leaf)) (.cut 0 (.cut 1 .leaf .leaf) (.cut 1 .leaf .leaf))) (.cut 3 (.cut 0 (.cut 1 .leaf .leaf) (.cut 1 .leaf .leaf)) (.cut 0 (.cut 1 .leaf .leaf) (.cut 1 .leaf .leaf))))))
theorem h579 : check par t579 [65512, 53264, 12272, 16] [8, 16, 16, 16] st = true := by decide +kernel
def t580 : Tree := (.ref (.cut 1 (.cut 2 (.cut 3 (.cut 0 (.cut 1 .leaf .leaf) (.cut 1 .leaf .leaf)) (.cut 0 (.cut 1 .leaf .leaf) (.cut 1 .leaf .leaf))) (.cut 3 (.cut 0 .leaf .leaf) .leaf)) (.cut 2 (.cut 3 (.cut 0 (.cut 1 (.cut 2 .leaf .leaf) .leaf) (.cut 1 .leaf .leaf)) (.cut 0 (.cut 1 .leaf .leaf) (.cut 1 .leaf .leaf))) (.cut 3 (.cut 0 (.cut 1 .leaf .leaf) (.cut 1 .leaf .leaf)) (.cut 0 (.cut 1 .leaf .out) .out)))))
theorem h580 : check par t580 [65528, 53264, 12272, 16] [8, 16, 16, 16] st = true := by decide +kernel
def t581 : Tree := (.ref (.cut 0 (.cut 1 (.cut 2 (.cut 3 (.cut 0 .leaf (.cut 1 .leaf .leaf)) .leaf) (.cut 3 .leaf .leaf)) (.cut 2 (.cut 3 (.cut 0 .leaf (.cut 1 .leaf .leaf)) .leaf) (.cut 3 (.cut 0 (.cut 1 .leaf .out) .out) .out))) (.cut 1 (.cut 2 (.cut 3 (.cut 0 (.cut 1 .leaf .leaf) .leaf) .leaf) (.cut 3 .leaf .out)) (.cut 2 (.cut 3 (.cut 0 (.cut 1 .leaf .out) .out) .out) .out))))
theorem h581 : check par t581 [65520, 53264, 12272, 48] [16, 16, 16, 16] st = true := by decide +kernel
def t582 : Tree := (.ref (.cut 3 (.cut 0 (.cut 1 (.cut 2 .leaf (.cut 3 (.cut 0 (.cut 1 .leaf .leaf) (.cut 1 .leaf .leaf)) (.cut 0 (.cut 1 .leaf .leaf) (.cut 1 .leaf .leaf)))) (.cut 2 .leaf .leaf)) (.cut 1 (.cut 2 .leaf (.cut 3 (.cut 0 (.cut 1 .leaf .leaf) (.cut 1 .leaf .leaf)) (.cut 0 (.cut 1 .leaf .leaf) (.cut 1 .leaf .leaf)))) (.cut 2 .leaf .leaf))) (.cut 0 (.cut 1 (.cut 2 .leaf (.cut 3 (.cut 0 .leaf (.cut 1 .leaf .leaf)) .leaf)) (.cut 2 .leaf .leaf)) (.cut 1 (.cut 2 .leaf (.cut 3 (.cut 0 (.cut 1 .leaf .out) .out) .out)) (.cut 2 .leaf .out)))))
theorem h582 : check par t582 [65520, 53296, 12240, 32] [16, 16, 16, 32] st = true := by decide +kernel
def t583 : Tree := (.ref (.cut 3 (.cut 0 (.cut 1 (.cut 2 (.cut 3 (.cut 0 (.cut 1 .leaf .leaf) (.cut 1 .leaf .leaf)) (.cut 0 (.cut 1 .leaf .leaf) (.cut 1 .leaf .leaf))) (.cut 3 (.cut 0 .leaf (.cut 1 .leaf .leaf)) (.cut 0 .leaf .out))) (.cut 2 (.cut 3 (.cut 0 .leaf .leaf) (.cut 0 .leaf .out)) (.cut 3 .leaf .out))) (.cut 1 (.cut 2 (.cut 3 (.cut 0 (.cut 1 .leaf .leaf) (.cut 1 .leaf .leaf)) (.cut 0 (.cut 1 .leaf .out) .out)) (.cut 3 (.cut 0 (.cut 1 .leaf .out) .out) .out)) (.cut 2 (.cut 3 (.cut 0 (.cut 1 .leaf .out) .out) .out) .out))) (.cut 0 (.cut 1 (.cut 2 (.cut 3 (.cut 0 (.cut 1 .leaf .out) .out) .out) .out) .out) .out)))
theorem h583 : check par t583 [65520, 53296, 12272, 32] [16, 16, 16, 32] st = true := by decide +kernel
def t584 : Tree := (.ref (.cut 0 (.cut 1 (.cut 2 (.cut 3 (.cut 0 .leaf .leaf) .leaf) (.cut 3 (.cut 0 .leaf (.cut 1 .leaf .leaf)) .leaf)) (.cut 2 (.cut 3 (.cut 0 .leaf (.cut 1 .leaf .leaf)) .leaf) (.cut 3 (.cut 0 .leaf .out) .out))) (.cut 1 (.cut 2 (.cut 3 (.cut 0 (.cut 1 .leaf .leaf) (.cut 1 .leaf .leaf)) .leaf) (.cut 3 (.cut 0 (.cut 1 .leaf .out) .out) .out)) (.cut 2 (.cut 3 (.cut 0 (.cut 1 .leaf .out) .out) .out) .out))))
theorem h584 : check par t584 [65504, 53280, 12256, 96] [32, 32, 32, 32] st = true := by decide +kernel
def t585 : Tree := (.ref (.cut 2 (.cut 3 (.cut 0 (.cut 1 (.cut 2 .leaf .leaf) .leaf) (.cut 1 (.cut 2 .leaf .leaf) .leaf)) (.cut 0 (.cut 1 .leaf .leaf) (.cut 1 (.cut 2 .leaf .leaf) .leaf))) (.cut 3 (.cut 0 (.cut 1 (.cut 2 (.cut 3 (.cut 0 .leaf (.cut 1 .leaf .leaf)) (.cut 0 .leaf (.cut 1 .leaf .leaf))) (.cut 3 (.cut 0 (.cut 1 .leaf .leaf) (.cut 1 (.cut 2 .leaf .leaf) .leaf)) (.cut 0 (.cut 1 .leaf .out) .out))) (.cut 2 .leaf .leaf)) (.cut 1 (.cut 2 (.cut 3 (.cut 0 (.cut 1 .leaf .leaf) (.cut 1 .leaf .leaf)) (.cut 0 (.cut 1 .leaf .out) .out)) (.cut 3 (.cut 0 (.cut 1 (.cut 2 .leaf .out) .out) .out) .out)) (.cut 2 .leaf .out))) (.cut 0 (.cut 1 (.cut 2 .leaf .out) .out) .out))))
theorem h585 : check par t585 [65504, 53344, 12224, 64] [32, 32, 64, 64] st = true := by decide +kernel
def t586 : Tree := (.ref (.cut 0 (.cut 1 (.cut 2 (.cut 3 .leaf .leaf) (.cut 3 .leaf .leaf)) (.cut 2 .leaf (.cut 3 .leaf .out))) (.cut 1 (.cut 2 (.cut 3 (.cut 0 .leaf (.cut 1 .leaf .leaf)) .leaf) (.cut 3 (.cut 0 .leaf .out) .out)) (.cut 2 (.cut 3 .leaf .out) .out))))
theorem h586 : check par t586 [65472, 53312, 12224, 192] [64, 64, 64, 64] st = true := by decide +kernel
def t587 : Tree := (.ref (.cut 2 (.cut 3 (.cut 0 (.cut 1 .leaf .leaf) (.cut 1 .leaf .leaf)) (.cut 0 .leaf (.cut 1 .leaf .leaf))) (.cut 3 (.cut 0 (.cut 1 (.cut 2 .leaf (.cut 3 (.cut 0 .leaf (.cut 1 .leaf .leaf)) (.cut 0 .leaf .out))) (.cut 2 .leaf .leaf)) (.cut 1 (.cut 2 .leaf (.cut 3 (.cut 0 (.cut 1 .leaf .out) .out) .out)) (.cut 2 .leaf .out))) (.cut 0 (.cut 1 (.cut 2 .leaf .out) .out) .out))))
theorem h587 : check par t587 [65472, 53440, 12160, 128] [64, 64, 128, 128] st = true := by decide +kernel
def t588 : Tree := (.ref (.cut 0 (.cut 1 (.cut 2 .leaf (.cut 3 .leaf .leaf)) (.cut 2 .leaf .leaf)) (.cut 1 (.cut 2 (.cut 3 .leaf .leaf) (.cut 3 (.cut 0 .leaf .out) .out)) (.cut 2 .leaf .out))))
theorem h588 : check par t588 [65408, 53376, 12160, 384] [128, 128, 128, 128] st = true := by decide +kernel
def t589 : Tree := (.ref (.cut 2 (.cut 3 (.cut 0 .leaf .leaf) .leaf) (.cut 3 (.cut 0 (.cut 1 (.cut 2 .leaf (.cut 3 .leaf .leaf)) .leaf) (.cut 1 (.cut 2 .leaf (.cut 3 (.cut 0 .leaf .out) .out)) .leaf)) (.cut 0 (.cut 1 (.cut 2 .leaf .out) .out) .out))))
theorem h589 : check par t589 [65408, 53632, 12032, 256] [128, 128, 256, 256] st = true := by decide +kernel
def t590 : Tree := (.ref (.cut 0 (.cut 1 (.cut 2 .leaf .leaf) (.cut 2 .leaf .leaf)) (.cut 1 (.cut 2 (.cut 3 .leaf .leaf) (.cut 3 (.cut 0 .leaf .out) .out)) (.cut 2 .leaf .out))))
theorem h590 : check par t590 [65280, 53504, 12032, 768] [256, 256, 256, 256] st = true := by decide +kernel
def t591 : Tree := (.ref (.cut 2 (.cut 3 .leaf .leaf) (.cut 3 (.cut 0 (.cut 1 (.cut 2 .leaf .leaf) .leaf) (.cut 1 (.cut 2 .leaf (.cut 3 .leaf .out)) .leaf)) (.cut 0 (.cut 1 (.cut 2 .leaf .out) .out) .out))))
theorem h591 : check par t591 [65280, 54016, 11776, 512] [256, 256, 512, 512] st = true := by decide +kernel
def t592 : Tree := (.ref (.cut 0 (.cut 1 (.cut 2 .leaf .leaf) (.cut 2 .leaf .leaf)) (.cut 1 (.cut 2 (.cut 3 .leaf .leaf) (.cut 3 (.cut 0 .leaf .out) .out)) (.cut 2 .leaf .out))))
theorem h592 : check par t592 [65024, 53760, 11776, 1536] [512, 512, 512, 512] st = true := by decide +kernel
def t593 : Tree := (.ref (.cut 2 (.cut 3 .leaf .leaf) (.cut 3 (.cut 0 (.cut 1 (.cut 2 .leaf .leaf) .leaf) (.cut 1 (.cut 2 .leaf (.cut 3 .leaf .out)) .leaf)) (.cut 0 (.cut 1 .leaf .out) .out))))
theorem h593 : check par t593 [65024, 54784, 11264, 1024] [512, 512, 1024, 1024] st = true := by decide +kernel
def t594 : Tree := (.ref (.cut 0 (.cut 1 (.cut 2 .leaf (.cut 3 .leaf .leaf)) (.cut 2 .leaf .leaf)) (.cut 1 (.cut 2 (.cut 3 .leaf .leaf) (.cut 3 (.cut 0 .leaf .out) .out)) (.cut 2 .leaf .out))))
theorem h594 : check par t594 [64512, 54272, 11264, 3072] [1024, 1024, 1024, 1024] st = true := by decide +kernel
def t595 : Tree := (.ref (.cut 2 (.cut 3 .leaf .leaf) (.cut 3 (.cut 0 (.cut 1 (.cut 2 .leaf .leaf) .leaf) (.cut 1 (.cut 2 .leaf .leaf) .leaf)) (.cut 0 (.cut 1 .leaf .out) .out))))
theorem h595 : check par t595 [64512, 56320, 10240, 2048] [1024, 1024, 2048, 2048] st = true := by decide +kernel
def t596 : Tree := (.ref (.cut 0 (.cut 1 (.cut 2 .leaf (.cut 3 .leaf .leaf)) (.cut 2 .leaf .leaf)) (.cut 1 (.cut 2 (.cut 3 .leaf .leaf) (.cut 3 (.cut 0 .leaf .out) .out)) (.cut 2 .leaf .out))))
theorem h596 : check par t596 [63488, 55296, 10240, 6144] [2048, 2048, 2048, 2048] st = true := by decide +kernel
def t597 : Tree := (.ref (.cut 1 (.cut 2 (.cut 3 (.cut 0 (.cut 1 (.cut 2 .leaf .leaf) .leaf) (.cut 1 (.cut 2 (.cut 3 (.cut 0 .leaf .leaf) .leaf) (.cut 3 .leaf .leaf)) (.cut 2 (.cut 3 .leaf .leaf) .leaf))) (.cut 0 .leaf (.cut 1 (.cut 2 .leaf .leaf) .leaf))) (.cut 3 (.cut 0 (.cut 1 (.cut 2 .leaf .leaf) .leaf) (.cut 1 (.cut 2 .leaf .leaf) (.cut 2 .leaf .out))) (.cut 0 .leaf .out))) (.cut 2 (.cut 3 (.cut 0 (.cut 1 .leaf .leaf) (.cut 1 (.cut 2 .leaf .leaf) .leaf)) (.cut 0 .leaf .out)) (.cut 3 (.cut 0 .leaf .out) .out))))
theorem h597 : check par t597 [62464, 55296, 14336, 2048] [1024, 2048, 2048, 2048] st = true := by decide +kernel
def t598 : Tree := (.ref (.cut 1 (.cut 2 (.cut 3 (.cut 0 (.cut 1 (.cut 2 .leaf .leaf) .leaf) (.cut 1 (.cut 2 (.cut 3 .leaf .leaf) (.cut 3 .leaf .leaf)) (.cut 2 (.cut 3 .leaf .leaf) .leaf))) (.cut 0 .leaf (.cut 1 .leaf .leaf))) (.cut 3 (.cut 0 (.cut 1 .leaf .leaf) (.cut 1 (.cut 2 .leaf .leaf) (.cut 2 .leaf .out))) (.cut 0 .leaf .out))) (.cut 2 (.cut 3 (.cut 0 (.cut 1 .leaf .leaf) (.cut 1 (.cut 2 .leaf .leaf) .leaf)) (.cut 0 .leaf .out)) (.cut 3 (.cut 0 .leaf .out) .out))))
theorem h598 : check par t598 [64000, 54272, 13312, 1024] [512, 1024, 1024, 1024] st = true := by decide +kernel
def t599 : Tree := (.ref (.cut 1 (.cut 2 (.cut 3 (.cut 0 (.cut 1 (.cut 2 .leaf .leaf) .leaf) (.cut 1 (.cut 2 (.cut 3 .leaf .leaf) (.cut 3 .leaf .leaf)) (.cut 2 (.cut 3 .leaf .leaf) .leaf))) (.cut 0 .leaf (.cut 1 .leaf .leaf))) (.cut 3 (.cut 0 (.cut 1 .leaf .leaf) (.cut 1 (.cut 2 .leaf .leaf) (.cut 2 .leaf .out))) (.cut 0 .leaf .out))) (.cut 2 (.cut 3 (.cut 0 (.cut 1 .leaf .leaf) (.cut 1 (.cut 2 .leaf .leaf) .leaf)) (.cut 0 .leaf .out)) (.cut 3 (.cut 0 .leaf .out) .out))))
theorem h599 : check par t599 [64768, 53760, 12800, 512] [256, 512, 512, 512] st = true := by decide +kernel
def t600 : Tree := (.ref (.cut 1 (.cut 2 (.cut 3 (.cut 0 (.cut 1 (.cut 2 .leaf .leaf) .leaf) (.cut 1 (.cut 2 (.cut 3 .leaf .leaf) (.cut 3 .leaf .leaf)) (.cut 2 (.cut 3 .leaf .leaf) .leaf))) (.cut 0 .leaf (.cut 1 (.cut 2 .leaf .leaf) .leaf))) (.cut 3 (.cut 0 (.cut 1 .leaf .leaf) (.cut 1 (.cut 2 .leaf .leaf) (.cut 2 .leaf .out))) (.cut 0 .leaf .out))) (.cut 2 (.cut 3 (.cut 0 (.cut 1 .leaf .leaf) (.cut 1 (.cut 2 .leaf .leaf) .leaf)) (.cut 0 .leaf .out)) (.cut 3 (.cut 0 .leaf .out) .out))))
theorem h600 : check par t600 [65152, 53504, 12544, 256] [128, 256, 256, 256] st = true := by decide +kernel
def t601 : Tree := (.ref (.cut 1 (.cut 2 (.cut 3 (.cut 0 (.cut 1 (.cut 2 .leaf .leaf) .leaf) (.cut 1 (.cut 2 (.cut 3 (.cut 0 .leaf (.cut 1 .leaf .leaf)) .leaf) (.cut 3 .leaf .leaf)) (.cut 2 (.cut 3 .leaf .leaf) .leaf))) (.cut 0 .leaf (.cut 1 (.cut 2 .leaf .leaf) .leaf))) (.cut 3 (.cut 0 (.cut 1 .leaf .leaf) (.cut 1 (.cut 2 .leaf .leaf) (.cut 2 .leaf .out))) (.cut 0 .leaf .out))) (.cut 2 (.cut 3 (.cut 0 (.cut 1 .leaf .leaf) (.cut 1 (.cut 2 .leaf .leaf) .leaf)) (.cut 0 .leaf .out)) (.cut 3 (.cut 0 .leaf .out) .out))))
theorem h601 : check par t601 [65344, 53376, 12416, 128] [64, 128, 128, 128] st = true := by decide +kernel
def t602 : Tree := (.ref (.cut 1 (.cut 2 (.cut 3 (.cut 0 (.cut 1 (.cut 2 .leaf .leaf) (.cut 2 .leaf .leaf)) (.cut 1 (.cut 2 (.cut 3 (.cut 0 .leaf (.cut 1 .leaf .leaf)) (.cut 0 .leaf .leaf)) .leaf) (.cut 2 (.cut 3 .leaf .leaf) .leaf))) (.cut 0 (.cut 1 .leaf .leaf) (.cut 1 (.cut 2 .leaf .leaf) (.cut 2 .leaf .out)))) (.cut 3 (.cut 0 (.cut 1 .leaf .leaf) (.cut 1 .leaf .leaf)) (.cut 0 .leaf .out))) (.cut 2 (.cut 3 (.cut 0 (.cut 1 .leaf .leaf) (.cut 1 (.cut 2 .leaf .leaf) .leaf)) (.cut 0 .leaf .out)) (.cut 3 (.cut 0 .leaf .out) .out))))
theorem h602 : check par t602 [65440, 53312, 12352, 64] [32, 64, 64, 64] st = true := by decide +kernel
def t603 : Tree := (.ref (.cut 1 (.cut 2 (.cut 3 (.cut 0 (.cut 1 (.cut 2 (.cut 3 (.cut 0 (.cut 1 .leaf (.cut 2 .leaf .leaf)) (.cut 1 .leaf (.cut 2 .leaf .leaf))) (.cut 0 (.cut 1 .leaf .leaf) (.cut 1 .leaf (.cut 2 .leaf .out)))) (.cut 3 .leaf .leaf)) (.cut 2 (.cut 3 (.cut 0 (.cut 1 (.cut 2 .leaf .leaf) .leaf) (.cut 1 (.cut 2 .leaf .leaf) (.cut 2 .leaf .out))) (.cut 0 (.cut 1 .leaf .out) .out)) (.cut 3 (.cut 0 .leaf .out) .out))) (.cut 1 (.cut 2 (.cut 3 (.cut 0 (.cut 1 (.cut 2 .leaf .leaf) (.cut 2 .leaf .leaf)) (.cut 1 (.cut 2 .leaf .leaf) (.cut 2 (.cut 3 .leaf .out) .out))) (.cut 0 (.cut 1 (.cut 2 .leaf .out) .out) .out)) (.cut 3 .leaf .out)) (.cut 2 (.cut 3 (.cut 0 (.cut 1 (.cut 2 (.cut 3 .leaf .out) .out) .out) .out) .out) .out))) (.cut 0 (.cut 1 (.cut 2 (.cut 3 (.cut 0 .leaf .out) .out) .out) .out) .out)) (.cut 3 (.cut 0 (.cut 1 .leaf .out) .out) .out)) (.cut 2 (.cut 3 (.cut 0 (.cut 1 (.cut 2 (.cut 3 (.cut 0 .leaf .out) .out) .out) .out) .out) .out) .out)))
theorem h603 : check par t603 [65504, 53312, 12352, 64] [32, 64, 64, 64] st = true := by decide +kernel
def t604 : Tree := (.ref (.cut 0 (.cut 1 (.cut 2 (.cut 3 .leaf .out) .out) .out) .out))
theorem h604 : check par t604 [65472, 53312, 12352, 192] [64, 64, 64, 64] st = true := by decide +kernel
def t605 : Tree := (.ref (.cut 3 (.cut 0 (.cut 1 (.cut 2 .leaf .out) .out) .out) .out))
theorem h605 : check par t605 [65472, 53312, 12480, 128] [64, 64, 64, 128] st = true := by decide +kernel
def t606 : Tree := (.ref (.cut 2 (.cut 3 (.cut 0 (.cut 1 (.cut 2 (.cut 3 (.cut 0 .leaf .out) .out) .out) .out) .out) .out) .out))
theorem h606 : check par t606 [65472, 53440, 12416, 128] [64, 64, 128, 128] st = true := by decide +kernel
def t607 : Tree := (.ref (.cut 0 (.cut 1 (.cut 2 (.cut 3 .leaf .out) .out) .out) .out))
theorem h607 : check par t607 [65408, 53376, 12416, 384] [128, 128, 128, 128] st = true := by decide +kernel
def t608 : Tree := (.ref (.cut 3 (.cut 0 (.cut 1 (.cut 2 (.cut 3 .leaf .out) .out) .out) .out) .out))
theorem h608 : check par t608 [65408, 53376, 12672, 256] [128, 128, 128, 256] st = true := by decide +kernel
def t609 : Tree := (.ref (.cut 2 (.cut 3 (.cut 0 (.cut 1 (.cut 2 (.cut 3 (.cut 0 .leaf .out) .out) .out) .out) .out) .out) .out))
theorem h609 : check par t609 [65408, 53632, 12544, 256] [128, 128, 256, 256] st = true := by decide +kernel
def t610 : Tree := (.ref (.cut 0 (.cut 1 (.cut 2 .leaf .out) .out) .out))
theorem h610 : check par t610 [65280, 53504, 12544, 768] [256, 256, 256, 256] st = true := by decide +kernel
def t611 : Tree := (.ref (.cut 3 (.cut 0 (.cut 1 (.cut 2 (.cut 3 .leaf .out) .out) .out) .out) .out))
theorem h611 : check par t611 [65280, 53504, 13056, 512] [256, 256, 256, 512] st = true := by decide +kernel
def t612 : Tree := (.ref (.cut 2 (.cut 3 (.cut 0 (.cut 1 (.cut 2 (.cut 3 (.cut 0 .leaf .out) .out) .out) .out) .out) .out) .out))
theorem h612 : check par t612 [65280, 54016, 12800, 512] [256, 256, 512, 512] st = true := by decide +kernel
def t613 : Tree := (.ref (.cut 0 (.cut 1 (.cut 2 .leaf .out) .out) .out))
theorem h613 : check par t613 [65024, 53760, 12800, 1536] [512, 512, 512, 512] st = true := by decide +kernel
def t614 : Tree := (.ref (.cut 3 (.cut 0 (.cut 1 (.cut 2 (.cut 3 (.cut 0 .leaf .out) .out) .out) .out) .out) .out))
theorem h614 : check par t614 [65024, 53760, 13824, 1024] [512, 512, 512, 1024] st = true := by decide +kernel
def t615 : Tree := (.ref (.cut 2 (.cut 3 (.cut 0 (.cut 1 (.cut 2 (.cut 3 .leaf .out) .out) .out) .out) .out) .out))
theorem h615 : check par t615 [65024, 54784, 13312, 1024] [512, 512, 1024, 1024] st = true := by decide +kernel
def t616 : Tree := (.ref (.cut 0 (.cut 1 (.cut 2 .leaf .out) .out) .out))
theorem h616 : check par t616 [64512, 54272, 13312, 3072] [1024, 1024, 1024, 1024] st = true := by decide +kernel
def t617 : Tree := (.ref (.cut 3 (.cut 0 (.cut 1 (.cut 2 (.cut 3 (.cut 0 .leaf .out) .out) .out) .out) .out) .out))
theorem h617 : check par t617 [64512, 54272, 15360, 2048] [1024, 1024, 1024, 2048] st = true := by decide +kernel
def t618 : Tree := (.ref (.cut 2 (.cut 3 (.cut 0 (.cut 1 (.cut 2 (.cut 3 .leaf .out) .out) .out) .out) .out) .out))
theorem h618 : check par t618 [64512, 56320, 14336, 2048] [1024, 1024, 2048, 2048] st = true := by decide +kernel
def t619 : Tree := (.ref (.cut 0 (.cut 1 (.cut 2 (.cut 3 .leaf .out) .out) .out) .out))
theorem h619 : check par t619 [63488, 55296, 14336, 6144] [2048, 2048, 2048, 2048] st = true := by decide +kernel
def t620 : Tree := (.ref (.cut 0 (.cut 1 (.cut 2 (.ref (.cut 3 .leaf (.ref (.cut 0 .leaf .leaf)))) (.ref (.cut 3 (.ref (.cut 0 .leaf .leaf)) .leaf))) (.cut 2 (.ref (.cut 3 .leaf .leaf)) (.ref (.cut 3 .leaf .out)))) (.cut 1 (.cut 2 (.ref (.cut 3 (.ref (.cut 0 .leaf (.cut 1 .leaf .leaf))) (.ref (.cut 0 (.cut 1 .leaf .out) .out)))) (.ref (.cut 3 (.ref (.cut 0 (.cut 1 .leaf .out) .out)) .out))) (.ref (.cut 2 (.cut 3 (.ref (.cut 0 .leaf .out)) .out) .out)))))
theorem h620 : check par t620 [61440, 53248, 12288, 12288] [4096, 4096, 4096, 4096] st = true := by decide +kernel
def t621 : Tree := (.ref (.cut 2 (.ref (.cut 3 (.cut 0 (.cut 1 (.cut 2 (.ref (.cut 3 .leaf .leaf)) .leaf) (.ref (.cut 2 (.ref (.cut 3 .leaf .leaf)) .leaf))) (.cut 1 (.cut 2 (.ref (.cut 3 .leaf .leaf)) .leaf) .leaf)) (.cut 0 (.cut 1 (.cut 2 .out (.ref (.cut 3 (.cut 0 .leaf .leaf) .out))) (.ref (.cut 2 .out (.cut 3 (.cut 0 .out .out) .out)))) (.ref (.cut 1 (.ref (.cut 2 .out (.cut 3 (.cut 0 (.cut 1 .leaf .out) .out) .out))) (.cut 2 .out .out)))))) (.ref (.cut 3 (.ref (.cut 0 (.cut 1 (.cut 2 (.cut 3 (.cut 0 (.cut 1 .leaf .leaf) (.cut 1 .leaf .leaf)) (.cut 0 .leaf .leaf)) (.cut 3 (.cut 0 (.cut 1 .leaf (.ref (.cut 2 .leaf .leaf))) (.cut 1 (.ref (.cut 2 .leaf .leaf)) .leaf)) (.cut 0 (.cut 1 .leaf .out) .out))) (.ref (.cut 2 (.cut 3 (.cut 0 .out .leaf) (.cut 0 .out .out)) (.cut 3 (.cut 0 .out .out) .out)))) (.cut 1 (.ref (.cut 2 (.cut 3 (.cut 0 (.cut 1 (.cut 2 .leaf .leaf) .leaf) (.cut 1 (.cut 2 .leaf .leaf) .leaf)) (.cut 0 (.cut 1 .leaf .out) .out)) (.cut 3 (.cut 0 (.cut 1 (.cut 2 (.cut 3 .leaf .out) .out) .out) .out) .out))) (.cut 2 .leaf .out)))) (.ref (.cut 0 (.cut 1 (.cut 2 (.cut 3 .leaf .out) .out) .out) .out))))))
theorem h621 : check par t621 [61440, 61440, 8192, 8192] [4096, 4096, 8192, 8192] st = true := by decide +kernel
def t622 : Tree := (.ref (.cut 0 (.ref (.cut 1 (.cut 2 .out (.cut 3 (.cut 0 (.cut 1 .leaf (.ref (.cut 2 .out .leaf))) (.cut 1 (.ref (.cut 2 .out .leaf)) (.cut 2 .out .out))) .out)) (.ref (.cut 2 .out (.cut 3 (.cut 0 .out .out) .out))))) (.cut 1 (.ref (.cut 2 .out (.cut 3 (.cut 0 (.cut 1 (.cut 2 .out .out) .out) .out) .out))) (.cut 2 .out .out))))
theorem h622 : check par t622 [57344, 57344, 8192, 24576] [8192, 8192, 8192, 8192] st = true := by decide +kernel
def t623 : Tree := (.ref (.cut 1 (.cut 2 (.cut 3 (.cut 0 (.cut 1 (.cut 2 (.cut 3 .leaf .leaf) .leaf) (.ref (.cut 2 (.cut 3 (.cut 0 .out .leaf) .leaf) (.cut 3 .leaf .leaf)))) (.ref (.cut 1 (.ref (.cut 2 (.cut 3 (.cut 0 .leaf (.ref (.cut 1 .leaf .leaf))) .leaf) (.cut 3 .leaf .leaf))) (.cut 2 (.cut 3 (.ref (.cut 0 (.cut 1 .leaf .leaf) (.cut 1 .leaf .leaf))) .leaf) (.cut 3 (.ref (.cut 0 .leaf .leaf)) .leaf))))) (.cut 0 (.cut 1 (.cut 2 .leaf .leaf) (.ref (.cut 2 (.cut 3 .leaf .leaf) .leaf))) (.ref (.cut 1 (.ref (.cut 2 (.cut 3 .leaf .leaf) .leaf)) (.cut 2 (.cut 3 .leaf .out) .out))))) (.cut 3 (.cut 0 (.cut 1 (.cut 2 .leaf (.cut 3 .leaf .leaf)) (.ref (.cut 2 (.cut 3 .leaf .leaf) (.ref (.cut 3 .leaf .out))))) (.ref (.cut 1 (.ref (.cut 2 (.cut 3 .leaf .leaf) (.cut 3 .leaf .out))) (.cut 2 (.cut 3 .leaf .out) .out)))) (.ref (.cut 0 (.cut 1 (.cut 2 .leaf .out) .out) .out)))) (.ref (.cut 2 (.cut 3 (.cut 0 .out (.cut 1 (.ref (.cut 2 (.cut 3 (.ref (.cut 0 .out (.cut 1 (.cut 2 .leaf .leaf) .out))) (.cut 0 .out .out)) (.cut 3 (.ref (.cut 0 .out .out)) .out))) .out)) (.cut 0 .out .out)) (.cut 3 (.cut 0 .out .out) .out)))))
theorem h623 : check par t623 [53248, 57344, 24576, 8192] [4096, 8192, 8192, 8192] st = true := by decide +kernel
def t624 : Tree := (.ref (.cut 1 (.ref (.cut 2 (.cut 3 (.cut 0 (.cut 1 (.cut 2 (.cut 3 (.ref (.cut 0 (.cut 1 .leaf (.cut 2 .leaf .leaf)) (.cut 1 (.cut 2 .leaf .leaf) (.cut 2 .leaf .leaf)))) (.cut 0 (.cut 1 .leaf .leaf) (.ref (.cut 1 .leaf (.cut 2 .leaf .out))))) (.cut 3 (.ref (.cut 0 (.cut 1 .leaf .leaf) (.ref (.cut 1 .leaf .leaf)))) (.cut 0 .leaf .out))) (.ref (.cut 2 (.cut 3 (.ref (.cut 0 (.cut 1 (.cut 2 .leaf .leaf) (.cut 2 .leaf .leaf)) (.cut 1 (.cut 2 (.cut 3 .leaf .leaf) .leaf) (.cut 2 .leaf .out)))) (.cut 0 (.cut 1 .leaf .out) .out)) (.cut 3 (.ref (.cut 0 (.cut 1 .leaf .out) .out)) .out)))) (.ref (.cut 1 (.cut 2 (.cut 3 (.ref (.cut 0 (.cut 1 (.cut 2 .leaf .leaf) (.cut 2 (.cut 3 (.cut 0 .leaf .leaf) .leaf) .leaf)) (.cut 1 (.cut 2 .leaf .leaf) (.cut 2 (.cut 3 (.cut 0 (.cut 1 .leaf .out) .out) .out) .out)))) (.cut 0 (.cut 1 (.cut 2 .leaf .out) .out) .out)) (.cut 3 (.ref (.cut 0 (.cut 1 .leaf .out) .out)) .out)) (.cut 2 (.ref (.cut 3 (.cut 0 (.cut 1 (.cut 2 (.cut 3 (.cut 0 .leaf .out) .out) .out) .out) .out) .out)) .out)))) (.cut 0 (.cut 1 (.cut 2 (.cut 3 (.cut 0 .leaf .out) .out) .out) .out) .out)) (.cut 3 (.cut 0 (.cut 1 (.cut 2 (.cut 3 (.ref (.cut 0 .leaf .out)) .out) .out) .out) .out) .out))) (.cut 2 (.cut 3 (.ref (.cut 0 (.cut 1 (.cut 2 (.cut 3 (.ref (.cut 0 (.cut 1 .leaf .out) .out)) .out) .out) .out) .out)) .out) .out)))
theorem h624 : check par t624 [61440, 57344, 24576, 8192] [4096, 8192, 8192, 8192] st = true := by decide +kernel
def t625 : Tree := (.ref (.cut 0 (.cut 1 (.cut 2 (.ref (.cut 3 (.cut 0 (.cut 1 .leaf .out) .out) .out)) .out) .out) .out))
theorem h625 : check par t625 [57344, 57344, 24576, 24576] [8192, 8192, 8192, 8192] st = true := by decide +kernel
def t626 : Tree := (.ref (.cut 0 (.ref (.cut 1 (.ref (.cut 2 .out (.cut 3 (.cut 0 (.cut 1 (.cut 2 .out (.ref (.cut 3 (.cut 0 (.ref (.cut 1 (.cut 2 .out (.cut 3 .leaf .out)) (.cut 2 .out (.cut 3 .leaf .out)))) (.cut 1 (.cut 2 .out (.cut 3 .leaf .out)) (.ref (.cut 2 .out .out)))) .out))) (.ref (.cut 2 .out (.ref (.cut 3 (.cut 0 .out .out) .out))))) (.cut 1 (.ref (.cut 2 .out (.cut 3 (.cut 0 (.ref (.cut 1 (.ref (.cut 2 .out .out)) .out)) .out) .out))) (.cut 2 .out .out))) .out))) (.ref (.cut 2 .out (.cut 3 (.ref (.cut 0 .out .out)) .out))))) (.cut 1 (.ref (.cut 2 .out (.cut 3 (.ref (.cut 0 (.cut 1 (.cut 2 .out .out) .out) .out)) .out))) (.cut 2 .out .out))))
theorem h626 : check par t626 [49152, 49152, 16384, 49152] [16384, 16384, 16384, 16384] st = true := by decide +kernel
end FastNoise.RangeCheck.OuterSimplex4
