import Verif.RangeCertOuterSimplex4
/-! Generated by tools/rangecert/gen.py: a certificate for the checker `Verif.RangeCheck`. -/
namespace FastNoise.RangeCheck.OuterSimplex4
set_option maxRecDepth 1000000
def t450 : Tree := (.ref (.cut 0 (.cut 1 (.ref (.cut 2 .out (.cut 3 (.cut 0 (.cut 1 (.cut 2 .out .leaf) .leaf) (.cut 1 (.cut 2 .out .leaf) (.cut 2 .out .leaf))) .out))) (.ref (.cut 2 .out (.cut 3 (.cut 0 (.cut 1 .leaf .leaf) (.ref (.cut 1 (.cut 2 .out .leaf) .leaf))) .out)))) (.cut 1 (.ref (.cut 2 .out (.cut 3 (.cut 0 (.cut 1 (.cut 2 .out .leaf) (.cut 2 .out .leaf)) (.cut 1 .leaf .leaf)) .out))) (.cut 2 .out (.cut 3 (.ref (.cut 0 (.cut 1 (.cut 2 .out .leaf) (.cut 2 .out .leaf)) (.cut 1 (.cut 2 .out .leaf) (.cut 2 .out .leaf)))) .out)))))
theorem h450 : check par t450 [57344, 24576, 8192, 24576] [8192, 8192, 8192, 8192] st = true := by decide +kernel
def t451 : Tree := (.ref (.cut 1 (.ref (.cut 2 (.cut 3 (.cut 0 (.cut 1 (.cut 2 .leaf .leaf) (.cut 2 .leaf .leaf)) (.cut 1 (.cut 2 .leaf .leaf) (.cut 2 .leaf .leaf))) (.cut 0 (.cut 1 (.cut 2 .leaf .leaf) .leaf) (.cut 1 (.cut 2 .leaf .leaf) (.cut 2 .leaf .leaf)))) (.ref (.cut 3 (.cut 0 (.cut 1 .out .leaf) (.cut 1 .out .leaf)) (.cut 0 (.cut 1 .out .leaf) (.cut 1 .out .leaf)))))) (.ref (.cut 2 (.ref (.cut 3 (.cut 0 (.cut 1 (.cut 2 .leaf .leaf) .leaf) (.cut 1 (.cut 2 .leaf .leaf) (.cut 2 .leaf .leaf))) (.cut 0 (.cut 1 .leaf .leaf) (.cut 1 (.cut 2 .leaf .leaf) .leaf)))) (.cut 3 (.cut 0 .leaf (.cut 1 .leaf .leaf)) (.cut 0 (.cut 1 .leaf .leaf) (.cut 1 .leaf .leaf)))))))
theorem h451 : check par t451 [53248, 24576, 24576, 8192] [4096, 8192, 8192, 8192] st = true := by decide +kernel
def t452 : Tree := (.ref (.cut 1 (.ref (.cut 2 (.cut 3 (.cut 0 (.cut 1 (.cut 2 .leaf .leaf) (.cut 2 .leaf .leaf)) (.cut 1 (.ref (.cut 2 .leaf .leaf)) (.cut 2 .leaf .leaf))) (.cut 0 (.cut 1 (.cut 2 .leaf .leaf) (.cut 2 .leaf .leaf)) (.cut 1 .leaf .leaf))) (.ref (.cut 3 (.cut 0 (.cut 1 .out .leaf) (.cut 1 .out .leaf)) (.cut 0 (.cut 1 .out .leaf) (.cut 1 .out .leaf)))))) (.cut 2 (.ref (.cut 3 (.cut 0 (.cut 1 (.cut 2 .leaf .leaf) (.cut 2 .leaf .leaf)) (.cut 1 (.cut 2 .leaf .leaf) (.cut 2 .leaf .leaf))) (.cut 0 (.cut 1 (.cut 2 .leaf .leaf) (.cut 2 .leaf .leaf)) (.cut 1 (.cut 2 .leaf .leaf) (.cut 2 .leaf .leaf))))) (.cut 3 (.cut 0 (.cut 1 .leaf .leaf) (.cut 1 .leaf .leaf)) (.ref (.cut 0 (.cut 1 .leaf .leaf) (.cut 1 .leaf .leaf)))))))
theorem h452 : check par t452 [61440, 24576, 24576, 8192] [4096, 8192, 8192, 8192] st = true := by decide +kernel
def t453 : Tree := (.ref (.cut 0 (.cut 1 (.ref (.cut 2 (.cut 3 (.cut 0 (.cut 1 .leaf .leaf) (.cut 1 .leaf .leaf)) (.ref (.cut 0 .leaf .leaf))) (.ref (.cut 3 (.ref (.cut 0 .leaf .leaf)) (.ref (.cut 0 .leaf .leaf)))))) (.ref (.cut 2 (.ref (.cut 3 (.cut 0 (.cut 1 .leaf .leaf) (.cut 1 .leaf .leaf)) (.ref (.cut 0 .leaf .leaf)))) (.cut 3 (.ref (.cut 0 (.cut 1 .leaf .leaf) .leaf)) (.cut 0 .leaf .leaf))))) (.cut 1 (.cut 2 (.cut 3 (.cut 0 (.cut 1 .leaf .leaf) (.cut 1 .leaf .leaf)) (.ref (.cut 0 (.cut 1 .leaf .leaf) (.cut 1 (.ref (.cut 2 .out .leaf)) .leaf)))) (.ref (.cut 3 (.ref (.cut 0 (.cut 1 .out .leaf) (.cut 1 .out .leaf))) (.ref (.cut 0 .leaf .leaf))))) (.cut 2 (.ref (.cut 3 (.ref (.cut 0 (.cut 1 .leaf .leaf) (.cut 1 .leaf .leaf))) (.ref (.cut 0 .leaf .leaf)))) (.cut 3 (.ref (.cut 0 .leaf .leaf)) (.cut 0 .leaf .out))))))
theorem h453 : check par t453 [57344, 24576, 24576, 24576] [8192, 8192, 8192, 8192] st = true := by decide +kernel
def t454 : Tree := (.ref (.cut 0 (.ref (.cut 1 (.ref (.cut 2 .out (.ref (.cut 3 (.cut 0 (.cut 1 .out (.cut 2 .out .out)) (.cut 1 .out (.cut 2 .out .out))) .out)))) (.ref (.cut 2 .out (.cut 3 (.cut 0 (.ref (.cut 1 (.ref (.cut 2 .out (.cut 3 (.cut 0 (.cut 1 .out (.cut 2 .out .out)) (.cut 1 .out (.cut 2 .out .out))) .out))) (.ref (.cut 2 .out (.cut 3 (.cut 0 (.cut 1 (.cut 2 .out (.ref (.cut 3 .leaf .out))) (.ref (.cut 2 .out (.cut 3 .leaf .out)))) (.cut 1 (.cut 2 .out (.cut 3 .leaf .out)) (.cut 2 .out (.cut 3 .leaf .out)))) .out))))) (.ref (.cut 1 (.ref (.cut 2 .out (.cut 3 (.ref (.cut 0 (.cut 1 .out .leaf) (.cut 1 .out .leaf))) .out))) (.cut 2 .out (.ref (.cut 3 (.cut 0 (.cut 1 (.cut 2 .out .leaf) (.cut 2 .out .leaf)) (.cut 1 .leaf (.cut 2 .out .out))) .out)))))) .out))))) (.cut 1 (.ref (.cut 2 .out (.ref (.cut 3 (.ref (.cut 0 (.cut 1 .out (.cut 2 .out .out)) (.cut 1 .out (.cut 2 .out .out)))) .out)))) (.ref (.cut 2 .out (.cut 3 (.ref (.cut 0 (.cut 1 (.ref (.cut 2 .out (.cut 3 (.cut 0 .leaf .leaf) .out))) (.ref (.cut 2 .out (.cut 3 (.ref (.cut 0 (.cut 1 .leaf .out) .out)) .out)))) (.cut 1 (.ref (.cut 2 .out (.cut 3 (.cut 0 .leaf .out) .out))) (.ref (.cut 2 .out .out))))) .out))))))
theorem h454 : check par t454 [49152, 16384, 16384, 49152] [16384, 16384, 16384, 16384] st = true := by decide +kernel
def t455 : Tree := (.ref (.cut 3 (.ref (.cut 0 (.ref (.cut 1 .out (.ref (.cut 2 (.cut 3 (.cut 0 (.cut 1 .out (.cut 2 (.cut 3 (.cut 0 .leaf .leaf) (.ref (.cut 0 (.cut 1 .out .leaf) (.cut 1 .out .leaf)))) .out)) (.cut 1 .out (.cut 2 (.ref (.cut 3 (.cut 0 .leaf (.cut 1 .out .leaf)) (.cut 0 (.cut 1 .out .leaf) .leaf))) .out))) (.cut 0 (.cut 1 .out (.ref (.cut 2 (.cut 3 (.cut 0 (.cut 1 .out (.cut 2 (.cut 3 .leaf .leaf) .out)) (.cut 1 .out (.cut 2 (.ref (.cut 3 .leaf .leaf)) .out))) (.cut 0 (.cut 1 .out (.ref (.cut 2 (.cut 3 .leaf .leaf) .out))) (.cut 1 .out (.cut 2 (.cut 3 .leaf .leaf) .out)))) .out))) (.cut 1 .out (.cut 2 (.cut 3 (.ref (.cut 0 (.ref (.cut 1 .out (.cut 2 (.cut 3 .leaf .leaf) .out))) (.cut 1 .out (.ref (.cut 2 .leaf .out))))) (.ref (.cut 0 (.cut 1 .out (.cut 2 (.cut 3 .leaf .leaf) .out)) (.cut 1 .out (.cut 2 .leaf .out))))) .out)))) .out)))) (.cut 1 .out (.ref (.cut 2 (.ref (.cut 3 (.cut 0 (.cut 1 .out (.cut 2 (.cut 3 (.cut 0 .leaf (.cut 1 .out .leaf)) (.cut 0 .leaf .leaf)) .out)) (.cut 1 .out (.cut 2 (.cut 3 (.cut 0 .leaf .leaf) (.cut 0 .leaf .leaf)) .out))) (.cut 0 (.cut 1 .out (.cut 2 (.cut 3 (.cut 0 (.cut 1 .out .leaf) .leaf) (.ref (.cut 0 (.cut 1 .out .out) .out))) .out)) (.cut 1 .out (.cut 2 (.cut 3 (.cut 0 .leaf .out) .out) .out))))) .out))))) (.ref (.cut 0 (.cut 1 .out (.ref (.cut 2 (.ref (.cut 3 (.ref (.cut 0 (.cut 1 .out (.cut 2 (.ref (.cut 3 (.cut 0 (.ref (.cut 1 .out (.cut 2 (.cut 3 .leaf .leaf) .out))) (.cut 1 .out (.cut 2 (.cut 3 .leaf .out) .out))) (.ref (.cut 0 (.cut 1 .out .out) .out)))) .out)) (.cut 1 .out (.cut 2 (.cut 3 (.ref (.cut 0 (.ref (.cut 1 .out .out)) .out)) .out) .out)))) (.ref (.cut 0 (.ref (.cut 1 .out .out)) .out)))) .out))) (.cut 1 .out (.ref (.cut 2 (.ref (.cut 3 (.cut 0 (.ref (.cut 1 .out .out)) .out) .out)) .out)))))))
theorem h455 : check par t455 [49152, 16384, 49152, 32768] [16384, 16384, 16384, 32768] st = true := by decide +kernel
def t456 : Tree := (.ref (.cut 1 (.cut 2 (.cut 3 (.cut 0 .leaf .leaf) (.ref (.cut 0 .leaf .leaf))) (.ref (.cut 3 (.ref (.cut 0 .leaf (.ref (.cut 1 .leaf .leaf)))) (.cut 0 (.cut 1 .leaf .leaf) (.cut 1 .leaf .leaf))))) (.ref (.cut 2 (.cut 3 (.cut 0 .out (.cut 1 .leaf .out)) (.ref (.cut 0 .out (.cut 1 .leaf .out)))) (.cut 3 (.ref (.cut 0 .out (.cut 1 .leaf .out))) (.cut 0 .out .leaf))))))
theorem h456 : check par t456 [36864, 40960, 8192, 8192] [4096, 8192, 8192, 8192] st = true := by decide +kernel
def t457 : Tree := (.ref (.cut 1 (.ref (.cut 2 (.cut 3 (.cut 0 (.cut 1 .leaf .leaf) (.cut 1 (.cut 2 .leaf .leaf) (.cut 2 .leaf .leaf))) (.ref (.cut 0 (.cut 1 .leaf .leaf) (.cut 1 .leaf .leaf)))) (.cut 3 (.ref (.cut 0 (.cut 1 .leaf .leaf) (.cut 1 .leaf (.cut 2 .leaf .leaf)))) (.cut 0 .leaf (.cut 1 .leaf .leaf))))) (.cut 2 (.cut 3 (.cut 0 (.ref (.cut 1 .leaf (.ref (.cut 2 .leaf .leaf)))) (.cut 1 (.ref (.cut 2 .leaf .leaf)) .leaf)) (.ref (.cut 0 (.ref (.cut 1 .leaf .leaf)) (.cut 1 (.ref (.cut 2 .out .leaf)) (.cut 2 .out .leaf))))) (.ref (.cut 3 (.ref (.cut 0 (.cut 1 .leaf (.ref (.cut 2 .leaf .leaf))) (.cut 1 (.ref (.cut 2 .leaf .leaf)) (.cut 2 .leaf .leaf)))) (.cut 0 (.cut 1 .leaf .leaf) (.cut 1 .leaf .leaf)))))))
theorem h457 : check par t457 [45056, 40960, 8192, 8192] [4096, 8192, 8192, 8192] st = true := by decide +kernel
def t458 : Tree := (.ref (.cut 0 (.ref (.cut 1 (.cut 2 .out (.cut 3 (.cut 0 (.cut 1 .leaf .leaf) (.cut 1 .leaf .leaf)) .out)) (.ref (.cut 2 .out (.cut 3 (.cut 0 .out .leaf) .out))))) (.cut 1 (.ref (.cut 2 .out (.cut 3 (.cut 0 (.cut 1 .leaf .leaf) .leaf) .out))) (.cut 2 .out (.cut 3 (.cut 0 .leaf .leaf) .out)))))
theorem h458 : check par t458 [40960, 40960, 8192, 24576] [8192, 8192, 8192, 8192] st = true := by decide +kernel
def t459 : Tree := (.ref (.cut 1 (.cut 2 (.cut 3 (.cut 0 (.cut 1 .leaf .leaf) .leaf) (.cut 0 (.cut 1 .leaf .leaf) (.ref (.cut 1 (.ref (.cut 2 .leaf .leaf)) .leaf)))) (.cut 3 (.cut 0 .leaf .leaf) (.ref (.cut 0 (.cut 1 .leaf .leaf) (.cut 1 .leaf .leaf))))) (.ref (.cut 2 (.cut 3 (.cut 0 .out .leaf) (.cut 0 .out (.cut 1 .leaf .out))) (.cut 3 (.cut 0 .out (.cut 1 .leaf .out)) (.cut 0 .out (.cut 1 .leaf .out)))))))
theorem h459 : check par t459 [36864, 40960, 24576, 8192] [4096, 8192, 8192, 8192] st = true := by decide +kernel
def t460 : Tree := (.ref (.cut 1 (.ref (.cut 2 (.cut 3 (.cut 0 (.cut 1 .leaf .leaf) (.cut 1 .leaf .leaf)) (.cut 0 (.cut 1 .leaf .leaf) (.cut 1 .leaf .leaf))) (.cut 3 (.cut 0 (.cut 1 .leaf .leaf) (.cut 1 .leaf .leaf)) (.cut 0 (.cut 1 .leaf .leaf) (.cut 1 .leaf .leaf))))) (.cut 2 (.cut 3 (.cut 0 (.ref (.cut 1 .leaf (.ref (.cut 2 .leaf .leaf)))) (.cut 1 (.ref (.cut 2 .leaf .leaf)) (.cut 2 .leaf .leaf))) (.cut 0 .leaf (.cut 1 .leaf .leaf))) (.cut 3 (.cut 0 (.ref (.cut 1 .leaf (.ref (.cut 2 .leaf .leaf)))) (.cut 1 (.ref (.cut 2 .leaf .leaf)) (.cut 2 .leaf .leaf))) (.ref (.cut 0 (.cut 1 .leaf .leaf) (.cut 1 .leaf .leaf)))))))
theorem h460 : check par t460 [45056, 40960, 24576, 8192] [4096, 8192, 8192, 8192] st = true := by decide +kernel
def t461 : Tree := (.ref (.cut 1 (.cut 2 (.cut 3 (.cut 0 (.cut 1 (.cut 2 .leaf .leaf) (.ref (.cut 2 .leaf .leaf))) (.cut 1 (.ref (.cut 2 .leaf .leaf)) .leaf)) (.ref (.cut 0 (.ref (.cut 1 (.cut 2 .out .leaf) (.ref (.cut 2 .out .leaf)))) (.cut 1 (.ref (.cut 2 .out .leaf)) (.cut 2 .out .leaf))))) (.cut 3 (.ref (.cut 0 (.cut 1 (.cut 2 (.cut 3 .leaf .leaf) (.ref (.cut 3 .leaf .leaf))) (.ref (.cut 2 (.cut 3 .leaf .leaf) (.ref (.cut 3 .leaf .leaf))))) (.cut 1 (.ref (.cut 2 (.cut 3 .leaf .leaf) (.cut 3 .leaf .leaf))) (.cut 2 .leaf (.cut 3 .leaf .leaf))))) (.cut 0 (.cut 1 (.ref (.cut 2 (.ref (.cut 3 .leaf .leaf)) (.ref (.cut 3 .leaf .leaf)))) (.ref (.cut 2 (.cut 3 .leaf .leaf) (.ref (.cut 3 .leaf .leaf))))) (.cut 1 (.ref (.cut 2 (.cut 3 .leaf .leaf) (.ref (.cut 3 .leaf .leaf)))) (.cut 2 .leaf (.cut 3 .leaf .leaf)))))) (.ref (.cut 2 (.cut 3 (.cut 0 .out (.cut 1 .leaf .out)) (.ref (.cut 0 .out (.cut 1 .leaf .out)))) (.cut 3 (.ref (.cut 0 .out (.cut 1 (.cut 2 .leaf .leaf) .out))) (.cut 0 .out (.cut 1 (.cut 2 .leaf (.ref (.cut 3 .leaf .out))) .out)))))))
theorem h461 : check par t461 [36864, 40960, 24576, 24576] [4096, 8192, 8192, 8192] st = true := by decide +kernel
def t462 : Tree := (.ref (.cut 1 (.ref (.cut 2 (.cut 3 (.cut 0 (.cut 1 (.cut 2 .leaf .leaf) .leaf) (.cut 1 .leaf .leaf)) (.ref (.cut 0 (.cut 1 (.ref (.cut 2 .out .leaf)) (.cut 2 .out .leaf)) (.cut 1 .leaf .leaf)))) (.cut 3 (.ref (.cut 0 (.cut 1 (.cut 2 .leaf (.cut 3 .leaf .leaf)) (.cut 2 .leaf .leaf)) (.cut 1 (.cut 2 .leaf .leaf) (.cut 2 .leaf .leaf)))) (.cut 0 (.cut 1 (.cut 2 .leaf (.ref (.cut 3 .leaf .leaf))) (.cut 2 .leaf (.cut 3 .leaf .out))) (.cut 1 (.cut 2 .leaf .leaf) (.cut 2 .leaf .out)))))) (.cut 2 (.cut 3 (.cut 0 (.cut 1 .leaf .leaf) .leaf) (.ref (.cut 0 (.cut 1 .leaf .leaf) (.cut 1 .leaf .leaf)))) (.cut 3 (.ref (.cut 0 (.cut 1 (.cut 2 .leaf .leaf) (.ref (.cut 2 .leaf .leaf))) (.cut 1 (.ref (.cut 2 .leaf .leaf)) (.cut 2 .leaf .out)))) (.cut 0 (.cut 1 (.cut 2 .leaf .out) .out) .out)))))
theorem h462 : check par t462 [45056, 40960, 24576, 24576] [4096, 8192, 8192, 8192] st = true := by decide +kernel
def t463 : Tree := (.ref (.cut 2 (.ref (.cut 3 (.cut 0 .out (.cut 1 (.cut 2 (.cut 3 (.cut 0 .out (.cut 1 (.ref (.cut 2 (.cut 3 .leaf .leaf) .leaf)) .out)) (.ref (.cut 0 .out (.cut 1 (.cut 2 .out (.cut 3 .leaf .out)) .out)))) (.cut 3 (.ref (.cut 0 .out (.cut 1 (.cut 2 (.cut 3 .leaf .leaf) (.cut 3 .leaf .leaf)) .out))) (.cut 0 .out (.cut 1 (.cut 2 .leaf .leaf) .out)))) .out)) (.ref (.cut 0 .out (.cut 1 (.cut 2 .out (.cut 3 (.cut 0 .out (.cut 1 .leaf .out)) .out)) .out))))) (.ref (.cut 3 (.ref (.cut 0 .out (.cut 1 (.cut 2 (.cut 3 (.cut 0 .out (.cut 1 (.cut 2 .leaf .leaf) .out)) (.cut 0 .out (.cut 1 (.cut 2 .leaf .leaf) .out))) (.cut 3 (.cut 0 .out (.cut 1 (.cut 2 .leaf .leaf) .out)) (.cut 0 .out (.cut 1 (.cut 2 .leaf .leaf) .out)))) .out))) (.cut 0 .out (.cut 1 (.cut 2 (.cut 3 (.cut 0 .out .leaf) (.ref (.cut 0 .out .out))) (.cut 3 (.ref (.cut 0 .out .out)) .out)) .out))))))
theorem h463 : check par t463 [40960, 57344, 16384, 16384] [8192, 8192, 16384, 16384] st = true := by decide +kernel
def t464 : Tree := (.ref (.cut 2 (.ref (.cut 3 (.cut 0 (.cut 1 (.cut 2 (.ref (.cut 3 .leaf .leaf)) .leaf) (.cut 2 (.ref (.cut 3 .leaf .leaf)) (.cut 3 .leaf .leaf))) (.ref (.cut 1 (.cut 2 (.ref (.cut 3 (.cut 0 .leaf .leaf) (.cut 0 .leaf .leaf))) (.cut 3 (.cut 0 .leaf .leaf) .leaf)) (.cut 2 (.cut 3 (.cut 0 .leaf .leaf) (.ref (.cut 0 .leaf (.cut 1 .leaf .leaf)))) (.cut 3 (.cut 0 .leaf (.cut 1 .leaf .leaf)) .leaf))))) (.ref (.cut 0 (.cut 1 (.ref (.cut 2 .out .leaf)) (.cut 2 .out .leaf)) (.cut 1 (.ref (.cut 2 .out (.cut 3 .leaf .out))) (.cut 2 .out (.cut 3 .leaf .out))))))) (.ref (.cut 3 (.ref (.cut 0 (.cut 1 (.cut 2 .leaf .leaf) (.cut 2 .leaf .leaf)) (.cut 1 (.cut 2 (.cut 3 .leaf .leaf) .leaf) (.cut 2 (.cut 3 (.ref (.cut 0 .leaf .leaf)) .leaf) (.cut 3 .leaf .leaf))))) (.cut 0 (.cut 1 .leaf .leaf) (.cut 1 (.cut 2 .leaf .leaf) (.cut 2 .leaf .leaf)))))))
theorem h464 : check par t464 [53248, 36864, 8192, 8192] [4096, 4096, 8192, 8192] st = true := by decide +kernel
def t465 : Tree := (.ref (.cut 3 (.cut 0 (.cut 1 (.cut 2 (.ref (.cut 3 .leaf .leaf)) (.cut 3 .leaf .leaf)) (.ref (.cut 2 (.cut 3 .leaf .leaf) (.cut 3 .leaf .leaf)))) (.ref (.cut 1 (.cut 2 (.cut 3 (.cut 0 .leaf (.cut 1 .leaf .leaf)) (.ref (.cut 0 .leaf (.cut 1 .leaf .leaf)))) (.cut 3 (.ref (.cut 0 .leaf (.cut 1 .leaf .leaf))) .leaf)) (.cut 2 (.cut 3 (.ref (.cut 0 .leaf .leaf)) (.ref (.cut 0 .leaf (.ref (.cut 1 .leaf .leaf))))) (.cut 3 (.ref (.cut 0 .leaf (.ref (.cut 1 .leaf .leaf)))) .leaf))))) (.ref (.cut 0 (.cut 1 (.cut 2 .out (.cut 3 .leaf .out)) (.cut 2 .out (.cut 3 .leaf .out))) (.cut 1 (.cut 2 .out (.cut 3 .leaf .out)) (.cut 2 .out (.cut 3 (.cut 0 .leaf .leaf) .out)))))))
theorem h465 : check par t465 [53248, 45056, 4096, 8192] [4096, 4096, 4096, 8192] st = true := by decide +kernel
def t466 : Tree := (.ref (.cut 3 (.ref (.cut 0 (.cut 1 (.cut 2 (.cut 3 .leaf .leaf) .leaf) (.cut 2 (.cut 3 .leaf .leaf) (.cut 3 .leaf .leaf))) (.cut 1 (.cut 2 (.cut 3 (.ref (.cut 0 .leaf (.cut 1 .leaf .leaf))) .leaf) (.cut 3 (.cut 0 .leaf .leaf) .leaf)) (.cut 2 (.cut 3 (.ref (.cut 0 (.cut 1 .leaf .leaf) (.cut 1 .leaf (.ref (.cut 2 .leaf .leaf))))) (.cut 0 .leaf .leaf)) (.cut 3 (.ref (.cut 0 .leaf (.cut 1 .leaf .leaf))) (.cut 0 .leaf .leaf)))))) (.cut 0 (.cut 1 (.cut 2 .leaf .leaf) (.cut 2 .leaf .leaf)) (.cut 1 (.cut 2 (.cut 3 .leaf .leaf) .leaf) (.cut 2 (.cut 3 .leaf .leaf) .leaf)))))
theorem h466 : check par t466 [53248, 45056, 12288, 8192] [4096, 4096, 4096, 8192] st = true := by decide +kernel
def t467 : Tree := (.ref (.cut 1 (.cut 2 (.ref (.cut 3 (.cut 0 (.cut 1 .leaf .leaf) (.ref (.cut 1 .leaf .leaf))) (.cut 0 (.cut 1 .leaf .leaf) (.cut 1 .leaf .leaf)))) (.cut 3 (.cut 0 (.cut 1 .leaf .leaf) (.cut 1 .leaf .leaf)) (.cut 0 .leaf (.ref (.cut 1 .leaf .leaf))))) (.cut 2 (.ref (.cut 3 (.cut 0 (.cut 1 .leaf .leaf) (.ref (.cut 1 .leaf .leaf))) (.cut 0 (.cut 1 .leaf .leaf) (.ref (.cut 1 .leaf .leaf))))) (.cut 3 (.cut 0 (.cut 1 .leaf .leaf) (.ref (.cut 1 .leaf .leaf))) (.cut 0 .leaf (.cut 1 .leaf .leaf))))))
theorem h467 : check par t467 [59392, 36864, 4096, 4096] [2048, 4096, 4096, 4096] st = true := by decide +kernel
def t468 : Tree := (.ref (.cut 1 (.cut 2 (.ref (.cut 3 (.cut 0 (.cut 1 .leaf .leaf) (.cut 1 .leaf .leaf)) (.cut 0 (.cut 1 .leaf .leaf) (.cut 1 .leaf .leaf)))) (.cut 3 (.ref (.cut 0 (.cut 1 .leaf .leaf) (.cut 1 .leaf .leaf))) (.ref (.cut 0 (.cut 1 .leaf .leaf) (.ref (.cut 1 .leaf .leaf)))))) (.cut 2 (.ref (.cut 3 (.cut 0 (.cut 1 .leaf .leaf) (.cut 1 .leaf .leaf)) (.cut 0 (.cut 1 .leaf (.cut 2 .out .leaf)) (.cut 1 .leaf .leaf)))) (.ref (.cut 3 (.cut 0 (.cut 1 .leaf (.cut 2 .leaf .leaf)) (.cut 1 .leaf .leaf)) (.cut 0 (.cut 1 .leaf .leaf) (.ref (.cut 1 .leaf .leaf))))))))
theorem h468 : check par t468 [63488, 36864, 4096, 4096] [2048, 4096, 4096, 4096] st = true := by decide +kernel
def t469 : Tree := (.ref (.cut 0 (.cut 1 (.ref (.cut 2 .out (.cut 3 (.ref (.cut 0 .leaf .leaf)) .out))) (.ref (.cut 2 .out (.cut 3 (.ref (.cut 0 .leaf .leaf)) .out)))) (.ref (.cut 1 (.ref (.cut 2 .out (.cut 3 (.cut 0 .leaf .leaf) .out))) (.ref (.cut 2 .out (.cut 3 (.cut 0 (.cut 1 .leaf .leaf) (.ref (.cut 1 .leaf .leaf))) .out)))))))
theorem h469 : check par t469 [61440, 36864, 4096, 12288] [4096, 4096, 4096, 4096] st = true := by decide +kernel
def t470 : Tree := (.ref (.cut 3 (.ref (.cut 0 (.cut 1 (.cut 2 (.ref (.cut 3 (.cut 0 .leaf .leaf) (.cut 0 .leaf .leaf))) (.cut 3 .leaf .leaf)) (.cut 2 (.ref (.cut 3 (.cut 0 (.cut 1 .leaf .leaf) (.cut 1 .leaf .leaf)) (.cut 0 .leaf .leaf))) (.cut 3 (.ref (.cut 0 .leaf .leaf)) .leaf))) (.cut 1 (.ref (.cut 2 (.cut 3 (.cut 0 (.cut 1 .leaf .leaf) (.ref (.cut 1 .leaf .leaf))) (.cut 0 .leaf .leaf)) (.cut 3 .leaf .leaf))) (.ref (.cut 2 (.cut 3 (.ref (.cut 0 (.cut 1 .leaf .leaf) (.cut 1 .leaf .leaf))) (.cut 0 (.cut 1 .leaf .leaf) (.ref (.cut 1 .leaf .leaf)))) (.cut 3 (.cut 0 .leaf .leaf) (.cut 0 .leaf .leaf))))))) (.cut 0 (.cut 1 (.cut 2 (.cut 3 .leaf .leaf) .leaf) (.cut 2 (.cut 3 .leaf .leaf) .leaf)) (.cut 1 (.cut 2 (.cut 3 .leaf .leaf) (.cut 3 .leaf .leaf)) (.cut 2 (.cut 3 .leaf .leaf) (.cut 3 .leaf .leaf))))))
theorem h470 : check par t470 [61440, 36864, 12288, 8192] [4096, 4096, 4096, 8192] st = true := by decide +kernel
def t471 : Tree := (.ref (.cut 1 (.cut 2 (.ref (.cut 3 (.ref (.cut 0 (.cut 1 .leaf .leaf) (.cut 1 .leaf .leaf))) (.cut 0 (.cut 1 .leaf .leaf) (.ref (.cut 1 (.cut 2 .out .leaf) (.cut 2 .out .leaf)))))) (.cut 3 (.cut 0 (.cut 1 .leaf .leaf) (.ref (.cut 1 (.cut 2 .leaf .leaf) (.cut 2 .leaf .leaf)))) (.cut 0 .leaf (.ref (.cut 1 .leaf .leaf))))) (.cut 2 (.ref (.cut 3 (.ref (.cut 0 (.cut 1 .leaf .leaf) (.cut 1 .leaf .leaf))) (.ref (.cut 0 (.cut 1 (.cut 2 .out .leaf) (.cut 2 .out .leaf)) (.cut 1 (.cut 2 .out .leaf) (.cut 2 .out .leaf)))))) (.cut 3 (.ref (.cut 0 (.cut 1 (.cut 2 .leaf .leaf) (.cut 2 .leaf .leaf)) (.cut 1 (.cut 2 .leaf (.cut 3 .leaf .leaf)) (.cut 2 .leaf (.cut 3 .leaf .leaf))))) (.ref (.cut 0 (.cut 1 .leaf .leaf) (.cut 1 .leaf .leaf)))))))
theorem h471 : check par t471 [59392, 45056, 4096, 4096] [2048, 4096, 4096, 4096] st = true := by decide +kernel
def t472 : Tree := (.ref (.cut 2 (.ref (.cut 3 (.cut 0 (.cut 1 (.cut 2 .leaf .leaf) (.cut 2 .leaf .leaf)) (.cut 1 (.cut 2 .leaf .leaf) (.cut 2 .leaf .leaf))) (.cut 0 (.cut 1 (.cut 2 .out .leaf) (.cut 2 .out .leaf)) (.cut 1 (.cut 2 .out .leaf) (.cut 2 .out .leaf))))) (.cut 3 (.cut 0 (.cut 1 (.cut 2 .leaf .leaf) (.cut 2 .leaf (.cut 3 .leaf .leaf))) (.cut 1 (.cut 2 .leaf .leaf) (.cut 2 .leaf (.cut 3 .leaf .leaf)))) (.cut 0 (.cut 1 .leaf .leaf) (.cut 1 .leaf .leaf)))))
theorem h472 : check par t472 [63488, 43008, 4096, 4096] [2048, 2048, 4096, 4096] st = true := by decide +kernel
def t473 : Tree := (.ref (.cut 2 (.ref (.cut 3 (.cut 0 (.cut 1 (.cut 2 .leaf .leaf) .leaf) (.cut 1 (.cut 2 .leaf .leaf) .leaf)) (.cut 0 (.cut 1 (.cut 2 .out (.cut 3 .leaf .out)) (.cut 2 .out (.cut 3 .leaf .out))) (.cut 1 (.cut 2 .out (.cut 3 .leaf .out)) (.cut 2 .out (.cut 3 .leaf .out)))))) (.cut 3 (.cut 0 (.cut 1 (.cut 2 (.cut 3 .leaf .leaf) (.cut 3 (.cut 0 .leaf .leaf) .leaf)) (.cut 2 (.cut 3 .leaf .leaf) (.cut 3 (.cut 0 (.cut 1 .leaf .leaf) (.cut 1 .leaf .leaf)) .leaf))) (.cut 1 (.cut 2 (.ref (.cut 3 .leaf .leaf)) (.cut 3 (.cut 0 .leaf .leaf) .leaf)) (.cut 2 (.cut 3 .leaf .leaf) (.cut 3 (.cut 0 (.cut 1 .leaf .leaf) (.cut 1 .leaf .leaf)) .leaf)))) (.cut 0 (.cut 1 .leaf (.cut 2 .leaf .leaf)) (.cut 1 (.cut 2 .leaf .leaf) (.cut 2 .leaf .leaf))))))
theorem h473 : check par t473 [63488, 47104, 4096, 4096] [2048, 2048, 4096, 4096] st = true := by decide +kernel
def t474 : Tree := (.ref (.cut 0 (.cut 1 (.cut 2 .out (.cut 3 (.ref (.cut 0 .leaf (.cut 1 .leaf .leaf))) .out)) (.cut 2 .out (.cut 3 (.ref (.cut 0 (.cut 1 .leaf .leaf) (.ref (.cut 1 .leaf .leaf)))) .out))) (.cut 1 (.ref (.cut 2 .out (.cut 3 (.ref (.cut 0 (.cut 1 .leaf .leaf) (.cut 1 .leaf (.cut 2 .out .leaf)))) .out))) (.ref (.cut 2 .out (.cut 3 (.cut 0 (.cut 1 (.cut 2 .out .leaf) (.cut 2 .out .leaf)) (.cut 1 (.cut 2 .out .leaf) (.cut 2 .out .leaf))) .out))))))
theorem h474 : check par t474 [61440, 45056, 4096, 12288] [4096, 4096, 4096, 4096] st = true := by decide +kernel
def t475 : Tree := (.ref (.cut 2 (.ref (.cut 3 (.cut 0 (.cut 1 .leaf (.cut 2 .leaf .leaf)) (.ref (.cut 1 (.cut 2 .leaf .leaf) (.cut 2 .leaf .leaf)))) (.cut 0 (.cut 1 .leaf .leaf) (.cut 1 .leaf .leaf)))) (.cut 3 (.ref (.cut 0 (.cut 1 .leaf .leaf) (.cut 1 .leaf .leaf))) (.cut 0 .leaf .leaf))))
theorem h475 : check par t475 [59392, 43008, 12288, 4096] [2048, 2048, 4096, 4096] st = true := by decide +kernel
def t476 : Tree := (.ref (.cut 2 (.ref (.cut 3 (.ref (.cut 0 (.cut 1 (.cut 2 .leaf .leaf) (.cut 2 .leaf .leaf)) (.cut 1 (.cut 2 (.cut 3 .leaf .leaf) (.cut 3 .leaf .leaf)) (.cut 2 (.cut 3 (.cut 0 .leaf (.cut 1 .leaf .leaf)) .leaf) (.cut 3 (.cut 0 .leaf (.cut 1 .leaf .leaf)) .leaf))))) (.cut 0 (.cut 1 .leaf .leaf) (.ref (.cut 1 .leaf (.cut 2 .leaf .leaf)))))) (.cut 3 (.ref (.cut 0 (.cut 1 .leaf (.ref (.cut 2 .leaf .leaf))) (.ref (.cut 1 (.cut 2 .leaf .leaf) (.cut 2 (.cut 3 .leaf .leaf) .leaf))))) (.cut 0 (.cut 1 .leaf .leaf) (.ref (.cut 1 .leaf (.ref (.cut 2 .leaf .leaf))))))))
theorem h476 : check par t476 [59392, 47104, 12288, 4096] [2048, 2048, 4096, 4096] st = true := by decide +kernel
def t477 : Tree := (.ref (.cut 2 (.ref (.cut 3 (.cut 0 (.cut 1 (.cut 2 .leaf .leaf) (.cut 2 (.cut 3 .leaf .leaf) .leaf)) (.cut 1 (.cut 2 .leaf .leaf) (.cut 2 (.cut 3 .leaf .leaf) .leaf))) (.cut 0 (.cut 1 .leaf .leaf) (.cut 1 .leaf (.cut 2 .leaf .leaf))))) (.cut 3 (.ref (.cut 0 (.cut 1 .leaf .leaf) (.cut 1 .leaf .leaf))) (.cut 0 (.cut 1 .leaf .leaf) (.ref (.cut 1 .leaf .leaf))))))
theorem h477 : check par t477 [63488, 43008, 12288, 4096] [2048, 2048, 4096, 4096] st = true := by decide +kernel
def t478 : Tree := (.ref (.cut 0 (.cut 1 (.cut 2 (.cut 3 (.cut 0 .leaf (.cut 1 .leaf .leaf)) .leaf) (.cut 3 .leaf .leaf)) (.cut 2 (.cut 3 (.cut 0 (.cut 1 .leaf .leaf) (.cut 1 .leaf .leaf)) (.cut 0 .leaf .leaf)) (.cut 3 (.cut 0 (.cut 1 .leaf .leaf) (.cut 1 .leaf (.cut 2 .leaf .leaf))) (.cut 0 .leaf (.cut 1 .leaf .leaf))))) (.cut 1 (.cut 2 (.cut 3 (.cut 0 (.cut 1 .leaf .leaf) (.cut 1 .leaf .leaf)) .leaf) (.cut 3 (.cut 0 .leaf .leaf) .leaf)) (.cut 2 (.cut 3 (.cut 0 (.cut 1 .leaf (.cut 2 .leaf .leaf)) (.cut 1 .leaf (.cut 2 .leaf .leaf))) (.cut 0 .leaf (.cut 1 .leaf .leaf))) (.cut 3 (.cut 0 (.cut 1 .leaf (.cut 2 .leaf .leaf)) (.cut 1 .leaf (.cut 2 .leaf .leaf))) (.cut 0 (.cut 1 .leaf .leaf) (.cut 1 .leaf .leaf)))))))
theorem h478 : check par t478 [63488, 47104, 10240, 2048] [2048, 2048, 2048, 2048] st = true := by decide +kernel
def t479 : Tree := (.ref (.cut 0 (.cut 1 (.cut 2 .leaf .leaf) (.cut 2 .leaf .leaf)) (.cut 1 (.cut 2 .leaf .leaf) (.cut 2 .leaf (.cut 3 .leaf .leaf)))))
theorem h479 : check par t479 [63488, 47104, 10240, 6144] [2048, 2048, 2048, 2048] st = true := by decide +kernel
def t480 : Tree := (.ref (.cut 3 (.cut 0 (.cut 1 (.cut 2 .leaf .leaf) (.cut 2 (.cut 3 (.cut 0 .leaf .leaf) .leaf) .leaf)) (.cut 1 (.cut 2 .leaf .leaf) (.cut 2 (.cut 3 (.cut 0 (.cut 1 .leaf .leaf) (.cut 1 .leaf .leaf)) (.cut 0 .leaf .leaf)) .leaf))) (.cut 0 (.cut 1 .leaf (.cut 2 .leaf .leaf)) (.cut 1 (.cut 2 .leaf .leaf) (.cut 2 .leaf .leaf)))))
theorem h480 : check par t480 [63488, 47104, 14336, 4096] [2048, 2048, 2048, 4096] st = true := by decide +kernel
def t481 : Tree := (.ref (.cut 0 (.cut 1 (.cut 2 (.cut 3 .leaf .leaf) (.cut 3 .leaf .leaf)) (.cut 2 (.cut 3 .leaf .leaf) (.cut 3 .leaf .leaf))) (.cut 1 (.cut 2 (.cut 3 (.ref (.cut 0 .leaf .leaf)) .leaf) (.cut 3 .leaf .leaf)) (.cut 2 (.cut 3 (.ref (.cut 0 .leaf (.cut 1 .leaf .leaf))) (.ref (.cut 0 .leaf (.ref (.cut 1 .leaf .leaf))))) (.cut 3 (.ref (.cut 0 (.cut 1 .leaf .leaf) (.ref (.cut 1 .leaf .leaf)))) .leaf)))))
theorem h481 : check par t481 [61440, 45056, 12288, 12288] [4096, 4096, 4096, 4096] st = true := by decide +kernel
def t482 : Tree := (.ref (.cut 0 (.cut 1 (.cut 2 .out (.cut 3 (.cut 0 (.cut 1 .leaf .leaf) (.cut 1 .leaf .leaf)) .out)) (.cut 2 .out (.cut 3 (.cut 0 (.cut 1 .leaf .leaf) (.cut 1 .leaf (.cut 2 .out .leaf))) .out))) (.cut 1 (.cut 2 .out (.cut 3 (.cut 0 (.cut 1 .leaf (.cut 2 .out .leaf)) (.cut 1 (.ref (.cut 2 .out .leaf)) (.cut 2 .out .leaf))) .out)) (.cut 2 .out (.cut 3 (.cut 0 (.cut 1 (.cut 2 .out .leaf) (.cut 2 .out .leaf)) (.cut 1 (.cut 2 .out .leaf) (.cut 2 .out .out))) .out)))))
theorem h482 : check par t482 [57344, 40960, 8192, 24576] [8192, 8192, 8192, 8192] st = true := by decide +kernel
def t483 : Tree := (.ref (.cut 2 (.cut 3 (.cut 0 (.cut 1 .leaf (.cut 2 .leaf .leaf)) (.cut 1 (.cut 2 .leaf .leaf) (.cut 2 .leaf .leaf))) (.cut 0 (.cut 1 .leaf .leaf) (.cut 1 .leaf (.cut 2 .leaf .leaf)))) (.cut 3 (.cut 0 (.cut 1 .leaf (.cut 2 .leaf .leaf)) (.cut 1 .leaf (.cut 2 .leaf .leaf))) (.cut 0 (.cut 1 .leaf .leaf) (.cut 1 .leaf .leaf)))))
theorem h483 : check par t483 [53248, 36864, 24576, 8192] [4096, 4096, 8192, 8192] st = true := by decide +kernel
def t484 : Tree := (.ref (.cut 2 (.cut 3 (.cut 0 (.cut 1 (.cut 2 .leaf .leaf) (.cut 2 (.cut 3 .leaf .leaf) .leaf)) (.cut 1 (.cut 2 (.cut 3 .leaf .leaf) .leaf) (.cut 2 (.cut 3 (.cut 0 .leaf .leaf) .leaf) (.cut 3 .leaf .leaf)))) (.cut 0 (.cut 1 .leaf (.cut 2 .leaf .leaf)) (.cut 1 (.cut 2 .leaf .leaf) (.cut 2 .leaf .leaf)))) (.cut 3 (.cut 0 (.cut 1 (.cut 2 .leaf .leaf) (.cut 2 .leaf .leaf)) (.cut 1 (.cut 2 .leaf .leaf) (.cut 2 .leaf (.cut 3 .leaf .leaf)))) (.cut 0 (.cut 1 .leaf (.cut 2 .leaf .leaf)) (.cut 1 .leaf (.cut 2 .leaf .out))))))
theorem h484 : check par t484 [53248, 45056, 24576, 8192] [4096, 4096, 8192, 8192] st = true := by decide +kernel
def t485 : Tree := (.ref (.cut 2 (.cut 3 (.cut 0 (.cut 1 (.cut 2 .leaf .leaf) (.cut 2 .leaf .leaf)) (.cut 1 (.cut 2 .leaf .leaf) (.cut 2 .leaf .leaf))) (.cut 0 (.cut 1 (.cut 2 .leaf .leaf) (.cut 2 .leaf .leaf)) (.cut 1 (.cut 2 .leaf .leaf) (.cut 2 .leaf .leaf)))) (.cut 3 (.cut 0 (.cut 1 .leaf (.cut 2 .leaf .leaf)) (.cut 1 .leaf (.cut 2 .leaf .leaf))) (.cut 0 (.cut 1 .leaf .leaf) (.cut 1 .leaf .leaf)))))
theorem h485 : check par t485 [61440, 36864, 24576, 8192] [4096, 4096, 8192, 8192] st = true := by decide +kernel
def t486 : Tree := (.ref (.cut 2 (.cut 3 (.cut 0 (.cut 1 (.cut 2 (.cut 3 .leaf .leaf) .leaf) (.cut 2 (.cut 3 (.ref (.cut 0 (.cut 1 .leaf .leaf) (.ref (.cut 1 .leaf .leaf)))) (.cut 0 .leaf (.cut 1 .leaf .leaf))) (.cut 3 .leaf .leaf))) (.cut 1 (.cut 2 (.cut 3 (.ref (.cut 0 .leaf .leaf)) .leaf) .leaf) (.cut 2 (.ref (.cut 3 (.ref (.cut 0 (.cut 1 .leaf .leaf) (.cut 1 .leaf (.cut 2 .leaf .leaf)))) (.cut 0 (.cut 1 .leaf .leaf) (.ref (.cut 1 .leaf .leaf))))) (.cut 3 (.ref (.cut 0 .leaf .leaf)) .leaf)))) (.cut 0 (.cut 1 (.cut 2 .leaf .leaf) (.cut 2 (.cut 3 .leaf .leaf) (.cut 3 .leaf .out))) (.cut 1 (.cut 2 (.cut 3 .leaf .leaf) .leaf) (.cut 2 (.cut 3 (.cut 0 .leaf .out) .out) .out)))) (.cut 3 (.cut 0 (.cut 1 (.cut 2 .leaf .leaf) (.cut 2 (.cut 3 .leaf .leaf) (.cut 3 .leaf .out))) (.cut 1 (.cut 2 .leaf .leaf) (.cut 2 (.cut 3 .leaf .out) .out))) (.cut 0 (.cut 1 (.cut 2 .leaf .out) .out) .out))))
theorem h486 : check par t486 [61440, 45056, 24576, 8192] [4096, 4096, 8192, 8192] st = true := by decide +kernel
def t487 : Tree := (.ref (.cut 0 (.cut 1 (.cut 2 (.ref (.cut 3 (.cut 0 (.cut 1 .leaf .leaf) (.cut 1 .leaf .leaf)) (.ref (.cut 0 (.cut 1 .leaf .leaf) .leaf)))) (.ref (.cut 3 (.ref (.cut 0 (.cut 1 .leaf (.cut 2 .leaf .leaf)) (.cut 1 .leaf .leaf))) (.cut 0 (.cut 1 .leaf .out) .out)))) (.cut 2 (.cut 3 (.cut 0 .leaf (.cut 1 .leaf .leaf)) (.ref (.cut 0 .leaf .out))) (.ref (.cut 3 (.ref (.cut 0 (.cut 1 .leaf .out) .out)) .out)))) (.cut 1 (.cut 2 (.cut 3 (.cut 0 (.cut 1 .leaf .leaf) (.cut 1 .leaf .leaf)) (.ref (.cut 0 .leaf .out))) (.ref (.cut 3 (.ref (.cut 0 (.cut 1 .leaf .out) .out)) .out))) (.cut 2 (.cut 3 (.cut 0 (.cut 1 .leaf .out) .out) .out) .out))))
theorem h487 : check par t487 [57344, 40960, 24576, 24576] [8192, 8192, 8192, 8192] st = true := by decide +kernel
def t488 : Tree := (.ref (.cut 3 (.ref (.cut 0 (.ref (.cut 1 (.cut 2 (.cut 3 .leaf .leaf) .leaf) (.ref (.cut 2 (.ref (.cut 3 .leaf (.ref (.cut 0 .out .leaf)))) (.cut 3 (.ref (.cut 0 .out .leaf)) .leaf))))) (.cut 1 (.ref (.cut 2 (.ref (.cut 3 .leaf (.ref (.cut 0 .leaf (.cut 1 .leaf .leaf))))) (.cut 3 (.ref (.cut 0 .leaf (.cut 1 .leaf .leaf))) .leaf))) (.ref (.cut 2 (.cut 3 .leaf .leaf) (.cut 3 .leaf .leaf)))))) (.ref (.cut 0 (.ref (.cut 1 (.cut 2 .out (.cut 3 .leaf .out)) (.ref (.cut 2 .out (.cut 3 .leaf .out))))) (.cut 1 (.ref (.cut 2 .out (.cut 3 .leaf .out))) (.cut 2 .out (.cut 3 .leaf .out)))))))
theorem h488 : check par t488 [53248, 53248, 4096, 8192] [4096, 4096, 4096, 8192] st = true := by decide +kernel
def t489 : Tree := (.ref (.cut 3 (.ref (.cut 0 (.cut 1 (.cut 2 (.cut 3 .leaf .leaf) (.cut 3 .leaf .leaf)) (.ref (.cut 2 (.ref (.cut 3 (.cut 0 .out .leaf) .leaf)) (.cut 3 (.ref (.cut 0 .out (.ref (.cut 1 .leaf .out)))) (.cut 0 .out .leaf))))) (.cut 1 (.ref (.cut 2 (.ref (.cut 3 (.cut 0 .leaf (.ref (.cut 1 .leaf .leaf))) .leaf)) (.cut 3 (.ref (.cut 0 (.cut 1 .leaf .leaf) (.ref (.cut 1 (.cut 2 .leaf .leaf) (.cut 2 .leaf .leaf))))) (.cut 0 .leaf .leaf)))) (.cut 2 (.ref (.cut 3 (.cut 0 .leaf (.cut 1 .leaf .leaf)) .leaf)) (.cut 3 (.ref (.cut 0 (.cut 1 .leaf .leaf) (.cut 1 .leaf .leaf))) .leaf))))) (.cut 0 (.cut 1 (.cut 2 .leaf .leaf) (.ref (.cut 2 (.cut 3 .leaf .leaf) .leaf))) (.cut 1 (.ref (.cut 2 (.cut 3 .leaf .leaf) (.cut 3 .leaf .leaf))) (.cut 2 .leaf .leaf)))))
theorem h489 : check par t489 [53248, 53248, 12288, 8192] [4096, 4096, 4096, 8192] st = true := by decide +kernel
def t490 : Tree := (.ref (.cut 2 (.ref (.cut 3 (.ref (.cut 0 .out (.cut 1 (.cut 2 (.ref (.cut 3 .leaf (.cut 0 .out .leaf))) (.ref (.cut 3 (.cut 0 .out .leaf) (.cut 0 .out .leaf)))) .out))) (.ref (.cut 0 .out (.ref (.cut 1 (.cut 2 .out (.cut 3 (.cut 0 .out (.ref (.cut 1 .leaf .out))) .out)) .out)))))) (.ref (.cut 3 (.ref (.cut 0 .out (.ref (.cut 1 (.cut 2 (.cut 3 (.ref (.cut 0 .out (.cut 1 (.cut 2 .leaf .leaf) .out))) (.cut 0 .out (.ref (.cut 1 .leaf .out)))) (.cut 3 (.ref (.cut 0 .out (.cut 1 (.cut 2 .leaf .leaf) .out))) (.cut 0 .out (.cut 1 .leaf .out)))) .out)))) (.cut 0 .out (.cut 1 (.cut 2 (.ref (.cut 3 .leaf .leaf)) (.cut 3 .leaf .out)) .out))))))
theorem h490 : check par t490 [53248, 61440, 8192, 8192] [4096, 4096, 8192, 8192] st = true := by decide +kernel
def t491 : Tree := (.ref (.cut 1 (.cut 2 (.ref (.cut 3 (.cut 0 .leaf (.cut 1 .leaf .leaf)) (.cut 0 (.cut 1 (.cut 2 .out .leaf) (.cut 2 .out .leaf)) (.cut 1 (.cut 2 .out (.cut 3 .leaf .out)) (.cut 2 .out (.cut 3 .leaf .out)))))) (.cut 3 (.ref (.cut 0 (.cut 1 (.cut 2 .leaf .leaf) (.cut 2 .leaf .leaf)) (.cut 1 (.cut 2 .leaf (.cut 3 (.cut 0 .leaf .leaf) .leaf)) (.cut 2 .leaf (.cut 3 .leaf .leaf))))) (.cut 0 .leaf (.cut 1 .leaf .leaf)))) (.cut 2 (.ref (.cut 3 .leaf (.ref (.cut 0 (.cut 1 .leaf .leaf) (.cut 1 (.cut 2 .out .leaf) .leaf))))) (.cut 3 (.ref (.cut 0 (.cut 1 .leaf .leaf) (.cut 1 (.cut 2 .leaf .leaf) .leaf))) (.cut 0 .leaf .leaf)))))
theorem h491 : check par t491 [59392, 53248, 4096, 4096] [2048, 4096, 4096, 4096] st = true := by decide +kernel
def t492 : Tree := (.ref (.cut 2 (.ref (.cut 3 (.cut 0 (.cut 1 .leaf .leaf) (.cut 1 .leaf .leaf)) (.cut 0 (.cut 1 (.cut 2 .out (.cut 3 .leaf .out)) (.cut 2 .out (.cut 3 .leaf .out))) (.cut 1 (.cut 2 .out (.cut 3 .leaf .out)) (.cut 2 .out (.cut 3 .leaf .out)))))) (.cut 3 (.cut 0 (.cut 1 (.cut 2 .leaf (.cut 3 (.cut 0 (.cut 1 .leaf .leaf) (.cut 1 .leaf .leaf)) .leaf)) (.cut 2 .leaf (.cut 3 (.cut 0 (.cut 1 .leaf .leaf) (.cut 1 .leaf .leaf)) .leaf))) (.cut 1 (.cut 2 .leaf (.cut 3 (.cut 0 (.cut 1 .leaf .leaf) (.cut 1 .leaf .leaf)) .leaf)) (.cut 2 .leaf (.cut 3 (.cut 0 (.cut 1 .leaf .leaf) (.cut 1 .leaf .leaf)) .leaf)))) (.cut 0 (.cut 1 (.cut 2 .leaf .leaf) (.cut 2 .leaf .leaf)) (.cut 1 (.cut 2 .leaf .leaf) (.cut 2 .leaf .leaf))))))
theorem h492 : check par t492 [63488, 51200, 4096, 4096] [2048, 2048, 4096, 4096] st = true := by decide +kernel
def t493 : Tree := (.ref (.cut 2 (.ref (.cut 3 .leaf (.cut 0 (.cut 1 (.cut 2 .out .leaf) .leaf) (.cut 1 (.cut 2 .out .leaf) .leaf)))) (.cut 3 (.ref (.cut 0 (.cut 1 (.cut 2 .leaf .leaf) .leaf) (.cut 1 (.cut 2 .leaf .leaf) .leaf))) (.cut 0 (.cut 1 .leaf .leaf) (.cut 1 .leaf .leaf)))))
theorem h493 : check par t493 [63488, 55296, 4096, 4096] [2048, 2048, 4096, 4096] st = true := by decide +kernel
def t494 : Tree := (.ref (.cut 0 (.cut 1 (.cut 2 .out (.cut 3 (.ref (.cut 0 (.cut 1 .leaf .leaf) (.ref (.cut 1 .leaf .leaf)))) .out)) (.ref (.cut 2 .out (.cut 3 (.cut 0 (.ref (.cut 1 .leaf .leaf)) (.ref (.cut 1 (.cut 2 .out .leaf) .leaf))) .out)))) (.ref (.cut 1 (.ref (.cut 2 .out (.cut 3 (.cut 0 (.cut 1 (.cut 2 .out .leaf) (.cut 2 .out .leaf)) (.cut 1 (.cut 2 .out .leaf) (.cut 2 .out .leaf))) .out))) (.ref (.cut 2 .out (.cut 3 (.cut 0 (.cut 1 (.cut 2 .out .leaf) (.cut 2 .out .leaf)) (.cut 1 (.cut 2 .out (.cut 3 .leaf .out)) (.cut 2 .out .out))) .out)))))))
theorem h494 : check par t494 [61440, 53248, 4096, 12288] [4096, 4096, 4096, 4096] st = true := by decide +kernel
def t495 : Tree := (.ref (.cut 2 (.ref (.cut 3 (.cut 0 (.cut 1 (.cut 2 .leaf (.cut 3 .leaf .leaf)) (.cut 2 .leaf .leaf)) (.cut 1 (.cut 2 (.cut 3 (.cut 0 .leaf (.cut 1 .leaf .leaf)) .leaf) (.cut 3 (.cut 0 .leaf (.cut 1 .leaf .leaf)) .leaf)) (.cut 2 (.cut 3 (.cut 0 .leaf (.cut 1 .leaf .leaf)) .leaf) (.cut 3 (.cut 0 .leaf (.cut 1 .leaf .leaf)) .leaf)))) (.cut 0 (.cut 1 .leaf .leaf) (.cut 1 (.cut 2 .leaf .leaf) (.cut 2 .leaf .leaf))))) (.cut 3 (.ref (.cut 0 (.cut 1 (.cut 2 .leaf .leaf) (.cut 2 .leaf .leaf)) (.cut 1 (.cut 2 (.cut 3 (.cut 0 .leaf (.cut 1 .leaf .leaf)) .leaf) (.cut 3 .leaf .leaf)) (.cut 2 (.cut 3 (.cut 0 .leaf (.cut 1 .leaf .leaf)) .leaf) (.cut 3 (.cut 0 .leaf .leaf) .leaf))))) (.cut 0 (.cut 1 .leaf .leaf) (.ref (.cut 1 (.cut 2 .leaf .leaf) (.cut 2 .leaf .leaf)))))))
theorem h495 : check par t495 [59392, 51200, 12288, 4096] [2048, 2048, 4096, 4096] st = true := by decide +kernel
def t496 : Tree := (.ref (.cut 2 (.cut 3 (.cut 0 (.cut 1 (.cut 2 .leaf .leaf) (.cut 2 .leaf .leaf)) (.cut 1 (.cut 2 (.cut 3 .leaf .leaf) (.cut 3 (.cut 0 .leaf (.cut 1 .leaf .leaf)) .leaf)) (.cut 2 .leaf (.cut 3 .leaf .leaf)))) (.cut 0 (.cut 1 .leaf .leaf) (.cut 1 (.cut 2 .leaf .leaf) .leaf))) (.cut 3 (.cut 0 (.cut 1 (.cut 2 .leaf .leaf) (.cut 2 .leaf .leaf)) (.cut 1 (.cut 2 (.cut 3 (.cut 0 .leaf .leaf) .leaf) (.cut 3 (.cut 0 .leaf .leaf) .leaf)) (.cut 2 (.cut 3 .leaf .leaf) (.cut 3 .leaf .leaf)))) (.cut 0 (.cut 1 .leaf .leaf) (.cut 1 (.cut 2 .leaf .leaf) (.cut 2 .leaf .out))))))
theorem h496 : check par t496 [59392, 55296, 12288, 4096] [2048, 2048, 4096, 4096] st = true := by decide +kernel
def t497 : Tree := (.ref (.cut 2 (.cut 3 (.cut 0 (.cut 1 .leaf (.cut 2 .leaf .leaf)) (.cut 1 (.cut 2 .leaf .leaf) (.cut 2 .leaf (.cut 3 .leaf .leaf)))) (.cut 0 .leaf (.cut 1 .leaf .leaf))) (.cut 3 (.cut 0 (.cut 1 (.cut 2 .leaf .leaf) (.cut 2 .leaf .leaf)) (.cut 1 (.cut 2 (.cut 3 .leaf .leaf) .leaf) (.cut 2 (.cut 3 (.cut 0 .leaf .leaf) .leaf) (.cut 3 (.cut 0 .leaf .leaf) .leaf)))) (.cut 0 (.cut 1 .leaf .leaf) (.cut 1 .leaf .leaf)))))
theorem h497 : check par t497 [62464, 50176, 10240, 2048] [1024, 1024, 2048, 2048] st = true := by decide +kernel
def t498 : Tree := (.ref (.cut 2 (.cut 3 (.cut 0 (.cut 1 (.cut 2 .leaf .leaf) (.cut 2 .leaf .leaf)) (.cut 1 (.cut 2 .leaf (.cut 3 .leaf .leaf)) (.cut 2 .leaf (.cut 3 .leaf .leaf)))) (.cut 0 .leaf (.cut 1 .leaf .leaf))) (.cut 3 (.cut 0 (.cut 1 (.cut 2 .leaf .leaf) (.cut 2 .leaf .leaf)) (.cut 1 (.cut 2 (.cut 3 (.cut 0 .leaf .leaf) .leaf) (.cut 3 (.cut 0 .leaf (.cut 1 .leaf .leaf)) .leaf)) (.cut 2 (.cut 3 (.cut 0 .leaf (.cut 1 .leaf .leaf)) .leaf) (.cut 3 (.cut 0 .leaf .leaf) .leaf)))) (.cut 0 .leaf (.cut 1 .leaf .leaf)))))
theorem h498 : check par t498 [62464, 52224, 10240, 2048] [1024, 1024, 2048, 2048] st = true := by decide +kernel
def t499 : Tree := (.ref (.cut 3 (.cut 0 (.cut 1 (.cut 2 .leaf (.cut 3 .leaf .leaf)) (.cut 2 (.cut 3 .leaf .leaf) (.cut 3 (.cut 0 .leaf (.cut 1 .leaf .leaf)) .leaf))) (.cut 1 (.cut 2 .leaf (.cut 3 .leaf .leaf)) (.cut 2 .leaf (.cut 3 (.cut 0 (.cut 1 .leaf .leaf) (.cut 1 .leaf .leaf)) .leaf)))) (.cut 0 (.cut 1 .leaf .leaf) (.cut 1 .leaf (.cut 2 .leaf .leaf)))))
theorem h499 : check par t499 [64512, 50176, 9216, 2048] [1024, 1024, 1024, 2048] st = true := by decide +kernel
def t500 : Tree := (.ref (.cut 3 (.cut 0 (.cut 1 (.cut 2 (.cut 3 .leaf .leaf) .leaf) (.cut 2 (.cut 3 (.cut 0 (.cut 1 .leaf .leaf) (.cut 1 .leaf .leaf)) .leaf) (.cut 3 (.cut 0 (.cut 1 .leaf .leaf) (.cut 1 .leaf .leaf)) .leaf))) (.cut 1 (.cut 2 (.cut 3 .leaf .leaf) .leaf) (.cut 2 (.cut 3 (.cut 0 (.cut 1 .leaf .leaf) (.cut 1 .leaf .leaf)) .leaf) (.cut 3 (.cut 0 (.cut 1 .leaf (.cut 2 .leaf .leaf)) (.cut 1 .leaf .leaf)) (.cut 0 .leaf (.cut 1 .leaf .leaf)))))) (.cut 0 (.cut 1 .leaf (.cut 2 .leaf .leaf)) (.cut 1 (.cut 2 .leaf .leaf) (.cut 2 .leaf .leaf)))))
theorem h500 : check par t500 [64512, 50176, 11264, 2048] [1024, 1024, 1024, 2048] st = true := by decide +kernel
def t501 : Tree := (.ref (.cut 3 (.cut 0 (.cut 1 (.cut 2 (.cut 3 .leaf .leaf) (.cut 3 (.cut 0 (.cut 1 .leaf .leaf) (.cut 1 .leaf .leaf)) .leaf)) (.cut 2 .leaf (.cut 3 (.cut 0 (.cut 1 .leaf .leaf) (.cut 1 .leaf .leaf)) .leaf))) (.cut 1 (.cut 2 .leaf (.cut 3 (.cut 0 (.cut 1 .leaf (.cut 2 .leaf .leaf)) (.cut 1 .leaf .leaf)) .leaf)) (.cut 2 .leaf (.cut 3 (.cut 0 (.cut 1 .leaf .leaf) (.cut 1 .leaf .leaf)) .leaf)))) (.cut 0 (.cut 1 (.cut 2 .leaf .leaf) (.cut 2 .leaf .leaf)) (.cut 1 (.cut 2 .leaf .leaf) (.cut 2 .leaf .leaf)))))
theorem h501 : check par t501 [64512, 52224, 9216, 2048] [1024, 1024, 1024, 2048] st = true := by decide +kernel
def t502 : Tree := (.ref (.cut 2 (.cut 3 (.cut 0 (.cut 1 .leaf (.cut 2 .leaf .leaf)) (.cut 1 (.cut 2 .leaf .leaf) (.cut 2 .leaf (.cut 3 .leaf .leaf)))) (.cut 0 .leaf (.cut 1 .leaf .leaf))) (.cut 3 (.cut 0 (.cut 1 (.cut 2 .leaf .leaf) (.cut 2 .leaf .leaf)) (.cut 1 (.cut 2 .leaf .leaf) (.cut 2 (.cut 3 (.cut 0 .leaf .leaf) .leaf) (.cut 3 .leaf .leaf)))) (.cut 0 .leaf (.cut 1 .leaf .leaf)))))
theorem h502 : check par t502 [64000, 51712, 11264, 1024] [512, 512, 1024, 1024] st = true := by decide +kernel
def t503 : Tree := (.ref (.cut 2 (.cut 3 (.cut 0 (.cut 1 (.cut 2 .leaf .leaf) (.cut 2 .leaf .leaf)) (.cut 1 (.cut 2 .leaf (.cut 3 .leaf .leaf)) (.cut 2 .leaf (.cut 3 .leaf .leaf)))) (.cut 0 .leaf (.cut 1 .leaf .leaf))) (.cut 3 (.cut 0 (.cut 1 (.cut 2 .leaf .leaf) (.cut 2 .leaf .leaf)) (.cut 1 (.cut 2 (.cut 3 (.cut 0 .leaf .leaf) .leaf) (.cut 3 (.cut 0 .leaf (.cut 1 .leaf .leaf)) .leaf)) (.cut 2 (.cut 3 (.cut 0 .leaf (.cut 1 .leaf .leaf)) .leaf) (.cut 3 (.cut 0 .leaf .leaf) .leaf)))) (.cut 0 .leaf (.cut 1 .leaf .leaf)))))
theorem h503 : check par t503 [64000, 52736, 11264, 1024] [512, 512, 1024, 1024] st = true := by decide +kernel
def t504 : Tree := (.ref (.cut 3 (.cut 0 (.cut 1 (.cut 2 .leaf .leaf) (.cut 2 .leaf (.cut 3 (.cut 0 .leaf (.cut 1 .leaf .leaf)) .leaf))) (.cut 1 (.cut 2 .leaf .leaf) (.cut 2 .leaf (.cut 3 (.cut 0 (.cut 1 .leaf .leaf) (.cut 1 .leaf .leaf)) .leaf)))) (.cut 0 (.cut 1 .leaf .leaf) (.cut 1 .leaf .leaf))))
theorem h504 : check par t504 [65024, 51712, 10752, 1024] [512, 512, 512, 1024] st = true := by decide +kernel
def t505 : Tree := (.ref (.cut 3 (.cut 0 (.cut 1 (.cut 2 (.cut 3 .leaf .leaf) .leaf) (.cut 2 (.cut 3 (.cut 0 (.cut 1 .leaf .leaf) (.cut 1 .leaf .leaf)) .leaf) (.cut 3 (.cut 0 (.cut 1 .leaf .leaf) (.cut 1 .leaf .leaf)) .leaf))) (.cut 1 (.cut 2 (.cut 3 .leaf .leaf) .leaf) (.cut 2 (.cut 3 (.cut 0 (.cut 1 .leaf .leaf) (.cut 1 .leaf .leaf)) .leaf) (.cut 3 (.cut 0 (.cut 1 .leaf .leaf) (.cut 1 .leaf .leaf)) (.cut 0 .leaf .leaf))))) (.cut 0 (.cut 1 .leaf (.cut 2 .leaf .leaf)) (.cut 1 .leaf (.cut 2 .leaf .leaf)))))
theorem h505 : check par t505 [65024, 51712, 11776, 1024] [512, 512, 512, 1024] st = true := by decide +kernel
def t506 : Tree := (.ref (.cut 3 (.cut 0 (.cut 1 (.cut 2 (.cut 3 .leaf .leaf) (.cut 3 (.cut 0 (.cut 1 .leaf .leaf) (.cut 1 .leaf .leaf)) .leaf)) (.cut 2 .leaf (.cut 3 (.cut 0 (.cut 1 .leaf .leaf) (.cut 1 .leaf .leaf)) .leaf))) (.cut 1 (.cut 2 .leaf (.cut 3 (.cut 0 (.cut 1 .leaf (.cut 2 .leaf .leaf)) (.cut 1 .leaf (.cut 2 .leaf .leaf))) .leaf)) (.cut 2 .leaf (.cut 3 (.cut 0 (.cut 1 .leaf .leaf) (.cut 1 .leaf .leaf)) .leaf)))) (.cut 0 (.cut 1 (.cut 2 .leaf .leaf) (.cut 2 .leaf .leaf)) (.cut 1 (.cut 2 .leaf .leaf) (.cut 2 .leaf .leaf)))))
theorem h506 : check par t506 [65024, 52736, 10752, 1024] [512, 512, 512, 1024] st = true := by decide +kernel
def t507 : Tree := (.ref (.cut 2 (.cut 3 (.cut 0 (.cut 1 .leaf (.cut 2 .leaf .leaf)) (.cut 1 (.cut 2 .leaf .leaf) (.cut 2 .leaf (.cut 3 .leaf .leaf)))) (.cut 0 .leaf .leaf)) (.cut 3 (.cut 0 (.cut 1 .leaf (.cut 2 .leaf .leaf)) (.cut 1 (.cut 2 .leaf .leaf) (.cut 2 (.cut 3 .leaf .leaf) (.cut 3 .leaf .leaf)))) (.cut 0 .leaf (.cut 1 .leaf .leaf)))))
theorem h507 : check par t507 [64768, 52480, 11776, 512] [256, 256, 512, 512] st = true := by decide +kernel
def t508 : Tree := (.ref (.cut 2 (.cut 3 (.cut 0 (.cut 1 (.cut 2 .leaf .leaf) (.cut 2 .leaf .leaf)) (.cut 1 (.cut 2 .leaf (.cut 3 .leaf .leaf)) (.cut 2 .leaf (.cut 3 .leaf .leaf)))) (.cut 0 .leaf (.cut 1 .leaf .leaf))) (.cut 3 (.cut 0 (.cut 1 (.cut 2 .leaf .leaf) (.cut 2 .leaf .leaf)) (.cut 1 (.cut 2 (.cut 3 (.cut 0 .leaf .leaf) .leaf) (.cut 3 (.cut 0 .leaf (.cut 1 .leaf .leaf)) .leaf)) (.cut 2 (.cut 3 (.cut 0 .leaf (.cut 1 .leaf .leaf)) .leaf) (.cut 3 (.cut 0 .leaf (.cut 1 .leaf .leaf)) .leaf)))) (.cut 0 .leaf (.cut 1 .leaf .leaf)))))
theorem h508 : check par t508 [64768, 52992, 11776, 512] [256, 256, 512, 512] st = true := by decide +kernel
def t509 : Tree := (.ref (.cut 2 (.cut 3 (.cut 0 (.cut 1 (.cut 2 .leaf .leaf) (.cut 2 .leaf (.cut 3 (.cut 0 .leaf (.cut 1 .leaf .leaf)) .leaf))) (.cut 1 (.cut 2 .leaf .leaf) (.cut 2 .leaf (.cut 3 (.cut 0 (.cut 1 .leaf .leaf) (.cut 1 .leaf .leaf)) .leaf)))) (.cut 0 (.cut 1 .leaf .leaf) (.cut 1 .leaf .leaf))) (.cut 3 (.cut 0 (.cut 1 (.cut 2 .leaf .leaf) (.cut 2 (.cut 3 (.cut 0 (.cut 1 .leaf .leaf) (.cut 1 .leaf .leaf)) .leaf) (.cut 3 (.cut 0 .leaf (.cut 1 .leaf .leaf)) .leaf))) (.cut 1 (.cut 2 .leaf .leaf) (.cut 2 (.cut 3 (.cut 0 (.cut 1 .leaf .leaf) (.cut 1 .leaf .leaf)) .leaf) (.cut 3 (.cut 0 (.cut 1 .leaf .leaf) (.cut 1 .leaf .leaf)) .leaf)))) (.cut 0 (.cut 1 .leaf (.cut 2 .leaf .leaf)) (.cut 1 .leaf (.cut 2 .leaf .leaf))))))
theorem h509 : check par t509 [65280, 52480, 11776, 512] [256, 256, 512, 512] st = true := by decide +kernel
def t510 : Tree := (.ref (.cut 3 (.cut 0 (.cut 1 (.cut 2 (.cut 3 .leaf .leaf) (.cut 3 (.cut 0 (.cut 1 .leaf .leaf) (.cut 1 .leaf (.cut 2 .leaf .leaf))) .leaf)) (.cut 2 .leaf (.cut 3 (.cut 0 (.cut 1 .leaf .leaf) (.cut 1 .leaf .leaf)) .leaf))) (.cut 1 (.cut 2 .leaf (.cut 3 (.cut 0 (.cut 1 .leaf (.cut 2 .leaf .leaf)) (.cut 1 .leaf (.cut 2 .leaf .leaf))) .leaf)) (.cut 2 .leaf (.cut 3 (.cut 0 (.cut 1 (.cut 2 .leaf .leaf) .leaf) (.cut 1 (.cut 2 .leaf .leaf) .leaf)) (.cut 0 .leaf .leaf))))) (.cut 0 (.cut 1 (.cut 2 .leaf .leaf) (.cut 2 .leaf .leaf)) (.cut 1 (.cut 2 .leaf .leaf) (.cut 2 .leaf .leaf)))))
theorem h510 : check par t510 [65280, 52992, 11520, 512] [256, 256, 256, 512] st = true := by decide +kernel
def t511 : Tree := (.ref (.cut 2 (.cut 3 (.cut 0 (.cut 1 .leaf (.cut 2 .leaf .leaf)) (.cut 1 (.cut 2 .leaf .leaf) (.cut 2 .leaf (.cut 3 .leaf .leaf)))) (.cut 0 .leaf .leaf)) (.cut 3 (.cut 0 (.cut 1 .leaf (.cut 2 .leaf .leaf)) (.cut 1 (.cut 2 .leaf .leaf) (.cut 2 (.cut 3 .leaf .leaf) .leaf))) (.cut 0 .leaf (.cut 1 .leaf .leaf)))))
theorem h511 : check par t511 [65152, 52864, 12032, 256] [128, 128, 256, 256] st = true := by decide +kernel
def t512 : Tree := (.ref (.cut 2 (.cut 3 (.cut 0 (.cut 1 (.cut 2 .leaf .leaf) (.cut 2 .leaf .leaf)) (.cut 1 (.cut 2 .leaf (.cut 3 .leaf .leaf)) (.cut 2 .leaf (.cut 3 (.cut 0 .leaf (.cut 1 .leaf .leaf)) .leaf)))) (.cut 0 .leaf (.cut 1 .leaf .leaf))) (.cut 3 (.cut 0 (.cut 1 (.cut 2 .leaf .leaf) (.cut 2 .leaf .leaf)) (.cut 1 (.cut 2 (.cut 3 (.cut 0 .leaf (.cut 1 .leaf .leaf)) .leaf) (.cut 3 (.cut 0 .leaf (.cut 1 .leaf .leaf)) .leaf)) (.cut 2 (.cut 3 (.cut 0 .leaf (.cut 1 .leaf .leaf)) .leaf) (.cut 3 (.cut 0 .leaf (.cut 1 .leaf .leaf)) .leaf)))) (.cut 0 .leaf (.cut 1 .leaf .leaf)))))
theorem h512 : check par t512 [65152, 53120, 12032, 256] [128, 128, 256, 256] st = true := by decide +kernel
def t513 : Tree := (.ref (.cut 2 (.cut 3 (.cut 0 (.cut 1 (.cut 2 .leaf .leaf) (.cut 2 (.cut 3 .leaf .leaf) (.cut 3 (.cut 0 .leaf (.cut 1 .leaf .leaf)) .leaf))) (.cut 1 (.cut 2 .leaf .leaf) (.cut 2 .leaf (.cut 3 (.cut 0 (.cut 1 .leaf .leaf) (.cut 1 .leaf .leaf)) .leaf)))) (.cut 0 (.cut 1 .leaf .leaf) (.cut 1 .leaf .leaf))) (.cut 3 (.cut 0 (.cut 1 (.cut 2 .leaf .leaf) (.cut 2 (.cut 3 (.cut 0 (.cut 1 .leaf .leaf) (.cut 1 .leaf .leaf)) .leaf) (.cut 3 (.cut 0 .leaf (.cut 1 .leaf .leaf)) .leaf))) (.cut 1 (.cut 2 .leaf .leaf) (.cut 2 (.cut 3 (.cut 0 (.cut 1 .leaf .leaf) (.cut 1 .leaf .leaf)) .leaf) (.cut 3 (.cut 0 (.cut 1 .leaf .leaf) .leaf) .leaf)))) (.cut 0 (.cut 1 .leaf (.cut 2 .leaf .leaf)) (.cut 1 .leaf (.cut 2 .leaf .leaf))))))
theorem h513 : check par t513 [65408, 52864, 12032, 256] [128, 128, 256, 256] st = true := by decide +kernel
def t514 : Tree := (.ref (.cut 3 (.cut 0 (.cut 1 (.cut 2 (.cut 3 .leaf .leaf) (.cut 3 (.cut 0 (.cut 1 .leaf .leaf) (.cut 1 .leaf (.cut 2 .leaf .leaf))) .leaf)) (.cut 2 .leaf (.cut 3 (.cut 0 (.cut 1 .leaf .leaf) (.cut 1 (.cut 2 .leaf .leaf) .leaf)) (.cut 0 .leaf .leaf)))) (.cut 1 (.cut 2 (.cut 3 .leaf .leaf) (.cut 3 (.cut 0 (.cut 1 .leaf (.cut 2 .leaf .leaf)) (.cut 1 .leaf (.cut 2 .leaf .leaf))) .leaf)) (.cut 2 .leaf (.cut 3 (.cut 0 (.cut 1 (.cut 2 .leaf .leaf) (.cut 2 .leaf .leaf)) (.cut 1 (.cut 2 .leaf .leaf) .leaf)) (.cut 0 (.cut 1 .leaf .leaf) (.cut 1 .leaf .leaf)))))) (.cut 0 (.cut 1 (.cut 2 .leaf .leaf) (.cut 2 .leaf .leaf)) (.cut 1 (.cut 2 .leaf .leaf) (.cut 2 .leaf .leaf)))))
theorem h514 : check par t514 [65408, 53120, 11904, 256] [128, 128, 128, 256] st = true := by decide +kernel
def t515 : Tree := (.ref (.cut 2 (.cut 3 (.cut 0 (.cut 1 .leaf (.cut 2 .leaf .leaf)) (.cut 1 (.cut 2 .leaf .leaf) (.cut 2 .leaf (.cut 3 .leaf .leaf)))) (.cut 0 .leaf (.cut 1 .leaf .leaf))) (.cut 3 (.cut 0 (.cut 1 .leaf (.cut 2 .leaf .leaf)) (.cut 1 (.cut 2 .leaf .leaf) (.cut 2 (.cut 3 .leaf .leaf) .leaf))) (.cut 0 .leaf (.cut 1 .leaf .leaf)))))
theorem h515 : check par t515 [65344, 53056, 12160, 128] [64, 64, 128, 128] st = true := by decide +kernel
def t516 : Tree := (.ref (.cut 2 (.cut 3 (.cut 0 (.cut 1 (.cut 2 .leaf .leaf) (.cut 2 .leaf .leaf)) (.cut 1 (.cut 2 (.cut 3 .leaf .leaf) (.cut 3 (.cut 0 .leaf .leaf) .leaf)) (.cut 2 (.cut 3 .leaf .leaf) (.cut 3 (.cut 0 .leaf (.cut 1 .leaf .leaf)) .leaf)))) (.cut 0 .leaf (.cut 1 .leaf (.cut 2 .leaf .leaf)))) (.cut 3 (.cut 0 (.cut 1 (.cut 2 .leaf .leaf) (.cut 2 .leaf .leaf)) (.cut 1 (.cut 2 (.cut 3 (.cut 0 .leaf (.cut 1 .leaf .leaf)) .leaf) (.cut 3 (.cut 0 .leaf (.cut 1 .leaf .leaf)) .leaf)) (.cut 2 (.cut 3 (.cut 0 .leaf (.cut 1 .leaf .leaf)) .leaf) (.cut 3 (.cut 0 .leaf (.cut 1 .leaf .leaf)) .leaf)))) (.cut 0 (.cut 1 .leaf .leaf) (.cut 1 (.cut 2 .leaf .leaf) .leaf)))))
theorem h516 : check par t516 [65344, 53184, 12160, 128] [64, 64, 128, 128] st = true := by decide +kernel
def t517 : Tree := (.ref (.cut 2 (.cut 3 (.cut 0 (.cut 1 (.cut 2 .leaf .leaf) (.cut 2 (.cut 3 .leaf .leaf) (.cut 3 (.cut 0 .leaf .leaf) .leaf))) (.cut 1 (.cut 2 .leaf .leaf) (.cut 2 (.cut 3 .leaf .leaf) (.cut 3 .leaf .leaf)))) (.cut 0 (.cut 1 .leaf .leaf) (.cut 1 .leaf .leaf))) (.cut 3 (.cut 0 (.cut 1 (.cut 2 .leaf .leaf) (.cut 2 (.cut 3 (.cut 0 (.cut 1 .leaf .leaf) (.cut 1 .leaf .leaf)) .leaf) (.cut 3 .leaf .leaf))) (.cut 1 (.cut 2 .leaf .leaf) (.cut 2 (.cut 3 (.cut 0 (.cut 1 .leaf .leaf) (.cut 1 .leaf .leaf)) .leaf) .leaf))) (.cut 0 (.cut 1 .leaf (.cut 2 .leaf .leaf)) (.cut 1 .leaf (.cut 2 .leaf .leaf))))))
theorem h517 : check par t517 [65472, 53056, 12160, 128] [64, 64, 128, 128] st = true := by decide +kernel
end FastNoise.RangeCheck.OuterSimplex4
