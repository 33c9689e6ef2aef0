import Verif.RangeCertOuterSuper4
/-! Generated by tools/rangecert/gen.py: a certificate for the checker `Verif.RangeCheck`. -/
namespace FastNoise.RangeCheck.OuterSuper4
set_option maxRecDepth 1000000
def t313 : Tree := (.ref (.cut 2 (.ref (.cut 3 (.ref (.cut 0 .out (.ref (.cut 1 .leaf .out)))) (.ref (.cut 0 .out (.ref (.cut 1 (.ref (.cut 2 .out (.ref (.cut 3 .leaf .out)))) .out)))))) (.ref (.cut 3 (.ref (.cut 0 .out (.ref (.cut 1 (.ref (.cut 2 (.cut 3 .leaf .leaf) (.ref (.cut 3 (.cut 0 .out .leaf) (.ref (.cut 0 .out .leaf)))))) .out)))) (.ref (.cut 0 .out (.cut 1 (.cut 2 (.cut 3 .leaf .leaf) (.cut 3 .leaf .out)) .out)))))))
theorem h313 : check par t313 [53248, 61440, 8192, 8192] [4096, 4096, 8192, 8192] st = true := by decide +kernel
def t314 : Tree := (.ref (.cut 3 (.ref (.cut 0 (.ref (.cut 1 (.cut 2 (.ref (.cut 3 .leaf .leaf)) (.ref (.cut 3 .leaf .leaf))) .leaf)) (.cut 1 (.ref (.cut 2 (.ref (.cut 3 .leaf .leaf)) (.cut 3 .leaf .leaf))) .leaf))) (.ref (.cut 0 (.ref (.cut 1 (.ref (.cut 2 .out (.ref (.cut 3 (.ref (.cut 0 .leaf .leaf)) .out)))) (.ref (.cut 2 .out (.ref (.cut 3 .leaf .out)))))) (.ref (.cut 1 (.ref (.cut 2 .out (.ref (.cut 3 (.cut 0 .leaf (.cut 1 .leaf .leaf)) .out)))) (.ref (.cut 2 .out (.ref (.cut 3 .leaf .out))))))))))
theorem h314 : check par t314 [61440, 53248, 4096, 8192] [4096, 4096, 4096, 8192] st = true := by decide +kernel
def t315 : Tree := (.ref (.cut 0 (.ref (.cut 1 (.ref (.cut 2 (.ref (.cut 3 (.cut 0 .leaf .leaf) (.ref (.cut 0 .leaf .leaf)))) (.ref (.cut 3 (.ref (.cut 0 (.cut 1 .leaf .leaf) (.cut 1 (.cut 2 .leaf .leaf) .leaf))) (.cut 0 (.ref (.cut 1 .leaf .leaf)) (.ref (.cut 1 .leaf .leaf))))))) (.ref (.cut 2 (.cut 3 .leaf .leaf) (.ref (.cut 3 (.cut 0 .leaf .leaf) (.ref (.cut 0 .leaf .leaf)))))))) (.ref (.cut 1 (.ref (.cut 2 (.ref (.cut 3 (.cut 0 (.ref (.cut 1 .leaf .leaf)) (.ref (.cut 1 .leaf .leaf))) (.ref (.cut 0 .leaf (.cut 1 .leaf .leaf))))) (.ref (.cut 3 (.cut 0 (.cut 1 (.ref (.cut 2 .leaf .leaf)) (.ref (.cut 2 .leaf .leaf))) (.cut 1 (.ref (.cut 2 .leaf .leaf)) (.ref (.cut 2 .leaf .leaf)))) (.ref (.cut 0 (.cut 1 (.cut 2 .leaf .leaf) .leaf) (.cut 1 (.ref (.cut 2 .leaf .leaf)) .leaf))))))) (.ref (.cut 2 (.ref (.cut 3 .leaf .leaf)) (.ref (.cut 3 (.ref (.cut 0 (.ref (.cut 1 .leaf .leaf)) (.ref (.cut 1 .leaf .leaf)))) (.ref (.cut 0 .leaf .out))))))))))
theorem h315 : check par t315 [61440, 53248, 12288, 4096] [4096, 4096, 4096, 4096] st = true := by decide +kernel
def t316 : Tree := (.ref (.cut 0 (.cut 1 (.ref (.cut 2 (.ref (.cut 3 .leaf (.ref (.cut 0 .leaf .leaf)))) (.ref (.cut 3 (.ref (.cut 0 .leaf .leaf)) .leaf)))) (.cut 2 (.cut 3 .leaf .leaf) (.ref (.cut 3 .leaf .out)))) (.cut 1 (.ref (.cut 2 (.cut 3 .leaf (.ref (.cut 0 .leaf .out))) (.cut 3 (.ref (.cut 0 .leaf .out)) .out))) (.cut 2 (.cut 3 .leaf .out) .out))))
theorem h316 : check par t316 [61440, 53248, 12288, 12288] [4096, 4096, 4096, 4096] st = true := by decide +kernel
def t317 : Tree := (.ref (.cut 2 (.ref (.cut 3 .leaf (.ref (.cut 0 (.ref (.cut 1 (.cut 2 .out (.ref (.cut 3 .leaf .out))) (.ref (.cut 2 .out (.ref (.cut 3 .leaf .out)))))) (.ref (.cut 1 (.ref (.cut 2 .out (.ref (.cut 3 .leaf .out)))) .leaf)))))) (.ref (.cut 3 (.ref (.cut 0 (.cut 1 (.cut 2 .leaf .leaf) (.ref (.cut 2 .leaf (.ref (.cut 3 .leaf .out))))) (.ref (.cut 1 (.ref (.cut 2 .leaf (.ref (.cut 3 .leaf .out)))) .leaf)))) (.ref (.cut 0 (.ref (.cut 1 (.ref (.cut 2 .leaf .out)) .out)) .out))))))
theorem h317 : check par t317 [61440, 61440, 8192, 8192] [4096, 4096, 8192, 8192] st = true := by decide +kernel
def t318 : Tree := (.ref (.cut 0 (.ref (.cut 1 (.ref (.cut 2 .out (.ref (.cut 3 (.ref (.cut 0 (.ref (.cut 1 (.ref (.cut 2 .out (.cut 3 .leaf .out))) (.ref (.cut 2 .out (.ref (.cut 3 .leaf .out)))))) (.cut 1 (.ref (.cut 2 .out (.ref (.cut 3 .leaf .out)))) (.cut 2 .out .out)))) .out)))) (.ref (.cut 2 .out (.ref (.cut 3 (.ref (.cut 0 .out .out)) .out)))))) (.ref (.cut 1 (.ref (.cut 2 .out (.ref (.cut 3 (.ref (.cut 0 (.cut 1 (.ref (.cut 2 .out .out)) .out) .out)) .out)))) (.ref (.cut 2 .out .out))))))
theorem h318 : check par t318 [57344, 57344, 8192, 24576] [8192, 8192, 8192, 8192] st = true := by decide +kernel
def t319 : Tree := (.ref (.cut 0 (.cut 1 (.cut 2 (.cut 3 (.cut 0 .leaf .leaf) .leaf) (.cut 3 (.ref (.cut 0 .leaf .leaf)) (.cut 0 .leaf .leaf))) (.ref (.cut 2 (.cut 3 (.cut 0 .out (.cut 1 .leaf .out)) (.cut 0 .out .leaf)) (.cut 3 (.ref (.cut 0 .out (.cut 1 .leaf .out))) (.cut 0 .out (.cut 1 .leaf .out)))))) (.cut 1 (.ref (.cut 2 (.cut 3 (.cut 0 (.cut 1 .leaf .leaf) (.cut 1 (.cut 2 .leaf .leaf) .leaf)) (.cut 0 .leaf (.cut 1 .leaf .leaf))) (.cut 3 (.ref (.cut 0 (.cut 1 .leaf .leaf) (.cut 1 (.cut 2 .leaf .leaf) (.cut 2 .leaf .leaf)))) (.cut 0 .leaf (.cut 1 .leaf .leaf))))) (.cut 2 (.cut 3 (.cut 0 (.cut 1 .leaf .leaf) (.cut 1 .leaf .leaf)) (.cut 0 .leaf .leaf)) (.cut 3 (.ref (.cut 0 (.cut 1 .leaf (.ref (.cut 2 .leaf .leaf))) (.cut 1 (.ref (.cut 2 .leaf .leaf)) (.cut 2 .leaf .out)))) (.cut 0 (.cut 1 .leaf .out) .out))))))
theorem h319 : check par t319 [53248, 53248, 20480, 4096] [4096, 4096, 4096, 4096] st = true := by decide +kernel
def t320 : Tree := (.ref (.cut 0 (.ref (.cut 1 (.ref (.cut 2 (.cut 3 .leaf .leaf) (.cut 3 .leaf .leaf))) (.ref (.cut 2 (.cut 3 .leaf .leaf) (.cut 3 (.cut 0 .out .out) .out))))) (.cut 1 (.ref (.cut 2 (.cut 3 .leaf .leaf) (.cut 3 (.cut 0 .leaf .out) .out))) (.cut 2 (.ref (.cut 3 .leaf .out)) .out))))
theorem h320 : check par t320 [53248, 53248, 20480, 12288] [4096, 4096, 4096, 4096] st = true := by decide +kernel
def t321 : Tree := (.ref (.cut 3 (.ref (.cut 0 (.ref (.cut 1 (.ref (.cut 2 (.cut 3 (.cut 0 .leaf .leaf) (.cut 0 .leaf .leaf)) (.cut 3 (.cut 0 .leaf .leaf) (.cut 0 .leaf .out)))) (.ref (.cut 2 (.cut 3 (.cut 0 .out (.cut 1 .leaf .out)) (.cut 0 .out .out)) (.cut 3 (.cut 0 .out .out) .out))))) (.ref (.cut 1 (.ref (.cut 2 (.cut 3 (.cut 0 (.cut 1 .leaf .leaf) (.cut 1 (.cut 2 .leaf .leaf) (.cut 2 .leaf .out))) (.cut 0 (.cut 1 .leaf .out) .out)) (.cut 3 (.cut 0 (.cut 1 .leaf .out) .out) .out))) (.ref (.cut 2 (.cut 3 (.cut 0 (.cut 1 .leaf .out) .out) .out) .out)))))) (.cut 0 (.ref (.cut 1 (.ref (.cut 2 (.cut 3 .leaf .out) .out)) .out)) .out)))
theorem h321 : check par t321 [53248, 53248, 28672, 8192] [4096, 4096, 4096, 8192] st = true := by decide +kernel
def t322 : Tree := (.ref (.cut 2 (.ref (.cut 3 (.cut 0 .out (.ref (.cut 1 (.ref (.cut 2 (.ref (.cut 3 (.cut 0 .out (.cut 1 .leaf .out)) (.cut 0 .out .out))) (.ref (.cut 3 (.ref (.cut 0 .out .out)) .out)))) .out))) (.ref (.cut 0 .out .out)))) (.cut 3 (.ref (.cut 0 .out .out)) .out)))
theorem h322 : check par t322 [53248, 61440, 24576, 8192] [4096, 4096, 8192, 8192] st = true := by decide +kernel
def t323 : Tree := (.ref (.cut 1 (.ref (.cut 2 (.ref (.cut 3 (.cut 0 (.ref (.cut 1 (.ref (.cut 2 (.cut 3 (.ref (.cut 0 (.cut 1 (.cut 2 .leaf .leaf) (.cut 2 .leaf .leaf)) (.cut 1 (.cut 2 .leaf .leaf) (.cut 2 .leaf .leaf)))) (.cut 0 (.ref (.cut 1 .leaf .leaf)) (.cut 1 (.cut 2 .leaf .leaf) (.cut 2 .leaf .out)))) (.cut 3 (.ref (.cut 0 (.cut 1 (.cut 2 .leaf .leaf) (.cut 2 .leaf .leaf)) (.cut 1 (.cut 2 (.cut 3 .leaf .leaf) (.cut 3 .leaf .out)) (.cut 2 (.cut 3 .leaf .out) .out)))) (.cut 0 (.cut 1 (.cut 2 .leaf .out) .out) .out)))) (.cut 2 (.ref (.cut 3 (.cut 0 (.cut 1 (.cut 2 .leaf .leaf) .leaf) (.cut 1 (.cut 2 .leaf .leaf) (.cut 2 .leaf .out))) (.cut 0 (.cut 1 .leaf .out) .out))) (.ref (.cut 3 (.ref (.cut 0 (.cut 1 (.cut 2 .leaf .out) .out) .out)) .out))))) (.cut 1 (.ref (.cut 2 (.cut 3 (.ref (.cut 0 (.ref (.cut 1 (.ref (.cut 2 (.cut 3 .leaf .leaf) (.cut 3 .leaf .leaf))) (.ref (.cut 2 .leaf (.ref (.cut 3 .leaf .out)))))) (.ref (.cut 1 (.ref (.cut 2 .leaf (.cut 3 .leaf .out))) (.cut 2 .leaf .out))))) (.ref (.cut 0 (.cut 1 (.cut 2 .leaf .out) .out) .out))) (.cut 3 (.ref (.cut 0 (.ref (.cut 1 (.cut 2 (.ref (.cut 3 .leaf .out)) .out) .out)) .out)) .out))) (.ref (.cut 2 (.cut 3 (.cut 0 (.ref (.cut 1 (.cut 2 .leaf .out) .out)) .out) .out) .out)))) (.ref (.cut 0 (.cut 1 (.ref (.cut 2 (.ref (.cut 3 (.cut 0 .leaf .out) .out)) .out)) .out) .out)))) (.cut 3 (.ref (.cut 0 (.ref (.cut 1 (.ref (.cut 2 (.ref (.cut 3 (.cut 0 (.ref (.cut 1 (.cut 2 .leaf .out) .out)) .out) .out)) .out)) .out)) .out)) .out))) (.ref (.cut 2 (.cut 3 (.cut 0 (.ref (.cut 1 (.ref (.cut 2 (.ref (.cut 3 (.cut 0 (.ref (.cut 1 .leaf .out)) .out) .out)) .out)) .out)) .out) .out) .out))))
theorem h323 : check par t323 [61440, 57344, 24576, 8192] [4096, 8192, 8192, 8192] st = true := by decide +kernel
def t324 : Tree := (.ref (.cut 0 (.ref (.cut 1 (.cut 2 (.ref (.cut 3 (.ref (.cut 0 (.cut 1 (.cut 2 (.ref (.cut 3 .leaf .out)) .out) .out) .out)) .out)) .out) .out)) .out))
theorem h324 : check par t324 [57344, 57344, 24576, 24576] [8192, 8192, 8192, 8192] st = true := by decide +kernel
def t325 : Tree := (.ref (.cut 0 (.ref (.cut 1 (.ref (.cut 2 .out (.ref (.cut 3 (.ref (.cut 0 (.ref (.cut 1 (.ref (.cut 2 .out (.ref (.cut 3 (.ref (.cut 0 (.cut 1 (.cut 2 .out (.ref (.cut 3 (.ref (.cut 0 (.cut 1 (.cut 2 .out (.cut 3 .leaf .out)) (.ref (.cut 2 .out (.cut 3 .leaf .out)))) (.ref (.cut 1 (.ref (.cut 2 .out (.cut 3 .leaf .out))) (.cut 2 .out .out))))) .out))) (.ref (.cut 2 .out (.ref (.cut 3 (.ref (.cut 0 .out .out)) .out))))) (.ref (.cut 1 (.ref (.cut 2 .out (.ref (.cut 3 (.ref (.cut 0 (.cut 1 (.ref (.cut 2 .out .out)) .out) .out)) .out)))) (.cut 2 .out .out))))) .out)))) (.ref (.cut 2 .out (.ref (.cut 3 (.ref (.cut 0 .out .out)) .out)))))) (.ref (.cut 1 (.ref (.cut 2 .out (.ref (.cut 3 (.ref (.cut 0 (.ref (.cut 1 (.ref (.cut 2 .out .out)) .out)) .out)) .out)))) (.ref (.cut 2 .out .out)))))) .out)))) (.ref (.cut 2 .out (.ref (.cut 3 (.ref (.cut 0 .out .out)) .out)))))) (.ref (.cut 1 (.ref (.cut 2 .out (.ref (.cut 3 (.ref (.cut 0 (.ref (.cut 1 (.ref (.cut 2 .out .out)) .out)) .out)) .out)))) (.ref (.cut 2 .out .out))))))
theorem h325 : check par t325 [49152, 49152, 16384, 49152] [16384, 16384, 16384, 16384] st = true := by decide +kernel
def t326 : Tree := (.ref (.cut 1 (.ref (.cut 2 (.ref (.cut 3 (.cut 0 (.cut 1 (.cut 2 .leaf .leaf) (.ref (.cut 2 .leaf .leaf))) (.ref (.cut 1 (.ref (.cut 2 .leaf .leaf)) (.cut 2 .leaf .leaf)))) (.ref (.cut 0 (.cut 1 (.cut 2 (.cut 3 .leaf .leaf) (.ref (.cut 3 .leaf .leaf))) (.ref (.cut 2 (.ref (.cut 3 .leaf .leaf)) (.ref (.cut 3 .leaf .leaf))))) (.cut 1 (.ref (.cut 2 (.ref (.cut 3 .leaf .leaf)) (.ref (.cut 3 .leaf .leaf)))) (.cut 2 (.ref (.cut 3 .leaf .leaf)) (.cut 3 .leaf .leaf))))))) (.ref (.cut 3 (.ref (.cut 0 (.cut 1 .out (.ref (.cut 2 .leaf .out))) (.cut 1 .out (.cut 2 .leaf .out)))) (.cut 0 (.cut 1 .out (.ref (.cut 2 (.cut 3 .leaf .leaf) .out))) (.ref (.cut 1 .out (.cut 2 (.cut 3 .leaf .leaf) .out)))))))) (.ref (.cut 2 (.ref (.cut 3 (.ref (.cut 0 .out (.cut 1 (.cut 2 .leaf .leaf) .out))) (.cut 0 .out (.ref (.cut 1 (.cut 2 (.ref (.cut 3 .leaf .leaf)) (.cut 3 .leaf .leaf)) .out))))) (.ref (.cut 3 (.ref (.cut 0 .out (.cut 1 (.cut 2 .leaf (.ref (.cut 3 .leaf .leaf))) .out))) (.cut 0 .out (.ref (.cut 1 (.cut 2 (.cut 3 .leaf .leaf) (.ref (.cut 3 .leaf .out))) .out)))))))))
theorem h326 : check par t326 [36864, 40960, 40960, 8192] [4096, 8192, 8192, 8192] st = true := by decide +kernel
def t327 : Tree := (.ref (.cut 2 (.ref (.cut 3 (.ref (.cut 0 (.cut 1 (.cut 2 .leaf .leaf) (.cut 2 .leaf .leaf)) (.cut 1 (.cut 2 .leaf (.ref (.cut 3 .leaf .leaf))) (.cut 2 (.ref (.cut 3 .leaf .leaf)) .leaf)))) (.cut 0 (.ref (.cut 1 (.cut 2 (.cut 3 .leaf .leaf) (.ref (.cut 3 .leaf .leaf))) (.cut 2 (.ref (.cut 3 .leaf .leaf)) (.cut 3 .leaf .leaf)))) (.cut 1 (.ref (.cut 2 (.cut 3 .leaf .leaf) (.ref (.cut 3 .leaf .leaf)))) (.ref (.cut 2 (.ref (.cut 3 .leaf .leaf)) (.cut 3 .leaf .leaf))))))) (.ref (.cut 3 (.ref (.cut 0 (.cut 1 .out (.cut 2 .leaf .out)) (.cut 1 .out (.cut 2 (.ref (.cut 3 .leaf .leaf)) .out)))) (.cut 0 (.ref (.cut 1 .out (.cut 2 (.cut 3 .leaf .leaf) .out))) (.ref (.cut 1 .out (.cut 2 (.ref (.cut 3 .leaf .out)) .out))))))))
theorem h327 : check par t327 [45056, 36864, 40960, 8192] [4096, 4096, 8192, 8192] st = true := by decide +kernel
def t328 : Tree := (.ref (.cut 2 (.ref (.cut 3 (.ref (.cut 0 (.cut 1 (.cut 2 (.cut 3 .leaf .leaf) .leaf) (.ref (.cut 2 (.ref (.cut 3 .leaf .leaf)) (.cut 3 .leaf .leaf)))) (.cut 1 (.ref (.cut 2 (.ref (.cut 3 .leaf .leaf)) (.cut 3 .leaf .leaf))) (.ref (.cut 2 (.cut 3 .leaf .leaf) (.cut 3 .leaf .leaf)))))) (.cut 0 (.ref (.cut 1 (.cut 2 (.cut 3 .leaf .leaf) (.cut 3 .leaf .leaf)) (.ref (.cut 2 (.ref (.cut 3 .leaf .leaf)) (.cut 3 .leaf .out))))) (.ref (.cut 1 (.ref (.cut 2 (.ref (.cut 3 .leaf .leaf)) (.cut 3 .leaf .out))) (.ref (.cut 2 (.cut 3 .leaf .out) .out))))))) (.ref (.cut 3 (.cut 0 (.ref (.cut 1 (.cut 2 .leaf .leaf) (.ref (.cut 2 .leaf (.ref (.cut 3 .leaf .out)))))) (.cut 1 (.ref (.cut 2 .leaf (.ref (.cut 3 .leaf .out)))) (.cut 2 (.ref (.cut 3 .leaf .out)) .out))) (.ref (.cut 0 (.cut 1 (.cut 2 (.cut 3 .leaf .out) .out) .out) .out))))))
theorem h328 : check par t328 [45056, 45056, 40960, 8192] [4096, 4096, 8192, 8192] st = true := by decide +kernel
def t329 : Tree := (.ref (.cut 1 (.ref (.cut 2 (.ref (.cut 3 (.cut 0 (.cut 1 .leaf .leaf) (.cut 1 .leaf .leaf)) (.ref (.cut 0 (.cut 1 (.cut 2 (.cut 3 .leaf .leaf) (.ref (.cut 3 .leaf .leaf))) (.ref (.cut 2 (.ref (.cut 3 .leaf .leaf)) (.ref (.cut 3 .leaf .leaf))))) (.cut 1 (.ref (.cut 2 (.ref (.cut 3 .leaf .leaf)) (.ref (.cut 3 .leaf .leaf)))) (.cut 2 (.ref (.cut 3 .leaf .leaf)) (.cut 3 .leaf .leaf))))))) (.ref (.cut 3 (.ref (.cut 0 (.cut 1 .out .leaf) (.cut 1 .out .leaf))) (.ref (.cut 0 (.ref (.cut 1 .out (.ref (.cut 2 (.ref (.cut 3 .leaf .leaf)) .out)))) (.ref (.cut 1 .out (.ref (.cut 2 (.cut 3 .leaf .leaf) .out)))))))))) (.ref (.cut 2 (.ref (.cut 3 (.ref (.cut 0 .out (.cut 1 .leaf .out))) (.ref (.cut 0 .out (.ref (.cut 1 (.ref (.cut 2 (.ref (.cut 3 .leaf .leaf)) (.cut 3 .leaf .leaf))) .out)))))) (.ref (.cut 3 (.ref (.cut 0 .out .leaf)) (.ref (.cut 0 .out (.ref (.cut 1 (.cut 2 .leaf .leaf) .out))))))))))
theorem h329 : check par t329 [34816, 36864, 36864, 20480] [2048, 4096, 4096, 4096] st = true := by decide +kernel
def t330 : Tree := (.ref (.cut 1 (.ref (.cut 2 (.ref (.cut 3 (.ref (.cut 0 (.cut 1 .leaf .leaf) (.cut 1 .leaf .leaf))) (.ref (.cut 0 (.ref (.cut 1 (.ref (.cut 2 (.cut 3 .leaf .leaf) (.ref (.cut 3 .leaf .leaf)))) (.cut 2 (.ref (.cut 3 .leaf .leaf)) (.cut 3 .leaf .leaf)))) (.ref (.cut 1 (.ref (.cut 2 (.ref (.cut 3 .leaf .leaf)) (.ref (.cut 3 .leaf .leaf)))) (.ref (.cut 2 (.ref (.cut 3 .leaf .leaf)) (.ref (.cut 3 .leaf .leaf)))))))))) (.ref (.cut 3 (.ref (.cut 0 .leaf .leaf)) (.ref (.cut 0 (.cut 1 .out (.ref (.cut 2 .leaf .out))) (.cut 1 .out (.ref (.cut 2 .leaf .out))))))))) (.ref (.cut 2 (.ref (.cut 3 (.ref (.cut 0 .leaf .leaf)) (.ref (.cut 0 (.cut 1 (.cut 2 .leaf .leaf) (.ref (.cut 2 (.cut 3 .leaf .leaf) .leaf))) (.cut 1 (.ref (.cut 2 (.cut 3 .leaf .leaf) .leaf)) (.cut 2 .leaf .out)))))) (.ref (.cut 3 (.cut 0 .leaf .leaf) (.ref (.cut 0 (.cut 1 (.cut 2 .leaf .out) .out) .out))))))))
theorem h330 : check par t330 [38912, 36864, 36864, 20480] [2048, 4096, 4096, 4096] st = true := by decide +kernel
def t331 : Tree := (.ref (.cut 1 (.cut 2 (.cut 3 (.ref (.cut 0 (.cut 1 (.ref (.cut 2 (.ref (.cut 3 .leaf .leaf)) (.ref (.cut 3 (.ref (.cut 0 (.ref (.cut 1 .out .leaf)) .leaf)) (.ref (.cut 0 (.cut 1 .out .leaf) (.ref (.cut 1 .out .leaf)))))))) (.ref (.cut 2 (.ref (.cut 3 (.ref (.cut 0 .out .leaf)) (.ref (.cut 0 .out (.ref (.cut 1 .leaf .out)))))) (.ref (.cut 3 .leaf (.cut 0 .out .leaf)))))) (.ref (.cut 1 (.ref (.cut 2 (.ref (.cut 3 (.ref (.cut 0 .leaf .leaf)) (.ref (.cut 0 .leaf (.cut 1 .leaf .leaf))))) (.ref (.cut 3 .leaf (.cut 0 .leaf .leaf))))) (.ref (.cut 2 (.ref (.cut 3 .leaf (.cut 0 .leaf .leaf))) (.ref (.cut 3 .leaf (.cut 0 .leaf .out))))))))) (.ref (.cut 0 (.cut 1 (.cut 2 (.cut 3 .leaf .leaf) (.ref (.cut 3 (.cut 0 .leaf .leaf) .leaf))) (.ref (.cut 2 (.ref (.cut 3 (.cut 0 .out .leaf) .leaf)) (.ref (.cut 3 .leaf .out))))) (.ref (.cut 1 (.ref (.cut 2 (.ref (.cut 3 (.cut 0 .leaf .leaf) .leaf)) (.ref (.cut 3 .leaf .out)))) (.cut 2 (.ref (.cut 3 .leaf .out)) .out)))))) (.ref (.cut 3 (.cut 0 (.cut 1 .out (.ref (.cut 2 (.ref (.cut 3 (.cut 0 .out .leaf) (.cut 0 .out .out))) .out))) (.cut 1 .out (.cut 2 (.cut 3 (.ref (.cut 0 .leaf .out)) .out) .out))) (.cut 0 (.cut 1 .out .out) .out)))) (.ref (.cut 2 (.ref (.cut 3 (.cut 0 .out (.cut 1 (.cut 2 (.ref (.cut 3 (.cut 0 .out .leaf) (.cut 0 .out .out))) (.cut 3 (.ref (.cut 0 .out .out)) .out)) .out)) (.cut 0 .out .out))) (.ref (.cut 3 (.ref (.cut 0 .out .out)) .out))))))
theorem h331 : check par t331 [34816, 36864, 36864, 28672] [2048, 4096, 4096, 4096] st = true := by decide +kernel
def t332 : Tree := (.ref (.cut 1 (.ref (.cut 2 (.ref (.cut 3 (.cut 0 (.cut 1 (.cut 2 (.cut 3 (.cut 0 .leaf .leaf) (.cut 0 (.ref (.cut 1 .leaf .leaf)) (.cut 1 .leaf .leaf))) (.ref (.cut 3 (.cut 0 .leaf .leaf) (.cut 0 (.cut 1 .out .out) .out)))) (.cut 2 (.ref (.cut 3 (.cut 0 .leaf .leaf) (.cut 0 (.cut 1 .leaf .out) .out))) (.cut 3 (.ref (.cut 0 .leaf .out)) .out))) (.cut 1 (.cut 2 (.cut 3 (.cut 0 .leaf .leaf) (.cut 0 .leaf .out)) (.ref (.cut 3 (.cut 0 .leaf .out) .out))) (.cut 2 (.ref (.cut 3 (.cut 0 .leaf .out) .out)) .out))) (.cut 0 (.cut 1 (.ref (.cut 2 (.ref (.cut 3 (.cut 0 .leaf .out) .out)) .out)) .out) .out))) (.ref (.cut 3 (.ref (.cut 0 (.ref (.cut 1 .out .out)) .out)) .out)))) (.ref (.cut 2 (.ref (.cut 3 (.ref (.cut 0 (.ref (.cut 1 (.ref (.cut 2 (.cut 3 .leaf .out) .out)) .out)) .out)) .out)) .out))))
theorem h332 : check par t332 [38912, 36864, 36864, 28672] [2048, 4096, 4096, 4096] st = true := by decide +kernel
def t333 : Tree := (.ref (.cut 3 (.ref (.cut 0 (.cut 1 .out (.ref (.cut 2 (.ref (.cut 3 (.ref (.cut 0 .out .leaf)) (.ref (.cut 0 .out .out)))) .out))) (.cut 1 .out (.ref (.cut 2 (.ref (.cut 3 (.cut 0 .leaf .out) .out)) .out))))) (.ref (.cut 0 (.ref (.cut 1 .out .out)) .out))))
theorem h333 : check par t333 [36864, 36864, 45056, 24576] [4096, 4096, 4096, 8192] st = true := by decide +kernel
def t334 : Tree := (.ref (.cut 2 (.ref (.cut 3 (.ref (.cut 0 .out (.cut 1 (.ref (.cut 2 (.ref (.cut 3 (.ref (.cut 0 .out .leaf)) (.ref (.cut 0 .out .out)))) (.ref (.cut 3 (.cut 0 .out .out) .out)))) .out))) (.ref (.cut 0 .out .out)))) (.ref (.cut 3 (.ref (.cut 0 .out .out)) .out))))
theorem h334 : check par t334 [36864, 45056, 40960, 24576] [4096, 4096, 8192, 8192] st = true := by decide +kernel
def t335 : Tree := (.ref (.cut 1 (.ref (.cut 2 (.ref (.cut 3 (.ref (.cut 0 (.ref (.cut 1 (.cut 2 (.ref (.cut 3 (.ref (.cut 0 (.cut 1 .leaf .leaf) .leaf)) (.ref (.cut 0 (.cut 1 (.cut 2 (.cut 3 .leaf .leaf) (.ref (.cut 3 .leaf .leaf))) (.ref (.cut 2 (.ref (.cut 3 .leaf .leaf)) .leaf))) (.cut 1 (.cut 2 .leaf .leaf) (.ref (.cut 2 .leaf .out))))))) (.ref (.cut 3 (.ref (.cut 0 .leaf .leaf)) (.ref (.cut 0 (.cut 1 .out .out) .out))))) (.ref (.cut 2 (.ref (.cut 3 (.ref (.cut 0 .leaf .leaf)) (.ref (.cut 0 (.cut 1 (.cut 2 .leaf .out) .out) .out)))) (.ref (.cut 3 (.cut 0 .leaf .out) .out)))))) (.cut 1 (.ref (.cut 2 (.cut 3 (.ref (.cut 0 .leaf .leaf)) (.ref (.cut 0 (.ref (.cut 1 .leaf .out)) .out))) (.ref (.cut 3 (.ref (.cut 0 .leaf .out)) .out)))) (.cut 2 (.ref (.cut 3 (.ref (.cut 0 .leaf .out)) .out)) .out)))) (.ref (.cut 0 (.ref (.cut 1 (.ref (.cut 2 (.cut 3 (.cut 0 (.cut 1 (.cut 2 (.cut 3 .leaf .out) .out) .out) .out) .out) .out)) .out)) .out)))) (.ref (.cut 3 (.ref (.cut 0 (.ref (.cut 1 .out .out)) .out)) .out)))) (.ref (.cut 2 (.ref (.cut 3 (.ref (.cut 0 (.ref (.cut 1 (.cut 2 (.cut 3 (.ref (.cut 0 .leaf .out)) .out) .out) .out)) .out)) .out)) .out))))
theorem h335 : check par t335 [45056, 40960, 40960, 24576] [4096, 8192, 8192, 8192] st = true := by decide +kernel
def t336 : Tree := (.ref (.cut 3 (.ref (.cut 0 (.ref (.cut 1 .out (.ref (.cut 2 (.ref (.cut 3 (.ref (.cut 0 .out (.cut 1 .out .out))) (.ref (.cut 0 .out .out)))) .out)))) (.ref (.cut 1 .out (.ref (.cut 2 (.ref (.cut 3 (.ref (.cut 0 (.cut 1 .out .out) .out)) .out)) .out)))))) (.ref (.cut 0 (.ref (.cut 1 .out .out)) .out))))
theorem h336 : check par t336 [40960, 40960, 57344, 16384] [8192, 8192, 8192, 16384] st = true := by decide +kernel
def t337 : Tree := (.ref (.cut 2 (.ref (.cut 3 (.ref (.cut 0 .out (.ref (.cut 1 (.cut 2 (.ref (.cut 3 (.ref (.cut 0 .out (.cut 1 (.ref (.cut 2 (.ref (.cut 3 .leaf .leaf)) (.cut 3 .leaf .out))) .out))) (.ref (.cut 0 .out .out)))) (.ref (.cut 3 (.ref (.cut 0 .out .out)) .out))) .out)))) (.ref (.cut 0 .out .out)))) (.ref (.cut 3 (.ref (.cut 0 .out .out)) .out))))
theorem h337 : check par t337 [40960, 57344, 49152, 16384] [8192, 8192, 16384, 16384] st = true := by decide +kernel
def t338 : Tree := (.ref (.cut 0 (.ref (.cut 1 (.ref (.cut 2 (.ref (.cut 3 (.ref (.cut 0 (.ref (.cut 1 (.ref (.cut 2 .leaf (.ref (.cut 3 .leaf .leaf)))) (.cut 2 (.ref (.cut 3 .leaf .leaf)) .leaf))) (.ref (.cut 1 (.cut 2 .leaf (.ref (.cut 3 .leaf .leaf))) (.ref (.cut 2 (.ref (.cut 3 .leaf .leaf)) .leaf)))))) (.ref (.cut 0 (.cut 1 (.ref (.cut 2 (.ref (.cut 3 .leaf .leaf)) (.ref (.cut 3 .leaf .leaf)))) (.cut 2 (.ref (.cut 3 .leaf .leaf)) (.cut 3 .leaf .out))) (.ref (.cut 1 (.cut 2 (.cut 3 .leaf .leaf) (.ref (.cut 3 .leaf .out))) (.cut 2 (.ref (.cut 3 .leaf .out)) .out))))))) (.ref (.cut 3 (.ref (.cut 0 (.ref (.cut 1 .out (.cut 2 (.cut 3 .leaf .leaf) .out))) (.ref (.cut 1 .out (.cut 2 (.cut 3 .leaf .out) .out))))) (.ref (.cut 0 (.cut 1 .out .out) .out)))))) (.ref (.cut 2 (.ref (.cut 3 (.ref (.cut 0 (.ref (.cut 1 (.cut 2 (.ref (.cut 3 .leaf .leaf)) (.cut 3 .leaf .leaf)) (.cut 2 (.ref (.cut 3 .leaf .leaf)) (.cut 3 .leaf .out)))) (.ref (.cut 1 (.cut 2 (.cut 3 .leaf .leaf) (.cut 3 .leaf .out)) (.cut 2 (.cut 3 .leaf .out) .out))))) (.ref (.cut 0 (.cut 1 (.ref (.cut 2 (.ref (.cut 3 .leaf .out)) .out)) .out) .out)))) (.ref (.cut 3 (.ref (.cut 0 (.ref (.cut 1 (.cut 2 .leaf .out) .out)) .out)) .out)))))) (.ref (.cut 1 (.ref (.cut 2 (.ref (.cut 3 (.cut 0 (.cut 1 (.cut 2 .leaf (.ref (.cut 3 .leaf .leaf))) (.cut 2 (.ref (.cut 3 .leaf .leaf)) .leaf)) (.cut 1 (.cut 2 .leaf .leaf) (.cut 2 .leaf .out))) (.ref (.cut 0 (.ref (.cut 1 (.cut 2 (.cut 3 .leaf .out) .out) .out)) .out)))) (.ref (.cut 3 (.ref (.cut 0 (.cut 1 .out .out) .out)) .out)))) (.ref (.cut 2 (.ref (.cut 3 (.ref (.cut 0 (.cut 1 (.ref (.cut 2 (.cut 3 .leaf .out) .out)) .out) .out)) .out)) .out))))))
theorem h338 : check par t338 [57344, 40960, 40960, 8192] [8192, 8192, 8192, 8192] st = true := by decide +kernel
def t339 : Tree := (.ref (.cut 0 (.ref (.cut 1 (.ref (.cut 2 (.ref (.cut 3 (.ref (.cut 0 (.cut 1 (.ref (.cut 2 (.ref (.cut 3 .leaf .out)) .out)) .out) .out)) .out)) .out)) .out)) .out))
theorem h339 : check par t339 [57344, 40960, 40960, 24576] [8192, 8192, 8192, 8192] st = true := by decide +kernel
def t340 : Tree := (.ref (.cut 3 (.ref (.cut 0 (.ref (.cut 1 .out .out)) .out)) .out))
theorem h340 : check par t340 [57344, 40960, 57344, 16384] [8192, 8192, 8192, 16384] st = true := by decide +kernel
def t341 : Tree := (.ref (.cut 2 (.ref (.cut 3 (.ref (.cut 0 (.ref (.cut 1 (.ref (.cut 2 (.ref (.cut 3 (.ref (.cut 0 (.ref (.cut 1 (.cut 2 (.cut 3 .leaf .out) .out) .out)) .out)) .out)) .out)) .out)) .out)) .out)) .out))
theorem h341 : check par t341 [57344, 57344, 49152, 16384] [8192, 8192, 16384, 16384] st = true := by decide +kernel
def t342 : Tree := (.ref (.cut 0 (.ref (.cut 1 (.ref (.cut 2 (.ref (.cut 3 (.ref (.cut 0 (.ref (.cut 1 (.ref (.cut 2 (.ref (.cut 3 (.ref (.cut 0 (.cut 1 (.ref (.cut 2 (.ref (.cut 3 (.cut 0 (.cut 1 .leaf .out) .out) .out)) .out)) .out) .out)) .out)) .out)) .out)) .out)) .out)) .out)) .out)) .out))
theorem h342 : check par t342 [49152, 49152, 49152, 49152] [16384, 16384, 16384, 16384] st = true := by decide +kernel
end FastNoise.RangeCheck.OuterSuper4
