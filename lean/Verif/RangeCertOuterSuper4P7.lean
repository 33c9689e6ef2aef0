import Verif.RangeCertOuterSuper4
/-! Generated by tools/rangecert/gen.py: a certificate for the checker `Verif.RangeCheck`. -/
namespace FastNoise.RangeCheck.OuterSuper4
set_option maxRecDepth 1000000
def t208 : Tree := (.ref (.cut 0 (.ref (.cut 1 (.ref (.cut 2 .out (.ref (.cut 3 (.ref (.cut 0 (.ref (.cut 1 .out (.ref (.cut 2 .out .out)))) (.ref (.cut 1 .out (.ref (.cut 2 .out .out)))))) .out)))) (.ref (.cut 2 .out (.ref (.cut 3 (.ref (.cut 0 (.ref (.cut 1 (.ref (.cut 2 .out (.ref (.cut 3 (.ref (.cut 0 (.cut 1 .out (.ref (.cut 2 .out .out))) (.cut 1 .out (.ref (.cut 2 .out .out))))) .out)))) (.ref (.cut 2 .out (.ref (.cut 3 (.ref (.cut 0 (.ref (.cut 1 (.ref (.cut 2 .out (.ref (.cut 3 (.ref (.cut 0 (.cut 1 .out (.cut 2 .out .out)) (.cut 1 .out (.cut 2 .out .out)))) .out)))) (.ref (.cut 2 .out (.ref (.cut 3 (.cut 0 (.cut 1 (.ref (.cut 2 .out (.ref (.cut 3 .leaf .out)))) (.ref (.cut 2 .out (.cut 3 .leaf .out)))) (.ref (.cut 1 (.ref (.cut 2 .out (.ref (.cut 3 (.ref (.cut 0 .leaf (.cut 1 .out .leaf))) .out)))) (.cut 2 .out (.ref (.cut 3 .leaf .out)))))) .out)))))) (.ref (.cut 1 (.ref (.cut 2 .out (.ref (.cut 3 (.ref (.cut 0 (.cut 1 .out (.ref (.cut 2 .out .out))) (.cut 1 .out (.ref (.cut 2 .out .out))))) .out)))) (.ref (.cut 2 .out (.ref (.cut 3 (.ref (.cut 0 (.cut 1 (.cut 2 .out (.ref (.cut 3 (.cut 0 (.ref (.cut 1 .out .leaf)) (.cut 1 .out .leaf)) .out))) (.cut 2 .out (.cut 3 .leaf .out))) (.cut 1 (.cut 2 .out (.ref (.cut 3 (.cut 0 .leaf .out) .out))) (.cut 2 .out .out)))) .out)))))))) .out)))))) (.cut 1 (.ref (.cut 2 .out (.ref (.cut 3 (.ref (.cut 0 (.ref (.cut 1 .out (.ref (.cut 2 .out .out)))) (.ref (.cut 1 .out (.ref (.cut 2 .out .out)))))) .out)))) (.ref (.cut 2 .out (.ref (.cut 3 (.ref (.cut 0 (.ref (.cut 1 (.cut 2 .out (.ref (.cut 3 (.cut 0 (.cut 1 .out (.cut 2 .out .out)) (.cut 1 .out (.cut 2 .out .out))) .out))) (.cut 2 .out (.cut 3 (.cut 0 (.ref (.cut 1 (.cut 2 .out .out) .out)) .out) .out)))) (.cut 1 (.cut 2 .out (.ref (.cut 3 (.cut 0 (.ref (.cut 1 .out .out)) .out) .out))) (.cut 2 .out .out)))) .out))))))) .out)))))) (.ref (.cut 1 (.ref (.cut 2 .out (.ref (.cut 3 (.ref (.cut 0 (.ref (.cut 1 .out (.ref (.cut 2 .out .out)))) (.ref (.cut 1 .out (.ref (.cut 2 .out .out)))))) .out)))) (.ref (.cut 2 .out (.ref (.cut 3 (.ref (.cut 0 (.ref (.cut 1 (.ref (.cut 2 .out (.ref (.cut 3 (.cut 0 (.cut 1 .out (.ref (.cut 2 .out .out))) (.ref (.cut 1 .out (.cut 2 .out .out)))) .out)))) (.ref (.cut 2 .out (.ref (.cut 3 (.cut 0 (.cut 1 (.cut 2 .out .out) .out) .out) .out)))))) (.ref (.cut 1 (.ref (.cut 2 .out (.ref (.cut 3 (.ref (.cut 0 (.cut 1 .out .out) .out)) .out)))) (.ref (.cut 2 .out .out)))))) .out))))))))
theorem h208 : check par t208 [49152, 16384, 16384, 49152] [16384, 16384, 16384, 16384] st = true := by decide +kernel
def t209 : Tree := .out
theorem h209 : check par t209 [40960, 8192, 49152, 16384] [8192, 8192, 16384, 16384] st = true := by decide +kernel
def t210 : Tree := (.ref (.cut 0 (.ref (.cut 1 .out (.ref (.cut 2 (.ref (.cut 3 (.ref (.cut 0 (.cut 1 .out (.cut 2 .leaf .out)) (.cut 1 .out (.cut 2 .leaf .out)))) (.cut 0 (.cut 1 .out (.ref (.cut 2 (.cut 3 .leaf .leaf) .out))) (.cut 1 .out (.cut 2 (.ref (.cut 3 .leaf .leaf)) .out))))) .out)))) (.ref (.cut 1 .out (.ref (.cut 2 (.ref (.cut 3 (.ref (.cut 0 (.cut 1 .out (.cut 2 .leaf .out)) (.ref (.cut 1 .out (.cut 2 (.cut 3 .leaf .leaf) .out))))) (.cut 0 (.ref (.cut 1 .out (.cut 2 (.ref (.cut 3 .leaf .leaf)) .out))) (.ref (.cut 1 .out (.cut 2 (.ref (.cut 3 .leaf .leaf)) .out)))))) .out))))))
theorem h210 : check par t210 [40960, 24576, 40960, 8192] [8192, 8192, 8192, 8192] st = true := by decide +kernel
def t211 : Tree := (.ref (.cut 0 (.ref (.cut 1 .out (.ref (.cut 2 (.ref (.cut 3 (.ref (.cut 0 (.cut 1 .out (.cut 2 (.cut 3 (.cut 0 (.ref (.cut 1 .out .leaf)) (.cut 1 .out .leaf)) (.ref (.cut 0 (.ref (.cut 1 .out (.cut 2 (.ref (.cut 3 .leaf .leaf)) .out))) (.ref (.cut 1 .out (.cut 2 (.ref (.cut 3 .leaf .leaf)) .out)))))) .out)) (.cut 1 .out (.cut 2 (.ref (.cut 3 (.cut 0 (.cut 1 .out .leaf) (.cut 1 .out .leaf)) (.ref (.cut 0 (.cut 1 .out (.cut 2 (.cut 3 .leaf .leaf) .out)) (.cut 1 .out (.cut 2 (.cut 3 .leaf .leaf) .out)))))) .out)))) (.ref (.cut 0 (.ref (.cut 1 .out (.ref (.cut 2 (.ref (.cut 3 (.ref (.cut 0 (.cut 1 .out (.cut 2 (.cut 3 .leaf .leaf) .out)) (.cut 1 .out (.cut 2 (.ref (.cut 3 (.cut 0 .leaf (.cut 1 .out .leaf)) (.cut 0 .leaf (.cut 1 .out .leaf)))) .out)))) (.cut 0 (.cut 1 .out (.ref (.cut 2 (.cut 3 .leaf .leaf) .out))) (.ref (.cut 1 .out (.cut 2 (.ref (.cut 3 (.ref (.cut 0 .leaf (.cut 1 .out .leaf))) .leaf)) .out)))))) .out)))) (.ref (.cut 1 .out (.ref (.cut 2 (.ref (.cut 3 (.ref (.cut 0 (.cut 1 .out (.ref (.cut 2 (.cut 3 (.ref (.cut 0 (.cut 1 .out .leaf) (.cut 1 .out .leaf))) (.cut 0 (.cut 1 .out .leaf) (.ref (.cut 1 .out .leaf)))) .out))) (.cut 1 .out (.ref (.cut 2 (.cut 3 (.ref (.cut 0 .leaf .leaf)) (.ref (.cut 0 (.cut 1 .out .leaf) .leaf))) .out))))) (.ref (.cut 0 (.cut 1 .out (.cut 2 (.cut 3 (.ref (.cut 0 (.ref (.cut 1 .out .leaf)) (.cut 1 .out .leaf))) .leaf) .out)) (.cut 1 .out (.cut 2 (.cut 3 (.ref (.cut 0 .leaf .out)) .out) .out)))))) .out)))))))) .out)))) (.cut 1 .out (.ref (.cut 2 (.ref (.cut 3 (.ref (.cut 0 (.ref (.cut 1 .out (.cut 2 (.ref (.cut 3 (.cut 0 (.cut 1 .out .leaf) .leaf) (.ref (.cut 0 (.cut 1 .out (.cut 2 (.cut 3 .leaf .leaf) .out)) (.cut 1 .out (.cut 2 .leaf .out)))))) .out))) (.ref (.cut 1 .out (.cut 2 (.cut 3 (.ref (.cut 0 .leaf .leaf)) (.ref (.cut 0 (.ref (.cut 1 .out .leaf)) .leaf))) .out))))) (.ref (.cut 0 (.ref (.cut 1 .out (.cut 2 (.cut 3 (.ref (.cut 0 (.cut 1 .out (.cut 2 (.cut 3 .leaf .leaf) .out)) (.cut 1 .out (.cut 2 .leaf .out)))) (.cut 0 (.ref (.cut 1 .out .out)) .out)) .out))) (.cut 1 .out (.cut 2 (.cut 3 (.ref (.cut 0 (.ref (.cut 1 .out .out)) .out)) .out) .out)))))) .out)))))
theorem h211 : check par t211 [40960, 24576, 40960, 24576] [8192, 8192, 8192, 8192] st = true := by decide +kernel
def t212 : Tree := .out
theorem h212 : check par t212 [40960, 24576, 57344, 16384] [8192, 8192, 8192, 16384] st = true := by decide +kernel
def t213 : Tree := (.ref (.cut 1 .out (.ref (.cut 2 (.ref (.cut 3 (.ref (.cut 0 (.ref (.cut 1 .out (.ref (.cut 2 (.ref (.cut 3 (.ref (.cut 0 (.ref (.cut 1 .out (.cut 2 (.cut 3 .leaf .leaf) .out))) (.cut 1 .out (.cut 2 (.ref (.cut 3 .leaf .leaf)) .out)))) (.ref (.cut 0 (.cut 1 .out (.cut 2 (.cut 3 .leaf .leaf) .out)) (.cut 1 .out (.cut 2 (.ref (.cut 3 .leaf .leaf)) .out)))))) .out)))) (.ref (.cut 1 .out (.ref (.cut 2 (.ref (.cut 3 (.ref (.cut 0 (.cut 1 .out (.cut 2 (.cut 3 .leaf .leaf) .out)) (.cut 1 .out (.cut 2 .leaf .out)))) (.ref (.cut 0 (.ref (.cut 1 .out (.cut 2 (.cut 3 .leaf .leaf) .out))) (.cut 1 .out (.cut 2 .leaf .out)))))) .out)))))) (.ref (.cut 0 (.ref (.cut 1 .out (.ref (.cut 2 (.cut 3 (.ref (.cut 0 (.cut 1 .out (.ref (.cut 2 (.ref (.cut 3 .leaf .leaf)) .out))) (.ref (.cut 1 .out (.ref (.cut 2 (.ref (.cut 3 .leaf .out)) .out)))))) (.ref (.cut 0 (.cut 1 .out .out) .out))) .out)))) (.ref (.cut 1 .out (.ref (.cut 2 (.ref (.cut 3 (.ref (.cut 0 (.cut 1 .out .out) .out)) .out)) .out)))))))) .out))))
theorem h213 : check par t213 [57344, 16384, 49152, 16384] [8192, 16384, 16384, 16384] st = true := by decide +kernel
def t214 : Tree := (.ref (.cut 0 (.ref (.cut 1 .out (.ref (.cut 2 (.ref (.cut 3 (.ref (.cut 0 (.ref (.cut 1 .out (.ref (.cut 2 (.ref (.cut 3 (.ref (.cut 0 (.cut 1 .out (.cut 2 (.ref (.cut 3 (.ref (.cut 0 (.cut 1 .out (.cut 2 (.cut 3 .leaf .leaf) .out)) (.ref (.cut 1 .out (.cut 2 (.ref (.cut 3 .leaf .out)) .out))))) (.ref (.cut 0 (.cut 1 .out .out) .out)))) .out)) (.ref (.cut 1 .out (.cut 2 (.ref (.cut 3 (.ref (.cut 0 (.cut 1 .out .out) .out)) .out)) .out))))) (.ref (.cut 0 (.ref (.cut 1 .out .out)) .out)))) .out)))) (.ref (.cut 1 .out (.ref (.cut 2 (.ref (.cut 3 (.ref (.cut 0 (.ref (.cut 1 .out .out)) .out)) .out)) .out)))))) (.ref (.cut 0 (.ref (.cut 1 .out .out)) .out)))) .out)))) (.ref (.cut 1 .out (.ref (.cut 2 (.ref (.cut 3 (.ref (.cut 0 (.ref (.cut 1 .out .out)) .out)) .out)) .out))))))
theorem h214 : check par t214 [49152, 16384, 49152, 49152] [16384, 16384, 16384, 16384] st = true := by decide +kernel
def t215 : Tree := (.ref (.cut 1 (.ref (.cut 2 (.ref (.cut 3 (.cut 0 (.cut 1 (.cut 2 .leaf .leaf) (.ref (.cut 2 .leaf .leaf))) (.ref (.cut 1 (.ref (.cut 2 .leaf .leaf)) (.cut 2 .leaf .leaf)))) (.ref (.cut 0 (.cut 1 (.cut 2 .out .leaf) (.ref (.cut 2 .out (.ref (.cut 3 .leaf .out))))) (.cut 1 (.ref (.cut 2 .out (.ref (.cut 3 .leaf .out)))) (.cut 2 .out .leaf)))))) (.ref (.cut 3 (.ref (.cut 0 (.cut 1 (.cut 2 .leaf .leaf) (.ref (.cut 2 .leaf .leaf))) (.ref (.cut 1 (.ref (.cut 2 .leaf .leaf)) (.cut 2 .leaf .leaf))))) (.ref (.cut 0 (.cut 1 (.cut 2 .leaf (.cut 3 .leaf .leaf)) (.ref (.cut 2 (.cut 3 .leaf .leaf) (.cut 3 .leaf .leaf)))) (.cut 1 (.ref (.cut 2 (.cut 3 .leaf .leaf) (.cut 3 .leaf .leaf))) (.cut 2 .leaf .leaf)))))))) (.ref (.cut 2 (.ref (.cut 3 (.ref (.cut 0 .out (.cut 1 (.cut 2 .leaf .leaf) .out))) (.ref (.cut 0 .out (.ref (.cut 1 (.cut 2 .out (.cut 3 .leaf .out)) .out)))))) (.ref (.cut 3 (.ref (.cut 0 .out (.ref (.cut 1 (.cut 2 (.cut 3 .leaf .leaf) (.ref (.cut 3 .leaf .leaf))) .out)))) (.ref (.cut 0 .out (.ref (.cut 1 (.cut 2 (.cut 3 .leaf .leaf) (.cut 3 .leaf .leaf)) .out))))))))))
theorem h215 : check par t215 [36864, 40960, 8192, 8192] [4096, 8192, 8192, 8192] st = true := by decide +kernel
def t216 : Tree := (.ref (.cut 3 (.ref (.cut 0 (.cut 1 (.cut 2 (.cut 3 .leaf .leaf) (.cut 3 .leaf .leaf)) (.cut 2 .leaf .leaf)) (.cut 1 (.cut 2 (.cut 3 (.cut 0 .leaf .leaf) (.ref (.cut 0 .leaf .leaf))) (.cut 3 (.ref (.cut 0 .leaf .leaf)) (.cut 0 .leaf .leaf))) (.cut 2 (.cut 3 .leaf .leaf) (.cut 3 .leaf .leaf))))) (.ref (.cut 0 (.ref (.cut 1 (.cut 2 .out (.ref (.cut 3 .leaf .out))) (.cut 2 .out (.cut 3 .leaf .out)))) (.cut 1 (.ref (.cut 2 .out (.ref (.cut 3 (.cut 0 .leaf .leaf) .out)))) (.ref (.cut 2 .out (.cut 3 .leaf .out))))))))
theorem h216 : check par t216 [45056, 36864, 4096, 8192] [4096, 4096, 4096, 8192] st = true := by decide +kernel
def t217 : Tree := (.ref (.cut 3 (.ref (.cut 0 (.ref (.cut 1 (.cut 2 (.cut 3 .leaf .leaf) (.ref (.cut 3 .leaf .leaf))) (.cut 2 (.cut 3 .leaf .leaf) (.ref (.cut 3 .leaf .leaf))))) (.cut 1 (.ref (.cut 2 (.ref (.cut 3 (.cut 0 .leaf .leaf) (.ref (.cut 0 .leaf .leaf)))) (.ref (.cut 3 .leaf .leaf)))) (.ref (.cut 2 (.cut 3 .leaf .leaf) (.ref (.cut 3 .leaf .leaf))))))) (.ref (.cut 0 (.ref (.cut 1 (.cut 2 (.cut 3 .leaf .leaf) (.cut 3 .leaf .leaf)) (.cut 2 (.cut 3 .leaf .leaf) (.cut 3 .leaf .leaf)))) (.ref (.cut 1 (.cut 2 (.cut 3 .leaf .leaf) (.ref (.cut 3 .leaf .leaf))) (.cut 2 (.cut 3 .leaf .leaf) (.ref (.cut 3 .leaf .leaf)))))))))
theorem h217 : check par t217 [45056, 36864, 12288, 8192] [4096, 4096, 4096, 8192] st = true := by decide +kernel
def t218 : Tree := (.ref (.cut 2 (.cut 3 (.cut 0 (.ref (.cut 1 (.cut 2 .leaf .leaf) (.ref (.cut 2 (.cut 3 .leaf .leaf) (.cut 3 .leaf .leaf))))) (.cut 1 (.ref (.cut 2 (.cut 3 .leaf .leaf) (.cut 3 .leaf .leaf))) (.cut 2 .leaf .leaf))) (.ref (.cut 0 (.ref (.cut 1 (.cut 2 .out .leaf) (.ref (.cut 2 .out (.cut 3 .leaf .out))))) (.ref (.cut 1 (.ref (.cut 2 .out (.cut 3 .leaf .out))) (.cut 2 .out (.cut 3 .leaf .out))))))) (.ref (.cut 3 (.ref (.cut 0 (.cut 1 (.cut 2 .leaf (.ref (.cut 3 .leaf .leaf))) (.ref (.cut 2 (.cut 3 .leaf .leaf) (.ref (.cut 3 .leaf .leaf))))) (.ref (.cut 1 (.ref (.cut 2 (.cut 3 .leaf .leaf) (.ref (.cut 3 .leaf .leaf)))) (.cut 2 (.cut 3 .leaf .leaf) (.ref (.cut 3 .leaf .leaf))))))) (.ref (.cut 0 (.cut 1 (.cut 2 .leaf .leaf) (.ref (.cut 2 (.cut 3 .leaf .leaf) (.ref (.cut 3 .leaf .leaf))))) (.cut 1 (.ref (.cut 2 (.cut 3 .leaf .leaf) (.ref (.cut 3 .leaf .leaf)))) (.cut 2 .leaf .leaf))))))))
theorem h218 : check par t218 [45056, 45056, 8192, 8192] [4096, 4096, 8192, 8192] st = true := by decide +kernel
def t219 : Tree := (.ref (.cut 0 (.ref (.cut 1 (.ref (.cut 2 .out (.cut 3 (.ref (.cut 0 (.cut 1 (.cut 2 .out (.ref (.cut 3 .leaf .out))) (.ref (.cut 2 .out (.cut 3 .leaf .out)))) (.ref (.cut 1 (.ref (.cut 2 .out (.cut 3 .leaf .out))) (.ref (.cut 2 .out (.cut 3 .leaf .out))))))) .out))) (.ref (.cut 2 .out (.cut 3 (.ref (.cut 0 .out (.ref (.cut 1 (.cut 2 .out (.ref (.cut 3 .leaf .out))) .out)))) .out))))) (.ref (.cut 1 (.ref (.cut 2 .out (.cut 3 (.ref (.cut 0 (.ref (.cut 1 (.cut 2 .out (.cut 3 .leaf .out)) (.cut 2 .out (.ref (.cut 3 .leaf .out))))) (.cut 1 (.cut 2 .out (.ref (.cut 3 .leaf .out))) (.ref (.cut 2 .out (.cut 3 .leaf .out)))))) .out))) (.ref (.cut 2 .out (.ref (.cut 3 (.ref (.cut 0 (.cut 1 (.cut 2 .out (.cut 3 .leaf .out)) (.ref (.cut 2 .out (.cut 3 .leaf .out)))) (.cut 1 (.ref (.cut 2 .out (.cut 3 .leaf .out))) (.cut 2 .out (.cut 3 .leaf .out))))) .out))))))))
theorem h219 : check par t219 [40960, 40960, 8192, 24576] [8192, 8192, 8192, 8192] st = true := by decide +kernel
def t220 : Tree := (.ref (.cut 2 (.ref (.cut 3 (.cut 0 (.ref (.cut 1 (.cut 2 .leaf .leaf) (.ref (.cut 2 .leaf .leaf)))) (.cut 1 (.ref (.cut 2 .leaf .leaf)) (.cut 2 .leaf .leaf))) (.cut 0 (.cut 1 (.cut 2 (.ref (.cut 3 .leaf .leaf)) (.ref (.cut 3 .leaf .leaf))) (.ref (.cut 2 (.ref (.cut 3 .leaf .leaf)) (.cut 3 .leaf .leaf)))) (.ref (.cut 1 (.ref (.cut 2 (.ref (.cut 3 .leaf .leaf)) (.cut 3 .leaf .leaf))) (.ref (.cut 2 (.cut 3 .leaf .leaf) (.cut 3 .leaf .leaf)))))))) (.cut 3 (.ref (.cut 0 (.cut 1 (.cut 2 .leaf .leaf) (.ref (.cut 2 .leaf .leaf))) (.cut 1 (.ref (.cut 2 .leaf .leaf)) (.cut 2 .leaf .leaf)))) (.ref (.cut 0 (.cut 1 (.cut 2 (.cut 3 .leaf .leaf) (.ref (.cut 3 .leaf .leaf))) (.ref (.cut 2 (.ref (.cut 3 .leaf (.cut 0 .out .leaf))) (.ref (.cut 3 .leaf .leaf))))) (.cut 1 (.ref (.cut 2 (.ref (.cut 3 .leaf (.cut 0 .leaf .leaf))) (.ref (.cut 3 .leaf .leaf)))) (.cut 2 (.ref (.cut 3 .leaf .leaf)) (.cut 3 .leaf .leaf))))))))
theorem h220 : check par t220 [36864, 36864, 24576, 8192] [4096, 4096, 8192, 8192] st = true := by decide +kernel
def t221 : Tree := (.ref (.cut 2 (.ref (.cut 3 (.ref (.cut 0 .out (.cut 1 (.cut 2 .leaf (.cut 3 .leaf .leaf)) .out))) (.cut 0 .out (.ref (.cut 1 (.cut 2 (.ref (.cut 3 .leaf .leaf)) (.cut 3 .leaf .leaf)) .out))))) (.cut 3 (.ref (.cut 0 .out (.ref (.cut 1 (.cut 2 (.ref (.cut 3 .leaf .leaf)) (.cut 3 .leaf .leaf)) .out)))) (.cut 0 .out (.ref (.cut 1 (.cut 2 (.ref (.cut 3 .leaf .leaf)) (.cut 3 .leaf .leaf)) .out))))))
theorem h221 : check par t221 [36864, 45056, 24576, 8192] [4096, 4096, 8192, 8192] st = true := by decide +kernel
def t222 : Tree := (.ref (.cut 3 (.ref (.cut 0 (.cut 1 (.cut 2 (.cut 3 .leaf .leaf) (.cut 3 .leaf .leaf)) (.cut 2 .leaf (.cut 3 .leaf .leaf))) (.cut 1 (.cut 2 (.cut 3 .leaf .leaf) (.cut 3 .leaf .leaf)) (.cut 2 (.ref (.cut 3 .leaf .leaf)) (.cut 3 .leaf .leaf))))) (.cut 0 (.ref (.cut 1 (.cut 2 (.cut 3 .leaf .leaf) (.cut 3 .leaf .leaf)) (.cut 2 (.ref (.cut 3 .leaf .leaf)) (.cut 3 .leaf .leaf)))) (.cut 1 (.cut 2 (.ref (.cut 3 .leaf .leaf)) (.ref (.cut 3 .leaf .leaf))) (.ref (.cut 2 (.ref (.cut 3 .leaf .leaf)) (.cut 3 .leaf .leaf)))))))
theorem h222 : check par t222 [45056, 36864, 20480, 8192] [4096, 4096, 4096, 8192] st = true := by decide +kernel
def t223 : Tree := (.ref (.cut 3 (.ref (.cut 0 (.cut 1 (.cut 2 (.ref (.cut 3 .leaf .leaf)) .leaf) (.ref (.cut 2 (.ref (.cut 3 .leaf .leaf)) (.cut 3 .leaf .leaf)))) (.ref (.cut 1 (.cut 2 (.cut 3 .leaf .leaf) (.cut 3 .leaf .leaf)) (.cut 2 (.cut 3 .leaf .leaf) (.cut 3 .leaf .leaf)))))) (.cut 0 (.ref (.cut 1 (.ref (.cut 2 (.ref (.cut 3 .leaf .leaf)) (.ref (.cut 3 .leaf .leaf)))) (.ref (.cut 2 (.ref (.cut 3 .leaf .leaf)) (.cut 3 .leaf .leaf))))) (.ref (.cut 1 (.cut 2 (.cut 3 .leaf .leaf) (.ref (.cut 3 .leaf .leaf))) (.ref (.cut 2 (.cut 3 .leaf .leaf) (.cut 3 .leaf .leaf))))))))
theorem h223 : check par t223 [45056, 36864, 28672, 8192] [4096, 4096, 4096, 8192] st = true := by decide +kernel
def t224 : Tree := (.ref (.cut 3 (.cut 0 (.ref (.cut 1 (.cut 2 .leaf (.cut 3 .leaf .leaf)) (.ref (.cut 2 (.cut 3 .leaf .leaf) (.cut 3 .leaf .leaf))))) (.ref (.cut 1 (.ref (.cut 2 (.cut 3 .leaf .leaf) (.cut 3 .leaf .leaf))) (.cut 2 (.cut 3 .leaf .leaf) (.cut 3 .leaf .leaf))))) (.ref (.cut 0 (.cut 1 (.cut 2 .leaf (.cut 3 .leaf .leaf)) (.ref (.cut 2 (.cut 3 .leaf .leaf) (.cut 3 .leaf .leaf)))) (.cut 1 (.ref (.cut 2 (.cut 3 .leaf .leaf) (.cut 3 .leaf .leaf))) (.cut 2 (.cut 3 .leaf .leaf) (.cut 3 .leaf .leaf)))))))
theorem h224 : check par t224 [45056, 45056, 20480, 8192] [4096, 4096, 4096, 8192] st = true := by decide +kernel
def t225 : Tree := (.ref (.cut 3 (.ref (.cut 0 (.cut 1 (.cut 2 (.cut 3 .leaf .leaf) (.cut 3 .leaf .leaf)) (.ref (.cut 2 (.ref (.cut 3 .leaf .leaf)) (.ref (.cut 3 .leaf .leaf))))) (.cut 1 (.ref (.cut 2 (.ref (.cut 3 .leaf .leaf)) (.ref (.cut 3 .leaf .leaf)))) (.cut 2 (.ref (.cut 3 .leaf .leaf)) (.cut 3 .leaf .leaf))))) (.cut 0 (.cut 1 (.cut 2 (.ref (.cut 3 .leaf .leaf)) (.cut 3 .leaf .leaf)) (.ref (.cut 2 (.cut 3 .leaf .leaf) (.cut 3 .leaf .leaf)))) (.cut 1 (.ref (.cut 2 (.cut 3 .leaf .leaf) (.cut 3 .leaf .leaf))) (.cut 2 (.ref (.cut 3 .leaf .leaf)) (.cut 3 .leaf .leaf))))))
theorem h225 : check par t225 [45056, 45056, 28672, 8192] [4096, 4096, 4096, 8192] st = true := by decide +kernel
def t226 : Tree := (.ref (.cut 3 (.ref (.cut 0 (.ref (.cut 1 (.ref (.cut 2 (.cut 3 .leaf (.ref (.cut 0 .leaf .leaf))) (.cut 3 (.ref (.cut 0 .leaf .leaf)) (.cut 0 (.cut 1 .leaf .leaf) (.cut 1 .leaf .leaf))))) (.ref (.cut 2 (.cut 3 .leaf (.ref (.cut 0 .out .leaf))) (.cut 3 (.ref (.cut 0 .out .leaf)) (.cut 0 .out .leaf)))))) (.ref (.cut 1 (.ref (.cut 2 (.cut 3 .leaf (.ref (.cut 0 .leaf .leaf))) (.cut 3 (.ref (.cut 0 .leaf .leaf)) (.cut 0 (.cut 1 .leaf .leaf) (.cut 1 .leaf .leaf))))) (.cut 2 (.cut 3 .leaf .leaf) (.cut 3 .leaf (.cut 0 .leaf .leaf))))))) (.ref (.cut 0 (.cut 1 (.cut 2 .out (.ref (.cut 3 (.ref (.cut 0 (.cut 1 (.cut 2 .out .leaf) (.ref (.cut 2 .out .leaf))) (.ref (.cut 1 (.ref (.cut 2 .out .leaf)) (.cut 2 .out .leaf))))) .out))) (.ref (.cut 2 .out (.ref (.cut 3 (.ref (.cut 0 .out (.ref (.cut 1 (.cut 2 .out .leaf) .out)))) .out))))) (.cut 1 (.ref (.cut 2 .out (.ref (.cut 3 (.ref (.cut 0 (.ref (.cut 1 (.cut 2 .out (.cut 3 .leaf .out)) (.cut 2 .out .leaf))) (.cut 1 (.cut 2 .out .leaf) (.ref (.cut 2 .out .leaf))))) .out)))) (.cut 2 .out (.ref (.cut 3 (.ref (.cut 0 (.cut 1 .leaf .leaf) (.cut 1 .leaf .leaf))) .out))))))))
theorem h226 : check par t226 [36864, 36864, 20480, 24576] [4096, 4096, 4096, 8192] st = true := by decide +kernel
def t227 : Tree := (.ref (.cut 1 (.cut 2 (.cut 3 (.ref (.cut 0 (.cut 1 .leaf .leaf) (.ref (.cut 1 .leaf .leaf)))) (.ref (.cut 0 (.cut 1 (.cut 2 .leaf .leaf) (.ref (.cut 2 .leaf (.cut 3 .leaf .leaf)))) (.ref (.cut 1 (.ref (.cut 2 .leaf (.cut 3 .leaf .leaf))) (.cut 2 .leaf .leaf)))))) (.cut 3 (.cut 0 (.ref (.cut 1 .leaf .leaf)) (.cut 1 .leaf .leaf)) (.ref (.cut 0 (.ref (.cut 1 (.ref (.cut 2 (.cut 3 .leaf .leaf) (.ref (.cut 3 .leaf .leaf)))) (.ref (.cut 2 (.ref (.cut 3 .leaf .leaf)) (.cut 3 .leaf .leaf))))) (.ref (.cut 1 (.ref (.cut 2 (.ref (.cut 3 .leaf .leaf)) (.cut 3 .leaf .leaf))) (.ref (.cut 2 .leaf (.cut 3 .leaf .leaf))))))))) (.ref (.cut 2 (.ref (.cut 3 (.cut 0 .out (.cut 1 .leaf .out)) (.ref (.cut 0 .out (.ref (.cut 1 (.cut 2 .leaf .leaf) .out)))))) (.ref (.cut 3 (.cut 0 .out (.cut 1 .leaf .out)) (.ref (.cut 0 .out (.cut 1 (.cut 2 (.ref (.cut 3 .leaf .leaf)) (.cut 3 .leaf .leaf)) .out)))))))))
theorem h227 : check par t227 [34816, 36864, 28672, 20480] [2048, 4096, 4096, 4096] st = true := by decide +kernel
def t228 : Tree := (.ref (.cut 2 (.ref (.cut 3 (.cut 0 (.cut 1 .leaf .leaf) (.cut 1 .leaf .leaf)) (.ref (.cut 0 (.ref (.cut 1 (.cut 2 .leaf (.cut 3 .leaf .leaf)) (.cut 2 .leaf .leaf))) (.cut 1 (.cut 2 .leaf (.cut 3 .leaf .leaf)) (.ref (.cut 2 .leaf .leaf))))))) (.ref (.cut 3 (.cut 0 (.cut 1 .leaf .leaf) (.cut 1 .leaf .leaf)) (.ref (.cut 0 (.cut 1 (.cut 2 (.ref (.cut 3 .leaf .leaf)) (.cut 3 .leaf .leaf)) (.cut 2 (.ref (.cut 3 .leaf .leaf)) (.cut 3 .leaf .leaf))) (.cut 1 (.cut 2 (.ref (.cut 3 .leaf .leaf)) (.cut 3 .leaf .leaf)) (.ref (.cut 2 (.cut 3 .leaf .leaf) (.cut 3 .leaf .leaf))))))))))
theorem h228 : check par t228 [38912, 34816, 28672, 20480] [2048, 2048, 4096, 4096] st = true := by decide +kernel
def t229 : Tree := (.ref (.cut 2 (.ref (.cut 3 (.cut 0 .leaf .leaf) (.ref (.cut 0 (.cut 1 .leaf .leaf) (.cut 1 .leaf .leaf))))) (.cut 3 (.cut 0 .leaf (.ref (.cut 1 .leaf .leaf))) (.ref (.cut 0 (.ref (.cut 1 (.ref (.cut 2 .leaf .leaf)) (.ref (.cut 2 .leaf .leaf)))) (.ref (.cut 1 (.ref (.cut 2 .leaf .leaf)) (.ref (.cut 2 .leaf .leaf)))))))))
theorem h229 : check par t229 [38912, 38912, 28672, 20480] [2048, 2048, 4096, 4096] st = true := by decide +kernel
def t230 : Tree := (.ref (.cut 3 (.ref (.cut 0 (.cut 1 (.cut 2 .leaf .leaf) (.ref (.cut 2 (.cut 3 .leaf .leaf) (.cut 3 .leaf .leaf)))) (.cut 1 (.ref (.cut 2 (.cut 3 .leaf .leaf) (.cut 3 .leaf .leaf))) (.cut 2 .leaf .leaf)))) (.ref (.cut 0 (.cut 1 (.cut 2 .out (.cut 3 .leaf .out)) (.ref (.cut 2 .out (.cut 3 (.ref (.cut 0 .out .leaf)) .out)))) (.cut 1 (.ref (.cut 2 .out (.cut 3 (.ref (.cut 0 .leaf .leaf)) .out))) (.cut 2 .out (.cut 3 .leaf .out)))))))
theorem h230 : check par t230 [34816, 34816, 26624, 28672] [2048, 2048, 2048, 4096] st = true := by decide +kernel
def t231 : Tree := (.ref (.cut 3 (.ref (.cut 0 (.cut 1 (.cut 2 (.cut 3 .leaf .leaf) (.cut 3 .leaf .leaf)) (.ref (.cut 2 (.cut 3 (.ref (.cut 0 .out .leaf)) (.ref (.cut 0 .out .leaf))) (.cut 3 (.cut 0 .out .leaf) (.cut 0 .out .leaf))))) (.cut 1 (.ref (.cut 2 (.cut 3 (.ref (.cut 0 .leaf .leaf)) (.ref (.cut 0 .leaf .leaf))) (.cut 3 (.cut 0 .leaf (.cut 1 .leaf .leaf)) (.cut 0 .leaf (.cut 1 .leaf .leaf))))) (.cut 2 (.ref (.cut 3 .leaf .leaf)) (.cut 3 .leaf (.cut 0 .leaf .leaf)))))) (.cut 0 (.cut 1 (.ref (.cut 2 (.ref (.cut 3 .leaf .leaf)) (.cut 3 .leaf .leaf))) (.ref (.cut 2 (.ref (.cut 3 .leaf (.ref (.cut 0 .out .leaf)))) (.ref (.cut 3 (.ref (.cut 0 .out .leaf)) .leaf))))) (.ref (.cut 1 (.ref (.cut 2 (.ref (.cut 3 .leaf (.ref (.cut 0 .leaf (.cut 1 .leaf .leaf))))) (.ref (.cut 3 (.ref (.cut 0 .leaf (.cut 1 .leaf .leaf))) .leaf)))) (.ref (.cut 2 (.cut 3 .leaf .leaf) (.cut 3 .leaf .leaf))))))))
theorem h231 : check par t231 [34816, 34816, 30720, 28672] [2048, 2048, 2048, 4096] st = true := by decide +kernel
def t232 : Tree := (.ref (.cut 2 (.ref (.cut 3 (.ref (.cut 0 .out (.cut 1 (.cut 2 .leaf .leaf) .out))) (.ref (.cut 0 .out (.ref (.cut 1 (.cut 2 .out (.ref (.cut 3 .leaf .out))) .out)))))) (.ref (.cut 3 (.ref (.cut 0 .out (.ref (.cut 1 (.cut 2 (.ref (.cut 3 .leaf .leaf)) (.cut 3 (.cut 0 .out .leaf) (.ref (.cut 0 .out .leaf)))) .out)))) (.ref (.cut 0 .out (.cut 1 (.cut 2 (.ref (.cut 3 .leaf (.ref (.cut 0 .out .out)))) (.cut 3 (.ref (.cut 0 .out .out)) .out)) .out)))))))
theorem h232 : check par t232 [34816, 38912, 28672, 28672] [2048, 2048, 4096, 4096] st = true := by decide +kernel
def t233 : Tree := (.ref (.cut 3 (.ref (.cut 0 (.cut 1 (.cut 2 (.cut 3 .leaf .leaf) (.cut 3 .leaf .leaf)) (.cut 2 .leaf .leaf)) (.cut 1 (.cut 2 (.cut 3 .leaf .leaf) (.cut 3 .leaf .leaf)) (.cut 2 .leaf .leaf)))) (.ref (.cut 0 (.cut 1 (.ref (.cut 2 .out (.cut 3 (.ref (.cut 0 .leaf .leaf)) .out))) (.ref (.cut 2 .out (.ref (.cut 3 .leaf .out))))) (.cut 1 (.ref (.cut 2 .out (.ref (.cut 3 (.cut 0 .leaf .leaf) .out)))) (.ref (.cut 2 .out (.cut 3 .leaf .out))))))))
theorem h233 : check par t233 [38912, 34816, 26624, 28672] [2048, 2048, 2048, 4096] st = true := by decide +kernel
def t234 : Tree := (.ref (.cut 0 (.cut 1 (.ref (.cut 2 (.ref (.cut 3 (.cut 0 .leaf .leaf) (.cut 0 .leaf .leaf))) (.cut 3 (.ref (.cut 0 (.cut 1 .leaf .leaf) (.cut 1 .leaf .leaf))) (.cut 0 (.cut 1 .leaf .leaf) (.ref (.cut 1 .leaf .leaf)))))) (.ref (.cut 2 (.ref (.cut 3 .leaf .leaf)) (.cut 3 (.cut 0 .leaf .leaf) (.ref (.cut 0 .leaf (.cut 1 .leaf .leaf))))))) (.cut 1 (.ref (.cut 2 (.ref (.cut 3 (.ref (.cut 0 .leaf .leaf)) (.cut 0 .leaf .leaf))) (.cut 3 (.ref (.cut 0 .leaf .leaf)) (.ref (.cut 0 (.cut 1 .leaf .leaf) .leaf))))) (.ref (.cut 2 (.cut 3 .leaf .leaf) (.cut 3 (.cut 0 .leaf .leaf) (.cut 0 .leaf .out)))))))
theorem h234 : check par t234 [38912, 34816, 30720, 26624] [2048, 2048, 2048, 2048] st = true := by decide +kernel
def t235 : Tree := (.ref (.cut 0 (.cut 1 (.cut 2 (.cut 3 (.cut 0 .leaf .leaf) (.ref (.cut 0 (.ref (.cut 1 .leaf .leaf)) (.cut 1 .leaf .leaf)))) (.cut 3 (.ref (.cut 0 (.ref (.cut 1 .leaf .leaf)) (.cut 1 .leaf .leaf))) .leaf)) (.cut 2 (.ref (.cut 3 .leaf (.ref (.cut 0 .leaf .out)))) (.cut 3 (.ref (.cut 0 .leaf .out)) .out))) (.cut 1 (.cut 2 (.cut 3 .leaf (.ref (.cut 0 .leaf .out))) (.cut 3 (.ref (.cut 0 .leaf .out)) .out)) (.cut 2 (.cut 3 .leaf .out) .out))))
theorem h235 : check par t235 [38912, 34816, 30720, 30720] [2048, 2048, 2048, 2048] st = true := by decide +kernel
def t236 : Tree := (.ref (.cut 2 (.cut 3 (.cut 0 (.cut 1 .leaf .leaf) (.cut 1 .leaf .leaf)) (.ref (.cut 0 (.cut 1 (.cut 2 .out (.cut 3 .leaf .out)) (.ref (.cut 2 .out (.cut 3 .leaf .out)))) (.cut 1 (.ref (.cut 2 .out (.cut 3 .leaf .out))) (.cut 2 .out .out))))) (.cut 3 (.ref (.cut 0 (.cut 1 (.cut 2 .leaf (.cut 3 .leaf .leaf)) (.ref (.cut 2 .leaf (.cut 3 .leaf .out)))) (.cut 1 (.ref (.cut 2 .leaf (.cut 3 .leaf .out))) (.cut 2 .leaf .out)))) (.cut 0 (.cut 1 (.cut 2 (.cut 3 .leaf .out) .out) .out) .out))))
theorem h236 : check par t236 [38912, 38912, 28672, 28672] [2048, 2048, 4096, 4096] st = true := by decide +kernel
def t237 : Tree := (.ref (.cut 2 (.ref (.cut 3 (.ref (.cut 0 .out (.ref (.cut 1 (.ref (.cut 2 (.cut 3 .leaf .leaf) (.cut 3 .leaf (.cut 0 .out .leaf)))) .out)))) (.ref (.cut 0 .out (.ref (.cut 1 (.ref (.cut 2 .out (.ref (.cut 3 (.ref (.cut 0 .out .leaf)) .out)))) .out)))))) (.ref (.cut 3 (.ref (.cut 0 .out (.ref (.cut 1 (.ref (.cut 2 (.cut 3 (.ref (.cut 0 .out .leaf)) (.ref (.cut 0 .out .leaf))) (.cut 3 (.cut 0 .out .leaf) (.ref (.cut 0 .out (.cut 1 .leaf .out)))))) .out)))) (.ref (.cut 0 .out (.cut 1 (.ref (.cut 2 (.ref (.cut 3 (.ref (.cut 0 .out .leaf)) (.ref (.cut 0 .out .out)))) (.ref (.cut 3 (.ref (.cut 0 .out .out)) .out)))) .out)))))))
theorem h237 : check par t237 [36864, 45056, 24576, 24576] [4096, 4096, 8192, 8192] st = true := by decide +kernel
def t238 : Tree := (.ref (.cut 3 (.ref (.cut 0 (.ref (.cut 1 (.cut 2 (.ref (.cut 3 .leaf (.ref (.cut 0 .leaf .leaf)))) (.ref (.cut 3 (.ref (.cut 0 .leaf .leaf)) (.ref (.cut 0 (.cut 1 .leaf .leaf) .leaf))))) (.ref (.cut 2 (.cut 3 .leaf .leaf) (.cut 3 .leaf (.cut 0 .leaf .leaf)))))) (.cut 1 (.cut 2 (.ref (.cut 3 .leaf .leaf)) (.cut 3 .leaf (.cut 0 .leaf .leaf))) (.ref (.cut 2 (.ref (.cut 3 .leaf .leaf)) (.cut 3 .leaf .leaf)))))) (.ref (.cut 0 (.ref (.cut 1 (.cut 2 .out (.ref (.cut 3 (.ref (.cut 0 (.cut 1 (.cut 2 .out .leaf) .leaf) (.cut 1 .leaf .leaf))) .out))) (.ref (.cut 2 .out (.ref (.cut 3 (.ref (.cut 0 (.cut 1 .leaf .leaf) .leaf)) .out)))))) (.ref (.cut 1 (.cut 2 .out (.ref (.cut 3 (.ref (.cut 0 .leaf .leaf)) .out))) (.ref (.cut 2 .out (.ref (.cut 3 (.ref (.cut 0 .leaf .leaf)) .out))))))))))
theorem h238 : check par t238 [45056, 36864, 20480, 24576] [4096, 4096, 4096, 8192] st = true := by decide +kernel
end FastNoise.RangeCheck.OuterSuper4
