import Verif.RangeCertOuterSimplex4
/-! Generated by tools/rangecert/gen.py: a certificate for the checker `Verif.RangeCheck`. -/
namespace FastNoise.RangeCheck.OuterSimplex4
set_option maxRecDepth 1000000
def t207 : Tree := (.ref (.cut 2 (.ref (.cut 3 (.cut 0 (.cut 1 (.cut 2 (.cut 3 (.cut 0 .leaf .leaf) (.ref (.cut 0 .leaf .leaf))) (.cut 3 (.ref (.cut 0 .leaf .leaf)) .leaf)) .leaf) (.cut 1 (.cut 2 (.cut 3 .leaf .leaf) (.cut 3 .leaf .leaf)) (.cut 2 .leaf .leaf))) (.cut 0 (.cut 1 (.cut 2 .out (.cut 3 .leaf .out)) (.cut 2 .out .leaf)) (.cut 1 (.cut 2 .out (.cut 3 .leaf .out)) (.cut 2 .out .leaf))))) (.cut 3 (.ref (.cut 0 (.cut 1 (.cut 2 (.cut 3 .leaf .leaf) .leaf) (.cut 2 .leaf .leaf)) (.cut 1 (.cut 2 (.cut 3 .leaf .leaf) .leaf) (.cut 2 .leaf .leaf)))) (.cut 0 (.cut 1 (.cut 2 .leaf .leaf) .leaf) .leaf))))
theorem h207 : check par t207 [25088, 13824, 13312, 13312] [512, 512, 1024, 1024] st = true := by decide +kernel
def t208 : Tree := (.ref (.cut 1 (.cut 2 (.cut 3 (.cut 0 .leaf .leaf) (.ref (.cut 0 (.cut 1 .leaf .leaf) .leaf))) (.ref (.cut 3 (.cut 0 (.cut 1 .out .leaf) .leaf) (.cut 0 (.cut 1 .out .leaf) .leaf)))) (.cut 2 (.ref (.cut 3 (.cut 0 (.cut 1 .leaf .leaf) .leaf) (.cut 0 (.cut 1 .leaf .leaf) .leaf))) (.cut 3 (.ref (.cut 0 (.cut 1 .leaf .leaf) .leaf)) (.cut 0 .leaf .leaf)))))
theorem h208 : check par t208 [26112, 13312, 13312, 13312] [512, 1024, 1024, 1024] st = true := by decide +kernel
def t209 : Tree := (.ref (.cut 0 (.cut 1 (.cut 2 .out (.cut 3 (.cut 0 .leaf .leaf) .out)) (.cut 2 .out (.cut 3 .leaf .out))) (.cut 1 (.cut 2 .out (.cut 3 .leaf .out)) (.cut 2 .out (.cut 3 .leaf .out)))))
theorem h209 : check par t209 [25600, 13312, 13312, 15360] [1024, 1024, 1024, 1024] st = true := by decide +kernel
def t210 : Tree := (.ref (.cut 3 (.cut 0 (.cut 1 .out (.cut 2 (.cut 3 (.ref (.cut 0 .leaf .leaf)) .leaf) .out)) (.cut 1 .out (.cut 2 (.cut 3 .leaf .leaf) .out))) (.cut 0 (.cut 1 .out (.cut 2 (.cut 3 .leaf .leaf) .out)) (.cut 1 .out (.cut 2 (.cut 3 .leaf .leaf) .out)))))
theorem h210 : check par t210 [25600, 13312, 15360, 14336] [1024, 1024, 1024, 2048] st = true := by decide +kernel
def t211 : Tree := (.ref (.cut 2 (.ref (.cut 3 (.cut 0 (.cut 1 (.cut 2 (.cut 3 (.cut 0 .leaf .leaf) (.ref (.cut 0 .leaf .leaf))) (.cut 3 (.ref (.cut 0 .leaf .leaf)) .leaf)) .leaf) (.cut 1 (.cut 2 (.cut 3 (.cut 0 .leaf .leaf) .leaf) (.cut 3 .leaf .leaf)) (.cut 2 .leaf .leaf))) (.cut 0 (.cut 1 (.cut 2 .out (.cut 3 .leaf .out)) (.cut 2 .out .leaf)) (.cut 1 (.cut 2 .out (.cut 3 .leaf .out)) (.cut 2 .out .leaf))))) (.cut 3 (.ref (.cut 0 (.cut 1 (.cut 2 (.cut 3 .leaf .leaf) .leaf) (.cut 2 .leaf .leaf)) (.cut 1 (.cut 2 (.cut 3 .leaf .leaf) .leaf) (.cut 2 .leaf .leaf)))) (.cut 0 (.cut 1 (.cut 2 (.cut 3 .leaf .leaf) .leaf) .leaf) (.cut 1 (.cut 2 .leaf .leaf) .leaf)))))
theorem h211 : check par t211 [25600, 15360, 14336, 14336] [1024, 1024, 2048, 2048] st = true := by decide +kernel
def t212 : Tree := (.ref (.cut 1 (.cut 2 (.cut 3 (.cut 0 .leaf .leaf) (.ref (.cut 0 (.cut 1 (.cut 2 .out .leaf) (.cut 2 .out .leaf)) .leaf))) (.ref (.cut 3 (.cut 0 (.cut 1 .out (.cut 2 .leaf .out)) .leaf) (.cut 0 (.cut 1 .out .leaf) .leaf)))) (.cut 2 (.ref (.cut 3 (.cut 0 (.cut 1 (.ref .leaf) .leaf) .leaf) (.cut 0 (.cut 1 (.cut 2 .out .leaf) .leaf) .leaf))) (.cut 3 (.ref (.cut 0 (.cut 1 (.cut 2 .leaf .leaf) .leaf) .leaf)) (.cut 0 .leaf .leaf)))))
theorem h212 : check par t212 [27648, 14336, 14336, 14336] [1024, 2048, 2048, 2048] st = true := by decide +kernel
def t213 : Tree := (.ref (.cut 1 (.cut 2 (.cut 3 (.cut 0 (.cut 1 (.cut 2 .leaf (.ref (.cut 3 .leaf .leaf))) (.cut 2 (.ref (.cut 3 .leaf .leaf)) (.cut 3 .leaf .leaf))) .leaf) (.ref (.cut 0 (.cut 1 (.cut 2 .out (.cut 3 .leaf .out)) (.cut 2 .out (.cut 3 .leaf .out))) (.cut 1 .leaf .leaf)))) (.ref (.cut 3 (.cut 0 (.cut 1 .out (.cut 2 (.cut 3 .leaf .leaf) .out)) (.cut 1 .out .leaf)) (.cut 0 (.cut 1 .out (.cut 2 (.cut 3 .leaf .leaf) .out)) (.cut 1 .out .leaf))))) (.cut 2 (.ref (.cut 3 (.cut 0 (.cut 1 (.cut 2 (.ref .leaf) (.cut 3 .leaf .leaf)) (.cut 2 .leaf (.cut 3 .leaf .leaf))) (.cut 1 .leaf .leaf)) (.cut 0 (.cut 1 (.cut 2 .out (.cut 3 .leaf .out)) (.cut 2 .out .leaf)) (.cut 1 .leaf .leaf)))) (.cut 3 (.ref (.cut 0 (.cut 1 (.cut 2 (.cut 3 .leaf .leaf) (.cut 3 .leaf .leaf)) (.cut 2 (.cut 3 .leaf .leaf) (.cut 3 .leaf .leaf))) (.cut 1 .leaf .leaf))) (.cut 0 (.cut 1 (.cut 2 (.cut 3 .leaf .leaf) .leaf) (.cut 2 .leaf .leaf)) .leaf)))))
theorem h213 : check par t213 [30720, 12288, 12288, 12288] [2048, 4096, 4096, 4096] st = true := by decide +kernel
def t214 : Tree := (.ref (.cut 0 (.ref (.cut 1 (.cut 2 .out (.cut 3 (.cut 0 (.cut 1 .out (.cut 2 .out .out)) (.cut 1 .out (.cut 2 .out .out))) .out)) (.cut 2 .out (.cut 3 (.cut 0 (.cut 1 (.cut 2 .out (.cut 3 .leaf .out)) (.cut 2 .out (.cut 3 .leaf .out))) (.cut 1 (.cut 2 .out (.cut 3 (.ref (.cut 0 (.cut 1 .out .leaf) (.cut 1 .out (.cut 2 .out .out)))) .out)) (.cut 2 .out (.cut 3 (.cut 0 .leaf (.cut 1 (.cut 2 .out (.ref (.cut 3 (.cut 0 .leaf .leaf) .out))) (.cut 2 .out (.cut 3 .leaf .out)))) .out)))) .out)))) (.cut 1 (.ref (.cut 2 .out (.ref (.cut 3 (.ref (.cut 0 (.cut 1 .out (.cut 2 .out .out)) (.cut 1 .out (.cut 2 .out .out)))) .out)))) (.ref (.cut 2 .out (.cut 3 (.ref (.cut 0 (.cut 1 (.cut 2 .out (.cut 3 (.cut 0 (.cut 1 .out (.cut 2 .out .out)) (.cut 1 .out (.cut 2 .out .out))) .out)) (.cut 2 .out (.cut 3 (.cut 0 (.cut 1 (.cut 2 .out (.cut 3 (.cut 0 .leaf .leaf) .out)) (.cut 2 .out (.cut 3 (.cut 0 .leaf .leaf) .out))) (.cut 1 (.cut 2 .out (.cut 3 (.cut 0 .leaf .leaf) .out)) (.cut 2 .out (.cut 3 (.cut 0 .leaf .leaf) .out)))) .out))) (.cut 1 (.cut 2 .out (.cut 3 (.cut 0 (.cut 1 .out .leaf) .leaf) .out)) (.cut 2 .out (.cut 3 (.cut 0 (.cut 1 (.cut 2 .out (.cut 3 .leaf .out)) (.cut 2 .out (.cut 3 .leaf .out))) (.cut 1 .leaf .leaf)) .out))))) .out))))))
theorem h214 : check par t214 [24576, 8192, 8192, 24576] [8192, 8192, 8192, 8192] st = true := by decide +kernel
def t215 : Tree := (.ref (.cut 0 (.ref (.cut 1 .out (.cut 2 (.cut 3 (.cut 0 (.cut 1 .out (.cut 2 .leaf .out)) (.cut 1 .out (.cut 2 (.ref (.cut 3 .leaf (.ref (.cut 0 .leaf .leaf)))) .out))) (.ref (.cut 0 (.cut 1 .out (.cut 2 (.cut 3 .leaf .leaf) .out)) (.cut 1 .out (.cut 2 (.cut 3 (.ref (.cut 0 (.cut 1 .out .leaf) (.cut 1 .out (.cut 2 (.cut 3 .leaf .leaf) .out)))) (.cut 0 .leaf (.cut 1 .out (.cut 2 (.cut 3 (.ref (.cut 0 .leaf .leaf)) .leaf) .out)))) .out))))) .out))) (.cut 1 .out (.ref (.cut 2 (.ref (.cut 3 (.cut 0 (.cut 1 .out (.cut 2 (.cut 3 .leaf (.cut 0 .leaf .leaf)) .out)) (.cut 1 .out (.cut 2 (.cut 3 .leaf (.cut 0 .leaf .leaf)) .out))) (.cut 0 (.ref (.cut 1 .out (.cut 2 (.cut 3 (.cut 0 (.cut 1 .out (.cut 2 (.cut 3 .leaf .leaf) .out)) (.cut 1 .out (.cut 2 (.cut 3 .leaf .leaf) .out))) (.cut 0 (.cut 1 .out (.cut 2 (.cut 3 (.cut 0 .leaf .leaf) (.cut 0 .leaf .leaf)) .out)) (.cut 1 .out (.cut 2 (.cut 3 (.cut 0 .leaf .leaf) (.cut 0 .leaf .leaf)) .out)))) .out))) (.cut 1 .out (.cut 2 (.ref (.cut 3 (.cut 0 (.cut 1 .out (.cut 2 .leaf .out)) .leaf) (.cut 0 (.cut 1 .out (.cut 2 (.cut 3 .leaf .leaf) .out)) (.cut 1 .out .leaf)))) .out))))) .out)))))
theorem h215 : check par t215 [24576, 8192, 24576, 8192] [8192, 8192, 8192, 8192] st = true := by decide +kernel
def t216 : Tree := (.ref (.cut 0 (.ref (.cut 1 .out (.cut 2 (.cut 3 (.cut 0 (.cut 1 .out (.ref (.cut 2 (.cut 3 .leaf (.ref (.cut 0 (.cut 1 .out (.cut 2 .out .out)) (.cut 1 .out (.cut 2 .out .out))))) .out))) (.cut 1 .out (.cut 2 (.ref (.cut 3 (.cut 0 .leaf (.cut 1 .out (.cut 2 (.cut 3 .leaf .leaf) .out))) (.cut 0 .leaf .leaf))) .out))) (.ref (.cut 0 (.ref (.cut 1 .out (.cut 2 .out .out))) (.cut 1 .out (.ref (.cut 2 .out .out)))))) .out))) (.cut 1 .out (.ref (.cut 2 (.cut 3 (.ref (.cut 0 (.cut 1 .out (.cut 2 (.cut 3 (.cut 0 (.cut 1 .out (.cut 2 (.cut 3 (.cut 0 .leaf .leaf) .leaf) .out)) (.cut 1 .out (.cut 2 (.cut 3 (.cut 0 .leaf .leaf) .leaf) .out))) (.cut 0 (.cut 1 .out .leaf) (.cut 1 .out .leaf))) .out)) (.cut 1 .out (.cut 2 (.cut 3 (.cut 0 (.cut 1 .out (.cut 2 .leaf .out)) (.cut 1 .out .leaf)) (.cut 0 (.cut 1 .out .leaf) .leaf)) .out)))) (.ref (.cut 0 (.cut 1 .out (.cut 2 .out .out)) (.cut 1 .out (.cut 2 .out .out))))) .out)))))
theorem h216 : check par t216 [24576, 8192, 24576, 24576] [8192, 8192, 8192, 8192] st = true := by decide +kernel
def t217 : Tree := (.ref (.cut 3 (.ref (.cut 0 (.ref (.cut 1 (.cut 2 .leaf .leaf) (.ref (.cut 2 .leaf (.cut 3 .leaf .leaf))))) (.cut 1 (.ref (.cut 2 .leaf (.cut 3 .leaf .leaf))) .leaf))) (.ref (.cut 0 (.ref (.cut 1 (.ref (.cut 2 .out .leaf)) (.ref (.cut 2 .out (.ref (.cut 3 .leaf .out)))))) (.cut 1 (.ref (.cut 2 .out (.ref (.cut 3 (.cut 0 .leaf .leaf) .out)))) .leaf)))))
theorem h217 : check par t217 [20480, 20480, 4096, 8192] [4096, 4096, 4096, 8192] st = true := by decide +kernel
def t218 : Tree := (.ref (.cut 3 (.ref (.cut 0 (.cut 1 (.ref (.cut 2 .leaf .leaf)) (.ref (.cut 2 (.ref (.cut 3 .leaf .leaf)) (.ref (.cut 3 .leaf (.ref (.cut 0 .out .leaf))))))) (.cut 1 (.ref (.cut 2 (.ref (.cut 3 .leaf (.ref (.cut 0 .leaf .leaf)))) (.ref (.cut 3 .leaf (.ref (.cut 0 .leaf .leaf)))))) .leaf))) (.ref (.cut 0 (.ref (.cut 1 (.cut 2 .leaf (.cut 3 .leaf .leaf)) (.cut 2 (.cut 3 (.cut 0 .out .leaf) (.ref (.cut 0 .out (.cut 1 .leaf .out)))) (.ref (.cut 3 (.cut 0 .out (.cut 1 .leaf .out)) (.cut 0 .out (.cut 1 .leaf .out))))))) (.cut 1 (.ref (.cut 2 (.cut 3 (.cut 0 (.cut 1 .leaf .leaf) (.cut 1 (.cut 2 .leaf .leaf) .leaf)) (.cut 0 (.cut 1 .leaf .leaf) (.cut 1 (.cut 2 .out (.cut 3 .leaf .out)) .leaf))) (.cut 3 (.cut 0 (.cut 1 .leaf .leaf) (.cut 1 (.cut 2 (.cut 3 .leaf .leaf) (.cut 3 .leaf .leaf)) .leaf)) (.cut 0 .leaf (.cut 1 (.cut 2 (.cut 3 (.cut 0 .leaf .leaf) (.cut 0 .leaf .leaf)) (.cut 3 (.cut 0 .leaf .leaf) .leaf)) .leaf))))) (.cut 2 (.cut 3 .leaf .leaf) (.ref (.cut 3 .leaf (.cut 0 .leaf .leaf)))))))))
theorem h218 : check par t218 [20480, 20480, 12288, 8192] [4096, 4096, 4096, 8192] st = true := by decide +kernel
def t219 : Tree := (.ref (.cut 2 (.cut 3 (.cut 0 .out (.cut 1 (.ref (.cut 2 .leaf .leaf)) .out)) (.ref (.cut 0 .out (.cut 1 (.cut 2 .out .leaf) .out)))) (.cut 3 (.ref (.cut 0 .out (.cut 1 (.cut 2 .leaf .leaf) .out))) (.cut 0 .out (.cut 1 (.ref (.cut 2 (.cut 3 .leaf .leaf) (.cut 3 .leaf (.ref (.cut 0 .out .leaf))))) .out)))))
theorem h219 : check par t219 [20480, 28672, 8192, 8192] [4096, 4096, 8192, 8192] st = true := by decide +kernel
def t220 : Tree := (.ref (.cut 3 (.cut 0 (.cut 1 (.ref (.cut 2 (.cut 3 .leaf .leaf) (.cut 3 .leaf (.cut 0 .leaf .leaf)))) (.ref (.cut 2 .leaf .leaf))) (.cut 1 (.ref (.cut 2 (.cut 3 .leaf .leaf) (.cut 3 .leaf (.cut 0 .leaf .leaf)))) (.cut 2 .leaf .leaf))) (.ref (.cut 0 (.cut 1 (.cut 2 .out (.cut 3 (.cut 0 .leaf .leaf) .out)) (.cut 2 .out .leaf)) (.cut 1 (.cut 2 .out (.cut 3 (.cut 0 .leaf .leaf) .out)) (.cut 2 .out .leaf))))))
theorem h220 : check par t220 [28672, 20480, 4096, 8192] [4096, 4096, 4096, 8192] st = true := by decide +kernel
def t221 : Tree := (.ref (.cut 0 (.cut 1 (.cut 2 (.cut 3 .leaf (.ref (.cut 0 .leaf .leaf))) (.cut 3 .leaf (.ref (.cut 0 .leaf .leaf)))) (.cut 2 (.cut 3 .leaf .leaf) (.cut 3 .leaf .leaf))) (.cut 1 (.cut 2 (.cut 3 .leaf (.ref (.cut 0 .leaf .leaf))) (.cut 3 .leaf (.cut 0 .leaf .leaf))) (.cut 2 (.cut 3 .leaf .leaf) (.cut 3 .leaf .leaf)))))
theorem h221 : check par t221 [28672, 20480, 12288, 4096] [4096, 4096, 4096, 4096] st = true := by decide +kernel
def t222 : Tree := (.ref (.cut 2 (.cut 3 (.cut 0 (.cut 1 (.cut 2 .leaf (.cut 3 .leaf .leaf)) .leaf) (.cut 1 (.cut 2 .leaf (.cut 3 .leaf .leaf)) .leaf)) (.cut 0 (.cut 1 (.cut 2 .out (.cut 3 .leaf .out)) .leaf) (.cut 1 (.cut 2 .out .leaf) .leaf))) (.cut 3 (.cut 0 (.cut 1 (.cut 2 (.cut 3 .leaf .leaf) (.cut 3 .leaf .leaf)) .leaf) (.cut 1 (.cut 2 (.cut 3 .leaf .leaf) (.cut 3 .leaf .leaf)) .leaf)) (.cut 0 (.cut 1 (.cut 2 (.cut 3 (.cut 0 .leaf .leaf) (.cut 0 .leaf .leaf)) (.cut 3 (.cut 0 .leaf .leaf) (.cut 0 .leaf .leaf))) (.cut 2 .leaf .leaf)) (.cut 1 (.cut 2 (.cut 3 (.cut 0 .leaf .leaf) (.cut 0 .leaf .leaf)) (.cut 3 (.cut 0 .leaf .leaf) (.cut 0 .leaf .leaf))) (.cut 2 .leaf (.cut 3 .leaf .leaf)))))))
theorem h222 : check par t222 [26624, 18432, 12288, 12288] [2048, 2048, 4096, 4096] st = true := by decide +kernel
def t223 : Tree := (.ref (.cut 2 (.cut 3 .leaf (.ref (.cut 0 .leaf .leaf))) (.cut 3 (.ref (.cut 0 .leaf .leaf)) (.ref (.cut 0 .leaf (.cut 1 .leaf .leaf))))))
theorem h223 : check par t223 [26624, 22528, 12288, 12288] [2048, 2048, 4096, 4096] st = true := by decide +kernel
def t224 : Tree := (.ref (.cut 1 (.ref (.cut 2 (.cut 3 (.cut 0 (.cut 1 .leaf .leaf) .leaf) (.ref (.cut 0 (.cut 1 .leaf .leaf) .leaf))) (.ref (.cut 3 (.cut 0 (.cut 1 .leaf .leaf) .leaf) (.cut 0 (.cut 1 (.cut 2 .leaf (.cut 3 .leaf .leaf)) (.cut 2 .leaf .leaf)) (.cut 1 .leaf .leaf)))))) (.cut 2 (.ref (.cut 3 .leaf (.ref (.cut 0 .leaf .leaf)))) (.cut 3 (.ref (.cut 0 .leaf .leaf)) (.ref (.cut 0 (.ref (.cut 1 .leaf .leaf)) .leaf))))))
theorem h224 : check par t224 [30720, 20480, 12288, 12288] [2048, 4096, 4096, 4096] st = true := by decide +kernel
def t225 : Tree := (.ref (.cut 2 (.cut 3 (.cut 0 (.ref (.cut 1 .leaf .leaf)) (.cut 1 .leaf .leaf)) (.ref (.cut 0 (.ref (.cut 1 .leaf .leaf)) (.cut 1 .leaf .leaf)))) (.ref (.cut 3 (.ref (.cut 0 (.cut 1 .leaf .leaf) (.cut 1 .leaf .leaf))) (.cut 0 (.cut 1 (.cut 2 .leaf .leaf) (.ref (.cut 2 .leaf (.cut 3 .leaf .leaf)))) (.cut 1 (.ref (.cut 2 .leaf (.cut 3 .leaf .leaf))) .leaf))))))
theorem h225 : check par t225 [28672, 28672, 8192, 8192] [4096, 4096, 8192, 8192] st = true := by decide +kernel
def t226 : Tree := (.ref (.cut 0 (.ref (.cut 1 (.cut 2 .out (.ref (.cut 3 (.cut 0 (.cut 1 (.cut 2 .out (.ref (.cut 3 .leaf .out))) (.ref (.cut 2 .out (.cut 3 (.cut 0 .out (.cut 1 .leaf .out)) .out)))) (.cut 1 (.cut 2 .out (.cut 3 (.ref (.cut 0 .leaf (.cut 1 (.cut 2 .out (.cut 3 .leaf .out)) (.cut 2 .out .leaf)))) .out)) (.cut 2 .out (.cut 3 (.ref (.cut 0 .leaf .leaf)) .out)))) .out))) (.ref (.cut 2 .out (.cut 3 (.ref (.cut 0 .out (.cut 1 (.ref (.cut 2 .out (.ref (.cut 3 (.cut 0 .out .leaf) .out)))) .out))) .out))))) (.cut 1 (.ref (.cut 2 .out (.cut 3 (.ref (.cut 0 (.ref (.cut 1 (.cut 2 .out (.cut 3 (.cut 0 (.cut 1 (.cut 2 .out (.cut 3 (.cut 0 .leaf .leaf) .out)) (.cut 2 .out (.cut 3 .leaf .out))) (.cut 1 (.cut 2 .out (.cut 3 (.cut 0 .leaf .leaf) .out)) (.cut 2 .out (.cut 3 .leaf .out)))) .out)) (.cut 2 .out (.cut 3 (.cut 0 (.cut 1 .leaf .leaf) (.cut 1 .leaf .leaf)) .out)))) (.cut 1 (.ref (.cut 2 .out (.cut 3 (.cut 0 (.cut 1 (.cut 2 .out .leaf) (.cut 2 .out .leaf)) (.cut 1 .leaf .leaf)) .out))) (.cut 2 .out (.ref (.cut 3 (.cut 0 (.cut 1 .leaf .leaf) .leaf) .out)))))) .out))) (.cut 2 .out (.ref (.cut 3 (.ref (.cut 0 (.cut 1 (.cut 2 .out .leaf) (.ref (.cut 2 .out .leaf))) (.cut 1 (.ref (.cut 2 .out (.cut 3 .leaf .out))) .leaf))) .out))))))
theorem h226 : check par t226 [24576, 24576, 8192, 24576] [8192, 8192, 8192, 8192] st = true := by decide +kernel
def t227 : Tree := (.ref (.cut 2 (.cut 3 (.ref (.cut 0 (.cut 1 (.cut 2 .leaf (.ref (.cut 3 .leaf .leaf))) (.ref (.cut 2 (.cut 3 .leaf .leaf) .leaf))) (.cut 1 (.ref (.cut 2 (.cut 3 .leaf .leaf) .leaf)) (.ref (.cut 2 .leaf .leaf))))) (.ref (.cut 0 (.cut 1 (.ref (.cut 2 (.ref (.cut 3 .leaf .leaf)) (.ref (.cut 3 (.cut 0 (.cut 1 .out .leaf) (.cut 1 .out .leaf)) (.cut 0 (.cut 1 .out (.cut 2 .leaf .out)) (.cut 1 .out (.cut 2 .leaf .out))))))) (.ref (.cut 2 (.ref (.cut 3 (.cut 0 .out (.cut 1 .leaf .out)) (.cut 0 .out (.cut 1 .leaf .out)))) (.cut 3 .leaf (.ref (.cut 0 .out .leaf)))))) (.cut 1 (.ref (.cut 2 (.ref (.cut 3 (.cut 0 .leaf (.cut 1 (.cut 2 .leaf .leaf) .leaf)) (.cut 0 .leaf (.cut 1 (.cut 2 (.cut 3 .leaf .leaf) .leaf) (.cut 2 .leaf .leaf))))) (.ref (.cut 3 .leaf (.ref (.cut 0 .leaf .leaf)))))) (.cut 2 (.ref (.cut 3 .leaf (.ref (.cut 0 .leaf .leaf)))) (.cut 3 .leaf .leaf)))))) (.ref (.cut 3 (.cut 0 (.ref (.cut 1 .out (.cut 2 .leaf .out))) (.cut 1 .out (.ref (.cut 2 .leaf .out)))) (.cut 0 (.ref (.cut 1 .out (.cut 2 (.cut 3 .leaf (.ref (.cut 0 .out (.cut 1 .out .out)))) .out))) (.cut 1 .out (.ref (.cut 2 (.cut 3 .leaf (.cut 0 (.ref (.cut 1 .out .leaf)) .leaf)) .out))))))))
theorem h227 : check par t227 [20480, 20480, 24576, 8192] [4096, 4096, 8192, 8192] st = true := by decide +kernel
def t228 : Tree := (.ref (.cut 2 (.ref (.cut 3 (.cut 0 .out (.cut 1 (.cut 2 .leaf .leaf) .out)) (.cut 0 .out (.cut 1 (.ref (.cut 2 (.cut 3 .leaf (.ref (.cut 0 .out .leaf))) (.ref (.cut 3 .leaf (.cut 0 .out .leaf))))) .out)))) (.ref (.cut 3 (.cut 0 .out (.cut 1 (.cut 2 .leaf .leaf) .out)) (.cut 0 .out (.cut 1 (.cut 2 (.cut 3 .leaf .leaf) (.ref (.cut 3 .leaf .leaf))) .out))))))
theorem h228 : check par t228 [20480, 28672, 24576, 8192] [4096, 4096, 8192, 8192] st = true := by decide +kernel
def t229 : Tree := (.ref (.cut 0 (.cut 1 (.ref (.cut 2 (.cut 3 .leaf (.cut 0 .leaf .leaf)) (.ref (.cut 3 .leaf .leaf)))) (.cut 2 (.ref (.cut 3 .leaf .leaf)) .leaf)) (.cut 1 (.cut 2 (.cut 3 .leaf .leaf) (.ref (.cut 3 .leaf .leaf))) (.cut 2 (.ref (.cut 3 .leaf .leaf)) .leaf))))
theorem h229 : check par t229 [28672, 20480, 20480, 4096] [4096, 4096, 4096, 4096] st = true := by decide +kernel
def t230 : Tree := (.ref (.cut 1 (.cut 2 (.ref (.cut 3 (.cut 0 (.cut 1 (.cut 2 (.cut 3 .leaf .leaf) .leaf) .leaf) (.cut 1 (.cut 2 (.cut 3 .leaf .leaf) .leaf) .leaf)) (.cut 0 (.cut 1 (.cut 2 (.cut 3 .leaf (.cut 0 .leaf .leaf)) (.cut 3 .leaf .leaf)) (.cut 2 (.cut 3 .leaf .leaf) .leaf)) (.cut 1 (.cut 2 (.cut 3 (.cut 0 .leaf .leaf) (.cut 0 .leaf .leaf)) (.cut 3 .leaf .leaf)) (.cut 2 (.cut 3 .leaf .leaf) (.cut 3 .leaf .leaf)))))) (.ref (.cut 3 .leaf (.ref (.cut 0 (.cut 1 .out .leaf) (.cut 1 .out .leaf)))))) (.cut 2 (.ref (.cut 3 .leaf (.ref (.cut 0 (.cut 1 .leaf .leaf) (.cut 1 .leaf .leaf))))) (.cut 3 .leaf (.cut 0 .leaf .leaf)))))
theorem h230 : check par t230 [26624, 20480, 20480, 12288] [2048, 4096, 4096, 4096] st = true := by decide +kernel
def t231 : Tree := (.ref (.cut 1 (.ref (.cut 2 (.cut 3 (.cut 0 (.ref (.cut 1 .leaf .leaf)) .leaf) (.ref (.cut 0 (.cut 1 (.cut 2 (.cut 3 .leaf .leaf) .leaf) (.cut 2 .leaf .leaf)) (.cut 1 .leaf .leaf)))) (.ref (.cut 3 (.cut 0 .leaf .leaf) (.ref (.cut 0 (.cut 1 .out .leaf) .leaf)))))) (.cut 2 (.ref (.cut 3 (.cut 0 .leaf .leaf) (.ref (.cut 0 (.cut 1 .leaf .leaf) .leaf)))) (.ref (.cut 3 .leaf (.cut 0 .leaf .leaf))))))
theorem h231 : check par t231 [30720, 20480, 20480, 12288] [2048, 4096, 4096, 4096] st = true := by decide +kernel
def t232 : Tree := (.ref (.cut 3 (.cut 0 (.cut 1 .out (.cut 2 .leaf .out)) (.cut 1 .out .leaf)) (.cut 0 (.cut 1 .out (.cut 2 (.cut 3 .leaf .leaf) .out)) (.cut 1 .out (.cut 2 (.ref (.cut 3 .leaf .leaf)) .out)))))
theorem h232 : check par t232 [28672, 20480, 28672, 8192] [4096, 4096, 4096, 8192] st = true := by decide +kernel
def t233 : Tree := (.ref (.cut 2 (.ref (.cut 3 (.cut 0 (.ref (.cut 1 .leaf .leaf)) (.cut 1 (.ref (.cut 2 .leaf .leaf)) .leaf)) (.cut 0 (.cut 1 (.cut 2 (.cut 3 .leaf .leaf) (.ref (.cut 3 .leaf .leaf))) (.ref (.cut 2 (.cut 3 .leaf .leaf) (.cut 3 .leaf .leaf)))) (.ref (.cut 1 (.ref (.cut 2 (.cut 3 .leaf .leaf) (.cut 3 .leaf .leaf))) (.cut 2 .leaf .leaf)))))) (.cut 3 (.cut 0 (.ref (.cut 1 .leaf .leaf)) (.cut 1 .leaf .leaf)) (.ref (.cut 0 (.ref (.cut 1 (.cut 2 (.cut 3 .leaf .leaf) (.ref (.cut 3 .leaf .leaf))) (.ref (.cut 2 (.cut 3 .leaf .leaf) .leaf)))) (.cut 1 (.ref (.cut 2 (.cut 3 .leaf .leaf) .leaf)) (.cut 2 .leaf .leaf)))))))
theorem h233 : check par t233 [28672, 28672, 24576, 8192] [4096, 4096, 8192, 8192] st = true := by decide +kernel
def t234 : Tree := (.ref (.cut 2 (.ref (.cut 3 (.cut 0 (.ref (.cut 1 (.cut 2 (.cut 3 .leaf (.ref (.cut 0 (.cut 1 (.cut 2 .out (.cut 3 .leaf .out)) (.cut 2 .out .leaf)) (.cut 1 (.cut 2 .out .leaf) (.cut 2 .out .leaf))))) (.ref (.cut 3 (.cut 0 (.cut 1 .out (.ref (.cut 2 .leaf .out))) (.cut 1 .out (.cut 2 .leaf .out))) (.cut 0 .leaf .leaf)))) (.ref (.cut 2 (.cut 3 (.ref (.cut 0 .out (.cut 1 .leaf .out))) (.ref (.cut 0 .out .leaf))) (.cut 3 (.ref (.cut 0 .out .leaf)) .leaf))))) (.cut 1 (.ref (.cut 2 (.cut 3 (.ref (.cut 0 .leaf (.cut 1 (.cut 2 (.cut 3 .leaf .leaf) .leaf) .leaf))) (.ref (.cut 0 .leaf .leaf))) (.ref (.cut 3 (.ref (.cut 0 .leaf .leaf)) .leaf)))) (.cut 2 (.ref (.cut 3 (.ref (.cut 0 .leaf .leaf)) .leaf)) (.ref (.cut 3 .leaf .leaf))))) (.ref (.cut 0 (.cut 1 (.cut 2 .out (.cut 3 (.cut 0 (.cut 1 .out (.ref (.cut 2 .out .out))) (.cut 1 .out (.cut 2 .out .out))) .out)) (.cut 2 .out (.ref (.cut 3 (.cut 0 .out (.cut 1 (.cut 2 .out .leaf) .out)) .out)))) (.cut 1 (.cut 2 .out (.ref (.cut 3 (.cut 0 (.cut 1 .out (.cut 2 .out .out)) (.cut 1 .out .leaf)) .out))) (.cut 2 .out (.cut 3 (.cut 0 (.cut 1 .leaf .leaf) (.cut 1 .leaf .leaf)) .out))))))) (.ref (.cut 3 (.ref (.cut 0 (.cut 1 .out (.cut 2 (.cut 3 (.cut 0 .out (.cut 1 .out .out)) (.ref (.cut 0 .out (.cut 1 .out .out)))) .out)) (.cut 1 .out (.cut 2 (.cut 3 (.ref (.cut 0 (.cut 1 .out .leaf) (.cut 1 .out .leaf))) (.cut 0 (.cut 1 .out .leaf) (.cut 1 .out .leaf))) .out)))) (.ref (.cut 0 (.cut 1 .out (.cut 2 (.cut 3 .leaf .leaf) .out)) (.cut 1 .out (.cut 2 (.cut 3 .leaf .leaf) .out))))))))
theorem h234 : check par t234 [20480, 20480, 24576, 24576] [4096, 4096, 8192, 8192] st = true := by decide +kernel
def t235 : Tree := (.ref (.cut 2 (.ref (.cut 3 (.ref (.cut 0 .out (.cut 1 (.cut 2 (.cut 3 (.cut 0 .out .leaf) (.ref (.cut 0 .out (.cut 1 .leaf .out)))) (.cut 3 (.ref (.cut 0 .out (.cut 1 .leaf .out))) (.cut 0 .out (.cut 1 .leaf .out)))) .out))) (.ref (.cut 0 .out (.cut 1 (.cut 2 .out (.cut 3 .leaf .out)) .out))))) (.ref (.cut 3 (.cut 0 .out (.cut 1 (.cut 2 (.ref (.cut 3 .leaf .leaf)) (.ref (.cut 3 .leaf .leaf))) .out)) (.ref (.cut 0 .out (.cut 1 (.cut 2 (.cut 3 .leaf .leaf) (.cut 3 .leaf .leaf)) .out)))))))
theorem h235 : check par t235 [20480, 28672, 24576, 24576] [4096, 4096, 8192, 8192] st = true := by decide +kernel
def t236 : Tree := (.ref (.cut 0 (.cut 1 (.cut 2 (.cut 3 (.cut 0 (.cut 1 (.cut 2 (.cut 3 .leaf .leaf) .leaf) (.cut 2 .leaf .leaf)) (.cut 1 (.cut 2 (.cut 3 .leaf .leaf) .leaf) .leaf)) (.ref (.cut 0 .leaf (.cut 1 .leaf .leaf)))) (.ref (.cut 3 (.cut 0 .leaf (.cut 1 .out .leaf)) (.cut 0 (.cut 1 .out .leaf) (.cut 1 .out .leaf))))) (.cut 2 (.ref (.cut 3 (.cut 0 .leaf (.cut 1 .leaf .leaf)) (.cut 0 (.cut 1 .leaf .leaf) (.cut 1 .leaf .leaf)))) (.cut 3 (.ref (.cut 0 (.cut 1 .leaf .leaf) (.cut 1 .leaf .leaf))) (.cut 0 .leaf .leaf)))) (.cut 1 (.cut 2 (.cut 3 (.cut 0 .leaf .leaf) (.ref (.cut 0 (.cut 1 .leaf .leaf) .leaf))) (.ref (.cut 3 (.cut 0 (.cut 1 .out .leaf) .leaf) (.cut 0 (.cut 1 .out .leaf) .leaf)))) (.cut 2 (.ref (.cut 3 (.cut 0 (.cut 1 .leaf .leaf) .leaf) (.cut 0 (.cut 1 .leaf .leaf) .leaf))) (.cut 3 (.ref (.cut 0 (.cut 1 .leaf .leaf) .leaf)) (.cut 0 .leaf .leaf))))))
theorem h236 : check par t236 [28672, 20480, 20480, 20480] [4096, 4096, 4096, 4096] st = true := by decide +kernel
def t237 : Tree := (.ref (.cut 0 (.cut 1 (.cut 2 .out (.cut 3 .leaf .out)) (.cut 2 .out (.ref (.cut 3 .leaf .out)))) (.cut 1 (.cut 2 .out (.cut 3 (.ref (.cut 0 .leaf .leaf)) .out)) (.cut 2 .out (.cut 3 .leaf .out)))))
theorem h237 : check par t237 [28672, 20480, 20480, 28672] [4096, 4096, 4096, 4096] st = true := by decide +kernel
def t238 : Tree := (.ref (.cut 3 (.ref (.cut 0 (.cut 1 .out (.cut 2 (.ref (.cut 3 .leaf .leaf)) .out)) (.cut 1 .out (.cut 2 (.cut 3 (.ref (.cut 0 .leaf .leaf)) .leaf) .out)))) (.ref (.cut 0 (.ref (.cut 1 .out (.cut 2 (.cut 3 .leaf .leaf) .out))) (.cut 1 .out (.cut 2 (.cut 3 .leaf .leaf) .out))))))
theorem h238 : check par t238 [28672, 20480, 28672, 24576] [4096, 4096, 4096, 8192] st = true := by decide +kernel
def t239 : Tree := (.ref (.cut 3 (.ref (.cut 0 (.ref (.cut 1 (.ref (.cut 2 (.cut 3 .leaf .leaf) (.cut 3 .leaf .leaf))) (.cut 2 (.ref (.cut 3 .leaf .leaf)) (.ref (.cut 3 .leaf .leaf))))) (.cut 1 (.ref (.cut 2 (.ref (.cut 3 (.cut 0 .leaf .leaf) (.cut 0 .leaf .leaf))) (.cut 3 (.cut 0 .leaf .leaf) .leaf))) (.cut 2 .leaf (.ref (.cut 3 .leaf .leaf)))))) (.ref (.cut 0 (.ref (.cut 1 (.cut 2 .out (.cut 3 .leaf .out)) (.cut 2 .out (.cut 3 .leaf .out)))) (.cut 1 (.cut 2 .out (.cut 3 .leaf .out)) (.cut 2 .out (.cut 3 .leaf .out)))))))
theorem h239 : check par t239 [28672, 28672, 20480, 24576] [4096, 4096, 4096, 8192] st = true := by decide +kernel
def t240 : Tree := (.ref (.cut 3 (.ref (.cut 0 (.ref (.cut 1 (.cut 2 (.cut 3 .leaf .leaf) (.ref (.cut 3 .leaf .leaf))) (.ref (.cut 2 (.cut 3 .leaf .leaf) (.cut 3 .leaf .leaf))))) (.cut 1 (.ref (.cut 2 (.cut 3 .leaf .leaf) (.ref (.cut 3 .leaf .leaf)))) (.cut 2 (.ref (.cut 3 .leaf .leaf)) (.ref (.cut 3 .leaf .leaf)))))) (.ref (.cut 0 (.ref (.cut 1 (.cut 2 (.cut 3 .leaf .leaf) (.ref (.cut 3 .leaf .leaf))) (.ref (.cut 2 (.cut 3 .leaf .leaf) (.cut 3 .leaf .leaf))))) (.cut 1 (.ref (.cut 2 (.cut 3 .leaf .leaf) (.ref (.cut 3 .leaf .leaf)))) (.ref (.cut 2 (.ref (.cut 3 .leaf .leaf)) (.cut 3 .leaf .leaf))))))))
theorem h240 : check par t240 [28672, 28672, 28672, 24576] [4096, 4096, 4096, 8192] st = true := by decide +kernel
def t241 : Tree := (.ref (.cut 0 (.ref (.cut 1 (.ref (.cut 2 .out (.ref (.cut 3 (.cut 0 (.cut 1 .out (.ref (.cut 2 .out .out))) (.cut 1 .out (.cut 2 .out .out))) .out)))) (.ref (.cut 2 .out (.ref (.cut 3 (.cut 0 .out (.cut 1 (.cut 2 .out (.cut 3 (.cut 0 .out (.cut 1 .out .out)) .out)) .out)) .out)))))) (.cut 1 (.ref (.cut 2 .out (.ref (.cut 3 (.cut 0 (.ref (.cut 1 .out (.cut 2 .out .out))) (.cut 1 .out (.cut 2 .out .out))) .out)))) (.cut 2 .out (.cut 3 (.ref (.cut 0 (.ref (.cut 1 (.cut 2 .out (.cut 3 (.cut 0 (.cut 1 .out (.ref (.cut 2 .out .out))) (.cut 1 .out (.cut 2 .out .out))) .out)) (.cut 2 .out (.ref (.cut 3 (.cut 0 .out (.cut 1 (.cut 2 .out (.cut 3 .leaf .out)) .out)) .out))))) (.cut 1 (.cut 2 .out (.ref (.cut 3 (.cut 0 (.ref (.cut 1 .out (.cut 2 .out .out))) (.ref (.cut 1 .out (.cut 2 .out .out)))) .out))) (.cut 2 .out (.ref (.cut 3 (.cut 0 (.cut 1 (.cut 2 .out (.cut 3 .leaf .out)) (.cut 2 .out (.ref (.cut 3 .leaf .out)))) (.cut 1 (.cut 2 .out (.ref (.cut 3 .leaf .out))) (.cut 2 .out (.cut 3 .leaf .out)))) .out)))))) .out)))))
theorem h241 : check par t241 [16384, 16384, 16384, 49152] [16384, 16384, 16384, 16384] st = true := by decide +kernel
def t242 : Tree := (.ref (.cut 3 (.ref (.cut 0 (.ref (.cut 1 .out (.ref (.cut 2 (.cut 3 (.cut 0 .out (.cut 1 .out .out)) (.ref (.cut 0 .out (.cut 1 .out .out)))) .out)))) (.ref (.cut 1 .out (.cut 2 (.ref (.cut 3 (.ref (.cut 0 (.ref (.cut 1 .out (.cut 2 (.cut 3 (.cut 0 .out (.cut 1 .out .out)) (.cut 0 .out (.cut 1 .out .out))) .out))) (.cut 1 .out (.ref (.cut 2 (.cut 3 (.cut 0 .leaf .leaf) (.cut 0 (.ref (.cut 1 .out (.cut 2 .leaf .out))) (.cut 1 .out (.ref (.cut 2 .leaf .out))))) .out))))) (.ref (.cut 0 (.ref (.cut 1 .out (.ref (.cut 2 (.cut 3 (.cut 0 .out (.cut 1 .out .out)) (.ref (.cut 0 .out (.cut 1 .out .out)))) .out)))) (.cut 1 .out (.cut 2 (.cut 3 (.ref (.cut 0 (.ref (.cut 1 .out (.cut 2 (.cut 3 .leaf .leaf) .out))) (.ref (.cut 1 .out (.cut 2 (.cut 3 .leaf .leaf) .out))))) (.ref (.cut 0 (.cut 1 .out (.ref (.cut 2 (.cut 3 .leaf .leaf) .out))) (.cut 1 .out (.cut 2 (.cut 3 .leaf .leaf) .out))))) .out)))))) .out))))) (.ref (.cut 0 (.ref (.cut 1 .out (.ref (.cut 2 (.ref (.cut 3 (.cut 0 .out (.cut 1 .out .out)) (.cut 0 .out (.cut 1 .out .out)))) .out)))) (.ref (.cut 1 .out (.ref (.cut 2 (.ref (.cut 3 (.cut 0 (.ref (.cut 1 .out (.cut 2 (.cut 3 (.cut 0 .out (.cut 1 .out .out)) (.ref (.cut 0 .out (.cut 1 .out .out)))) .out))) (.ref (.cut 1 .out (.cut 2 (.cut 3 (.cut 0 (.cut 1 .out (.cut 2 (.cut 3 .leaf .leaf) .out)) (.cut 1 .out (.cut 2 (.cut 3 .leaf .leaf) .out))) (.cut 0 (.cut 1 .out (.ref (.cut 2 .out .out))) (.cut 1 .out (.cut 2 .out .out)))) .out)))) (.ref (.cut 0 (.cut 1 .out (.cut 2 .out .out)) (.cut 1 .out (.cut 2 .out .out)))))) .out))))))))
theorem h242 : check par t242 [16384, 16384, 49152, 32768] [16384, 16384, 16384, 32768] st = true := by decide +kernel
def t243 : Tree := (.ref (.cut 2 (.ref (.cut 3 (.ref (.cut 0 .out (.ref (.cut 1 (.cut 2 (.ref (.cut 3 (.cut 0 .out (.cut 1 (.cut 2 (.cut 3 (.cut 0 .out .leaf) (.ref (.cut 0 .out .leaf))) (.cut 3 (.ref (.cut 0 .out .leaf)) (.cut 0 .out (.cut 1 .leaf .out)))) .out)) (.ref (.cut 0 .out (.cut 1 (.cut 2 .out (.cut 3 (.ref (.cut 0 .out (.cut 1 .leaf .out))) .out)) .out))))) (.cut 3 (.ref (.cut 0 .out (.cut 1 (.cut 2 (.cut 3 (.cut 0 .out (.cut 1 .leaf .out)) (.cut 0 .out (.cut 1 (.cut 2 .leaf .leaf) .out))) (.cut 3 (.cut 0 .out .leaf) (.cut 0 .out (.cut 1 (.cut 2 .leaf .leaf) .out)))) .out))) (.cut 0 .out (.cut 1 (.cut 2 (.ref (.cut 3 (.cut 0 .out (.cut 1 (.cut 2 .leaf (.cut 3 .leaf .leaf)) .out)) (.ref (.cut 0 .out (.ref (.cut 1 (.ref (.cut 2 .out (.cut 3 .leaf .out))) .out)))))) (.cut 3 (.ref (.cut 0 .out (.ref (.cut 1 (.ref (.cut 2 (.cut 3 .leaf .leaf) (.cut 3 .leaf .leaf))) .out)))) (.ref (.cut 0 .out (.cut 1 (.cut 2 (.ref (.cut 3 .leaf .leaf)) (.cut 3 .leaf .leaf)) .out))))) .out)))) .out)))) (.ref (.cut 0 .out (.ref (.cut 1 (.ref (.cut 2 .out (.cut 3 (.cut 0 .out (.ref (.cut 1 (.ref (.cut 2 .out (.cut 3 (.cut 0 .out (.cut 1 (.cut 2 .out (.cut 3 .leaf .out)) .out)) .out))) .out))) .out))) .out)))))) (.ref (.cut 3 (.ref (.cut 0 .out (.ref (.cut 1 (.ref (.cut 2 (.cut 3 (.cut 0 .out (.cut 1 (.ref (.cut 2 (.cut 3 (.cut 0 .out .leaf) (.ref (.cut 0 .out (.cut 1 .leaf .out)))) (.ref (.cut 3 (.cut 0 .out .leaf) (.cut 0 .out .leaf))))) .out)) (.cut 0 .out (.ref (.cut 1 (.ref (.cut 2 (.cut 3 (.cut 0 .out (.cut 1 (.cut 2 (.cut 3 .leaf .leaf) (.ref (.cut 3 .leaf .leaf))) .out)) (.cut 0 .out (.cut 1 (.cut 2 (.cut 3 .leaf .leaf) (.cut 3 .leaf .leaf)) .out))) (.cut 3 (.ref (.cut 0 .out (.cut 1 .out .out))) (.cut 0 .out (.cut 1 .out .out))))) .out)))) (.ref (.cut 3 (.cut 0 .out (.cut 1 .out .out)) (.cut 0 .out (.cut 1 .out .out)))))) .out)))) (.ref (.cut 0 .out (.cut 1 (.cut 2 (.ref (.cut 3 (.ref (.cut 0 .out (.cut 1 (.cut 2 (.ref (.cut 3 (.cut 0 .out (.cut 1 (.cut 2 (.cut 3 .leaf .leaf) (.cut 3 .leaf .out)) .out)) (.ref (.cut 0 .out .out)))) (.cut 3 (.ref (.cut 0 .out .out)) .out)) .out))) (.ref (.cut 0 .out .out)))) (.ref (.cut 3 (.cut 0 .out .out) .out))) .out)))))))
theorem h243 : check par t243 [16384, 49152, 32768, 32768] [16384, 16384, 32768, 32768] st = true := by decide +kernel
def t244 : Tree := (.ref (.cut 3 (.cut 0 (.cut 1 (.ref (.cut 2 (.cut 3 (.cut 0 .leaf .leaf) (.ref (.cut 0 .leaf .leaf))) (.cut 3 (.ref (.cut 0 .leaf .leaf)) (.cut 0 .leaf .leaf)))) (.cut 2 (.ref (.cut 3 (.ref (.cut 0 .leaf .leaf)) (.ref (.cut 0 .leaf .leaf)))) (.ref (.cut 3 (.ref (.cut 0 .leaf .leaf)) (.cut 0 .leaf .leaf))))) (.cut 1 (.ref (.cut 2 (.cut 3 (.cut 0 .leaf .leaf) (.ref (.cut 0 .leaf .leaf))) (.cut 3 (.ref (.cut 0 .leaf .leaf)) (.cut 0 .leaf .leaf)))) (.cut 2 (.ref (.cut 3 (.cut 0 .leaf .leaf) (.ref (.cut 0 .leaf .leaf)))) (.ref (.cut 3 (.cut 0 .leaf .leaf) (.cut 0 .leaf .leaf)))))) (.ref (.cut 0 (.cut 1 (.cut 2 .out (.cut 3 (.cut 0 .leaf .leaf) .out)) (.cut 2 .out (.cut 3 (.cut 0 .leaf .leaf) .out))) (.cut 1 (.cut 2 .out (.cut 3 (.ref (.cut 0 .leaf .leaf)) .out)) (.cut 2 .out (.cut 3 (.cut 0 .leaf .leaf) .out)))))))
theorem h244 : check par t244 [36864, 4096, 4096, 8192] [4096, 4096, 4096, 8192] st = true := by decide +kernel
def t245 : Tree := (.ref (.cut 3 (.cut 0 (.cut 1 .out (.cut 2 (.cut 3 (.ref (.cut 0 .leaf .leaf)) (.cut 0 .leaf .leaf)) .out)) (.cut 1 .out (.cut 2 (.cut 3 (.ref (.cut 0 .leaf .leaf)) (.cut 0 .leaf .leaf)) .out))) (.cut 0 (.cut 1 .out (.cut 2 (.cut 3 (.cut 0 .leaf .leaf) (.ref (.cut 0 .leaf .leaf))) .out)) (.cut 1 .out (.cut 2 (.cut 3 (.cut 0 .leaf .leaf) (.ref (.cut 0 .leaf .leaf))) .out)))))
theorem h245 : check par t245 [36864, 4096, 12288, 8192] [4096, 4096, 4096, 8192] st = true := by decide +kernel
def t246 : Tree := (.ref (.cut 3 (.cut 0 (.cut 1 (.cut 2 (.cut 3 (.ref (.cut 0 .leaf .leaf)) (.ref (.cut 0 .leaf .leaf))) (.cut 3 (.ref (.cut 0 .leaf .leaf)) (.cut 0 .leaf .leaf))) (.cut 2 (.cut 3 (.ref (.cut 0 .leaf .leaf)) (.ref (.cut 0 .leaf .leaf))) (.cut 3 (.ref (.cut 0 .leaf .leaf)) (.cut 0 .leaf .leaf)))) (.cut 1 (.cut 2 (.ref (.cut 3 (.cut 0 .leaf .leaf) (.cut 0 .leaf .leaf))) (.cut 3 (.ref (.cut 0 .leaf .leaf)) (.cut 0 .leaf .leaf))) (.cut 2 (.cut 3 (.ref (.cut 0 .leaf .leaf)) (.ref (.cut 0 .leaf .leaf))) (.cut 3 (.ref (.cut 0 .leaf .leaf)) (.cut 0 .leaf .leaf))))) (.ref (.cut 0 (.cut 1 (.cut 2 .out (.ref (.cut 3 (.cut 0 .leaf .leaf) .out))) (.cut 2 .out (.cut 3 (.cut 0 .leaf .leaf) .out))) (.cut 1 (.cut 2 .out (.ref (.cut 3 (.cut 0 .leaf .leaf) .out))) (.cut 2 .out (.cut 3 (.cut 0 .leaf .leaf) .out)))))))
theorem h246 : check par t246 [36864, 12288, 4096, 8192] [4096, 4096, 4096, 8192] st = true := by decide +kernel
def t247 : Tree := (.ref (.cut 0 (.cut 1 (.cut 2 (.ref (.cut 3 (.cut 0 .leaf .leaf) (.cut 0 .leaf .leaf))) (.ref (.cut 3 (.cut 0 .leaf .leaf) (.cut 0 .leaf .leaf)))) (.cut 2 (.ref (.cut 3 (.cut 0 .leaf .leaf) (.cut 0 .leaf .leaf))) (.cut 3 .leaf (.ref (.cut 0 .leaf .leaf))))) (.cut 1 (.cut 2 (.ref (.cut 3 (.cut 0 .leaf .leaf) (.ref (.cut 0 .leaf .leaf)))) (.ref (.cut 3 .leaf (.ref (.cut 0 .leaf .leaf))))) (.cut 2 (.ref (.cut 3 .leaf (.ref (.cut 0 .leaf .leaf)))) (.cut 3 .leaf .leaf)))))
theorem h247 : check par t247 [36864, 12288, 12288, 4096] [4096, 4096, 4096, 4096] st = true := by decide +kernel
def t248 : Tree := (.ref (.cut 0 (.cut 1 (.ref (.cut 2 (.cut 3 (.cut 0 .leaf .leaf) (.ref (.cut 0 .leaf .leaf))) (.ref (.cut 3 (.cut 0 .leaf .leaf) (.cut 0 .leaf .leaf))))) (.cut 2 (.ref (.cut 3 (.ref (.cut 0 .leaf .leaf)) (.ref (.cut 0 .leaf .leaf)))) (.ref (.cut 3 (.ref (.cut 0 .leaf .leaf)) (.cut 0 .leaf .leaf))))) (.cut 1 (.ref (.cut 2 (.cut 3 (.cut 0 .leaf .leaf) .leaf) (.ref (.cut 3 .leaf .leaf)))) (.cut 2 (.ref (.cut 3 .leaf .leaf)) (.ref (.cut 3 .leaf .leaf))))))
theorem h248 : check par t248 [36864, 12288, 12288, 12288] [4096, 4096, 4096, 4096] st = true := by decide +kernel
def t249 : Tree := (.ref (.cut 1 (.ref (.cut 2 (.cut 3 (.cut 0 (.cut 1 .leaf .leaf) (.cut 1 .leaf .leaf)) (.ref (.cut 0 (.cut 1 (.cut 2 .out .leaf) .leaf) (.cut 1 (.cut 2 .out .leaf) (.cut 2 .out .leaf))))) (.cut 3 (.ref (.cut 0 (.cut 1 .out .leaf) (.cut 1 .out (.cut 2 .leaf .out)))) (.cut 0 .leaf (.cut 1 .out .leaf))))) (.cut 2 (.cut 3 (.ref (.cut 0 (.cut 1 .leaf .leaf) (.cut 1 (.ref (.cut 2 .leaf .leaf)) (.cut 2 .leaf .leaf)))) (.ref (.cut 0 .leaf (.cut 1 .leaf .leaf)))) (.ref (.cut 3 (.cut 0 .leaf (.cut 1 .leaf .leaf)) (.cut 0 .leaf (.cut 1 .leaf .leaf)))))))
theorem h249 : check par t249 [43008, 4096, 4096, 4096] [2048, 4096, 4096, 4096] st = true := by decide +kernel
def t250 : Tree := (.ref (.cut 1 (.ref (.cut 2 (.cut 3 (.cut 0 (.cut 1 .leaf .leaf) .leaf) (.ref (.cut 0 (.cut 1 (.cut 2 .out (.cut 3 .leaf .out)) (.cut 2 .out (.cut 3 .leaf .out))) (.cut 1 (.cut 2 .out (.cut 3 .leaf .out)) (.cut 2 .out (.cut 3 .leaf .out)))))) (.cut 3 (.ref (.cut 0 (.cut 1 .out (.cut 2 .leaf .out)) (.cut 1 .out (.cut 2 .leaf .out)))) (.cut 0 (.cut 1 .out (.cut 2 .leaf .out)) (.cut 1 .out (.cut 2 .leaf .out)))))) (.cut 2 (.cut 3 (.ref (.cut 0 (.cut 1 (.ref (.cut 2 .leaf .leaf)) (.cut 2 (.cut 3 .leaf .leaf) (.cut 3 .leaf .leaf))) (.cut 1 (.ref (.cut 2 (.cut 3 .leaf .leaf) .leaf)) (.cut 2 (.cut 3 (.cut 0 .leaf .leaf) .leaf) (.cut 3 .leaf .leaf))))) (.ref (.cut 0 (.ref (.cut 1 (.cut 2 .out .leaf) .leaf)) (.cut 1 (.ref (.cut 2 .out .leaf)) .leaf)))) (.cut 3 (.ref (.cut 0 (.ref (.cut 1 (.cut 2 .leaf .leaf) .leaf)) (.cut 1 (.ref (.cut 2 .leaf .leaf)) .leaf))) (.ref (.cut 0 (.cut 1 .leaf .leaf) (.cut 1 .leaf .leaf)))))))
theorem h250 : check par t250 [47104, 4096, 4096, 4096] [2048, 4096, 4096, 4096] st = true := by decide +kernel
def t251 : Tree := (.ref (.cut 0 (.cut 1 (.ref (.cut 2 .out (.cut 3 (.cut 0 (.cut 1 .out .leaf) (.cut 1 .out .leaf)) .out))) (.cut 2 .out (.cut 3 (.cut 0 .leaf .leaf) .out))) (.cut 1 (.ref (.cut 2 .out (.cut 3 (.cut 0 (.cut 1 .out (.cut 2 .out .out)) (.cut 1 .out (.cut 2 .out .out))) .out))) (.cut 2 .out (.cut 3 (.ref (.cut 0 (.cut 1 .leaf .leaf) (.cut 1 (.cut 2 .out .leaf) .leaf))) .out)))))
theorem h251 : check par t251 [45056, 4096, 4096, 12288] [4096, 4096, 4096, 4096] st = true := by decide +kernel
def t252 : Tree := (.ref (.cut 3 (.ref (.cut 0 (.cut 1 .out (.cut 2 (.cut 3 (.ref (.cut 0 (.cut 1 .out .leaf) (.cut 1 .out .leaf))) (.cut 0 .leaf .leaf)) .out)) (.cut 1 .out (.cut 2 (.ref (.cut 3 (.cut 0 (.cut 1 .out .leaf) (.cut 1 .out .leaf)) (.cut 0 (.cut 1 .out .leaf) (.cut 1 .out .leaf)))) .out)))) (.ref (.cut 0 (.cut 1 .out (.cut 2 (.cut 3 (.cut 0 .leaf .leaf) (.cut 0 .leaf .leaf)) .out)) (.cut 1 .out (.cut 2 (.cut 3 (.cut 0 .leaf .leaf) (.cut 0 .leaf .leaf)) .out))))))
theorem h252 : check par t252 [45056, 4096, 12288, 8192] [4096, 4096, 4096, 8192] st = true := by decide +kernel
def t253 : Tree := (.ref (.cut 1 (.cut 2 (.ref (.cut 3 (.cut 0 (.cut 1 .leaf .leaf) (.cut 1 (.cut 2 .leaf .leaf) .leaf)) (.cut 0 (.cut 1 .leaf .leaf) (.cut 1 .leaf .leaf)))) (.cut 3 (.ref (.cut 0 (.cut 1 .leaf .leaf) (.cut 1 .leaf .leaf))) (.cut 0 .leaf .leaf))) (.cut 2 (.ref (.cut 3 (.cut 0 .leaf (.cut 1 .leaf .leaf)) (.cut 0 .leaf (.cut 1 .leaf .leaf)))) (.cut 3 (.ref (.cut 0 .leaf (.cut 1 .leaf .leaf))) (.cut 0 .leaf .leaf)))))
theorem h253 : check par t253 [43008, 12288, 4096, 4096] [2048, 4096, 4096, 4096] st = true := by decide +kernel
def t254 : Tree := (.ref (.cut 2 (.cut 3 (.cut 0 (.cut 1 (.cut 2 (.cut 3 (.cut 0 .leaf .leaf) .leaf) (.cut 3 .leaf .leaf)) (.cut 2 (.cut 3 .leaf .leaf) .leaf)) (.cut 1 (.cut 2 (.cut 3 (.cut 0 .leaf (.cut 1 .leaf .leaf)) (.cut 0 .leaf .leaf)) (.cut 3 (.cut 0 .leaf .leaf) (.cut 0 .leaf .leaf))) (.cut 2 (.cut 3 (.cut 0 .leaf (.cut 1 .leaf .leaf)) (.cut 0 .leaf .leaf)) (.cut 3 (.cut 0 .leaf .leaf) (.cut 0 .leaf .leaf))))) (.cut 0 (.cut 1 .leaf .leaf) (.cut 1 (.cut 2 .out .leaf) (.cut 2 .out .leaf)))) (.cut 3 (.cut 0 (.cut 1 .leaf .leaf) (.cut 1 (.cut 2 .leaf .leaf) (.cut 2 .leaf .leaf))) (.cut 0 (.cut 1 .leaf .leaf) (.cut 1 .leaf .leaf)))))
theorem h254 : check par t254 [47104, 10240, 4096, 4096] [2048, 2048, 4096, 4096] st = true := by decide +kernel
def t255 : Tree := (.ref (.cut 2 (.ref (.cut 3 (.cut 0 (.cut 1 .leaf .leaf) (.cut 1 (.cut 2 (.cut 3 (.cut 0 .leaf .leaf) .leaf) (.cut 3 .leaf .leaf)) .leaf)) (.cut 0 (.cut 1 .leaf .leaf) (.cut 1 (.cut 2 .out .leaf) .leaf)))) (.cut 3 (.ref (.cut 0 (.cut 1 .leaf .leaf) (.cut 1 (.cut 2 .leaf .leaf) .leaf))) (.ref (.cut 0 (.cut 1 .leaf .leaf) (.cut 1 .leaf .leaf))))))
theorem h255 : check par t255 [47104, 14336, 4096, 4096] [2048, 2048, 4096, 4096] st = true := by decide +kernel
def t256 : Tree := (.ref (.cut 0 (.cut 1 (.cut 2 .out (.cut 3 (.cut 0 .leaf .leaf) .out)) (.cut 2 .out (.cut 3 (.cut 0 .leaf .leaf) .out))) (.cut 1 (.cut 2 .out (.cut 3 (.cut 0 .leaf .leaf) .out)) (.cut 2 .out (.cut 3 (.cut 0 .leaf .leaf) .out)))))
theorem h256 : check par t256 [45056, 12288, 4096, 12288] [4096, 4096, 4096, 4096] st = true := by decide +kernel
def t257 : Tree := (.ref (.cut 3 (.ref (.cut 0 (.cut 1 (.cut 2 (.ref (.cut 3 (.ref (.cut 0 .leaf .leaf)) (.cut 0 .leaf .leaf))) (.ref (.cut 3 (.ref (.cut 0 .leaf .leaf)) (.ref (.cut 0 .leaf .leaf))))) (.cut 2 (.ref (.cut 3 (.ref (.cut 0 .leaf .leaf)) (.ref (.cut 0 .leaf .leaf)))) (.cut 3 .leaf .leaf))) (.cut 1 (.cut 2 (.ref (.cut 3 (.ref (.cut 0 .leaf .leaf)) (.cut 0 .leaf .leaf))) (.ref (.cut 3 (.ref (.cut 0 .leaf .leaf)) (.ref (.cut 0 .leaf .leaf))))) (.cut 2 (.ref (.cut 3 (.ref (.cut 0 .leaf .leaf)) (.cut 0 .leaf .leaf))) (.cut 3 .leaf .leaf))))) (.ref (.cut 0 (.cut 1 (.ref (.cut 2 (.cut 3 (.cut 0 .leaf .leaf) .leaf) (.ref (.cut 3 .leaf .leaf)))) (.cut 2 (.ref (.cut 3 .leaf .leaf)) (.cut 3 .leaf .leaf))) (.cut 1 (.ref (.cut 2 (.cut 3 (.cut 0 .leaf .leaf) (.ref (.cut 0 .leaf .leaf))) (.ref (.cut 3 (.cut 0 .leaf .leaf) .leaf)))) (.cut 2 (.ref (.cut 3 (.cut 0 .leaf .leaf) .leaf)) .leaf))))))
theorem h257 : check par t257 [45056, 12288, 12288, 8192] [4096, 4096, 4096, 8192] st = true := by decide +kernel
def t258 : Tree := (.ref (.cut 0 (.cut 1 (.ref (.cut 2 .out (.cut 3 (.cut 0 (.cut 1 .out (.cut 2 .out .out)) (.cut 1 .out (.cut 2 .out .out))) .out))) (.cut 2 .out (.ref (.cut 3 (.cut 0 (.cut 1 (.cut 2 .out (.cut 3 (.cut 0 .leaf .leaf) .out)) (.cut 2 .out (.cut 3 (.cut 0 .leaf .leaf) .out))) (.cut 1 (.cut 2 .out (.cut 3 .leaf .out)) (.cut 2 .out (.cut 3 .leaf .out)))) .out)))) (.cut 1 (.ref (.cut 2 .out (.cut 3 (.cut 0 (.cut 1 .out (.cut 2 .out .out)) (.cut 1 .out (.cut 2 .out .out))) .out))) (.cut 2 .out (.cut 3 (.cut 0 (.ref (.cut 1 (.cut 2 .out (.cut 3 .leaf .out)) (.cut 2 .out .leaf))) (.cut 1 (.ref (.cut 2 .out (.cut 3 .leaf .out))) (.ref (.cut 2 .out .leaf)))) .out)))))
theorem h258 : check par t258 [40960, 8192, 8192, 24576] [8192, 8192, 8192, 8192] st = true := by decide +kernel
def t259 : Tree := (.ref (.cut 3 (.ref (.cut 0 (.cut 1 .out (.cut 2 (.cut 3 (.cut 0 (.ref (.cut 1 .out (.cut 2 (.cut 3 .leaf .leaf) .out))) (.cut 1 .out (.cut 2 .leaf .out))) (.ref (.cut 0 (.cut 1 .out (.cut 2 (.ref (.cut 3 (.cut 0 .leaf .leaf) (.cut 0 .leaf .leaf))) .out)) (.cut 1 .out (.cut 2 (.ref (.cut 3 .leaf .leaf)) .out))))) .out)) (.cut 1 .out (.cut 2 (.cut 3 (.cut 0 (.cut 1 .out (.cut 2 .leaf .out)) (.cut 1 .out (.cut 2 .leaf .out))) (.cut 0 (.ref (.cut 1 .out (.cut 2 .leaf .out))) (.cut 1 .out (.ref (.cut 2 .leaf .out))))) .out)))) (.cut 0 (.ref (.cut 1 .out (.cut 2 (.ref (.cut 3 (.cut 0 (.cut 1 .out (.cut 2 (.cut 3 (.cut 0 .leaf .leaf) .leaf) .out)) (.cut 1 .out (.cut 2 (.cut 3 .leaf .leaf) .out))) (.cut 0 (.cut 1 .out (.cut 2 .out .out)) (.cut 1 .out (.cut 2 .out .out))))) .out))) (.cut 1 .out (.ref (.cut 2 (.ref (.cut 3 (.cut 0 (.cut 1 .out (.cut 2 .leaf .out)) (.cut 1 .out .leaf)) (.cut 0 (.cut 1 .out .leaf) .leaf))) .out))))))
theorem h259 : check par t259 [40960, 8192, 24576, 16384] [8192, 8192, 8192, 16384] st = true := by decide +kernel
def t260 : Tree := (.ref (.cut 2 (.cut 3 (.cut 0 (.cut 1 (.ref (.cut 2 (.cut 3 .leaf .leaf) (.cut 3 .leaf .leaf))) (.cut 2 .leaf .leaf)) (.cut 1 (.ref (.cut 2 (.cut 3 .leaf .leaf) (.cut 3 .leaf .leaf))) (.cut 2 .leaf .leaf))) (.ref (.cut 0 (.cut 1 (.cut 2 .out (.cut 3 .leaf .out)) (.cut 2 .out .leaf)) (.cut 1 (.cut 2 .out (.cut 3 .leaf .out)) (.cut 2 .out .leaf))))) (.cut 3 (.ref (.cut 0 (.cut 1 (.cut 2 (.cut 3 .leaf .leaf) (.cut 3 .leaf .leaf)) (.cut 2 .leaf .leaf)) (.cut 1 (.cut 2 (.cut 3 .leaf .leaf) (.cut 3 .leaf .leaf)) (.cut 2 .leaf .leaf)))) (.cut 0 (.cut 1 (.ref (.cut 2 (.cut 3 (.cut 0 .leaf .leaf) (.ref (.cut 0 .leaf .leaf))) (.cut 3 (.ref (.cut 0 .leaf .leaf)) (.ref (.cut 0 .leaf .leaf))))) (.cut 2 (.ref (.cut 3 .leaf .leaf)) (.cut 3 .leaf .leaf))) (.cut 1 (.ref (.cut 2 (.cut 3 .leaf .leaf) (.cut 3 .leaf .leaf))) (.cut 2 .leaf .leaf))))))
theorem h260 : check par t260 [36864, 20480, 8192, 8192] [4096, 4096, 8192, 8192] st = true := by decide +kernel
def t261 : Tree := (.ref (.cut 2 (.cut 3 (.cut 0 (.cut 1 .leaf .leaf) (.cut 1 .leaf .leaf)) (.ref (.cut 0 (.cut 1 .leaf .leaf) (.cut 1 .leaf .leaf)))) (.cut 3 (.ref (.cut 0 (.cut 1 (.cut 2 .leaf .leaf) .leaf) (.cut 1 .leaf .leaf))) (.cut 0 (.cut 1 (.cut 2 .leaf (.cut 3 .leaf .leaf)) (.cut 2 .leaf .leaf)) (.cut 1 (.cut 2 .leaf .leaf) .leaf)))))
theorem h261 : check par t261 [36864, 28672, 8192, 8192] [4096, 4096, 8192, 8192] st = true := by decide +kernel
def t262 : Tree := (.ref (.cut 2 (.cut 3 (.cut 0 (.cut 1 (.ref (.cut 2 (.cut 3 .leaf .leaf) (.cut 3 .leaf .leaf))) (.cut 2 .leaf .leaf)) (.cut 1 (.ref (.cut 2 (.ref (.cut 3 (.cut 0 .leaf (.cut 1 .leaf .leaf)) (.cut 0 .leaf (.cut 1 .leaf .leaf)))) (.cut 3 (.ref (.cut 0 .leaf (.cut 1 .leaf .leaf))) (.cut 0 .leaf .leaf)))) (.cut 2 (.ref (.cut 3 .leaf .leaf)) (.cut 3 .leaf .leaf)))) (.ref (.cut 0 (.cut 1 (.cut 2 .out (.cut 3 .leaf .out)) (.cut 2 .out .leaf)) (.cut 1 (.cut 2 .out (.cut 3 (.cut 0 .leaf .leaf) .out)) (.cut 2 .out (.cut 3 .leaf .out)))))) (.cut 3 (.ref (.cut 0 (.cut 1 (.cut 2 (.cut 3 .leaf .leaf) .leaf) (.cut 2 .leaf .leaf)) (.cut 1 (.cut 2 (.cut 3 (.cut 0 .leaf .leaf) (.ref (.cut 0 .leaf .leaf))) (.cut 3 .leaf .leaf)) (.cut 2 (.cut 3 .leaf .leaf) .leaf)))) (.cut 0 (.cut 1 (.ref (.cut 2 .leaf .leaf)) (.cut 2 .leaf .leaf)) (.cut 1 (.ref (.cut 2 (.cut 3 .leaf .leaf) .leaf)) (.cut 2 .leaf .leaf))))))
theorem h262 : check par t262 [45056, 20480, 8192, 8192] [4096, 4096, 8192, 8192] st = true := by decide +kernel
def t263 : Tree := (.ref (.cut 2 (.cut 3 (.cut 0 (.cut 1 .leaf .leaf) (.cut 1 (.cut 2 .leaf .leaf) (.cut 2 .leaf .leaf))) (.ref (.cut 0 (.cut 1 .leaf .leaf) (.cut 1 (.cut 2 .out .leaf) .leaf)))) (.cut 3 (.ref (.cut 0 (.cut 1 .leaf .leaf) (.cut 1 (.cut 2 .leaf .leaf) .leaf))) (.cut 0 (.cut 1 (.cut 2 .leaf .leaf) .leaf) (.cut 1 .leaf .leaf)))))
theorem h263 : check par t263 [45056, 28672, 8192, 8192] [4096, 4096, 8192, 8192] st = true := by decide +kernel
def t264 : Tree := (.ref (.cut 0 (.cut 1 (.ref (.cut 2 .out (.cut 3 (.cut 0 (.cut 1 (.ref (.cut 2 .out (.cut 3 (.cut 0 .leaf .leaf) .out))) (.cut 2 .out (.cut 3 .leaf .out))) (.cut 1 (.cut 2 .out (.ref (.cut 3 .leaf .out))) (.cut 2 .out .leaf))) .out))) (.cut 2 .out (.cut 3 (.ref (.cut 0 (.cut 1 (.cut 2 .out .leaf) (.cut 2 .out .leaf)) (.cut 1 (.cut 2 .out .leaf) .leaf))) .out))) (.cut 1 (.ref (.cut 2 .out (.cut 3 (.cut 0 (.cut 1 (.cut 2 .out .leaf) (.cut 2 .out .leaf)) (.cut 1 (.cut 2 .out .leaf) .leaf)) .out))) (.cut 2 .out (.cut 3 (.cut 0 (.ref (.cut 1 .leaf .leaf)) (.ref (.cut 1 .leaf .leaf))) .out)))))
theorem h264 : check par t264 [40960, 24576, 8192, 24576] [8192, 8192, 8192, 8192] st = true := by decide +kernel
def t265 : Tree := (.ref (.cut 2 (.cut 3 (.cut 0 (.cut 1 (.cut 2 (.cut 3 .leaf .leaf) .leaf) (.cut 2 .leaf .leaf)) (.cut 1 (.cut 2 .leaf .leaf) (.cut 2 .leaf .leaf))) (.cut 0 (.cut 1 (.ref (.cut 2 (.cut 3 (.cut 0 .leaf .leaf) (.ref (.cut 0 .leaf .leaf))) (.ref (.cut 3 .leaf .leaf)))) (.cut 2 (.ref (.cut 3 .leaf .leaf)) (.ref (.cut 3 .leaf .leaf)))) (.cut 1 (.cut 2 (.cut 3 .leaf .leaf) .leaf) (.cut 2 (.ref (.cut 3 .leaf .leaf)) (.cut 3 .leaf .leaf))))) (.ref (.cut 3 (.cut 0 (.ref (.cut 1 .out .leaf)) (.cut 1 .out .leaf)) (.ref (.cut 0 (.cut 1 .out (.cut 2 (.cut 3 .leaf .leaf) .out)) (.cut 1 .out (.cut 2 .leaf .out))))))))
theorem h265 : check par t265 [36864, 20480, 24576, 8192] [4096, 4096, 8192, 8192] st = true := by decide +kernel
def t266 : Tree := (.ref (.cut 2 (.ref (.cut 3 (.cut 0 (.cut 1 (.cut 2 .leaf .leaf) .leaf) (.cut 1 .leaf .leaf)) (.cut 0 (.cut 1 (.cut 2 (.cut 3 .leaf .leaf) (.cut 3 .leaf .leaf)) (.cut 2 .leaf .leaf)) (.cut 1 (.cut 2 .leaf .leaf) (.cut 2 .leaf .leaf))))) (.cut 3 (.cut 0 (.cut 1 .leaf .leaf) .leaf) (.cut 0 (.cut 1 (.cut 2 (.ref (.cut 3 .leaf .leaf)) (.ref (.cut 3 .leaf .leaf))) (.cut 2 (.ref (.cut 3 .leaf .leaf)) .leaf)) (.cut 1 (.cut 2 .leaf .leaf) (.cut 2 .leaf .leaf))))))
theorem h266 : check par t266 [36864, 28672, 24576, 8192] [4096, 4096, 8192, 8192] st = true := by decide +kernel
def t267 : Tree := (.ref (.cut 1 (.cut 2 (.cut 3 (.cut 0 (.cut 1 (.cut 2 .leaf .leaf) .leaf) (.cut 1 (.cut 2 .leaf .leaf) (.cut 2 .leaf .leaf))) (.cut 0 (.cut 1 (.cut 2 .leaf .leaf) (.cut 2 .leaf .leaf)) (.cut 1 (.cut 2 .leaf .leaf) .leaf))) (.ref (.cut 3 (.cut 0 (.cut 1 .out .leaf) (.cut 1 .out .leaf)) (.cut 0 (.cut 1 .out (.cut 2 .leaf .out)) (.cut 1 .out .leaf))))) (.cut 2 (.ref (.cut 3 (.cut 0 (.cut 1 .leaf .leaf) (.cut 1 .leaf .leaf)) (.cut 0 (.cut 1 .leaf .leaf) (.cut 1 .leaf .leaf)))) (.cut 3 (.cut 0 .leaf .leaf) (.cut 0 (.cut 1 (.cut 2 .leaf .leaf) .leaf) (.cut 1 .leaf .leaf))))))
theorem h267 : check par t267 [45056, 24576, 24576, 8192] [4096, 8192, 8192, 8192] st = true := by decide +kernel
def t268 : Tree := (.ref (.cut 2 (.cut 3 (.cut 0 (.ref (.cut 1 (.ref (.cut 2 (.cut 3 .leaf (.ref (.cut 0 .leaf .leaf))) (.ref (.cut 3 (.cut 0 .leaf .leaf) (.cut 0 .leaf .leaf))))) (.ref (.cut 2 (.ref (.cut 3 (.cut 0 .leaf .leaf) (.cut 0 .leaf .leaf))) (.cut 3 (.ref (.cut 0 .leaf .leaf)) .leaf))))) (.cut 1 (.ref (.cut 2 .leaf .leaf)) (.cut 2 .leaf .leaf))) (.ref (.cut 0 (.cut 1 (.cut 2 .out (.cut 3 (.cut 0 .leaf .leaf) .out)) (.cut 2 .out (.cut 3 (.cut 0 .leaf .leaf) .out))) (.cut 1 (.cut 2 .out .leaf) (.cut 2 .out (.cut 3 .leaf .out)))))) (.ref (.cut 3 (.cut 0 (.cut 1 .out (.cut 2 (.cut 3 (.ref (.cut 0 .leaf .leaf)) (.ref (.cut 0 .leaf .leaf))) .out)) (.cut 1 .out (.cut 2 (.cut 3 .leaf .leaf) .out))) (.ref (.cut 0 (.cut 1 .out (.cut 2 (.cut 3 .leaf .leaf) .out)) (.cut 1 .out (.cut 2 (.cut 3 .leaf .leaf) .out))))))))
theorem h268 : check par t268 [36864, 20480, 24576, 24576] [4096, 4096, 8192, 8192] st = true := by decide +kernel
def t269 : Tree := (.ref (.cut 3 (.cut 0 (.cut 1 (.cut 2 (.ref (.cut 3 .leaf (.ref (.cut 0 .leaf .leaf)))) (.ref (.cut 3 (.cut 0 .leaf .leaf) (.ref (.cut 0 .leaf .leaf))))) (.cut 2 .leaf (.ref (.cut 3 .leaf .leaf)))) (.cut 1 (.ref (.cut 2 .leaf (.cut 3 .leaf .leaf))) (.cut 2 .leaf (.ref (.cut 3 .leaf .leaf))))) (.ref (.cut 0 (.cut 1 (.ref (.cut 2 .out (.cut 3 .leaf .out))) (.ref (.cut 2 .out (.cut 3 .leaf .out)))) (.cut 1 (.ref (.cut 2 .out (.cut 3 .leaf .out))) (.cut 2 .out .leaf))))))
theorem h269 : check par t269 [36864, 28672, 20480, 24576] [4096, 4096, 4096, 8192] st = true := by decide +kernel
end FastNoise.RangeCheck.OuterSimplex4
