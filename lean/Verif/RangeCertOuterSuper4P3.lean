import Verif.RangeCertOuterSuper4
/-! Generated by tools/rangecert/gen.py: a certificate for the checker `Verif.RangeCheck`. -/
namespace FastNoise.RangeCheck.OuterSuper4
set_option maxRecDepth 1000000
def t83 : Tree := (.ref (.cut 2 (.cut 3 (.cut 0 (.cut 1 .leaf (.cut 2 .leaf .leaf)) (.cut 1 .leaf .leaf)) (.ref (.cut 0 (.cut 1 .leaf (.cut 2 .out (.cut 3 .leaf .out))) (.cut 1 .leaf .leaf)))) (.cut 3 (.ref (.cut 0 (.cut 1 .leaf (.cut 2 .leaf .leaf)) (.cut 1 .leaf .leaf))) (.cut 0 (.cut 1 .leaf (.cut 2 .leaf .leaf)) (.ref (.cut 1 .leaf .leaf))))))
theorem h83 : check par t83 [47104, 10240, 4096, 4096] [2048, 2048, 4096, 4096] st = true := by decide +kernel
def t84 : Tree := (.ref (.cut 2 (.cut 3 (.ref (.cut 0 (.cut 1 (.cut 2 .leaf (.cut 3 .leaf .leaf)) (.ref (.cut 2 .leaf (.cut 3 .leaf .leaf)))) (.cut 1 .leaf (.cut 2 .leaf .leaf)))) (.ref (.cut 0 (.ref (.cut 1 (.ref (.cut 2 .out (.cut 3 .leaf .out))) (.cut 2 .out (.cut 3 .leaf .out)))) (.cut 1 (.ref (.cut 2 .out .leaf)) (.ref (.cut 2 .out .leaf)))))) (.ref (.cut 3 (.ref (.cut 0 (.ref (.cut 1 (.ref (.cut 2 (.cut 3 .leaf .leaf) (.cut 3 .leaf .leaf))) (.cut 2 (.cut 3 .leaf .leaf) (.ref (.cut 3 .leaf .leaf))))) (.cut 1 (.ref (.cut 2 .leaf .leaf)) (.ref (.cut 2 .leaf .leaf))))) (.cut 0 (.cut 1 (.cut 2 (.ref (.cut 3 .leaf .leaf)) .leaf) (.cut 2 (.cut 3 .leaf .leaf) .leaf)) (.cut 1 .leaf (.cut 2 .leaf .leaf)))))))
theorem h84 : check par t84 [47104, 14336, 4096, 4096] [2048, 2048, 4096, 4096] st = true := by decide +kernel
def t85 : Tree := (.ref (.cut 0 (.ref (.cut 1 (.ref (.cut 2 .out (.cut 3 (.ref (.cut 0 (.cut 1 (.cut 2 .out (.cut 3 .leaf .out)) (.cut 2 .out (.cut 3 (.ref (.cut 0 .leaf .leaf)) .out))) (.cut 1 (.cut 2 .out (.ref (.cut 3 .leaf .out))) (.cut 2 .out (.cut 3 .leaf .out))))) .out))) (.ref (.cut 2 .out (.cut 3 (.ref (.cut 0 (.cut 1 (.ref (.cut 2 .out (.cut 3 (.cut 0 .leaf .leaf) .out))) (.cut 2 .out (.cut 3 (.cut 0 .leaf .leaf) .out))) (.cut 1 (.ref (.cut 2 .out (.cut 3 .leaf .out))) (.cut 2 .out (.cut 3 .leaf .out))))) .out))))) (.ref (.cut 1 (.ref (.cut 2 .out (.cut 3 (.ref (.cut 0 (.cut 1 (.cut 2 .out .leaf) .leaf) .leaf)) .out))) (.ref (.cut 2 .out (.cut 3 (.ref (.cut 0 (.cut 1 (.ref (.cut 2 .out .leaf)) (.cut 2 .out .leaf)) (.cut 1 .leaf (.cut 2 .out .leaf)))) .out)))))))
theorem h85 : check par t85 [45056, 12288, 4096, 12288] [4096, 4096, 4096, 4096] st = true := by decide +kernel
def t86 : Tree := (.ref (.cut 2 (.ref (.cut 3 (.ref (.cut 0 (.cut 1 (.cut 2 (.cut 3 .leaf .leaf) (.ref (.cut 3 .leaf .leaf))) (.cut 2 (.ref (.cut 3 .leaf .leaf)) .leaf)) (.cut 1 (.cut 2 .leaf .leaf) (.cut 2 .leaf .leaf)))) (.cut 0 (.cut 1 (.cut 2 (.cut 3 .leaf .leaf) (.ref (.cut 3 (.cut 0 .leaf .leaf) (.cut 0 .leaf .leaf)))) (.cut 2 (.ref (.cut 3 (.cut 0 .leaf .leaf) (.cut 0 .leaf .leaf))) (.cut 3 .leaf .leaf))) (.cut 1 (.cut 2 .leaf (.ref (.cut 3 .leaf .leaf))) (.cut 2 (.ref (.cut 3 .leaf .leaf)) .leaf))))) (.ref (.cut 3 (.ref (.cut 0 (.cut 1 .out (.cut 2 .leaf .out)) (.cut 1 .out (.cut 2 .leaf .out)))) (.cut 0 (.cut 1 .out (.ref (.cut 2 (.cut 3 .leaf .leaf) .out))) (.cut 1 .out (.ref (.cut 2 .leaf .out))))))))
theorem h86 : check par t86 [43008, 10240, 12288, 4096] [2048, 2048, 4096, 4096] st = true := by decide +kernel
def t87 : Tree := (.ref (.cut 2 (.ref (.cut 3 (.ref (.cut 0 (.cut 1 (.cut 2 (.cut 3 .leaf .leaf) .leaf) (.cut 2 (.cut 3 .leaf .leaf) .leaf)) (.cut 1 (.cut 2 .leaf .leaf) (.cut 2 .leaf .leaf)))) (.cut 0 (.cut 1 (.ref (.cut 2 (.cut 3 (.ref (.cut 0 .leaf .leaf)) (.cut 0 .leaf .leaf)) (.cut 3 .leaf .leaf))) (.cut 2 (.cut 3 .leaf (.cut 0 .leaf .leaf)) (.ref (.cut 3 .leaf .leaf)))) (.cut 1 (.ref (.cut 2 (.cut 3 .leaf .leaf) .leaf)) (.cut 2 (.cut 3 .leaf .leaf) .leaf))))) (.ref (.cut 3 (.ref (.cut 0 (.cut 1 .leaf .leaf) (.cut 1 .leaf .leaf))) (.cut 0 (.ref (.cut 1 (.cut 2 .leaf .leaf) (.cut 2 .leaf .leaf))) (.cut 1 (.cut 2 .leaf .leaf) (.ref (.cut 2 .leaf .leaf))))))))
theorem h87 : check par t87 [43008, 14336, 12288, 4096] [2048, 2048, 4096, 4096] st = true := by decide +kernel
def t88 : Tree := (.ref (.cut 1 (.ref (.cut 2 (.ref (.cut 3 (.cut 0 (.cut 1 (.cut 2 .leaf .leaf) .leaf) .leaf) (.cut 0 (.cut 1 (.cut 2 .leaf .leaf) .leaf) .leaf))) (.ref (.cut 3 (.ref (.cut 0 (.cut 1 .out .leaf) (.cut 1 .out .leaf))) (.cut 0 (.cut 1 .out (.ref (.cut 2 .leaf .out))) (.cut 1 .out .leaf)))))) (.ref (.cut 2 (.ref (.cut 3 (.ref (.cut 0 (.cut 1 (.cut 2 .leaf .leaf) (.cut 2 .leaf .leaf)) (.cut 1 .leaf .leaf))) (.cut 0 (.cut 1 (.ref (.cut 2 .leaf .leaf)) (.cut 2 .leaf .leaf)) (.cut 1 .leaf (.cut 2 .leaf .leaf))))) (.ref (.cut 3 (.ref (.cut 0 .leaf .leaf)) (.cut 0 (.cut 1 .leaf .leaf) (.cut 1 .leaf .leaf))))))))
theorem h88 : check par t88 [47104, 12288, 12288, 4096] [2048, 4096, 4096, 4096] st = true := by decide +kernel
def t89 : Tree := (.ref (.cut 2 (.ref (.cut 3 (.ref (.cut 0 (.cut 1 (.cut 2 (.ref (.cut 3 .leaf (.ref (.cut 0 .leaf .leaf)))) (.ref (.cut 3 (.ref (.cut 0 .leaf .leaf)) .leaf))) (.ref (.cut 2 (.ref (.cut 3 (.ref (.cut 0 .leaf .leaf)) .leaf)) (.ref (.cut 3 .leaf .leaf))))) (.cut 1 (.cut 2 (.ref (.cut 3 .leaf .leaf)) (.ref (.cut 3 .leaf .leaf))) (.ref (.cut 2 (.ref (.cut 3 .leaf .leaf)) .leaf))))) (.ref (.cut 0 (.cut 1 (.ref (.cut 2 .out (.ref (.cut 3 .leaf .out)))) (.ref (.cut 2 .out (.ref (.cut 3 .leaf .out))))) (.ref (.cut 1 (.cut 2 .out (.ref (.cut 3 .leaf .out))) (.cut 2 .out (.cut 3 .leaf .out)))))))) (.ref (.cut 3 (.ref (.cut 0 (.cut 1 .out (.ref (.cut 2 (.ref (.cut 3 .leaf .leaf)) .out))) (.ref (.cut 1 .out (.cut 2 .leaf .out))))) (.ref (.cut 0 (.cut 1 .out (.ref (.cut 2 (.ref (.cut 3 .leaf .leaf)) .out))) (.cut 1 .out (.ref (.cut 2 .leaf .out)))))))))
theorem h89 : check par t89 [43008, 10240, 12288, 12288] [2048, 2048, 4096, 4096] st = true := by decide +kernel
def t90 : Tree := (.ref (.cut 2 (.ref (.cut 3 (.ref (.cut 0 (.cut 1 (.ref (.cut 2 (.cut 3 .leaf .leaf) (.cut 3 .leaf .leaf))) (.cut 2 (.ref (.cut 3 .leaf .leaf)) (.ref (.cut 3 .leaf .leaf)))) (.ref (.cut 1 (.cut 2 (.cut 3 .leaf .leaf) .leaf) (.cut 2 (.cut 3 .leaf .leaf) .leaf))))) (.ref (.cut 0 (.cut 1 (.ref (.cut 2 .out (.ref (.cut 3 .leaf .out)))) (.ref (.cut 2 .out .leaf))) (.cut 1 (.ref (.cut 2 .out .leaf)) (.ref (.cut 2 .out .leaf))))))) (.ref (.cut 3 (.ref (.cut 0 (.cut 1 (.ref (.cut 2 .leaf .leaf)) (.ref (.cut 2 .leaf .leaf))) (.cut 1 (.ref (.cut 2 .leaf .leaf)) (.ref (.cut 2 .leaf .leaf))))) (.ref (.cut 0 (.cut 1 (.cut 2 (.cut 3 .leaf .leaf) .leaf) (.cut 2 .leaf .leaf)) (.cut 1 (.cut 2 .leaf .leaf) (.cut 2 .leaf .leaf))))))))
theorem h90 : check par t90 [43008, 14336, 12288, 12288] [2048, 2048, 4096, 4096] st = true := by decide +kernel
def t91 : Tree := (.ref (.cut 1 (.ref (.cut 2 (.ref (.cut 3 (.cut 0 (.cut 1 (.ref (.cut 2 .leaf .leaf)) .leaf) .leaf) (.ref (.cut 0 (.cut 1 (.cut 2 .out .leaf) (.cut 2 .out .leaf)) (.cut 1 (.cut 2 .out .leaf) .leaf))))) (.ref (.cut 3 (.ref (.cut 0 (.cut 1 .out (.cut 2 .leaf .out)) (.cut 1 .out .leaf))) (.ref (.cut 0 (.cut 1 .out .leaf) .leaf)))))) (.ref (.cut 2 (.ref (.cut 3 (.ref (.cut 0 (.cut 1 (.cut 2 .leaf .leaf) (.cut 2 .leaf .leaf)) (.cut 1 .leaf .leaf))) (.ref (.cut 0 (.cut 1 .leaf .leaf) .leaf)))) (.ref (.cut 3 (.ref (.cut 0 (.cut 1 .leaf .leaf) .leaf)) (.ref (.cut 0 (.ref (.cut 1 .leaf .leaf)) .leaf))))))))
theorem h91 : check par t91 [47104, 12288, 12288, 12288] [2048, 4096, 4096, 4096] st = true := by decide +kernel
def t92 : Tree := (.ref (.cut 0 (.ref (.cut 1 (.ref (.cut 2 .out (.ref (.cut 3 (.ref (.cut 0 (.ref (.cut 1 .out (.cut 2 .out .out))) (.ref (.cut 1 .out (.cut 2 .out .out))))) .out)))) (.ref (.cut 2 .out (.ref (.cut 3 (.cut 0 (.cut 1 (.ref (.cut 2 .out (.ref (.cut 3 (.cut 0 (.cut 1 .out (.cut 2 .out .out)) (.cut 1 .out (.ref (.cut 2 .out .out)))) .out)))) (.cut 2 .out (.cut 3 (.ref (.cut 0 (.cut 1 (.cut 2 .out .leaf) (.cut 2 .out .leaf)) (.ref (.cut 1 (.cut 2 .out (.ref .leaf)) (.cut 2 .out .leaf))))) .out))) (.cut 1 (.ref (.cut 2 .out (.ref (.cut 3 (.ref (.cut 0 (.cut 1 .out (.cut 2 .out .out)) (.cut 1 .out (.cut 2 .out .out)))) .out)))) (.cut 2 .out (.cut 3 (.ref (.cut 0 (.cut 1 (.ref (.cut 2 .out (.ref (.cut 3 .leaf .out)))) (.cut 2 .out .leaf)) (.cut 1 (.ref (.cut 2 .out .leaf)) (.cut 2 .out .leaf)))) .out)))) .out)))))) (.ref (.cut 1 (.ref (.cut 2 .out (.ref (.cut 3 (.ref (.cut 0 (.ref (.cut 1 .out (.cut 2 .out .out))) (.ref (.cut 1 .out (.ref (.cut 2 .out .out)))))) .out)))) (.ref (.cut 2 .out (.ref (.cut 3 (.cut 0 (.ref (.cut 1 (.ref (.cut 2 .out (.ref (.cut 3 (.ref (.cut 0 (.cut 1 .out (.cut 2 .out .out)) (.cut 1 .out (.cut 2 .out .out)))) .out)))) (.cut 2 .out (.ref (.cut 3 (.cut 0 (.cut 1 (.ref (.cut 2 .out .leaf)) (.cut 2 .out .leaf)) (.cut 1 (.ref (.cut 2 .out .leaf)) .leaf)) .out))))) (.ref (.cut 1 (.ref (.cut 2 .out (.ref (.cut 3 (.ref (.cut 0 (.cut 1 .out .leaf) (.cut 1 .out .leaf))) .out)))) (.ref (.cut 2 .out (.ref (.cut 3 (.cut 0 (.ref (.cut 1 .leaf .leaf)) .leaf) .out))))))) .out))))))))
theorem h92 : check par t92 [40960, 8192, 8192, 24576] [8192, 8192, 8192, 8192] st = true := by decide +kernel
def t93 : Tree := (.ref (.cut 3 (.ref (.cut 0 (.ref (.cut 1 .out (.ref (.cut 2 (.cut 3 (.ref (.cut 0 (.ref (.cut 1 .out (.ref (.cut 2 (.cut 3 (.ref (.cut 0 .leaf .leaf)) (.ref (.cut 0 (.cut 1 .out .leaf) (.cut 1 .out .leaf)))) .out)))) (.ref (.cut 1 .out (.ref (.cut 2 (.ref (.cut 3 (.ref (.cut 0 (.cut 1 .out .leaf) (.cut 1 .out .leaf))) (.cut 0 (.cut 1 .out (.ref (.cut 2 .leaf .out))) (.cut 1 .out (.ref (.cut 2 .leaf .out)))))) .out)))))) (.ref (.cut 0 (.cut 1 .out (.cut 2 (.cut 3 (.ref (.cut 0 (.cut 1 .out (.cut 2 .leaf .out)) (.cut 1 .out (.ref (.cut 2 (.ref (.cut 3 .leaf .leaf)) .out))))) (.ref (.cut 0 (.cut 1 .out (.cut 2 .leaf .out)) (.ref (.cut 1 .out (.cut 2 .leaf .out)))))) .out)) (.cut 1 .out (.cut 2 (.ref (.cut 3 (.ref (.cut 0 (.cut 1 .out (.ref (.cut 2 (.cut 3 .leaf .leaf) .out))) (.cut 1 .out (.ref (.cut 2 .leaf .out))))) (.ref (.cut 0 (.cut 1 .out (.cut 2 .leaf .out)) (.cut 1 .out (.cut 2 .leaf .out)))))) .out))))) .out)))) (.ref (.cut 1 .out (.ref (.cut 2 (.cut 3 (.ref (.cut 0 (.ref (.cut 1 .out (.ref (.cut 2 (.ref (.cut 3 (.ref (.cut 0 (.cut 1 .out .leaf) (.cut 1 .out .leaf))) (.cut 0 (.cut 1 .out (.ref (.cut 2 .leaf .out))) (.cut 1 .out .leaf)))) .out)))) (.ref (.cut 1 .out (.ref (.cut 2 (.cut 3 (.ref (.cut 0 (.cut 1 .out .leaf) .leaf)) (.cut 0 (.cut 1 .out .leaf) (.cut 1 .out .leaf))) .out)))))) (.ref (.cut 0 (.ref (.cut 1 .out (.cut 2 (.ref (.cut 3 (.ref (.cut 0 (.cut 1 .out (.cut 2 .leaf .out)) (.cut 1 .out (.cut 2 .leaf .out)))) (.ref (.cut 0 (.cut 1 .out (.cut 2 .leaf .out)) (.cut 1 .out .leaf))))) .out))) (.ref (.cut 1 .out (.ref (.cut 2 (.cut 3 (.ref (.cut 0 (.cut 1 .out .leaf) (.cut 1 .out .leaf))) (.ref (.cut 0 (.ref (.cut 1 .out .leaf)) .leaf))) .out))))))) .out)))))) (.ref (.cut 0 (.ref (.cut 1 .out (.cut 2 (.ref (.cut 3 (.cut 0 (.cut 1 .out (.cut 2 (.cut 3 (.ref (.cut 0 (.cut 1 .out .leaf) (.cut 1 .out (.ref (.cut 2 .leaf .out))))) (.ref (.cut 0 (.cut 1 .out (.ref (.cut 2 .out .out))) (.cut 1 .out (.ref (.cut 2 .out .out)))))) .out)) (.cut 1 .out (.cut 2 (.ref (.cut 3 (.ref (.cut 0 (.cut 1 .out (.ref (.cut 2 .leaf .out))) (.cut 1 .out (.ref (.cut 2 .leaf .out))))) (.ref (.cut 0 (.ref (.cut 1 .out (.ref (.cut 2 .out .out)))) (.ref (.cut 1 .out (.ref (.cut 2 .out .out)))))))) .out))) (.ref (.cut 0 (.cut 1 .out (.cut 2 .out .out)) (.ref (.cut 1 .out (.cut 2 .out .out))))))) .out))) (.ref (.cut 1 .out (.ref (.cut 2 (.cut 3 (.ref (.cut 0 (.ref (.cut 1 .out (.cut 2 (.cut 3 (.cut 0 (.ref (.cut 1 .out .leaf)) (.ref (.cut 1 .out .leaf))) (.ref (.cut 0 (.cut 1 .out .leaf) (.cut 1 .out .leaf)))) .out))) (.cut 1 .out (.cut 2 (.cut 3 (.ref (.cut 0 .leaf .leaf)) (.ref (.cut 0 (.ref (.cut 1 .out .leaf)) .leaf))) .out)))) (.ref (.cut 0 (.ref (.cut 1 .out (.ref (.cut 2 .out .out)))) (.cut 1 .out (.cut 2 .out .out))))) .out))))))))
theorem h93 : check par t93 [40960, 8192, 24576, 16384] [8192, 8192, 8192, 16384] st = true := by decide +kernel
def t94 : Tree := (.ref (.cut 1 (.cut 2 (.ref (.cut 3 (.ref (.cut 0 .leaf (.cut 1 .leaf .leaf))) (.ref (.cut 0 (.ref (.cut 1 .leaf .leaf)) (.cut 1 .leaf .leaf))))) (.ref (.cut 3 (.ref (.cut 0 (.ref (.cut 1 .leaf .leaf)) (.cut 1 .leaf .leaf))) (.ref (.cut 0 (.cut 1 .leaf .leaf) (.cut 1 (.ref (.cut 2 .leaf .leaf)) .leaf)))))) (.ref (.cut 2 (.cut 3 (.cut 0 .leaf .leaf) (.ref (.cut 0 .leaf .leaf))) (.cut 3 (.ref (.cut 0 .leaf .leaf)) (.ref (.cut 0 .leaf .leaf)))))))
theorem h94 : check par t94 [34816, 20480, 4096, 4096] [2048, 4096, 4096, 4096] st = true := by decide +kernel
def t95 : Tree := (.ref (.cut 1 (.cut 2 (.ref (.cut 3 (.ref (.cut 0 (.cut 1 (.ref (.cut 2 .leaf .leaf)) .leaf) (.ref (.cut 1 (.cut 2 .leaf .leaf) .leaf)))) (.ref (.cut 0 (.cut 1 (.ref (.cut 2 .out .leaf)) .leaf) (.ref (.cut 1 (.cut 2 .out (.cut 3 .leaf .out)) (.cut 2 .out .leaf))))))) (.ref (.cut 3 (.ref (.cut 0 (.cut 1 (.ref (.cut 2 .leaf .leaf)) .leaf) (.ref (.cut 1 (.cut 2 (.ref (.cut 3 .leaf .leaf)) (.ref (.cut 3 .leaf .leaf))) (.cut 2 .leaf .leaf))))) (.cut 0 (.ref (.cut 1 (.ref (.cut 2 .leaf (.cut 3 .leaf .leaf))) .leaf)) (.ref (.cut 1 (.cut 2 (.ref (.cut 3 .leaf .leaf)) (.ref (.cut 3 .leaf .leaf))) (.ref (.cut 2 .leaf .leaf)))))))) (.ref (.cut 2 (.cut 3 (.cut 0 .leaf (.cut 1 .leaf .leaf)) (.ref (.cut 0 .leaf (.cut 1 .leaf .leaf)))) (.cut 3 (.ref (.cut 0 .leaf (.cut 1 .leaf .leaf))) (.ref (.cut 0 (.cut 1 .leaf .leaf) (.cut 1 .leaf .leaf))))))))
theorem h95 : check par t95 [38912, 20480, 4096, 4096] [2048, 4096, 4096, 4096] st = true := by decide +kernel
def t96 : Tree := (.ref (.cut 0 (.ref (.cut 1 (.cut 2 .out (.cut 3 (.cut 0 (.cut 1 .leaf .leaf) (.cut 1 (.ref (.cut 2 .out .leaf)) .leaf)) .out)) (.cut 2 .out (.cut 3 (.cut 0 .leaf .leaf) .out)))) (.ref (.cut 1 (.cut 2 .out (.cut 3 (.ref (.cut 0 (.cut 1 (.cut 2 .out (.cut 3 .leaf .out)) (.cut 2 .out .leaf)) (.cut 1 (.ref (.cut 2 .out (.cut 3 .leaf .out))) (.cut 2 .out .leaf)))) .out)) (.cut 2 .out (.cut 3 (.cut 0 (.cut 1 .leaf .leaf) (.cut 1 .leaf .leaf)) .out))))))
theorem h96 : check par t96 [36864, 20480, 4096, 12288] [4096, 4096, 4096, 4096] st = true := by decide +kernel
def t97 : Tree := (.ref (.cut 1 (.cut 2 (.cut 3 (.ref (.cut 0 (.cut 1 .leaf .leaf) (.cut 1 .leaf .leaf))) (.cut 0 (.cut 1 .leaf .leaf) (.cut 1 (.ref (.cut 2 .leaf .leaf)) .leaf))) (.ref (.cut 3 (.ref (.cut 0 .leaf .leaf)) (.ref (.cut 0 (.cut 1 .leaf .leaf) (.cut 1 (.ref (.cut 2 .leaf .leaf)) .leaf)))))) (.cut 2 (.cut 3 (.ref (.cut 0 .leaf .leaf)) (.cut 0 .leaf .leaf)) (.ref (.cut 3 .leaf (.cut 0 .leaf .leaf))))))
theorem h97 : check par t97 [34816, 20480, 12288, 4096] [2048, 4096, 4096, 4096] st = true := by decide +kernel
def t98 : Tree := (.ref (.cut 1 (.cut 2 (.cut 3 (.ref (.cut 0 (.cut 1 (.ref (.cut 2 .leaf .leaf)) .leaf) (.ref (.cut 1 (.ref (.cut 2 .leaf .leaf)) .leaf)))) (.ref (.cut 0 (.cut 1 (.cut 2 (.cut 3 .leaf .leaf) (.ref (.cut 3 .leaf .leaf))) (.cut 2 .leaf .leaf)) (.cut 1 (.ref (.cut 2 (.cut 3 .leaf .leaf) (.cut 3 .leaf .leaf))) (.cut 2 .leaf .leaf))))) (.ref (.cut 3 (.ref (.cut 0 (.cut 1 .leaf .leaf) (.cut 1 .leaf .leaf))) (.cut 0 (.cut 1 (.ref (.cut 2 .leaf .leaf)) .leaf) (.cut 1 (.ref (.cut 2 .leaf .leaf)) (.cut 2 .leaf .leaf)))))) (.cut 2 (.cut 3 (.ref (.cut 0 .leaf (.cut 1 .leaf .leaf))) (.cut 0 (.cut 1 .leaf .leaf) (.cut 1 .leaf .leaf))) (.ref (.cut 3 (.ref (.cut 0 .leaf .leaf)) (.cut 0 (.cut 1 .leaf .leaf) (.cut 1 .leaf .leaf)))))))
theorem h98 : check par t98 [38912, 20480, 12288, 4096] [2048, 4096, 4096, 4096] st = true := by decide +kernel
def t99 : Tree := (.ref (.cut 1 (.cut 2 (.ref (.cut 3 (.cut 0 (.cut 1 (.cut 2 .leaf .leaf) .leaf) (.cut 1 (.ref (.cut 2 .leaf (.ref (.cut 3 .leaf .leaf)))) (.cut 2 .leaf .leaf))) (.ref (.cut 0 (.cut 1 (.ref (.cut 2 .out .leaf)) .leaf) (.cut 1 (.ref (.cut 2 .out .leaf)) (.cut 2 .out .leaf)))))) (.cut 3 (.ref (.cut 0 (.cut 1 (.ref (.cut 2 .leaf .leaf)) .leaf) (.cut 1 (.ref (.cut 2 (.cut 3 .leaf .leaf) (.ref (.cut 3 .leaf .leaf)))) (.cut 2 .leaf .leaf)))) (.ref (.cut 0 (.cut 1 .leaf (.cut 2 .leaf .leaf)) (.ref (.cut 1 (.cut 2 .leaf .leaf) (.cut 2 .leaf .leaf))))))) (.ref (.cut 2 (.ref (.cut 3 (.ref (.cut 0 (.cut 1 .leaf .leaf) (.cut 1 .leaf .leaf))) (.ref (.cut 0 (.cut 1 .leaf .leaf) (.cut 1 .leaf .leaf))))) (.cut 3 (.ref (.cut 0 (.cut 1 .leaf .leaf) (.cut 1 .leaf .leaf))) (.cut 0 (.ref (.cut 1 .leaf .leaf)) (.cut 1 (.cut 2 .leaf .leaf) .leaf)))))))
theorem h99 : check par t99 [34816, 20480, 12288, 12288] [2048, 4096, 4096, 4096] st = true := by decide +kernel
def t100 : Tree := (.ref (.cut 2 (.ref (.cut 3 (.cut 0 (.cut 1 (.cut 2 .leaf (.ref (.cut 3 .leaf .leaf))) (.cut 2 .leaf .leaf)) (.cut 1 (.cut 2 (.cut 3 .leaf .leaf) (.ref (.cut 3 .leaf .leaf))) (.cut 2 .leaf .leaf))) (.ref (.cut 0 (.cut 1 (.cut 2 .out (.cut 3 .leaf .out)) (.ref (.cut 2 .out .leaf))) (.cut 1 (.cut 2 .out (.cut 3 .leaf .out)) (.ref (.cut 2 .out .leaf))))))) (.ref (.cut 3 (.ref (.cut 0 (.cut 1 (.cut 2 (.cut 3 .leaf .leaf) (.ref (.cut 3 .leaf .leaf))) (.ref (.cut 2 .leaf .leaf))) (.cut 1 (.cut 2 (.cut 3 .leaf .leaf) .leaf) (.ref (.cut 2 .leaf .leaf))))) (.ref (.cut 0 (.cut 1 (.cut 2 .leaf .leaf) (.ref (.cut 2 .leaf .leaf))) (.cut 1 (.cut 2 .leaf .leaf) (.ref (.cut 2 .leaf .leaf)))))))))
theorem h100 : check par t100 [38912, 18432, 12288, 12288] [2048, 2048, 4096, 4096] st = true := by decide +kernel
def t101 : Tree := (.ref (.cut 2 (.cut 3 (.cut 0 (.ref (.cut 1 .leaf .leaf)) (.cut 1 .leaf .leaf)) (.ref (.cut 0 (.cut 1 .leaf .leaf) (.cut 1 .leaf .leaf)))) (.cut 3 (.ref (.cut 0 (.cut 1 .leaf .leaf) (.cut 1 .leaf .leaf))) (.cut 0 (.cut 1 (.ref (.cut 2 .leaf .leaf)) .leaf) (.ref (.cut 1 .leaf .leaf))))))
theorem h101 : check par t101 [38912, 22528, 12288, 12288] [2048, 2048, 4096, 4096] st = true := by decide +kernel
def t102 : Tree := (.ref (.cut 3 (.ref (.cut 0 (.cut 1 (.cut 2 (.cut 3 .leaf .leaf) (.cut 3 .leaf .leaf)) (.cut 2 .leaf .leaf)) (.cut 1 (.cut 2 (.cut 3 .leaf .leaf) (.cut 3 .leaf (.ref (.cut 0 .leaf .leaf)))) (.cut 2 (.cut 3 .leaf .leaf) (.cut 3 .leaf .leaf))))) (.ref (.cut 0 (.cut 1 (.ref (.cut 2 .out (.cut 3 .leaf .out))) (.ref (.cut 2 .out (.ref (.cut 3 .leaf .out))))) (.cut 1 (.cut 2 .out (.ref (.cut 3 (.ref (.cut 0 .leaf .leaf)) .out))) (.cut 2 .out (.ref (.cut 3 .leaf .out))))))))
theorem h102 : check par t102 [36864, 28672, 4096, 8192] [4096, 4096, 4096, 8192] st = true := by decide +kernel
def t103 : Tree := (.ref (.cut 3 (.ref (.cut 0 (.cut 1 (.ref (.cut 2 (.ref (.cut 3 .leaf .leaf)) (.ref (.cut 3 .leaf .leaf)))) (.ref (.cut 2 .leaf (.ref (.cut 3 .leaf .leaf))))) (.cut 1 (.cut 2 (.ref (.cut 3 .leaf (.ref (.cut 0 .leaf .leaf)))) (.ref (.cut 3 .leaf (.cut 0 .leaf .leaf)))) (.cut 2 (.ref (.cut 3 .leaf .leaf)) (.ref (.cut 3 .leaf .leaf)))))) (.ref (.cut 0 (.cut 1 (.cut 2 (.ref (.cut 3 .leaf (.ref (.cut 0 .leaf .leaf)))) (.ref (.cut 3 (.ref (.cut 0 .leaf .leaf)) (.cut 0 .leaf .leaf)))) (.ref (.cut 2 (.cut 3 .leaf .leaf) (.cut 3 .leaf .leaf)))) (.cut 1 (.cut 2 (.ref (.cut 3 (.ref (.cut 0 .leaf .leaf)) (.ref (.cut 0 .leaf .leaf)))) (.ref (.cut 3 (.ref (.cut 0 .leaf .leaf)) (.ref (.cut 0 (.cut 1 .leaf .leaf) .leaf))))) (.ref (.cut 2 (.cut 3 .leaf .leaf) (.cut 3 .leaf .leaf))))))))
theorem h103 : check par t103 [36864, 28672, 12288, 8192] [4096, 4096, 4096, 8192] st = true := by decide +kernel
def t104 : Tree := (.ref (.cut 2 (.ref (.cut 3 (.ref (.cut 0 (.cut 1 (.cut 2 (.cut 3 .leaf .leaf) (.ref (.cut 3 .leaf .leaf))) (.cut 2 .leaf .leaf)) (.cut 1 (.cut 2 (.cut 3 .leaf .leaf) (.ref (.cut 3 .leaf .leaf))) (.cut 2 .leaf .leaf)))) (.ref (.cut 0 (.cut 1 (.cut 2 .out (.cut 3 .leaf .out)) (.cut 2 .out .leaf)) (.cut 1 (.cut 2 .out (.cut 3 .leaf .out)) (.cut 2 .out (.cut 3 .leaf .out))))))) (.ref (.cut 3 (.ref (.cut 0 (.cut 1 (.cut 2 (.cut 3 .leaf .leaf) (.ref (.cut 3 .leaf .leaf))) (.cut 2 .leaf .leaf)) (.cut 1 (.cut 2 (.cut 3 .leaf .leaf) (.ref (.cut 3 .leaf .leaf))) (.cut 2 .leaf .leaf)))) (.cut 0 (.cut 1 (.cut 2 (.ref (.cut 3 .leaf .leaf)) (.cut 3 .leaf .leaf)) (.ref (.cut 2 .leaf .leaf))) (.cut 1 (.cut 2 (.ref (.cut 3 .leaf .leaf)) (.cut 3 .leaf .leaf)) (.cut 2 .leaf .leaf)))))))
theorem h104 : check par t104 [43008, 18432, 4096, 4096] [2048, 2048, 4096, 4096] st = true := by decide +kernel
def t105 : Tree := (.ref (.cut 2 (.ref (.cut 3 (.ref (.cut 0 (.cut 1 .leaf .leaf) (.ref (.cut 1 .leaf .leaf)))) (.ref (.cut 0 (.ref (.cut 1 .leaf .leaf)) (.ref (.cut 1 (.cut 2 .out .leaf) .leaf)))))) (.ref (.cut 3 (.ref (.cut 0 (.ref (.cut 1 .leaf .leaf)) (.ref (.cut 1 (.cut 2 .leaf .leaf) .leaf)))) (.ref (.cut 0 (.cut 1 .leaf .leaf) (.ref (.cut 1 .leaf .leaf))))))))
theorem h105 : check par t105 [43008, 22528, 4096, 4096] [2048, 2048, 4096, 4096] st = true := by decide +kernel
def t106 : Tree := (.ref (.cut 2 (.ref (.cut 3 (.ref (.cut 0 (.cut 1 (.cut 2 (.cut 3 .leaf .leaf) (.ref (.cut 3 .leaf .leaf))) (.cut 2 (.cut 3 .leaf .leaf) (.cut 3 .leaf .leaf))) (.cut 1 (.cut 2 .leaf .leaf) (.cut 2 .leaf .leaf)))) (.ref (.cut 0 (.cut 1 (.ref (.cut 2 .out (.cut 3 .leaf .out))) (.cut 2 .out (.cut 3 .leaf .out))) (.ref (.cut 1 (.cut 2 .out .leaf) (.cut 2 .out .leaf))))))) (.ref (.cut 3 (.ref (.cut 0 (.cut 1 (.ref (.cut 2 (.cut 3 .leaf .leaf) .leaf)) (.cut 2 .leaf .leaf)) (.ref (.cut 1 (.cut 2 .leaf .leaf) (.cut 2 .leaf .leaf))))) (.cut 0 (.cut 1 (.cut 2 .leaf .leaf) (.cut 2 .leaf .leaf)) (.cut 1 (.cut 2 .leaf .leaf) (.cut 2 .leaf .leaf)))))))
theorem h106 : check par t106 [47104, 18432, 4096, 4096] [2048, 2048, 4096, 4096] st = true := by decide +kernel
def t107 : Tree := (.ref (.cut 2 (.ref (.cut 3 (.ref (.cut 0 (.cut 1 (.cut 2 .leaf .leaf) .leaf) (.cut 1 (.cut 2 (.cut 3 .leaf .leaf) .leaf) (.cut 2 .leaf .leaf)))) (.ref (.cut 0 (.cut 1 (.ref (.cut 2 .out .leaf)) (.ref (.cut 2 .out .leaf))) (.cut 1 (.ref (.cut 2 .out .leaf)) (.ref (.cut 2 .out .leaf))))))) (.ref (.cut 3 (.ref (.cut 0 (.cut 1 (.ref (.cut 2 .leaf .leaf)) (.ref (.cut 2 .leaf .leaf))) (.cut 1 (.ref (.cut 2 .leaf .leaf)) (.ref (.cut 2 .leaf .leaf))))) (.ref (.cut 0 (.cut 1 (.cut 2 .leaf .leaf) .leaf) (.cut 1 (.cut 2 .leaf .leaf) .leaf)))))))
theorem h107 : check par t107 [47104, 22528, 4096, 4096] [2048, 2048, 4096, 4096] st = true := by decide +kernel
def t108 : Tree := (.ref (.cut 0 (.ref (.cut 1 (.ref (.cut 2 .out (.cut 3 (.ref (.cut 0 (.cut 1 (.cut 2 .out (.cut 3 .leaf .out)) (.cut 2 .out .leaf)) (.cut 1 (.cut 2 .out (.cut 3 .leaf .out)) (.cut 2 .out .leaf)))) .out))) (.ref (.cut 2 .out (.cut 3 (.cut 0 (.cut 1 .leaf .leaf) (.ref (.cut 1 .leaf .leaf))) .out))))) (.ref (.cut 1 (.ref (.cut 2 .out (.cut 3 (.cut 0 (.cut 1 (.cut 2 .out .leaf) (.ref (.cut 2 .out .leaf))) (.cut 1 (.cut 2 .out .leaf) .leaf)) .out))) (.ref (.cut 2 .out (.cut 3 (.cut 0 (.cut 1 .leaf .leaf) (.cut 1 .leaf .leaf)) .out)))))))
theorem h108 : check par t108 [45056, 20480, 4096, 12288] [4096, 4096, 4096, 4096] st = true := by decide +kernel
def t109 : Tree := (.ref (.cut 1 (.ref (.cut 2 (.cut 3 (.ref (.cut 0 (.cut 1 (.ref (.cut 2 .leaf .leaf)) (.cut 2 .leaf .leaf)) (.cut 1 (.ref (.cut 2 .leaf .leaf)) (.ref (.cut 2 .leaf .leaf))))) (.ref (.cut 0 (.cut 1 (.cut 2 (.cut 3 .leaf .leaf) (.cut 3 .leaf .leaf)) (.cut 2 .leaf .leaf)) (.cut 1 (.cut 2 (.cut 3 .leaf .leaf) .leaf) (.cut 2 .leaf .leaf))))) (.ref (.cut 3 (.ref (.cut 0 (.cut 1 .leaf .leaf) (.cut 1 .leaf .leaf))) (.cut 0 (.cut 1 (.ref (.cut 2 .leaf .leaf)) (.cut 2 .leaf .leaf)) (.cut 1 (.ref (.cut 2 .leaf .leaf)) .leaf)))))) (.ref (.cut 2 (.cut 3 (.ref (.cut 0 (.cut 1 .leaf .leaf) (.ref (.cut 1 .leaf .leaf)))) (.cut 0 (.cut 1 .leaf .leaf) (.ref (.cut 1 .leaf .leaf)))) (.ref (.cut 3 (.ref (.cut 0 .leaf .leaf)) (.ref (.cut 0 (.cut 1 .leaf .leaf) (.cut 1 .leaf .leaf)))))))))
theorem h109 : check par t109 [43008, 20480, 12288, 4096] [2048, 4096, 4096, 4096] st = true := by decide +kernel
def t110 : Tree := (.ref (.cut 1 (.ref (.cut 2 (.cut 3 (.ref (.cut 0 (.ref (.cut 1 (.cut 2 .leaf .leaf) (.cut 2 .leaf .leaf))) (.ref (.cut 1 (.cut 2 .leaf .leaf) (.cut 2 .leaf .leaf))))) (.cut 0 (.cut 1 (.cut 2 .leaf .leaf) (.ref (.cut 2 .leaf .leaf))) (.cut 1 (.cut 2 .leaf .leaf) .leaf))) (.ref (.cut 3 (.ref (.cut 0 (.cut 1 .leaf .leaf) .leaf)) (.cut 0 (.cut 1 .leaf .leaf) (.cut 1 .leaf .leaf)))))) (.ref (.cut 2 (.cut 3 (.cut 0 (.cut 1 (.cut 2 .leaf .leaf) .leaf) (.cut 1 (.cut 2 .leaf .leaf) .leaf)) (.cut 0 (.cut 1 .leaf .leaf) (.cut 1 .leaf .leaf))) (.cut 3 (.ref (.cut 0 (.cut 1 .leaf .leaf) .leaf)) (.cut 0 (.cut 1 .leaf .leaf) (.cut 1 .leaf .leaf)))))))
theorem h110 : check par t110 [47104, 20480, 12288, 4096] [2048, 4096, 4096, 4096] st = true := by decide +kernel
def t111 : Tree := (.ref (.cut 1 (.ref (.cut 2 (.ref (.cut 3 (.cut 0 (.cut 1 (.cut 2 (.cut 3 .leaf .leaf) .leaf) .leaf) (.cut 1 (.cut 2 .leaf .leaf) .leaf)) (.ref (.cut 0 (.cut 1 (.cut 2 .out .leaf) (.cut 2 .out .leaf)) (.cut 1 (.cut 2 .out .leaf) (.cut 2 .out .leaf)))))) (.ref (.cut 3 (.ref (.cut 0 (.cut 1 (.cut 2 .leaf .leaf) (.cut 2 .leaf .leaf)) (.cut 1 (.cut 2 .leaf .leaf) (.cut 2 .leaf .leaf)))) (.ref (.cut 0 (.cut 1 (.cut 2 .leaf .leaf) .leaf) (.cut 1 .leaf .leaf))))))) (.ref (.cut 2 (.cut 3 (.cut 0 (.cut 1 .leaf .leaf) (.ref (.cut 1 .leaf .leaf))) (.ref (.cut 0 (.cut 1 .leaf .leaf) (.cut 1 .leaf .leaf)))) (.ref (.cut 3 (.ref (.cut 0 (.cut 1 .leaf .leaf) (.cut 1 .leaf .leaf))) (.ref (.cut 0 (.cut 1 .leaf .leaf) (.cut 1 .leaf .leaf)))))))))
theorem h111 : check par t111 [43008, 20480, 12288, 12288] [2048, 4096, 4096, 4096] st = true := by decide +kernel
def t112 : Tree := (.ref (.cut 1 (.cut 2 (.ref (.cut 3 (.ref (.cut 0 (.cut 1 (.ref (.cut 2 .leaf .leaf)) .leaf) (.ref (.cut 1 .leaf .leaf)))) (.ref (.cut 0 (.cut 1 .leaf .leaf) (.cut 1 .leaf .leaf))))) (.ref (.cut 3 (.ref (.cut 0 (.cut 1 .leaf .leaf) (.cut 1 .leaf .leaf))) (.ref (.cut 0 (.ref (.cut 1 .leaf .leaf)) .leaf))))) (.ref (.cut 2 (.cut 3 (.ref (.cut 0 (.cut 1 .leaf .leaf) (.cut 1 .leaf .leaf))) (.ref (.cut 0 (.cut 1 .leaf .leaf) (.cut 1 .leaf .leaf)))) (.ref (.cut 3 (.ref (.cut 0 (.cut 1 .leaf .leaf) (.cut 1 .leaf .leaf))) (.ref (.cut 0 (.ref (.cut 1 .leaf .leaf)) .leaf))))))))
theorem h112 : check par t112 [47104, 20480, 12288, 12288] [2048, 4096, 4096, 4096] st = true := by decide +kernel
end FastNoise.RangeCheck.OuterSuper4
