import Verif.RangeCertOuterSuper4
/-! Generated by tools/rangecert/gen.py: a certificate for the checker `Verif.RangeCheck`. -/
namespace FastNoise.RangeCheck.OuterSuper4
set_option maxRecDepth 1000000
def t113 : Tree := (.ref (.cut 3 (.ref (.cut 0 (.cut 1 (.cut 2 (.cut 3 (.cut 0 .leaf .leaf) (.ref (.cut 0 .leaf .leaf))) (.cut 3 (.ref (.cut 0 .leaf .leaf)) (.ref (.cut 0 .leaf .leaf)))) (.cut 2 (.cut 3 .leaf .leaf) (.cut 3 .leaf .leaf))) (.cut 1 (.cut 2 (.cut 3 (.cut 0 (.cut 1 .leaf .leaf) (.ref (.cut 1 (.cut 2 .leaf .leaf) .leaf))) (.ref (.cut 0 (.cut 1 .leaf .leaf) (.ref (.cut 1 (.cut 2 .out .leaf) .leaf))))) (.cut 3 (.ref (.cut 0 (.cut 1 .leaf .leaf) (.ref (.cut 1 (.cut 2 .leaf .leaf) .leaf)))) (.ref (.cut 0 (.cut 1 .leaf .leaf) (.ref (.cut 1 .leaf .leaf)))))) (.cut 2 (.cut 3 (.cut 0 .leaf (.cut 1 .leaf .leaf)) (.ref (.cut 0 .leaf (.cut 1 .leaf .leaf)))) (.cut 3 (.ref (.cut 0 .leaf (.cut 1 .leaf .leaf))) (.cut 0 .leaf .leaf)))))) (.ref (.cut 0 (.cut 1 (.cut 2 .out (.ref (.cut 3 (.ref (.cut 0 .leaf .leaf)) .out))) (.cut 2 .out (.ref (.cut 3 .leaf .out)))) (.cut 1 (.ref (.cut 2 .out (.ref (.cut 3 (.cut 0 (.cut 1 .leaf .leaf) (.ref (.cut 1 .leaf .leaf))) .out)))) (.cut 2 .out (.ref (.cut 3 (.ref (.cut 0 .leaf .leaf)) .out))))))))
theorem h113 : check par t113 [45056, 28672, 4096, 8192] [4096, 4096, 4096, 8192] st = true := by decide +kernel
def t114 : Tree := (.ref (.cut 0 (.cut 1 (.cut 2 (.ref (.cut 3 (.ref (.cut 0 .leaf .leaf)) (.ref (.cut 0 .leaf .leaf)))) (.ref (.cut 3 (.cut 0 .leaf .leaf) (.cut 0 .leaf .leaf)))) (.cut 2 (.ref (.cut 3 .leaf .leaf)) (.ref (.cut 3 .leaf .leaf)))) (.cut 1 (.ref (.cut 2 (.ref (.cut 3 (.cut 0 (.cut 1 .leaf .leaf) (.ref (.cut 1 .leaf .leaf))) (.cut 0 (.cut 1 .leaf .leaf) (.ref (.cut 1 .leaf .leaf))))) (.ref (.cut 3 (.cut 0 .leaf .leaf) (.cut 0 .leaf .leaf))))) (.cut 2 (.ref (.cut 3 (.cut 0 .leaf .leaf) (.ref (.cut 0 .leaf .leaf)))) (.ref (.cut 3 (.cut 0 .leaf .leaf) (.cut 0 .leaf .leaf)))))))
theorem h114 : check par t114 [45056, 28672, 12288, 4096] [4096, 4096, 4096, 4096] st = true := by decide +kernel
def t115 : Tree := (.ref (.cut 0 (.ref (.cut 1 (.cut 2 (.ref (.cut 3 (.ref (.cut 0 .leaf .leaf)) (.ref (.cut 0 .leaf .leaf)))) (.cut 3 (.ref (.cut 0 .leaf .leaf)) (.cut 0 .leaf .leaf))) (.cut 2 (.ref (.cut 3 .leaf .leaf)) (.ref (.cut 3 .leaf .leaf))))) (.cut 1 (.cut 2 (.ref (.cut 3 (.ref (.cut 0 .leaf (.ref (.cut 1 .leaf .leaf)))) (.ref (.cut 0 .leaf .leaf)))) (.ref (.cut 3 (.ref (.cut 0 .leaf .leaf)) (.ref (.cut 0 .leaf .leaf))))) (.cut 2 (.ref (.cut 3 (.ref (.cut 0 .leaf .leaf)) (.ref (.cut 0 .leaf .leaf)))) (.ref (.cut 3 (.ref (.cut 0 .leaf .leaf)) .leaf))))))
theorem h115 : check par t115 [45056, 28672, 12288, 12288] [4096, 4096, 4096, 4096] st = true := by decide +kernel
def t116 : Tree := (.ref (.cut 0 (.ref (.cut 1 (.ref (.cut 2 .out (.ref (.cut 3 (.cut 0 (.cut 1 (.cut 2 .out (.cut 3 (.ref (.cut 0 (.cut 1 (.cut 2 .out .leaf) (.ref (.cut 2 .out .leaf))) (.cut 1 (.cut 2 .out .leaf) (.ref (.cut 2 .out .leaf))))) .out)) (.ref (.cut 2 .out (.cut 3 (.ref (.cut 0 (.cut 1 .leaf .leaf) (.cut 1 (.cut 2 .out .leaf) .leaf))) .out)))) (.cut 1 (.ref (.cut 2 .out (.cut 3 (.ref (.cut 0 (.cut 1 (.cut 2 .out .leaf) (.cut 2 .out .leaf)) (.cut 1 (.ref (.cut 2 .out .leaf)) (.cut 2 .out .leaf)))) .out))) (.cut 2 .out (.cut 3 (.ref (.cut 0 (.ref (.cut 1 (.ref (.cut 2 .out .leaf)) .leaf)) (.ref (.cut 1 (.cut 2 .out .leaf) .leaf)))) .out)))) .out)))) (.ref (.cut 2 .out (.ref (.cut 3 (.ref (.cut 0 (.cut 1 (.cut 2 .out (.cut 3 (.ref (.cut 0 (.cut 1 .leaf .leaf) (.cut 1 .leaf .leaf))) .out)) (.cut 2 .out (.ref (.cut 3 (.ref (.cut 0 .leaf .leaf)) .out)))) (.ref (.cut 1 (.cut 2 .out (.cut 3 (.cut 0 (.cut 1 .leaf .leaf) (.cut 1 .leaf .leaf)) .out)) (.cut 2 .out (.cut 3 (.cut 0 .leaf .leaf) .out)))))) .out)))))) (.ref (.cut 1 (.ref (.cut 2 .out (.cut 3 (.ref (.cut 0 (.ref (.cut 1 (.cut 2 .out (.cut 3 (.cut 0 (.ref (.cut 1 (.cut 2 .out .leaf) (.cut 2 .out .leaf))) (.ref (.cut 1 .leaf .leaf))) .out)) (.cut 2 .out (.cut 3 (.ref (.cut 0 (.cut 1 .leaf .leaf) (.cut 1 .leaf .leaf))) .out)))) (.cut 1 (.cut 2 .out (.cut 3 (.ref (.cut 0 .leaf .leaf)) .out)) (.cut 2 .out (.cut 3 (.ref (.cut 0 (.ref (.cut 1 .leaf .leaf)) .leaf)) .out))))) .out))) (.ref (.cut 2 .out (.ref (.cut 3 (.ref (.cut 0 (.ref (.cut 1 (.ref (.cut 2 .out (.cut 3 (.cut 0 (.cut 1 .leaf .leaf) .leaf) .out))) (.ref (.cut 2 .out (.cut 3 (.cut 0 .leaf .leaf) .out))))) (.cut 1 (.ref (.cut 2 .out (.cut 3 (.cut 0 .leaf .leaf) .out))) (.ref (.cut 2 .out (.cut 3 .leaf .out)))))) .out))))))))
theorem h116 : check par t116 [40960, 24576, 8192, 24576] [8192, 8192, 8192, 8192] st = true := by decide +kernel
def t117 : Tree := (.ref (.cut 0 (.cut 1 (.cut 2 (.cut 3 .leaf (.cut 0 .leaf (.ref (.cut 1 .leaf .leaf)))) (.ref (.cut 3 .leaf (.cut 0 .leaf .leaf)))) (.cut 2 (.ref (.cut 3 .leaf (.cut 0 .leaf .leaf))) (.cut 3 .leaf .leaf))) (.cut 1 (.ref (.cut 2 (.ref (.cut 3 (.cut 0 .leaf .leaf) (.cut 0 (.cut 1 .leaf .leaf) (.cut 1 .leaf .leaf)))) (.ref (.cut 3 .leaf (.cut 0 .leaf .leaf))))) (.cut 2 (.ref (.cut 3 .leaf (.cut 0 .leaf .leaf))) (.cut 3 .leaf .leaf)))))
theorem h117 : check par t117 [36864, 20480, 20480, 4096] [4096, 4096, 4096, 4096] st = true := by decide +kernel
def t118 : Tree := (.ref (.cut 1 (.cut 2 (.cut 3 (.ref (.cut 0 (.cut 1 (.ref (.cut 2 .leaf .leaf)) .leaf) (.ref (.cut 1 (.cut 2 .leaf .leaf) (.cut 2 .leaf .leaf))))) (.ref (.cut 0 (.cut 1 (.cut 2 .leaf .leaf) (.ref (.cut 2 .leaf .leaf))) (.cut 1 (.cut 2 .leaf .leaf) (.ref (.cut 2 .leaf .leaf)))))) (.ref (.cut 3 (.cut 0 (.cut 1 .out .leaf) (.cut 1 .out .leaf)) (.cut 0 (.cut 1 .out (.cut 2 .leaf .out)) (.cut 1 .out (.cut 2 .leaf .out)))))) (.ref (.cut 2 (.ref (.cut 3 (.cut 0 (.cut 1 .leaf .leaf) (.cut 1 .leaf .leaf)) (.cut 0 (.cut 1 .leaf .leaf) (.cut 1 (.cut 2 .leaf .leaf) .leaf)))) (.cut 3 (.ref (.cut 0 .leaf .leaf)) (.cut 0 (.cut 1 (.ref (.cut 2 .leaf .leaf)) .leaf) (.cut 1 (.ref (.cut 2 .leaf .leaf)) (.ref (.cut 2 .leaf .leaf)))))))))
theorem h118 : check par t118 [34816, 20480, 20480, 12288] [2048, 4096, 4096, 4096] st = true := by decide +kernel
def t119 : Tree := (.ref (.cut 1 (.ref (.cut 2 (.ref (.cut 3 (.ref (.cut 0 (.cut 1 (.cut 2 .leaf .leaf) (.cut 2 .leaf .leaf)) (.cut 1 (.cut 2 .leaf .leaf) (.cut 2 .leaf .leaf)))) (.cut 0 (.cut 1 (.cut 2 .leaf .leaf) (.cut 2 .leaf .leaf)) (.cut 1 (.ref (.cut 2 .leaf .leaf)) (.cut 2 .leaf .leaf))))) (.ref (.cut 3 (.ref (.cut 0 (.cut 1 .out .leaf) (.cut 1 .out .leaf))) (.cut 0 (.ref (.cut 1 .out (.cut 2 .leaf .out))) (.ref (.cut 1 .out (.ref (.cut 2 .leaf .out))))))))) (.cut 2 (.ref (.cut 3 (.ref (.cut 0 (.cut 1 .leaf .leaf) (.cut 1 .leaf .leaf))) (.cut 0 (.ref (.cut 1 (.ref (.cut 2 .leaf .leaf)) .leaf)) (.ref (.cut 1 (.cut 2 .leaf .leaf) .leaf))))) (.ref (.cut 3 (.ref (.cut 0 (.cut 1 .leaf .leaf) (.ref (.cut 1 .leaf .leaf)))) (.cut 0 (.cut 1 (.ref (.cut 2 .leaf .leaf)) (.ref (.cut 2 .leaf .leaf))) (.ref (.cut 1 (.cut 2 .leaf .leaf) .leaf))))))))
theorem h119 : check par t119 [38912, 20480, 20480, 12288] [2048, 4096, 4096, 4096] st = true := by decide +kernel
def t120 : Tree := (.ref (.cut 3 (.cut 0 (.cut 1 .out (.ref (.cut 2 (.ref (.cut 3 .leaf .leaf)) .out))) (.ref (.cut 1 .out (.ref (.cut 2 (.cut 3 .leaf .leaf) .out))))) (.ref (.cut 0 (.cut 1 .out (.cut 2 (.cut 3 (.ref (.cut 0 .leaf .leaf)) (.cut 0 (.cut 1 .out .leaf) (.cut 1 .out .leaf))) .out)) (.ref (.cut 1 .out (.cut 2 (.cut 3 (.cut 0 .leaf .leaf) (.cut 0 (.cut 1 .out .leaf) (.cut 1 .out .leaf))) .out)))))))
theorem h120 : check par t120 [36864, 20480, 28672, 8192] [4096, 4096, 4096, 8192] st = true := by decide +kernel
def t121 : Tree := (.ref (.cut 0 (.cut 1 (.ref (.cut 2 (.ref (.cut 3 .leaf .leaf)) (.ref (.cut 3 .leaf .leaf)))) (.cut 2 (.ref (.cut 3 .leaf .leaf)) (.ref (.cut 3 .leaf .leaf)))) (.ref (.cut 1 (.ref (.cut 2 (.cut 3 .leaf .leaf) (.ref (.cut 3 .leaf .leaf)))) (.ref (.cut 2 (.cut 3 .leaf .leaf) (.ref (.cut 3 .leaf .leaf))))))))
theorem h121 : check par t121 [36864, 28672, 20480, 4096] [4096, 4096, 4096, 4096] st = true := by decide +kernel
def t122 : Tree := (.ref (.cut 0 (.cut 1 (.cut 2 (.ref (.cut 3 (.cut 0 .leaf .leaf) (.cut 0 (.cut 1 .leaf .leaf) (.cut 1 .leaf .leaf)))) (.cut 3 (.ref (.cut 0 .leaf .leaf)) (.cut 0 (.cut 1 .leaf .leaf) (.cut 1 .leaf .leaf)))) (.cut 2 (.ref (.cut 3 .leaf (.ref (.cut 0 .leaf .leaf)))) (.cut 3 .leaf (.ref (.cut 0 .leaf .leaf))))) (.ref (.cut 1 (.cut 2 (.cut 3 (.cut 0 .leaf .leaf) (.cut 0 (.cut 1 .leaf .leaf) (.cut 1 .leaf .leaf))) (.cut 3 (.cut 0 .leaf .leaf) (.cut 0 (.cut 1 .leaf .leaf) (.cut 1 .leaf .leaf)))) (.cut 2 (.cut 3 .leaf (.cut 0 .leaf .leaf)) (.cut 3 .leaf (.cut 0 .leaf .leaf)))))))
theorem h122 : check par t122 [36864, 28672, 20480, 12288] [4096, 4096, 4096, 4096] st = true := by decide +kernel
def t123 : Tree := (.ref (.cut 3 (.ref (.cut 0 (.cut 1 (.cut 2 (.cut 3 .leaf .leaf) .leaf) (.cut 2 .leaf .leaf)) (.cut 1 (.ref (.cut 2 (.cut 3 .leaf .leaf) (.ref (.cut 3 .leaf .leaf)))) (.cut 2 (.ref (.cut 3 .leaf .leaf)) .leaf)))) (.cut 0 (.cut 1 (.ref (.cut 2 (.ref (.cut 3 .leaf (.cut 0 .leaf (.cut 1 .leaf .leaf)))) (.ref (.cut 3 .leaf (.ref (.cut 0 .leaf .leaf)))))) (.ref (.cut 2 (.ref (.cut 3 .leaf (.ref (.cut 0 .leaf .leaf)))) (.ref (.cut 3 .leaf (.cut 0 .leaf .leaf)))))) (.cut 1 (.ref (.cut 2 (.ref (.cut 3 .leaf (.cut 0 (.cut 1 .leaf .leaf) (.cut 1 .leaf .leaf)))) (.ref (.cut 3 .leaf (.cut 0 .leaf .leaf))))) (.ref (.cut 2 (.ref (.cut 3 .leaf (.cut 0 .leaf .leaf))) (.ref (.cut 3 .leaf (.ref (.cut 0 .leaf .leaf))))))))))
theorem h123 : check par t123 [36864, 28672, 28672, 8192] [4096, 4096, 4096, 8192] st = true := by decide +kernel
def t124 : Tree := (.ref (.cut 0 (.ref (.cut 1 (.cut 2 (.cut 3 (.cut 0 .leaf .leaf) (.cut 0 (.cut 1 .leaf .leaf) .leaf)) (.ref (.cut 3 .leaf (.cut 0 .leaf .leaf)))) (.cut 2 (.ref (.cut 3 .leaf (.cut 0 .leaf .leaf))) (.cut 3 .leaf .leaf)))) (.ref (.cut 1 (.ref (.cut 2 (.cut 3 .leaf (.cut 0 .leaf .leaf)) (.ref (.cut 3 .leaf (.cut 0 .leaf .leaf))))) (.ref (.cut 2 (.ref (.cut 3 .leaf (.cut 0 .leaf .leaf))) (.cut 3 .leaf .leaf)))))))
theorem h124 : check par t124 [45056, 20480, 20480, 4096] [4096, 4096, 4096, 4096] st = true := by decide +kernel
def t125 : Tree := (.ref (.cut 0 (.ref (.cut 1 (.cut 2 (.cut 3 (.cut 0 (.ref (.cut 1 (.ref (.cut 2 .leaf .leaf)) .leaf)) (.cut 1 .leaf .leaf)) (.cut 0 (.ref (.cut 1 (.cut 2 .leaf .leaf) (.cut 2 .leaf .leaf))) (.ref (.cut 1 .leaf .leaf)))) (.ref (.cut 3 (.ref (.cut 0 (.cut 1 .out .leaf) (.cut 1 .out .leaf))) (.cut 0 (.cut 1 .out (.ref (.cut 2 .leaf .out))) (.cut 1 .out .leaf))))) (.cut 2 (.ref (.cut 3 (.ref (.cut 0 (.cut 1 .leaf .leaf) (.cut 1 .leaf .leaf))) (.cut 0 (.cut 1 .leaf .leaf) (.cut 1 .leaf .leaf)))) (.ref (.cut 3 (.ref (.cut 0 .leaf .leaf)) (.cut 0 (.cut 1 .leaf .leaf) (.cut 1 .leaf .leaf))))))) (.cut 1 (.cut 2 (.cut 3 (.ref (.cut 0 (.cut 1 .leaf .leaf) .leaf)) (.ref (.cut 0 .leaf .leaf))) (.ref (.cut 3 (.ref (.cut 0 (.ref (.cut 1 .out .leaf)) .leaf)) (.ref (.cut 0 (.ref (.cut 1 .out .leaf)) .leaf))))) (.cut 2 (.ref (.cut 3 (.ref (.cut 0 (.ref (.cut 1 .leaf .leaf)) .leaf)) (.ref (.cut 0 (.ref (.cut 1 .leaf .leaf)) .leaf)))) (.cut 3 (.ref (.cut 0 .leaf .leaf)) (.cut 0 .leaf .leaf))))))
theorem h125 : check par t125 [45056, 20480, 20480, 12288] [4096, 4096, 4096, 4096] st = true := by decide +kernel
def t126 : Tree := (.ref (.cut 3 (.ref (.cut 0 (.cut 1 .out (.ref (.cut 2 (.cut 3 .leaf .leaf) .out))) (.cut 1 .out (.ref (.cut 2 (.ref (.cut 3 .leaf .leaf)) .out))))) (.ref (.cut 0 (.ref (.cut 1 .out (.ref (.cut 2 (.cut 3 (.cut 0 .leaf .leaf) (.cut 0 (.cut 1 .out .leaf) .leaf)) .out)))) (.cut 1 .out (.ref (.cut 2 (.ref (.cut 3 (.cut 0 .leaf .leaf) (.cut 0 .leaf .leaf))) .out)))))))
theorem h126 : check par t126 [45056, 20480, 28672, 8192] [4096, 4096, 4096, 8192] st = true := by decide +kernel
def t127 : Tree := (.ref (.cut 3 (.ref (.cut 0 (.cut 1 (.cut 2 (.cut 3 .leaf (.cut 0 .leaf .leaf)) (.ref (.cut 3 .leaf .leaf))) (.cut 2 (.cut 3 .leaf .leaf) (.ref (.cut 3 .leaf .leaf)))) (.cut 1 (.cut 2 (.ref (.cut 3 .leaf (.cut 0 .leaf .leaf))) (.ref (.cut 3 .leaf .leaf))) (.cut 2 (.cut 3 .leaf .leaf) (.ref (.cut 3 .leaf .leaf)))))) (.ref (.cut 0 (.ref (.cut 1 (.ref (.cut 2 (.cut 3 (.cut 0 .leaf .leaf) (.cut 0 (.cut 1 .leaf .leaf) .leaf)) (.cut 3 (.cut 0 .leaf .leaf) (.cut 0 (.cut 1 .leaf .leaf) .leaf)))) (.ref (.cut 2 (.cut 3 .leaf (.cut 0 .leaf .leaf)) (.cut 3 .leaf (.cut 0 .leaf .leaf)))))) (.cut 1 (.ref (.cut 2 (.cut 3 (.ref (.cut 0 .leaf .leaf)) (.cut 0 .leaf .leaf)) (.ref (.cut 3 (.cut 0 .leaf .leaf) (.cut 0 .leaf .leaf))))) (.ref (.cut 2 (.cut 3 .leaf .leaf) (.cut 3 .leaf .leaf))))))))
theorem h127 : check par t127 [45056, 28672, 20480, 8192] [4096, 4096, 4096, 8192] st = true := by decide +kernel
def t128 : Tree := (.ref (.cut 3 (.ref (.cut 0 (.cut 1 (.cut 2 (.cut 3 .leaf .leaf) (.ref (.cut 3 .leaf .leaf))) (.cut 2 (.ref (.cut 3 .leaf .leaf)) (.cut 3 .leaf .leaf))) (.cut 1 (.ref (.cut 2 (.ref (.cut 3 .leaf .leaf)) (.ref (.cut 3 .leaf .leaf)))) (.cut 2 (.ref (.cut 3 .leaf .leaf)) (.ref (.cut 3 .leaf .leaf)))))) (.cut 0 (.ref (.cut 1 (.cut 2 (.cut 3 .leaf (.cut 0 .leaf .leaf)) (.ref (.cut 3 .leaf (.cut 0 .leaf .leaf)))) (.ref (.cut 2 (.ref (.cut 3 .leaf (.cut 0 .leaf .leaf))) (.ref (.cut 3 .leaf (.cut 0 .leaf .leaf))))))) (.cut 1 (.ref (.cut 2 (.ref (.cut 3 .leaf (.cut 0 .leaf .leaf))) (.ref (.cut 3 .leaf .leaf)))) (.ref (.cut 2 (.ref (.cut 3 .leaf .leaf)) (.ref (.cut 3 .leaf .leaf))))))))
theorem h128 : check par t128 [45056, 28672, 28672, 8192] [4096, 4096, 4096, 8192] st = true := by decide +kernel
def t129 : Tree := (.ref (.cut 1 (.ref (.cut 2 (.ref (.cut 3 (.ref (.cut 0 (.cut 1 .leaf .leaf) (.cut 1 (.cut 2 .leaf .leaf) (.cut 2 .leaf .leaf)))) (.ref (.cut 0 (.cut 1 (.ref (.cut 2 .out .leaf)) (.ref (.cut 2 .out .leaf))) (.cut 1 (.ref (.cut 2 .out .leaf)) (.cut 2 .out .leaf)))))) (.ref (.cut 3 (.ref (.cut 0 (.cut 1 .out (.ref (.cut 2 .leaf .out))) (.cut 1 .out (.cut 2 .leaf .out)))) (.ref (.cut 0 (.cut 1 .out .leaf) (.cut 1 .out (.cut 2 .leaf .out)))))))) (.cut 2 (.ref (.cut 3 (.ref (.cut 0 (.cut 1 .leaf (.ref (.cut 2 .leaf .leaf))) (.cut 1 (.ref (.cut 2 .leaf .leaf)) (.ref (.cut 2 .leaf .leaf))))) (.ref (.cut 0 (.cut 1 (.ref (.cut 2 .out .leaf)) (.cut 2 .out .leaf)) (.cut 1 (.ref (.cut 2 .out .leaf)) (.cut 2 .out .leaf)))))) (.cut 3 (.ref (.cut 0 (.cut 1 (.ref (.cut 2 .leaf .leaf)) (.cut 2 .leaf .leaf)) (.cut 1 (.ref (.cut 2 .leaf .leaf)) (.cut 2 .leaf (.ref (.cut 3 .leaf .leaf)))))) (.cut 0 (.cut 1 (.ref (.cut 2 .leaf .leaf)) (.cut 2 .leaf .leaf)) (.ref (.cut 1 (.cut 2 .leaf .leaf) (.cut 2 .leaf (.cut 3 .leaf .leaf)))))))))
theorem h129 : check par t129 [34816, 20480, 20480, 20480] [2048, 4096, 4096, 4096] st = true := by decide +kernel
def t130 : Tree := (.ref (.cut 1 (.ref (.cut 2 (.ref (.cut 3 (.ref (.cut 0 (.cut 1 (.cut 2 .leaf .leaf) (.cut 2 .leaf .leaf)) (.cut 1 (.cut 2 .leaf .leaf) (.cut 2 .leaf .leaf)))) (.ref (.cut 0 (.cut 1 (.cut 2 .out .leaf) (.ref (.cut 2 .out .leaf))) (.ref (.cut 1 (.cut 2 .out .leaf) (.cut 2 .out .leaf))))))) (.ref (.cut 3 (.ref (.cut 0 (.cut 1 .out (.ref (.cut 2 .leaf .out))) (.ref (.cut 1 .out (.cut 2 .leaf .out))))) (.ref (.cut 0 (.cut 1 .out (.cut 2 .leaf .out)) (.cut 1 .out .leaf))))))) (.cut 2 (.ref (.cut 3 (.ref (.cut 0 (.cut 1 (.ref (.cut 2 .leaf .leaf)) (.ref (.cut 2 .leaf .leaf))) (.ref (.cut 1 .leaf (.ref (.cut 2 .leaf .leaf)))))) (.ref (.cut 0 (.cut 1 (.cut 2 .out .leaf) (.ref (.cut 2 .out .leaf))) (.cut 1 (.cut 2 .out .leaf) (.cut 2 .out .leaf)))))) (.ref (.cut 3 (.ref (.cut 0 (.cut 1 (.cut 2 .leaf .leaf) (.ref (.cut 2 .leaf .leaf))) (.cut 1 (.cut 2 .leaf .leaf) (.cut 2 .leaf .leaf)))) (.cut 0 (.cut 1 (.cut 2 .leaf .leaf) (.cut 2 .leaf .leaf)) (.cut 1 (.cut 2 .leaf .leaf) (.cut 2 .leaf .leaf))))))))
theorem h130 : check par t130 [38912, 20480, 20480, 20480] [2048, 4096, 4096, 4096] st = true := by decide +kernel
def t131 : Tree := (.ref (.cut 0 (.cut 1 (.ref (.cut 2 .out (.ref (.cut 3 (.cut 0 (.cut 1 .out (.cut 2 .out .out)) (.ref (.cut 1 .out (.cut 2 .out .out)))) .out)))) (.ref (.cut 2 .out (.ref (.cut 3 (.cut 0 (.ref (.cut 1 (.cut 2 .out (.ref (.cut 3 .leaf .out))) (.cut 2 .out .leaf))) (.cut 1 (.ref (.cut 2 .out (.ref (.cut 3 .leaf .out)))) (.ref (.cut 2 .out (.ref (.cut 3 .leaf .out)))))) .out))))) (.ref (.cut 1 (.ref (.cut 2 .out (.ref (.cut 3 (.cut 0 (.ref (.cut 1 .out (.cut 2 .out .out))) (.cut 1 .out (.cut 2 .out .out))) .out)))) (.ref (.cut 2 .out (.cut 3 (.cut 0 (.cut 1 (.ref (.cut 2 .out (.ref (.cut 3 .leaf .out)))) (.cut 2 .out (.cut 3 .leaf .out))) (.cut 1 (.cut 2 .out .leaf) (.cut 2 .out .leaf))) .out)))))))
theorem h131 : check par t131 [36864, 20480, 20480, 28672] [4096, 4096, 4096, 4096] st = true := by decide +kernel
def t132 : Tree := (.ref (.cut 3 (.ref (.cut 0 (.cut 1 .out (.ref (.cut 2 (.ref (.cut 3 (.ref (.cut 0 (.cut 1 .out (.cut 2 .leaf .out)) (.ref (.cut 1 .out (.cut 2 (.cut 3 .leaf .leaf) .out))))) (.ref (.cut 0 (.ref (.cut 1 .out (.cut 2 (.cut 3 .leaf .leaf) .out))) (.cut 1 .out (.ref (.cut 2 (.cut 3 .leaf .leaf) .out))))))) .out))) (.ref (.cut 1 .out (.ref (.cut 2 (.cut 3 (.ref (.cut 0 (.ref (.cut 1 .out (.cut 2 .leaf .out))) (.cut 1 .out (.cut 2 .leaf .out)))) (.cut 0 (.cut 1 .out (.cut 2 (.ref (.cut 3 .leaf .leaf)) .out)) (.cut 1 .out (.cut 2 .leaf .out)))) .out)))))) (.ref (.cut 0 (.ref (.cut 1 .out (.ref (.cut 2 (.cut 3 (.cut 0 (.cut 1 .out (.cut 2 .leaf .out)) (.cut 1 .out (.cut 2 (.ref (.cut 3 .leaf .leaf)) .out))) (.ref (.cut 0 (.ref (.cut 1 .out (.cut 2 .out .out))) (.cut 1 .out (.ref (.cut 2 .out .out)))))) .out)))) (.ref (.cut 1 .out (.ref (.cut 2 (.cut 3 (.cut 0 (.ref (.cut 1 .out (.cut 2 (.ref (.cut 3 .leaf .leaf)) .out))) (.cut 1 .out (.ref (.cut 2 .leaf .out)))) (.ref (.cut 0 (.cut 1 .out (.cut 2 .out .out)) (.cut 1 .out (.cut 2 .out .out))))) .out))))))))
theorem h132 : check par t132 [36864, 20480, 28672, 24576] [4096, 4096, 4096, 8192] st = true := by decide +kernel
def t133 : Tree := (.ref (.cut 2 (.ref (.cut 3 (.ref (.cut 0 (.cut 1 (.cut 2 .leaf .leaf) .leaf) (.cut 1 (.cut 2 .leaf .leaf) .leaf))) (.ref (.cut 0 (.cut 1 (.cut 2 .out .leaf) (.ref (.cut 2 .out .leaf))) (.ref (.cut 1 (.cut 2 .out .leaf) (.cut 2 .out .leaf))))))) (.ref (.cut 3 (.ref (.cut 0 (.cut 1 (.cut 2 .leaf .leaf) (.ref (.cut 2 .leaf .leaf))) (.ref (.cut 1 (.cut 2 .leaf (.cut 3 .leaf .leaf)) (.cut 2 .leaf .leaf))))) (.ref (.cut 0 (.ref (.cut 1 (.cut 2 .leaf (.cut 3 .leaf .leaf)) (.ref (.cut 2 (.cut 3 .leaf .leaf) (.cut 3 .leaf .leaf))))) (.cut 1 (.cut 2 (.ref (.cut 3 .leaf .leaf)) (.ref (.cut 3 .leaf .leaf))) (.ref (.cut 2 (.cut 3 .leaf .leaf) (.cut 3 .leaf .leaf))))))))))
theorem h133 : check par t133 [34816, 26624, 20480, 20480] [2048, 2048, 4096, 4096] st = true := by decide +kernel
def t134 : Tree := (.ref (.cut 2 (.ref (.cut 3 (.ref (.cut 0 .leaf (.cut 1 .leaf .leaf))) (.ref (.cut 0 (.ref (.cut 1 .leaf .leaf)) (.ref (.cut 1 (.cut 2 .out .leaf) .leaf)))))) (.ref (.cut 3 (.ref (.cut 0 (.ref (.cut 1 .leaf .leaf)) (.ref (.cut 1 (.cut 2 .leaf .leaf) .leaf)))) (.ref (.cut 0 (.cut 1 (.cut 2 .leaf .leaf) .leaf) (.cut 1 (.cut 2 .leaf (.cut 3 .leaf .leaf)) (.cut 2 .leaf .leaf))))))))
theorem h134 : check par t134 [34816, 30720, 20480, 20480] [2048, 2048, 4096, 4096] st = true := by decide +kernel
def t135 : Tree := (.ref (.cut 1 (.ref (.cut 2 (.cut 3 (.ref (.cut 0 (.cut 1 (.cut 2 .leaf .leaf) .leaf) (.cut 1 .leaf .leaf))) (.ref (.cut 0 (.ref (.cut 1 (.cut 2 .out .leaf) (.cut 2 .out .leaf))) (.cut 1 (.cut 2 .out .leaf) (.ref (.cut 2 .out .leaf)))))) (.cut 3 (.ref (.cut 0 (.ref (.cut 1 (.cut 2 .leaf .leaf) (.cut 2 .leaf .leaf))) (.cut 1 (.cut 2 .leaf .leaf) (.ref (.cut 2 .leaf .leaf))))) (.cut 0 (.cut 1 (.cut 2 (.ref (.cut 3 .leaf .leaf)) (.ref (.cut 3 .leaf .leaf))) (.cut 2 (.ref (.cut 3 .leaf .leaf)) (.ref (.cut 3 .leaf .leaf)))) (.cut 1 (.ref (.cut 2 .leaf .leaf)) (.cut 2 .leaf .leaf)))))) (.ref (.cut 2 (.ref (.cut 3 (.ref (.cut 0 (.cut 1 .leaf .leaf) (.cut 1 .leaf .leaf))) (.ref (.cut 0 (.cut 1 (.cut 2 .out .leaf) .leaf) (.cut 1 .leaf .leaf))))) (.cut 3 (.ref (.cut 0 (.cut 1 (.cut 2 .leaf .leaf) .leaf) (.cut 1 .leaf .leaf))) (.ref (.cut 0 (.ref (.cut 1 (.cut 2 .leaf .leaf) (.cut 2 .leaf .leaf))) (.ref (.cut 1 (.cut 2 .leaf .leaf) (.cut 2 .leaf .leaf))))))))))
theorem h135 : check par t135 [38912, 28672, 20480, 20480] [2048, 4096, 4096, 4096] st = true := by decide +kernel
def t136 : Tree := (.ref (.cut 0 (.ref (.cut 1 (.ref (.cut 2 .out (.ref (.cut 3 (.cut 0 (.cut 1 (.cut 2 .out .leaf) (.cut 2 .out (.ref (.cut 3 .leaf .out)))) (.cut 1 (.cut 2 .out (.ref (.cut 3 .leaf .out))) (.cut 2 .out (.cut 3 .leaf .out)))) .out)))) (.cut 2 .out (.ref (.cut 3 (.ref (.cut 0 (.ref (.cut 1 (.cut 2 .out (.cut 3 .leaf .out)) (.cut 2 .out (.cut 3 .leaf .out)))) (.cut 1 (.cut 2 .out (.ref (.cut 3 .leaf .out))) (.ref (.cut 2 .out (.ref (.cut 3 .leaf .out))))))) .out))))) (.ref (.cut 1 (.cut 2 .out (.ref (.cut 3 (.cut 0 (.ref (.cut 1 (.ref (.cut 2 .out (.cut 3 .leaf .out))) (.cut 2 .out (.ref (.cut 3 .leaf .out))))) (.cut 1 (.ref (.cut 2 .out .leaf)) (.ref (.cut 2 .out (.ref (.cut 3 .leaf .out)))))) .out))) (.ref (.cut 2 .out (.ref (.cut 3 (.ref (.cut 0 (.cut 1 (.cut 2 .out (.cut 3 .leaf .out)) (.ref (.cut 2 .out (.ref (.cut 3 .leaf .out))))) (.cut 1 (.cut 2 .out (.cut 3 .leaf .out)) (.ref (.cut 2 .out (.cut 3 .leaf .out)))))) .out))))))))
theorem h136 : check par t136 [36864, 28672, 20480, 28672] [4096, 4096, 4096, 4096] st = true := by decide +kernel
def t137 : Tree := (.ref (.cut 2 (.ref (.cut 3 (.cut 0 (.cut 1 (.ref (.cut 2 .leaf .leaf)) (.ref (.cut 2 .leaf .leaf))) (.cut 1 (.cut 2 (.cut 3 .leaf .leaf) .leaf) (.ref (.cut 2 .leaf .leaf)))) (.cut 0 (.cut 1 (.cut 2 (.cut 3 .leaf .leaf) (.ref (.cut 3 .leaf .leaf))) (.cut 2 (.ref (.cut 3 .leaf .leaf)) (.cut 3 .leaf .leaf))) (.cut 1 (.cut 2 (.cut 3 .leaf .leaf) (.ref (.cut 3 .leaf .leaf))) (.cut 2 (.ref (.cut 3 .leaf .leaf)) (.cut 3 .leaf .leaf)))))) (.ref (.cut 3 (.ref (.cut 0 (.cut 1 .out (.cut 2 .leaf .out)) (.cut 1 .out (.cut 2 .leaf .out)))) (.ref (.cut 0 (.ref (.cut 1 .out (.cut 2 (.cut 3 .leaf .leaf) .out))) (.cut 1 .out (.cut 2 (.cut 3 .leaf (.ref (.cut 0 .leaf .leaf))) .out))))))))
theorem h137 : check par t137 [34816, 26624, 28672, 20480] [2048, 2048, 4096, 4096] st = true := by decide +kernel
def t138 : Tree := (.ref (.cut 2 (.ref (.cut 3 (.ref (.cut 0 (.cut 1 (.cut 2 .leaf .leaf) .leaf) (.cut 1 (.cut 2 .leaf .leaf) .leaf))) (.ref (.cut 0 (.ref (.cut 1 (.cut 2 (.ref (.cut 3 .leaf .leaf)) (.cut 3 .leaf .leaf)) (.cut 2 .leaf (.cut 3 .leaf .leaf)))) (.cut 1 (.cut 2 (.ref (.cut 3 .leaf .leaf)) (.cut 3 .leaf (.ref (.cut 0 .leaf .leaf)))) (.ref (.cut 2 (.ref (.cut 3 .leaf .leaf)) (.ref (.cut 3 .leaf .leaf))))))))) (.cut 3 (.ref (.cut 0 (.cut 1 (.ref (.cut 2 .leaf .leaf)) .leaf) (.ref (.cut 1 (.cut 2 .leaf .leaf) .leaf)))) (.ref (.cut 0 (.cut 1 (.cut 2 (.cut 3 .leaf .leaf) (.ref (.cut 3 .leaf .leaf))) (.ref (.cut 2 (.ref (.cut 3 .leaf .leaf)) (.ref (.cut 3 .leaf .leaf))))) (.cut 1 (.cut 2 (.cut 3 .leaf .leaf) (.ref (.cut 3 .leaf .leaf))) (.ref (.cut 2 (.ref (.cut 3 .leaf .leaf)) (.ref (.cut 3 .leaf .leaf))))))))))
theorem h138 : check par t138 [34816, 30720, 28672, 20480] [2048, 2048, 4096, 4096] st = true := by decide +kernel
def t139 : Tree := (.ref (.cut 2 (.ref (.cut 3 (.ref (.cut 0 (.cut 1 (.cut 2 (.cut 3 .leaf .leaf) .leaf) (.ref (.cut 2 .leaf .leaf))) (.cut 1 (.ref (.cut 2 .leaf .leaf)) (.cut 2 .leaf .leaf)))) (.cut 0 (.ref (.cut 1 (.ref (.cut 2 (.ref (.cut 3 .leaf .leaf)) (.ref (.cut 3 .leaf .leaf)))) (.cut 2 (.ref (.cut 3 .leaf .leaf)) (.cut 3 .leaf .leaf)))) (.cut 1 (.ref (.cut 2 .leaf (.ref (.cut 3 .leaf .leaf)))) (.ref (.cut 2 (.ref (.cut 3 .leaf .leaf)) (.ref (.cut 3 .leaf .leaf)))))))) (.ref (.cut 3 (.ref (.cut 0 (.ref (.cut 1 .out (.cut 2 .leaf .out))) (.ref (.cut 1 .out (.cut 2 .leaf .out))))) (.ref (.cut 0 (.cut 1 .out (.cut 2 (.cut 3 .leaf (.cut 0 .leaf .leaf)) .out)) (.cut 1 .out (.cut 2 (.cut 3 .leaf .leaf) .out))))))))
theorem h139 : check par t139 [38912, 26624, 28672, 20480] [2048, 2048, 4096, 4096] st = true := by decide +kernel
def t140 : Tree := (.ref (.cut 2 (.ref (.cut 3 (.ref (.cut 0 (.ref (.cut 1 (.cut 2 .leaf .leaf) (.ref (.cut 2 .leaf .leaf)))) (.ref (.cut 1 (.cut 2 .leaf .leaf) .leaf)))) (.ref (.cut 0 (.cut 1 (.cut 2 (.ref (.cut 3 .leaf .leaf)) (.cut 3 .leaf (.cut 0 .leaf .leaf))) (.ref (.cut 2 (.ref (.cut 3 .leaf .leaf)) (.cut 3 .leaf (.ref (.cut 0 .leaf .leaf)))))) (.cut 1 (.cut 2 (.ref (.cut 3 .leaf .leaf)) (.cut 3 .leaf .leaf)) (.ref (.cut 2 .leaf (.cut 3 .leaf .leaf)))))))) (.cut 3 (.cut 0 (.ref (.cut 1 (.cut 2 .leaf .leaf) (.cut 2 .leaf .leaf))) (.cut 1 (.ref (.cut 2 .leaf .leaf)) .leaf)) (.ref (.cut 0 (.cut 1 (.cut 2 (.cut 3 .leaf .leaf) (.ref (.cut 3 .leaf (.cut 0 .leaf .leaf)))) (.cut 2 (.ref (.cut 3 .leaf (.cut 0 .leaf .leaf))) (.cut 3 .leaf .leaf))) (.cut 1 (.cut 2 (.cut 3 .leaf .leaf) (.ref (.cut 3 .leaf .leaf))) (.cut 2 (.ref (.cut 3 .leaf .leaf)) (.cut 3 .leaf .leaf))))))))
theorem h140 : check par t140 [38912, 30720, 28672, 20480] [2048, 2048, 4096, 4096] st = true := by decide +kernel
def t141 : Tree := (.ref (.cut 2 (.ref (.cut 3 (.cut 0 (.cut 1 (.ref (.cut 2 (.ref (.cut 3 .leaf .leaf)) (.ref (.cut 3 .leaf .leaf)))) (.ref (.cut 2 (.ref (.cut 3 .leaf .leaf)) (.ref (.cut 3 .leaf .leaf))))) (.cut 1 (.ref (.cut 2 (.ref (.cut 3 .leaf .leaf)) (.ref (.cut 3 .leaf .leaf)))) (.cut 2 (.ref (.cut 3 .leaf .leaf)) (.ref (.cut 3 .leaf .leaf))))) (.ref (.cut 0 (.cut 1 (.ref (.cut 2 .out (.ref (.cut 3 .leaf .out)))) (.cut 2 .out (.cut 3 .leaf .out))) (.ref (.cut 1 (.cut 2 .out (.ref (.cut 3 .leaf .out))) (.cut 2 .out (.cut 3 .leaf .out)))))))) (.ref (.cut 3 (.ref (.cut 0 (.cut 1 .out (.cut 2 (.cut 3 .leaf .leaf) .out)) (.ref (.cut 1 .out (.cut 2 (.cut 3 .leaf .leaf) .out))))) (.ref (.cut 0 (.cut 1 .out (.ref (.cut 2 (.cut 3 .leaf .leaf) .out))) (.cut 1 .out (.cut 2 (.ref (.cut 3 (.ref (.cut 0 .leaf .leaf)) (.ref (.cut 0 .leaf (.ref (.cut 1 .out .leaf)))))) .out))))))))
theorem h141 : check par t141 [34816, 26624, 28672, 28672] [2048, 2048, 4096, 4096] st = true := by decide +kernel
def t142 : Tree := (.ref (.cut 3 (.ref (.cut 0 (.cut 1 (.cut 2 (.ref (.cut 3 .leaf .leaf)) (.cut 3 .leaf .leaf)) (.ref (.cut 2 (.cut 3 .leaf .leaf) (.cut 3 .leaf .leaf)))) (.ref (.cut 1 (.cut 2 (.cut 3 .leaf .leaf) (.cut 3 .leaf .leaf)) (.ref (.cut 2 (.cut 3 .leaf (.ref (.cut 0 .leaf .leaf))) (.cut 3 (.ref (.cut 0 .leaf .leaf)) .leaf))))))) (.ref (.cut 0 (.cut 1 (.ref (.cut 2 .out (.ref (.cut 3 .leaf .out)))) (.ref (.cut 2 .out (.ref (.cut 3 .leaf .out))))) (.cut 1 (.cut 2 .out (.ref (.cut 3 (.ref (.cut 0 .leaf .leaf)) .out))) (.cut 2 .out (.ref (.cut 3 (.ref (.cut 0 .leaf (.ref (.cut 1 .leaf .leaf)))) .out))))))))
theorem h142 : check par t142 [34816, 30720, 26624, 28672] [2048, 2048, 2048, 4096] st = true := by decide +kernel
end FastNoise.RangeCheck.OuterSuper4
