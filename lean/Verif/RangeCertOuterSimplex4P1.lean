import Verif.RangeCertOuterSimplex4
/-! Generated by tools/rangecert/gen.py: a certificate for the checker `Verif.RangeCheck`. -/
namespace FastNoise.RangeCheck.OuterSimplex4
set_option maxRecDepth 1000000
def t82 : Tree := (.ref (.cut 1 (.cut 2 .out (.cut 3 (.cut 0 (.cut 1 (.cut 2 .out (.cut 3 (.cut 0 .leaf (.cut 1 (.cut 2 .out .leaf) .leaf)) .out)) (.cut 2 .out (.cut 3 .leaf .out))) (.cut 1 (.cut 2 .out (.cut 3 (.cut 0 (.cut 1 (.cut 2 .out (.cut 3 (.cut 0 .leaf (.cut 1 (.cut 2 .out .leaf) .leaf)) .out)) (.cut 2 .out (.cut 3 (.cut 0 .leaf .leaf) .out))) (.cut 1 (.cut 2 .out (.cut 3 (.cut 0 (.cut 1 (.cut 2 .out (.cut 3 (.cut 0 .leaf (.cut 1 (.cut 2 .out (.cut 3 .leaf .out)) (.cut 2 .out .leaf))) .out)) (.cut 2 .out (.cut 3 (.cut 0 .leaf .leaf) .out))) (.cut 1 (.cut 2 .out (.cut 3 (.cut 0 (.cut 1 (.cut 2 .out (.cut 3 (.cut 0 (.cut 1 .leaf .leaf) (.cut 1 (.cut 2 .out (.cut 3 (.cut 0 .leaf .leaf) .out)) (.cut 2 .out (.cut 3 .leaf .out)))) .out)) (.cut 2 .out (.cut 3 (.cut 0 .leaf (.cut 1 (.cut 2 .out .leaf) .leaf)) .out))) (.cut 1 (.cut 2 .out (.cut 3 (.cut 0 (.cut 1 (.cut 2 .out (.cut 3 (.cut 0 .leaf .leaf) .out)) (.cut 2 .out (.cut 3 (.cut 0 .leaf .leaf) .out))) (.cut 1 (.cut 2 .out (.cut 3 (.cut 0 .leaf .leaf) .out)) (.cut 2 .out (.cut 3 (.cut 0 .leaf .leaf) .out)))) .out)) (.cut 2 .out (.cut 3 (.cut 0 (.cut 1 (.cut 2 .out .leaf) .leaf) (.cut 1 (.cut 2 .out .leaf) .leaf)) .out)))) .out)) (.cut 2 .out (.cut 3 (.cut 0 (.cut 1 (.cut 2 .out .leaf) .leaf) (.cut 1 (.cut 2 .out .leaf) .leaf)) .out)))) .out)) (.cut 2 .out (.cut 3 (.cut 0 (.cut 1 (.cut 2 .out .leaf) .leaf) (.cut 1 (.cut 2 .out .leaf) .leaf)) .out)))) .out)) (.cut 2 .out (.cut 3 (.cut 0 (.cut 1 .leaf .leaf) (.cut 1 (.cut 2 .out .leaf) .leaf)) .out)))) .out)) (.cut 2 .out (.cut 3 (.cut 0 (.cut 1 .leaf .leaf) (.cut 1 (.cut 2 .out .leaf) .leaf)) .out))))
theorem h82 : check par t82 [24064, 13312, 11264, 13312] [512, 1024, 1024, 1024] st = true := by decide +kernel
def t83 : Tree := .out
theorem h83 : check par t83 [23552, 13312, 11264, 15360] [1024, 1024, 1024, 1024] st = true := by decide +kernel
def t84 : Tree := (.ref (.cut 2 .out (.cut 3 (.cut 0 (.cut 1 .leaf .leaf) (.cut 1 (.cut 2 .out .leaf) .leaf)) .out)))
theorem h84 : check par t84 [23552, 15360, 10240, 14336] [1024, 1024, 2048, 2048] st = true := by decide +kernel
def t85 : Tree := (.ref (.cut 1 (.cut 2 (.cut 3 (.cut 0 .leaf .leaf) (.cut 0 .leaf (.cut 1 .leaf .leaf))) (.cut 3 .leaf .leaf)) (.cut 2 (.cut 3 .leaf .leaf) (.cut 3 .leaf .leaf))))
theorem h85 : check par t85 [21504, 14336, 14336, 10240] [1024, 2048, 2048, 2048] st = true := by decide +kernel
def t86 : Tree := (.ref (.cut 0 (.cut 1 (.cut 2 .leaf .leaf) .leaf) (.cut 1 (.cut 2 (.cut 3 .leaf .leaf) .leaf) .leaf)))
theorem h86 : check par t86 [23552, 13312, 13312, 9216] [1024, 1024, 1024, 1024] st = true := by decide +kernel
def t87 : Tree := (.ref (.cut 1 (.cut 2 (.cut 3 (.cut 0 .leaf .leaf) (.cut 0 .leaf (.cut 1 .leaf .leaf))) (.cut 3 .leaf .leaf)) (.cut 2 (.cut 3 .leaf .leaf) (.cut 3 .leaf .leaf))))
theorem h87 : check par t87 [23040, 13312, 13312, 11264] [512, 1024, 1024, 1024] st = true := by decide +kernel
def t88 : Tree := (.ref (.cut 0 (.cut 1 (.cut 2 .leaf .leaf) .leaf) (.cut 1 (.cut 2 (.cut 3 .leaf .leaf) .leaf) .leaf)))
theorem h88 : check par t88 [24064, 12800, 12800, 10752] [512, 512, 512, 512] st = true := by decide +kernel
def t89 : Tree := (.ref (.cut 1 (.cut 2 (.cut 3 (.cut 0 .leaf .leaf) (.cut 0 .leaf (.cut 1 (.cut 2 .leaf .leaf) .leaf))) (.cut 3 .leaf .leaf)) (.cut 2 (.cut 3 .leaf .leaf) (.cut 3 .leaf .leaf))))
theorem h89 : check par t89 [23808, 12800, 12800, 11776] [256, 512, 512, 512] st = true := by decide +kernel
def t90 : Tree := (.ref (.cut 0 (.cut 1 (.cut 2 .leaf .leaf) .leaf) (.cut 1 (.cut 2 (.cut 3 .leaf .leaf) .leaf) .leaf)))
theorem h90 : check par t90 [24320, 12544, 12544, 11520] [256, 256, 256, 256] st = true := by decide +kernel
def t91 : Tree := (.ref (.cut 1 (.cut 2 (.cut 3 (.cut 0 .leaf (.cut 1 .leaf .leaf)) (.cut 0 .leaf (.cut 1 (.cut 2 .leaf .leaf) .leaf))) (.cut 3 .leaf (.cut 0 .leaf .leaf))) (.cut 2 (.cut 3 .leaf (.cut 0 .leaf .leaf)) (.cut 3 .leaf .leaf))))
theorem h91 : check par t91 [24192, 12544, 12544, 12032] [128, 256, 256, 256] st = true := by decide +kernel
def t92 : Tree := (.ref (.cut 0 (.cut 1 (.cut 2 (.cut 3 .leaf .leaf) .leaf) .leaf) (.cut 1 (.cut 2 (.cut 3 .leaf .leaf) .leaf) .leaf)))
theorem h92 : check par t92 [24448, 12416, 12416, 11904] [128, 128, 128, 128] st = true := by decide +kernel
def t93 : Tree := (.ref (.cut 1 (.cut 2 (.cut 3 (.cut 0 .leaf (.cut 1 (.cut 2 .leaf .leaf) .leaf)) (.cut 0 .leaf (.cut 1 (.cut 2 (.cut 3 .leaf .leaf) (.cut 3 .leaf .leaf)) (.cut 2 (.cut 3 .leaf .leaf) .leaf)))) (.cut 3 .leaf (.cut 0 .leaf .leaf))) (.cut 2 (.cut 3 .leaf (.cut 0 .leaf .leaf)) (.cut 3 .leaf (.cut 0 .leaf .leaf)))))
theorem h93 : check par t93 [24384, 12416, 12416, 12160] [64, 128, 128, 128] st = true := by decide +kernel
def t94 : Tree := (.ref (.cut 0 (.cut 1 (.cut 2 (.cut 3 .leaf .leaf) .leaf) (.cut 2 .leaf .leaf)) (.cut 1 (.cut 2 (.cut 3 .leaf .leaf) .leaf) (.cut 2 .leaf .leaf))))
theorem h94 : check par t94 [24512, 12352, 12352, 12096] [64, 64, 64, 64] st = true := by decide +kernel
def t95 : Tree := (.ref (.cut 1 (.cut 2 (.cut 3 (.cut 0 (.cut 1 (.cut 2 .leaf .leaf) .leaf) (.cut 1 (.cut 2 (.cut 3 .leaf (.cut 0 .leaf .leaf)) .leaf) (.cut 2 .leaf .leaf))) (.cut 0 (.cut 1 .leaf .leaf) (.cut 1 (.cut 2 (.cut 3 (.cut 0 .leaf (.cut 1 .leaf .leaf)) (.cut 0 .leaf .leaf)) (.cut 3 (.cut 0 .leaf .leaf) .leaf)) (.cut 2 (.cut 3 (.cut 0 .leaf .leaf) .leaf) (.cut 3 .leaf .leaf))))) (.cut 3 (.cut 0 .leaf .leaf) (.cut 0 .leaf (.cut 1 .out (.cut 2 .leaf .out))))) (.cut 2 (.cut 3 (.cut 0 .leaf .leaf) (.cut 0 .leaf (.cut 1 (.cut 2 .leaf .leaf) .leaf))) (.cut 3 .leaf (.cut 0 .leaf .leaf)))))
theorem h95 : check par t95 [24480, 12352, 12352, 12224] [32, 64, 64, 64] st = true := by decide +kernel
def t96 : Tree := (.ref (.cut 3 (.cut 0 (.cut 1 (.cut 2 (.cut 3 .leaf .leaf) .leaf) (.cut 2 .leaf .leaf)) (.cut 1 (.cut 2 (.cut 3 .leaf .leaf) .leaf) (.cut 2 .leaf .leaf))) (.cut 0 (.cut 1 (.cut 2 (.cut 3 (.cut 0 (.cut 1 (.cut 2 .leaf .leaf) (.cut 2 .leaf .leaf)) (.cut 1 (.cut 2 .leaf .leaf) (.cut 2 .leaf .leaf))) (.cut 0 .leaf .leaf)) (.cut 3 (.cut 0 .leaf .leaf) (.cut 0 .leaf .leaf))) (.cut 2 (.cut 3 (.cut 0 .leaf .leaf) (.cut 0 .leaf .leaf)) (.cut 3 .leaf (.cut 0 .leaf .leaf)))) (.cut 1 (.cut 2 (.cut 3 (.cut 0 (.cut 1 .leaf .leaf) .leaf) (.cut 0 .leaf .leaf)) (.cut 3 (.cut 0 .leaf .leaf) (.cut 0 .leaf .leaf))) (.cut 2 (.cut 3 (.cut 0 .leaf .leaf) (.cut 0 .leaf .leaf)) (.cut 3 .leaf .leaf))))))
theorem h96 : check par t96 [24544, 12320, 12320, 12224] [32, 32, 32, 64] st = true := by decide +kernel
def t97 : Tree := (.ref (.cut 3 (.cut 0 .leaf .leaf) (.cut 0 (.cut 1 .out (.cut 2 (.cut 3 .leaf .leaf) .out)) (.cut 1 .out (.cut 2 (.cut 3 .leaf .leaf) .out)))))
theorem h97 : check par t97 [24544, 12320, 12384, 12224] [32, 32, 32, 64] st = true := by decide +kernel
def t98 : Tree := (.ref (.cut 2 (.cut 3 (.cut 0 .leaf .leaf) (.cut 0 (.cut 1 (.cut 2 (.cut 3 .leaf .leaf) (.cut 3 .leaf .leaf)) .leaf) (.cut 1 (.cut 2 (.cut 3 .leaf .leaf) (.cut 3 .leaf .leaf)) .leaf))) (.cut 3 .leaf (.cut 0 (.cut 1 .leaf .leaf) (.cut 1 .leaf .leaf)))))
theorem h98 : check par t98 [24544, 12384, 12352, 12224] [32, 32, 64, 64] st = true := by decide +kernel
def t99 : Tree := (.ref (.cut 3 (.cut 0 .leaf .leaf) (.cut 0 (.cut 1 .out (.cut 2 (.cut 3 .leaf .leaf) .out)) (.cut 1 .out (.cut 2 (.cut 3 .leaf .leaf) .out)))))
theorem h99 : check par t99 [24512, 12352, 12480, 12160] [64, 64, 64, 128] st = true := by decide +kernel
def t100 : Tree := (.ref (.cut 2 (.cut 3 (.cut 0 .leaf .leaf) (.cut 0 (.cut 1 (.cut 2 (.cut 3 .leaf .leaf) (.cut 3 .leaf .leaf)) .leaf) (.cut 1 (.cut 2 (.cut 3 .leaf .leaf) (.cut 3 .leaf .leaf)) .leaf))) (.cut 3 .leaf (.cut 0 (.cut 1 .leaf .leaf) (.cut 1 (.cut 2 .leaf .leaf) .leaf)))))
theorem h100 : check par t100 [24512, 12480, 12416, 12160] [64, 64, 128, 128] st = true := by decide +kernel
def t101 : Tree := (.ref (.cut 3 (.cut 0 .leaf .leaf) (.cut 0 (.cut 1 .out (.cut 2 .leaf .out)) (.cut 1 .out (.cut 2 (.cut 3 .leaf .leaf) .out)))))
theorem h101 : check par t101 [24448, 12416, 12672, 12032] [128, 128, 128, 256] st = true := by decide +kernel
def t102 : Tree := (.ref (.cut 2 (.cut 3 (.cut 0 .leaf .leaf) (.cut 0 (.cut 1 (.cut 2 .leaf .leaf) .leaf) (.cut 1 (.cut 2 (.cut 3 .leaf .leaf) (.cut 3 .leaf .leaf)) .leaf))) (.cut 3 .leaf (.cut 0 (.cut 1 .leaf .leaf) (.cut 1 (.cut 2 .leaf .leaf) .leaf)))))
theorem h102 : check par t102 [24448, 12672, 12544, 12032] [128, 128, 256, 256] st = true := by decide +kernel
def t103 : Tree := (.ref (.cut 3 .leaf (.cut 0 (.cut 1 .out (.cut 2 .leaf .out)) (.cut 1 .out (.cut 2 (.cut 3 .leaf .leaf) .out)))))
theorem h103 : check par t103 [24320, 12544, 13056, 11776] [256, 256, 256, 512] st = true := by decide +kernel
def t104 : Tree := (.ref (.cut 2 (.cut 3 .leaf (.cut 0 (.cut 1 .leaf .leaf) (.cut 1 (.cut 2 (.cut 3 .leaf .leaf) (.cut 3 .leaf .leaf)) .leaf))) (.cut 3 .leaf (.cut 0 .leaf (.cut 1 (.cut 2 .leaf .leaf) .leaf)))))
theorem h104 : check par t104 [24320, 13056, 12800, 11776] [256, 256, 512, 512] st = true := by decide +kernel
def t105 : Tree := (.ref (.cut 3 .leaf (.cut 0 (.cut 1 .out .leaf) (.cut 1 .out (.cut 2 (.cut 3 .leaf .leaf) .out)))))
theorem h105 : check par t105 [24064, 12800, 13824, 11264] [512, 512, 512, 1024] st = true := by decide +kernel
def t106 : Tree := (.ref (.cut 2 (.cut 3 .leaf (.cut 0 (.cut 1 .leaf .leaf) (.cut 1 (.cut 2 (.cut 3 .leaf .leaf) (.cut 3 .leaf .leaf)) .leaf))) (.cut 3 .leaf (.cut 0 .leaf (.cut 1 (.cut 2 .leaf .leaf) .leaf)))))
theorem h106 : check par t106 [24064, 13824, 13312, 11264] [512, 512, 1024, 1024] st = true := by decide +kernel
def t107 : Tree := (.ref (.cut 3 (.cut 0 .leaf .leaf) (.cut 0 (.cut 1 .out .leaf) (.cut 1 .out (.cut 2 (.cut 3 .leaf .leaf) .out)))))
theorem h107 : check par t107 [23552, 13312, 15360, 10240] [1024, 1024, 1024, 2048] st = true := by decide +kernel
def t108 : Tree := (.ref (.cut 2 (.cut 3 (.cut 0 .leaf .leaf) (.cut 0 (.cut 1 .leaf .leaf) (.cut 1 (.cut 2 (.cut 3 .leaf .leaf) (.cut 3 .leaf .leaf)) .leaf))) (.cut 3 .leaf (.cut 0 .leaf (.cut 1 (.cut 2 .leaf .leaf) .leaf)))))
theorem h108 : check par t108 [23552, 15360, 14336, 10240] [1024, 1024, 2048, 2048] st = true := by decide +kernel
def t109 : Tree := (.ref (.cut 1 (.cut 2 (.cut 3 (.cut 0 .leaf .leaf) .leaf) (.ref (.cut 3 .leaf .leaf))) (.cut 2 (.ref (.cut 3 .leaf .leaf)) .leaf)))
theorem h109 : check par t109 [21504, 14336, 14336, 14336] [1024, 2048, 2048, 2048] st = true := by decide +kernel
def t110 : Tree := (.ref (.cut 1 (.cut 2 (.cut 3 (.cut 0 .leaf .leaf) .leaf) (.ref (.cut 3 .leaf .leaf))) (.cut 2 (.ref (.cut 3 .leaf .leaf)) .leaf)))
theorem h110 : check par t110 [23040, 13312, 13312, 13312] [512, 1024, 1024, 1024] st = true := by decide +kernel
def t111 : Tree := (.ref (.cut 1 (.cut 2 (.cut 3 (.cut 0 .leaf .leaf) .leaf) (.ref (.cut 3 .leaf .leaf))) (.cut 2 (.ref (.cut 3 .leaf .leaf)) .leaf)))
theorem h111 : check par t111 [23808, 12800, 12800, 12800] [256, 512, 512, 512] st = true := by decide +kernel
def t112 : Tree := (.ref (.cut 1 (.cut 2 (.cut 3 (.cut 0 .leaf .leaf) .leaf) (.ref (.cut 3 .leaf .leaf))) (.cut 2 (.ref (.cut 3 .leaf .leaf)) .leaf)))
theorem h112 : check par t112 [24192, 12544, 12544, 12544] [128, 256, 256, 256] st = true := by decide +kernel
def t113 : Tree := (.ref (.cut 1 (.cut 2 (.cut 3 (.cut 0 .leaf (.cut 1 (.cut 2 .leaf .leaf) .leaf)) (.ref (.cut 0 .leaf .leaf))) (.ref (.cut 3 (.cut 0 .leaf .leaf) (.cut 0 .leaf .leaf)))) (.cut 2 (.ref (.cut 3 (.cut 0 .leaf .leaf) (.cut 0 .leaf .leaf))) (.cut 3 (.ref (.cut 0 .leaf .leaf)) .leaf))))
theorem h113 : check par t113 [24384, 12416, 12416, 12416] [64, 128, 128, 128] st = true := by decide +kernel
def t114 : Tree := (.ref (.cut 1 (.cut 2 (.cut 3 (.cut 0 .leaf (.cut 1 (.cut 2 (.cut 3 .leaf .leaf) (.ref (.cut 3 .leaf .leaf))) (.cut 2 (.ref (.cut 3 .leaf .leaf)) .leaf))) (.ref (.cut 0 .leaf .leaf))) (.ref (.cut 3 (.cut 0 .leaf .leaf) (.cut 0 .leaf .leaf)))) (.cut 2 (.ref (.cut 3 (.cut 0 .leaf .leaf) (.cut 0 .leaf .leaf))) (.cut 3 (.ref (.cut 0 .leaf .leaf)) .leaf))))
theorem h114 : check par t114 [24480, 12352, 12352, 12352] [32, 64, 64, 64] st = true := by decide +kernel
def t115 : Tree := (.ref (.cut 1 (.cut 2 (.cut 3 (.cut 0 (.cut 1 (.cut 2 (.cut 3 (.cut 0 .leaf .leaf) (.ref (.cut 0 .leaf .leaf))) (.ref (.cut 3 (.cut 0 .leaf .leaf) .leaf))) (.cut 2 (.ref (.cut 3 (.cut 0 .leaf .leaf) .leaf)) (.cut 3 .leaf .leaf))) (.cut 1 (.cut 2 (.cut 3 (.cut 0 .leaf .leaf) .leaf) (.ref (.cut 3 .leaf .leaf))) (.cut 2 (.ref (.cut 3 .leaf .leaf)) .leaf))) (.ref (.cut 0 (.cut 1 (.cut 2 .out .leaf) (.cut 2 .out .leaf)) (.cut 1 (.cut 2 .out .leaf) .leaf)))) (.ref (.cut 3 (.cut 0 (.cut 1 .out (.cut 2 .leaf .out)) (.cut 1 .out .leaf)) (.cut 0 .leaf .leaf)))) (.cut 2 (.ref (.cut 3 (.cut 0 (.cut 1 .leaf .leaf) (.cut 1 .leaf .leaf)) (.cut 0 .leaf .leaf))) (.cut 3 (.ref (.cut 0 .leaf .leaf)) .leaf))))
theorem h115 : check par t115 [24544, 12352, 12352, 12352] [32, 64, 64, 64] st = true := by decide +kernel
def t116 : Tree := (.ref (.cut 0 (.cut 1 (.cut 2 .out (.cut 3 .leaf .out)) (.cut 2 .out .leaf)) (.cut 1 (.cut 2 .out (.cut 3 .leaf .out)) (.cut 2 .out (.cut 3 .leaf .out)))))
theorem h116 : check par t116 [24512, 12352, 12352, 12480] [64, 64, 64, 64] st = true := by decide +kernel
def t117 : Tree := (.ref (.cut 3 (.cut 0 (.cut 1 .out (.cut 2 .leaf .out)) (.cut 1 .out (.cut 2 (.cut 3 .leaf .leaf) .out))) (.cut 0 (.cut 1 .out .leaf) (.cut 1 .out (.cut 2 .leaf .out)))))
theorem h117 : check par t117 [24512, 12352, 12480, 12416] [64, 64, 64, 128] st = true := by decide +kernel
def t118 : Tree := (.ref (.cut 2 (.ref (.cut 3 (.cut 0 (.cut 1 .leaf .leaf) (.cut 1 (.cut 2 (.cut 3 .leaf .leaf) (.cut 3 .leaf .leaf)) .leaf)) (.cut 0 (.cut 1 .leaf .leaf) (.cut 1 (.cut 2 .out .leaf) .leaf)))) (.cut 3 (.ref (.cut 0 (.cut 1 .leaf .leaf) (.cut 1 (.cut 2 .leaf .leaf) .leaf))) (.cut 0 .leaf .leaf))))
theorem h118 : check par t118 [24512, 12480, 12416, 12416] [64, 64, 128, 128] st = true := by decide +kernel
def t119 : Tree := (.ref (.cut 0 (.cut 1 (.cut 2 .out .leaf) (.cut 2 .out .leaf)) (.cut 1 (.cut 2 .out (.cut 3 (.cut 0 .leaf .leaf) .out)) (.cut 2 .out (.cut 3 .leaf .out)))))
theorem h119 : check par t119 [24448, 12416, 12416, 12672] [128, 128, 128, 128] st = true := by decide +kernel
def t120 : Tree := (.ref (.cut 3 (.cut 0 (.cut 1 .out (.cut 2 .leaf .out)) (.cut 1 .out (.cut 2 (.cut 3 (.ref (.cut 0 .leaf .leaf)) .leaf) .out))) (.cut 0 (.cut 1 .out .leaf) (.cut 1 .out (.cut 2 (.cut 3 .leaf .leaf) .out)))))
theorem h120 : check par t120 [24448, 12416, 12672, 12544] [128, 128, 128, 256] st = true := by decide +kernel
def t121 : Tree := (.ref (.cut 2 (.ref (.cut 3 (.cut 0 (.cut 1 .leaf .leaf) (.cut 1 (.cut 2 (.cut 3 (.cut 0 .leaf .leaf) (.ref (.cut 0 .leaf .leaf))) (.cut 3 (.ref (.cut 0 .leaf .leaf)) .leaf)) .leaf)) (.cut 0 (.cut 1 .leaf .leaf) (.cut 1 (.cut 2 .out (.cut 3 .leaf .out)) .leaf)))) (.cut 3 (.ref (.cut 0 (.cut 1 .leaf .leaf) (.cut 1 (.cut 2 (.cut 3 .leaf .leaf) .leaf) .leaf))) (.cut 0 .leaf (.cut 1 .leaf .leaf)))))
theorem h121 : check par t121 [24448, 12672, 12544, 12544] [128, 128, 256, 256] st = true := by decide +kernel
def t122 : Tree := (.ref (.cut 0 (.cut 1 .leaf .leaf) (.cut 1 (.cut 2 .out (.cut 3 (.cut 0 .leaf .leaf) .out)) (.cut 2 .out (.cut 3 .leaf .out)))))
theorem h122 : check par t122 [24320, 12544, 12544, 13056] [256, 256, 256, 256] st = true := by decide +kernel
def t123 : Tree := (.ref (.cut 3 (.cut 0 (.cut 1 .out .leaf) (.cut 1 .out (.cut 2 (.cut 3 (.ref (.cut 0 .leaf .leaf)) .leaf) .out))) (.cut 0 (.cut 1 .out .leaf) (.cut 1 .out (.cut 2 (.cut 3 .leaf .leaf) .out)))))
theorem h123 : check par t123 [24320, 12544, 13056, 12800] [256, 256, 256, 512] st = true := by decide +kernel
def t124 : Tree := (.ref (.cut 2 (.ref (.cut 3 (.cut 0 (.cut 1 .leaf .leaf) (.cut 1 (.cut 2 (.cut 3 (.cut 0 .leaf .leaf) (.ref (.cut 0 .leaf .leaf))) (.cut 3 (.ref (.cut 0 .leaf .leaf)) .leaf)) .leaf)) (.cut 0 (.cut 1 .leaf .leaf) (.cut 1 (.cut 2 .out (.cut 3 .leaf .out)) (.cut 2 .out .leaf))))) (.cut 3 (.ref (.cut 0 (.cut 1 .leaf .leaf) (.cut 1 (.cut 2 (.cut 3 .leaf .leaf) .leaf) (.cut 2 .leaf .leaf)))) (.cut 0 .leaf (.cut 1 (.cut 2 .leaf .leaf) .leaf)))))
theorem h124 : check par t124 [24320, 13056, 12800, 12800] [256, 256, 512, 512] st = true := by decide +kernel
def t125 : Tree := (.ref (.cut 0 .leaf (.cut 1 (.cut 2 .out (.cut 3 (.cut 0 .leaf .leaf) .out)) (.cut 2 .out (.cut 3 .leaf .out)))))
theorem h125 : check par t125 [24064, 12800, 12800, 13824] [512, 512, 512, 512] st = true := by decide +kernel
def t126 : Tree := (.ref (.cut 3 (.cut 0 .leaf (.cut 1 .out (.cut 2 (.cut 3 (.ref (.cut 0 .leaf .leaf)) .leaf) .out))) (.cut 0 (.ref .leaf) (.cut 1 .out (.cut 2 (.cut 3 .leaf .leaf) .out)))))
theorem h126 : check par t126 [24064, 12800, 13824, 13312] [512, 512, 512, 1024] st = true := by decide +kernel
def t127 : Tree := (.ref (.cut 2 (.ref (.cut 3 (.cut 0 .leaf (.cut 1 (.cut 2 (.cut 3 (.cut 0 .leaf .leaf) (.ref (.cut 0 .leaf .leaf))) (.cut 3 (.ref (.cut 0 .leaf .leaf)) .leaf)) .leaf)) (.cut 0 (.ref .leaf) (.cut 1 (.cut 2 .out (.cut 3 .leaf .out)) (.cut 2 .out .leaf))))) (.cut 3 (.ref (.cut 0 .leaf (.cut 1 (.cut 2 (.cut 3 .leaf .leaf) .leaf) (.cut 2 .leaf .leaf)))) (.cut 0 .leaf (.cut 1 (.cut 2 .leaf .leaf) .leaf)))))
theorem h127 : check par t127 [24064, 13824, 13312, 13312] [512, 512, 1024, 1024] st = true := by decide +kernel
def t128 : Tree := (.ref (.cut 0 .leaf (.cut 1 (.cut 2 .out (.cut 3 (.cut 0 .leaf .leaf) .out)) (.cut 2 .out (.cut 3 .leaf .out)))))
theorem h128 : check par t128 [23552, 13312, 13312, 15360] [1024, 1024, 1024, 1024] st = true := by decide +kernel
def t129 : Tree := (.ref (.cut 3 (.cut 0 .leaf (.cut 1 .out (.cut 2 (.cut 3 (.ref (.cut 0 .leaf .leaf)) .leaf) .out))) (.cut 0 .leaf (.cut 1 .out (.cut 2 (.cut 3 .leaf .leaf) .out)))))
theorem h129 : check par t129 [23552, 13312, 15360, 14336] [1024, 1024, 1024, 2048] st = true := by decide +kernel
def t130 : Tree := (.ref (.cut 2 (.ref (.cut 3 (.cut 0 .leaf (.cut 1 (.cut 2 (.cut 3 (.cut 0 .leaf .leaf) (.ref (.cut 0 .leaf .leaf))) (.cut 3 (.ref (.cut 0 .leaf .leaf)) .leaf)) .leaf)) (.cut 0 .leaf (.cut 1 (.cut 2 .out (.cut 3 .leaf .out)) (.cut 2 .out .leaf))))) (.cut 3 (.ref (.cut 0 .leaf (.cut 1 (.cut 2 (.cut 3 .leaf .leaf) .leaf) (.cut 2 .leaf .leaf)))) (.cut 0 .leaf (.cut 1 (.cut 2 .leaf .leaf) .leaf)))))
theorem h130 : check par t130 [23552, 15360, 14336, 14336] [1024, 1024, 2048, 2048] st = true := by decide +kernel
def t131 : Tree := (.ref (.cut 0 (.cut 1 (.cut 2 (.ref (.cut 3 (.cut 0 .leaf .leaf) (.ref (.cut 0 .leaf .leaf)))) (.ref (.cut 3 (.ref (.cut 0 .leaf .leaf)) (.cut 0 .leaf (.ref (.cut 1 .out .leaf)))))) (.cut 2 (.ref (.cut 3 (.ref (.cut 0 .leaf .leaf)) (.cut 0 .leaf (.ref (.cut 1 .leaf .leaf))))) (.cut 3 (.ref (.cut 0 .leaf (.ref (.cut 1 .leaf .leaf)))) (.cut 0 (.cut 1 (.cut 2 .leaf .leaf) (.cut 2 .leaf (.cut 3 .leaf (.cut 0 .leaf .leaf)))) (.cut 1 (.cut 2 .leaf .leaf) (.cut 2 .leaf (.cut 3 .leaf .leaf))))))) (.cut 1 (.cut 2 (.ref (.cut 3 (.cut 0 .leaf .leaf) (.ref (.cut 0 .leaf .leaf)))) (.ref (.cut 3 (.cut 0 .leaf .leaf) (.cut 0 .leaf .leaf)))) (.cut 2 (.ref (.cut 3 (.cut 0 .leaf .leaf) (.cut 0 .leaf .leaf))) (.cut 3 (.ref (.cut 0 .leaf .leaf)) (.cut 0 (.cut 1 .leaf (.cut 2 .leaf .leaf)) .leaf))))))
theorem h131 : check par t131 [28672, 4096, 4096, 4096] [4096, 4096, 4096, 4096] st = true := by decide +kernel
def t132 : Tree := (.ref (.cut 0 (.cut 1 (.cut 2 .out (.cut 3 (.cut 0 (.cut 1 .out .leaf) (.cut 1 .out .leaf)) .out)) (.cut 2 .out (.cut 3 (.cut 0 (.cut 1 (.cut 2 .out (.cut 3 .leaf .out)) (.cut 2 .out (.cut 3 (.cut 0 .leaf .leaf) .out))) (.cut 1 (.cut 2 .out (.cut 3 .leaf .out)) (.cut 2 .out (.cut 3 .leaf .out)))) .out))) (.cut 1 (.cut 2 .out (.cut 3 (.cut 0 .leaf .leaf) .out)) (.cut 2 .out (.cut 3 (.cut 0 (.cut 1 (.cut 2 .out .leaf) (.cut 2 .out .leaf)) (.cut 1 .leaf .leaf)) .out)))))
theorem h132 : check par t132 [28672, 4096, 4096, 12288] [4096, 4096, 4096, 4096] st = true := by decide +kernel
def t133 : Tree := (.ref (.cut 3 (.cut 0 (.cut 1 .out (.cut 2 (.cut 3 (.ref (.cut 0 (.cut 1 .out .leaf) (.cut 1 .out .leaf))) (.cut 0 (.cut 1 .out (.cut 2 (.cut 3 .leaf (.cut 0 .leaf .leaf)) .out)) (.cut 1 .out (.cut 2 (.cut 3 .leaf .leaf) .out)))) .out)) (.cut 1 .out (.cut 2 (.cut 3 (.ref (.cut 0 .leaf .leaf)) (.cut 0 (.cut 1 .out (.cut 2 .leaf .out)) (.cut 1 .out .leaf))) .out))) (.cut 0 (.cut 1 .out (.cut 2 (.cut 3 (.cut 0 (.cut 1 .out (.cut 2 (.cut 3 (.cut 0 .leaf .leaf) (.ref (.cut 0 .leaf .leaf))) .out)) (.cut 1 .out (.cut 2 (.cut 3 .leaf (.ref (.cut 0 .leaf .leaf))) .out))) (.ref (.cut 0 (.cut 1 .out (.cut 2 .out .out)) (.cut 1 .out (.cut 2 .out .out))))) .out)) (.cut 1 .out (.cut 2 (.cut 3 (.cut 0 (.cut 1 .out (.cut 2 .leaf .out)) (.cut 1 .out .leaf)) (.ref (.cut 0 (.cut 1 .out (.cut 2 .out .out)) .leaf))) .out)))))
theorem h133 : check par t133 [28672, 4096, 12288, 8192] [4096, 4096, 4096, 8192] st = true := by decide +kernel
def t134 : Tree := (.ref (.cut 1 (.cut 2 (.cut 3 (.ref (.cut 0 (.ref (.cut 1 .leaf .leaf)) (.cut 1 .leaf .leaf))) (.ref (.cut 0 (.cut 1 .leaf .leaf) (.cut 1 .leaf .leaf)))) (.ref (.cut 3 (.cut 0 (.cut 1 .leaf .leaf) (.cut 1 .leaf .leaf)) (.cut 0 (.cut 1 (.cut 2 (.cut 3 .leaf .leaf) (.cut 3 .leaf (.cut 0 .leaf .leaf))) (.cut 2 (.cut 3 .leaf .leaf) (.cut 3 .leaf (.cut 0 .leaf .leaf)))) (.cut 1 (.cut 2 .leaf (.cut 3 .leaf .leaf)) (.cut 2 .leaf (.cut 3 .leaf .leaf))))))) (.cut 2 (.cut 3 (.cut 0 .leaf .leaf) (.ref (.cut 0 .leaf .leaf))) (.cut 3 (.ref (.cut 0 .leaf .leaf)) (.cut 0 (.ref (.cut 1 (.cut 2 .leaf (.cut 3 .leaf .leaf)) .leaf)) (.cut 1 (.ref (.cut 2 .leaf .leaf)) .leaf))))))
theorem h134 : check par t134 [26624, 12288, 4096, 4096] [2048, 4096, 4096, 4096] st = true := by decide +kernel
def t135 : Tree := (.ref (.cut 1 (.cut 2 (.cut 3 (.ref (.cut 0 .leaf .leaf)) (.ref (.cut 0 .leaf .leaf))) (.cut 3 (.ref (.cut 0 .leaf .leaf)) (.ref (.cut 0 (.cut 1 (.cut 2 .leaf .leaf) (.cut 2 .leaf .leaf)) (.cut 1 .leaf .leaf))))) (.cut 2 (.cut 3 (.cut 0 .leaf .leaf) (.ref (.cut 0 .leaf .leaf))) (.cut 3 (.ref (.cut 0 .leaf .leaf)) (.cut 0 (.cut 1 .leaf .leaf) .leaf)))))
theorem h135 : check par t135 [30720, 12288, 4096, 4096] [2048, 4096, 4096, 4096] st = true := by decide +kernel
def t136 : Tree := (.ref (.cut 0 (.cut 1 (.ref (.cut 2 .out (.cut 3 (.cut 0 (.cut 1 (.cut 2 .out (.cut 3 (.cut 0 .leaf .leaf) .out)) (.cut 2 .out (.cut 3 (.cut 0 .leaf .leaf) .out))) (.cut 1 (.cut 2 .out (.cut 3 .leaf .out)) (.cut 2 .out (.cut 3 (.cut 0 .leaf .leaf) .out)))) .out))) (.cut 2 .out (.ref (.cut 3 (.cut 0 (.cut 1 (.cut 2 .out (.cut 3 (.cut 0 .leaf .leaf) .out)) (.cut 2 .out .leaf)) (.cut 1 (.cut 2 .out (.cut 3 .leaf .out)) .leaf)) .out)))) (.cut 1 (.ref (.cut 2 .out (.cut 3 (.cut 0 (.cut 1 (.cut 2 .out .leaf) (.cut 2 .out .leaf)) (.cut 1 .leaf .leaf)) .out))) (.cut 2 .out (.cut 3 (.cut 0 (.ref (.cut 1 .leaf .leaf)) .leaf) .out)))))
theorem h136 : check par t136 [28672, 12288, 4096, 12288] [4096, 4096, 4096, 4096] st = true := by decide +kernel
def t137 : Tree := (.ref (.cut 2 (.cut 3 (.cut 0 (.cut 1 .leaf .leaf) (.cut 1 .leaf .leaf)) (.cut 0 (.cut 1 (.cut 2 (.cut 3 .leaf (.cut 0 .leaf .leaf)) (.cut 3 .leaf (.cut 0 .leaf .leaf))) (.cut 2 (.cut 3 .leaf (.cut 0 .leaf .leaf)) (.cut 3 .leaf (.cut 0 .leaf .leaf)))) (.cut 1 (.cut 2 (.cut 3 .leaf .leaf) (.cut 3 .leaf (.cut 0 .leaf .leaf))) (.cut 2 (.cut 3 .leaf (.cut 0 .leaf .leaf)) (.cut 3 .leaf .leaf))))) (.cut 3 (.cut 0 .leaf .leaf) (.cut 0 (.cut 1 .out (.cut 2 (.cut 3 .leaf (.cut 0 .leaf .leaf)) .out)) (.cut 1 .out (.cut 2 (.cut 3 .leaf .leaf) .out))))))
theorem h137 : check par t137 [26624, 10240, 12288, 4096] [2048, 2048, 4096, 4096] st = true := by decide +kernel
def t138 : Tree := (.ref (.cut 2 (.ref (.cut 3 (.ref (.cut 0 .leaf .leaf)) (.ref (.cut 0 (.cut 1 (.cut 2 (.cut 3 .leaf (.cut 0 .leaf .leaf)) (.cut 3 .leaf (.cut 0 .leaf .leaf))) (.cut 2 .leaf .leaf)) (.cut 1 (.cut 2 (.cut 3 .leaf .leaf) (.cut 3 .leaf .leaf)) .leaf))))) (.ref (.cut 3 (.cut 0 .leaf .leaf) (.ref (.cut 0 (.cut 1 (.cut 2 (.cut 3 .leaf .leaf) .leaf) (.cut 2 .leaf .leaf)) (.cut 1 (.cut 2 (.cut 3 .leaf .leaf) .leaf) .leaf)))))))
theorem h138 : check par t138 [26624, 14336, 12288, 4096] [2048, 2048, 4096, 4096] st = true := by decide +kernel
def t139 : Tree := (.ref (.cut 1 (.ref (.cut 2 (.cut 3 (.cut 0 .leaf .leaf) (.cut 0 (.cut 1 (.cut 2 .leaf .leaf) (.cut 2 .leaf .leaf)) (.cut 1 .leaf .leaf))) (.cut 3 (.cut 0 .leaf .leaf) (.cut 0 (.cut 1 .out (.cut 2 .leaf .out)) .leaf)))) (.cut 2 (.ref (.cut 3 (.cut 0 .leaf .leaf) (.cut 0 (.ref (.cut 1 .leaf .leaf)) .leaf))) (.ref (.cut 3 .leaf (.ref (.cut 0 (.cut 1 .leaf .leaf) .leaf)))))))
theorem h139 : check par t139 [30720, 12288, 12288, 4096] [2048, 4096, 4096, 4096] st = true := by decide +kernel
def t140 : Tree := (.ref (.cut 2 (.cut 3 (.cut 0 (.cut 1 .leaf (.cut 2 .leaf (.cut 3 .leaf .leaf))) (.cut 1 .leaf .leaf)) (.ref (.cut 0 (.cut 1 (.cut 2 .out .leaf) (.cut 2 .out (.cut 3 .leaf .out))) (.cut 1 .leaf (.cut 2 .out .leaf))))) (.ref (.cut 3 (.cut 0 (.cut 1 .out (.cut 2 (.cut 3 .leaf .leaf) .out)) (.cut 1 .out (.cut 2 .leaf .out))) (.cut 0 (.cut 1 .out (.cut 2 (.cut 3 (.cut 0 .leaf .leaf) (.ref (.cut 0 .leaf .leaf))) .out)) (.cut 1 .out (.cut 2 .leaf .out)))))))
theorem h140 : check par t140 [25600, 9216, 10240, 10240] [1024, 1024, 2048, 2048] st = true := by decide +kernel
def t141 : Tree := (.ref (.cut 3 (.cut 0 (.cut 1 (.cut 2 .leaf (.cut 3 .leaf .leaf)) (.cut 2 .leaf (.cut 3 .leaf (.cut 0 .leaf .leaf)))) (.cut 1 (.cut 2 .leaf .leaf) (.cut 2 .leaf .leaf))) (.cut 0 (.cut 1 (.cut 2 .out (.cut 3 (.cut 0 .leaf .leaf) .out)) (.cut 2 .out (.cut 3 (.ref (.cut 0 .leaf .leaf)) .out))) (.cut 1 (.cut 2 .out .leaf) (.cut 2 .out .leaf)))))
theorem h141 : check par t141 [25600, 11264, 9216, 10240] [1024, 1024, 1024, 2048] st = true := by decide +kernel
def t142 : Tree := (.ref (.cut 0 (.cut 1 (.cut 2 (.cut 3 .leaf (.cut 0 .leaf .leaf)) (.cut 3 .leaf (.cut 0 .leaf .leaf))) (.cut 2 (.cut 3 .leaf (.cut 0 .leaf .leaf)) (.cut 3 .leaf (.cut 0 .leaf .leaf)))) (.cut 1 (.cut 2 .leaf (.cut 3 .leaf .leaf)) (.cut 2 (.cut 3 .leaf .leaf) (.cut 3 .leaf .leaf)))))
theorem h142 : check par t142 [25600, 11264, 11264, 9216] [1024, 1024, 1024, 1024] st = true := by decide +kernel
def t143 : Tree := (.ref (.cut 2 (.cut 3 (.cut 0 (.cut 1 .leaf (.cut 2 .leaf .leaf)) .leaf) (.ref (.cut 0 (.cut 1 (.cut 2 .out .leaf) (.cut 2 .out (.cut 3 .leaf .out))) (.cut 1 .leaf .leaf)))) (.ref (.cut 3 (.cut 0 (.cut 1 .out (.cut 2 (.cut 3 .leaf .leaf) .out)) (.cut 1 .out .leaf)) (.cut 0 (.cut 1 .out (.cut 2 (.cut 3 .leaf (.ref (.cut 0 .leaf .leaf))) .out)) (.cut 1 .out .leaf))))))
theorem h143 : check par t143 [25088, 10752, 11264, 11264] [512, 512, 1024, 1024] st = true := by decide +kernel
def t144 : Tree := (.ref (.cut 3 (.cut 0 (.cut 1 (.cut 2 .leaf (.cut 3 .leaf .leaf)) (.cut 2 .leaf (.cut 3 .leaf .leaf))) (.cut 1 .leaf .leaf)) (.cut 0 (.cut 1 (.cut 2 .out (.cut 3 .leaf .out)) (.cut 2 .out (.cut 3 (.ref (.cut 0 .leaf .leaf)) .out))) (.cut 1 (.cut 2 .out .leaf) (.cut 2 .out .leaf)))))
theorem h144 : check par t144 [25088, 11776, 10752, 11264] [512, 512, 512, 1024] st = true := by decide +kernel
def t145 : Tree := (.ref (.cut 0 (.cut 1 (.cut 2 (.cut 3 .leaf .leaf) (.cut 3 .leaf (.cut 0 .leaf .leaf))) (.cut 2 (.cut 3 .leaf (.cut 0 .leaf .leaf)) (.cut 3 .leaf (.cut 0 .leaf .leaf)))) (.cut 1 (.cut 2 .leaf .leaf) (.cut 2 .leaf .leaf))))
theorem h145 : check par t145 [25088, 11776, 11776, 10752] [512, 512, 512, 512] st = true := by decide +kernel
def t146 : Tree := (.ref (.cut 2 (.cut 3 (.cut 0 (.cut 1 .leaf (.cut 2 .leaf .leaf)) .leaf) (.ref (.cut 0 (.cut 1 (.cut 2 .out .leaf) (.cut 2 .out (.cut 3 .leaf .out))) (.cut 1 .leaf .leaf)))) (.ref (.cut 3 (.cut 0 (.cut 1 .out (.cut 2 (.cut 3 .leaf .leaf) .out)) (.cut 1 .out .leaf)) (.cut 0 (.cut 1 .out (.cut 2 (.cut 3 .leaf (.ref (.cut 0 .leaf .leaf))) .out)) .leaf)))))
theorem h146 : check par t146 [24832, 11520, 11776, 11776] [256, 256, 512, 512] st = true := by decide +kernel
def t147 : Tree := (.ref (.cut 3 (.cut 0 (.cut 1 (.cut 2 .leaf (.cut 3 .leaf .leaf)) (.cut 2 .leaf (.cut 3 .leaf .leaf))) (.cut 1 .leaf .leaf)) (.cut 0 (.cut 1 (.cut 2 .out (.cut 3 .leaf .out)) (.cut 2 .out (.cut 3 (.ref (.cut 0 .leaf .leaf)) .out))) .leaf)))
theorem h147 : check par t147 [24832, 12032, 11520, 11776] [256, 256, 256, 512] st = true := by decide +kernel
def t148 : Tree := (.ref (.cut 0 (.cut 1 (.cut 2 (.cut 3 .leaf .leaf) (.cut 3 .leaf (.cut 0 .leaf .leaf))) (.cut 2 (.cut 3 .leaf (.cut 0 .leaf .leaf)) (.cut 3 .leaf (.cut 0 .leaf .leaf)))) .leaf))
theorem h148 : check par t148 [24832, 12032, 12032, 11520] [256, 256, 256, 256] st = true := by decide +kernel
def t149 : Tree := (.ref (.cut 2 (.cut 3 (.cut 0 (.cut 1 .leaf .leaf) .leaf) (.ref (.cut 0 (.cut 1 (.cut 2 .out .leaf) (.cut 2 .out (.cut 3 .leaf .out))) .leaf))) (.ref (.cut 3 (.cut 0 (.cut 1 .out (.cut 2 (.cut 3 .leaf .leaf) .out)) .leaf) (.cut 0 (.cut 1 .out (.cut 2 (.cut 3 .leaf (.ref (.cut 0 .leaf .leaf))) .out)) .leaf)))))
theorem h149 : check par t149 [24704, 11904, 12032, 12032] [128, 128, 256, 256] st = true := by decide +kernel
def t150 : Tree := (.ref (.cut 3 (.cut 0 (.cut 1 (.cut 2 .leaf (.cut 3 .leaf .leaf)) (.cut 2 .leaf (.cut 3 .leaf .leaf))) .leaf) (.cut 0 (.cut 1 (.cut 2 .out (.cut 3 .leaf .out)) (.cut 2 .out (.cut 3 (.ref (.cut 0 .leaf .leaf)) .out))) .leaf)))
theorem h150 : check par t150 [24704, 12160, 11904, 12032] [128, 128, 128, 256] st = true := by decide +kernel
def t151 : Tree := (.ref (.cut 0 (.cut 1 (.cut 2 (.cut 3 .leaf .leaf) (.cut 3 .leaf (.cut 0 .leaf .leaf))) (.cut 2 (.cut 3 .leaf (.cut 0 .leaf .leaf)) (.cut 3 .leaf (.cut 0 .leaf .leaf)))) .leaf))
theorem h151 : check par t151 [24704, 12160, 12160, 11904] [128, 128, 128, 128] st = true := by decide +kernel
def t152 : Tree := (.ref (.cut 0 (.cut 1 (.cut 2 (.cut 3 (.cut 0 .leaf .leaf) (.ref (.cut 0 (.cut 1 .leaf (.cut 2 .out .leaf)) .leaf))) (.ref (.cut 3 (.cut 0 (.cut 1 .out (.cut 2 .leaf .out)) .leaf) (.cut 0 (.cut 1 .out (.cut 2 (.cut 3 .leaf .leaf) .out)) .leaf)))) (.cut 2 (.ref (.cut 3 (.cut 0 (.cut 1 (.cut 2 .leaf .leaf) (.cut 2 .leaf (.cut 3 .leaf .leaf))) .leaf) (.cut 0 (.cut 1 (.cut 2 .out (.cut 3 .leaf .out)) (.cut 2 .out (.cut 3 .leaf .out))) .leaf))) (.cut 3 (.ref (.cut 0 (.cut 1 (.cut 2 (.cut 3 .leaf .leaf) (.cut 3 .leaf .leaf)) (.cut 2 (.cut 3 .leaf .leaf) (.cut 3 .leaf .leaf))) .leaf)) (.cut 0 (.cut 1 (.cut 2 (.cut 3 .leaf (.ref (.cut 0 .leaf .leaf))) (.ref (.cut 3 (.cut 0 .leaf .leaf) (.cut 0 .leaf .leaf)))) (.cut 2 (.ref (.cut 3 (.cut 0 .leaf .leaf) (.cut 0 .leaf .leaf))) (.cut 3 (.ref (.cut 0 .leaf .leaf)) (.cut 0 (.cut 1 .leaf (.cut 2 .leaf .leaf)) .leaf)))) .leaf)))) (.cut 1 .leaf (.cut 2 .leaf (.cut 3 .leaf .leaf)))))
theorem h152 : check par t152 [24704, 12160, 12160, 12160] [128, 128, 128, 128] st = true := by decide +kernel
def t153 : Tree := (.ref (.cut 1 (.cut 2 .leaf (.ref (.cut 3 .leaf .leaf))) (.cut 2 (.ref (.cut 3 .leaf .leaf)) (.cut 3 .leaf .leaf))))
theorem h153 : check par t153 [24960, 12032, 12032, 12032] [128, 256, 256, 256] st = true := by decide +kernel
def t154 : Tree := (.ref (.cut 1 (.cut 2 .leaf (.ref (.cut 3 .leaf .leaf))) (.cut 2 (.ref (.cut 3 .leaf .leaf)) (.cut 3 .leaf (.cut 0 .leaf .leaf)))))
theorem h154 : check par t154 [25344, 11776, 11776, 11776] [256, 512, 512, 512] st = true := by decide +kernel
def t155 : Tree := (.ref (.cut 1 (.cut 2 (.cut 3 .leaf (.ref (.cut 0 .leaf .leaf))) (.ref (.cut 3 (.cut 0 .leaf .leaf) (.cut 0 .leaf .leaf)))) (.cut 2 (.ref (.cut 3 (.cut 0 .leaf .leaf) (.cut 0 .leaf .leaf))) (.cut 3 (.ref (.cut 0 .leaf .leaf)) (.cut 0 .leaf .leaf)))))
theorem h155 : check par t155 [26112, 11264, 11264, 11264] [512, 1024, 1024, 1024] st = true := by decide +kernel
def t156 : Tree := (.ref (.cut 1 (.cut 2 (.cut 3 (.cut 0 .leaf .leaf) (.ref (.cut 0 .leaf .leaf))) (.ref (.cut 3 (.cut 0 .leaf .leaf) (.cut 0 .leaf .leaf)))) (.cut 2 (.ref (.cut 3 (.cut 0 .leaf .leaf) (.cut 0 .leaf .leaf))) (.cut 3 (.ref (.cut 0 .leaf .leaf)) (.cut 0 .leaf .leaf)))))
theorem h156 : check par t156 [27648, 10240, 10240, 10240] [1024, 2048, 2048, 2048] st = true := by decide +kernel
def t157 : Tree := (.ref (.cut 0 (.cut 1 (.cut 2 .out (.cut 3 (.cut 0 (.cut 1 .out (.cut 2 .out .out)) (.cut 1 .out (.cut 2 .out .out))) .out)) (.cut 2 .out (.cut 3 (.cut 0 (.cut 1 (.cut 2 .out (.cut 3 (.cut 0 (.cut 1 .out (.cut 2 .out .out)) (.cut 1 .out .leaf)) .out)) (.cut 2 .out (.cut 3 (.cut 0 (.cut 1 (.cut 2 .out (.cut 3 (.cut 0 (.cut 1 .out (.cut 2 .out .out)) (.cut 1 .out .leaf)) .out)) (.cut 2 .out (.cut 3 (.cut 0 (.cut 1 (.cut 2 .out (.cut 3 (.cut 0 (.cut 1 .out (.cut 2 .out .out)) .leaf) .out)) (.cut 2 .out (.cut 3 (.cut 0 (.cut 1 (.cut 2 .out (.cut 3 (.cut 0 (.cut 1 .out (.cut 2 .out .out)) .leaf) .out)) (.cut 2 .out (.cut 3 (.cut 0 (.cut 1 (.cut 2 .out (.cut 3 (.cut 0 (.cut 1 .out .leaf) .leaf) .out)) (.cut 2 .out (.cut 3 (.cut 0 (.cut 1 (.cut 2 .out .leaf) (.cut 2 .out .leaf)) .leaf) .out))) (.cut 1 .leaf (.cut 2 .out .leaf))) .out))) (.cut 1 (.cut 2 .out (.cut 3 .leaf .out)) (.cut 2 .out (.cut 3 .leaf .out)))) .out))) (.cut 1 (.cut 2 .out (.cut 3 .leaf .out)) (.cut 2 .out (.cut 3 (.cut 0 .leaf .leaf) .out)))) .out))) (.cut 1 (.cut 2 .out (.cut 3 .leaf .out)) (.cut 2 .out (.cut 3 (.cut 0 .leaf .leaf) .out)))) .out))) (.cut 1 (.cut 2 .out (.cut 3 (.cut 0 .leaf .leaf) .out)) (.cut 2 .out (.cut 3 (.cut 0 (.cut 1 .leaf .leaf) .leaf) .out)))) .out))) (.cut 1 (.cut 2 .out (.cut 3 (.cut 0 .leaf .leaf) .out)) (.cut 2 .out (.cut 3 (.cut 0 (.cut 1 (.cut 2 .out .leaf) (.cut 2 .out .leaf)) .leaf) .out)))))
theorem h157 : check par t157 [26624, 10240, 10240, 14336] [2048, 2048, 2048, 2048] st = true := by decide +kernel
def t158 : Tree := (.ref (.cut 0 (.cut 1 .out (.cut 2 (.cut 3 (.cut 0 (.cut 1 .out (.cut 2 (.cut 3 .leaf .leaf) .out)) (.cut 1 .out (.cut 2 .leaf .out))) (.cut 0 (.cut 1 .out (.cut 2 (.cut 3 (.cut 0 (.cut 1 .out (.cut 2 (.cut 3 .leaf .leaf) .out)) (.cut 1 .out (.cut 2 .leaf .out))) (.cut 0 (.cut 1 .out (.cut 2 (.cut 3 (.cut 0 (.cut 1 .out (.cut 2 (.cut 3 .leaf .leaf) .out)) (.cut 1 .out .leaf)) (.cut 0 (.cut 1 .out (.cut 2 (.cut 3 (.cut 0 (.cut 1 .out (.cut 2 (.cut 3 .leaf .leaf) .out)) .leaf) (.cut 0 (.cut 1 .out (.cut 2 (.cut 3 (.cut 0 (.cut 1 .out (.cut 2 (.cut 3 .leaf .leaf) .out)) .leaf) (.cut 0 (.cut 1 .out (.cut 2 (.cut 3 (.cut 0 (.cut 1 .out .leaf) .leaf) (.cut 0 (.cut 1 .out (.cut 2 .leaf .out)) .leaf)) .out)) (.cut 1 .out (.cut 2 .leaf .out)))) .out)) (.cut 1 .out (.cut 2 (.cut 3 .leaf .leaf) .out)))) .out)) (.cut 1 .out (.cut 2 (.cut 3 .leaf (.cut 0 .leaf .leaf)) .out)))) .out)) (.cut 1 .out (.cut 2 (.cut 3 .leaf (.cut 0 .leaf .leaf)) .out)))) .out)) (.cut 1 .out (.cut 2 (.cut 3 (.cut 0 .leaf .leaf) (.cut 0 (.cut 1 .out .leaf) .leaf)) .out)))) .out)) (.cut 1 .out (.cut 2 (.cut 3 (.cut 0 .leaf .leaf) (.cut 0 (.cut 1 .out (.cut 2 .leaf .out)) .leaf)) .out))))
theorem h158 : check par t158 [26624, 10240, 14336, 10240] [2048, 2048, 2048, 2048] st = true := by decide +kernel
def t159 : Tree := (.ref (.cut 0 (.cut 1 .out (.cut 2 (.cut 3 (.cut 0 (.cut 1 .out (.cut 2 (.cut 3 (.cut 0 (.cut 1 .out (.cut 2 (.cut 3 (.cut 0 (.cut 1 .out (.cut 2 (.cut 3 (.cut 0 (.cut 1 .out (.cut 2 (.cut 3 (.cut 0 (.cut 1 .out (.cut 2 (.cut 3 (.cut 0 (.cut 1 .out .leaf) .leaf) (.cut 0 (.cut 1 .out .leaf) .leaf)) .out)) (.cut 1 .out .leaf)) (.cut 0 (.cut 1 .out (.cut 2 .out .out)) .leaf)) .out)) (.cut 1 .out (.cut 2 (.cut 3 .leaf .leaf) .out))) (.cut 0 (.cut 1 .out (.cut 2 .out .out)) (.cut 1 .out .leaf))) .out)) (.cut 1 .out (.cut 2 (.cut 3 (.cut 0 .leaf .leaf) (.ref .leaf)) .out))) (.cut 0 (.cut 1 .out (.cut 2 .out .out)) (.cut 1 .out .leaf))) .out)) (.cut 1 .out (.cut 2 (.cut 3 (.cut 0 .leaf .leaf) (.cut 0 .leaf .leaf)) .out))) (.cut 0 (.cut 1 .out (.cut 2 .out .out)) (.cut 1 .out (.cut 2 .out .out)))) .out)) (.cut 1 .out (.cut 2 (.cut 3 (.cut 0 (.cut 1 .out .leaf) .leaf) (.cut 0 .leaf .leaf)) .out))) (.cut 0 (.cut 1 .out (.cut 2 .out .out)) (.cut 1 .out (.cut 2 .out .out)))) .out)) (.cut 1 .out (.cut 2 (.cut 3 (.cut 0 (.cut 1 .out .leaf) .leaf) (.cut 0 .leaf .leaf)) .out))))
theorem h159 : check par t159 [26624, 10240, 14336, 14336] [2048, 2048, 2048, 2048] st = true := by decide +kernel
def t160 : Tree := (.ref (.cut 3 (.cut 0 (.cut 1 (.cut 2 .leaf .leaf) .leaf) (.cut 1 .leaf .leaf)) (.cut 0 (.cut 1 (.cut 2 .out (.cut 3 .leaf .out)) .leaf) (.cut 1 (.cut 2 .out .leaf) .leaf))))
theorem h160 : check par t160 [25600, 13312, 9216, 10240] [1024, 1024, 1024, 2048] st = true := by decide +kernel
def t161 : Tree := (.ref (.cut 0 (.cut 1 (.cut 2 (.cut 3 .leaf .leaf) (.cut 3 .leaf .leaf)) .leaf) (.cut 1 (.cut 2 .leaf .leaf) .leaf)))
theorem h161 : check par t161 [25600, 13312, 11264, 9216] [1024, 1024, 1024, 1024] st = true := by decide +kernel
def t162 : Tree := (.ref (.cut 3 (.cut 0 (.cut 1 (.cut 2 .leaf .leaf) .leaf) (.cut 1 .leaf .leaf)) (.cut 0 (.cut 1 (.cut 2 .out (.cut 3 .leaf .out)) .leaf) (.cut 1 .leaf .leaf))))
theorem h162 : check par t162 [25088, 12800, 10752, 11264] [512, 512, 512, 1024] st = true := by decide +kernel
def t163 : Tree := (.ref (.cut 0 (.cut 1 (.cut 2 (.cut 3 .leaf .leaf) (.cut 3 .leaf .leaf)) .leaf) (.cut 1 .leaf .leaf)))
theorem h163 : check par t163 [25088, 12800, 11776, 10752] [512, 512, 512, 512] st = true := by decide +kernel
def t164 : Tree := (.ref (.cut 3 (.cut 0 (.cut 1 (.cut 2 .leaf .leaf) .leaf) .leaf) (.cut 0 (.cut 1 (.cut 2 .out .leaf) .leaf) (.cut 1 .leaf .leaf))))
theorem h164 : check par t164 [24832, 12544, 11520, 11776] [256, 256, 256, 512] st = true := by decide +kernel
def t165 : Tree := (.ref (.cut 0 (.cut 1 (.cut 2 (.cut 3 .leaf .leaf) (.cut 3 .leaf .leaf)) .leaf) (.cut 1 .leaf .leaf)))
theorem h165 : check par t165 [24832, 12544, 12032, 11520] [256, 256, 256, 256] st = true := by decide +kernel
def t166 : Tree := (.ref (.cut 3 (.cut 0 (.cut 1 (.cut 2 .leaf .leaf) .leaf) .leaf) (.cut 0 (.cut 1 (.cut 2 .out (.cut 3 .leaf .out)) .leaf) .leaf)))
theorem h166 : check par t166 [24704, 12416, 11904, 12032] [128, 128, 128, 256] st = true := by decide +kernel
def t167 : Tree := (.ref (.cut 0 (.cut 1 (.cut 2 (.cut 3 .leaf .leaf) (.cut 3 .leaf .leaf)) .leaf) .leaf))
theorem h167 : check par t167 [24704, 12416, 12160, 11904] [128, 128, 128, 128] st = true := by decide +kernel
def t168 : Tree := (.ref (.cut 0 (.cut 1 (.cut 2 (.cut 3 (.cut 0 (.cut 1 .leaf .leaf) .leaf) (.cut 0 (.cut 1 (.cut 2 .out .leaf) .leaf) .leaf)) (.cut 3 (.cut 0 (.cut 1 (.cut 2 (.cut 3 .leaf .leaf) (.cut 3 .leaf .leaf)) .leaf) .leaf) (.cut 0 (.cut 1 (.cut 2 (.cut 3 (.cut 0 .leaf .leaf) (.cut 0 (.cut 1 .leaf .leaf) .leaf)) (.cut 3 (.cut 0 (.cut 1 .leaf .leaf) .leaf) (.cut 0 (.cut 1 .leaf (.cut 2 .leaf .leaf)) .leaf))) (.cut 2 (.cut 3 .leaf (.cut 0 .leaf .leaf)) (.cut 3 (.cut 0 .leaf .leaf) (.cut 0 (.cut 1 .leaf .leaf) .leaf)))) (.cut 1 .leaf .leaf)))) (.cut 2 (.cut 3 .leaf (.cut 0 .leaf .leaf)) (.cut 3 (.cut 0 .leaf .leaf) (.cut 0 (.cut 1 (.cut 2 .leaf .leaf) .leaf) .leaf)))) (.cut 1 (.cut 2 .leaf (.cut 3 .leaf .leaf)) (.cut 2 .leaf (.cut 3 .leaf .leaf)))))
theorem h168 : check par t168 [24704, 12416, 12160, 12160] [128, 128, 128, 128] st = true := by decide +kernel
def t169 : Tree := (.ref (.cut 2 (.cut 3 .leaf (.cut 0 .leaf .leaf)) (.cut 3 (.cut 0 .leaf .leaf) (.cut 0 (.cut 1 (.cut 2 .leaf (.cut 3 .leaf .leaf)) .leaf) (.cut 1 .leaf .leaf)))))
theorem h169 : check par t169 [24704, 12672, 12032, 12032] [128, 128, 256, 256] st = true := by decide +kernel
def t170 : Tree := (.ref (.cut 1 (.cut 2 (.cut 3 .leaf .leaf) (.cut 3 .leaf (.cut 0 .leaf .leaf))) (.cut 2 .leaf (.cut 3 .leaf (.cut 0 .leaf .leaf)))))
theorem h170 : check par t170 [24960, 12544, 12032, 12032] [128, 256, 256, 256] st = true := by decide +kernel
def t171 : Tree := (.ref (.cut 2 (.cut 3 .leaf (.cut 0 .leaf .leaf)) (.cut 3 (.cut 0 .leaf .leaf) (.cut 0 (.cut 1 (.cut 2 .leaf .leaf) .leaf) (.cut 1 .leaf .leaf)))))
theorem h171 : check par t171 [24832, 13056, 11776, 11776] [256, 256, 512, 512] st = true := by decide +kernel
def t172 : Tree := (.ref (.cut 1 (.cut 2 (.cut 3 .leaf .leaf) (.cut 3 .leaf (.cut 0 .leaf .leaf))) (.cut 2 .leaf (.cut 3 .leaf (.cut 0 .leaf .leaf)))))
theorem h172 : check par t172 [25344, 12800, 11776, 11776] [256, 512, 512, 512] st = true := by decide +kernel
def t173 : Tree := (.ref (.cut 2 (.cut 3 .leaf (.cut 0 .leaf .leaf)) (.cut 3 (.cut 0 .leaf .leaf) (.cut 0 (.cut 1 (.cut 2 .leaf (.cut 3 .leaf .leaf)) .leaf) (.cut 1 (.cut 2 .leaf .leaf) .leaf)))))
theorem h173 : check par t173 [25088, 13824, 11264, 11264] [512, 512, 1024, 1024] st = true := by decide +kernel
def t174 : Tree := (.ref (.cut 1 (.cut 2 (.cut 3 (.cut 0 .leaf .leaf) (.cut 0 .leaf .leaf)) (.cut 3 (.cut 0 .leaf .leaf) (.cut 0 (.cut 1 .leaf .leaf) .leaf))) (.cut 2 (.cut 3 .leaf .leaf) (.cut 3 .leaf (.cut 0 .leaf .leaf)))))
theorem h174 : check par t174 [26112, 13312, 11264, 11264] [512, 1024, 1024, 1024] st = true := by decide +kernel
def t175 : Tree := (.ref (.cut 2 (.cut 3 .leaf (.cut 0 .leaf .leaf)) (.cut 3 (.cut 0 .leaf .leaf) (.cut 0 (.cut 1 (.cut 2 .leaf (.cut 3 .leaf .leaf)) .leaf) (.cut 1 (.cut 2 .leaf .leaf) .leaf)))))
theorem h175 : check par t175 [25600, 15360, 10240, 10240] [1024, 1024, 2048, 2048] st = true := by decide +kernel
def t176 : Tree := (.ref (.cut 1 (.cut 2 (.cut 3 (.cut 0 .leaf .leaf) (.cut 0 .leaf .leaf)) (.cut 3 (.cut 0 .leaf .leaf) (.cut 0 (.cut 1 (.cut 2 .leaf .leaf) .leaf) .leaf))) (.cut 2 (.cut 3 .leaf .leaf) (.cut 3 .leaf (.cut 0 .leaf .leaf)))))
theorem h176 : check par t176 [27648, 14336, 10240, 10240] [1024, 2048, 2048, 2048] st = true := by decide +kernel
def t177 : Tree := (.ref (.cut 0 (.cut 1 (.cut 2 .out (.cut 3 (.cut 0 (.cut 1 (.cut 2 .out (.cut 3 (.cut 0 (.cut 1 (.cut 2 .out (.cut 3 (.cut 0 (.cut 1 (.cut 2 .out (.cut 3 (.cut 0 (.cut 1 (.cut 2 .out (.cut 3 (.cut 0 (.cut 1 (.cut 2 .out (.cut 3 (.cut 0 (.cut 1 (.cut 2 .out .leaf) (.cut 2 .out .leaf)) .leaf) .out)) (.cut 2 .out (.cut 3 (.cut 0 (.cut 1 .leaf .leaf) .leaf) .out))) (.cut 1 (.cut 2 .out .leaf) (.cut 2 .out .leaf))) .out)) (.cut 2 .out (.cut 3 (.cut 0 (.cut 1 (.cut 2 .out .leaf) .leaf) .leaf) .out))) (.cut 1 (.cut 2 .out (.cut 3 .leaf .out)) (.cut 2 .out (.cut 3 .leaf .out)))) .out)) (.cut 2 .out (.cut 3 (.cut 0 (.cut 1 (.cut 2 .out .leaf) .leaf) (.cut 1 .leaf .leaf)) .out))) (.cut 1 (.cut 2 .out (.cut 3 (.cut 0 .leaf .leaf) .out)) (.cut 2 .out (.cut 3 (.ref .leaf) .out)))) .out)) (.cut 2 .out (.cut 3 (.cut 0 (.cut 1 (.cut 2 .out .leaf) .leaf) (.cut 1 (.cut 2 .out .leaf) .leaf)) .out))) (.cut 1 (.cut 2 .out (.cut 3 (.cut 0 .leaf .leaf) .out)) (.cut 2 .out (.cut 3 (.cut 0 .leaf .leaf) .out)))) .out)) (.cut 2 .out (.cut 3 (.cut 0 (.cut 1 (.cut 2 .out .leaf) .leaf) (.cut 1 (.cut 2 .out .leaf) .leaf)) .out))) (.cut 1 (.cut 2 .out (.cut 3 (.cut 0 (.cut 1 .leaf .leaf) .leaf) .out)) (.cut 2 .out (.cut 3 (.cut 0 .leaf .leaf) .out)))) .out)) (.cut 2 .out (.cut 3 (.cut 0 (.cut 1 (.cut 2 .out .leaf) .leaf) (.cut 1 (.cut 2 .out .leaf) .leaf)) .out))) (.cut 1 (.cut 2 .out (.cut 3 (.cut 0 (.cut 1 (.cut 2 .out .leaf) (.cut 2 .out .leaf)) .leaf) .out)) (.cut 2 .out (.cut 3 (.cut 0 .leaf .leaf) .out)))))
theorem h177 : check par t177 [26624, 14336, 10240, 14336] [2048, 2048, 2048, 2048] st = true := by decide +kernel
def t178 : Tree := (.ref (.cut 0 (.cut 1 (.cut 2 (.cut 3 .leaf .leaf) .leaf) .leaf) (.cut 1 (.cut 2 .leaf .leaf) .leaf)))
theorem h178 : check par t178 [25600, 13312, 13312, 9216] [1024, 1024, 1024, 1024] st = true := by decide +kernel
def t179 : Tree := (.ref (.cut 0 (.cut 1 (.cut 2 (.cut 3 .leaf .leaf) .leaf) .leaf) (.cut 1 .leaf .leaf)))
theorem h179 : check par t179 [25088, 12800, 12800, 10752] [512, 512, 512, 512] st = true := by decide +kernel
def t180 : Tree := (.ref (.cut 0 (.cut 1 (.cut 2 (.cut 3 .leaf .leaf) .leaf) .leaf) (.cut 1 .leaf .leaf)))
theorem h180 : check par t180 [24832, 12544, 12544, 11520] [256, 256, 256, 256] st = true := by decide +kernel
def t181 : Tree := (.ref (.cut 0 (.cut 1 (.cut 2 (.cut 3 .leaf .leaf) .leaf) .leaf) .leaf))
theorem h181 : check par t181 [24704, 12416, 12416, 11904] [128, 128, 128, 128] st = true := by decide +kernel
def t182 : Tree := (.ref (.cut 1 (.cut 2 (.cut 3 (.cut 0 (.cut 1 (.cut 2 (.cut 3 .leaf .leaf) .leaf) .leaf) .leaf) (.cut 0 (.cut 1 (.cut 2 (.cut 3 (.cut 0 (.cut 1 .leaf .leaf) .leaf) (.cut 0 (.cut 1 (.cut 2 .leaf .leaf) (.cut 2 .leaf .leaf)) .leaf)) (.cut 3 .leaf (.cut 0 (.cut 1 .out .leaf) .leaf))) (.cut 2 (.cut 3 .leaf (.cut 0 (.cut 1 .leaf .leaf) .leaf)) (.cut 3 .leaf (.cut 0 .leaf .leaf)))) (.cut 1 (.cut 2 .leaf .leaf) (.cut 2 .leaf .leaf)))) (.cut 3 (.cut 0 .leaf .leaf) (.cut 0 (.cut 1 .out (.cut 2 (.cut 3 .leaf .leaf) .out)) .leaf))) (.cut 2 (.cut 3 (.cut 0 .leaf .leaf) (.cut 0 (.cut 1 (.cut 2 (.cut 3 .leaf .leaf) (.cut 3 .leaf .leaf)) .leaf) .leaf)) (.cut 3 .leaf (.cut 0 (.cut 1 (.cut 2 .leaf .leaf) .leaf) .leaf)))))
theorem h182 : check par t182 [24640, 12416, 12416, 12160] [64, 128, 128, 128] st = true := by decide +kernel
def t183 : Tree := (.ref (.cut 1 (.cut 2 (.cut 3 .leaf .leaf) (.cut 3 .leaf .leaf)) (.cut 2 (.cut 3 .leaf .leaf) (.cut 3 .leaf .leaf))))
theorem h183 : check par t183 [24768, 12416, 12416, 12160] [64, 128, 128, 128] st = true := by decide +kernel
def t184 : Tree := (.ref (.cut 3 .leaf (.cut 0 (.cut 1 .out (.cut 2 (.cut 3 .leaf .leaf) .out)) (.cut 1 .out (.cut 2 .leaf .out)))))
theorem h184 : check par t184 [24704, 12416, 12672, 12032] [128, 128, 128, 256] st = true := by decide +kernel
def t185 : Tree := (.ref (.cut 2 (.cut 3 .leaf (.cut 0 (.cut 1 (.cut 2 (.cut 3 .leaf .leaf) (.cut 3 .leaf .leaf)) .leaf) (.cut 1 .leaf .leaf))) (.cut 3 .leaf (.cut 0 (.cut 1 (.cut 2 .leaf .leaf) .leaf) (.cut 1 .leaf .leaf)))))
theorem h185 : check par t185 [24704, 12672, 12544, 12032] [128, 128, 256, 256] st = true := by decide +kernel
def t186 : Tree := (.ref (.cut 1 (.cut 2 (.cut 3 .leaf (.cut 0 .leaf .leaf)) (.cut 3 .leaf (.ref .leaf))) (.cut 2 (.cut 3 .leaf (.ref .leaf)) (.cut 3 .leaf .leaf))))
theorem h186 : check par t186 [24960, 12544, 12544, 12032] [128, 256, 256, 256] st = true := by decide +kernel
def t187 : Tree := (.ref (.cut 3 .leaf (.cut 0 (.cut 1 .out (.cut 2 (.cut 3 .leaf .leaf) .out)) (.cut 1 .out (.cut 2 .leaf .out)))))
theorem h187 : check par t187 [24832, 12544, 13056, 11776] [256, 256, 256, 512] st = true := by decide +kernel
def t188 : Tree := (.ref (.cut 2 (.cut 3 .leaf (.cut 0 (.cut 1 (.cut 2 (.cut 3 .leaf .leaf) (.cut 3 .leaf .leaf)) .leaf) (.cut 1 (.cut 2 .leaf .leaf) .leaf))) (.cut 3 .leaf (.cut 0 (.cut 1 (.cut 2 .leaf .leaf) .leaf) (.cut 1 .leaf .leaf)))))
theorem h188 : check par t188 [24832, 13056, 12800, 11776] [256, 256, 512, 512] st = true := by decide +kernel
def t189 : Tree := (.ref (.cut 1 (.cut 2 (.cut 3 .leaf (.cut 0 .leaf .leaf)) (.cut 3 .leaf (.cut 0 .leaf .leaf))) (.cut 2 (.cut 3 .leaf (.cut 0 .leaf .leaf)) (.cut 3 .leaf (.cut 0 .leaf .leaf)))))
theorem h189 : check par t189 [25344, 12800, 12800, 11776] [256, 512, 512, 512] st = true := by decide +kernel
def t190 : Tree := (.ref (.cut 3 (.cut 0 .leaf .leaf) (.cut 0 (.cut 1 .out (.cut 2 (.cut 3 .leaf .leaf) .out)) (.cut 1 .out (.cut 2 .leaf .out)))))
theorem h190 : check par t190 [25088, 12800, 13824, 11264] [512, 512, 512, 1024] st = true := by decide +kernel
def t191 : Tree := (.ref (.cut 2 (.cut 3 (.cut 0 .leaf .leaf) (.cut 0 (.cut 1 (.cut 2 (.cut 3 .leaf .leaf) (.cut 3 .leaf .leaf)) .leaf) (.cut 1 (.cut 2 .leaf .leaf) .leaf))) (.cut 3 .leaf (.cut 0 (.cut 1 (.cut 2 .leaf .leaf) .leaf) (.cut 1 (.cut 2 .leaf .leaf) .leaf)))))
theorem h191 : check par t191 [25088, 13824, 13312, 11264] [512, 512, 1024, 1024] st = true := by decide +kernel
def t192 : Tree := (.ref (.cut 1 (.cut 2 (.cut 3 (.cut 0 .leaf .leaf) (.cut 0 (.cut 1 .leaf .leaf) .leaf)) (.cut 3 .leaf (.cut 0 .leaf .leaf))) (.cut 2 (.cut 3 .leaf (.cut 0 .leaf .leaf)) (.cut 3 .leaf (.cut 0 .leaf .leaf)))))
theorem h192 : check par t192 [26112, 13312, 13312, 11264] [512, 1024, 1024, 1024] st = true := by decide +kernel
def t193 : Tree := (.ref (.cut 3 (.cut 0 .leaf .leaf) (.cut 0 (.cut 1 .out (.cut 2 (.cut 3 .leaf .leaf) .out)) (.cut 1 .out (.cut 2 (.cut 3 .leaf .leaf) .out)))))
theorem h193 : check par t193 [25600, 13312, 15360, 10240] [1024, 1024, 1024, 2048] st = true := by decide +kernel
def t194 : Tree := (.ref (.cut 2 (.cut 3 (.cut 0 .leaf .leaf) (.cut 0 (.cut 1 (.cut 2 (.cut 3 .leaf .leaf) (.cut 3 .leaf .leaf)) .leaf) (.cut 1 (.cut 2 (.cut 3 .leaf .leaf) (.cut 3 .leaf .leaf)) .leaf))) (.cut 3 .leaf (.cut 0 (.cut 1 (.cut 2 .leaf .leaf) .leaf) (.cut 1 (.cut 2 .leaf .leaf) .leaf)))))
theorem h194 : check par t194 [25600, 15360, 14336, 10240] [1024, 1024, 2048, 2048] st = true := by decide +kernel
def t195 : Tree := (.ref (.cut 1 (.cut 2 (.cut 3 (.cut 0 .leaf .leaf) (.cut 0 (.cut 1 (.cut 2 .leaf .leaf) (.cut 2 .leaf .leaf)) .leaf)) (.cut 3 .leaf (.cut 0 .leaf .leaf))) (.cut 2 (.cut 3 .leaf (.cut 0 .leaf .leaf)) (.cut 3 .leaf (.cut 0 .leaf .leaf)))))
theorem h195 : check par t195 [27648, 14336, 14336, 10240] [1024, 2048, 2048, 2048] st = true := by decide +kernel
def t196 : Tree := (.ref (.cut 0 (.cut 1 (.cut 2 (.cut 3 (.cut 0 (.cut 1 (.cut 2 (.cut 3 (.cut 0 (.cut 1 .leaf .leaf) .leaf) (.ref (.cut 0 .leaf .leaf))) (.ref (.cut 3 (.cut 0 .leaf .leaf) (.cut 0 .leaf .leaf)))) (.cut 2 (.ref (.cut 3 (.cut 0 .leaf .leaf) (.cut 0 .leaf .leaf))) (.cut 3 (.ref (.cut 0 .leaf .leaf)) .leaf))) .leaf) (.ref (.cut 0 (.cut 1 (.cut 2 .out (.cut 3 .leaf .out)) (.cut 2 .out .leaf)) (.cut 1 .leaf .leaf)))) (.ref (.cut 3 (.cut 0 (.cut 1 .out (.cut 2 (.cut 3 .leaf .leaf) .out)) (.cut 1 .out .leaf)) (.cut 0 (.cut 1 .out .leaf) .leaf)))) (.cut 2 (.ref (.cut 3 (.cut 0 (.cut 1 (.cut 2 (.cut 3 .leaf .leaf) (.cut 3 .leaf .leaf)) .leaf) (.cut 1 .leaf .leaf)) (.cut 0 (.cut 1 (.cut 2 .out .leaf) .leaf) .leaf))) (.cut 3 (.ref (.cut 0 (.cut 1 (.cut 2 .leaf .leaf) .leaf) .leaf)) (.cut 0 .leaf .leaf)))) (.cut 1 (.cut 2 (.cut 3 .leaf .leaf) (.ref (.cut 3 .leaf .leaf))) (.cut 2 (.ref (.cut 3 .leaf .leaf)) (.cut 3 .leaf .leaf)))))
theorem h196 : check par t196 [24704, 12416, 12416, 12416] [128, 128, 128, 128] st = true := by decide +kernel
def t197 : Tree := (.ref (.cut 0 (.cut 1 (.cut 2 .out (.cut 3 (.cut 0 .leaf .leaf) .out)) (.cut 2 .out (.cut 3 .leaf .out))) (.cut 1 (.cut 2 .out .leaf) (.cut 2 .out .leaf))))
theorem h197 : check par t197 [24704, 12416, 12416, 12672] [128, 128, 128, 128] st = true := by decide +kernel
def t198 : Tree := (.ref (.cut 3 (.cut 0 (.cut 1 .out (.cut 2 (.cut 3 (.ref (.cut 0 .leaf .leaf)) .leaf) .out)) (.cut 1 .out (.cut 2 .leaf .out))) (.cut 0 (.cut 1 .out (.cut 2 .leaf .out)) (.cut 1 .out .leaf))))
theorem h198 : check par t198 [24704, 12416, 12672, 12544] [128, 128, 128, 256] st = true := by decide +kernel
def t199 : Tree := (.ref (.cut 2 (.ref (.cut 3 (.cut 0 (.cut 1 (.cut 2 (.cut 3 (.cut 0 .leaf .leaf) (.ref (.cut 0 .leaf .leaf))) (.cut 3 (.ref (.cut 0 .leaf .leaf)) .leaf)) .leaf) (.cut 1 (.cut 2 .leaf .leaf) .leaf)) (.cut 0 (.cut 1 (.cut 2 .out .leaf) .leaf) (.cut 1 (.cut 2 .out .leaf) .leaf)))) (.cut 3 (.ref (.cut 0 (.cut 1 (.cut 2 (.cut 3 .leaf .leaf) .leaf) .leaf) (.cut 1 (.cut 2 .leaf .leaf) .leaf))) (.cut 0 .leaf .leaf))))
theorem h199 : check par t199 [24704, 12672, 12544, 12544] [128, 128, 256, 256] st = true := by decide +kernel
def t200 : Tree := (.ref (.cut 1 (.cut 2 (.cut 3 .leaf (.ref (.cut 0 .leaf .leaf))) (.ref (.cut 3 (.cut 0 .leaf .leaf) (.cut 0 .leaf .leaf)))) (.cut 2 (.ref (.cut 3 (.cut 0 .leaf .leaf) (.cut 0 .leaf .leaf))) (.cut 3 (.ref (.cut 0 .leaf .leaf)) .leaf))))
theorem h200 : check par t200 [24960, 12544, 12544, 12544] [128, 256, 256, 256] st = true := by decide +kernel
def t201 : Tree := (.ref (.cut 0 (.cut 1 (.cut 2 .out (.cut 3 (.cut 0 .leaf .leaf) .out)) (.cut 2 .out (.cut 3 .leaf .out))) (.cut 1 (.cut 2 .out (.cut 3 .leaf .out)) (.cut 2 .out (.cut 3 .leaf .out)))))
theorem h201 : check par t201 [24832, 12544, 12544, 13056] [256, 256, 256, 256] st = true := by decide +kernel
def t202 : Tree := (.ref (.cut 3 (.cut 0 (.cut 1 .out (.cut 2 (.cut 3 (.ref (.cut 0 .leaf .leaf)) .leaf) .out)) (.cut 1 .out (.cut 2 (.cut 3 .leaf .leaf) .out))) (.cut 0 (.cut 1 .out (.cut 2 (.cut 3 .leaf .leaf) .out)) (.cut 1 .out (.cut 2 .leaf .out)))))
theorem h202 : check par t202 [24832, 12544, 13056, 12800] [256, 256, 256, 512] st = true := by decide +kernel
def t203 : Tree := (.ref (.cut 2 (.ref (.cut 3 (.cut 0 (.cut 1 (.cut 2 (.cut 3 (.cut 0 .leaf .leaf) (.ref (.cut 0 .leaf .leaf))) (.cut 3 (.ref (.cut 0 .leaf .leaf)) .leaf)) .leaf) (.cut 1 (.cut 2 (.cut 3 .leaf .leaf) (.cut 3 .leaf .leaf)) .leaf)) (.cut 0 (.cut 1 (.cut 2 .out (.cut 3 .leaf .out)) (.cut 2 .out .leaf)) (.cut 1 (.cut 2 .out .leaf) (.cut 2 .out .leaf))))) (.cut 3 (.ref (.cut 0 (.cut 1 (.cut 2 (.cut 3 .leaf .leaf) .leaf) (.cut 2 .leaf .leaf)) (.cut 1 (.cut 2 (.cut 3 .leaf .leaf) .leaf) (.cut 2 .leaf .leaf)))) (.cut 0 (.cut 1 .leaf .leaf) .leaf))))
theorem h203 : check par t203 [24832, 13056, 12800, 12800] [256, 256, 512, 512] st = true := by decide +kernel
def t204 : Tree := (.ref (.cut 1 (.cut 2 (.cut 3 (.cut 0 .leaf .leaf) (.ref (.cut 0 .leaf .leaf))) (.ref (.cut 3 (.cut 0 .leaf .leaf) (.cut 0 .leaf .leaf)))) (.cut 2 (.ref (.cut 3 (.cut 0 .leaf .leaf) (.cut 0 .leaf .leaf))) (.cut 3 (.ref (.cut 0 .leaf .leaf)) .leaf))))
theorem h204 : check par t204 [25344, 12800, 12800, 12800] [256, 512, 512, 512] st = true := by decide +kernel
def t205 : Tree := (.ref (.cut 0 (.cut 1 (.cut 2 .out (.cut 3 (.cut 0 .leaf .leaf) .out)) (.cut 2 .out (.cut 3 .leaf .out))) (.cut 1 (.cut 2 .out (.cut 3 .leaf .out)) (.cut 2 .out (.cut 3 .leaf .out)))))
theorem h205 : check par t205 [25088, 12800, 12800, 13824] [512, 512, 512, 512] st = true := by decide +kernel
def t206 : Tree := (.ref (.cut 3 (.cut 0 (.cut 1 .out (.cut 2 (.cut 3 (.ref (.cut 0 .leaf .leaf)) .leaf) .out)) (.cut 1 .out (.cut 2 (.cut 3 .leaf .leaf) .out))) (.cut 0 (.cut 1 .out (.cut 2 (.cut 3 .leaf .leaf) .out)) (.cut 1 .out (.cut 2 (.cut 3 .leaf .leaf) .out)))))
theorem h206 : check par t206 [25088, 12800, 13824, 13312] [512, 512, 512, 1024] st = true := by decide +kernel
end FastNoise.RangeCheck.OuterSimplex4
