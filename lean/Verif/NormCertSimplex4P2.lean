import Verif.NormCertSimplex4
/-! Generated by tools/normcert/gen.py: a certificate for the checker `Verif.NormCheck`. -/
namespace FastNoise.NormCheck.Simplex4
open FastNoise.RangeCheck (Tree)
set_option maxRecDepth 1000000
def t103 : Tree := .out
theorem h103 : check par t103 [7340032, 11534336, 6291456, 6291456] [1048576, 1048576, 2097152, 2097152] st = true := by decide +kernel
def t104 : Tree := .out
theorem h104 : check par t104 [6291456, 14680064, 4194304, 4194304] [2097152, 2097152, 4194304, 4194304] st = true := by decide +kernel
def t105 : Tree := (.ref (.cut 0 .out (.cut 1 (.cut 2 .out (.cut 3 (.cut 0 .out (.ref (.cut 1 (.ref (.cut 2 .out (.cut 3 (.cut 0 .out (.cut 1 (.cut 2 .out (.cut 3 (.cut 0 .out (.cut 1 (.cut 2 .out (.cut 3 .leaf .out)) .out)) .out)) .out)) .out))) .out))) .out)) .out)))
theorem h105 : check par t105 [4194304, 12582912, 4194304, 12582912] [4194304, 4194304, 4194304, 4194304] st = true := by decide +kernel
def t106 : Tree := .out
theorem h106 : check par t106 [2097152, 12582912, 12582912, 4194304] [2097152, 4194304, 4194304, 4194304] st = true := by decide +kernel
def t107 : Tree := (.ref (.cut 0 .out (.cut 1 (.ref (.cut 2 (.cut 3 (.cut 0 .out (.cut 1 .leaf .out)) (.ref (.cut 0 .out .leaf))) (.ref (.cut 3 .leaf .leaf)))) .out)))
theorem h107 : check par t107 [6291456, 10485760, 10485760, 2097152] [2097152, 2097152, 2097152, 2097152] st = true := by decide +kernel
def t108 : Tree := .out
theorem h108 : check par t108 [5242880, 10485760, 10485760, 6291456] [1048576, 2097152, 2097152, 2097152] st = true := by decide +kernel
def t109 : Tree := (.ref (.cut 2 (.cut 3 (.cut 0 .out (.cut 1 (.cut 2 (.cut 3 .leaf .leaf) .leaf) .out)) (.cut 0 .out (.cut 1 (.cut 2 (.cut 3 (.cut 0 .out (.cut 1 (.cut 2 .leaf .leaf) .out)) (.ref (.cut 0 .out (.cut 1 (.cut 2 (.cut 3 .leaf .leaf) (.cut 3 .leaf .leaf)) .out)))) (.cut 3 .leaf (.ref (.cut 0 .out .leaf)))) .out))) (.cut 3 (.cut 0 .out .leaf) (.cut 0 .out (.cut 1 .out .out)))))
theorem h109 : check par t109 [7340032, 9437184, 10485760, 6291456] [1048576, 1048576, 2097152, 2097152] st = true := by decide +kernel
def t110 : Tree := .out
theorem h110 : check par t110 [7340032, 11534336, 10485760, 6291456] [1048576, 1048576, 2097152, 2097152] st = true := by decide +kernel
def t111 : Tree := (.ref (.cut 3 (.cut 0 .out (.cut 1 .out .out)) (.cut 0 .out (.cut 1 .out .out))))
theorem h111 : check par t111 [6291456, 10485760, 14680064, 4194304] [2097152, 2097152, 2097152, 4194304] st = true := by decide +kernel
def t112 : Tree := .out
theorem h112 : check par t112 [6291456, 14680064, 12582912, 4194304] [2097152, 2097152, 4194304, 4194304] st = true := by decide +kernel
def t113 : Tree := .out
theorem h113 : check par t113 [2097152, 12582912, 12582912, 12582912] [2097152, 4194304, 4194304, 4194304] st = true := by decide +kernel
def t114 : Tree := (.ref (.cut 1 (.cut 2 (.ref (.cut 3 (.ref (.cut 0 .out (.cut 1 (.cut 2 (.ref (.cut 3 (.cut 0 .out (.cut 1 (.cut 2 (.cut 3 (.cut 0 .out (.cut 1 (.cut 2 (.cut 3 .leaf .leaf) .leaf) .out)) (.cut 0 .out .out)) (.cut 3 (.cut 0 .out .out) .out)) .out)) (.cut 0 .out .out))) (.cut 3 (.cut 0 .out .out) .out)) .out))) (.ref (.cut 0 .out .out)))) (.ref (.cut 3 (.cut 0 .out .out) .out))) .out))
theorem h114 : check par t114 [6291456, 12582912, 12582912, 12582912] [2097152, 4194304, 4194304, 4194304] st = true := by decide +kernel
def t115 : Tree := (.ref (.cut 3 (.cut 0 (.cut 1 (.cut 2 (.cut 3 .leaf .leaf) (.cut 3 .leaf .leaf)) (.cut 2 (.cut 3 .leaf .leaf) .leaf)) (.cut 1 (.cut 2 (.cut 3 .leaf .leaf) (.cut 3 .leaf .leaf)) (.cut 2 (.cut 3 .leaf .leaf) .leaf))) (.cut 0 (.cut 1 (.cut 2 .out .leaf) .leaf) (.cut 1 .leaf .leaf))))
theorem h115 : check par t115 [8912896, 524288, 524288, 1048576] [524288, 524288, 524288, 1048576] st = true := by decide +kernel
def t116 : Tree := (.ref (.cut 3 (.cut 0 (.cut 1 .out .leaf) (.cut 1 .out .leaf)) (.cut 0 (.cut 1 .out .leaf) (.cut 1 .out .leaf))))
theorem h116 : check par t116 [8912896, 524288, 1572864, 1048576] [524288, 524288, 524288, 1048576] st = true := by decide +kernel
def t117 : Tree := (.ref (.cut 2 (.ref (.cut 3 (.ref (.cut 0 (.cut 1 .leaf .leaf) (.cut 1 .leaf .leaf))) (.ref (.cut 0 (.cut 1 .leaf .leaf) (.cut 1 .leaf .leaf))))) (.ref (.cut 3 (.ref (.cut 0 (.cut 1 .leaf .leaf) (.cut 1 .leaf .leaf))) (.cut 0 .leaf .leaf)))))
theorem h117 : check par t117 [8912896, 1572864, 1048576, 1048576] [524288, 524288, 1048576, 1048576] st = true := by decide +kernel
def t118 : Tree := (.ref (.cut 2 (.cut 3 (.cut 0 (.cut 1 (.cut 2 (.cut 3 .leaf .leaf) (.cut 3 .leaf .leaf)) (.cut 2 (.cut 3 .leaf .leaf) .leaf)) (.cut 1 (.cut 2 (.cut 3 .leaf .leaf) .leaf) .leaf)) (.cut 0 (.cut 1 .leaf .leaf) (.cut 1 .leaf .leaf))) (.cut 3 (.cut 0 (.cut 1 .out .leaf) (.cut 1 .out .leaf)) (.cut 0 (.cut 1 .out .leaf) (.cut 1 .out .leaf)))))
theorem h118 : check par t118 [9961472, 524288, 1048576, 1048576] [524288, 524288, 1048576, 1048576] st = true := by decide +kernel
def t119 : Tree := (.ref (.cut 2 (.ref (.cut 3 (.cut 0 (.cut 1 .leaf .leaf) (.cut 1 .leaf .leaf)) (.ref (.cut 0 (.cut 1 .leaf .leaf) (.cut 1 .leaf .leaf))))) (.ref (.cut 3 (.cut 0 (.cut 1 .leaf .leaf) (.cut 1 .leaf .leaf)) (.cut 0 .leaf .leaf)))))
theorem h119 : check par t119 [9961472, 1572864, 1048576, 1048576] [524288, 524288, 1048576, 1048576] st = true := by decide +kernel
def t120 : Tree := (.ref (.cut 0 (.cut 1 (.cut 2 .out (.cut 3 .leaf .out)) (.cut 2 .out (.cut 3 .leaf .out))) (.cut 1 (.cut 2 .out (.cut 3 .leaf .out)) (.cut 2 .out (.cut 3 .leaf .out)))))
theorem h120 : check par t120 [9437184, 1048576, 1048576, 3145728] [1048576, 1048576, 1048576, 1048576] st = true := by decide +kernel
def t121 : Tree := (.ref (.cut 3 (.cut 0 (.cut 1 .out (.cut 2 (.cut 3 .leaf .leaf) .out)) (.cut 1 .out (.cut 2 (.cut 3 .leaf .leaf) .out))) (.cut 0 (.cut 1 .out (.cut 2 (.cut 3 .leaf .leaf) .out)) (.cut 1 .out (.cut 2 .leaf .out)))))
theorem h121 : check par t121 [9437184, 1048576, 3145728, 2097152] [1048576, 1048576, 1048576, 2097152] st = true := by decide +kernel
def t122 : Tree := (.ref (.cut 0 (.cut 1 (.cut 2 (.cut 3 .leaf (.cut 0 .leaf .leaf)) (.cut 3 (.cut 0 .leaf .leaf) (.cut 0 .leaf .leaf))) (.cut 2 .leaf .leaf)) (.cut 1 (.cut 2 (.ref (.cut 3 .leaf .leaf)) (.cut 3 .leaf (.cut 0 .leaf .leaf))) (.cut 2 .leaf .leaf))))
theorem h122 : check par t122 [9437184, 3145728, 1048576, 1048576] [1048576, 1048576, 1048576, 1048576] st = true := by decide +kernel
def t123 : Tree := (.ref (.cut 0 (.cut 1 (.cut 2 .out (.ref (.cut 3 .leaf .out))) (.cut 2 .out (.cut 3 .leaf .out))) (.cut 1 (.cut 2 .out .leaf) (.cut 2 .out .leaf))))
theorem h123 : check par t123 [9437184, 3145728, 1048576, 3145728] [1048576, 1048576, 1048576, 1048576] st = true := by decide +kernel
def t124 : Tree := (.ref (.cut 0 (.cut 1 (.cut 2 (.ref (.cut 3 .leaf .leaf)) .leaf) (.cut 2 (.ref (.cut 3 .leaf .leaf)) (.cut 3 .leaf .leaf))) (.cut 1 (.cut 2 (.ref (.cut 3 (.cut 0 .leaf .leaf) .leaf)) (.ref (.cut 3 .leaf .leaf))) (.cut 2 (.cut 3 .leaf .leaf) (.cut 3 .leaf .leaf)))))
theorem h124 : check par t124 [9437184, 3145728, 3145728, 1048576] [1048576, 1048576, 1048576, 1048576] st = true := by decide +kernel
def t125 : Tree := (.ref (.cut 0 (.cut 1 (.ref (.cut 2 .leaf .leaf)) (.cut 2 (.cut 3 .leaf .leaf) .leaf)) (.cut 1 (.ref (.cut 2 .leaf .leaf)) (.cut 2 (.cut 3 .leaf .leaf) .leaf))))
theorem h125 : check par t125 [9437184, 3145728, 3145728, 3145728] [1048576, 1048576, 1048576, 1048576] st = true := by decide +kernel
def t126 : Tree := (.ref (.cut 2 (.cut 3 (.cut 0 (.cut 1 (.cut 2 .leaf .leaf) .leaf) .leaf) (.cut 0 (.cut 1 .leaf .leaf) .leaf)) (.cut 3 (.cut 0 (.cut 1 .out .leaf) .leaf) (.cut 0 (.cut 1 .out .leaf) (.cut 1 .out .leaf)))))
theorem h126 : check par t126 [11010048, 524288, 1048576, 1048576] [524288, 524288, 1048576, 1048576] st = true := by decide +kernel
def t127 : Tree := (.ref (.cut 2 (.cut 3 (.cut 0 (.cut 1 .leaf .leaf) (.cut 1 .leaf .leaf)) (.ref (.cut 0 (.cut 1 .leaf .leaf) (.cut 1 .leaf .leaf)))) (.ref (.cut 3 (.cut 0 (.cut 1 .leaf .leaf) (.cut 1 .leaf .leaf)) (.cut 0 .leaf .leaf)))))
theorem h127 : check par t127 [11010048, 1572864, 1048576, 1048576] [524288, 524288, 1048576, 1048576] st = true := by decide +kernel
def t128 : Tree := (.ref (.cut 1 (.ref (.cut 2 (.cut 3 (.cut 0 .leaf .leaf) (.cut 0 .leaf .leaf)) (.cut 3 (.cut 0 .leaf .leaf) (.cut 0 .leaf .leaf)))) (.cut 2 (.cut 3 (.cut 0 (.cut 1 .leaf .leaf) .leaf) (.cut 0 .leaf (.cut 1 .leaf .leaf))) (.cut 3 (.cut 0 .leaf (.cut 1 .leaf .leaf)) (.ref (.cut 0 .leaf .leaf))))))
theorem h128 : check par t128 [12058624, 1048576, 1048576, 1048576] [524288, 1048576, 1048576, 1048576] st = true := by decide +kernel
def t129 : Tree := (.ref (.cut 0 (.cut 1 (.ref (.cut 2 .out (.cut 3 .leaf .out))) (.cut 2 .out (.cut 3 .leaf .out))) (.cut 1 (.ref (.cut 2 .out (.cut 3 .leaf .out))) (.cut 2 .out (.cut 3 .leaf .out)))))
theorem h129 : check par t129 [11534336, 1048576, 1048576, 3145728] [1048576, 1048576, 1048576, 1048576] st = true := by decide +kernel
def t130 : Tree := (.ref (.cut 3 (.ref (.cut 0 (.cut 1 .out (.cut 2 (.cut 3 .leaf .leaf) .out)) (.cut 1 .out (.cut 2 (.ref (.cut 3 .leaf .leaf)) .out)))) (.ref (.cut 0 (.cut 1 .out (.cut 2 (.cut 3 .leaf .leaf) .out)) (.cut 1 .out (.cut 2 (.cut 3 .leaf .leaf) .out))))))
theorem h130 : check par t130 [11534336, 1048576, 3145728, 2097152] [1048576, 1048576, 1048576, 2097152] st = true := by decide +kernel
def t131 : Tree := (.ref (.cut 0 (.cut 1 (.cut 2 (.ref (.cut 3 .leaf .leaf)) (.cut 3 .leaf (.cut 0 .leaf .leaf))) (.cut 2 .leaf .leaf)) (.cut 1 (.ref (.cut 2 (.cut 3 .leaf (.cut 0 .leaf .leaf)) (.cut 3 (.cut 0 .leaf .leaf) .leaf))) (.cut 2 .leaf (.cut 3 .leaf .leaf)))))
theorem h131 : check par t131 [11534336, 3145728, 1048576, 1048576] [1048576, 1048576, 1048576, 1048576] st = true := by decide +kernel
def t132 : Tree := (.ref (.cut 0 (.cut 1 (.cut 2 .out (.cut 3 (.cut 0 .leaf .leaf) .out)) (.cut 2 .out .leaf)) (.cut 1 (.cut 2 .out (.cut 3 (.cut 0 .leaf .leaf) .out)) (.cut 2 .out .leaf))))
theorem h132 : check par t132 [11534336, 3145728, 1048576, 3145728] [1048576, 1048576, 1048576, 1048576] st = true := by decide +kernel
def t133 : Tree := (.ref (.cut 3 (.cut 0 (.cut 1 (.cut 2 (.ref (.cut 3 .leaf (.cut 0 .leaf .leaf))) (.ref (.cut 3 .leaf .leaf))) (.cut 2 (.cut 3 .leaf .leaf) .leaf)) (.cut 1 (.cut 2 (.ref (.cut 3 .leaf (.cut 0 .leaf .leaf))) (.ref (.cut 3 .leaf .leaf))) (.cut 2 (.ref (.cut 3 .leaf .leaf)) (.cut 3 .leaf .leaf)))) (.ref (.cut 0 (.cut 1 (.ref (.cut 2 .leaf .leaf)) (.cut 2 .leaf .leaf)) (.cut 1 (.ref (.cut 2 .leaf .leaf)) (.cut 2 .leaf .leaf))))))
theorem h133 : check par t133 [11534336, 3145728, 3145728, 2097152] [1048576, 1048576, 1048576, 2097152] st = true := by decide +kernel
def t134 : Tree := (.ref (.cut 0 (.cut 1 (.ref (.cut 2 .out (.cut 3 (.cut 0 (.cut 1 .out .leaf) .leaf) .out))) (.cut 2 .out (.ref (.cut 3 (.cut 0 (.cut 1 .leaf .leaf) .leaf) .out)))) (.cut 1 (.ref (.cut 2 .out (.cut 3 (.cut 0 .leaf (.cut 1 .out .leaf)) .out))) (.cut 2 .out (.cut 3 (.cut 0 .leaf (.cut 1 .leaf .leaf)) .out)))))
theorem h134 : check par t134 [10485760, 2097152, 2097152, 6291456] [2097152, 2097152, 2097152, 2097152] st = true := by decide +kernel
def t135 : Tree := (.ref (.cut 1 .out (.cut 2 (.cut 3 (.cut 0 (.ref (.cut 1 .out .leaf)) (.cut 1 .out (.cut 2 .leaf .out))) (.ref (.cut 0 (.cut 1 .out (.cut 2 .leaf .out)) (.cut 1 .out (.cut 2 .leaf .out))))) .out)))
theorem h135 : check par t135 [9437184, 2097152, 6291456, 2097152] [1048576, 2097152, 2097152, 2097152] st = true := by decide +kernel
def t136 : Tree := (.ref (.cut 1 .out (.cut 2 (.cut 3 (.cut 0 (.cut 1 .out (.cut 2 .leaf .out)) (.cut 1 .out (.cut 2 .leaf .out))) (.cut 0 (.ref (.cut 1 .out (.cut 2 .leaf .out))) (.cut 1 .out (.ref (.cut 2 .leaf .out))))) .out)))
theorem h136 : check par t136 [11534336, 2097152, 6291456, 2097152] [1048576, 2097152, 2097152, 2097152] st = true := by decide +kernel
def t137 : Tree := (.ref (.cut 0 (.ref (.cut 1 .out (.cut 2 (.ref (.cut 3 (.cut 0 (.cut 1 .out .leaf) (.cut 1 .out .leaf)) (.cut 0 .leaf .leaf))) .out))) (.cut 1 .out (.ref (.cut 2 (.ref (.cut 3 (.cut 0 .leaf .leaf) .leaf)) .out)))))
theorem h137 : check par t137 [10485760, 2097152, 6291456, 6291456] [2097152, 2097152, 2097152, 2097152] st = true := by decide +kernel
def t138 : Tree := (.ref (.cut 2 (.cut 3 (.cut 0 (.cut 1 .leaf (.cut 2 .leaf .leaf)) (.cut 1 .leaf (.cut 2 .leaf .leaf))) (.ref (.cut 0 (.cut 1 .leaf .leaf) (.cut 1 .leaf .leaf)))) (.cut 3 (.cut 0 (.cut 1 (.cut 2 .leaf .leaf) .leaf) (.cut 1 .leaf .leaf)) (.cut 0 (.cut 1 (.ref (.cut 2 .leaf (.cut 3 .leaf .leaf))) (.cut 2 .leaf (.cut 3 .leaf .leaf))) (.cut 1 .leaf (.cut 2 .leaf .leaf))))))
theorem h138 : check par t138 [9437184, 5242880, 2097152, 2097152] [1048576, 1048576, 2097152, 2097152] st = true := by decide +kernel
def t139 : Tree := (.ref (.cut 2 (.cut 3 (.cut 0 (.cut 1 .leaf .leaf) .leaf) (.ref (.cut 0 .leaf .leaf))) (.cut 3 (.cut 0 (.cut 1 .leaf .leaf) .leaf) (.cut 0 (.cut 1 (.cut 2 .leaf .leaf) .leaf) (.cut 1 (.cut 2 .leaf .leaf) .leaf)))))
theorem h139 : check par t139 [9437184, 7340032, 2097152, 2097152] [1048576, 1048576, 2097152, 2097152] st = true := by decide +kernel
def t140 : Tree := (.ref (.cut 2 (.cut 3 (.cut 0 (.cut 1 .leaf (.cut 2 .leaf .leaf)) (.cut 1 (.ref (.cut 2 .leaf .leaf)) (.cut 2 .leaf .leaf))) (.ref (.cut 0 (.cut 1 .leaf .leaf) (.cut 1 .leaf .leaf)))) (.cut 3 (.cut 0 (.cut 1 .leaf .leaf) (.cut 1 (.cut 2 (.cut 3 .leaf .leaf) .leaf) .leaf)) (.cut 0 (.cut 1 .leaf (.cut 2 .leaf .leaf)) (.cut 1 .leaf (.cut 2 .leaf .leaf))))))
theorem h140 : check par t140 [11534336, 5242880, 2097152, 2097152] [1048576, 1048576, 2097152, 2097152] st = true := by decide +kernel
def t141 : Tree := (.ref (.cut 2 (.cut 3 (.cut 0 (.cut 1 .leaf .leaf) (.cut 1 (.cut 2 .leaf .leaf) (.cut 2 .leaf .leaf))) (.ref (.cut 0 .leaf .leaf))) (.cut 3 (.cut 0 .leaf (.cut 1 .leaf .leaf)) (.cut 0 (.cut 1 .leaf .leaf) (.cut 1 .leaf .leaf)))))
theorem h141 : check par t141 [11534336, 7340032, 2097152, 2097152] [1048576, 1048576, 2097152, 2097152] st = true := by decide +kernel
def t142 : Tree := (.ref (.cut 1 (.ref (.cut 2 .out (.cut 3 (.cut 0 (.cut 1 .leaf (.cut 2 .out (.cut 3 .leaf .out))) (.cut 1 (.cut 2 .out .leaf) (.cut 2 .out .leaf))) .out))) (.cut 2 .out (.cut 3 (.ref (.cut 0 (.cut 1 .leaf .leaf) .leaf)) .out))))
theorem h142 : check par t142 [9437184, 6291456, 2097152, 6291456] [1048576, 2097152, 2097152, 2097152] st = true := by decide +kernel
def t143 : Tree := (.ref (.cut 1 (.ref (.cut 2 .out (.cut 3 (.cut 0 (.cut 1 (.cut 2 .out .leaf) .leaf) (.cut 1 .leaf .leaf)) .out))) (.cut 2 .out (.cut 3 (.cut 0 .leaf .leaf) .out))))
theorem h143 : check par t143 [11534336, 6291456, 2097152, 6291456] [1048576, 2097152, 2097152, 2097152] st = true := by decide +kernel
def t144 : Tree := (.ref (.cut 2 (.cut 3 (.cut 0 (.cut 1 (.cut 2 .leaf .leaf) .leaf) (.cut 1 (.cut 2 .leaf .leaf) .leaf)) (.cut 0 (.cut 1 (.ref (.cut 2 (.cut 3 .leaf .leaf) .leaf)) (.cut 2 (.cut 3 .leaf .leaf) .leaf)) (.cut 1 (.cut 2 (.cut 3 .leaf .leaf) .leaf) (.cut 2 .leaf .leaf)))) (.cut 3 (.cut 0 .leaf (.cut 1 .out .leaf)) (.ref (.cut 0 (.cut 1 .out .leaf) .leaf)))))
theorem h144 : check par t144 [9437184, 5242880, 6291456, 2097152] [1048576, 1048576, 2097152, 2097152] st = true := by decide +kernel
def t145 : Tree := (.ref (.cut 2 (.cut 3 (.cut 0 (.cut 1 .leaf .leaf) .leaf) (.cut 0 (.cut 1 (.cut 2 .leaf .leaf) .leaf) (.cut 1 .leaf .leaf))) (.cut 3 (.cut 0 (.cut 1 .leaf .leaf) .leaf) (.cut 0 (.cut 1 (.cut 2 .leaf .leaf) (.cut 2 .leaf .leaf)) (.cut 1 (.cut 2 .leaf .leaf) .leaf)))))
theorem h145 : check par t145 [9437184, 7340032, 6291456, 2097152] [1048576, 1048576, 2097152, 2097152] st = true := by decide +kernel
def t146 : Tree := (.ref (.cut 2 (.cut 3 (.cut 0 (.cut 1 .leaf .leaf) (.cut 1 .leaf .leaf)) (.cut 0 (.cut 1 (.cut 2 .leaf .leaf) .leaf) (.cut 1 (.cut 2 .leaf .leaf) .leaf))) (.cut 3 (.cut 0 (.cut 1 .out .leaf) (.cut 1 .out .leaf)) (.cut 0 (.cut 1 .out (.cut 2 .leaf .out)) (.cut 1 .out .leaf)))))
theorem h146 : check par t146 [11534336, 5242880, 6291456, 2097152] [1048576, 1048576, 2097152, 2097152] st = true := by decide +kernel
def t147 : Tree := (.ref (.cut 2 (.cut 3 (.cut 0 .leaf .leaf) (.cut 0 .leaf .leaf)) (.cut 3 .leaf (.cut 0 (.cut 1 .leaf .leaf) .leaf))))
theorem h147 : check par t147 [11534336, 7340032, 6291456, 2097152] [1048576, 1048576, 2097152, 2097152] st = true := by decide +kernel
def t148 : Tree := (.ref (.cut 3 (.cut 0 (.ref (.cut 1 .leaf (.ref (.cut 2 .leaf .leaf)))) (.cut 1 .leaf (.cut 2 (.ref (.cut 3 .leaf .leaf)) (.ref (.cut 3 .leaf .leaf))))) (.ref (.cut 0 (.cut 1 (.cut 2 .out .leaf) (.cut 2 .out .leaf)) (.cut 1 .leaf .leaf)))))
theorem h148 : check par t148 [9437184, 5242880, 5242880, 6291456] [1048576, 1048576, 1048576, 2097152] st = true := by decide +kernel
def t149 : Tree := (.ref (.cut 3 (.cut 0 (.cut 1 .out (.cut 2 (.cut 3 .leaf .leaf) .out)) (.cut 1 .out (.cut 2 (.cut 3 .leaf .leaf) .out))) (.ref (.cut 0 (.cut 1 .out (.cut 2 .leaf .out)) (.cut 1 .out .leaf)))))
theorem h149 : check par t149 [9437184, 5242880, 7340032, 6291456] [1048576, 1048576, 1048576, 2097152] st = true := by decide +kernel
def t150 : Tree := (.ref (.cut 3 (.cut 0 (.cut 1 (.cut 2 (.ref (.cut 3 .leaf .leaf)) (.ref (.cut 3 .leaf .leaf))) (.cut 2 (.cut 3 .leaf .leaf) (.cut 3 .leaf .leaf))) (.cut 1 (.cut 2 .leaf (.cut 3 .leaf .leaf)) (.cut 2 .leaf .leaf))) (.ref (.cut 0 (.cut 1 (.ref (.cut 2 .out .leaf)) (.ref (.cut 2 .out .leaf))) (.cut 1 .leaf (.cut 2 .out .leaf))))))
theorem h150 : check par t150 [9437184, 7340032, 5242880, 6291456] [1048576, 1048576, 1048576, 2097152] st = true := by decide +kernel
def t151 : Tree := (.ref (.cut 0 (.cut 1 (.ref (.cut 2 (.cut 3 .leaf .leaf) (.cut 3 .leaf .leaf))) (.ref (.cut 2 (.cut 3 .leaf .leaf) (.cut 3 .leaf .leaf)))) (.cut 1 (.ref (.cut 2 .leaf .leaf)) (.cut 2 (.cut 3 .leaf .leaf) .leaf))))
theorem h151 : check par t151 [9437184, 7340032, 7340032, 5242880] [1048576, 1048576, 1048576, 1048576] st = true := by decide +kernel
def t152 : Tree := (.ref (.cut 1 (.ref (.cut 2 (.cut 3 (.cut 0 .leaf .leaf) (.cut 0 (.cut 1 .leaf .leaf) .leaf)) (.cut 3 (.cut 0 (.cut 1 .out .leaf) .leaf) (.cut 0 .leaf .leaf)))) (.cut 2 (.ref (.cut 3 (.cut 0 (.cut 1 .leaf .leaf) .leaf) (.cut 0 .leaf .leaf))) (.cut 3 (.cut 0 .leaf .leaf) (.ref (.cut 0 (.cut 1 (.cut 2 .leaf .leaf) (.cut 2 .leaf (.cut 3 .leaf .leaf))) (.cut 1 .leaf (.cut 2 .leaf .leaf))))))))
theorem h152 : check par t152 [8912896, 7340032, 7340032, 7340032] [524288, 1048576, 1048576, 1048576] st = true := by decide +kernel
def t153 : Tree := (.ref (.cut 1 (.ref (.cut 2 .leaf .leaf)) (.cut 2 .leaf (.cut 3 .leaf (.ref (.cut 0 .leaf .leaf))))))
theorem h153 : check par t153 [9961472, 7340032, 7340032, 7340032] [524288, 1048576, 1048576, 1048576] st = true := by decide +kernel
def t154 : Tree := (.ref (.cut 2 (.cut 3 (.cut 0 (.cut 1 .leaf (.cut 2 .leaf .leaf)) (.cut 1 .leaf (.cut 2 .leaf .leaf))) (.ref (.cut 0 .leaf .leaf))) (.cut 3 (.ref (.cut 0 (.cut 1 .out .leaf) .leaf)) (.ref (.cut 0 .leaf .leaf)))))
theorem h154 : check par t154 [11534336, 5242880, 6291456, 6291456] [1048576, 1048576, 2097152, 2097152] st = true := by decide +kernel
end FastNoise.NormCheck.Simplex4
