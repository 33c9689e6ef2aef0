import Verif.NormCertSuper3
/-! Generated by tools/normcert/gen.py: a certificate for the checker `Verif.NormCheck`. -/
namespace FastNoise.NormCheck.Super3
open FastNoise.RangeCheck (Tree)
set_option maxRecDepth 1000000
def t85 : Tree := .out
theorem h85 : check par t85 [10485760, 2097152, 12582912] [2097152, 2097152, 4194304] st = true := by decide +kernel
def t86 : Tree := (.ref (.cut 1 .out (.ref (.cut 2 (.ref (.cut 0 (.cut 1 .out (.cut 2 (.cut 0 (.cut 1 .out (.cut 2 (.cut 0 (.cut 1 .out (.cut 2 (.cut 0 (.cut 1 .out (.cut 2 (.cut 0 (.cut 1 .out (.cut 2 (.cut 0 (.cut 1 .out (.cut 2 (.cut 0 (.cut 1 .out (.cut 2 (.cut 0 (.cut 1 .out (.cut 2 (.cut 0 .leaf .leaf) .out)) (.cut 1 .out (.cut 2 .leaf .out))) .out)) (.cut 1 .out (.cut 2 (.cut 0 .leaf .out) .out))) .out)) (.cut 1 .out (.cut 2 (.cut 0 (.cut 1 .out .out) .out) .out))) .out)) (.cut 1 .out (.cut 2 (.cut 0 (.cut 1 .out .out) .out) .out))) .out)) (.cut 1 .out (.cut 2 (.cut 0 (.cut 1 .out .out) .out) .out))) .out)) (.cut 1 .out (.cut 2 (.cut 0 (.cut 1 .out .out) .out) .out))) .out)) (.cut 1 .out (.cut 2 (.cut 0 (.cut 1 .out .out) .out) .out))) .out)) (.cut 1 .out (.cut 2 (.cut 0 (.cut 1 .out .out) .out) .out)))) .out))))
theorem h86 : check par t86 [9437184, 6291456, 10485760] [1048576, 2097152, 2097152] st = true := by decide +kernel
def t87 : Tree := (.ref (.cut 1 .out (.ref (.cut 2 (.ref (.cut 0 (.ref (.cut 1 .out .out)) .out)) .out))))
theorem h87 : check par t87 [11534336, 6291456, 10485760] [1048576, 2097152, 2097152] st = true := by decide +kernel
def t88 : Tree := .out
theorem h88 : check par t88 [10485760, 6291456, 14680064] [2097152, 2097152, 2097152] st = true := by decide +kernel
def t89 : Tree := (.ref (.cut 1 .out (.ref (.cut 2 (.ref (.cut 0 (.cut 1 .out .out) .out)) .out))))
theorem h89 : check par t89 [14680064, 4194304, 12582912] [2097152, 4194304, 4194304] st = true := by decide +kernel
def t90 : Tree := (.ref (.cut 0 (.ref (.cut 1 (.cut 2 (.cut 0 (.cut 1 .leaf .leaf) (.cut 1 .leaf .leaf)) (.cut 0 (.cut 1 (.cut 2 .leaf .leaf) (.cut 2 .leaf .leaf)) (.cut 1 (.cut 2 .leaf .leaf) (.cut 2 .leaf .leaf)))) (.cut 2 (.cut 0 .out (.cut 1 .leaf .out)) (.cut 0 .out (.cut 1 (.cut 2 .leaf .leaf) .out))))) (.ref (.cut 1 (.ref (.cut 2 (.cut 0 (.cut 1 .leaf .leaf) (.cut 1 (.cut 2 .leaf .leaf) .leaf)) (.cut 0 (.cut 1 (.cut 2 .leaf .leaf) (.cut 2 .leaf .leaf)) (.cut 1 (.cut 2 .leaf .leaf) (.cut 2 .leaf .leaf))))) (.ref (.cut 2 (.cut 0 (.cut 1 .leaf .leaf) (.cut 1 .leaf .leaf)) (.cut 0 (.cut 1 (.cut 2 .leaf .leaf) (.cut 2 .leaf .leaf)) (.cut 1 (.cut 2 .leaf .leaf) (.cut 2 .leaf .out)))))))))
theorem h90 : check par t90 [10485760, 10485760, 2097152] [2097152, 2097152, 2097152] st = true := by decide +kernel
def t91 : Tree := (.ref (.cut 0 (.cut 1 (.cut 2 .leaf (.cut 0 (.ref (.cut 1 .leaf .leaf)) (.ref (.cut 1 .leaf .leaf)))) (.ref (.cut 2 .leaf (.cut 0 .out .leaf)))) (.ref (.cut 1 (.cut 2 .leaf (.cut 0 .leaf .leaf)) (.ref (.cut 2 .leaf (.cut 0 .leaf .leaf)))))))
theorem h91 : check par t91 [9437184, 9437184, 5242880] [1048576, 1048576, 1048576] st = true := by decide +kernel
def t92 : Tree := (.ref (.cut 0 (.cut 1 (.cut 2 .leaf .leaf) (.ref (.cut 2 .leaf .leaf))) (.cut 1 (.ref (.cut 2 .leaf .leaf)) (.cut 2 .leaf .leaf))))
theorem h92 : check par t92 [8912896, 8912896, 6815744] [524288, 524288, 524288] st = true := by decide +kernel
def t93 : Tree := (.ref (.cut 0 (.cut 1 (.cut 2 .leaf .leaf) .leaf) (.cut 1 .leaf .leaf)))
theorem h93 : check par t93 [8650752, 8650752, 7602176] [262144, 262144, 262144] st = true := by decide +kernel
def t94 : Tree := (.ref (.cut 2 (.cut 0 (.cut 1 .leaf .leaf) (.cut 1 .leaf .leaf)) (.cut 0 (.cut 1 (.cut 2 (.cut 0 (.cut 1 .leaf .leaf) (.cut 1 .leaf .leaf)) (.cut 0 (.cut 1 (.cut 2 (.cut 0 (.cut 1 .leaf .leaf) .leaf) (.cut 0 (.cut 1 (.cut 2 (.cut 0 (.cut 1 .leaf .leaf) .leaf) (.cut 0 (.cut 1 (.cut 2 (.cut 0 .leaf .leaf) (.cut 0 (.cut 1 (.cut 2 .leaf (.cut 0 .leaf .leaf)) (.cut 2 .leaf .leaf)) (.cut 1 (.cut 2 .leaf .leaf) (.cut 2 .leaf .out)))) (.cut 2 .leaf (.cut 0 .out .out))) (.cut 1 (.cut 2 .leaf (.cut 0 .leaf .out)) (.cut 2 .leaf .out)))) (.cut 2 .leaf (.cut 0 .out .out))) (.cut 1 (.cut 2 .leaf (.cut 0 (.cut 1 .leaf .out) .out)) (.cut 2 .leaf .out)))) (.cut 2 .leaf (.cut 0 .out .out))) (.cut 1 (.cut 2 .leaf (.cut 0 (.cut 1 .leaf .out) .out)) (.cut 2 .leaf .out)))) (.cut 2 .leaf (.cut 0 .out .out))) (.cut 1 (.cut 2 .leaf (.cut 0 (.cut 1 .leaf .out) .out)) (.cut 2 .leaf .out)))))
theorem h94 : check par t94 [8519680, 8519680, 8126464] [131072, 131072, 262144] st = true := by decide +kernel
def t95 : Tree := (.ref (.cut 2 .leaf (.cut 0 .out .out)))
theorem h95 : check par t95 [8519680, 8781824, 8126464] [131072, 131072, 262144] st = true := by decide +kernel
def t96 : Tree := (.ref (.cut 1 (.cut 2 .leaf (.cut 0 (.cut 1 .leaf .out) .out)) (.cut 2 .leaf .out)))
theorem h96 : check par t96 [8781824, 8650752, 8126464] [131072, 262144, 262144] st = true := by decide +kernel
def t97 : Tree := (.ref (.cut 2 (.ref (.cut 0 .out .leaf)) (.cut 0 .out .out)))
theorem h97 : check par t97 [8650752, 9175040, 7864320] [262144, 262144, 524288] st = true := by decide +kernel
def t98 : Tree := (.ref (.cut 1 (.cut 2 (.ref (.cut 0 .leaf .leaf)) (.cut 0 (.cut 1 (.cut 2 .leaf .out) .out) .out)) (.cut 2 .leaf .out)))
theorem h98 : check par t98 [9175040, 8912896, 7864320] [262144, 524288, 524288] st = true := by decide +kernel
def t99 : Tree := (.ref (.cut 2 (.ref (.cut 0 .out (.cut 1 .leaf .out))) (.cut 0 .out .out)))
theorem h99 : check par t99 [8912896, 9961472, 7340032] [524288, 524288, 1048576] st = true := by decide +kernel
def t100 : Tree := (.ref (.cut 1 (.cut 2 (.ref (.cut 0 (.cut 1 .leaf .leaf) (.cut 1 .leaf .leaf))) (.cut 0 (.cut 1 (.cut 2 .leaf .out) .out) .out)) (.ref (.cut 2 (.cut 0 (.ref (.cut 1 .leaf .out)) .out) .out))))
theorem h100 : check par t100 [9961472, 9437184, 7340032] [524288, 1048576, 1048576] st = true := by decide +kernel
def t101 : Tree := (.ref (.cut 2 (.ref (.cut 0 .out (.cut 1 (.ref (.cut 2 .leaf .leaf)) .out))) (.ref (.cut 0 .out .out))))
theorem h101 : check par t101 [9437184, 11534336, 6291456] [1048576, 1048576, 2097152] st = true := by decide +kernel
def t102 : Tree := (.ref (.cut 1 (.ref (.cut 2 (.ref (.cut 0 (.cut 1 (.cut 2 .leaf (.cut 0 .leaf .leaf)) (.ref (.cut 2 .leaf .leaf))) (.cut 1 (.cut 2 .leaf .leaf) (.cut 2 .leaf .out)))) (.ref (.cut 0 (.ref (.cut 1 (.cut 2 (.cut 0 .leaf .out) .out) .out)) .out)))) (.ref (.cut 2 (.ref (.cut 0 (.cut 1 (.cut 2 .leaf .out) .out) .out)) .out))))
theorem h102 : check par t102 [11534336, 10485760, 6291456] [1048576, 2097152, 2097152] st = true := by decide +kernel
def t103 : Tree := (.ref (.cut 2 (.ref (.cut 0 .out (.ref (.cut 1 (.ref (.cut 2 (.cut 0 .out .leaf) (.cut 0 .out .out))) .out)))) (.ref (.cut 0 .out .out))))
theorem h103 : check par t103 [10485760, 14680064, 4194304] [2097152, 2097152, 4194304] st = true := by decide +kernel
def t104 : Tree := (.ref (.cut 1 (.cut 2 (.ref (.cut 0 (.ref (.cut 1 (.cut 2 .leaf .leaf) (.cut 2 .leaf .leaf))) (.cut 1 (.ref (.cut 2 (.cut 0 .leaf .leaf) (.cut 0 .leaf .leaf))) (.cut 2 .leaf .leaf)))) (.ref (.cut 0 (.cut 1 (.cut 2 .leaf .leaf) (.cut 2 .leaf .leaf)) (.cut 1 (.ref (.cut 2 .leaf .leaf)) (.cut 2 .leaf .out))))) (.ref (.cut 2 (.cut 0 (.ref (.cut 1 .leaf .leaf)) (.cut 1 .leaf .leaf)) (.cut 0 (.ref (.cut 1 (.cut 2 .leaf .out) .out)) .out)))))
theorem h104 : check par t104 [13631488, 10485760, 2097152] [1048576, 2097152, 2097152] st = true := by decide +kernel
def t105 : Tree := (.ref (.cut 1 (.cut 2 (.ref (.cut 0 (.ref (.cut 1 .leaf .leaf)) (.cut 1 (.cut 2 .leaf .leaf) .leaf))) (.ref (.cut 0 .leaf (.cut 1 .leaf .leaf)))) (.cut 2 (.ref (.cut 0 .leaf .leaf)) (.ref (.cut 0 .leaf .out)))))
theorem h105 : check par t105 [15204352, 9437184, 1048576] [524288, 1048576, 1048576] st = true := by decide +kernel
def t106 : Tree := (.ref (.cut 1 (.cut 2 (.cut 0 .leaf (.cut 1 .leaf .leaf)) (.ref (.cut 0 .leaf .leaf))) (.cut 2 .leaf .leaf)))
theorem h106 : check par t106 [15990784, 8912896, 524288] [262144, 524288, 524288] st = true := by decide +kernel
def t107 : Tree := (.ref (.cut 1 (.cut 2 (.cut 0 (.cut 1 (.cut 2 (.cut 0 .leaf (.cut 1 .leaf .leaf)) .leaf) .leaf) (.cut 1 (.cut 2 (.cut 0 (.cut 1 (.cut 2 (.cut 0 .leaf (.cut 1 .leaf .leaf)) .leaf) .leaf) (.cut 1 (.cut 2 (.cut 0 (.cut 1 (.cut 2 (.cut 0 .leaf (.cut 1 .leaf .leaf)) .leaf) .leaf) (.cut 1 (.cut 2 (.cut 0 (.cut 1 (.cut 2 (.cut 0 .leaf .leaf) .leaf) .leaf) (.cut 1 (.cut 2 (.cut 0 (.cut 1 (.cut 2 (.cut 0 .leaf .leaf) .leaf) .leaf) (.cut 1 (.cut 2 (.cut 0 (.cut 1 (.cut 2 .leaf .leaf) .leaf) (.cut 1 (.cut 2 .leaf .leaf) .leaf)) (.cut 0 .leaf .out)) (.cut 2 (.cut 0 .leaf .out) .out))) (.cut 0 .leaf .out)) (.cut 2 (.cut 0 .leaf .out) .out))) (.cut 0 .leaf .out)) (.cut 2 (.cut 0 .leaf .out) .out))) (.cut 0 .leaf .out)) (.cut 2 (.cut 0 .leaf .out) .out))) (.cut 0 .leaf .out)) (.cut 2 (.cut 0 .leaf .out) .out))) (.cut 0 (.cut 1 .leaf .out) .out)) (.cut 2 (.cut 0 .leaf .out) .out)))
theorem h107 : check par t107 [16515072, 8912896, 524288] [262144, 524288, 524288] st = true := by decide +kernel
def t108 : Tree := (.ref (.cut 0 (.ref (.cut 1 (.cut 2 .leaf .out) .out)) .out))
theorem h108 : check par t108 [16252928, 8912896, 1572864] [524288, 524288, 524288] st = true := by decide +kernel
def t109 : Tree := (.ref (.cut 2 (.cut 0 (.cut 1 .leaf .out) .out) .out))
theorem h109 : check par t109 [16252928, 9961472, 1048576] [524288, 524288, 1048576] st = true := by decide +kernel
def t110 : Tree := (.ref (.cut 0 (.ref (.cut 1 (.cut 2 .leaf .out) .out)) .out))
theorem h110 : check par t110 [15728640, 9437184, 3145728] [1048576, 1048576, 1048576] st = true := by decide +kernel
def t111 : Tree := (.ref (.cut 2 (.cut 0 (.ref (.cut 1 (.cut 2 .leaf .out) .out)) .out) .out))
theorem h111 : check par t111 [15728640, 11534336, 2097152] [1048576, 1048576, 2097152] st = true := by decide +kernel
def t112 : Tree := (.ref (.cut 0 (.cut 1 (.cut 2 (.ref (.cut 0 (.cut 1 (.cut 2 .leaf .out) .out) .out)) .out) .out) .out))
theorem h112 : check par t112 [14680064, 10485760, 6291456] [2097152, 2097152, 2097152] st = true := by decide +kernel
def t113 : Tree := (.ref (.cut 2 (.ref (.cut 0 (.ref (.cut 1 (.ref (.cut 2 (.ref (.cut 0 .leaf .out)) .out)) .out)) .out)) .out))
theorem h113 : check par t113 [14680064, 14680064, 4194304] [2097152, 2097152, 4194304] st = true := by decide +kernel
def t114 : Tree := (.ref (.cut 0 (.cut 1 (.ref (.cut 2 (.ref (.cut 0 (.ref (.cut 1 (.ref (.cut 2 (.ref (.cut 0 (.cut 1 (.cut 2 (.cut 0 (.cut 1 (.cut 2 (.cut 0 (.cut 1 (.cut 2 (.cut 0 (.cut 1 (.cut 2 (.cut 0 (.cut 1 (.cut 2 (.cut 0 (.cut 1 (.cut 2 (.cut 0 (.cut 1 (.cut 2 (.cut 0 (.cut 1 (.cut 2 .leaf .out) .out) .out) .out) .out) .out) .out) .out) .out) .out) .out) .out) .out) .out) .out) .out) .out) .out) .out) .out) .out) .out) .out) .out)) .out)) .out)) .out)) .out)) .out) .out))
theorem h114 : check par t114 [12582912, 12582912, 12582912] [4194304, 4194304, 4194304] st = true := by decide +kernel
end FastNoise.NormCheck.Super3
