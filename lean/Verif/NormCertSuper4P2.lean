import Verif.NormCertSuper4
/-! Generated by tools/normcert/gen.py: a certificate for the checker `Verif.NormCheck`. -/
namespace FastNoise.NormCheck.Super4
open FastNoise.RangeCheck (Tree)
set_option maxRecDepth 1000000
def t61 : Tree := .out
theorem h61 : check par t61 [6291456, 6291456, 14680064, 4194304] [2097152, 2097152, 2097152, 4194304] st = true := by decide +kernel
def t62 : Tree := (.ref (.cut 1 .out (.ref (.cut 2 (.ref (.cut 3 (.ref (.cut 0 .out (.ref (.cut 1 .out .out)))) (.ref (.cut 0 .out (.ref (.cut 1 .out .out)))))) .out))))
theorem h62 : check par t62 [2097152, 4194304, 12582912, 12582912] [2097152, 4194304, 4194304, 4194304] st = true := by decide +kernel
def t63 : Tree := .out
theorem h63 : check par t63 [6291456, 2097152, 12582912, 12582912] [2097152, 2097152, 4194304, 4194304] st = true := by decide +kernel
def t64 : Tree := (.ref (.cut 1 .out (.ref (.cut 2 (.ref (.cut 3 (.ref (.cut 0 .out (.ref (.cut 1 .out .out)))) (.ref (.cut 0 .out (.ref (.cut 1 .out .out)))))) .out))))
theorem h64 : check par t64 [5242880, 6291456, 10485760, 10485760] [1048576, 2097152, 2097152, 2097152] st = true := by decide +kernel
def t65 : Tree := (.ref (.cut 1 .out (.ref (.cut 2 (.ref (.cut 3 (.ref (.cut 0 (.ref (.cut 1 .out (.cut 2 (.ref (.cut 3 .leaf .leaf)) .out))) (.ref (.cut 1 .out (.ref (.cut 2 (.cut 3 .leaf .leaf) .out)))))) (.ref (.cut 0 (.cut 1 .out (.cut 2 .out .out)) (.cut 1 .out (.cut 2 .out .out)))))) .out))))
theorem h65 : check par t65 [7340032, 6291456, 10485760, 10485760] [1048576, 2097152, 2097152, 2097152] st = true := by decide +kernel
def t66 : Tree := (.ref (.cut 0 (.ref (.cut 1 .out (.ref (.cut 2 .out .out)))) (.ref (.cut 1 .out (.ref (.cut 2 .out .out))))))
theorem h66 : check par t66 [6291456, 6291456, 10485760, 14680064] [2097152, 2097152, 2097152, 2097152] st = true := by decide +kernel
def t67 : Tree := .out
theorem h67 : check par t67 [6291456, 6291456, 14680064, 12582912] [2097152, 2097152, 2097152, 4194304] st = true := by decide +kernel
def t68 : Tree := .out
theorem h68 : check par t68 [2097152, 12582912, 4194304, 4194304] [2097152, 4194304, 4194304, 4194304] st = true := by decide +kernel
def t69 : Tree := (.ref (.cut 0 .out (.ref (.cut 1 (.ref (.cut 2 (.ref (.cut 3 (.ref (.cut 0 .out .leaf)) (.cut 0 .out (.cut 1 .leaf .out)))) (.cut 3 (.ref (.cut 0 .out (.cut 1 .leaf .out))) (.ref (.cut 0 .out (.ref (.cut 1 .leaf .out))))))) .out))))
theorem h69 : check par t69 [6291456, 10485760, 2097152, 2097152] [2097152, 2097152, 2097152, 2097152] st = true := by decide +kernel
def t70 : Tree := (.ref (.cut 0 .out (.ref (.cut 1 (.ref (.cut 2 .out (.ref (.cut 3 (.ref (.cut 0 .out (.cut 1 (.cut 2 .out .leaf) .out))) .out)))) .out))))
theorem h70 : check par t70 [6291456, 10485760, 2097152, 6291456] [2097152, 2097152, 2097152, 2097152] st = true := by decide +kernel
def t71 : Tree := (.ref (.cut 0 .out (.ref (.cut 1 (.ref (.cut 2 (.ref (.cut 3 (.cut 0 .out (.cut 1 (.cut 2 .leaf .leaf) .out)) (.ref (.cut 0 .out (.cut 1 (.cut 2 .leaf .leaf) .out))))) (.ref (.cut 3 (.ref (.cut 0 .out (.cut 1 .leaf .out))) (.cut 0 .out (.ref (.cut 1 (.cut 2 .leaf .leaf) .out))))))) .out))))
theorem h71 : check par t71 [6291456, 10485760, 6291456, 2097152] [2097152, 2097152, 2097152, 2097152] st = true := by decide +kernel
def t72 : Tree := .out
theorem h72 : check par t72 [5242880, 10485760, 6291456, 6291456] [1048576, 2097152, 2097152, 2097152] st = true := by decide +kernel
def t73 : Tree := (.ref (.cut 3 (.ref (.cut 0 .out (.ref (.cut 1 (.ref (.cut 2 (.ref (.cut 3 .leaf .leaf)) (.ref (.cut 3 .leaf .leaf)))) .out)))) (.ref (.cut 0 .out (.ref (.cut 1 (.cut 2 .out .leaf) .out))))))
theorem h73 : check par t73 [7340032, 9437184, 5242880, 6291456] [1048576, 1048576, 1048576, 2097152] st = true := by decide +kernel
def t74 : Tree := (.ref (.cut 3 (.ref (.cut 0 .out (.ref (.cut 1 (.cut 2 (.ref (.cut 3 .leaf .leaf)) (.cut 3 .leaf .leaf)) .out)))) (.ref (.cut 0 .out (.cut 1 (.cut 2 (.ref (.cut 3 .leaf .leaf)) (.ref (.cut 3 .leaf .leaf))) .out)))))
theorem h74 : check par t74 [7340032, 9437184, 7340032, 6291456] [1048576, 1048576, 1048576, 2097152] st = true := by decide +kernel
def t75 : Tree := .out
theorem h75 : check par t75 [7340032, 11534336, 6291456, 6291456] [1048576, 1048576, 2097152, 2097152] st = true := by decide +kernel
def t76 : Tree := .out
theorem h76 : check par t76 [6291456, 14680064, 4194304, 4194304] [2097152, 2097152, 4194304, 4194304] st = true := by decide +kernel
def t77 : Tree := (.ref (.cut 0 .out (.ref (.cut 1 (.ref (.cut 2 .out (.ref (.cut 3 (.ref (.cut 0 .out (.ref (.cut 1 (.ref (.cut 2 .out (.ref (.cut 3 (.ref (.cut 0 .out (.ref (.cut 1 (.ref (.cut 2 .out (.ref (.cut 3 .leaf .out)))) .out)))) .out)))) .out)))) .out)))) .out))))
theorem h77 : check par t77 [4194304, 12582912, 4194304, 12582912] [4194304, 4194304, 4194304, 4194304] st = true := by decide +kernel
def t78 : Tree := .out
theorem h78 : check par t78 [2097152, 12582912, 12582912, 4194304] [2097152, 4194304, 4194304, 4194304] st = true := by decide +kernel
def t79 : Tree := (.ref (.cut 0 .out (.ref (.cut 1 (.ref (.cut 2 (.ref (.cut 3 (.ref (.cut 0 .out .leaf)) (.cut 0 .out (.cut 1 .leaf .out)))) (.cut 3 (.ref (.cut 0 .out (.cut 1 .out .out))) (.cut 0 .out (.cut 1 .out .out))))) .out))))
theorem h79 : check par t79 [6291456, 10485760, 10485760, 2097152] [2097152, 2097152, 2097152, 2097152] st = true := by decide +kernel
def t80 : Tree := (.ref (.cut 0 .out (.ref (.cut 1 (.ref (.cut 2 (.ref (.cut 3 (.ref (.cut 0 .out (.cut 1 (.cut 2 (.cut 3 .leaf .leaf) .leaf) .out))) (.ref (.cut 0 .out (.ref (.cut 1 (.ref (.cut 2 (.ref (.cut 3 .leaf .leaf)) (.ref (.cut 3 .leaf .leaf)))) .out)))))) (.ref (.cut 3 (.ref (.cut 0 .out (.cut 1 .out .out))) (.ref (.cut 0 .out (.cut 1 .out .out))))))) .out))))
theorem h80 : check par t80 [6291456, 10485760, 10485760, 6291456] [2097152, 2097152, 2097152, 2097152] st = true := by decide +kernel
def t81 : Tree := (.ref (.cut 3 (.ref (.cut 0 .out (.ref (.cut 1 .out .out)))) (.ref (.cut 0 .out (.ref (.cut 1 .out .out))))))
theorem h81 : check par t81 [6291456, 10485760, 14680064, 4194304] [2097152, 2097152, 2097152, 4194304] st = true := by decide +kernel
def t82 : Tree := .out
theorem h82 : check par t82 [6291456, 14680064, 12582912, 4194304] [2097152, 2097152, 4194304, 4194304] st = true := by decide +kernel
def t83 : Tree := (.ref (.cut 0 .out (.ref (.cut 1 (.ref (.cut 2 (.ref (.cut 3 (.ref (.cut 0 .out (.ref (.cut 1 (.ref (.cut 2 (.ref (.cut 3 (.ref (.cut 0 .out (.cut 1 (.cut 2 (.ref (.cut 3 .leaf .leaf)) (.ref (.cut 3 .leaf .out))) .out))) (.ref (.cut 0 .out .out)))) (.ref (.cut 3 (.ref (.cut 0 .out .out)) .out)))) .out)))) (.ref (.cut 0 .out .out)))) (.ref (.cut 3 (.ref (.cut 0 .out .out)) .out)))) .out))))
theorem h83 : check par t83 [4194304, 12582912, 12582912, 12582912] [4194304, 4194304, 4194304, 4194304] st = true := by decide +kernel
def t84 : Tree := (.ref (.cut 0 (.cut 1 (.ref (.cut 2 .leaf (.ref (.cut 3 .leaf .leaf)))) (.ref (.cut 2 (.ref (.cut 3 .leaf .leaf)) .leaf))) (.cut 1 (.ref (.cut 2 .leaf (.cut 3 .leaf .leaf))) (.ref (.cut 2 (.ref (.cut 3 .leaf .leaf)) .leaf)))))
theorem h84 : check par t84 [9437184, 1048576, 1048576, 1048576] [1048576, 1048576, 1048576, 1048576] st = true := by decide +kernel
def t85 : Tree := (.ref (.cut 0 (.cut 1 (.cut 2 .out (.ref (.cut 3 .leaf .out))) (.ref (.cut 2 .out .leaf))) (.ref (.cut 1 (.cut 2 .out (.ref (.cut 3 .leaf .out))) (.ref (.cut 2 .out .leaf))))))
theorem h85 : check par t85 [9437184, 1048576, 1048576, 3145728] [1048576, 1048576, 1048576, 1048576] st = true := by decide +kernel
def t86 : Tree := (.ref (.cut 3 (.ref (.cut 0 (.cut 1 .out (.ref (.cut 2 .leaf .out))) (.ref (.cut 1 .out (.ref (.cut 2 .leaf .out)))))) (.ref (.cut 0 (.ref (.cut 1 .out (.cut 2 (.ref (.cut 3 .leaf .leaf)) .out))) (.ref (.cut 1 .out (.cut 2 (.ref (.cut 3 .leaf .leaf)) .out)))))))
theorem h86 : check par t86 [9437184, 1048576, 3145728, 2097152] [1048576, 1048576, 1048576, 2097152] st = true := by decide +kernel
def t87 : Tree := (.ref (.cut 0 (.cut 1 (.ref (.cut 2 .leaf .leaf)) (.cut 2 .leaf (.ref (.cut 3 .leaf .leaf)))) (.ref (.cut 1 (.ref (.cut 2 .leaf .leaf)) (.cut 2 .leaf .leaf)))))
theorem h87 : check par t87 [9437184, 3145728, 1048576, 1048576] [1048576, 1048576, 1048576, 1048576] st = true := by decide +kernel
def t88 : Tree := (.ref (.cut 0 (.ref (.cut 1 (.ref (.cut 2 .out (.ref (.cut 3 .leaf .out)))) (.ref (.cut 2 .out (.cut 3 .leaf .out))))) (.ref (.cut 1 (.ref (.cut 2 .out (.cut 3 .leaf .out))) (.ref (.cut 2 .out (.cut 3 .leaf .out)))))))
theorem h88 : check par t88 [9437184, 3145728, 1048576, 3145728] [1048576, 1048576, 1048576, 1048576] st = true := by decide +kernel
def t89 : Tree := (.ref (.cut 0 (.ref (.cut 1 (.ref (.cut 2 .leaf (.ref (.cut 3 .leaf .leaf)))) (.ref (.cut 2 (.cut 3 .leaf .leaf) .leaf)))) (.ref (.cut 1 (.ref (.cut 2 .leaf (.cut 3 .leaf .leaf))) (.ref (.cut 2 (.cut 3 .leaf .leaf) .leaf))))))
theorem h89 : check par t89 [9437184, 3145728, 3145728, 1048576] [1048576, 1048576, 1048576, 1048576] st = true := by decide +kernel
def t90 : Tree := (.ref (.cut 0 (.cut 1 (.cut 2 (.cut 3 .leaf .leaf) .leaf) (.ref (.cut 2 .leaf .leaf))) (.cut 1 (.cut 2 (.cut 3 .leaf .leaf) .leaf) (.ref (.cut 2 .leaf .leaf)))))
theorem h90 : check par t90 [9437184, 3145728, 3145728, 3145728] [1048576, 1048576, 1048576, 1048576] st = true := by decide +kernel
def t91 : Tree := (.ref (.cut 3 (.ref (.cut 0 (.cut 1 (.ref (.cut 2 (.ref (.cut 3 .leaf .leaf)) .leaf)) (.ref (.cut 2 .leaf (.ref (.cut 3 .leaf .leaf))))) (.cut 1 (.ref (.cut 2 .leaf .leaf)) (.ref (.cut 2 .leaf .leaf))))) (.ref (.cut 0 (.ref (.cut 1 (.cut 2 .out .leaf) (.ref (.cut 2 .out .leaf)))) (.ref (.cut 1 (.cut 2 .out .leaf) (.ref (.cut 2 .out .leaf))))))))
theorem h91 : check par t91 [11534336, 1048576, 1048576, 2097152] [1048576, 1048576, 1048576, 2097152] st = true := by decide +kernel
def t92 : Tree := (.ref (.cut 3 (.ref (.cut 0 (.ref (.cut 1 .out (.ref (.cut 2 .leaf .out)))) (.ref (.cut 1 .out (.ref (.cut 2 .leaf .out)))))) (.ref (.cut 0 (.ref (.cut 1 .out (.cut 2 .leaf .out))) (.ref (.cut 1 .out (.cut 2 .leaf .out)))))))
theorem h92 : check par t92 [11534336, 1048576, 3145728, 2097152] [1048576, 1048576, 1048576, 2097152] st = true := by decide +kernel
def t93 : Tree := (.ref (.cut 3 (.ref (.cut 0 (.ref (.cut 1 (.ref (.cut 2 .leaf .leaf)) (.cut 2 .leaf .leaf))) (.ref (.cut 1 (.ref (.cut 2 .leaf .leaf)) (.cut 2 .leaf .leaf))))) (.ref (.cut 0 (.ref (.cut 1 (.ref (.cut 2 .out .leaf)) (.ref (.cut 2 .out .leaf)))) (.ref (.cut 1 (.ref (.cut 2 .out .leaf)) (.ref (.cut 2 .out .leaf))))))))
theorem h93 : check par t93 [11534336, 3145728, 1048576, 2097152] [1048576, 1048576, 1048576, 2097152] st = true := by decide +kernel
def t94 : Tree := (.ref (.cut 3 (.ref (.cut 0 (.ref (.cut 1 (.ref (.cut 2 .leaf .leaf)) (.ref (.cut 2 .leaf .leaf)))) (.ref (.cut 1 (.ref (.cut 2 .leaf .leaf)) (.ref (.cut 2 .leaf .leaf)))))) (.cut 0 (.ref (.cut 1 (.cut 2 .leaf .leaf) (.ref (.cut 2 .leaf .leaf)))) (.cut 1 (.ref (.cut 2 .leaf .leaf)) (.ref (.cut 2 .leaf .leaf))))))
theorem h94 : check par t94 [11534336, 3145728, 3145728, 2097152] [1048576, 1048576, 1048576, 2097152] st = true := by decide +kernel
def t95 : Tree := (.ref (.cut 1 (.ref (.cut 2 .out (.ref (.cut 3 (.ref (.cut 0 (.ref (.cut 1 .out (.cut 2 .out .out))) (.ref (.cut 1 .out (.cut 2 .out .out))))) .out)))) (.ref (.cut 2 .out (.ref (.cut 3 (.cut 0 (.cut 1 (.ref (.cut 2 .out .leaf)) (.cut 2 .out .leaf)) (.cut 1 (.ref (.cut 2 .out .leaf)) (.cut 2 .out (.cut 3 .leaf .out)))) .out))))))
theorem h95 : check par t95 [9437184, 2097152, 2097152, 6291456] [1048576, 2097152, 2097152, 2097152] st = true := by decide +kernel
def t96 : Tree := (.ref (.cut 1 (.ref (.cut 2 .out (.ref (.cut 3 (.ref (.cut 0 (.ref (.cut 1 .out (.cut 2 .out .out))) (.ref (.cut 1 .out (.ref (.cut 2 .out .out)))))) .out)))) (.ref (.cut 2 .out (.ref (.cut 3 (.cut 0 (.ref (.cut 1 (.ref (.cut 2 .out (.ref (.cut 3 .leaf .out)))) (.cut 2 .out .leaf))) (.ref (.cut 1 (.ref (.cut 2 .out .leaf)) (.ref (.cut 2 .out .leaf))))) .out))))))
theorem h96 : check par t96 [11534336, 2097152, 2097152, 6291456] [1048576, 2097152, 2097152, 2097152] st = true := by decide +kernel
def t97 : Tree := (.ref (.cut 1 .out (.ref (.cut 2 (.cut 3 (.ref (.cut 0 (.ref (.cut 1 .out (.ref (.cut 2 .leaf .out)))) (.ref (.cut 1 .out (.ref (.cut 2 .leaf .out)))))) (.ref (.cut 0 (.cut 1 .out (.cut 2 .leaf .out)) (.cut 1 .out (.cut 2 .leaf .out))))) .out))))
theorem h97 : check par t97 [9437184, 2097152, 6291456, 2097152] [1048576, 2097152, 2097152, 2097152] st = true := by decide +kernel
def t98 : Tree := (.ref (.cut 1 .out (.ref (.cut 2 (.ref (.cut 3 (.ref (.cut 0 (.ref (.cut 1 .out (.ref (.cut 2 .leaf .out)))) (.ref (.cut 1 .out (.ref (.cut 2 .leaf .out)))))) (.ref (.cut 0 (.ref (.cut 1 .out (.cut 2 .leaf .out))) (.ref (.cut 1 .out (.ref (.cut 2 .leaf .out)))))))) .out))))
theorem h98 : check par t98 [11534336, 2097152, 6291456, 2097152] [1048576, 2097152, 2097152, 2097152] st = true := by decide +kernel
def t99 : Tree := (.ref (.cut 1 .out (.cut 2 (.ref (.cut 3 (.cut 0 (.cut 1 .out (.cut 2 .leaf .out)) (.cut 1 .out (.cut 2 .leaf .out))) (.ref (.cut 0 (.cut 1 .out (.cut 2 .out .out)) (.ref (.cut 1 .out .leaf)))))) .out)))
theorem h99 : check par t99 [9437184, 2097152, 6291456, 6291456] [1048576, 2097152, 2097152, 2097152] st = true := by decide +kernel
def t100 : Tree := (.ref (.cut 1 .out (.ref (.cut 2 (.cut 3 (.ref (.cut 0 (.ref (.cut 1 .out (.cut 2 .leaf .out))) (.cut 1 .out (.cut 2 .leaf .out)))) (.ref (.cut 0 (.ref (.cut 1 .out .leaf)) (.cut 1 .out (.cut 2 .out .out))))) .out))))
theorem h100 : check par t100 [11534336, 2097152, 6291456, 6291456] [1048576, 2097152, 2097152, 2097152] st = true := by decide +kernel
end FastNoise.NormCheck.Super4
