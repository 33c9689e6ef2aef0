import Verif.NormCertSimplex4
/-! Generated by tools/normcert/gen.py: a certificate for the checker `Verif.NormCheck`. -/
namespace FastNoise.NormCheck.Simplex4
open FastNoise.RangeCheck (Tree)
set_option maxRecDepth 1000000
def t45 : Tree := (.ref (.cut 0 (.cut 1 (.ref (.cut 2 .leaf .leaf)) (.cut 2 (.cut 3 .leaf .leaf) .leaf)) (.cut 1 (.cut 2 (.cut 3 .leaf .leaf) .leaf) (.cut 2 .leaf (.cut 3 .leaf .leaf)))))
theorem h45 : check par t45 [7340032, 5242880, 5242880, 1048576] [1048576, 1048576, 1048576, 1048576] st = true := by decide +kernel
def t46 : Tree := (.ref (.cut 0 (.ref (.cut 1 (.cut 2 .leaf (.cut 3 .leaf .leaf)) (.cut 2 (.cut 3 .leaf .leaf) (.cut 3 .leaf (.cut 0 .leaf .leaf))))) (.cut 1 (.ref (.cut 2 (.cut 3 .leaf .leaf) (.cut 3 .leaf .leaf))) (.cut 2 (.cut 3 .leaf .leaf) (.ref (.cut 3 .leaf .leaf))))))
theorem h46 : check par t46 [7340032, 5242880, 5242880, 3145728] [1048576, 1048576, 1048576, 1048576] st = true := by decide +kernel
def t47 : Tree := (.ref (.cut 3 (.cut 0 (.cut 1 .out (.cut 2 .leaf .out)) .leaf) (.cut 0 (.cut 1 .out (.cut 2 (.cut 3 .leaf (.cut 0 .leaf .leaf)) .out)) (.cut 1 .out (.cut 2 .leaf .out)))))
theorem h47 : check par t47 [7340032, 5242880, 7340032, 2097152] [1048576, 1048576, 1048576, 2097152] st = true := by decide +kernel
def t48 : Tree := (.ref (.cut 3 (.cut 0 (.cut 1 (.cut 2 .leaf (.cut 3 .leaf .leaf)) .leaf) (.cut 1 .leaf .leaf)) (.cut 0 (.cut 1 (.cut 2 (.cut 3 .leaf .leaf) (.ref (.cut 3 .leaf (.cut 0 .leaf .leaf)))) (.cut 2 (.cut 3 .leaf (.cut 0 .out .leaf)) (.cut 3 .leaf .leaf))) (.cut 1 (.cut 2 (.cut 3 .leaf (.cut 0 .leaf .leaf)) (.cut 3 .leaf .leaf)) (.cut 2 .leaf .leaf)))))
theorem h48 : check par t48 [7340032, 7340032, 5242880, 2097152] [1048576, 1048576, 1048576, 2097152] st = true := by decide +kernel
def t49 : Tree := (.ref (.cut 3 (.cut 0 (.cut 1 (.ref (.cut 2 .leaf .leaf)) (.ref (.cut 2 .leaf .leaf))) (.cut 1 (.cut 2 .leaf .leaf) .leaf)) (.cut 0 (.ref (.cut 1 (.cut 2 (.cut 3 .leaf (.cut 0 .leaf .leaf)) .leaf) (.ref (.cut 2 .leaf .leaf)))) (.cut 1 (.ref (.cut 2 .leaf .leaf)) (.cut 2 (.cut 3 .leaf .leaf) .leaf)))))
theorem h49 : check par t49 [7340032, 7340032, 7340032, 2097152] [1048576, 1048576, 1048576, 2097152] st = true := by decide +kernel
def t50 : Tree := (.ref (.cut 0 (.ref (.cut 1 .leaf (.cut 2 .leaf .leaf))) (.cut 1 (.cut 2 (.cut 3 .leaf (.cut 0 .leaf .leaf)) (.cut 3 (.cut 0 .leaf .leaf) .leaf)) (.cut 2 (.cut 3 (.cut 0 .leaf .leaf) .leaf) (.ref (.cut 3 .leaf .leaf))))))
theorem h50 : check par t50 [5242880, 5242880, 5242880, 5242880] [1048576, 1048576, 1048576, 1048576] st = true := by decide +kernel
def t51 : Tree := (.ref (.cut 0 (.cut 1 (.cut 2 .out (.cut 3 .leaf .out)) (.cut 2 .out (.cut 3 .leaf .out))) (.cut 1 (.cut 2 .out (.cut 3 .leaf .out)) (.cut 2 .out (.cut 3 (.cut 0 .leaf (.cut 1 .leaf (.cut 2 .out .leaf))) .out)))))
theorem h51 : check par t51 [5242880, 5242880, 5242880, 7340032] [1048576, 1048576, 1048576, 1048576] st = true := by decide +kernel
def t52 : Tree := (.ref (.cut 3 (.ref (.cut 0 (.cut 1 .out (.cut 2 (.cut 3 .leaf .leaf) .out)) (.cut 1 .out (.cut 2 (.cut 3 .leaf (.cut 0 .leaf (.cut 1 .out (.cut 2 .leaf .out)))) .out)))) (.ref (.cut 0 (.cut 1 .out (.cut 2 (.cut 3 .leaf .leaf) .out)) (.cut 1 .out (.cut 2 (.cut 3 (.cut 0 (.cut 1 .out .leaf) (.cut 1 .out (.cut 2 .leaf .out))) (.cut 0 .leaf .leaf)) .out))))))
theorem h52 : check par t52 [5242880, 5242880, 7340032, 6291456] [1048576, 1048576, 1048576, 2097152] st = true := by decide +kernel
def t53 : Tree := (.ref (.cut 3 (.ref (.cut 0 .out (.cut 1 (.cut 2 (.cut 3 .leaf .leaf) (.cut 3 .leaf (.cut 0 .out (.cut 1 .leaf .out)))) .out))) (.ref (.cut 0 .out (.cut 1 (.cut 2 .out (.cut 3 (.cut 0 .out (.cut 1 (.cut 2 .out .leaf) .out)) .out)) .out)))))
theorem h53 : check par t53 [5242880, 7340032, 5242880, 6291456] [1048576, 1048576, 1048576, 2097152] st = true := by decide +kernel
def t54 : Tree := (.ref (.cut 3 (.cut 0 .out (.cut 1 (.cut 2 (.ref (.cut 3 .leaf (.cut 0 .out (.cut 1 (.cut 2 .leaf .leaf) .out)))) (.cut 3 (.cut 0 .out .leaf) (.ref (.cut 0 .out .leaf)))) .out)) (.ref (.cut 0 .out (.cut 1 (.cut 2 (.cut 3 (.cut 0 .out (.cut 1 (.cut 2 .leaf .leaf) .out)) (.cut 0 .out .leaf)) (.cut 3 (.cut 0 .out .leaf) (.cut 0 .out .leaf))) .out)))))
theorem h54 : check par t54 [5242880, 7340032, 7340032, 6291456] [1048576, 1048576, 1048576, 2097152] st = true := by decide +kernel
def t55 : Tree := (.ref (.cut 0 (.cut 1 (.cut 2 .leaf (.cut 3 .leaf .leaf)) (.cut 2 (.cut 3 .leaf .leaf) (.cut 3 .leaf (.cut 0 .leaf (.cut 1 .leaf (.cut 2 .leaf .leaf)))))) (.cut 1 (.cut 2 .leaf .leaf) (.cut 2 .leaf (.cut 3 .leaf .leaf)))))
theorem h55 : check par t55 [7340032, 5242880, 5242880, 5242880] [1048576, 1048576, 1048576, 1048576] st = true := by decide +kernel
def t56 : Tree := (.ref (.cut 0 (.cut 1 (.cut 2 .out (.cut 3 (.cut 0 .leaf .leaf) .out)) (.cut 2 .out (.ref (.cut 3 (.cut 0 (.cut 1 .leaf (.cut 2 .out .leaf)) (.cut 1 .leaf (.cut 2 .out .leaf))) .out)))) (.cut 1 (.cut 2 .out (.cut 3 .leaf .out)) (.cut 2 .out (.cut 3 (.cut 0 (.cut 1 .leaf .leaf) .leaf) .out)))))
theorem h56 : check par t56 [7340032, 5242880, 5242880, 7340032] [1048576, 1048576, 1048576, 1048576] st = true := by decide +kernel
def t57 : Tree := (.ref (.cut 0 (.cut 1 .out (.cut 2 (.ref (.cut 3 (.cut 0 .leaf .leaf) (.ref (.cut 0 (.cut 1 .out (.cut 2 .leaf .out)) (.cut 1 .out (.cut 2 .leaf .out)))))) .out)) (.cut 1 .out (.cut 2 (.cut 3 (.cut 0 .leaf .leaf) (.ref (.cut 0 (.cut 1 .out .leaf) .leaf))) .out))))
theorem h57 : check par t57 [7340032, 5242880, 7340032, 5242880] [1048576, 1048576, 1048576, 1048576] st = true := by decide +kernel
def t58 : Tree := (.ref (.cut 0 (.ref (.cut 1 .out (.cut 2 (.cut 3 (.cut 0 (.cut 1 .out (.cut 2 .leaf .out)) (.cut 1 .out .leaf)) (.cut 0 .leaf .leaf)) .out))) (.cut 1 .out (.cut 2 (.cut 3 (.cut 0 (.cut 1 .out .leaf) .leaf) (.cut 0 .leaf (.cut 1 .out .leaf))) .out))))
theorem h58 : check par t58 [7340032, 5242880, 7340032, 7340032] [1048576, 1048576, 1048576, 1048576] st = true := by decide +kernel
def t59 : Tree := (.ref (.cut 1 (.ref (.cut 2 (.cut 3 (.cut 0 .leaf .leaf) (.cut 0 .leaf .leaf)) (.cut 3 (.cut 0 .leaf .leaf) (.ref (.cut 0 (.cut 1 (.cut 2 .leaf .leaf) .leaf) (.cut 1 .leaf .leaf)))))) (.cut 2 (.ref (.cut 3 (.cut 0 .out .leaf) .leaf)) (.ref (.cut 3 (.cut 0 .out .leaf) (.ref (.cut 0 .out .leaf)))))))
theorem h59 : check par t59 [6815744, 7340032, 5242880, 5242880] [524288, 1048576, 1048576, 1048576] st = true := by decide +kernel
def t60 : Tree := (.ref (.cut 1 (.ref (.cut 2 (.ref (.cut 3 .leaf .leaf)) (.cut 3 (.cut 0 .leaf .leaf) (.ref (.cut 0 (.cut 1 .leaf .leaf) .leaf))))) (.cut 2 (.ref (.cut 3 .leaf .leaf)) (.ref (.cut 3 .leaf (.ref (.cut 0 .leaf .leaf)))))))
theorem h60 : check par t60 [7864320, 7340032, 5242880, 5242880] [524288, 1048576, 1048576, 1048576] st = true := by decide +kernel
def t61 : Tree := (.ref (.cut 0 (.ref (.cut 1 (.cut 2 .out (.cut 3 (.cut 0 (.cut 1 (.cut 2 .out .leaf) (.cut 2 .out .leaf)) (.cut 1 (.cut 2 .out .leaf) (.cut 2 .out .leaf))) .out)) (.cut 2 .out (.cut 3 (.cut 0 .out .leaf) .out)))) (.cut 1 (.cut 2 .out (.cut 3 (.cut 0 (.cut 1 .leaf .leaf) .leaf) .out)) (.cut 2 .out (.cut 3 (.cut 0 .leaf (.cut 1 .leaf .leaf)) .out)))))
theorem h61 : check par t61 [7340032, 7340032, 5242880, 7340032] [1048576, 1048576, 1048576, 1048576] st = true := by decide +kernel
def t62 : Tree := (.ref (.cut 1 (.cut 2 (.cut 3 (.cut 0 .leaf (.cut 1 .leaf .leaf)) (.ref (.cut 0 (.cut 1 (.cut 2 .leaf .leaf) (.cut 2 .leaf .leaf)) (.cut 1 (.cut 2 .leaf .leaf) (.cut 2 .leaf .leaf))))) (.cut 3 .leaf (.ref (.cut 0 .leaf .leaf)))) (.cut 2 (.cut 3 .leaf (.ref (.cut 0 .out .leaf))) (.cut 3 .leaf (.cut 0 .out (.cut 1 .leaf .out))))))
theorem h62 : check par t62 [6815744, 7340032, 7340032, 5242880] [524288, 1048576, 1048576, 1048576] st = true := by decide +kernel
def t63 : Tree := (.ref (.cut 1 (.cut 2 (.cut 3 (.cut 0 .leaf .leaf) (.ref (.cut 0 (.cut 1 .leaf .leaf) .leaf))) (.cut 3 .leaf (.cut 0 .leaf (.cut 1 .out .leaf)))) (.cut 2 (.cut 3 .leaf (.cut 0 .leaf (.cut 1 .leaf .leaf))) (.ref (.cut 3 .leaf (.cut 0 (.cut 1 (.cut 2 .leaf .leaf) .leaf) .leaf))))))
theorem h63 : check par t63 [7864320, 7340032, 7340032, 5242880] [524288, 1048576, 1048576, 1048576] st = true := by decide +kernel
def t64 : Tree := (.ref (.cut 3 (.cut 0 (.cut 1 .leaf .leaf) (.cut 1 .leaf (.cut 2 .leaf .leaf))) (.cut 0 (.cut 1 (.cut 2 .out .leaf) (.cut 2 .out .leaf)) (.cut 1 (.cut 2 .out .leaf) (.cut 2 .out (.cut 3 .leaf .out))))))
theorem h64 : check par t64 [6815744, 6815744, 6815744, 7340032] [524288, 524288, 524288, 1048576] st = true := by decide +kernel
def t65 : Tree := (.ref (.cut 3 (.cut 0 (.cut 1 .out (.cut 2 .leaf .out)) (.cut 1 .out (.cut 2 (.cut 3 .leaf .leaf) .out))) (.cut 0 (.cut 1 .out (.cut 2 .leaf .out)) (.cut 1 .out (.cut 2 (.cut 3 .leaf .leaf) .out)))))
theorem h65 : check par t65 [6815744, 6815744, 7864320, 7340032] [524288, 524288, 524288, 1048576] st = true := by decide +kernel
def t66 : Tree := (.ref (.cut 2 (.cut 3 (.cut 0 .out (.cut 1 (.cut 2 .leaf (.cut 3 .leaf .leaf)) .out)) (.cut 0 .out (.cut 1 (.cut 2 .out (.cut 3 .leaf .out)) .out))) (.cut 3 (.cut 0 .out (.cut 1 (.cut 2 (.cut 3 .leaf .leaf) .leaf) .out)) (.cut 0 .out (.cut 1 (.cut 2 (.cut 3 .leaf .leaf) .leaf) .out)))))
theorem h66 : check par t66 [6815744, 7864320, 7340032, 7340032] [524288, 524288, 1048576, 1048576] st = true := by decide +kernel
def t67 : Tree := (.ref (.cut 3 (.cut 0 (.ref (.cut 1 .leaf (.cut 2 .leaf (.cut 3 .leaf .leaf)))) (.cut 1 .leaf .leaf)) (.ref (.cut 0 (.cut 1 (.cut 2 .out .leaf) (.cut 2 .out (.cut 3 .leaf .out))) (.cut 1 .leaf (.cut 2 .out (.cut 3 .leaf .out)))))))
theorem h67 : check par t67 [7864320, 6815744, 6815744, 7340032] [524288, 524288, 524288, 1048576] st = true := by decide +kernel
def t68 : Tree := (.ref (.cut 3 (.cut 0 (.cut 1 .out (.cut 2 (.cut 3 .leaf .leaf) .out)) (.cut 1 .out (.cut 2 .leaf .out))) (.cut 0 (.cut 1 .out (.cut 2 (.cut 3 .leaf .leaf) .out)) (.cut 1 .out (.cut 2 .leaf .out)))))
theorem h68 : check par t68 [7864320, 6815744, 7864320, 7340032] [524288, 524288, 524288, 1048576] st = true := by decide +kernel
def t69 : Tree := (.ref (.cut 3 (.cut 0 (.cut 1 (.cut 2 .leaf (.cut 3 .leaf .leaf)) (.cut 2 .leaf .leaf)) (.cut 1 (.cut 2 .leaf .leaf) (.cut 2 .leaf .leaf))) (.cut 0 (.cut 1 (.cut 2 .out (.cut 3 .leaf .out)) (.cut 2 .out .leaf)) (.cut 1 (.cut 2 .out .leaf) (.cut 2 .out .leaf)))))
theorem h69 : check par t69 [7864320, 7864320, 6815744, 7340032] [524288, 524288, 524288, 1048576] st = true := by decide +kernel
def t70 : Tree := (.ref (.cut 0 (.cut 1 (.cut 2 (.cut 3 .leaf .leaf) (.cut 3 .leaf .leaf)) (.cut 2 (.cut 3 .leaf .leaf) (.cut 3 .leaf .leaf))) (.cut 1 (.cut 2 (.cut 3 .leaf .leaf) (.cut 3 .leaf .leaf)) (.cut 2 (.cut 3 .leaf .leaf) (.cut 3 .leaf .leaf)))))
theorem h70 : check par t70 [7864320, 7864320, 7864320, 6815744] [524288, 524288, 524288, 524288] st = true := by decide +kernel
def t71 : Tree := (.ref (.cut 0 (.cut 1 (.cut 2 (.cut 3 .leaf .leaf) (.cut 3 .leaf .leaf)) .leaf) (.cut 1 .leaf (.cut 2 (.cut 3 .leaf .leaf) (.cut 3 .leaf .leaf)))))
theorem h71 : check par t71 [7864320, 7864320, 7864320, 7864320] [524288, 524288, 524288, 524288] st = true := by decide +kernel
def t72 : Tree := (.ref (.cut 1 (.ref (.cut 2 .out (.ref (.cut 3 (.cut 0 (.cut 1 .out (.cut 2 .out .out)) (.cut 1 .out (.cut 2 .out .out))) .out)))) (.ref (.cut 2 .out (.cut 3 (.cut 0 .out (.cut 1 (.cut 2 .out (.cut 3 .leaf .out)) .out)) .out)))))
theorem h72 : check par t72 [2097152, 4194304, 4194304, 12582912] [2097152, 4194304, 4194304, 4194304] st = true := by decide +kernel
def t73 : Tree := (.ref (.cut 2 .out (.cut 3 (.cut 0 (.ref (.cut 1 .out (.cut 2 .out .out))) (.cut 1 .out (.cut 2 .out .out))) .out)))
theorem h73 : check par t73 [6291456, 2097152, 4194304, 12582912] [2097152, 2097152, 4194304, 4194304] st = true := by decide +kernel
def t74 : Tree := .out
theorem h74 : check par t74 [6291456, 6291456, 2097152, 12582912] [2097152, 2097152, 2097152, 4194304] st = true := by decide +kernel
def t75 : Tree := (.ref (.cut 1 (.cut 2 .out (.cut 3 (.cut 0 (.cut 1 .out .leaf) (.cut 1 .out (.cut 2 .out .out))) .out)) (.cut 2 .out (.cut 3 (.cut 0 .out (.cut 1 (.cut 2 .out (.cut 3 .leaf .out)) .out)) .out))))
theorem h75 : check par t75 [5242880, 6291456, 6291456, 10485760] [1048576, 2097152, 2097152, 2097152] st = true := by decide +kernel
def t76 : Tree := (.ref (.cut 2 .out (.cut 3 (.cut 0 (.ref (.cut 1 .out (.cut 2 .out .out))) (.ref (.cut 1 .out (.cut 2 .out .out)))) .out)))
theorem h76 : check par t76 [7340032, 5242880, 6291456, 10485760] [1048576, 1048576, 2097152, 2097152] st = true := by decide +kernel
def t77 : Tree := .out
theorem h77 : check par t77 [7340032, 7340032, 5242880, 10485760] [1048576, 1048576, 1048576, 2097152] st = true := by decide +kernel
def t78 : Tree := (.ref (.cut 1 (.cut 2 .out (.cut 3 (.cut 0 .leaf .leaf) .out)) (.cut 2 .out (.cut 3 (.cut 0 .out .leaf) .out))))
theorem h78 : check par t78 [6815744, 7340032, 7340032, 9437184] [524288, 1048576, 1048576, 1048576] st = true := by decide +kernel
def t79 : Tree := (.ref (.cut 1 (.cut 2 .out (.cut 3 (.cut 0 (.cut 1 .out .leaf) (.cut 1 .out .leaf)) .out)) (.cut 2 .out (.cut 3 (.cut 0 (.cut 1 (.cut 2 .out (.cut 3 .leaf .out)) (.cut 2 .out (.cut 3 .leaf .out))) (.cut 1 (.cut 2 .out (.cut 3 .leaf .out)) (.cut 2 .out (.cut 3 .leaf .out)))) .out))))
theorem h79 : check par t79 [7864320, 7340032, 7340032, 9437184] [524288, 1048576, 1048576, 1048576] st = true := by decide +kernel
def t80 : Tree := .out
theorem h80 : check par t80 [7340032, 7340032, 7340032, 11534336] [1048576, 1048576, 1048576, 1048576] st = true := by decide +kernel
def t81 : Tree := .out
theorem h81 : check par t81 [6291456, 6291456, 6291456, 14680064] [2097152, 2097152, 2097152, 2097152] st = true := by decide +kernel
def t82 : Tree := (.ref (.cut 1 .out (.ref (.cut 2 (.cut 3 (.cut 0 .out (.cut 1 .out .out)) (.cut 0 .out (.cut 1 .out .out))) .out))))
theorem h82 : check par t82 [2097152, 4194304, 12582912, 4194304] [2097152, 4194304, 4194304, 4194304] st = true := by decide +kernel
def t83 : Tree := .out
theorem h83 : check par t83 [6291456, 2097152, 12582912, 4194304] [2097152, 2097152, 4194304, 4194304] st = true := by decide +kernel
def t84 : Tree := (.ref (.cut 0 (.ref (.cut 1 .out (.cut 2 (.cut 3 .leaf (.cut 0 .out (.cut 1 .out .out))) .out))) (.cut 1 .out (.ref (.cut 2 (.cut 3 (.cut 0 .leaf (.cut 1 .out .leaf)) (.cut 0 (.ref (.cut 1 .out .leaf)) (.cut 1 .out .leaf))) .out)))))
theorem h84 : check par t84 [6291456, 6291456, 10485760, 2097152] [2097152, 2097152, 2097152, 2097152] st = true := by decide +kernel
def t85 : Tree := (.ref (.cut 1 .out (.cut 2 (.cut 3 (.cut 0 .out (.cut 1 .out .out)) (.ref (.cut 0 .out (.cut 1 .out .out)))) .out)))
theorem h85 : check par t85 [5242880, 6291456, 10485760, 6291456] [1048576, 2097152, 2097152, 2097152] st = true := by decide +kernel
def t86 : Tree := .out
theorem h86 : check par t86 [7340032, 5242880, 10485760, 6291456] [1048576, 1048576, 2097152, 2097152] st = true := by decide +kernel
def t87 : Tree := (.ref (.cut 0 (.ref (.cut 1 .out (.cut 2 (.cut 3 .leaf .leaf) .out))) (.ref (.cut 1 .out (.cut 2 (.cut 3 .leaf .leaf) .out)))))
theorem h87 : check par t87 [7340032, 7340032, 9437184, 5242880] [1048576, 1048576, 1048576, 1048576] st = true := by decide +kernel
def t88 : Tree := (.ref (.cut 0 (.cut 1 .out (.ref (.cut 2 (.cut 3 (.cut 0 .out .leaf) (.cut 0 .out .leaf)) .out))) (.cut 1 .out (.cut 2 (.cut 3 (.cut 0 (.ref (.cut 1 .out .leaf)) (.ref (.cut 1 .out .leaf))) (.ref (.cut 0 (.cut 1 .out (.cut 2 .leaf .out)) (.cut 1 .out (.cut 2 (.cut 3 .leaf .leaf) .out))))) .out))))
theorem h88 : check par t88 [7340032, 7340032, 9437184, 7340032] [1048576, 1048576, 1048576, 1048576] st = true := by decide +kernel
def t89 : Tree := .out
theorem h89 : check par t89 [7340032, 7340032, 11534336, 6291456] [1048576, 1048576, 1048576, 2097152] st = true := by decide +kernel
def t90 : Tree := .out
theorem h90 : check par t90 [6291456, 6291456, 14680064, 4194304] [2097152, 2097152, 2097152, 4194304] st = true := by decide +kernel
def t91 : Tree := (.ref (.cut 1 .out (.ref (.cut 2 (.cut 3 (.cut 0 .out (.cut 1 .out .out)) (.cut 0 .out .leaf)) .out))))
theorem h91 : check par t91 [2097152, 4194304, 12582912, 12582912] [2097152, 4194304, 4194304, 4194304] st = true := by decide +kernel
def t92 : Tree := .out
theorem h92 : check par t92 [6291456, 2097152, 12582912, 12582912] [2097152, 2097152, 4194304, 4194304] st = true := by decide +kernel
def t93 : Tree := (.ref (.cut 1 .out (.cut 2 (.cut 3 (.cut 0 .out (.cut 1 .out .out)) .leaf) .out)))
theorem h93 : check par t93 [5242880, 6291456, 10485760, 10485760] [1048576, 2097152, 2097152, 2097152] st = true := by decide +kernel
def t94 : Tree := (.ref (.cut 1 .out (.cut 2 (.cut 3 (.cut 0 (.cut 1 .out (.cut 2 (.cut 3 (.cut 0 .out .leaf) .leaf) .out)) (.cut 1 .out (.cut 2 (.cut 3 (.cut 0 (.cut 1 .out (.cut 2 (.cut 3 .leaf .leaf) .out)) (.cut 1 .out (.cut 2 (.cut 3 .leaf .leaf) .out))) (.cut 0 .leaf .leaf)) .out))) (.cut 0 .leaf (.cut 1 .out (.cut 2 .out .out)))) .out)))
theorem h94 : check par t94 [7340032, 6291456, 10485760, 10485760] [1048576, 2097152, 2097152, 2097152] st = true := by decide +kernel
def t95 : Tree := (.ref (.cut 0 (.cut 1 .out (.cut 2 .out .out)) (.cut 1 .out (.cut 2 .out .out))))
theorem h95 : check par t95 [6291456, 6291456, 10485760, 14680064] [2097152, 2097152, 2097152, 2097152] st = true := by decide +kernel
def t96 : Tree := .out
theorem h96 : check par t96 [6291456, 6291456, 14680064, 12582912] [2097152, 2097152, 2097152, 4194304] st = true := by decide +kernel
def t97 : Tree := .out
theorem h97 : check par t97 [2097152, 12582912, 4194304, 4194304] [2097152, 4194304, 4194304, 4194304] st = true := by decide +kernel
def t98 : Tree := (.ref (.cut 3 (.cut 0 .out (.cut 1 (.cut 2 (.cut 3 (.cut 0 .out .leaf) (.ref (.cut 0 .out .leaf))) (.cut 3 (.cut 0 .out .leaf) (.cut 0 .out (.cut 1 .leaf .out)))) .out)) (.cut 0 .out (.cut 1 (.cut 2 .out (.cut 3 (.ref (.cut 0 .out (.cut 1 .leaf .out))) .out)) .out))))
theorem h98 : check par t98 [6291456, 10485760, 2097152, 4194304] [2097152, 2097152, 2097152, 4194304] st = true := by decide +kernel
def t99 : Tree := (.ref (.cut 0 .out (.cut 1 (.cut 2 (.cut 3 (.cut 0 .out .leaf) (.cut 0 .out (.cut 1 .leaf .out))) (.cut 3 (.cut 0 .out (.cut 1 .leaf .out)) (.cut 0 .out (.cut 1 (.cut 2 .leaf .leaf) .out)))) .out)))
theorem h99 : check par t99 [6291456, 10485760, 6291456, 2097152] [2097152, 2097152, 2097152, 2097152] st = true := by decide +kernel
def t100 : Tree := .out
theorem h100 : check par t100 [5242880, 10485760, 6291456, 6291456] [1048576, 2097152, 2097152, 2097152] st = true := by decide +kernel
def t101 : Tree := (.ref (.cut 3 (.cut 0 .out (.cut 1 (.cut 2 (.cut 3 .leaf .leaf) (.cut 3 .leaf .leaf)) .out)) (.ref (.cut 0 .out (.ref (.cut 1 (.ref (.cut 2 .out .leaf)) .out))))))
theorem h101 : check par t101 [7340032, 9437184, 5242880, 6291456] [1048576, 1048576, 1048576, 2097152] st = true := by decide +kernel
def t102 : Tree := (.ref (.cut 3 (.cut 0 .out (.ref (.cut 1 (.ref (.cut 2 (.cut 3 .leaf .leaf) (.cut 3 .leaf .leaf))) .out))) (.ref (.cut 0 .out (.cut 1 (.cut 2 (.ref (.cut 3 (.cut 0 .out (.cut 1 .leaf .out)) (.cut 0 .out (.cut 1 .leaf .out)))) (.cut 3 (.cut 0 .out (.ref (.cut 1 .leaf .out))) (.ref (.cut 0 .out (.cut 1 (.cut 2 .leaf (.cut 3 .leaf .leaf)) .out))))) .out)))))
theorem h102 : check par t102 [7340032, 9437184, 7340032, 6291456] [1048576, 1048576, 1048576, 2097152] st = true := by decide +kernel
end FastNoise.NormCheck.Simplex4
