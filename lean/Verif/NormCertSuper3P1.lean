import Verif.NormCertSuper3
/-! Generated by tools/normcert/gen.py: a certificate for the checker `Verif.NormCheck`. -/
namespace FastNoise.NormCheck.Super3
open FastNoise.RangeCheck (Tree)
set_option maxRecDepth 1000000
def t45 : Tree := (.ref (.cut 2 (.cut 0 (.cut 1 (.cut 2 .leaf (.cut 0 .leaf .leaf)) .leaf) (.cut 1 (.cut 2 .leaf .leaf) .leaf)) (.cut 0 (.cut 1 (.cut 2 .leaf .leaf) .leaf) (.cut 1 (.cut 2 .leaf .leaf) .leaf))))
theorem h45 : check par t45 [8650752, 786432, 524288] [262144, 262144, 524288] st = true := by decide +kernel
def t46 : Tree := (.ref (.cut 1 (.cut 2 (.cut 0 (.cut 1 (.cut 2 .leaf .leaf) (.cut 2 .leaf .leaf)) .leaf) (.cut 0 (.cut 1 .out .leaf) .leaf)) (.cut 2 (.cut 0 (.cut 1 (.cut 2 .leaf .leaf) .leaf) .leaf) (.cut 0 (.cut 1 .leaf .leaf) .leaf))))
theorem h46 : check par t46 [9175040, 524288, 524288] [262144, 524288, 524288] st = true := by decide +kernel
def t47 : Tree := (.ref (.cut 0 (.cut 1 .out (.cut 2 (.ref (.cut 0 .leaf .leaf)) .out)) (.cut 1 .out (.cut 2 .leaf .out))))
theorem h47 : check par t47 [8912896, 524288, 1572864] [524288, 524288, 524288] st = true := by decide +kernel
def t48 : Tree := (.ref (.cut 2 (.cut 0 (.cut 1 (.cut 2 (.cut 0 .leaf .leaf) (.ref (.cut 0 .leaf .leaf))) (.ref (.cut 2 .leaf .leaf))) (.cut 1 (.cut 2 (.ref (.cut 0 .leaf .leaf)) .leaf) (.ref (.cut 2 .leaf .leaf)))) (.ref (.cut 0 (.cut 1 (.cut 2 (.cut 0 .leaf .leaf) .leaf) (.cut 2 .leaf .leaf)) (.cut 1 (.cut 2 .leaf .leaf) (.cut 2 .leaf .leaf))))))
theorem h48 : check par t48 [8912896, 1572864, 1048576] [524288, 524288, 1048576] st = true := by decide +kernel
def t49 : Tree := (.ref (.cut 1 (.cut 2 (.cut 0 (.cut 1 (.cut 2 .leaf .leaf) (.cut 2 .leaf .leaf)) (.cut 1 .leaf .leaf)) (.cut 0 (.cut 1 .out (.cut 2 .leaf .out)) (.cut 1 .out .leaf))) (.cut 2 (.cut 0 (.cut 1 (.cut 2 .leaf .leaf) (.ref (.cut 2 .leaf .leaf))) (.cut 1 .leaf .leaf)) (.ref (.cut 0 (.cut 1 (.cut 2 .leaf .leaf) .leaf) (.cut 1 .leaf .leaf))))))
theorem h49 : check par t49 [9961472, 1048576, 1048576] [524288, 1048576, 1048576] st = true := by decide +kernel
def t50 : Tree := (.ref (.cut 0 (.ref (.cut 1 .out (.ref (.cut 2 (.cut 0 (.cut 1 .out .leaf) (.cut 1 .out .leaf)) .out)))) (.ref (.cut 1 .out (.cut 2 (.cut 0 (.cut 1 .out .leaf) .leaf) .out)))))
theorem h50 : check par t50 [9437184, 1048576, 3145728] [1048576, 1048576, 1048576] st = true := by decide +kernel
def t51 : Tree := (.ref (.cut 2 (.cut 0 (.ref (.cut 1 (.ref (.cut 2 (.cut 0 (.cut 1 .leaf .leaf) (.cut 1 .leaf .leaf)) (.cut 0 (.cut 1 .leaf .leaf) (.cut 1 .leaf .leaf)))) (.ref (.cut 2 (.cut 0 .leaf .leaf) (.cut 0 .leaf .leaf))))) (.ref (.cut 1 (.cut 2 (.cut 0 (.cut 1 .leaf .leaf) .leaf) (.cut 0 (.cut 1 .leaf .leaf) .leaf)) (.cut 2 (.cut 0 .leaf .leaf) (.cut 0 .leaf .leaf))))) (.ref (.cut 0 (.cut 1 (.cut 2 (.cut 0 .leaf (.cut 1 .leaf .leaf)) (.ref (.cut 0 .leaf .leaf))) (.ref (.cut 2 (.cut 0 .leaf .leaf) .leaf))) (.cut 1 (.cut 2 (.cut 0 (.cut 1 .leaf .leaf) (.cut 1 .leaf .leaf)) (.ref (.cut 0 .leaf .leaf))) (.ref (.cut 2 (.cut 0 .leaf .leaf) (.ref (.cut 0 .leaf .leaf)))))))))
theorem h51 : check par t51 [9437184, 3145728, 2097152] [1048576, 1048576, 2097152] st = true := by decide +kernel
def t52 : Tree := (.ref (.cut 1 (.cut 2 (.cut 0 (.cut 1 (.cut 2 .leaf (.ref (.cut 0 .leaf .leaf))) (.cut 2 (.ref (.cut 0 .leaf .leaf)) (.cut 0 .leaf .leaf))) (.cut 1 .leaf (.cut 2 .leaf .leaf))) (.ref (.cut 0 (.cut 1 .out (.ref (.cut 2 (.cut 0 .leaf .leaf) .out))) (.cut 1 .out (.ref (.cut 2 .leaf .out)))))) (.cut 2 (.ref (.cut 0 (.cut 1 (.cut 2 (.ref (.cut 0 .leaf .leaf)) (.ref (.cut 0 .leaf .leaf))) (.ref (.cut 2 .leaf .leaf))) (.cut 1 (.ref (.cut 2 .leaf .leaf)) (.ref (.cut 2 .leaf .leaf))))) (.ref (.cut 0 (.cut 1 (.cut 2 (.cut 0 .leaf .leaf) .leaf) (.ref (.cut 2 .leaf .leaf))) (.cut 1 (.ref (.cut 2 .leaf .leaf)) (.ref (.cut 2 .leaf .leaf))))))))
theorem h52 : check par t52 [11534336, 2097152, 2097152] [1048576, 2097152, 2097152] st = true := by decide +kernel
def t53 : Tree := (.ref (.cut 0 (.ref (.cut 1 .out (.cut 2 (.cut 0 (.cut 1 .out (.cut 2 .leaf .out)) (.cut 1 .out (.cut 2 .leaf .out))) .out))) (.cut 1 .out (.cut 2 (.ref (.cut 0 (.cut 1 .out (.cut 2 .leaf .out)) (.cut 1 .out (.cut 2 .leaf .out)))) .out))))
theorem h53 : check par t53 [10485760, 2097152, 6291456] [2097152, 2097152, 2097152] st = true := by decide +kernel
def t54 : Tree := (.ref (.cut 1 (.cut 2 (.cut 0 (.cut 1 (.cut 2 .leaf .leaf) (.ref (.cut 2 .leaf .leaf))) (.cut 1 (.ref (.cut 2 .leaf (.cut 0 .leaf .leaf))) (.ref (.cut 2 .leaf .leaf)))) (.cut 0 (.cut 1 (.cut 2 .leaf .leaf) (.cut 2 .leaf .leaf)) (.cut 1 (.ref (.cut 2 .leaf .leaf)) (.cut 2 .leaf (.cut 0 .leaf .leaf))))) (.cut 2 (.ref (.cut 0 (.cut 1 .leaf .leaf) (.cut 1 (.cut 2 .leaf .leaf) (.cut 2 .leaf .leaf)))) (.cut 0 (.cut 1 (.cut 2 .leaf .leaf) (.ref (.cut 2 .leaf .leaf))) (.cut 1 (.cut 2 .leaf .leaf) (.ref (.cut 2 .leaf .leaf)))))))
theorem h54 : check par t54 [9437184, 6291456, 2097152] [1048576, 2097152, 2097152] st = true := by decide +kernel
def t55 : Tree := (.ref (.cut 1 (.ref (.cut 2 (.ref (.cut 0 (.cut 1 (.cut 2 .leaf .leaf) (.ref (.cut 2 .leaf .leaf))) (.cut 1 (.cut 2 .leaf .leaf) (.cut 2 .leaf .leaf)))) (.ref (.cut 0 (.cut 1 (.cut 2 .leaf .leaf) (.cut 2 .leaf .leaf)) (.cut 1 (.cut 2 .leaf .leaf) (.cut 2 .leaf .leaf)))))) (.cut 2 (.ref (.cut 0 (.cut 1 (.cut 2 .leaf .leaf) (.cut 2 .leaf .leaf)) (.cut 1 (.ref (.cut 2 .leaf .leaf)) (.cut 2 .leaf .leaf)))) (.ref (.cut 0 (.cut 1 (.cut 2 .leaf .leaf) (.cut 2 .leaf (.cut 0 .leaf .leaf))) (.cut 1 (.ref (.cut 2 .leaf .leaf)) (.cut 2 .leaf .leaf)))))))
theorem h55 : check par t55 [11534336, 6291456, 2097152] [1048576, 2097152, 2097152] st = true := by decide +kernel
def t56 : Tree := (.ref (.cut 2 (.ref (.cut 0 (.cut 1 (.ref (.cut 2 .leaf .leaf)) (.cut 2 .leaf (.cut 0 .leaf .leaf))) (.cut 1 (.ref (.cut 2 .leaf .leaf)) (.ref (.cut 2 .leaf .leaf))))) (.ref (.cut 0 (.cut 1 .out (.ref (.cut 2 (.cut 0 .leaf .leaf) .out))) (.ref (.cut 1 .out (.cut 2 (.cut 0 .leaf .leaf) .out)))))))
theorem h56 : check par t56 [9437184, 5242880, 6291456] [1048576, 1048576, 2097152] st = true := by decide +kernel
def t57 : Tree := (.ref (.cut 0 (.cut 1 (.ref (.cut 2 .leaf (.cut 0 .leaf .leaf))) (.ref (.cut 2 (.cut 0 .leaf .leaf) (.cut 0 .leaf .leaf)))) (.ref (.cut 1 (.cut 2 .leaf (.cut 0 .leaf .leaf)) (.cut 2 (.cut 0 .leaf .leaf) (.cut 0 .leaf .leaf))))))
theorem h57 : check par t57 [9437184, 7340032, 5242880] [1048576, 1048576, 1048576] st = true := by decide +kernel
def t58 : Tree := (.ref (.cut 2 (.ref (.cut 0 (.cut 1 .leaf .leaf) (.cut 1 .leaf .leaf))) (.cut 0 (.cut 1 .out (.cut 2 .leaf .out)) (.ref (.cut 1 .out (.cut 2 .leaf .out))))))
theorem h58 : check par t58 [8912896, 6815744, 7340032] [524288, 524288, 1048576] st = true := by decide +kernel
def t59 : Tree := (.ref (.cut 0 (.cut 1 (.ref (.cut 2 .leaf .leaf)) (.cut 2 .leaf .leaf)) (.ref (.cut 1 (.cut 2 .leaf .leaf) (.ref (.cut 2 .leaf .leaf))))))
theorem h59 : check par t59 [8912896, 7864320, 6815744] [524288, 524288, 524288] st = true := by decide +kernel
def t60 : Tree := (.ref (.cut 2 (.cut 0 (.cut 1 .leaf .leaf) .leaf) (.cut 0 (.cut 1 .out (.cut 2 .leaf .out)) (.cut 1 .out .leaf))))
theorem h60 : check par t60 [8650752, 7602176, 7864320] [262144, 262144, 524288] st = true := by decide +kernel
def t61 : Tree := (.ref (.cut 0 (.cut 1 .leaf (.cut 2 .leaf .leaf)) (.cut 1 .leaf .leaf)))
theorem h61 : check par t61 [8650752, 8126464, 7602176] [262144, 262144, 262144] st = true := by decide +kernel
def t62 : Tree := (.ref (.cut 2 (.cut 0 .leaf .leaf) (.cut 0 (.cut 1 .out .leaf) (.cut 1 .out .leaf))))
theorem h62 : check par t62 [8519680, 7995392, 8126464] [131072, 131072, 262144] st = true := by decide +kernel
def t63 : Tree := (.ref (.cut 0 (.cut 1 .leaf .leaf) (.cut 1 .leaf .leaf)))
theorem h63 : check par t63 [8519680, 8257536, 7995392] [131072, 131072, 131072] st = true := by decide +kernel
def t64 : Tree := (.ref (.cut 0 (.cut 1 (.cut 2 (.cut 0 .leaf .leaf) (.cut 0 (.cut 1 .out .leaf) .leaf)) (.cut 2 (.cut 0 (.cut 1 .leaf .leaf) .leaf) (.cut 0 (.cut 1 (.cut 2 (.cut 0 .leaf .leaf) (.cut 0 (.cut 1 .out .leaf) .leaf)) (.cut 2 (.cut 0 (.cut 1 .leaf .leaf) .leaf) (.cut 0 (.cut 1 (.cut 2 (.cut 0 .leaf .leaf) (.cut 0 (.cut 1 .out .leaf) .leaf)) (.cut 2 (.cut 0 (.cut 1 .leaf .leaf) .leaf) (.cut 0 (.cut 1 (.cut 2 .leaf (.cut 0 .leaf .leaf)) (.cut 2 (.cut 0 .leaf .leaf) (.cut 0 (.cut 1 (.cut 2 .leaf .leaf) (.cut 2 .leaf (.cut 0 .leaf .leaf))) (.cut 1 .leaf (.cut 2 .leaf .leaf))))) (.cut 1 (.cut 2 .leaf .leaf) (.cut 2 .leaf (.cut 0 .leaf .leaf)))))) (.cut 1 (.cut 2 .leaf .leaf) (.cut 2 .leaf (.cut 0 (.cut 1 .leaf .leaf) .leaf)))))) (.cut 1 (.cut 2 .leaf .leaf) (.cut 2 .leaf (.cut 0 (.cut 1 .leaf .leaf) .leaf)))))) (.cut 1 (.cut 2 .leaf .leaf) (.cut 2 .leaf (.cut 0 (.cut 1 .leaf .leaf) .leaf)))))
theorem h64 : check par t64 [8519680, 8257536, 8257536] [131072, 131072, 131072] st = true := by decide +kernel
def t65 : Tree := (.ref (.cut 1 (.cut 2 .leaf .leaf) (.cut 2 .leaf (.cut 0 (.cut 1 .leaf .leaf) .leaf))))
theorem h65 : check par t65 [8781824, 8126464, 8126464] [131072, 262144, 262144] st = true := by decide +kernel
def t66 : Tree := (.ref (.cut 1 (.cut 2 .leaf (.ref (.cut 0 .leaf .leaf))) (.cut 2 (.ref (.cut 0 .leaf .leaf)) (.cut 0 (.cut 1 .leaf (.cut 2 .leaf .leaf)) .leaf))))
theorem h66 : check par t66 [9175040, 7864320, 7864320] [262144, 524288, 524288] st = true := by decide +kernel
def t67 : Tree := (.ref (.cut 1 (.cut 2 (.cut 0 (.cut 1 .leaf .leaf) .leaf) (.ref (.cut 0 (.cut 1 .out .leaf) (.cut 1 .out .leaf)))) (.cut 2 (.ref (.cut 0 (.cut 1 .leaf .leaf) (.cut 1 .leaf .leaf))) (.cut 0 (.cut 1 (.cut 2 .leaf .leaf) (.cut 2 .leaf .leaf)) (.cut 1 .leaf .leaf)))))
theorem h67 : check par t67 [9961472, 7340032, 7340032] [524288, 1048576, 1048576] st = true := by decide +kernel
def t68 : Tree := (.ref (.cut 1 (.ref (.cut 2 (.ref (.cut 0 (.cut 1 (.cut 2 .leaf .leaf) (.cut 2 .leaf .leaf)) (.cut 1 (.cut 2 .leaf .leaf) (.cut 2 .leaf .leaf)))) (.ref (.cut 0 (.cut 1 .out (.cut 2 .leaf .out)) (.cut 1 .out (.cut 2 .leaf .out)))))) (.ref (.cut 2 (.ref (.cut 0 (.cut 1 (.cut 2 (.cut 0 .leaf .leaf) .leaf) (.cut 2 .leaf (.cut 0 .leaf .leaf))) (.cut 1 (.ref (.cut 2 .leaf .leaf)) (.cut 2 .leaf .leaf)))) (.ref (.cut 0 (.cut 1 (.ref (.cut 2 (.ref (.cut 0 .leaf .leaf)) (.cut 0 .leaf .leaf))) (.cut 2 (.ref (.cut 0 .leaf .leaf)) (.cut 0 (.cut 1 .leaf .out) .out))) (.ref (.cut 1 (.cut 2 .leaf .leaf) (.cut 2 .leaf .out)))))))))
theorem h68 : check par t68 [11534336, 6291456, 6291456] [1048576, 2097152, 2097152] st = true := by decide +kernel
def t69 : Tree := (.ref (.cut 2 (.ref (.cut 0 (.ref (.cut 1 (.cut 2 (.ref (.cut 0 (.ref (.cut 1 .leaf .leaf)) (.cut 1 .leaf .leaf))) (.ref (.cut 0 (.ref (.cut 1 .out .leaf)) (.ref (.cut 1 .out .leaf))))) (.ref (.cut 2 (.ref (.cut 0 (.ref (.cut 1 .leaf .leaf)) (.ref (.cut 1 .leaf .leaf)))) (.ref (.cut 0 (.cut 1 (.ref (.cut 2 .leaf .leaf)) (.ref (.cut 2 .leaf .leaf))) (.ref (.cut 1 .leaf .leaf)))))))) (.cut 1 (.ref (.cut 2 (.ref (.cut 0 .leaf .leaf)) (.ref (.cut 0 .leaf .leaf)))) (.ref (.cut 2 (.ref (.cut 0 .leaf .leaf)) (.ref (.cut 0 .leaf .leaf))))))) (.ref (.cut 0 (.ref (.cut 1 .out (.ref (.cut 2 (.ref (.cut 0 (.cut 1 .out (.ref (.cut 2 .leaf .out))) (.cut 1 .out (.ref (.cut 2 .leaf .out))))) .out)))) (.ref (.cut 1 .out (.ref (.cut 2 (.ref (.cut 0 (.cut 1 .out .leaf) (.ref (.cut 1 .out .leaf)))) .out))))))))
theorem h69 : check par t69 [14680064, 2097152, 4194304] [2097152, 2097152, 4194304] st = true := by decide +kernel
def t70 : Tree := (.ref (.cut 1 (.ref (.cut 2 (.cut 0 (.ref (.cut 1 (.cut 2 .leaf .leaf) (.cut 2 .leaf .leaf))) (.cut 1 (.cut 2 .leaf .leaf) (.cut 2 .leaf .leaf))) (.ref (.cut 0 (.cut 1 (.cut 2 .leaf .leaf) (.cut 2 .leaf .leaf)) (.cut 1 (.cut 2 .leaf .leaf) (.cut 2 .leaf .leaf)))))) (.ref (.cut 2 (.ref (.cut 0 (.ref (.cut 1 (.cut 2 .leaf .leaf) (.ref (.cut 2 .leaf .leaf)))) (.ref (.cut 1 (.cut 2 (.cut 0 .leaf .leaf) .leaf) (.cut 2 (.cut 0 .leaf .leaf) .leaf))))) (.ref (.cut 0 (.cut 1 (.cut 2 .leaf .leaf) (.cut 2 .leaf .leaf)) (.cut 1 (.cut 2 .leaf .leaf) (.cut 2 .leaf .leaf))))))))
theorem h70 : check par t70 [13631488, 6291456, 2097152] [1048576, 2097152, 2097152] st = true := by decide +kernel
def t71 : Tree := (.ref (.cut 2 (.cut 0 (.ref (.cut 1 .leaf (.cut 2 .leaf .leaf))) (.cut 1 .leaf (.ref (.cut 2 .leaf .leaf)))) (.ref (.cut 0 (.cut 1 .leaf .leaf) (.ref (.cut 1 .leaf .leaf))))))
theorem h71 : check par t71 [15728640, 5242880, 2097152] [1048576, 1048576, 2097152] st = true := by decide +kernel
def t72 : Tree := (.ref (.cut 1 (.cut 2 (.cut 0 (.cut 1 .leaf .leaf) (.cut 1 .leaf .leaf)) (.ref (.cut 0 .leaf .leaf))) (.cut 2 (.cut 0 (.cut 1 (.cut 2 .leaf .leaf) .leaf) (.cut 1 (.cut 2 .leaf .leaf) (.cut 2 .leaf .leaf))) (.ref (.cut 0 .leaf (.cut 1 .leaf .leaf))))))
theorem h72 : check par t72 [15204352, 7340032, 1048576] [524288, 1048576, 1048576] st = true := by decide +kernel
def t73 : Tree := (.ref (.cut 2 (.cut 0 (.cut 1 .leaf (.cut 2 .leaf .leaf)) (.cut 1 .leaf .leaf)) (.ref (.cut 0 .leaf .leaf))))
theorem h73 : check par t73 [16252928, 6815744, 1048576] [524288, 524288, 1048576] st = true := by decide +kernel
def t74 : Tree := (.ref (.cut 1 (.cut 2 (.cut 0 .leaf (.cut 1 .leaf .leaf)) .leaf) (.cut 2 (.cut 0 .leaf (.cut 1 (.cut 2 .leaf .leaf) (.cut 2 .leaf .leaf))) (.ref (.cut 0 .leaf .leaf)))))
theorem h74 : check par t74 [15990784, 7864320, 524288] [262144, 524288, 524288] st = true := by decide +kernel
def t75 : Tree := (.ref (.cut 2 (.cut 0 (.cut 1 .leaf .leaf) (.cut 1 .leaf .leaf)) .leaf))
theorem h75 : check par t75 [16515072, 7602176, 524288] [262144, 262144, 524288] st = true := by decide +kernel
def t76 : Tree := (.ref (.cut 1 (.cut 2 (.cut 0 .leaf .leaf) .leaf) (.cut 2 (.cut 0 .leaf (.cut 1 (.cut 2 .leaf .leaf) .leaf)) .leaf)))
theorem h76 : check par t76 [16384000, 8126464, 262144] [131072, 262144, 262144] st = true := by decide +kernel
def t77 : Tree := (.ref (.cut 2 (.cut 0 (.cut 1 .leaf .leaf) (.cut 1 .leaf .leaf)) .leaf))
theorem h77 : check par t77 [16646144, 7995392, 262144] [131072, 131072, 262144] st = true := by decide +kernel
def t78 : Tree := (.ref (.cut 1 (.cut 2 (.cut 0 .leaf .leaf) .leaf) (.cut 2 (.cut 0 .leaf (.cut 1 (.cut 2 .leaf .leaf) .leaf)) .leaf)))
theorem h78 : check par t78 [16580608, 8257536, 131072] [65536, 131072, 131072] st = true := by decide +kernel
def t79 : Tree := (.ref (.cut 1 (.cut 2 (.cut 0 (.cut 1 .leaf .leaf) (.cut 1 .leaf .leaf)) .leaf) (.cut 2 (.cut 0 (.cut 1 (.cut 2 (.cut 0 .leaf .leaf) .leaf) (.cut 2 (.cut 0 .leaf (.cut 1 (.cut 2 .leaf .leaf) .leaf)) .leaf)) (.cut 1 (.cut 2 (.cut 0 (.cut 1 .leaf .leaf) (.cut 1 .leaf .leaf)) .leaf) (.cut 2 (.cut 0 (.cut 1 (.cut 2 .leaf .leaf) (.cut 2 (.cut 0 .leaf (.cut 1 .leaf .leaf)) .leaf)) (.cut 1 (.cut 2 (.cut 0 .leaf .leaf) .leaf) (.cut 2 (.cut 0 (.cut 1 (.cut 2 .leaf .leaf) (.cut 2 (.cut 0 .leaf (.cut 1 .leaf .leaf)) .leaf)) (.cut 1 (.cut 2 (.cut 0 .leaf .leaf) .leaf) (.cut 2 (.cut 0 (.cut 1 (.cut 2 .leaf .leaf) (.cut 2 .leaf .leaf)) (.cut 1 (.cut 2 .leaf .leaf) (.cut 2 .leaf .leaf))) (.cut 0 .leaf (.cut 1 .leaf .leaf))))) (.cut 0 .leaf (.cut 1 .leaf .leaf))))) (.cut 0 (.cut 1 .leaf .leaf) (.cut 1 .leaf .leaf))))) (.cut 0 (.cut 1 .leaf .leaf) (.cut 1 .leaf .leaf)))))
theorem h79 : check par t79 [16711680, 8257536, 131072] [65536, 131072, 131072] st = true := by decide +kernel
def t80 : Tree := (.ref (.cut 0 (.cut 1 .leaf .leaf) (.cut 1 .leaf .leaf)))
theorem h80 : check par t80 [16646144, 8257536, 393216] [131072, 131072, 131072] st = true := by decide +kernel
def t81 : Tree := (.ref (.cut 0 (.cut 1 .leaf .leaf) (.cut 1 .leaf (.cut 2 .leaf .out))))
theorem h81 : check par t81 [16515072, 8126464, 786432] [262144, 262144, 262144] st = true := by decide +kernel
def t82 : Tree := (.ref (.cut 0 (.ref (.cut 1 .leaf (.cut 2 .leaf .leaf))) (.cut 1 .leaf (.cut 2 .leaf .out))))
theorem h82 : check par t82 [16252928, 7864320, 1572864] [524288, 524288, 524288] st = true := by decide +kernel
def t83 : Tree := (.ref (.cut 0 (.cut 1 (.cut 2 .leaf .leaf) (.cut 2 (.ref (.cut 0 .leaf .leaf)) .leaf)) (.cut 1 (.ref (.cut 2 .leaf .leaf)) (.cut 2 (.ref (.cut 0 .leaf .out)) .out))))
theorem h83 : check par t83 [15728640, 7340032, 3145728] [1048576, 1048576, 1048576] st = true := by decide +kernel
def t84 : Tree := (.ref (.cut 0 (.cut 1 (.ref (.cut 2 (.cut 0 (.cut 1 (.cut 2 .leaf .leaf) (.cut 2 .leaf .leaf)) (.cut 1 (.cut 2 .leaf .leaf) .leaf)) (.cut 0 (.cut 1 .out (.cut 2 .leaf .out)) (.cut 1 .out (.cut 2 .leaf .out))))) (.ref (.cut 2 (.cut 0 (.cut 1 (.cut 2 .leaf .leaf) (.cut 2 .leaf .leaf)) (.cut 1 (.cut 2 .leaf .leaf) (.cut 2 .leaf .out))) (.cut 0 (.cut 1 (.cut 2 .leaf .out) .out) .out)))) (.ref (.cut 1 (.cut 2 (.cut 0 (.cut 1 .leaf .leaf) (.cut 1 .leaf .leaf)) (.cut 0 (.cut 1 .out .out) .out)) (.cut 2 (.cut 0 (.cut 1 .leaf .out) .out) .out)))))
theorem h84 : check par t84 [14680064, 6291456, 6291456] [2097152, 2097152, 2097152] st = true := by decide +kernel
end FastNoise.NormCheck.Super3
