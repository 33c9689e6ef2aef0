import Verif.NormCertSuper4
/-! Generated by tools/normcert/gen.py: a certificate for the checker `Verif.NormCheck`. -/
namespace FastNoise.NormCheck.Super4
open FastNoise.RangeCheck (Tree)
set_option maxRecDepth 1000000
def t29 : Tree := (.ref (.cut 3 (.ref (.cut 0 (.ref (.cut 1 .leaf .leaf)) (.cut 1 .leaf .leaf))) (.ref (.cut 0 (.cut 1 (.cut 2 .out .leaf) (.cut 2 .out .leaf)) (.cut 1 (.cut 2 .out .leaf) (.ref (.cut 2 .out .leaf)))))))
theorem h29 : check par t29 [7340032, 5242880, 1048576, 2097152] [1048576, 1048576, 1048576, 2097152] st = true := by decide +kernel
def t30 : Tree := (.ref (.cut 3 (.ref (.cut 0 (.cut 1 (.cut 2 .leaf .leaf) (.cut 2 .leaf .leaf)) (.cut 1 (.cut 2 .leaf .leaf) (.ref (.cut 2 .leaf .leaf))))) (.cut 0 (.ref (.cut 1 (.cut 2 .leaf .leaf) (.ref (.cut 2 .leaf .leaf)))) (.ref (.cut 1 (.cut 2 .leaf .leaf) (.cut 2 .leaf .leaf))))))
theorem h30 : check par t30 [7340032, 5242880, 3145728, 2097152] [1048576, 1048576, 1048576, 2097152] st = true := by decide +kernel
def t31 : Tree := (.ref (.cut 2 (.ref (.cut 3 (.ref (.cut 0 .leaf .leaf)) (.ref (.cut 0 (.ref (.cut 1 .leaf (.cut 2 .out .leaf))) (.ref (.cut 1 (.ref (.cut 2 .out .leaf)) .leaf)))))) (.ref (.cut 3 (.ref (.cut 0 (.ref (.cut 1 .leaf (.cut 2 .leaf .leaf))) (.ref (.cut 1 (.ref (.cut 2 .leaf .leaf)) .leaf)))) (.ref (.cut 0 .leaf (.cut 1 .leaf .leaf)))))))
theorem h31 : check par t31 [7340032, 7340032, 2097152, 2097152] [1048576, 1048576, 2097152, 2097152] st = true := by decide +kernel
def t32 : Tree := (.ref (.cut 1 (.ref (.cut 2 .out (.cut 3 (.ref (.cut 0 (.ref (.cut 1 (.ref (.cut 2 .out .leaf)) (.ref (.cut 2 .out .leaf)))) (.ref (.cut 1 (.ref (.cut 2 .out .leaf)) (.ref (.cut 2 .out (.ref (.cut 3 .leaf .out)))))))) .out))) (.ref (.cut 2 .out (.cut 3 (.cut 0 .out (.ref (.cut 1 .leaf .out))) .out)))))
theorem h32 : check par t32 [5242880, 6291456, 2097152, 6291456] [1048576, 2097152, 2097152, 2097152] st = true := by decide +kernel
def t33 : Tree := (.ref (.cut 1 (.ref (.cut 2 .out (.cut 3 (.cut 0 (.ref (.cut 1 (.ref (.cut 2 .out .leaf)) .leaf)) (.ref (.cut 1 (.ref (.cut 2 .out .leaf)) (.ref (.cut 2 .out .leaf))))) .out))) (.ref (.cut 2 .out (.ref (.cut 3 (.ref (.cut 0 (.cut 1 (.cut 2 .out (.cut 3 .leaf .out)) (.ref (.cut 2 .out .leaf))) (.cut 1 (.ref (.cut 2 .out .leaf)) (.cut 2 .out .leaf)))) .out))))))
theorem h33 : check par t33 [7340032, 6291456, 2097152, 6291456] [1048576, 2097152, 2097152, 2097152] st = true := by decide +kernel
def t34 : Tree := (.ref (.cut 2 (.ref (.cut 3 (.ref (.cut 0 .leaf .leaf)) (.cut 0 (.ref (.cut 1 (.ref (.cut 2 .leaf .leaf)) (.ref (.cut 2 .leaf .leaf)))) (.ref (.cut 1 (.ref (.cut 2 .leaf .leaf)) (.ref (.cut 2 .leaf .leaf))))))) (.ref (.cut 3 (.ref (.cut 0 .leaf (.cut 1 .out .leaf))) (.cut 0 (.ref (.cut 1 .out .leaf)) (.ref (.cut 1 .out (.ref (.cut 2 .leaf .out)))))))))
theorem h34 : check par t34 [5242880, 5242880, 6291456, 2097152] [1048576, 1048576, 2097152, 2097152] st = true := by decide +kernel
def t35 : Tree := (.ref (.cut 2 (.cut 3 (.ref (.cut 0 .out (.cut 1 .leaf .out))) (.cut 0 .out (.ref (.cut 1 .leaf .out)))) (.ref (.cut 3 (.cut 0 .out (.ref (.cut 1 .leaf .out))) (.cut 0 .out (.cut 1 (.cut 2 .leaf .leaf) .out))))))
theorem h35 : check par t35 [5242880, 7340032, 6291456, 2097152] [1048576, 1048576, 2097152, 2097152] st = true := by decide +kernel
def t36 : Tree := (.ref (.cut 3 (.ref (.cut 0 (.cut 1 .leaf .leaf) (.ref (.cut 1 .leaf .leaf)))) (.cut 0 (.ref (.cut 1 (.ref (.cut 2 .leaf .leaf)) .leaf)) (.ref (.cut 1 (.ref (.cut 2 .leaf .leaf)) (.ref (.cut 2 .leaf .leaf)))))))
theorem h36 : check par t36 [7340032, 5242880, 5242880, 2097152] [1048576, 1048576, 1048576, 2097152] st = true := by decide +kernel
def t37 : Tree := (.ref (.cut 3 (.cut 0 (.ref (.cut 1 .out .leaf)) (.cut 1 .out .leaf)) (.cut 0 (.cut 1 .out (.cut 2 .leaf .out)) (.cut 1 .out (.cut 2 .leaf .out)))))
theorem h37 : check par t37 [7340032, 5242880, 7340032, 2097152] [1048576, 1048576, 1048576, 2097152] st = true := by decide +kernel
def t38 : Tree := (.ref (.cut 2 (.ref (.cut 3 (.cut 0 (.ref (.cut 1 .leaf .leaf)) (.cut 1 .leaf (.cut 2 .leaf .leaf))) (.cut 0 (.cut 1 (.cut 2 .leaf .leaf) (.ref (.cut 2 .leaf .leaf))) (.cut 1 (.ref (.cut 2 .leaf .leaf)) (.cut 2 .leaf .leaf))))) (.ref (.cut 3 (.ref (.cut 0 .leaf .leaf)) (.cut 0 (.ref (.cut 1 .leaf .leaf)) (.ref (.cut 1 .leaf .leaf)))))))
theorem h38 : check par t38 [7340032, 7340032, 6291456, 2097152] [1048576, 1048576, 2097152, 2097152] st = true := by decide +kernel
def t39 : Tree := (.ref (.cut 3 (.ref (.cut 0 (.ref (.cut 1 (.ref (.cut 2 .leaf .leaf)) (.ref (.cut 2 .leaf .leaf)))) (.ref (.cut 1 (.ref (.cut 2 .leaf .leaf)) (.ref (.cut 2 .leaf .leaf)))))) (.ref (.cut 0 (.cut 1 (.cut 2 .out (.cut 3 .leaf .out)) (.cut 2 .out .leaf)) (.cut 1 (.cut 2 .out .leaf) (.cut 2 .out (.cut 3 .leaf .out)))))))
theorem h39 : check par t39 [5242880, 5242880, 5242880, 6291456] [1048576, 1048576, 1048576, 2097152] st = true := by decide +kernel
def t40 : Tree := (.ref (.cut 3 (.ref (.cut 0 (.cut 1 .out (.cut 2 .leaf .out)) (.cut 1 .out (.cut 2 (.ref (.cut 3 .leaf .leaf)) .out)))) (.ref (.cut 0 (.ref (.cut 1 .out (.ref (.cut 2 .leaf .out)))) (.ref (.cut 1 .out (.ref (.cut 2 .leaf .out))))))))
theorem h40 : check par t40 [5242880, 5242880, 7340032, 6291456] [1048576, 1048576, 1048576, 2097152] st = true := by decide +kernel
def t41 : Tree := (.ref (.cut 2 (.ref (.cut 3 (.ref (.cut 0 .out (.cut 1 (.cut 2 .leaf (.ref (.cut 3 .leaf .leaf))) .out))) (.ref (.cut 0 .out (.ref (.cut 1 (.ref (.cut 2 .out .leaf)) .out)))))) (.ref (.cut 3 (.cut 0 .out (.ref (.cut 1 (.ref (.cut 2 .leaf (.cut 3 .leaf .leaf))) .out))) (.ref (.cut 0 .out (.ref (.cut 1 (.cut 2 (.ref (.cut 3 .leaf .leaf)) (.ref (.cut 3 .leaf .leaf))) .out))))))))
theorem h41 : check par t41 [5242880, 7340032, 6291456, 6291456] [1048576, 1048576, 2097152, 2097152] st = true := by decide +kernel
def t42 : Tree := (.ref (.cut 0 (.cut 1 (.cut 2 (.cut 3 .leaf .leaf) .leaf) (.cut 2 .leaf (.ref (.cut 3 .leaf .leaf)))) (.cut 1 (.cut 2 .leaf (.cut 3 .leaf .leaf)) (.cut 2 (.cut 3 .leaf .leaf) (.cut 3 .leaf .leaf)))))
theorem h42 : check par t42 [7340032, 5242880, 5242880, 5242880] [1048576, 1048576, 1048576, 1048576] st = true := by decide +kernel
def t43 : Tree := (.ref (.cut 0 (.ref (.cut 1 (.ref (.cut 2 .out .leaf)) (.ref (.cut 2 .out .leaf)))) (.ref (.cut 1 (.ref (.cut 2 .out .leaf)) (.ref (.cut 2 .out (.ref (.cut 3 .leaf .out))))))))
theorem h43 : check par t43 [7340032, 5242880, 5242880, 7340032] [1048576, 1048576, 1048576, 1048576] st = true := by decide +kernel
def t44 : Tree := (.ref (.cut 3 (.cut 0 (.ref (.cut 1 .out (.ref (.cut 2 .leaf .out)))) (.ref (.cut 1 .out (.ref (.cut 2 (.cut 3 .leaf .leaf) .out))))) (.ref (.cut 0 (.cut 1 .out (.ref (.cut 2 (.ref (.cut 3 .leaf .leaf)) .out))) (.cut 1 .out (.ref (.cut 2 (.ref (.cut 3 .leaf .leaf)) .out)))))))
theorem h44 : check par t44 [7340032, 5242880, 7340032, 6291456] [1048576, 1048576, 1048576, 2097152] st = true := by decide +kernel
def t45 : Tree := (.ref (.cut 0 (.ref (.cut 1 (.ref (.cut 2 .leaf .leaf)) (.cut 2 .leaf (.ref (.cut 3 .leaf .leaf))))) (.ref (.cut 1 (.cut 2 .leaf (.ref (.cut 3 .leaf .leaf))) (.ref (.cut 2 .leaf (.cut 3 .leaf .leaf)))))))
theorem h45 : check par t45 [7340032, 7340032, 5242880, 5242880] [1048576, 1048576, 1048576, 1048576] st = true := by decide +kernel
def t46 : Tree := (.ref (.cut 0 (.cut 1 (.cut 2 .out (.ref (.cut 3 .leaf .out))) (.ref (.cut 2 .out (.ref (.cut 3 .leaf .out))))) (.cut 1 (.ref (.cut 2 .out (.ref (.cut 3 .leaf .out)))) (.ref (.cut 2 .out (.ref (.cut 3 .leaf .out)))))))
theorem h46 : check par t46 [7340032, 7340032, 5242880, 7340032] [1048576, 1048576, 1048576, 1048576] st = true := by decide +kernel
def t47 : Tree := (.ref (.cut 0 (.cut 1 (.cut 2 (.ref (.cut 3 .leaf .leaf)) (.ref (.cut 3 .leaf .leaf))) (.ref (.cut 2 (.ref (.cut 3 .leaf .leaf)) (.ref (.cut 3 .leaf .leaf))))) (.cut 1 (.ref (.cut 2 (.ref (.cut 3 .leaf .leaf)) (.ref (.cut 3 .leaf .leaf)))) (.ref (.cut 2 (.ref (.cut 3 .leaf .leaf)) (.cut 3 .leaf (.ref (.cut 0 .leaf .leaf))))))))
theorem h47 : check par t47 [7340032, 7340032, 7340032, 5242880] [1048576, 1048576, 1048576, 1048576] st = true := by decide +kernel
def t48 : Tree := (.ref (.cut 0 (.ref (.cut 1 (.ref (.cut 2 .leaf (.cut 3 .leaf .leaf))) (.ref (.cut 2 (.ref (.cut 3 .leaf .leaf)) (.ref (.cut 3 .leaf .leaf)))))) (.cut 1 (.ref (.cut 2 (.ref (.cut 3 .leaf .leaf)) (.ref (.cut 3 .leaf .leaf)))) (.ref (.cut 2 (.cut 3 .leaf .leaf) .leaf)))))
theorem h48 : check par t48 [7340032, 7340032, 7340032, 7340032] [1048576, 1048576, 1048576, 1048576] st = true := by decide +kernel
def t49 : Tree := (.ref (.cut 1 (.ref (.cut 2 .out (.ref (.cut 3 (.ref (.cut 0 (.ref (.cut 1 .out (.ref (.cut 2 .out .out)))) (.ref (.cut 1 .out (.ref (.cut 2 .out .out)))))) .out)))) (.ref (.cut 2 .out (.ref (.cut 3 (.ref (.cut 0 .out (.ref (.cut 1 (.ref (.cut 2 .out (.ref (.cut 3 (.ref (.cut 0 .out (.cut 1 .out .out))) .out)))) .out)))) .out))))))
theorem h49 : check par t49 [2097152, 4194304, 4194304, 12582912] [2097152, 4194304, 4194304, 4194304] st = true := by decide +kernel
def t50 : Tree := (.ref (.cut 2 .out (.ref (.cut 3 (.ref (.cut 0 (.ref (.cut 1 .out (.ref (.cut 2 .out .out)))) (.ref (.cut 1 .out (.ref (.cut 2 .out .out)))))) .out))))
theorem h50 : check par t50 [6291456, 2097152, 4194304, 12582912] [2097152, 2097152, 4194304, 4194304] st = true := by decide +kernel
def t51 : Tree := .out
theorem h51 : check par t51 [6291456, 6291456, 2097152, 12582912] [2097152, 2097152, 2097152, 4194304] st = true := by decide +kernel
def t52 : Tree := (.ref (.cut 1 (.ref (.cut 2 .out (.ref (.cut 3 (.ref (.cut 0 (.ref (.cut 1 .out (.ref (.cut 2 .out .out)))) (.ref (.cut 1 .out (.ref (.cut 2 .out .out)))))) .out)))) (.ref (.cut 2 .out (.ref (.cut 3 (.ref (.cut 0 .out (.ref (.cut 1 (.cut 2 .out (.ref (.cut 3 .leaf .out))) .out)))) .out))))))
theorem h52 : check par t52 [5242880, 6291456, 6291456, 10485760] [1048576, 2097152, 2097152, 2097152] st = true := by decide +kernel
def t53 : Tree := (.ref (.cut 2 .out (.ref (.cut 3 (.ref (.cut 0 (.ref (.cut 1 .out (.ref (.cut 2 .out .out)))) (.ref (.cut 1 .out (.ref (.cut 2 .out .out)))))) .out))))
theorem h53 : check par t53 [7340032, 5242880, 6291456, 10485760] [1048576, 1048576, 2097152, 2097152] st = true := by decide +kernel
def t54 : Tree := (.ref (.cut 2 .out (.ref (.cut 3 (.ref (.cut 0 (.ref (.cut 1 (.cut 2 .out (.cut 3 .leaf .out)) (.cut 2 .out (.ref (.cut 3 .leaf .out))))) (.cut 1 (.ref (.cut 2 .out (.ref (.cut 3 .leaf .out)))) (.cut 2 .out (.cut 3 .leaf .out))))) .out))))
theorem h54 : check par t54 [7340032, 7340032, 6291456, 10485760] [1048576, 1048576, 2097152, 2097152] st = true := by decide +kernel
def t55 : Tree := .out
theorem h55 : check par t55 [6291456, 6291456, 6291456, 14680064] [2097152, 2097152, 2097152, 2097152] st = true := by decide +kernel
def t56 : Tree := (.ref (.cut 1 .out (.ref (.cut 2 (.ref (.cut 3 (.ref (.cut 0 .out (.ref (.cut 1 .out .out)))) (.ref (.cut 0 .out (.ref (.cut 1 .out .out)))))) .out))))
theorem h56 : check par t56 [2097152, 4194304, 12582912, 4194304] [2097152, 4194304, 4194304, 4194304] st = true := by decide +kernel
def t57 : Tree := .out
theorem h57 : check par t57 [6291456, 2097152, 12582912, 4194304] [2097152, 2097152, 4194304, 4194304] st = true := by decide +kernel
def t58 : Tree := (.ref (.cut 0 (.ref (.cut 1 .out (.ref (.cut 2 (.ref (.cut 3 (.cut 0 .out (.ref (.cut 1 .out .out))) (.ref (.cut 0 .out (.cut 1 .out .out))))) .out)))) (.ref (.cut 1 .out (.ref (.cut 2 (.ref (.cut 3 (.ref (.cut 0 (.cut 1 .out .leaf) (.cut 1 .out .leaf))) (.cut 0 (.cut 1 .out (.ref (.cut 2 .leaf .out))) (.ref (.cut 1 .out .leaf))))) .out))))))
theorem h58 : check par t58 [6291456, 6291456, 10485760, 2097152] [2097152, 2097152, 2097152, 2097152] st = true := by decide +kernel
def t59 : Tree := (.ref (.cut 1 .out (.ref (.cut 2 (.ref (.cut 3 (.ref (.cut 0 .out (.ref (.cut 1 .out .out)))) (.ref (.cut 0 .out (.ref (.cut 1 .out .out)))))) .out))))
theorem h59 : check par t59 [5242880, 6291456, 10485760, 6291456] [1048576, 2097152, 2097152, 2097152] st = true := by decide +kernel
def t60 : Tree := (.ref (.cut 1 .out (.ref (.cut 2 (.ref (.cut 3 (.ref (.cut 0 (.ref (.cut 1 .out (.ref (.cut 2 (.cut 3 .leaf .leaf) .out)))) (.ref (.cut 1 .out (.cut 2 (.cut 3 .leaf .leaf) .out))))) (.ref (.cut 0 (.ref (.cut 1 .out (.cut 2 (.ref (.cut 3 .leaf .leaf)) .out))) (.cut 1 .out (.cut 2 (.ref (.cut 3 .leaf .leaf)) .out)))))) .out))))
theorem h60 : check par t60 [7340032, 6291456, 10485760, 6291456] [1048576, 2097152, 2097152, 2097152] st = true := by decide +kernel
end FastNoise.NormCheck.Super4
