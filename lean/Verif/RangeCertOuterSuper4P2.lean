import Verif.RangeCertOuterSuper4
/-! Generated by tools/rangecert/gen.py: a certificate for the checker `Verif.RangeCheck`. -/
namespace FastNoise.RangeCheck.OuterSuper4
set_option maxRecDepth 1000000
def t50 : Tree := (.ref (.cut 0 (.cut 1 (.cut 2 (.ref (.cut 3 (.ref (.cut 0 .leaf .leaf)) (.ref (.cut 0 .leaf .leaf)))) (.ref (.cut 3 (.ref (.cut 0 .leaf .leaf)) (.ref (.cut 0 .leaf .leaf))))) (.cut 2 (.cut 3 (.ref (.cut 0 .leaf .leaf)) (.ref (.cut 0 .leaf .leaf))) (.ref (.cut 3 (.ref (.cut 0 .leaf .leaf)) (.ref (.cut 0 .leaf .leaf)))))) (.cut 1 (.cut 2 (.ref (.cut 3 (.ref (.cut 0 .leaf (.cut 1 .leaf .leaf))) (.ref (.cut 0 (.cut 1 .leaf .leaf) (.cut 1 .leaf .leaf))))) (.ref (.cut 3 (.ref (.cut 0 (.cut 1 .leaf .leaf) (.cut 1 .leaf .leaf))) (.ref (.cut 0 .leaf (.cut 1 .leaf .leaf)))))) (.cut 2 (.cut 3 (.cut 0 (.cut 1 .leaf .leaf) (.cut 1 .leaf .leaf)) (.ref (.cut 0 (.cut 1 .leaf .leaf) (.cut 1 (.ref (.cut 2 .out .leaf)) .leaf)))) (.cut 3 (.ref (.cut 0 (.cut 1 .leaf .leaf) (.cut 1 (.ref (.cut 2 .leaf .leaf)) .leaf))) (.cut 0 .leaf (.cut 1 .leaf .leaf)))))))
theorem h50 : check par t50 [34816, 10240, 6144, 6144] [2048, 2048, 2048, 2048] st = true := by decide +kernel
def t51 : Tree := (.ref (.cut 3 (.ref (.cut 0 (.cut 1 (.ref (.cut 2 .leaf (.cut 3 .leaf .leaf))) .leaf) (.ref (.cut 1 (.ref (.cut 2 (.cut 3 .leaf .leaf) (.cut 3 .leaf (.cut 0 .leaf .leaf)))) (.cut 2 .leaf .leaf))))) (.ref (.cut 0 (.cut 1 (.ref (.cut 2 .out (.cut 3 .leaf .out))) (.cut 2 .out .leaf)) (.cut 1 (.ref (.cut 2 .out (.cut 3 (.cut 0 .leaf .leaf) .out))) (.cut 2 .out .leaf))))))
theorem h51 : check par t51 [34816, 14336, 2048, 4096] [2048, 2048, 2048, 4096] st = true := by decide +kernel
def t52 : Tree := (.ref (.cut 3 (.ref (.cut 0 (.cut 1 (.ref (.cut 2 (.cut 3 .leaf .leaf) (.cut 3 .leaf .leaf))) (.cut 2 .leaf .leaf)) (.cut 1 (.ref (.cut 2 (.cut 3 .leaf (.cut 0 .leaf .leaf)) (.ref (.cut 3 .leaf (.cut 0 .leaf .leaf))))) (.cut 2 (.ref (.cut 3 .leaf .leaf)) (.ref (.cut 3 .leaf .leaf)))))) (.ref (.cut 0 (.cut 1 (.cut 2 (.ref (.cut 3 .leaf .leaf)) (.ref (.cut 3 .leaf (.ref (.cut 0 .leaf .leaf))))) (.ref (.cut 2 .leaf .leaf))) (.cut 1 (.cut 2 (.ref (.cut 3 (.ref (.cut 0 .leaf .leaf)) (.ref (.cut 0 .leaf .leaf)))) (.cut 3 (.ref (.cut 0 .leaf .leaf)) (.cut 0 .leaf .leaf))) (.cut 2 (.ref (.cut 3 .leaf .leaf)) (.ref (.cut 3 .leaf .leaf))))))))
theorem h52 : check par t52 [34816, 14336, 6144, 4096] [2048, 2048, 2048, 4096] st = true := by decide +kernel
def t53 : Tree := (.ref (.cut 0 (.cut 1 (.cut 2 (.ref (.cut 3 (.ref (.cut 0 (.cut 1 .leaf .leaf) .leaf)) (.ref (.cut 0 (.cut 1 .leaf .leaf) (.cut 1 .leaf .leaf))))) (.ref (.cut 3 (.ref (.cut 0 (.cut 1 .leaf .leaf) (.cut 1 .leaf .leaf))) (.ref (.cut 0 (.cut 1 .leaf .leaf) (.cut 1 .leaf .leaf)))))) (.cut 2 (.ref (.cut 3 (.ref (.cut 0 .leaf .leaf)) (.ref (.cut 0 .leaf (.cut 1 .leaf .leaf))))) (.cut 3 (.ref (.cut 0 .leaf (.cut 1 .leaf .leaf))) (.cut 0 (.ref (.cut 1 .leaf .leaf)) (.ref (.cut 1 .leaf .leaf)))))) (.cut 1 (.cut 2 (.ref (.cut 3 (.ref (.cut 0 .leaf .leaf)) (.ref (.cut 0 .leaf .leaf)))) (.ref (.cut 3 (.ref (.cut 0 .leaf .leaf)) (.ref (.cut 0 (.cut 1 .leaf .leaf) .leaf))))) (.cut 2 (.ref (.cut 3 (.ref (.cut 0 .leaf .leaf)) (.ref (.cut 0 .leaf .leaf)))) (.cut 3 (.ref (.cut 0 .leaf .leaf)) (.ref (.cut 0 (.ref (.cut 1 .leaf .leaf)) (.ref (.cut 1 .leaf .leaf)))))))))
theorem h53 : check par t53 [38912, 10240, 2048, 2048] [2048, 2048, 2048, 2048] st = true := by decide +kernel
def t54 : Tree := (.ref (.cut 0 (.cut 1 (.cut 2 .out (.cut 3 (.cut 0 (.ref (.cut 1 (.ref (.cut 2 .out .leaf)) (.cut 2 .out .leaf))) (.cut 1 (.ref (.cut 2 .out .leaf)) (.ref (.cut 2 .out .leaf)))) .out)) (.ref (.cut 2 .out (.cut 3 (.cut 0 (.cut 1 (.cut 2 .out .leaf) .leaf) (.cut 1 (.cut 2 .out .leaf) .leaf)) .out)))) (.cut 1 (.ref (.cut 2 .out (.cut 3 (.cut 0 (.cut 1 .leaf (.ref (.cut 2 .out .leaf))) (.cut 1 .leaf .leaf)) .out))) (.ref (.cut 2 .out (.cut 3 (.cut 0 (.cut 1 (.cut 2 .out .leaf) .leaf) (.cut 1 .leaf .leaf)) .out))))))
theorem h54 : check par t54 [38912, 10240, 2048, 6144] [2048, 2048, 2048, 2048] st = true := by decide +kernel
def t55 : Tree := (.ref (.cut 1 (.cut 2 (.cut 3 (.ref (.cut 0 (.cut 1 .leaf .leaf) (.cut 1 .leaf .leaf))) (.cut 0 (.ref (.cut 1 (.ref (.cut 2 .leaf .leaf)) (.cut 2 .leaf .leaf))) (.cut 1 (.ref (.cut 2 .leaf .leaf)) (.ref (.cut 2 .leaf .leaf))))) (.ref (.cut 3 (.cut 0 .leaf .leaf) (.cut 0 (.cut 1 .leaf .leaf) (.cut 1 .leaf .leaf))))) (.ref (.cut 2 (.cut 3 (.cut 0 (.cut 1 .leaf .leaf) (.ref (.cut 1 .leaf .leaf))) (.cut 0 (.cut 1 (.cut 2 .leaf .leaf) .leaf) (.cut 1 (.cut 2 .leaf .leaf) .leaf))) (.ref (.cut 3 (.cut 0 .leaf .leaf) (.cut 0 (.cut 1 .leaf .leaf) (.cut 1 .leaf .leaf))))))))
theorem h55 : check par t55 [37888, 10240, 6144, 2048] [1024, 2048, 2048, 2048] st = true := by decide +kernel
def t56 : Tree := (.ref (.cut 1 (.ref (.cut 2 (.cut 3 (.ref (.cut 0 (.cut 1 .leaf .leaf) .leaf)) (.cut 0 (.cut 1 .leaf (.ref (.cut 2 .leaf .leaf))) (.cut 1 .leaf .leaf))) (.ref (.cut 3 (.cut 0 .leaf .leaf) (.cut 0 (.cut 1 .leaf .leaf) .leaf))))) (.ref (.cut 2 (.cut 3 (.ref (.cut 0 .leaf .leaf)) (.cut 0 (.cut 1 (.cut 2 .leaf .leaf) .leaf) (.cut 1 .leaf .leaf))) (.ref (.cut 3 (.cut 0 .leaf .leaf) (.cut 0 (.cut 1 .leaf .leaf) .leaf)))))))
theorem h56 : check par t56 [39936, 10240, 6144, 2048] [1024, 2048, 2048, 2048] st = true := by decide +kernel
def t57 : Tree := (.ref (.cut 1 (.cut 2 (.ref (.cut 3 (.ref (.cut 0 (.cut 1 .leaf .leaf) (.cut 1 .leaf .leaf))) (.ref (.cut 0 (.cut 1 .leaf (.cut 2 .out .leaf)) (.cut 1 .leaf (.cut 2 .out .leaf)))))) (.ref (.cut 3 (.ref (.cut 0 (.cut 1 .leaf (.cut 2 .leaf .leaf)) (.cut 1 .leaf (.cut 2 .leaf .leaf)))) (.ref (.cut 0 (.ref (.cut 1 .leaf .leaf)) (.ref (.cut 1 .leaf .leaf))))))) (.cut 2 (.cut 3 (.cut 0 (.cut 1 .leaf .leaf) (.cut 1 .leaf .leaf)) (.ref (.cut 0 (.cut 1 (.cut 2 .out .leaf) .leaf) (.cut 1 (.cut 2 .out .leaf) .leaf)))) (.cut 3 (.ref (.cut 0 (.cut 1 (.cut 2 .leaf .leaf) .leaf) (.cut 1 (.cut 2 .leaf .leaf) .leaf))) (.cut 0 (.cut 1 .leaf .leaf) (.cut 1 .leaf .leaf))))))
theorem h57 : check par t57 [37888, 10240, 6144, 6144] [1024, 2048, 2048, 2048] st = true := by decide +kernel
def t58 : Tree := (.ref (.cut 1 (.cut 2 (.ref (.cut 3 (.ref (.cut 0 (.cut 1 .leaf .leaf) (.cut 1 .leaf .leaf))) (.ref (.cut 0 (.cut 1 .leaf .leaf) (.cut 1 .leaf .leaf))))) (.ref (.cut 3 (.ref (.cut 0 (.cut 1 .leaf .leaf) (.cut 1 .leaf .leaf))) (.ref (.cut 0 (.cut 1 .leaf .leaf) .leaf))))) (.cut 2 (.cut 3 (.cut 0 (.cut 1 .leaf .leaf) .leaf) (.ref (.cut 0 (.cut 1 .leaf .leaf) (.cut 1 .leaf .leaf)))) (.cut 3 (.ref (.cut 0 (.cut 1 .leaf .leaf) (.cut 1 .leaf .leaf))) (.cut 0 (.cut 1 .leaf .leaf) .leaf)))))
theorem h58 : check par t58 [39936, 10240, 6144, 6144] [1024, 2048, 2048, 2048] st = true := by decide +kernel
def t59 : Tree := (.ref (.cut 3 (.cut 0 (.ref (.cut 1 (.ref (.cut 2 (.cut 3 (.cut 0 .leaf .leaf) (.ref (.cut 0 .leaf .leaf))) (.cut 3 (.ref (.cut 0 .leaf .leaf)) (.cut 0 .leaf .leaf)))) (.cut 2 (.cut 3 .leaf .leaf) (.ref (.cut 3 .leaf .leaf))))) (.cut 1 (.ref (.cut 2 (.ref (.cut 3 (.ref (.cut 0 .leaf .leaf)) (.ref (.cut 0 .leaf .leaf)))) (.ref (.cut 3 (.ref (.cut 0 .leaf .leaf)) (.ref (.cut 0 .leaf .leaf)))))) (.ref (.cut 2 (.cut 3 .leaf .leaf) (.ref (.cut 3 .leaf (.cut 0 .leaf .leaf))))))) (.ref (.cut 0 (.cut 1 (.ref (.cut 2 .out (.cut 3 (.cut 0 .leaf (.cut 1 .leaf .leaf)) .out))) (.cut 2 .out (.cut 3 .leaf .out))) (.cut 1 (.ref (.cut 2 .out (.cut 3 (.cut 0 (.cut 1 .leaf .leaf) (.cut 1 .leaf .leaf)) .out))) (.cut 2 .out (.cut 3 (.cut 0 .leaf .leaf) .out)))))))
theorem h59 : check par t59 [38912, 14336, 2048, 4096] [2048, 2048, 2048, 4096] st = true := by decide +kernel
def t60 : Tree := (.ref (.cut 0 (.cut 1 (.ref (.cut 2 (.cut 3 (.cut 0 .leaf .leaf) (.cut 0 .leaf (.cut 1 .leaf .leaf))) (.ref (.cut 3 .leaf (.cut 0 .leaf .leaf))))) (.cut 2 (.cut 3 .leaf .leaf) (.ref (.cut 3 .leaf .leaf)))) (.cut 1 (.ref (.cut 2 (.cut 3 (.ref (.cut 0 .leaf .leaf)) (.cut 0 (.cut 1 .leaf .leaf) (.cut 1 .leaf .leaf))) (.ref (.cut 3 .leaf (.cut 0 .leaf .leaf))))) (.cut 2 (.cut 3 .leaf (.cut 0 .leaf .leaf)) (.ref (.cut 3 .leaf (.cut 0 .leaf .leaf)))))))
theorem h60 : check par t60 [38912, 14336, 6144, 2048] [2048, 2048, 2048, 2048] st = true := by decide +kernel
def t61 : Tree := (.ref (.cut 0 (.cut 1 (.cut 2 (.cut 3 (.cut 0 (.ref (.cut 1 .leaf .leaf)) (.cut 1 .leaf .leaf)) (.ref (.cut 0 (.cut 1 .leaf .leaf) (.cut 1 .leaf .leaf)))) (.cut 3 (.ref (.cut 0 (.cut 1 .leaf .leaf) (.cut 1 .leaf .leaf))) (.cut 0 .leaf .leaf))) (.cut 2 (.ref (.cut 3 (.ref (.cut 0 .leaf .leaf)) (.ref (.cut 0 .leaf .leaf)))) (.cut 3 (.ref (.cut 0 .leaf .leaf)) (.cut 0 .leaf .leaf)))) (.cut 1 (.cut 2 (.cut 3 (.cut 0 (.cut 1 .leaf .leaf) .leaf) (.ref (.cut 0 (.cut 1 .leaf .leaf) (.cut 1 .leaf .leaf)))) (.cut 3 (.ref (.cut 0 (.cut 1 .leaf .leaf) (.cut 1 .leaf .leaf))) (.cut 0 .leaf .leaf))) (.cut 2 (.ref (.cut 3 (.ref (.cut 0 .leaf .leaf)) (.ref (.cut 0 .leaf .leaf)))) (.cut 3 (.ref (.cut 0 .leaf .leaf)) (.cut 0 .leaf .leaf))))))
theorem h61 : check par t61 [38912, 14336, 6144, 6144] [2048, 2048, 2048, 2048] st = true := by decide +kernel
def t62 : Tree := (.ref (.cut 0 (.ref (.cut 1 (.ref (.cut 2 .out (.ref (.cut 3 (.ref (.cut 0 (.cut 1 (.cut 2 .out (.cut 3 (.cut 0 .leaf .leaf) .out)) (.cut 2 .out (.cut 3 (.ref (.cut 0 .leaf .leaf)) .out))) (.cut 1 (.cut 2 .out (.cut 3 (.cut 0 .leaf .leaf) .out)) (.cut 2 .out (.cut 3 (.ref (.cut 0 .leaf .leaf)) .out))))) .out)))) (.ref (.cut 2 .out (.cut 3 (.ref (.cut 0 (.cut 1 (.ref (.cut 2 .out (.ref (.cut 3 .leaf .out)))) (.cut 2 .out .leaf)) (.cut 1 (.ref (.cut 2 .out (.cut 3 (.cut 0 .leaf .leaf) .out))) (.cut 2 .out (.cut 3 .leaf .out))))) .out))))) (.ref (.cut 1 (.ref (.cut 2 .out (.cut 3 (.ref (.cut 0 (.cut 1 (.cut 2 .out (.cut 3 (.cut 0 .leaf .leaf) .out)) (.cut 2 .out (.cut 3 (.ref (.cut 0 .leaf .leaf)) .out))) (.cut 1 (.cut 2 .out (.cut 3 (.cut 0 .leaf .leaf) .out)) (.cut 2 .out (.cut 3 (.ref (.cut 0 .leaf .leaf)) .out))))) .out))) (.ref (.cut 2 .out (.cut 3 (.ref (.cut 0 (.cut 1 (.ref (.cut 2 .out (.cut 3 (.cut 0 .leaf .leaf) .out))) (.ref (.cut 2 .out (.cut 3 (.cut 0 .leaf .leaf) .out)))) (.cut 1 (.ref (.cut 2 .out (.cut 3 (.cut 0 .leaf .leaf) .out))) (.ref (.cut 2 .out (.cut 3 (.cut 0 .leaf .leaf) .out)))))) .out)))))))
theorem h62 : check par t62 [36864, 12288, 4096, 12288] [4096, 4096, 4096, 4096] st = true := by decide +kernel
def t63 : Tree := (.ref (.cut 3 (.ref (.cut 0 (.cut 1 (.cut 2 (.cut 3 .leaf .leaf) (.ref (.cut 3 .leaf .leaf))) (.cut 2 (.ref (.cut 3 .leaf .leaf)) .leaf)) (.cut 1 (.cut 2 (.cut 3 .leaf .leaf) (.ref (.cut 3 .leaf (.cut 0 .leaf .leaf)))) (.cut 2 (.ref (.cut 3 .leaf (.cut 0 .leaf .leaf))) .leaf)))) (.cut 0 (.cut 1 (.cut 2 (.cut 3 (.ref (.cut 0 .leaf .leaf)) (.cut 0 .leaf .leaf)) (.ref (.cut 3 (.ref (.cut 0 .leaf .leaf)) (.cut 0 .leaf .leaf)))) (.cut 2 (.ref (.cut 3 (.ref (.cut 0 .leaf .leaf)) (.cut 0 .leaf .leaf))) (.ref (.cut 3 .leaf .leaf)))) (.cut 1 (.cut 2 (.cut 3 (.ref (.cut 0 .leaf .leaf)) (.cut 0 .leaf .leaf)) (.ref (.cut 3 (.ref (.cut 0 .leaf (.cut 1 .out .leaf))) (.cut 0 .leaf .leaf)))) (.cut 2 (.ref (.cut 3 (.ref (.cut 0 .leaf (.cut 1 .leaf .leaf))) (.cut 0 .leaf .leaf))) (.ref (.cut 3 .leaf (.cut 0 .leaf .leaf))))))))
theorem h63 : check par t63 [34816, 10240, 10240, 4096] [2048, 2048, 2048, 4096] st = true := by decide +kernel
def t64 : Tree := (.ref (.cut 3 (.ref (.cut 0 (.cut 1 .out (.cut 2 .leaf .out)) (.cut 1 .out (.cut 2 .leaf .out)))) (.ref (.cut 0 (.cut 1 .out (.ref (.cut 2 (.cut 3 .leaf .leaf) .out))) (.cut 1 .out (.ref (.cut 2 (.cut 3 .leaf (.cut 0 .leaf .leaf)) .out)))))))
theorem h64 : check par t64 [34816, 10240, 14336, 4096] [2048, 2048, 2048, 4096] st = true := by decide +kernel
def t65 : Tree := (.ref (.cut 2 (.ref (.cut 3 (.ref (.cut 0 (.cut 1 (.cut 2 .leaf .leaf) .leaf) (.cut 1 (.cut 2 (.cut 3 .leaf .leaf) .leaf) (.cut 2 .leaf .leaf)))) (.ref (.cut 0 (.cut 1 (.ref (.cut 2 (.ref (.cut 3 .leaf .leaf)) (.ref (.cut 3 .leaf .leaf)))) (.cut 2 (.cut 3 .leaf .leaf) (.ref (.cut 3 .leaf .leaf)))) (.cut 1 (.ref (.cut 2 (.cut 3 (.cut 0 .leaf .leaf) (.cut 0 .leaf .leaf)) (.cut 3 .leaf (.cut 0 .leaf .leaf)))) (.cut 2 (.cut 3 .leaf .leaf) (.ref (.cut 3 .leaf .leaf)))))))) (.ref (.cut 3 (.cut 0 (.cut 1 .leaf .leaf) (.cut 1 .leaf .leaf)) (.cut 0 (.cut 1 (.cut 2 .leaf .leaf) (.cut 2 .leaf .leaf)) (.cut 1 (.cut 2 (.cut 3 .leaf .leaf) (.ref (.cut 3 .leaf .leaf))) (.cut 2 (.ref (.cut 3 .leaf .leaf)) .leaf)))))))
theorem h65 : check par t65 [34816, 14336, 12288, 4096] [2048, 2048, 4096, 4096] st = true := by decide +kernel
def t66 : Tree := (.ref (.cut 3 (.ref (.cut 0 (.cut 1 (.cut 2 (.cut 3 .leaf (.cut 0 .leaf .leaf)) (.ref (.cut 3 .leaf (.cut 0 .leaf .leaf)))) (.cut 2 (.ref (.cut 3 .leaf (.cut 0 .leaf .leaf))) .leaf)) (.cut 1 (.cut 2 (.cut 3 .leaf (.cut 0 .leaf .leaf)) (.ref (.cut 3 .leaf .leaf))) (.cut 2 (.ref (.cut 3 .leaf .leaf)) .leaf)))) (.cut 0 (.cut 1 (.cut 2 (.cut 3 (.cut 0 .leaf .leaf) (.cut 0 .leaf .leaf)) (.ref (.cut 3 (.ref (.cut 0 (.cut 1 .out .leaf) .leaf)) (.cut 0 .leaf .leaf)))) (.cut 2 (.ref (.cut 3 (.ref (.cut 0 (.cut 1 .leaf .leaf) .leaf)) (.cut 0 .leaf .leaf))) (.cut 3 .leaf (.cut 0 .leaf .leaf)))) (.cut 1 (.cut 2 (.cut 3 (.cut 0 .leaf .leaf) (.cut 0 .leaf .leaf)) (.ref (.cut 3 (.ref (.cut 0 .leaf .leaf)) (.cut 0 .leaf .leaf)))) (.cut 2 (.ref (.cut 3 (.ref (.cut 0 .leaf .leaf)) (.cut 0 .leaf .leaf))) (.cut 3 .leaf (.cut 0 .leaf .leaf)))))))
theorem h66 : check par t66 [38912, 10240, 10240, 4096] [2048, 2048, 2048, 4096] st = true := by decide +kernel
def t67 : Tree := (.ref (.cut 3 (.ref (.cut 0 (.cut 1 .out (.cut 2 .leaf .out)) (.cut 1 .out (.cut 2 .leaf .out)))) (.ref (.cut 0 (.cut 1 .out (.ref (.cut 2 (.cut 3 .leaf (.cut 0 .leaf .leaf)) .out))) (.cut 1 .out (.ref (.cut 2 (.cut 3 .leaf (.cut 0 .leaf .leaf)) .out)))))))
theorem h67 : check par t67 [38912, 10240, 14336, 4096] [2048, 2048, 2048, 4096] st = true := by decide +kernel
def t68 : Tree := (.ref (.cut 3 (.ref (.cut 0 (.cut 1 (.cut 2 (.cut 3 .leaf .leaf) .leaf) (.cut 2 (.cut 3 .leaf .leaf) .leaf)) (.cut 1 (.cut 2 (.cut 3 .leaf .leaf) .leaf) (.cut 2 (.cut 3 .leaf .leaf) .leaf)))) (.ref (.cut 0 (.cut 1 (.ref (.cut 2 (.cut 3 (.ref (.cut 0 .leaf .leaf)) (.cut 0 .leaf .leaf)) (.ref (.cut 3 .leaf (.cut 0 .leaf .leaf))))) (.ref (.cut 2 (.cut 3 (.ref (.cut 0 .leaf .leaf)) (.cut 0 .leaf .leaf)) (.ref (.cut 3 .leaf .leaf))))) (.cut 1 (.ref (.cut 2 (.cut 3 (.ref (.cut 0 .leaf .leaf)) (.cut 0 .leaf .leaf)) (.cut 3 .leaf (.cut 0 .leaf .leaf)))) (.ref (.cut 2 (.cut 3 (.ref (.cut 0 .leaf .leaf)) (.cut 0 .leaf .leaf)) (.ref (.cut 3 .leaf .leaf)))))))))
theorem h68 : check par t68 [38912, 14336, 10240, 4096] [2048, 2048, 2048, 4096] st = true := by decide +kernel
def t69 : Tree := (.ref (.cut 3 (.cut 0 (.cut 1 .leaf .leaf) (.cut 1 .leaf .leaf)) (.cut 0 (.cut 1 (.cut 2 (.cut 3 .leaf .leaf) (.ref (.cut 3 .leaf .leaf))) (.cut 2 (.ref (.cut 3 .leaf .leaf)) .leaf)) (.cut 1 (.cut 2 (.cut 3 .leaf .leaf) (.ref (.cut 3 .leaf .leaf))) (.cut 2 (.ref (.cut 3 .leaf .leaf)) .leaf)))))
theorem h69 : check par t69 [38912, 14336, 14336, 4096] [2048, 2048, 2048, 4096] st = true := by decide +kernel
def t70 : Tree := (.ref (.cut 2 (.cut 3 (.cut 0 (.cut 1 (.ref (.cut 2 (.ref (.cut 3 (.ref (.cut 0 .leaf .leaf)) .leaf)) (.ref (.cut 3 .leaf .leaf)))) (.ref (.cut 2 (.ref (.cut 3 .leaf .leaf)) (.ref (.cut 3 .leaf .leaf))))) (.cut 1 (.ref (.cut 2 (.ref (.cut 3 (.cut 0 .leaf .leaf) (.ref (.cut 0 .leaf .leaf)))) (.ref (.cut 3 (.ref (.cut 0 .leaf .leaf)) .leaf)))) (.ref (.cut 2 (.ref (.cut 3 (.ref (.cut 0 .leaf .leaf)) .leaf)) (.ref (.cut 3 .leaf .leaf)))))) (.ref (.cut 0 (.cut 1 (.cut 2 .out (.ref (.cut 3 .leaf .out))) (.ref (.cut 2 .out (.ref (.cut 3 .leaf .out))))) (.cut 1 (.cut 2 .out (.ref (.cut 3 (.ref (.cut 0 .leaf .leaf)) .out))) (.ref (.cut 2 .out (.ref (.cut 3 .leaf .out)))))))) (.ref (.cut 3 (.ref (.cut 0 (.cut 1 .out (.ref (.cut 2 (.cut 3 .leaf .leaf) .out))) (.cut 1 .out (.ref (.cut 2 (.cut 3 (.ref (.cut 0 .leaf .leaf)) .leaf) .out))))) (.ref (.cut 0 (.cut 1 .out (.cut 2 .leaf .out)) (.cut 1 .out (.cut 2 (.ref (.cut 3 .leaf .leaf)) .out))))))))
theorem h70 : check par t70 [34816, 10240, 12288, 12288] [2048, 2048, 4096, 4096] st = true := by decide +kernel
def t71 : Tree := (.ref (.cut 2 (.ref (.cut 3 (.ref (.cut 0 (.cut 1 (.cut 2 (.cut 3 .leaf .leaf) (.ref (.cut 3 .leaf .leaf))) (.cut 2 .leaf (.ref (.cut 3 .leaf .leaf)))) (.cut 1 (.cut 2 (.cut 3 (.cut 0 .leaf .leaf) (.ref (.cut 0 .leaf .leaf))) (.ref (.cut 3 (.ref (.cut 0 .leaf .leaf)) .leaf))) (.cut 2 (.cut 3 .leaf .leaf) (.ref (.cut 3 .leaf .leaf)))))) (.ref (.cut 0 (.cut 1 (.ref (.cut 2 .out .leaf)) (.ref (.cut 2 .out .leaf))) (.cut 1 (.ref (.cut 2 .out (.cut 3 .leaf .out))) (.ref (.cut 2 .out (.cut 3 .leaf .out)))))))) (.ref (.cut 3 (.ref (.cut 0 (.cut 1 (.ref (.cut 2 .leaf (.ref (.cut 3 .leaf .leaf)))) (.ref (.cut 2 (.ref (.cut 3 .leaf .leaf)) .leaf))) (.cut 1 (.ref (.cut 2 (.ref (.cut 3 .leaf .leaf)) (.ref (.cut 3 .leaf .leaf)))) (.ref (.cut 2 (.ref (.cut 3 .leaf .leaf)) (.ref (.cut 3 .leaf .leaf))))))) (.ref (.cut 0 (.cut 1 (.cut 2 .leaf .leaf) (.cut 2 .leaf .leaf)) (.cut 1 (.cut 2 .leaf .leaf) (.cut 2 .leaf .leaf))))))))
theorem h71 : check par t71 [34816, 14336, 12288, 12288] [2048, 2048, 4096, 4096] st = true := by decide +kernel
def t72 : Tree := (.ref (.cut 2 (.cut 3 (.cut 0 (.cut 1 (.ref (.cut 2 (.ref (.cut 3 (.ref (.cut 0 .leaf .leaf)) (.ref (.cut 0 .leaf .leaf)))) (.ref (.cut 3 (.ref (.cut 0 .leaf .leaf)) (.ref (.cut 0 .leaf .leaf)))))) (.ref (.cut 2 (.ref (.cut 3 (.ref (.cut 0 .leaf .leaf)) (.ref (.cut 0 .leaf .leaf)))) (.ref (.cut 3 (.ref (.cut 0 .leaf .leaf)) (.ref (.cut 0 .leaf .leaf))))))) (.ref (.cut 1 (.cut 2 (.ref (.cut 3 (.ref (.cut 0 .leaf .leaf)) (.ref (.cut 0 .leaf .leaf)))) (.ref (.cut 3 (.ref (.cut 0 .leaf .leaf)) (.ref (.cut 0 .leaf .leaf))))) (.ref (.cut 2 (.ref (.cut 3 (.ref (.cut 0 .leaf .leaf)) (.ref (.cut 0 .leaf .leaf)))) (.ref (.cut 3 (.ref (.cut 0 .leaf .leaf)) .leaf))))))) (.ref (.cut 0 (.cut 1 (.cut 2 .out (.ref (.cut 3 (.ref (.cut 0 .leaf .leaf)) .out))) (.ref (.cut 2 .out (.ref (.cut 3 .leaf .out))))) (.cut 1 (.cut 2 .out (.ref (.cut 3 .leaf .out))) (.ref (.cut 2 .out (.ref (.cut 3 .leaf .out)))))))) (.ref (.cut 3 (.ref (.cut 0 (.cut 1 .out (.ref (.cut 2 (.cut 3 (.ref (.cut 0 .leaf .leaf)) .leaf) .out))) (.cut 1 .out (.ref (.cut 2 (.cut 3 .leaf .leaf) .out))))) (.ref (.cut 0 (.cut 1 .out (.cut 2 (.ref (.cut 3 .leaf .leaf)) .out)) (.cut 1 .out (.cut 2 (.ref (.cut 3 .leaf .leaf)) .out))))))))
theorem h72 : check par t72 [38912, 10240, 12288, 12288] [2048, 2048, 4096, 4096] st = true := by decide +kernel
def t73 : Tree := (.ref (.cut 3 (.ref (.cut 0 (.cut 1 (.cut 2 (.ref (.cut 3 (.ref (.cut 0 .leaf .leaf)) (.ref (.cut 0 .leaf .leaf)))) (.ref (.cut 3 (.ref (.cut 0 .leaf .leaf)) .leaf))) (.cut 2 (.cut 3 .leaf .leaf) (.ref (.cut 3 .leaf .leaf)))) (.cut 1 (.cut 2 (.ref (.cut 3 (.ref (.cut 0 .leaf .leaf)) .leaf)) (.ref (.cut 3 .leaf .leaf))) (.cut 2 (.cut 3 .leaf .leaf) (.ref (.cut 3 .leaf .leaf)))))) (.ref (.cut 0 (.cut 1 (.ref (.cut 2 .out (.ref (.cut 3 .leaf .out)))) (.ref (.cut 2 .out (.cut 3 .leaf .out)))) (.cut 1 (.ref (.cut 2 .out (.ref (.cut 3 .leaf .out)))) (.ref (.cut 2 .out (.cut 3 .leaf .out))))))))
theorem h73 : check par t73 [38912, 14336, 10240, 12288] [2048, 2048, 2048, 4096] st = true := by decide +kernel
def t74 : Tree := (.ref (.cut 3 (.ref (.cut 0 (.cut 1 (.ref (.cut 2 (.ref (.cut 3 .leaf .leaf)) (.ref (.cut 3 .leaf .leaf)))) (.ref (.cut 2 (.ref (.cut 3 .leaf .leaf)) (.ref (.cut 3 .leaf .leaf))))) (.cut 1 (.ref (.cut 2 (.ref (.cut 3 .leaf .leaf)) (.ref (.cut 3 .leaf .leaf)))) (.ref (.cut 2 (.ref (.cut 3 .leaf .leaf)) .leaf))))) (.ref (.cut 0 (.cut 1 (.cut 2 (.cut 3 .leaf .leaf) (.ref (.cut 3 .leaf .leaf))) (.cut 2 (.ref (.cut 3 .leaf .leaf)) (.cut 3 .leaf .leaf))) (.cut 1 (.cut 2 (.cut 3 .leaf .leaf) (.ref (.cut 3 .leaf .leaf))) (.cut 2 (.ref (.cut 3 .leaf .leaf)) (.cut 3 .leaf .leaf)))))))
theorem h74 : check par t74 [38912, 14336, 14336, 12288] [2048, 2048, 2048, 4096] st = true := by decide +kernel
def t75 : Tree := (.ref (.cut 1 (.ref (.cut 2 (.ref (.cut 3 (.cut 0 .leaf .leaf) (.ref (.cut 0 (.cut 1 (.cut 2 .out (.ref (.cut 3 .leaf .out))) (.ref (.cut 2 .out (.cut 3 .leaf .out)))) (.cut 1 (.cut 2 .out .leaf) (.ref (.cut 2 .out .leaf))))))) (.ref (.cut 3 (.ref (.cut 0 (.cut 1 .out (.ref (.cut 2 .leaf .out))) (.cut 1 .out (.ref (.cut 2 .leaf .out))))) (.ref (.cut 0 (.cut 1 .out (.cut 2 (.ref (.cut 3 .leaf .leaf)) .out)) (.cut 1 .out (.cut 2 .leaf .out)))))))) (.ref (.cut 2 (.ref (.cut 3 (.ref (.cut 0 (.cut 1 .leaf (.ref (.cut 2 (.cut 3 .leaf .leaf) (.cut 3 .leaf .leaf)))) (.cut 1 .leaf .leaf))) (.ref (.cut 0 (.cut 1 (.cut 2 .out (.ref (.cut 3 .leaf .out))) (.cut 2 .out (.cut 3 .leaf .out))) (.cut 1 (.cut 2 .out .leaf) (.cut 2 .out .leaf)))))) (.ref (.cut 3 (.ref (.cut 0 (.cut 1 (.cut 2 .leaf (.ref (.cut 3 .leaf .leaf))) (.cut 2 (.ref (.cut 3 .leaf .leaf)) (.cut 3 .leaf .leaf))) (.cut 1 (.cut 2 .leaf .leaf) (.cut 2 .leaf .leaf)))) (.ref (.cut 0 (.cut 1 (.ref (.cut 2 (.ref (.cut 3 .leaf .leaf)) (.ref (.cut 3 .leaf .leaf)))) (.ref (.cut 2 (.ref (.cut 3 .leaf .leaf)) (.ref (.cut 3 .leaf .leaf))))) (.ref (.cut 1 (.cut 2 .leaf .leaf) (.cut 2 .leaf .leaf)))))))))))
theorem h75 : check par t75 [43008, 4096, 4096, 4096] [2048, 4096, 4096, 4096] st = true := by decide +kernel
def t76 : Tree := (.ref (.cut 1 (.ref (.cut 2 (.ref (.cut 3 .leaf (.ref (.cut 0 .leaf .leaf)))) (.ref (.cut 3 (.ref (.cut 0 .leaf .leaf)) (.ref (.cut 0 .leaf .leaf)))))) (.ref (.cut 2 (.ref (.cut 3 (.ref (.cut 0 .leaf .leaf)) (.ref (.cut 0 .leaf .leaf)))) (.ref (.cut 3 (.ref (.cut 0 .leaf .leaf)) (.ref (.cut 0 .leaf .leaf))))))))
theorem h76 : check par t76 [47104, 4096, 4096, 4096] [2048, 4096, 4096, 4096] st = true := by decide +kernel
def t77 : Tree := (.ref (.cut 0 (.ref (.cut 1 (.cut 2 .out (.ref (.cut 3 (.ref (.cut 0 (.cut 1 .out (.cut 2 .out .out)) (.cut 1 .out (.cut 2 .out .out)))) .out))) (.ref (.cut 2 .out (.cut 3 (.cut 0 (.cut 1 (.cut 2 .out (.ref (.cut 3 (.cut 0 .leaf .leaf) .out))) (.ref (.cut 2 .out (.ref (.cut 3 (.ref (.cut 0 .leaf .leaf)) .out))))) (.cut 1 (.cut 2 .out (.ref (.cut 3 .leaf .out))) (.ref (.cut 2 .out (.ref (.cut 3 .leaf .out)))))) .out))))) (.ref (.cut 1 (.cut 2 .out (.ref (.cut 3 (.ref (.cut 0 (.cut 1 .out (.cut 2 .out .out)) (.cut 1 .out (.cut 2 .out .out)))) .out))) (.ref (.cut 2 .out (.cut 3 (.cut 0 (.cut 1 (.ref (.cut 2 .out (.ref (.cut 3 .leaf .out)))) (.ref (.cut 2 .out (.ref (.cut 3 .leaf .out))))) (.ref (.cut 1 .leaf .leaf))) .out)))))))
theorem h77 : check par t77 [45056, 4096, 4096, 12288] [4096, 4096, 4096, 4096] st = true := by decide +kernel
def t78 : Tree := (.ref (.cut 3 (.ref (.cut 0 (.ref (.cut 1 .out (.ref (.cut 2 (.cut 3 (.ref (.cut 0 (.ref (.cut 1 .out (.cut 2 (.cut 3 .leaf (.cut 0 .leaf .leaf)) .out))) (.ref (.cut 1 .out (.cut 2 (.cut 3 .leaf .leaf) .out))))) (.cut 0 (.cut 1 .out (.ref (.cut 2 (.ref (.cut 3 (.ref (.cut 0 .leaf .leaf)) (.ref (.cut 0 .leaf .leaf)))) .out))) (.cut 1 .out (.ref (.cut 2 .leaf .out))))) .out)))) (.ref (.cut 1 .out (.ref (.cut 2 (.cut 3 (.ref (.cut 0 (.cut 1 .out (.cut 2 .leaf .out)) (.cut 1 .out .leaf))) (.cut 0 (.cut 1 .out (.ref (.cut 2 .leaf .out))) (.ref (.cut 1 .out .leaf)))) .out)))))) (.ref (.cut 0 (.ref (.cut 1 .out (.cut 2 (.ref (.cut 3 (.ref (.cut 0 (.cut 1 .out (.cut 2 (.cut 3 .leaf (.ref (.cut 0 .leaf .leaf))) .out)) (.cut 1 .out (.cut 2 (.ref (.cut 3 .leaf .leaf)) .out)))) (.ref (.cut 0 (.cut 1 .out (.cut 2 .out .out)) (.cut 1 .out (.cut 2 .out .out)))))) .out))) (.ref (.cut 1 .out (.cut 2 (.ref (.cut 3 (.ref (.cut 0 (.cut 1 .out (.ref (.cut 2 .leaf .out))) .leaf)) (.ref (.cut 0 (.cut 1 .out (.cut 2 .out .out)) (.cut 1 .out (.cut 2 .out .out)))))) .out)))))))
theorem h78 : check par t78 [45056, 4096, 12288, 8192] [4096, 4096, 4096, 8192] st = true := by decide +kernel
def t79 : Tree := (.ref (.cut 3 (.cut 0 (.cut 1 (.cut 2 (.ref (.cut 3 (.ref (.cut 0 .leaf .leaf)) (.ref (.cut 0 .leaf .leaf)))) (.ref (.cut 3 (.ref (.cut 0 .leaf .leaf)) (.ref (.cut 0 .leaf .leaf))))) (.cut 2 (.ref (.cut 3 (.ref (.cut 0 .leaf .leaf)) (.ref (.cut 0 .leaf .leaf)))) (.ref (.cut 3 (.ref (.cut 0 .leaf .leaf)) (.ref (.cut 0 .leaf .leaf)))))) (.cut 1 (.ref (.cut 2 .leaf (.cut 3 .leaf .leaf))) (.cut 2 (.ref (.cut 3 .leaf .leaf)) (.ref (.cut 3 .leaf .leaf))))) (.ref (.cut 0 (.cut 1 (.cut 2 .out (.cut 3 (.cut 0 .leaf .leaf) .out)) (.cut 2 .out (.cut 3 (.cut 0 .leaf .leaf) .out))) (.cut 1 (.cut 2 .out (.cut 3 .leaf .out)) (.cut 2 .out (.cut 3 (.cut 0 .leaf .leaf) .out)))))))
theorem h79 : check par t79 [43008, 10240, 2048, 4096] [2048, 2048, 2048, 4096] st = true := by decide +kernel
def t80 : Tree := (.ref (.cut 3 (.ref (.cut 0 (.ref (.cut 1 (.cut 2 (.cut 3 (.ref (.cut 0 .leaf .leaf)) (.cut 0 .leaf .leaf)) (.cut 3 .leaf (.cut 0 .leaf .leaf))) (.cut 2 (.cut 3 (.ref (.cut 0 .leaf .leaf)) (.cut 0 .leaf .leaf)) (.ref (.cut 3 .leaf (.cut 0 .leaf .leaf)))))) (.ref (.cut 1 (.cut 2 (.cut 3 .leaf .leaf) (.cut 3 .leaf .leaf)) (.cut 2 (.cut 3 .leaf (.cut 0 .leaf .leaf)) (.ref (.cut 3 .leaf .leaf))))))) (.cut 0 (.cut 1 (.cut 2 (.ref (.cut 3 (.ref (.cut 0 .leaf .leaf)) (.ref (.cut 0 .leaf .leaf)))) (.ref (.cut 3 (.ref (.cut 0 .leaf .leaf)) (.ref (.cut 0 .leaf .leaf))))) (.cut 2 (.cut 3 (.cut 0 .leaf .leaf) (.ref (.cut 0 .leaf .leaf))) (.ref (.cut 3 (.ref (.cut 0 .leaf .leaf)) (.ref (.cut 0 .leaf .leaf)))))) (.cut 1 (.cut 2 (.ref (.cut 3 .leaf .leaf)) .leaf) (.cut 2 (.ref (.cut 3 (.ref (.cut 0 .leaf .leaf)) .leaf)) (.ref (.cut 3 .leaf .leaf)))))))
theorem h80 : check par t80 [43008, 10240, 6144, 4096] [2048, 2048, 2048, 4096] st = true := by decide +kernel
def t81 : Tree := (.ref (.cut 3 (.cut 0 (.cut 1 (.ref (.cut 2 (.ref (.cut 3 (.ref (.cut 0 .leaf .leaf)) (.ref (.cut 0 .leaf .leaf)))) (.ref (.cut 3 (.ref (.cut 0 .leaf .leaf)) (.ref (.cut 0 .leaf .leaf)))))) (.ref (.cut 2 (.cut 3 .leaf .leaf) (.ref (.cut 3 .leaf (.cut 0 .leaf .leaf)))))) (.cut 1 (.ref (.cut 2 (.ref (.cut 3 .leaf .leaf)) (.cut 3 .leaf .leaf))) (.ref (.cut 2 (.ref (.cut 3 .leaf .leaf)) (.ref (.cut 3 .leaf .leaf)))))) (.ref (.cut 0 (.cut 1 (.ref (.cut 2 .out (.cut 3 (.cut 0 .leaf .leaf) .out))) (.cut 2 .out (.cut 3 (.cut 0 .leaf .leaf) .out))) (.cut 1 (.ref (.cut 2 .out (.cut 3 (.cut 0 .leaf .leaf) .out))) (.cut 2 .out (.cut 3 .leaf .out)))))))
theorem h81 : check par t81 [43008, 14336, 2048, 4096] [2048, 2048, 2048, 4096] st = true := by decide +kernel
def t82 : Tree := (.ref (.cut 3 (.ref (.cut 0 (.cut 1 (.ref (.cut 2 (.cut 3 (.ref (.cut 0 .leaf .leaf)) (.cut 0 .leaf .leaf)) (.ref (.cut 3 .leaf (.cut 0 .leaf .leaf))))) (.cut 2 (.cut 3 .leaf (.cut 0 .leaf .leaf)) (.ref (.cut 3 .leaf .leaf)))) (.cut 1 (.ref (.cut 2 (.cut 3 .leaf (.cut 0 .leaf .leaf)) (.cut 3 .leaf .leaf))) (.cut 2 (.cut 3 .leaf .leaf) (.ref (.cut 3 .leaf .leaf)))))) (.cut 0 (.cut 1 (.cut 2 (.cut 3 (.cut 0 .leaf .leaf) (.ref (.cut 0 .leaf .leaf))) (.cut 3 (.ref (.cut 0 .leaf .leaf)) (.cut 0 .leaf .leaf))) (.cut 2 (.ref (.cut 3 .leaf (.ref (.cut 0 .leaf .leaf)))) (.cut 3 (.ref (.cut 0 .leaf .leaf)) .leaf))) (.cut 1 (.cut 2 (.cut 3 .leaf .leaf) (.ref (.cut 3 .leaf .leaf))) (.cut 2 (.cut 3 .leaf .leaf) (.cut 3 .leaf .leaf))))))
theorem h82 : check par t82 [43008, 14336, 6144, 4096] [2048, 2048, 2048, 4096] st = true := by decide +kernel
end FastNoise.RangeCheck.OuterSuper4
