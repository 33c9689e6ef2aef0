import Verif.NormCertSimplex3
/-! Generated by tools/normcert/gen.py: a certificate for the checker `Verif.NormCheck`. -/
namespace FastNoise.NormCheck.Simplex3
open FastNoise.RangeCheck (Tree)
set_option maxRecDepth 1000000
def t56 : Tree := (.ref (.cut 1 (.cut 2 (.cut 0 (.cut 1 (.cut 2 (.ref (.cut 0 .leaf .leaf)) (.ref (.cut 0 .leaf .leaf))) (.cut 2 (.cut 0 .leaf .leaf) .leaf)) (.cut 1 (.ref (.cut 2 .leaf .leaf)) (.cut 2 .leaf .leaf))) (.cut 0 (.cut 1 .out (.cut 2 .leaf .out)) (.cut 1 .out (.cut 2 .leaf .out)))) (.cut 2 (.cut 0 (.cut 1 .leaf .leaf) (.cut 1 .leaf .leaf)) (.cut 0 (.cut 1 .leaf .leaf) (.cut 1 .leaf .leaf)))))
theorem h56 : check par t56 [14417920, 2621440, 2621440] [1310720, 2621440, 2621440] st = true := by decide +kernel
def t57 : Tree := (.ref (.cut 0 (.cut 1 .out (.cut 2 (.cut 0 (.cut 1 .out (.cut 2 .leaf .out)) (.cut 1 .out .leaf)) .out)) (.cut 1 .out (.cut 2 (.cut 0 (.cut 1 .out .leaf) (.cut 1 .out .leaf)) .out))))
theorem h57 : check par t57 [13107200, 2621440, 7864320] [2621440, 2621440, 2621440] st = true := by decide +kernel
def t58 : Tree := (.ref (.cut 0 (.cut 1 (.cut 2 (.cut 0 (.cut 1 .leaf .leaf) (.cut 1 .leaf .leaf)) (.cut 0 (.cut 1 .leaf .leaf) (.cut 1 .leaf .leaf))) (.cut 2 (.cut 0 .leaf .leaf) (.cut 0 (.cut 1 .leaf .leaf) .leaf))) (.cut 1 (.cut 2 (.cut 0 (.cut 1 .leaf .leaf) (.cut 1 .leaf .leaf)) (.cut 0 (.cut 1 .leaf .leaf) (.cut 1 .leaf .leaf))) (.cut 2 (.cut 0 .leaf .leaf) (.cut 0 .leaf .leaf)))))
theorem h58 : check par t58 [13107200, 7864320, 2621440] [2621440, 2621440, 2621440] st = true := by decide +kernel
def t59 : Tree := (.ref (.cut 2 (.cut 0 (.cut 1 .leaf .leaf) .leaf) (.cut 0 (.cut 1 .out (.cut 2 .leaf .out)) (.cut 1 .out (.cut 2 .leaf .out)))))
theorem h59 : check par t59 [11796480, 6553600, 7864320] [1310720, 1310720, 2621440] st = true := by decide +kernel
def t60 : Tree := (.ref (.cut 0 (.cut 1 (.cut 2 .leaf .leaf) (.cut 2 .leaf .leaf)) (.cut 1 .leaf .leaf)))
theorem h60 : check par t60 [11796480, 9175040, 6553600] [1310720, 1310720, 1310720] st = true := by decide +kernel
def t61 : Tree := (.ref (.cut 2 (.cut 0 (.cut 1 .leaf .leaf) .leaf) (.ref (.cut 0 (.cut 1 .out .leaf) .leaf))))
theorem h61 : check par t61 [11141120, 8519680, 9175040] [655360, 655360, 1310720] st = true := by decide +kernel
def t62 : Tree := (.ref (.cut 0 (.cut 1 .leaf .leaf) .leaf))
theorem h62 : check par t62 [11141120, 9830400, 8519680] [655360, 655360, 655360] st = true := by decide +kernel
def t63 : Tree := (.ref (.cut 2 (.cut 0 .leaf .leaf) (.cut 0 .leaf .leaf)))
theorem h63 : check par t63 [10813440, 9502720, 9830400] [327680, 327680, 655360] st = true := by decide +kernel
def t64 : Tree := (.ref (.cut 2 (.cut 0 .leaf .leaf) (.ref (.cut 0 (.cut 1 (.cut 2 (.cut 0 .leaf .leaf) (.cut 0 .leaf .leaf)) (.cut 2 (.cut 0 .leaf .leaf) (.cut 0 (.cut 1 (.cut 2 (.cut 0 .leaf .leaf) (.cut 0 .leaf .leaf)) (.cut 2 (.cut 0 .leaf .leaf) (.cut 0 (.cut 1 (.cut 2 (.cut 0 .leaf .leaf) (.cut 0 .leaf .leaf)) (.cut 2 (.cut 0 .leaf .leaf) (.cut 0 (.cut 1 (.cut 2 (.cut 0 .leaf .leaf) (.cut 0 .leaf .leaf)) (.cut 2 (.cut 0 .leaf .leaf) (.cut 0 (.cut 1 (.cut 2 .leaf (.cut 0 .leaf .leaf)) (.cut 2 (.cut 0 .leaf .leaf) (.cut 0 (.cut 1 (.cut 2 .leaf .leaf) (.cut 2 .leaf (.cut 0 .leaf .leaf))) (.cut 1 .leaf (.cut 2 .leaf .leaf))))) (.cut 1 .leaf (.cut 2 .leaf (.cut 0 .leaf .leaf)))))) (.cut 1 .leaf (.cut 2 .leaf (.cut 0 .leaf .leaf)))))) (.cut 1 .leaf (.cut 2 .leaf (.cut 0 .leaf .leaf)))))) (.cut 1 .leaf (.cut 2 .leaf (.cut 0 .leaf .leaf)))))) (.cut 1 .leaf (.cut 2 .leaf (.cut 0 .leaf .leaf)))))))
theorem h64 : check par t64 [10813440, 10158080, 9830400] [327680, 327680, 655360] st = true := by decide +kernel
def t65 : Tree := (.ref (.cut 1 (.cut 2 .leaf .leaf) (.cut 2 .leaf (.ref (.cut 0 .leaf .leaf)))))
theorem h65 : check par t65 [11468800, 9830400, 9830400] [327680, 655360, 655360] st = true := by decide +kernel
def t66 : Tree := (.ref (.cut 1 (.cut 2 .leaf .leaf) (.cut 2 .leaf (.cut 0 (.cut 1 .leaf .leaf) .leaf))))
theorem h66 : check par t66 [12451840, 9175040, 9175040] [655360, 1310720, 1310720] st = true := by decide +kernel
def t67 : Tree := (.ref (.cut 1 (.cut 2 (.cut 0 .leaf .leaf) (.cut 0 (.cut 1 .out .leaf) .leaf)) (.cut 2 (.cut 0 (.cut 1 .leaf .leaf) .leaf) (.cut 0 (.cut 1 .leaf (.cut 2 .leaf .leaf)) (.cut 1 .leaf .leaf)))))
theorem h67 : check par t67 [14417920, 7864320, 7864320] [1310720, 2621440, 2621440] st = true := by decide +kernel
def t68 : Tree := (.ref (.cut 2 (.cut 0 (.cut 1 (.cut 2 (.cut 0 (.cut 1 .leaf .leaf) (.ref (.cut 1 .leaf .leaf))) (.cut 0 (.cut 1 .out .leaf) (.cut 1 .out .leaf))) (.cut 2 (.cut 0 (.cut 1 .leaf .leaf) (.cut 1 .leaf .leaf)) (.cut 0 (.cut 1 .leaf .leaf) .leaf))) (.cut 1 (.cut 2 (.ref (.cut 0 .leaf .leaf)) (.cut 0 (.cut 1 .out .leaf) .leaf)) (.cut 2 (.cut 0 (.cut 1 .leaf .leaf) .leaf) (.cut 0 .leaf .leaf)))) (.cut 0 (.cut 1 .out (.cut 2 (.cut 0 (.cut 1 .out .leaf) (.cut 1 .out .leaf)) .out)) (.cut 1 .out (.cut 2 (.cut 0 (.cut 1 .out .leaf) (.cut 1 .out .leaf)) .out)))))
theorem h68 : check par t68 [18350080, 2621440, 5242880] [2621440, 2621440, 5242880] st = true := by decide +kernel
def t69 : Tree := (.ref (.cut 1 (.cut 2 (.cut 0 (.cut 1 .leaf .leaf) (.cut 1 .leaf (.cut 2 .leaf .leaf))) (.cut 0 (.cut 1 .leaf .leaf) (.cut 1 .leaf .leaf))) (.cut 2 (.cut 0 (.cut 1 .leaf .leaf) (.cut 1 (.cut 2 .leaf .leaf) (.cut 2 .leaf .leaf))) (.cut 0 .leaf (.cut 1 .leaf .leaf)))))
theorem h69 : check par t69 [17039360, 7864320, 2621440] [1310720, 2621440, 2621440] st = true := by decide +kernel
def t70 : Tree := (.ref (.cut 2 (.cut 0 (.cut 1 .leaf (.cut 2 .leaf .leaf)) (.cut 1 (.cut 2 .leaf .leaf) (.cut 2 .leaf .leaf))) (.cut 0 (.cut 1 .leaf .leaf) (.cut 1 .leaf .leaf))))
theorem h70 : check par t70 [19660800, 6553600, 2621440] [1310720, 1310720, 2621440] st = true := by decide +kernel
def t71 : Tree := (.ref (.cut 1 (.cut 2 (.cut 0 .leaf (.cut 1 .leaf .leaf)) .leaf) (.cut 2 (.cut 0 .leaf (.cut 1 .leaf .leaf)) .leaf)))
theorem h71 : check par t71 [19005440, 9175040, 1310720] [655360, 1310720, 1310720] st = true := by decide +kernel
def t72 : Tree := (.ref (.cut 2 (.cut 0 (.cut 1 .leaf (.cut 2 .leaf .leaf)) (.ref (.cut 1 .leaf (.cut 2 .leaf .leaf)))) (.cut 0 .leaf .leaf)))
theorem h72 : check par t72 [20316160, 8519680, 1310720] [655360, 655360, 1310720] st = true := by decide +kernel
def t73 : Tree := (.ref (.cut 1 (.cut 2 (.ref (.cut 0 .leaf (.cut 1 .leaf .leaf))) .leaf) (.cut 2 (.ref (.cut 0 .leaf (.ref (.cut 1 .leaf .leaf)))) .leaf)))
theorem h73 : check par t73 [19988480, 9830400, 655360] [327680, 655360, 655360] st = true := by decide +kernel
def t74 : Tree := (.ref (.cut 2 (.ref (.cut 0 (.cut 1 .leaf (.cut 2 .leaf .leaf)) (.cut 1 .leaf (.cut 2 .leaf .leaf)))) (.cut 0 .leaf .leaf)))
theorem h74 : check par t74 [20643840, 9502720, 655360] [327680, 327680, 655360] st = true := by decide +kernel
def t75 : Tree := (.ref (.cut 1 (.cut 2 (.cut 0 .leaf (.cut 1 .leaf .leaf)) .leaf) (.cut 2 (.cut 0 .leaf (.cut 1 .leaf .leaf)) .leaf)))
theorem h75 : check par t75 [20480000, 10158080, 327680] [163840, 327680, 327680] st = true := by decide +kernel
def t76 : Tree := (.ref (.cut 2 (.cut 0 (.cut 1 .leaf (.cut 2 .leaf .leaf)) (.cut 1 .leaf (.cut 2 .leaf .leaf))) .leaf))
theorem h76 : check par t76 [20807680, 9994240, 327680] [163840, 163840, 327680] st = true := by decide +kernel
def t77 : Tree := (.ref (.cut 1 (.cut 2 (.cut 0 .leaf (.cut 1 .leaf .leaf)) .leaf) (.cut 2 (.cut 0 .leaf (.cut 1 .leaf .leaf)) .leaf)))
theorem h77 : check par t77 [20725760, 10321920, 163840] [81920, 163840, 163840] st = true := by decide +kernel
def t78 : Tree := (.ref (.cut 2 (.cut 0 (.cut 1 .leaf (.cut 2 .leaf .leaf)) (.cut 1 .leaf (.cut 2 .leaf .leaf))) .leaf))
theorem h78 : check par t78 [20889600, 10240000, 163840] [81920, 81920, 163840] st = true := by decide +kernel
def t79 : Tree := (.ref (.cut 1 (.cut 2 (.cut 0 .leaf (.cut 1 .leaf .leaf)) .leaf) (.cut 2 (.cut 0 .leaf (.cut 1 .leaf .leaf)) .leaf)))
theorem h79 : check par t79 [20848640, 10403840, 81920] [40960, 81920, 81920] st = true := by decide +kernel
def t80 : Tree := (.ref (.cut 1 (.cut 2 (.cut 0 (.cut 1 .leaf (.cut 2 .leaf .leaf)) (.cut 1 .leaf (.cut 2 .leaf .leaf))) .leaf) (.cut 2 (.cut 0 (.cut 1 (.cut 2 (.cut 0 .leaf .leaf) .leaf) (.cut 2 (.cut 0 .leaf (.cut 1 .leaf .leaf)) .leaf)) (.cut 1 (.cut 2 (.cut 0 (.cut 1 .leaf (.cut 2 .leaf .leaf)) (.cut 1 .leaf (.cut 2 .leaf .leaf))) .leaf) (.cut 2 (.cut 0 (.cut 1 (.cut 2 (.cut 0 .leaf .leaf) .leaf) (.cut 2 (.cut 0 .leaf .leaf) .leaf)) (.cut 1 (.cut 2 (.cut 0 (.cut 1 .leaf (.cut 2 .leaf .leaf)) (.cut 1 .leaf (.cut 2 .leaf .leaf))) .leaf) (.cut 2 (.cut 0 (.cut 1 (.cut 2 .leaf .leaf) (.cut 2 .leaf .leaf)) (.cut 1 (.cut 2 (.cut 0 .leaf .leaf) .leaf) (.cut 2 (.cut 0 (.cut 1 .leaf .leaf) (.cut 1 .leaf .leaf)) .leaf))) (.cut 0 .leaf .leaf)))) (.cut 0 .leaf (.cut 1 .leaf .leaf))))) (.cut 0 .leaf (.cut 1 .leaf .leaf)))))
theorem h80 : check par t80 [20930560, 10403840, 81920] [40960, 81920, 81920] st = true := by decide +kernel
def t81 : Tree := (.ref (.cut 0 .leaf (.cut 1 .leaf .leaf)))
theorem h81 : check par t81 [20889600, 10403840, 245760] [81920, 81920, 81920] st = true := by decide +kernel
def t82 : Tree := (.ref (.cut 0 .leaf (.cut 1 .leaf .leaf)))
theorem h82 : check par t82 [20807680, 10321920, 491520] [163840, 163840, 163840] st = true := by decide +kernel
def t83 : Tree := (.ref (.cut 0 .leaf (.ref (.cut 1 .leaf .leaf))))
theorem h83 : check par t83 [20643840, 10158080, 983040] [327680, 327680, 327680] st = true := by decide +kernel
def t84 : Tree := (.ref (.cut 0 .leaf (.cut 1 .leaf .leaf)))
theorem h84 : check par t84 [20316160, 9830400, 1966080] [655360, 655360, 655360] st = true := by decide +kernel
def t85 : Tree := (.ref (.cut 0 (.cut 1 .leaf .leaf) (.cut 1 (.cut 2 .leaf .leaf) (.cut 2 .leaf .out))))
theorem h85 : check par t85 [19660800, 9175040, 3932160] [1310720, 1310720, 1310720] st = true := by decide +kernel
def t86 : Tree := (.ref (.cut 0 (.cut 1 (.cut 2 (.cut 0 .leaf .leaf) .leaf) (.cut 2 (.cut 0 .leaf .leaf) .leaf)) (.cut 1 (.cut 2 (.cut 0 (.cut 1 .leaf .leaf) (.cut 1 .leaf .leaf)) (.cut 0 .leaf .out)) (.cut 2 (.cut 0 .leaf .out) .out))))
theorem h86 : check par t86 [18350080, 7864320, 7864320] [2621440, 2621440, 2621440] st = true := by decide +kernel
def t87 : Tree := (.ref (.cut 1 .out (.cut 2 (.cut 0 (.cut 1 .out (.cut 2 (.cut 0 (.ref (.cut 1 .out (.cut 2 (.cut 0 (.ref (.cut 1 .out (.cut 2 (.cut 0 (.cut 1 .out (.cut 2 (.cut 0 (.cut 1 .out (.cut 2 (.cut 0 (.cut 1 .out (.cut 2 (.cut 0 (.cut 1 .out (.cut 2 (.cut 0 (.cut 1 .out (.cut 2 (.cut 0 (.cut 1 .out (.cut 2 (.cut 0 (.cut 1 .out .leaf) .leaf) .out)) (.cut 1 .out (.cut 2 .leaf .out))) .out)) (.cut 1 .out (.cut 2 (.cut 0 .leaf .out) .out))) .out)) (.cut 1 .out (.cut 2 (.cut 0 .leaf .out) .out))) .out)) (.cut 1 .out (.cut 2 (.cut 0 .leaf .out) .out))) .out)) (.cut 1 .out (.cut 2 (.cut 0 .leaf .out) .out))) .out)) (.cut 1 .out (.cut 2 (.cut 0 .leaf .out) .out))) .out))) (.cut 1 .out (.cut 2 (.cut 0 .leaf .out) .out))) .out))) (.cut 1 .out (.cut 2 (.cut 0 (.ref (.cut 1 .out .out)) .out) .out))) .out)) (.cut 1 .out (.cut 2 (.cut 0 (.cut 1 .out .out) .out) .out))) .out)))
theorem h87 : check par t87 [13107200, 5242880, 15728640] [2621440, 5242880, 5242880] st = true := by decide +kernel
end FastNoise.NormCheck.Simplex3
