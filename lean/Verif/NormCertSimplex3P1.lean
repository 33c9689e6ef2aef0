import Verif.NormCertSimplex3
/-! Generated by tools/normcert/gen.py: a certificate for the checker `Verif.NormCheck`. -/
namespace FastNoise.NormCheck.Simplex3
open FastNoise.RangeCheck (Tree)
set_option maxRecDepth 1000000
def t33 : Tree := (.ref (.cut 0 (.cut 1 (.cut 2 .leaf .leaf) (.cut 2 .leaf .leaf)) (.cut 1 (.cut 2 .leaf .leaf) (.cut 2 .leaf .leaf))))
theorem h33 : check par t33 [10444800, 10444800, 10362880] [40960, 40960, 40960] st = true := by decide +kernel
def t34 : Tree := (.ref (.cut 1 (.cut 2 .leaf (.cut 0 (.cut 1 .out .leaf) (.cut 1 .out (.cut 2 .leaf .out)))) (.cut 2 (.cut 0 .out (.cut 1 (.cut 2 .leaf .leaf) .out)) (.cut 0 .out (.cut 1 (.cut 2 .leaf .leaf) .out)))))
theorem h34 : check par t34 [10424320, 10444800, 10444800] [20480, 40960, 40960] st = true := by decide +kernel
def t35 : Tree := (.ref (.cut 1 (.cut 2 (.cut 0 (.cut 1 .leaf (.cut 2 .leaf .leaf)) (.cut 1 .leaf .leaf)) (.cut 0 (.cut 1 .out (.cut 2 .leaf .out)) (.cut 1 .out .leaf))) (.cut 2 (.cut 0 (.cut 1 (.cut 2 .leaf .leaf) (.cut 2 .leaf .leaf)) (.cut 1 (.cut 2 .leaf .leaf) (.cut 2 .leaf .leaf))) (.cut 0 (.cut 1 (.cut 2 .leaf (.cut 0 .leaf (.cut 1 .out (.cut 2 .leaf .out)))) (.cut 2 (.cut 0 .out (.cut 1 .leaf .out)) (.cut 0 .out (.cut 1 .leaf .out)))) (.cut 1 (.cut 2 (.cut 0 (.cut 1 .leaf .leaf) (.cut 1 .leaf .leaf)) (.cut 0 (.cut 1 .out .leaf) (.cut 1 .out .leaf))) (.cut 2 (.cut 0 (.cut 1 (.cut 2 .leaf .leaf) .leaf) (.cut 1 .leaf (.cut 2 .leaf .leaf))) (.cut 0 (.cut 1 (.cut 2 .leaf .leaf) (.cut 2 .leaf .leaf)) (.cut 1 (.cut 2 .leaf .leaf) (.cut 2 .leaf .leaf)))))))))
theorem h35 : check par t35 [10465280, 10444800, 10444800] [20480, 40960, 40960] st = true := by decide +kernel
def t36 : Tree := (.ref (.cut 1 .out (.ref (.cut 2 (.cut 0 .out (.cut 1 .out .out)) .out))))
theorem h36 : check par t36 [2621440, 5242880, 15728640] [2621440, 5242880, 5242880] st = true := by decide +kernel
def t37 : Tree := (.ref (.cut 1 .out (.cut 2 (.cut 0 (.ref (.cut 1 .out (.cut 2 (.cut 0 .out (.cut 1 .out .out)) .out))) (.ref (.cut 1 .out (.cut 2 (.cut 0 (.ref (.cut 1 .out (.cut 2 (.cut 0 .out (.cut 1 .out .out)) .out))) (.cut 1 .out (.ref (.cut 2 (.cut 0 (.cut 1 .out (.cut 2 (.cut 0 .out .leaf) .out)) (.cut 1 .out (.cut 2 (.cut 0 (.cut 1 .out (.cut 2 (.cut 0 .out .leaf) .out)) (.cut 1 .out (.cut 2 (.cut 0 (.cut 1 .out (.cut 2 (.cut 0 .out .leaf) .out)) (.cut 1 .out (.cut 2 (.cut 0 (.cut 1 .out (.cut 2 (.cut 0 .out .leaf) .out)) (.cut 1 .out (.cut 2 (.cut 0 (.cut 1 .out (.cut 2 (.cut 0 .out .leaf) .out)) (.cut 1 .out (.cut 2 (.cut 0 (.cut 1 .out (.cut 2 (.cut 0 .out .leaf) .out)) (.cut 1 .out (.cut 2 (.cut 0 (.cut 1 .out (.cut 2 .leaf .out)) (.cut 1 .out (.cut 2 (.cut 0 .leaf (.cut 1 .out .leaf)) .out))) .out))) .out))) .out))) .out))) .out))) .out))) .out)))) .out)))) .out)))
theorem h37 : check par t37 [7864320, 5242880, 15728640] [2621440, 5242880, 5242880] st = true := by decide +kernel
def t38 : Tree := (.ref (.cut 0 .out (.cut 1 (.cut 2 (.cut 0 .out (.cut 1 (.cut 2 .leaf (.cut 0 .out .leaf)) .out)) (.cut 0 .out (.cut 1 (.cut 2 (.cut 0 .out (.cut 1 (.cut 2 .leaf .leaf) .out)) (.cut 0 .out (.cut 1 (.cut 2 (.cut 0 .out (.ref (.cut 1 .leaf .out))) (.ref (.cut 0 .out (.cut 1 (.cut 2 (.cut 0 .out (.cut 1 .leaf .out)) (.ref (.cut 0 .out (.cut 1 (.cut 2 (.cut 0 .out (.cut 1 .leaf .out)) (.cut 0 .out (.cut 1 (.cut 2 (.cut 0 .out (.cut 1 .leaf .out)) (.cut 0 .out (.cut 1 (.cut 2 (.cut 0 .out (.cut 1 .leaf .out)) (.cut 0 .out (.cut 1 (.cut 2 (.cut 0 .out (.cut 1 .leaf .out)) (.cut 0 .out (.cut 1 (.cut 2 (.cut 0 .out .leaf) (.cut 0 .out (.cut 1 (.cut 2 .leaf (.cut 0 .out (.cut 1 .leaf .out))) .out))) .out))) .out))) .out))) .out))) .out)))) .out)))) .out))) .out))) .out)))
theorem h38 : check par t38 [5242880, 15728640, 5242880] [5242880, 5242880, 5242880] st = true := by decide +kernel
def t39 : Tree := (.ref (.cut 0 .out (.cut 1 (.cut 2 (.cut 0 .out (.ref (.cut 1 (.cut 2 (.cut 0 .out (.cut 1 (.ref (.cut 2 (.cut 0 .out (.cut 1 (.cut 2 (.cut 0 .out (.cut 1 (.cut 2 (.cut 0 .out (.cut 1 (.cut 2 (.cut 0 .out (.cut 1 (.cut 2 (.cut 0 .out (.cut 1 (.cut 2 (.cut 0 .out (.cut 1 (.cut 2 (.cut 0 .out (.cut 1 (.cut 2 (.cut 0 .out .leaf) .leaf) .out)) (.cut 0 .out .out)) .out)) (.cut 0 .out .out)) .out)) (.cut 0 .out .out)) .out)) (.cut 0 .out .out)) .out)) (.cut 0 .out .out)) .out)) (.cut 0 .out .out)) .out)) (.cut 0 .out .out))) .out)) (.ref (.cut 0 .out .out))) .out))) (.ref (.cut 0 .out .out))) .out)))
theorem h39 : check par t39 [5242880, 15728640, 15728640] [5242880, 5242880, 5242880] st = true := by decide +kernel
def t40 : Tree := (.ref (.cut 1 (.cut 2 (.cut 0 (.cut 1 (.cut 2 (.cut 0 (.cut 1 (.cut 2 (.cut 0 (.cut 1 (.cut 2 (.cut 0 .leaf .leaf) .leaf) (.cut 2 .leaf .leaf)) (.cut 1 (.cut 2 .leaf .leaf) .leaf)) (.cut 0 .leaf .leaf)) (.cut 2 (.cut 0 .leaf .leaf) (.cut 0 .leaf .leaf))) (.cut 1 (.cut 2 (.cut 0 .leaf .leaf) (.cut 0 .leaf .leaf)) (.cut 2 (.cut 0 .leaf .leaf) .leaf))) (.cut 0 (.cut 1 .out .leaf) (.cut 1 .out .leaf))) (.cut 2 (.cut 0 (.cut 1 .leaf .leaf) (.cut 1 .leaf .leaf)) (.cut 0 .leaf .leaf))) (.cut 1 (.cut 2 (.cut 0 (.cut 1 (.cut 2 .leaf .leaf) .leaf) .leaf) (.cut 0 (.cut 1 .out .leaf) .leaf)) (.cut 2 (.cut 0 (.cut 1 .leaf .leaf) .leaf) .leaf))) (.cut 0 (.cut 1 .out .leaf) (.cut 1 .out .leaf))) (.cut 2 (.cut 0 (.cut 1 .leaf .leaf) (.cut 1 .leaf .leaf)) (.cut 0 .leaf .leaf))))
theorem h40 : check par t40 [10526720, 81920, 81920] [40960, 81920, 81920] st = true := by decide +kernel
def t41 : Tree := (.ref (.cut 1 (.cut 2 (.cut 0 (.cut 1 (.cut 2 .leaf .leaf) .leaf) .leaf) (.cut 0 (.cut 1 .out .leaf) .leaf)) (.cut 2 (.cut 0 (.cut 1 .leaf .leaf) .leaf) .leaf)))
theorem h41 : check par t41 [10608640, 81920, 81920] [40960, 81920, 81920] st = true := by decide +kernel
def t42 : Tree := (.ref (.cut 0 (.cut 1 .out .leaf) (.cut 1 .out .leaf)))
theorem h42 : check par t42 [10567680, 81920, 245760] [81920, 81920, 81920] st = true := by decide +kernel
def t43 : Tree := (.ref (.cut 2 (.cut 0 (.cut 1 .leaf .leaf) (.cut 1 .leaf .leaf)) (.cut 0 .leaf .leaf)))
theorem h43 : check par t43 [10567680, 245760, 163840] [81920, 81920, 163840] st = true := by decide +kernel
def t44 : Tree := (.ref (.cut 1 (.cut 2 (.cut 0 (.cut 1 (.cut 2 .leaf .leaf) .leaf) .leaf) (.cut 0 (.cut 1 .out .leaf) .leaf)) (.cut 2 (.cut 0 (.cut 1 .leaf .leaf) .leaf) (.cut 0 .leaf .leaf))))
theorem h44 : check par t44 [10731520, 163840, 163840] [81920, 163840, 163840] st = true := by decide +kernel
def t45 : Tree := (.ref (.cut 0 (.cut 1 .out .leaf) (.cut 1 .out .leaf)))
theorem h45 : check par t45 [10649600, 163840, 491520] [163840, 163840, 163840] st = true := by decide +kernel
def t46 : Tree := (.ref (.cut 2 (.cut 0 (.cut 1 .leaf .leaf) (.cut 1 .leaf .leaf)) (.cut 0 .leaf .leaf)))
theorem h46 : check par t46 [10649600, 491520, 327680] [163840, 163840, 327680] st = true := by decide +kernel
def t47 : Tree := (.ref (.cut 1 (.cut 2 (.cut 0 (.cut 1 (.cut 2 .leaf .leaf) .leaf) .leaf) (.cut 0 (.cut 1 .out .leaf) .leaf)) (.cut 2 (.cut 0 (.cut 1 .leaf .leaf) .leaf) (.cut 0 .leaf .leaf))))
theorem h47 : check par t47 [10977280, 327680, 327680] [163840, 327680, 327680] st = true := by decide +kernel
def t48 : Tree := (.ref (.cut 0 (.cut 1 .out .leaf) (.cut 1 .out .leaf)))
theorem h48 : check par t48 [10813440, 327680, 983040] [327680, 327680, 327680] st = true := by decide +kernel
def t49 : Tree := (.ref (.cut 2 (.ref (.cut 0 (.cut 1 .leaf .leaf) (.cut 1 .leaf .leaf))) (.cut 0 .leaf .leaf)))
theorem h49 : check par t49 [10813440, 983040, 655360] [327680, 327680, 655360] st = true := by decide +kernel
def t50 : Tree := (.ref (.cut 1 (.ref (.cut 2 (.cut 0 (.cut 1 (.cut 2 .leaf .leaf) .leaf) .leaf) (.cut 0 (.cut 1 .out .leaf) .leaf))) (.cut 2 (.cut 0 (.cut 1 .leaf .leaf) .leaf) (.ref (.cut 0 .leaf .leaf)))))
theorem h50 : check par t50 [11468800, 655360, 655360] [327680, 655360, 655360] st = true := by decide +kernel
def t51 : Tree := (.ref (.cut 0 (.cut 1 .out .leaf) (.cut 1 .out .leaf)))
theorem h51 : check par t51 [11141120, 655360, 1966080] [655360, 655360, 655360] st = true := by decide +kernel
def t52 : Tree := (.ref (.cut 2 (.cut 0 (.cut 1 .leaf .leaf) (.cut 1 .leaf .leaf)) (.cut 0 (.cut 1 .leaf .leaf) (.cut 1 .leaf .leaf))))
theorem h52 : check par t52 [11141120, 1966080, 1310720] [655360, 655360, 1310720] st = true := by decide +kernel
def t53 : Tree := (.ref (.cut 1 (.cut 2 (.ref (.cut 0 (.cut 1 (.ref (.cut 2 .leaf .leaf)) (.cut 2 .leaf .leaf)) (.cut 1 .leaf .leaf))) (.ref (.cut 0 (.cut 1 .out .leaf) .leaf))) (.cut 2 (.cut 0 (.cut 1 .leaf .leaf) (.cut 1 .leaf .leaf)) (.cut 0 .leaf .leaf))))
theorem h53 : check par t53 [12451840, 1310720, 1310720] [655360, 1310720, 1310720] st = true := by decide +kernel
def t54 : Tree := (.ref (.cut 0 (.ref (.cut 1 .out (.cut 2 .leaf .out))) (.cut 1 .out (.cut 2 .leaf .out))))
theorem h54 : check par t54 [11796480, 1310720, 3932160] [1310720, 1310720, 1310720] st = true := by decide +kernel
def t55 : Tree := (.ref (.cut 2 (.cut 0 (.cut 1 (.cut 2 .leaf .leaf) .leaf) (.cut 1 (.cut 2 .leaf .leaf) .leaf)) (.cut 0 (.cut 1 (.cut 2 .leaf .leaf) .leaf) (.cut 1 (.cut 2 .leaf .leaf) .leaf))))
theorem h55 : check par t55 [11796480, 3932160, 2621440] [1310720, 1310720, 2621440] st = true := by decide +kernel
end FastNoise.NormCheck.Simplex3
