import Verif.NormCertSimplex3
/-! Generated by tools/normcert/gen.py: a certificate for the checker `Verif.NormCheck`. -/
namespace FastNoise.NormCheck.Simplex3
open FastNoise.RangeCheck (Tree)
set_option maxRecDepth 1000000
def t88 : Tree := (.ref (.cut 1 .out (.cut 2 (.cut 0 (.cut 1 .out .out) .out) .out)))
theorem h88 : check par t88 [18350080, 5242880, 15728640] [2621440, 5242880, 5242880] st = true := by decide +kernel
def t89 : Tree := (.ref (.cut 0 (.cut 1 (.cut 2 .leaf .leaf) (.cut 2 (.cut 0 .out .leaf) .leaf)) (.cut 1 (.cut 2 (.cut 0 .leaf (.cut 1 .leaf .leaf)) (.cut 0 .leaf .leaf)) (.cut 2 (.cut 0 .leaf (.cut 1 .leaf .leaf)) (.cut 0 .leaf .leaf)))))
theorem h89 : check par t89 [13107200, 13107200, 2621440] [2621440, 2621440, 2621440] st = true := by decide +kernel
def t90 : Tree := (.ref (.cut 0 (.cut 1 (.cut 2 .leaf .leaf) .leaf) (.cut 1 .leaf .leaf)))
theorem h90 : check par t90 [11796480, 11796480, 6553600] [1310720, 1310720, 1310720] st = true := by decide +kernel
def t91 : Tree := (.ref (.cut 0 (.cut 1 .leaf .leaf) .leaf))
theorem h91 : check par t91 [11141120, 11141120, 8519680] [655360, 655360, 655360] st = true := by decide +kernel
def t92 : Tree := (.ref (.cut 0 (.cut 1 .leaf .leaf) .leaf))
theorem h92 : check par t92 [10813440, 10813440, 9502720] [327680, 327680, 327680] st = true := by decide +kernel
def t93 : Tree := (.ref (.cut 0 (.cut 1 (.cut 2 (.cut 0 .leaf .leaf) (.cut 0 (.cut 1 (.cut 2 (.cut 0 .leaf .leaf) (.cut 0 (.cut 1 (.cut 2 (.cut 0 .leaf .leaf) (.cut 0 (.cut 1 (.cut 2 (.cut 0 .leaf .leaf) (.cut 0 (.cut 1 (.cut 2 (.cut 0 .leaf .leaf) (.cut 0 (.cut 1 (.cut 2 .leaf (.cut 0 (.cut 1 .leaf .leaf) .leaf)) (.cut 2 .leaf .leaf)) (.cut 1 (.cut 2 .leaf .leaf) (.cut 2 .leaf .out)))) (.cut 2 .leaf (.cut 0 .out .out))) (.cut 1 (.cut 2 .leaf (.cut 0 .leaf .out)) (.cut 2 .leaf .out)))) (.cut 2 .leaf (.cut 0 .out .out))) (.cut 1 (.cut 2 .leaf (.cut 0 .leaf .out)) (.cut 2 .leaf .out)))) (.cut 2 .leaf (.cut 0 .out .out))) (.cut 1 (.cut 2 .leaf (.cut 0 .leaf .out)) (.cut 2 .leaf .out)))) (.cut 2 .leaf (.cut 0 .out .out))) (.cut 1 (.cut 2 .leaf (.cut 0 .leaf .out)) (.cut 2 .leaf .out)))) (.cut 2 .leaf (.cut 0 .out .out))) (.cut 1 (.cut 2 .leaf (.cut 0 .leaf .out)) (.cut 2 .leaf .out))))
theorem h93 : check par t93 [10813440, 10813440, 10158080] [327680, 327680, 327680] st = true := by decide +kernel
def t94 : Tree := (.ref (.cut 2 .leaf (.cut 0 .out .out)))
theorem h94 : check par t94 [10813440, 11468800, 9830400] [327680, 327680, 655360] st = true := by decide +kernel
def t95 : Tree := (.ref (.cut 1 (.cut 2 .leaf (.cut 0 (.ref (.cut 1 .leaf .out)) .out)) (.cut 2 .leaf .out)))
theorem h95 : check par t95 [11468800, 11141120, 9830400] [327680, 655360, 655360] st = true := by decide +kernel
def t96 : Tree := (.ref (.cut 2 .leaf (.ref (.cut 0 .out .out))))
theorem h96 : check par t96 [11141120, 12451840, 9175040] [655360, 655360, 1310720] st = true := by decide +kernel
def t97 : Tree := (.ref (.cut 1 (.cut 2 .leaf (.cut 0 (.cut 1 .leaf .out) .out)) (.cut 2 .leaf .out)))
theorem h97 : check par t97 [12451840, 11796480, 9175040] [655360, 1310720, 1310720] st = true := by decide +kernel
def t98 : Tree := (.ref (.cut 2 (.cut 0 .out .leaf) (.cut 0 .out .out)))
theorem h98 : check par t98 [11796480, 14417920, 7864320] [1310720, 1310720, 2621440] st = true := by decide +kernel
def t99 : Tree := (.ref (.cut 1 (.cut 2 (.cut 0 (.cut 1 .leaf .leaf) .leaf) (.cut 0 (.cut 1 (.cut 2 .leaf .out) .out) .out)) (.cut 2 (.cut 0 .leaf .out) .out)))
theorem h99 : check par t99 [14417920, 13107200, 7864320] [1310720, 2621440, 2621440] st = true := by decide +kernel
def t100 : Tree := (.ref (.cut 2 (.cut 0 .out (.cut 1 (.cut 2 (.cut 0 .out .leaf) (.cut 0 .out .out)) .out)) (.cut 0 .out .out)))
theorem h100 : check par t100 [13107200, 18350080, 5242880] [2621440, 2621440, 5242880] st = true := by decide +kernel
def t101 : Tree := (.ref (.cut 1 (.cut 2 (.cut 0 (.cut 1 .leaf .leaf) (.cut 1 (.cut 2 .leaf .leaf) (.cut 2 .leaf .leaf))) (.cut 0 .leaf (.cut 1 .leaf .leaf))) (.cut 2 (.cut 0 (.cut 1 .leaf .leaf) (.cut 1 .leaf .leaf)) (.cut 0 (.cut 1 .leaf .out) .out))))
theorem h101 : check par t101 [17039360, 13107200, 2621440] [1310720, 2621440, 2621440] st = true := by decide +kernel
def t102 : Tree := (.ref (.cut 1 (.cut 2 (.cut 0 .leaf (.cut 1 .leaf .leaf)) .leaf) (.cut 2 (.cut 0 .leaf .leaf) .leaf)))
theorem h102 : check par t102 [19005440, 11796480, 1310720] [655360, 1310720, 1310720] st = true := by decide +kernel
def t103 : Tree := (.ref (.cut 1 (.cut 2 (.cut 0 .leaf (.ref (.cut 1 .leaf .leaf))) .leaf) (.cut 2 (.cut 0 .leaf .leaf) .leaf)))
theorem h103 : check par t103 [19988480, 11141120, 655360] [327680, 655360, 655360] st = true := by decide +kernel
def t104 : Tree := (.ref (.cut 1 (.cut 2 (.cut 0 .leaf (.cut 1 .leaf .leaf)) .leaf) (.cut 2 .leaf .leaf)))
theorem h104 : check par t104 [20480000, 10813440, 327680] [163840, 327680, 327680] st = true := by decide +kernel
def t105 : Tree := (.ref (.cut 2 (.cut 0 (.cut 1 (.cut 2 (.cut 0 .leaf (.cut 1 .leaf .leaf)) .leaf) (.cut 2 .leaf .leaf)) (.cut 1 (.cut 2 (.cut 0 (.cut 1 (.cut 2 (.cut 0 .leaf (.cut 1 .leaf .leaf)) .leaf) (.cut 2 .leaf .leaf)) (.cut 1 (.cut 2 (.cut 0 (.cut 1 (.cut 2 (.cut 0 .leaf (.cut 1 .leaf .leaf)) .leaf) (.cut 2 .leaf .leaf)) (.cut 1 (.cut 2 (.cut 0 (.cut 1 (.cut 2 (.cut 0 .leaf .leaf) .leaf) (.cut 2 .leaf .leaf)) (.cut 1 (.cut 2 (.cut 0 (.cut 1 (.cut 2 .leaf .leaf) (.cut 2 .leaf .leaf)) (.cut 1 (.cut 2 (.cut 0 .leaf (.cut 1 .leaf .leaf)) .leaf) (.cut 2 (.cut 0 .leaf .out) .out))) (.cut 0 .leaf .out)) (.cut 2 (.cut 0 (.cut 1 .leaf .out) .out) .out))) (.cut 0 .leaf .out)) (.cut 2 (.cut 0 (.cut 1 .leaf .out) .out) .out))) (.cut 0 .leaf .out)) (.cut 2 (.cut 0 (.cut 1 .leaf .out) .out) .out))) (.cut 0 .leaf .out)) (.cut 2 (.cut 0 (.cut 1 .leaf .out) .out) .out))) (.cut 0 .leaf .out)))
theorem h105 : check par t105 [20807680, 10649600, 327680] [163840, 163840, 327680] st = true := by decide +kernel
def t106 : Tree := (.ref (.cut 2 (.cut 0 (.cut 1 .leaf .out) .out) .out))
theorem h106 : check par t106 [20807680, 10977280, 327680] [163840, 163840, 327680] st = true := by decide +kernel
def t107 : Tree := (.ref (.cut 0 .leaf .out))
theorem h107 : check par t107 [20643840, 10813440, 983040] [327680, 327680, 327680] st = true := by decide +kernel
def t108 : Tree := (.ref (.cut 2 (.ref (.cut 0 (.cut 1 .leaf .out) .out)) .out))
theorem h108 : check par t108 [20643840, 11468800, 655360] [327680, 327680, 655360] st = true := by decide +kernel
def t109 : Tree := (.ref (.cut 0 .leaf .out))
theorem h109 : check par t109 [20316160, 11141120, 1966080] [655360, 655360, 655360] st = true := by decide +kernel
def t110 : Tree := (.ref (.cut 2 (.cut 0 (.cut 1 .leaf .out) .out) .out))
theorem h110 : check par t110 [20316160, 12451840, 1310720] [655360, 655360, 1310720] st = true := by decide +kernel
def t111 : Tree := (.ref (.cut 0 (.cut 1 .leaf .out) .out))
theorem h111 : check par t111 [19660800, 11796480, 3932160] [1310720, 1310720, 1310720] st = true := by decide +kernel
def t112 : Tree := (.ref (.cut 2 (.cut 0 (.cut 1 (.cut 2 .leaf .out) .out) .out) .out))
theorem h112 : check par t112 [19660800, 14417920, 2621440] [1310720, 1310720, 2621440] st = true := by decide +kernel
def t113 : Tree := (.ref (.cut 0 (.cut 1 (.cut 2 (.cut 0 .leaf .out) .out) .out) .out))
theorem h113 : check par t113 [18350080, 13107200, 7864320] [2621440, 2621440, 2621440] st = true := by decide +kernel
def t114 : Tree := (.ref (.cut 2 (.cut 0 (.cut 1 (.cut 2 (.cut 0 .leaf .out) .out) .out) .out) .out))
theorem h114 : check par t114 [18350080, 18350080, 5242880] [2621440, 2621440, 5242880] st = true := by decide +kernel
def t115 : Tree := (.ref (.cut 0 (.cut 1 (.cut 2 (.cut 0 (.cut 1 (.cut 2 (.cut 0 (.cut 1 (.ref (.cut 2 (.cut 0 (.ref (.cut 1 (.cut 2 (.cut 0 (.cut 1 (.cut 2 (.cut 0 (.cut 1 (.cut 2 (.cut 0 (.cut 1 (.cut 2 (.cut 0 (.cut 1 (.cut 2 (.cut 0 (.cut 1 (.cut 2 (.cut 0 (.cut 1 (.cut 2 .leaf .out) .out) .out) .out) .out) .out) .out) .out) .out) .out) .out) .out) .out) .out) .out) .out) .out) .out) .out) .out)) .out) .out)) .out) .out) .out) .out) .out) .out) .out) .out))
theorem h115 : check par t115 [15728640, 15728640, 15728640] [5242880, 5242880, 5242880] st = true := by decide +kernel
end FastNoise.NormCheck.Simplex3
