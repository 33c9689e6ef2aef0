import Verif.NormCertSuper2
/-! Generated by tools/normcert/gen.py: a certificate for the checker `Verif.NormCheck`. -/
namespace FastNoise.NormCheck.Super2
open FastNoise.RangeCheck (Tree)
set_option maxRecDepth 1000000
def t0 : Tree := (.ref (.cut 1 (.ref (.cut 0 (.cut 1 (.cut 0 (.cut 1 .leaf .leaf) (.ref (.cut 1 .leaf .leaf))) (.ref (.cut 0 .out (.cut 1 .leaf .out)))) (.ref (.cut 1 (.ref (.cut 0 (.cut 1 .leaf .leaf) (.cut 1 (.ref (.cut 0 .leaf .leaf)) (.cut 0 .leaf .leaf)))) (.ref (.cut 0 (.cut 1 .leaf (.cut 0 .out (.cut 1 .leaf .out))) (.cut 1 (.cut 0 .leaf .leaf) (.cut 0 (.cut 1 .leaf .leaf) (.cut 1 .leaf .leaf))))))))) (.ref (.cut 0 .out (.ref (.cut 1 (.ref (.cut 0 .out (.cut 1 (.cut 0 .out (.cut 1 .leaf .out)) .out))) .out))))))
theorem h0 : check par t0 [4194304, 8388608] [4194304, 8388608] st = true := by decide +kernel
def t1 : Tree := (.ref (.cut 0 (.cut 1 (.cut 0 .leaf (.cut 1 .leaf .leaf)) (.cut 0 (.cut 1 .leaf .leaf) (.cut 1 .leaf (.ref (.cut 0 .leaf .leaf))))) (.cut 1 (.cut 0 .leaf .leaf) (.cut 0 (.cut 1 .leaf (.ref (.cut 0 (.cut 1 .leaf .leaf) .leaf))) (.cut 1 .leaf .leaf)))))
theorem h1 : check par t1 [10485760, 2097152] [2097152, 2097152] st = true := by decide +kernel
def t2 : Tree := (.ref (.cut 1 (.cut 0 (.cut 1 .leaf .leaf) (.ref (.cut 1 (.cut 0 .leaf (.cut 1 .leaf (.cut 0 .leaf .leaf))) (.cut 0 .leaf (.cut 1 (.cut 0 .leaf .leaf) .leaf))))) (.cut 0 (.cut 1 .leaf .leaf) (.cut 1 (.cut 0 .leaf (.cut 1 .leaf .leaf)) .leaf))))
theorem h2 : check par t2 [9437184, 6291456] [1048576, 2097152] st = true := by decide +kernel
def t3 : Tree := (.ref (.cut 0 (.cut 1 .leaf (.cut 0 (.cut 1 .leaf .leaf) (.cut 1 .leaf .leaf))) (.cut 1 .leaf (.cut 0 (.cut 1 .leaf (.cut 0 .leaf .leaf)) (.cut 1 .leaf .leaf)))))
theorem h3 : check par t3 [11010048, 4718592] [524288, 524288] st = true := by decide +kernel
def t4 : Tree := (.ref (.cut 1 (.cut 0 (.cut 1 .leaf .leaf) (.cut 1 (.cut 0 .leaf (.cut 1 .leaf .leaf)) (.cut 0 .leaf (.cut 1 (.cut 0 .leaf .leaf) .leaf)))) (.cut 0 (.cut 1 .leaf .leaf) (.cut 1 (.cut 0 .leaf .leaf) .leaf))))
theorem h4 : check par t4 [10747904, 5767168] [262144, 524288] st = true := by decide +kernel
def t5 : Tree := (.ref (.cut 0 (.cut 1 .leaf (.cut 0 (.cut 1 .leaf .leaf) (.cut 1 .leaf .leaf))) (.cut 1 .leaf (.cut 0 (.cut 1 .leaf (.cut 0 .leaf .leaf)) (.cut 1 .leaf .leaf)))))
theorem h5 : check par t5 [11141120, 5373952] [131072, 131072] st = true := by decide +kernel
def t6 : Tree := (.ref (.cut 1 (.cut 0 (.cut 1 .leaf .leaf) (.cut 1 (.cut 0 .leaf (.cut 1 .leaf .leaf)) (.cut 0 .leaf (.cut 1 (.cut 0 .leaf .leaf) .leaf)))) (.cut 0 .leaf (.cut 1 (.cut 0 .leaf .leaf) .leaf))))
theorem h6 : check par t6 [11075584, 5636096] [65536, 131072] st = true := by decide +kernel
def t7 : Tree := (.ref (.cut 1 (.cut 0 (.cut 1 (.cut 0 (.cut 1 .leaf (.cut 0 (.cut 1 .leaf .leaf) (.cut 1 .leaf .leaf))) (.cut 1 .leaf (.cut 0 (.cut 1 .leaf .leaf) (.cut 1 .leaf .leaf)))) (.cut 0 (.cut 1 (.cut 0 (.cut 1 .leaf .leaf) (.cut 1 (.cut 0 .leaf .leaf) (.cut 0 .leaf (.cut 1 .leaf .leaf)))) (.cut 0 .leaf (.cut 1 .leaf .leaf))) (.cut 1 (.cut 0 (.cut 1 (.cut 0 (.cut 1 .leaf .leaf) (.cut 1 .leaf .leaf)) (.cut 0 (.cut 1 .leaf .leaf) (.cut 1 .leaf .leaf))) (.cut 1 (.cut 0 (.cut 1 .leaf .leaf) .leaf) (.cut 0 (.cut 1 .leaf .out) .out))) (.cut 0 (.cut 1 (.cut 0 .leaf .out) .out) .out)))) (.cut 1 (.cut 0 (.cut 1 .leaf (.cut 0 .leaf .leaf)) .leaf) (.cut 0 (.cut 1 (.cut 0 (.cut 1 .leaf .out) .out) .out) .out))) (.cut 0 (.cut 1 (.cut 0 (.cut 1 .leaf .out) .out) .out) .out)))
theorem h7 : check par t7 [11206656, 5636096] [65536, 131072] st = true := by decide +kernel
def t8 : Tree := (.ref (.cut 1 (.cut 0 (.cut 1 .leaf (.cut 0 .leaf .leaf)) .leaf) (.cut 0 (.cut 1 (.cut 0 (.cut 1 .leaf .out) .out) .out) .out)))
theorem h8 : check par t8 [11403264, 5505024] [131072, 262144] st = true := by decide +kernel
def t9 : Tree := (.ref (.cut 0 (.cut 1 (.cut 0 (.cut 1 .leaf .out) .out) .out) .out))
theorem h9 : check par t9 [11272192, 6029312] [262144, 262144] st = true := by decide +kernel
def t10 : Tree := (.ref (.cut 1 (.cut 0 (.cut 1 .leaf (.cut 0 .leaf .leaf)) (.cut 1 .leaf .leaf)) (.cut 0 (.cut 1 (.cut 0 (.cut 1 .leaf .out) .out) .out) .out)))
theorem h10 : check par t10 [12058624, 5242880] [524288, 1048576] st = true := by decide +kernel
def t11 : Tree := (.ref (.cut 0 (.cut 1 (.ref (.cut 0 (.cut 1 .leaf .out) .out)) .out) .out))
theorem h11 : check par t11 [11534336, 7340032] [1048576, 1048576] st = true := by decide +kernel
def t12 : Tree := (.ref (.cut 1 (.ref (.cut 0 (.ref (.cut 1 .leaf (.cut 0 (.ref (.cut 1 .leaf .leaf)) .leaf))) (.cut 1 .leaf .leaf))) (.ref (.cut 0 (.cut 1 (.cut 0 (.ref (.cut 1 .leaf .out)) .out) .out) .out))))
theorem h12 : check par t12 [14680064, 4194304] [2097152, 4194304] st = true := by decide +kernel
def t13 : Tree := (.ref (.cut 0 (.ref (.cut 1 (.ref (.cut 0 (.cut 1 (.cut 0 (.cut 1 .leaf .out) .out) .out) .out)) .out)) .out))
theorem h13 : check par t13 [12582912, 12582912] [4194304, 4194304] st = true := by decide +kernel
end FastNoise.NormCheck.Super2
