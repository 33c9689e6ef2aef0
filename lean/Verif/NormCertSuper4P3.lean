import Verif.NormCertSuper4
/-! Generated by tools/normcert/gen.py: a certificate for the checker `Verif.NormCheck`. -/
namespace FastNoise.NormCheck.Super4
open FastNoise.RangeCheck (Tree)
set_option maxRecDepth 1000000
def t101 : Tree := (.ref (.cut 3 (.cut 0 (.cut 1 (.cut 2 .leaf .leaf) .leaf) (.cut 1 (.cut 2 .leaf .leaf) .leaf)) (.ref (.cut 0 (.ref (.cut 1 (.cut 2 .out .leaf) (.cut 2 .out .leaf))) (.ref (.cut 1 (.cut 2 .out .leaf) (.cut 2 .out .leaf)))))))
theorem h101 : check par t101 [9437184, 5242880, 1048576, 2097152] [1048576, 1048576, 1048576, 2097152] st = true := by decide +kernel
def t102 : Tree := (.ref (.cut 3 (.ref (.cut 0 (.ref (.cut 1 (.cut 2 .leaf .leaf) (.cut 2 .leaf .leaf))) (.ref (.cut 1 (.cut 2 .leaf .leaf) (.cut 2 .leaf .leaf))))) (.ref (.cut 0 (.cut 1 (.cut 2 .leaf .leaf) (.ref (.cut 2 .leaf .leaf))) (.cut 1 (.ref (.cut 2 .leaf .leaf)) (.ref (.cut 2 .leaf .leaf)))))))
theorem h102 : check par t102 [9437184, 5242880, 3145728, 2097152] [1048576, 1048576, 1048576, 2097152] st = true := by decide +kernel
def t103 : Tree := (.ref (.cut 3 (.ref (.cut 0 .leaf (.cut 1 .leaf .leaf))) (.cut 0 (.cut 1 (.ref (.cut 2 .out .leaf)) .leaf) (.cut 1 (.cut 2 .out .leaf) (.cut 2 .out .leaf)))))
theorem h103 : check par t103 [9437184, 7340032, 1048576, 2097152] [1048576, 1048576, 1048576, 2097152] st = true := by decide +kernel
def t104 : Tree := (.ref (.cut 3 (.ref (.cut 0 (.cut 1 (.ref (.cut 2 .leaf .leaf)) .leaf) (.cut 1 (.cut 2 .leaf .leaf) (.cut 2 .leaf .leaf)))) (.ref (.cut 0 (.cut 1 (.cut 2 .leaf .leaf) .leaf) (.cut 1 (.cut 2 .leaf .leaf) .leaf)))))
theorem h104 : check par t104 [9437184, 7340032, 3145728, 2097152] [1048576, 1048576, 1048576, 2097152] st = true := by decide +kernel
def t105 : Tree := (.ref (.cut 3 (.ref (.cut 0 (.cut 1 (.ref (.cut 2 .leaf .leaf)) (.cut 2 .leaf .leaf)) (.ref (.cut 1 (.cut 2 .leaf .leaf) (.cut 2 .leaf .leaf))))) (.ref (.cut 0 (.ref (.cut 1 (.ref (.cut 2 .out (.cut 3 .leaf .out))) (.ref (.cut 2 .out .leaf)))) (.ref (.cut 1 (.ref (.cut 2 .out .leaf)) .leaf))))))
theorem h105 : check par t105 [11534336, 5242880, 1048576, 2097152] [1048576, 1048576, 1048576, 2097152] st = true := by decide +kernel
def t106 : Tree := (.ref (.cut 3 (.ref (.cut 0 (.ref (.cut 1 (.ref (.cut 2 (.cut 3 .leaf .leaf) .leaf)) (.ref (.cut 2 .leaf .leaf)))) (.ref (.cut 1 (.ref (.cut 2 .leaf .leaf)) .leaf)))) (.ref (.cut 0 (.ref (.cut 1 (.ref (.cut 2 .leaf .leaf)) (.ref (.cut 2 .leaf .leaf)))) (.ref (.cut 1 (.cut 2 .leaf .leaf) (.ref (.cut 2 .leaf .leaf))))))))
theorem h106 : check par t106 [11534336, 5242880, 3145728, 2097152] [1048576, 1048576, 1048576, 2097152] st = true := by decide +kernel
def t107 : Tree := (.ref (.cut 3 (.ref (.cut 0 (.cut 1 .leaf .leaf) (.cut 1 .leaf .leaf))) (.ref (.cut 0 (.cut 1 (.cut 2 .out .leaf) (.cut 2 .out .leaf)) (.cut 1 (.ref (.cut 2 .out .leaf)) (.cut 2 .out .leaf))))))
theorem h107 : check par t107 [11534336, 7340032, 1048576, 2097152] [1048576, 1048576, 1048576, 2097152] st = true := by decide +kernel
def t108 : Tree := (.ref (.cut 3 (.ref (.cut 0 (.cut 1 (.cut 2 .leaf .leaf) (.cut 2 .leaf .leaf)) (.cut 1 (.ref (.cut 2 .leaf .leaf)) (.cut 2 .leaf .leaf)))) (.ref (.cut 0 (.ref (.cut 1 (.cut 2 .leaf .leaf) (.cut 2 .leaf .leaf))) (.cut 1 (.cut 2 .leaf .leaf) (.cut 2 .leaf .leaf))))))
theorem h108 : check par t108 [11534336, 7340032, 3145728, 2097152] [1048576, 1048576, 1048576, 2097152] st = true := by decide +kernel
def t109 : Tree := (.ref (.cut 1 (.ref (.cut 2 .out (.ref (.cut 3 (.cut 0 (.cut 1 (.cut 2 .out .leaf) (.ref (.cut 2 .out .leaf))) (.cut 1 (.ref (.cut 2 .out .leaf)) (.cut 2 .out (.cut 3 .leaf .out)))) .out)))) (.ref (.cut 2 .out (.ref (.cut 3 (.ref (.cut 0 (.cut 1 (.cut 2 .out .leaf) (.cut 2 .out .leaf)) (.ref (.cut 1 .leaf .leaf)))) .out))))))
theorem h109 : check par t109 [9437184, 6291456, 2097152, 6291456] [1048576, 2097152, 2097152, 2097152] st = true := by decide +kernel
def t110 : Tree := (.ref (.cut 1 (.ref (.cut 2 .out (.cut 3 (.ref (.cut 0 (.ref (.cut 1 (.cut 2 .out .leaf) (.cut 2 .out .leaf))) (.cut 1 (.cut 2 .out .leaf) (.cut 2 .out .leaf)))) .out))) (.ref (.cut 2 .out (.ref (.cut 3 (.ref (.cut 0 (.ref (.cut 1 .leaf .leaf)) (.cut 1 (.ref (.cut 2 .out .leaf)) .leaf))) .out))))))
theorem h110 : check par t110 [11534336, 6291456, 2097152, 6291456] [1048576, 2097152, 2097152, 2097152] st = true := by decide +kernel
def t111 : Tree := (.ref (.cut 3 (.ref (.cut 0 (.cut 1 .leaf .leaf) (.cut 1 (.ref (.cut 2 .leaf .leaf)) (.cut 2 .leaf .leaf)))) (.cut 0 (.cut 1 (.cut 2 (.cut 3 .leaf .leaf) .leaf) (.ref (.cut 2 .leaf .leaf))) (.cut 1 (.ref (.cut 2 .leaf .leaf)) (.cut 2 .leaf .leaf)))))
theorem h111 : check par t111 [9437184, 5242880, 5242880, 2097152] [1048576, 1048576, 1048576, 2097152] st = true := by decide +kernel
def t112 : Tree := (.ref (.cut 3 (.cut 0 (.cut 1 .out .leaf) (.ref (.cut 1 .out .leaf))) (.ref (.cut 0 (.cut 1 .out (.cut 2 .leaf .out)) (.ref (.cut 1 .out .leaf))))))
theorem h112 : check par t112 [9437184, 5242880, 7340032, 2097152] [1048576, 1048576, 1048576, 2097152] st = true := by decide +kernel
def t113 : Tree := (.ref (.cut 3 (.cut 0 (.cut 1 (.ref (.cut 2 .leaf .leaf)) (.cut 2 .leaf .leaf)) (.ref (.cut 1 (.ref (.cut 2 .leaf .leaf)) .leaf))) (.ref (.cut 0 (.cut 1 (.cut 2 .leaf .leaf) (.cut 2 .leaf .leaf)) (.ref (.cut 1 .leaf .leaf))))))
theorem h113 : check par t113 [9437184, 7340032, 5242880, 2097152] [1048576, 1048576, 1048576, 2097152] st = true := by decide +kernel
def t114 : Tree := (.ref (.cut 3 (.ref (.cut 0 (.cut 1 .leaf .leaf) (.cut 1 .leaf .leaf))) (.cut 0 (.cut 1 (.ref (.cut 2 .leaf .leaf)) (.ref (.cut 2 .leaf .leaf))) (.cut 1 (.ref (.cut 2 .leaf .leaf)) (.ref (.cut 2 .leaf .leaf))))))
theorem h114 : check par t114 [9437184, 7340032, 7340032, 2097152] [1048576, 1048576, 1048576, 2097152] st = true := by decide +kernel
def t115 : Tree := (.ref (.cut 2 (.cut 3 (.ref (.cut 0 (.ref (.cut 1 .leaf .leaf)) (.ref (.cut 1 .leaf .leaf)))) (.ref (.cut 0 (.ref (.cut 1 (.cut 2 .leaf .leaf) (.cut 2 .leaf .leaf))) (.cut 1 (.cut 2 .leaf .leaf) (.cut 2 .leaf .leaf))))) (.ref (.cut 3 (.ref (.cut 0 (.ref (.cut 1 .out .leaf)) (.ref (.cut 1 .out .leaf)))) (.ref (.cut 0 (.ref (.cut 1 .out .leaf)) (.cut 1 .out .leaf)))))))
theorem h115 : check par t115 [11534336, 5242880, 6291456, 2097152] [1048576, 1048576, 2097152, 2097152] st = true := by decide +kernel
def t116 : Tree := (.ref (.cut 3 (.ref (.cut 0 (.ref (.cut 1 (.cut 2 .leaf .leaf) .leaf)) (.ref (.cut 1 (.cut 2 .leaf .leaf) .leaf)))) (.ref (.cut 0 (.ref (.cut 1 .leaf .leaf)) (.cut 1 (.ref (.cut 2 .leaf .leaf)) .leaf)))))
theorem h116 : check par t116 [11534336, 7340032, 5242880, 2097152] [1048576, 1048576, 1048576, 2097152] st = true := by decide +kernel
def t117 : Tree := (.ref (.cut 3 (.ref (.cut 0 (.ref (.cut 1 .leaf .leaf)) (.ref (.cut 1 .leaf .leaf)))) (.cut 0 (.ref (.cut 1 (.cut 2 .leaf .leaf) (.ref (.cut 2 .leaf .leaf)))) (.cut 1 (.ref (.cut 2 .leaf .leaf)) (.ref (.cut 2 .leaf .leaf))))))
theorem h117 : check par t117 [11534336, 7340032, 7340032, 2097152] [1048576, 1048576, 1048576, 2097152] st = true := by decide +kernel
def t118 : Tree := (.ref (.cut 3 (.ref (.cut 0 (.cut 1 (.ref (.cut 2 .leaf .leaf)) (.cut 2 .leaf (.cut 3 .leaf .leaf))) (.cut 1 (.ref (.cut 2 .leaf .leaf)) (.cut 2 .leaf .leaf)))) (.ref (.cut 0 (.cut 1 (.ref (.cut 2 .out .leaf)) (.ref (.cut 2 .out (.ref (.cut 3 .leaf .out))))) (.ref (.cut 1 (.ref (.cut 2 .out .leaf)) (.ref (.cut 2 .out (.cut 3 .leaf .out)))))))))
theorem h118 : check par t118 [9437184, 5242880, 5242880, 6291456] [1048576, 1048576, 1048576, 2097152] st = true := by decide +kernel
def t119 : Tree := (.ref (.cut 3 (.ref (.cut 0 (.cut 1 .out (.ref (.cut 2 (.ref (.cut 3 .leaf .leaf)) .out))) (.ref (.cut 1 .out (.ref (.cut 2 .leaf .out)))))) (.ref (.cut 0 (.ref (.cut 1 .out (.ref (.cut 2 .leaf .out)))) (.ref (.cut 1 .out (.ref (.cut 2 (.cut 3 .leaf .leaf) .out))))))))
theorem h119 : check par t119 [9437184, 5242880, 7340032, 6291456] [1048576, 1048576, 1048576, 2097152] st = true := by decide +kernel
def t120 : Tree := (.ref (.cut 0 (.cut 1 (.ref (.cut 2 .leaf (.ref (.cut 3 .leaf .leaf)))) (.ref (.cut 2 (.ref (.cut 3 .leaf .leaf)) (.ref (.cut 3 .leaf .leaf))))) (.ref (.cut 1 (.ref (.cut 2 .leaf .leaf)) (.ref (.cut 2 .leaf (.cut 3 .leaf .leaf)))))))
theorem h120 : check par t120 [9437184, 7340032, 5242880, 5242880] [1048576, 1048576, 1048576, 1048576] st = true := by decide +kernel
def t121 : Tree := (.ref (.cut 0 (.ref (.cut 1 (.ref (.cut 2 .out .leaf)) (.cut 2 .out .leaf))) (.ref (.cut 1 (.cut 2 .out (.ref (.cut 3 .leaf .out))) (.ref (.cut 2 .out .leaf))))))
theorem h121 : check par t121 [9437184, 7340032, 5242880, 7340032] [1048576, 1048576, 1048576, 1048576] st = true := by decide +kernel
def t122 : Tree := (.ref (.cut 0 (.ref (.cut 1 (.ref (.cut 2 .leaf (.cut 3 .leaf .leaf))) (.cut 2 (.ref (.cut 3 .leaf .leaf)) (.cut 3 .leaf .leaf)))) (.ref (.cut 1 (.cut 2 (.ref (.cut 3 .leaf .leaf)) (.ref (.cut 3 .leaf .leaf))) (.ref (.cut 2 (.cut 3 .leaf .leaf) .leaf))))))
theorem h122 : check par t122 [9437184, 7340032, 7340032, 5242880] [1048576, 1048576, 1048576, 1048576] st = true := by decide +kernel
def t123 : Tree := (.ref (.cut 0 (.cut 1 (.ref (.cut 2 (.cut 3 .leaf .leaf) (.ref (.cut 3 .leaf .leaf)))) (.cut 2 (.ref (.cut 3 .leaf .leaf)) (.ref (.cut 3 .leaf .leaf)))) (.ref (.cut 1 (.cut 2 (.cut 3 .leaf .leaf) (.ref (.cut 3 .leaf .leaf))) (.cut 2 (.ref (.cut 3 .leaf .leaf)) (.cut 3 .leaf (.cut 0 .leaf .leaf)))))))
theorem h123 : check par t123 [9437184, 7340032, 7340032, 7340032] [1048576, 1048576, 1048576, 1048576] st = true := by decide +kernel
def t124 : Tree := (.ref (.cut 3 (.ref (.cut 0 (.ref (.cut 1 .leaf .leaf)) (.cut 1 .leaf .leaf))) (.cut 0 (.ref (.cut 1 (.cut 2 .out .leaf) (.cut 2 .out .leaf))) (.ref (.cut 1 (.cut 2 .out .leaf) (.cut 2 .out .leaf))))))
theorem h124 : check par t124 [11534336, 5242880, 5242880, 6291456] [1048576, 1048576, 1048576, 2097152] st = true := by decide +kernel
def t125 : Tree := (.ref (.cut 3 (.ref (.cut 0 (.ref (.cut 1 .out (.cut 2 .leaf .out))) (.ref (.cut 1 .out (.cut 2 .leaf .out))))) (.ref (.cut 0 (.ref (.cut 1 .out (.ref (.cut 2 .leaf .out)))) (.cut 1 .out (.ref (.cut 2 .leaf .out)))))))
theorem h125 : check par t125 [11534336, 5242880, 7340032, 6291456] [1048576, 1048576, 1048576, 2097152] st = true := by decide +kernel
def t126 : Tree := (.ref (.cut 3 (.ref (.cut 0 (.ref (.cut 1 (.cut 2 .leaf .leaf) (.ref (.cut 2 .leaf .leaf)))) (.ref (.cut 1 .leaf (.cut 2 .leaf .leaf))))) (.ref (.cut 0 (.ref (.cut 1 (.cut 2 .out .leaf) (.cut 2 .out .leaf))) (.cut 1 (.ref (.cut 2 .out .leaf)) (.ref (.cut 2 .out .leaf)))))))
theorem h126 : check par t126 [11534336, 7340032, 5242880, 6291456] [1048576, 1048576, 1048576, 2097152] st = true := by decide +kernel
def t127 : Tree := (.ref (.cut 3 (.ref (.cut 0 (.ref (.cut 1 (.cut 2 .leaf .leaf) (.cut 2 .leaf .leaf))) (.cut 1 (.ref (.cut 2 .leaf .leaf)) (.ref (.cut 2 .leaf .leaf))))) (.ref (.cut 0 (.ref (.cut 1 (.ref (.cut 2 .leaf (.cut 3 .leaf .leaf))) (.cut 2 (.ref (.cut 3 .leaf .leaf)) (.ref (.cut 3 .leaf .leaf))))) (.ref (.cut 1 .leaf .leaf))))))
theorem h127 : check par t127 [11534336, 7340032, 7340032, 6291456] [1048576, 1048576, 1048576, 2097152] st = true := by decide +kernel
def t128 : Tree := (.ref (.cut 3 (.ref (.cut 0 (.ref (.cut 1 (.ref (.cut 2 .leaf .leaf)) (.ref (.cut 2 .leaf .leaf)))) (.ref (.cut 1 (.ref (.cut 2 .leaf .leaf)) (.ref (.cut 2 .leaf .leaf)))))) (.ref (.cut 0 (.ref (.cut 1 (.cut 2 .out .leaf) (.cut 2 .out .leaf))) (.ref (.cut 1 (.ref (.cut 2 .out .leaf)) (.ref (.cut 2 .out .leaf))))))))
theorem h128 : check par t128 [13631488, 1048576, 1048576, 2097152] [1048576, 1048576, 1048576, 2097152] st = true := by decide +kernel
def t129 : Tree := (.ref (.cut 3 (.ref (.cut 0 (.ref (.cut 1 .out (.cut 2 .leaf .out))) (.ref (.cut 1 .out (.ref (.cut 2 .leaf .out)))))) (.ref (.cut 0 (.cut 1 .out (.ref (.cut 2 .leaf .out))) (.cut 1 .out (.ref (.cut 2 .leaf .out)))))))
theorem h129 : check par t129 [13631488, 1048576, 3145728, 2097152] [1048576, 1048576, 1048576, 2097152] st = true := by decide +kernel
end FastNoise.NormCheck.Super4
