import Verif.NormCertSuper4
/-! Generated by tools/normcert/gen.py: a certificate for the checker `Verif.NormCheck`. -/
namespace FastNoise.NormCheck.Super4
open FastNoise.RangeCheck (Tree)
set_option maxRecDepth 1000000
def t160 : Tree := (.ref (.cut 3 (.cut 0 (.cut 1 (.ref (.cut 2 .leaf .leaf)) (.ref (.cut 2 .leaf .leaf))) (.ref (.cut 1 .leaf .leaf))) (.ref (.cut 0 (.cut 1 .leaf .leaf) (.cut 1 .leaf .leaf)))))
theorem h160 : check par t160 [13631488, 7340032, 7340032, 6291456] [1048576, 1048576, 1048576, 2097152] st = true := by decide +kernel
def t161 : Tree := (.ref (.cut 2 (.ref (.cut 3 (.cut 0 .leaf .leaf) (.cut 0 (.cut 1 (.cut 2 .out .leaf) .leaf) (.cut 1 (.cut 2 .out .leaf) .leaf)))) (.ref (.cut 3 (.cut 0 (.cut 1 .out .leaf) (.cut 1 .out .leaf)) (.cut 0 (.cut 1 .out .leaf) (.cut 1 .out .leaf))))))
theorem h161 : check par t161 [15728640, 5242880, 6291456, 6291456] [1048576, 1048576, 2097152, 2097152] st = true := by decide +kernel
def t162 : Tree := (.ref (.cut 2 (.ref (.cut 3 (.cut 0 (.cut 1 .leaf (.cut 2 .leaf .leaf)) (.cut 1 .leaf .leaf)) (.cut 0 (.cut 1 .leaf .leaf) (.cut 1 .leaf .leaf)))) (.ref (.cut 3 (.cut 0 (.cut 1 .leaf .leaf) (.cut 1 .leaf .leaf)) (.cut 0 .leaf .out)))))
theorem h162 : check par t162 [15728640, 7340032, 6291456, 6291456] [1048576, 1048576, 2097152, 2097152] st = true := by decide +kernel
def t163 : Tree := (.ref (.cut 2 .out (.ref (.cut 3 (.ref (.cut 0 (.ref (.cut 1 .out (.ref (.cut 2 .out .out)))) (.ref (.cut 1 .out (.ref (.cut 2 .out .out)))))) .out))))
theorem h163 : check par t163 [10485760, 2097152, 4194304, 12582912] [2097152, 2097152, 4194304, 4194304] st = true := by decide +kernel
def t164 : Tree := .out
theorem h164 : check par t164 [10485760, 6291456, 2097152, 12582912] [2097152, 2097152, 2097152, 4194304] st = true := by decide +kernel
def t165 : Tree := (.ref (.cut 2 .out (.ref (.cut 3 (.ref (.cut 0 (.cut 1 .out (.ref (.cut 2 .out .out))) (.cut 1 .out (.ref (.cut 2 .out .out))))) .out))))
theorem h165 : check par t165 [9437184, 5242880, 6291456, 10485760] [1048576, 1048576, 2097152, 2097152] st = true := by decide +kernel
def t166 : Tree := (.ref (.cut 2 .out (.ref (.cut 3 (.ref (.cut 0 (.ref (.cut 1 (.ref (.cut 2 .out (.cut 3 .leaf .out))) (.ref (.cut 2 .out (.ref (.cut 3 .leaf .out)))))) (.ref (.cut 1 (.ref (.cut 2 .out (.cut 3 .leaf .out))) (.ref (.cut 2 .out (.ref (.cut 3 .leaf .out)))))))) .out))))
theorem h166 : check par t166 [9437184, 7340032, 6291456, 10485760] [1048576, 1048576, 2097152, 2097152] st = true := by decide +kernel
def t167 : Tree := (.ref (.cut 1 (.ref (.cut 2 .out (.ref (.cut 3 (.ref (.cut 0 (.ref (.cut 1 .out (.ref (.cut 2 .out .out)))) (.ref (.cut 1 .out (.ref (.cut 2 .out .out)))))) .out)))) (.ref (.cut 2 .out (.ref (.cut 3 (.ref (.cut 0 (.ref (.cut 1 (.cut 2 .out (.ref (.cut 3 .leaf .out))) (.cut 2 .out (.cut 3 .leaf .out)))) (.cut 1 (.cut 2 .out .leaf) (.cut 2 .out .out)))) .out))))))
theorem h167 : check par t167 [11534336, 6291456, 6291456, 10485760] [1048576, 2097152, 2097152, 2097152] st = true := by decide +kernel
def t168 : Tree := .out
theorem h168 : check par t168 [10485760, 6291456, 6291456, 14680064] [2097152, 2097152, 2097152, 2097152] st = true := by decide +kernel
def t169 : Tree := (.ref (.cut 2 .out (.ref (.cut 3 (.ref (.cut 0 (.ref (.cut 1 .out (.ref (.cut 2 .out .out)))) (.ref (.cut 1 .out (.ref (.cut 2 .out .out)))))) .out))))
theorem h169 : check par t169 [14680064, 2097152, 4194304, 12582912] [2097152, 2097152, 4194304, 4194304] st = true := by decide +kernel
def t170 : Tree := .out
theorem h170 : check par t170 [14680064, 6291456, 2097152, 12582912] [2097152, 2097152, 2097152, 4194304] st = true := by decide +kernel
def t171 : Tree := (.ref (.cut 1 (.ref (.cut 2 .out (.ref (.cut 3 (.cut 0 (.cut 1 .out (.ref (.cut 2 .out .out))) (.ref (.cut 1 .out (.cut 2 .out .out)))) .out)))) (.ref (.cut 2 .out (.ref (.cut 3 (.cut 0 (.cut 1 (.cut 2 .out .out) .out) .out) .out))))))
theorem h171 : check par t171 [13631488, 6291456, 6291456, 10485760] [1048576, 2097152, 2097152, 2097152] st = true := by decide +kernel
def t172 : Tree := (.ref (.cut 1 (.ref (.cut 2 .out (.ref (.cut 3 (.ref (.cut 0 (.cut 1 .out .out) .out)) .out)))) (.ref (.cut 2 .out .out))))
theorem h172 : check par t172 [15728640, 6291456, 6291456, 10485760] [1048576, 2097152, 2097152, 2097152] st = true := by decide +kernel
def t173 : Tree := .out
theorem h173 : check par t173 [14680064, 6291456, 6291456, 14680064] [2097152, 2097152, 2097152, 2097152] st = true := by decide +kernel
def t174 : Tree := .out
theorem h174 : check par t174 [10485760, 2097152, 12582912, 4194304] [2097152, 2097152, 4194304, 4194304] st = true := by decide +kernel
def t175 : Tree := (.ref (.cut 1 .out (.ref (.cut 2 (.ref (.cut 3 (.ref (.cut 0 (.cut 1 .out .leaf) (.cut 1 .out .leaf))) (.cut 0 (.cut 1 .out .leaf) (.cut 1 .out (.cut 2 .leaf .out))))) .out))))
theorem h175 : check par t175 [9437184, 6291456, 10485760, 2097152] [1048576, 2097152, 2097152, 2097152] st = true := by decide +kernel
def t176 : Tree := (.ref (.cut 1 .out (.ref (.cut 2 (.ref (.cut 3 (.ref (.cut 0 (.cut 1 .out .leaf) .leaf)) (.cut 0 (.ref (.cut 1 .out (.cut 2 .leaf .out))) (.ref (.cut 1 .out .leaf))))) .out))))
theorem h176 : check par t176 [11534336, 6291456, 10485760, 2097152] [1048576, 2097152, 2097152, 2097152] st = true := by decide +kernel
def t177 : Tree := (.ref (.cut 1 .out (.ref (.cut 2 (.ref (.cut 3 (.ref (.cut 0 (.cut 1 .out (.cut 2 (.cut 3 .leaf .leaf) .out)) (.cut 1 .out (.cut 2 .leaf .out)))) (.ref (.cut 0 (.ref (.cut 1 .out (.ref (.cut 2 (.ref (.cut 3 .leaf .leaf)) .out)))) (.ref (.cut 1 .out (.ref (.cut 2 (.cut 3 .leaf .leaf) .out)))))))) .out))))
theorem h177 : check par t177 [9437184, 6291456, 10485760, 6291456] [1048576, 2097152, 2097152, 2097152] st = true := by decide +kernel
def t178 : Tree := (.ref (.cut 1 .out (.ref (.cut 2 (.ref (.cut 3 (.ref (.cut 0 (.ref (.cut 1 .out (.cut 2 .leaf .out))) (.ref (.cut 1 .out (.cut 2 .leaf .out))))) (.ref (.cut 0 (.ref (.cut 1 .out (.cut 2 (.cut 3 .leaf .leaf) .out))) (.cut 1 .out (.cut 2 .leaf .out)))))) .out))))
theorem h178 : check par t178 [11534336, 6291456, 10485760, 6291456] [1048576, 2097152, 2097152, 2097152] st = true := by decide +kernel
def t179 : Tree := .out
theorem h179 : check par t179 [10485760, 6291456, 14680064, 4194304] [2097152, 2097152, 2097152, 4194304] st = true := by decide +kernel
def t180 : Tree := .out
theorem h180 : check par t180 [14680064, 2097152, 12582912, 4194304] [2097152, 2097152, 4194304, 4194304] st = true := by decide +kernel
def t181 : Tree := (.ref (.cut 0 (.ref (.cut 1 .out (.ref (.cut 2 (.ref (.cut 3 (.ref (.cut 0 (.ref (.cut 1 .out .leaf)) (.cut 1 .out .leaf))) (.ref (.cut 0 (.cut 1 .out .leaf) (.cut 1 .out .leaf))))) .out)))) (.ref (.cut 1 .out (.ref (.cut 2 (.ref (.cut 3 (.ref (.cut 0 (.cut 1 .out .leaf) (.cut 1 .out .leaf))) (.ref (.cut 0 (.ref (.cut 1 .out .leaf)) (.cut 1 .out .leaf))))) .out))))))
theorem h181 : check par t181 [14680064, 6291456, 10485760, 2097152] [2097152, 2097152, 2097152, 2097152] st = true := by decide +kernel
def t182 : Tree := (.ref (.cut 0 (.ref (.cut 1 .out (.ref (.cut 2 (.cut 3 (.cut 0 (.cut 1 .out (.ref (.cut 2 .leaf .out))) (.ref (.cut 1 .out (.ref (.cut 2 .leaf .out))))) (.ref (.cut 0 (.cut 1 .out .out) .out))) .out)))) (.ref (.cut 1 .out (.ref (.cut 2 (.ref (.cut 3 (.cut 0 (.cut 1 .out .out) .out) .out)) .out))))))
theorem h182 : check par t182 [14680064, 6291456, 10485760, 6291456] [2097152, 2097152, 2097152, 2097152] st = true := by decide +kernel
def t183 : Tree := .out
theorem h183 : check par t183 [14680064, 6291456, 14680064, 4194304] [2097152, 2097152, 2097152, 4194304] st = true := by decide +kernel
def t184 : Tree := .out
theorem h184 : check par t184 [10485760, 2097152, 12582912, 12582912] [2097152, 2097152, 4194304, 4194304] st = true := by decide +kernel
def t185 : Tree := (.ref (.cut 0 (.ref (.cut 1 .out (.ref (.cut 2 (.ref (.cut 3 (.ref (.cut 0 (.cut 1 .out (.cut 2 (.ref (.cut 3 .leaf .leaf)) .out)) (.ref (.cut 1 .out (.cut 2 (.ref (.cut 3 .leaf .out)) .out))))) (.ref (.cut 0 (.ref (.cut 1 .out .out)) .out)))) .out)))) (.ref (.cut 1 .out (.ref (.cut 2 (.ref (.cut 3 (.ref (.cut 0 (.ref (.cut 1 .out .out)) .out)) .out)) .out))))))
theorem h185 : check par t185 [10485760, 6291456, 10485760, 10485760] [2097152, 2097152, 2097152, 2097152] st = true := by decide +kernel
def t186 : Tree := (.ref (.cut 0 (.ref (.cut 1 .out .out)) .out))
theorem h186 : check par t186 [10485760, 6291456, 10485760, 14680064] [2097152, 2097152, 2097152, 2097152] st = true := by decide +kernel
def t187 : Tree := .out
theorem h187 : check par t187 [10485760, 6291456, 14680064, 12582912] [2097152, 2097152, 2097152, 4194304] st = true := by decide +kernel
def t188 : Tree := (.ref (.cut 1 .out (.ref (.cut 2 (.ref (.cut 3 (.ref (.cut 0 (.ref (.cut 1 .out .out)) .out)) .out)) .out))))
theorem h188 : check par t188 [14680064, 4194304, 12582912, 12582912] [2097152, 4194304, 4194304, 4194304] st = true := by decide +kernel
def t189 : Tree := (.ref (.cut 2 (.ref (.cut 3 (.cut 0 .leaf .leaf) (.cut 0 (.cut 1 .leaf .leaf) (.cut 1 .leaf .leaf)))) (.ref (.cut 3 (.cut 0 (.cut 1 .leaf .leaf) (.cut 1 .leaf .leaf)) (.ref (.cut 0 (.cut 1 .leaf .leaf) (.cut 1 .leaf .leaf)))))))
theorem h189 : check par t189 [9437184, 9437184, 2097152, 2097152] [1048576, 1048576, 2097152, 2097152] st = true := by decide +kernel
def t190 : Tree := (.ref (.cut 2 (.ref (.cut 3 (.ref (.cut 0 .out .leaf)) (.cut 0 .out (.ref (.cut 1 .leaf .out))))) (.ref (.cut 3 (.ref (.cut 0 .out (.ref (.cut 1 .leaf .out)))) (.ref (.cut 0 .out (.ref (.cut 1 .leaf .out))))))))
theorem h190 : check par t190 [9437184, 11534336, 2097152, 2097152] [1048576, 1048576, 2097152, 2097152] st = true := by decide +kernel
def t191 : Tree := (.ref (.cut 2 (.ref (.cut 3 (.ref (.cut 0 .leaf (.cut 1 .leaf .leaf))) (.cut 0 (.ref (.cut 1 .leaf .leaf)) (.cut 1 (.ref (.cut 2 .out .leaf)) .leaf)))) (.ref (.cut 3 (.ref (.cut 0 (.ref (.cut 1 .leaf .leaf)) (.cut 1 (.ref (.cut 2 .leaf .leaf)) .leaf))) (.ref (.cut 0 .leaf (.ref (.cut 1 .leaf .leaf))))))))
theorem h191 : check par t191 [11534336, 9437184, 2097152, 2097152] [1048576, 1048576, 2097152, 2097152] st = true := by decide +kernel
def t192 : Tree := (.ref (.cut 2 (.cut 3 (.cut 0 .leaf .leaf) (.cut 0 (.cut 1 .leaf .leaf) .leaf)) (.cut 3 (.cut 0 (.cut 1 .leaf .leaf) .leaf) (.ref (.cut 0 (.cut 1 .leaf .leaf) (.cut 1 .leaf .leaf))))))
theorem h192 : check par t192 [11534336, 11534336, 2097152, 2097152] [1048576, 1048576, 2097152, 2097152] st = true := by decide +kernel
def t193 : Tree := (.ref (.cut 1 (.ref (.cut 2 .out (.ref (.cut 3 (.ref (.cut 0 (.cut 1 (.cut 2 .out .leaf) .leaf) (.ref (.cut 1 .leaf .leaf)))) .out)))) (.ref (.cut 2 .out (.cut 3 (.ref (.cut 0 .out (.ref (.cut 1 .leaf .out)))) .out)))))
theorem h193 : check par t193 [9437184, 10485760, 2097152, 6291456] [1048576, 2097152, 2097152, 2097152] st = true := by decide +kernel
def t194 : Tree := (.ref (.cut 1 (.ref (.cut 2 .out (.cut 3 (.ref (.cut 0 (.ref (.cut 1 .leaf .leaf)) (.cut 1 .leaf .leaf))) .out))) (.ref (.cut 2 .out (.ref (.cut 3 (.ref (.cut 0 .leaf .leaf)) .out))))))
theorem h194 : check par t194 [11534336, 10485760, 2097152, 6291456] [1048576, 2097152, 2097152, 2097152] st = true := by decide +kernel
def t195 : Tree := (.ref (.cut 3 (.cut 0 (.cut 1 (.cut 2 .leaf .leaf) .leaf) (.cut 1 .leaf (.cut 2 .leaf .leaf))) (.cut 0 (.cut 1 (.cut 2 .leaf .leaf) .leaf) (.ref (.cut 1 .leaf .leaf)))))
theorem h195 : check par t195 [9437184, 9437184, 5242880, 2097152] [1048576, 1048576, 1048576, 2097152] st = true := by decide +kernel
def t196 : Tree := (.ref (.cut 3 (.ref (.cut 0 (.cut 1 .leaf .leaf) (.cut 1 .leaf .leaf))) (.cut 0 (.cut 1 (.cut 2 .leaf .leaf) (.cut 2 .leaf .leaf)) (.cut 1 (.cut 2 .leaf .leaf) (.cut 2 .leaf .leaf)))))
theorem h196 : check par t196 [9437184, 9437184, 7340032, 2097152] [1048576, 1048576, 1048576, 2097152] st = true := by decide +kernel
def t197 : Tree := (.ref (.cut 2 (.ref (.cut 3 (.ref (.cut 0 .out (.cut 1 .leaf .out))) (.cut 0 .out (.ref (.cut 1 .leaf .out))))) (.cut 3 (.ref (.cut 0 .out (.ref (.cut 1 .leaf .out)))) (.cut 0 .out (.ref (.cut 1 (.cut 2 .leaf .leaf) .out))))))
theorem h197 : check par t197 [9437184, 11534336, 6291456, 2097152] [1048576, 1048576, 2097152, 2097152] st = true := by decide +kernel
def t198 : Tree := (.ref (.cut 2 (.ref (.cut 3 (.ref (.cut 0 (.cut 1 .leaf .leaf) (.cut 1 .leaf .leaf))) (.cut 0 (.ref (.cut 1 .leaf .leaf)) (.cut 1 .leaf .leaf)))) (.cut 3 (.ref (.cut 0 (.cut 1 .leaf .leaf) .leaf)) (.cut 0 (.ref (.cut 1 (.ref (.cut 2 .leaf .leaf)) (.ref (.cut 2 .leaf .leaf)))) (.ref (.cut 1 .leaf .leaf))))))
theorem h198 : check par t198 [11534336, 9437184, 6291456, 2097152] [1048576, 1048576, 2097152, 2097152] st = true := by decide +kernel
def t199 : Tree := (.ref (.cut 2 (.ref (.cut 3 (.cut 0 (.ref (.cut 1 .leaf .leaf)) (.ref (.cut 1 .leaf .leaf))) (.ref (.cut 0 .leaf .leaf)))) (.ref (.cut 3 (.ref (.cut 0 (.cut 1 .leaf .leaf) (.cut 1 .leaf .leaf))) (.cut 0 (.cut 1 .leaf .leaf) (.cut 1 .leaf (.cut 2 .leaf .leaf)))))))
theorem h199 : check par t199 [11534336, 11534336, 6291456, 2097152] [1048576, 1048576, 2097152, 2097152] st = true := by decide +kernel
def t200 : Tree := (.ref (.cut 3 (.ref (.cut 0 (.ref (.cut 1 (.ref (.cut 2 .leaf .leaf)) (.ref (.cut 2 .leaf .leaf)))) (.ref (.cut 1 (.cut 2 .leaf .leaf) (.cut 2 .leaf .leaf))))) (.ref (.cut 0 (.cut 1 (.cut 2 .out (.ref (.cut 3 .leaf .out))) (.cut 2 .out (.ref (.cut 3 .leaf .out)))) (.cut 1 (.cut 2 .out (.ref (.cut 3 .leaf .out))) (.cut 2 .out (.ref (.cut 3 .leaf .out))))))))
theorem h200 : check par t200 [9437184, 9437184, 5242880, 6291456] [1048576, 1048576, 1048576, 2097152] st = true := by decide +kernel
end FastNoise.NormCheck.Super4
