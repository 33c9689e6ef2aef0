import Verif.NormCertSimplex4
/-! Generated by tools/normcert/gen.py: a certificate for the checker `Verif.NormCheck`. -/
namespace FastNoise.NormCheck.Simplex4
open FastNoise.RangeCheck (Tree)
set_option maxRecDepth 1000000
def t155 : Tree := (.ref (.cut 3 (.cut 0 (.cut 1 (.cut 2 .leaf .leaf) .leaf) (.cut 1 .leaf .leaf)) (.ref (.cut 0 (.cut 1 (.cut 2 .out .leaf) (.cut 2 .out (.cut 3 .leaf .out))) (.cut 1 (.cut 2 .out .leaf) .leaf)))))
theorem h155 : check par t155 [11534336, 7340032, 5242880, 6291456] [1048576, 1048576, 1048576, 2097152] st = true := by decide +kernel
def t156 : Tree := (.ref (.cut 3 (.cut 0 (.cut 1 (.cut 2 (.cut 3 .leaf .leaf) .leaf) (.cut 2 .leaf (.cut 3 .leaf .leaf))) (.cut 1 (.cut 2 .leaf .leaf) .leaf)) (.cut 0 (.ref (.cut 1 (.cut 2 .leaf (.cut 3 .leaf .leaf)) (.cut 2 (.cut 3 .leaf .leaf) (.cut 3 .leaf .leaf)))) (.cut 1 (.ref (.cut 2 .leaf .leaf)) (.cut 2 (.cut 3 .leaf .leaf) .leaf)))))
theorem h156 : check par t156 [11534336, 7340032, 7340032, 6291456] [1048576, 1048576, 1048576, 2097152] st = true := by decide +kernel
def t157 : Tree := (.ref (.cut 3 (.ref (.cut 0 (.cut 1 (.ref (.cut 2 (.cut 3 .leaf .leaf) (.cut 3 .leaf .leaf))) (.cut 2 (.cut 3 .leaf (.cut 0 .leaf .leaf)) (.cut 3 (.cut 0 .leaf .leaf) .leaf))) (.cut 1 (.ref (.cut 2 (.cut 3 .leaf .leaf) (.cut 3 .leaf .leaf))) (.cut 2 (.cut 3 .leaf .leaf) (.cut 3 .leaf .leaf))))) (.ref (.cut 0 (.cut 1 (.cut 2 .out (.cut 3 .leaf .out)) (.cut 2 .out (.cut 3 .leaf .out))) .leaf))))
theorem h157 : check par t157 [13631488, 1048576, 1048576, 2097152] [1048576, 1048576, 1048576, 2097152] st = true := by decide +kernel
def t158 : Tree := (.ref (.cut 3 (.ref (.cut 0 (.cut 1 .out (.cut 2 .leaf .out)) .leaf)) (.ref (.cut 0 (.cut 1 .out (.cut 2 (.cut 3 .leaf .leaf) .out)) (.cut 1 .out (.cut 2 .leaf .out))))))
theorem h158 : check par t158 [13631488, 1048576, 3145728, 2097152] [1048576, 1048576, 1048576, 2097152] st = true := by decide +kernel
def t159 : Tree := (.ref (.cut 3 (.ref (.cut 0 (.cut 1 (.cut 2 .leaf .leaf) (.cut 2 (.cut 3 .leaf .leaf) (.cut 3 .leaf .leaf))) (.cut 1 .leaf .leaf))) (.cut 0 (.cut 1 (.cut 2 .out (.cut 3 .leaf .out)) (.cut 2 .out (.cut 3 .leaf .out))) (.cut 1 (.ref (.cut 2 .out (.cut 3 .leaf .out))) (.cut 2 .out .leaf)))))
theorem h159 : check par t159 [13631488, 3145728, 1048576, 2097152] [1048576, 1048576, 1048576, 2097152] st = true := by decide +kernel
def t160 : Tree := (.ref (.cut 0 (.cut 1 (.ref (.cut 2 (.ref (.cut 3 .leaf .leaf)) (.cut 3 .leaf .leaf))) (.cut 2 (.ref (.cut 3 .leaf .leaf)) (.cut 3 .leaf .leaf))) (.cut 1 (.ref (.cut 2 .leaf (.cut 3 .leaf .leaf))) (.cut 2 .leaf (.ref (.cut 3 (.cut 0 .leaf .leaf) .leaf))))))
theorem h160 : check par t160 [13631488, 3145728, 3145728, 1048576] [1048576, 1048576, 1048576, 1048576] st = true := by decide +kernel
def t161 : Tree := (.ref (.cut 0 (.cut 1 (.cut 2 (.ref (.cut 3 .leaf .leaf)) .leaf) (.cut 2 (.cut 3 .leaf .leaf) .leaf)) (.cut 1 (.cut 2 (.cut 3 .leaf .leaf) (.ref (.cut 3 .leaf .leaf))) (.cut 2 (.cut 3 .leaf .leaf) (.cut 3 .leaf .leaf)))))
theorem h161 : check par t161 [13631488, 3145728, 3145728, 3145728] [1048576, 1048576, 1048576, 1048576] st = true := by decide +kernel
def t162 : Tree := (.ref (.cut 3 (.cut 0 (.cut 1 (.ref (.cut 2 .leaf .leaf)) (.cut 2 .leaf (.cut 3 .leaf .leaf))) (.cut 1 .leaf (.cut 2 .leaf .leaf))) (.ref (.cut 0 (.cut 1 (.cut 2 .out .leaf) .leaf) (.cut 1 (.cut 2 .out (.cut 3 .leaf .out)) (.cut 2 .out (.cut 3 .leaf .out)))))))
theorem h162 : check par t162 [15728640, 1048576, 1048576, 2097152] [1048576, 1048576, 1048576, 2097152] st = true := by decide +kernel
def t163 : Tree := (.ref (.cut 3 (.ref (.cut 0 (.cut 1 .out .leaf) (.cut 1 .out (.cut 2 .leaf .out)))) (.ref (.cut 0 .leaf (.cut 1 .out (.cut 2 .leaf .out))))))
theorem h163 : check par t163 [15728640, 1048576, 3145728, 2097152] [1048576, 1048576, 1048576, 2097152] st = true := by decide +kernel
def t164 : Tree := (.ref (.cut 2 (.ref (.cut 3 (.cut 0 (.cut 1 .leaf .leaf) (.cut 1 .leaf .leaf)) (.cut 0 .leaf (.cut 1 (.cut 2 .out (.cut 3 .leaf .out)) .leaf)))) (.cut 3 (.ref (.cut 0 (.cut 1 (.ref (.cut 2 .leaf .leaf)) (.cut 2 .leaf (.cut 3 .leaf .leaf))) (.ref (.cut 1 (.cut 2 .leaf (.cut 3 .leaf .leaf)) .leaf)))) (.ref (.cut 0 (.cut 1 (.cut 2 .leaf .leaf) (.cut 2 .leaf (.cut 3 .leaf .leaf))) (.ref (.cut 1 .leaf .leaf)))))))
theorem h164 : check par t164 [15728640, 3145728, 2097152, 2097152] [1048576, 1048576, 2097152, 2097152] st = true := by decide +kernel
def t165 : Tree := (.ref (.cut 1 (.ref (.cut 2 .out (.cut 3 (.cut 0 (.cut 1 .out .leaf) (.cut 1 .out (.cut 2 .out .out))) .out))) (.cut 2 .out (.cut 3 (.cut 0 (.cut 1 .leaf (.cut 2 .out .leaf)) (.cut 1 (.ref (.cut 2 .out .leaf)) (.cut 2 .out .leaf))) .out))))
theorem h165 : check par t165 [13631488, 2097152, 2097152, 6291456] [1048576, 2097152, 2097152, 2097152] st = true := by decide +kernel
def t166 : Tree := (.ref (.cut 1 (.ref (.cut 2 .out (.cut 3 (.cut 0 (.cut 1 .out (.cut 2 .out .out)) (.ref (.cut 1 .out .leaf))) .out))) (.cut 2 .out (.cut 3 (.cut 0 (.cut 1 (.ref (.cut 2 .out (.cut 3 .leaf .out))) (.cut 2 .out .leaf)) (.cut 1 (.ref (.cut 2 .out (.cut 3 .leaf .out))) (.cut 2 .out (.ref (.cut 3 .leaf .out))))) .out))))
theorem h166 : check par t166 [15728640, 2097152, 2097152, 6291456] [1048576, 2097152, 2097152, 2097152] st = true := by decide +kernel
def t167 : Tree := (.ref (.cut 1 .out (.cut 2 (.cut 3 (.cut 0 (.cut 1 .out (.cut 2 .leaf .out)) (.cut 1 .out (.cut 2 (.cut 3 .leaf .leaf) .out))) (.cut 0 (.cut 1 .out (.cut 2 .leaf .out)) (.cut 1 .out (.cut 2 (.ref (.cut 3 .leaf .leaf)) .out)))) .out)))
theorem h167 : check par t167 [13631488, 2097152, 6291456, 2097152] [1048576, 2097152, 2097152, 2097152] st = true := by decide +kernel
def t168 : Tree := (.ref (.cut 1 .out (.cut 2 (.cut 3 (.cut 0 (.cut 1 .out (.cut 2 (.ref (.cut 3 .leaf (.cut 0 .leaf .leaf))) .out)) (.ref (.cut 1 .out (.cut 2 (.cut 3 .leaf .leaf) .out)))) (.cut 0 (.cut 1 .out (.cut 2 (.ref (.cut 3 .leaf .leaf)) .out)) (.ref (.cut 1 .out (.cut 2 (.cut 3 .leaf .leaf) .out))))) .out)))
theorem h168 : check par t168 [15728640, 2097152, 6291456, 2097152] [1048576, 2097152, 2097152, 2097152] st = true := by decide +kernel
def t169 : Tree := (.ref (.cut 0 (.cut 1 .out (.cut 2 (.ref (.cut 3 (.cut 0 .leaf .leaf) .leaf)) .out)) (.cut 1 .out (.cut 2 (.ref (.cut 3 (.cut 0 (.cut 1 .out .leaf) (.cut 1 .out (.cut 2 .leaf .out))) (.cut 0 .leaf .leaf))) .out))))
theorem h169 : check par t169 [14680064, 2097152, 6291456, 6291456] [2097152, 2097152, 2097152, 2097152] st = true := by decide +kernel
def t170 : Tree := (.ref (.cut 3 (.cut 0 (.cut 1 (.ref (.cut 2 .leaf .leaf)) (.cut 2 .leaf (.cut 3 .leaf .leaf))) (.ref (.cut 1 (.ref (.cut 2 (.cut 3 .leaf .leaf) (.cut 3 .leaf .leaf))) (.ref (.cut 2 (.cut 3 .leaf .leaf) (.cut 3 .leaf .leaf)))))) (.ref (.cut 0 (.cut 1 (.cut 2 .out .leaf) (.cut 2 .out .leaf)) (.cut 1 (.cut 2 .out (.cut 3 .leaf .out)) (.cut 2 .out .leaf))))))
theorem h170 : check par t170 [13631488, 5242880, 1048576, 2097152] [1048576, 1048576, 1048576, 2097152] st = true := by decide +kernel
def t171 : Tree := (.ref (.cut 3 (.cut 0 (.cut 1 (.cut 2 (.cut 3 .leaf .leaf) .leaf) (.cut 2 .leaf .leaf)) (.cut 1 (.cut 2 (.ref (.cut 3 (.cut 0 .leaf .leaf) .leaf)) (.cut 3 .leaf .leaf)) (.cut 2 (.cut 3 .leaf .leaf) .leaf))) (.cut 0 (.cut 1 .leaf (.cut 2 .leaf .leaf)) (.cut 1 (.ref (.cut 2 .leaf .leaf)) (.cut 2 .leaf (.cut 3 .leaf .leaf))))))
theorem h171 : check par t171 [13631488, 5242880, 3145728, 2097152] [1048576, 1048576, 1048576, 2097152] st = true := by decide +kernel
def t172 : Tree := (.ref (.cut 3 (.cut 0 (.cut 1 (.cut 2 .leaf (.cut 3 .leaf .leaf)) (.cut 2 .leaf .leaf)) (.ref (.cut 1 (.cut 2 (.ref (.cut 3 .leaf .leaf)) (.cut 3 .leaf .leaf)) (.cut 2 (.ref (.cut 3 .leaf .leaf)) (.cut 3 .leaf .leaf))))) (.ref (.cut 0 (.cut 1 .leaf .leaf) (.cut 1 (.cut 2 .out .leaf) (.cut 2 .out .leaf))))))
theorem h172 : check par t172 [13631488, 7340032, 1048576, 2097152] [1048576, 1048576, 1048576, 2097152] st = true := by decide +kernel
def t173 : Tree := (.ref (.cut 3 (.cut 0 (.cut 1 .leaf .leaf) (.cut 1 (.cut 2 (.cut 3 .leaf .leaf) .leaf) (.cut 2 .leaf .leaf))) (.cut 0 (.cut 1 (.cut 2 .leaf .leaf) .leaf) (.cut 1 (.cut 2 .leaf .leaf) (.cut 2 .leaf .leaf)))))
theorem h173 : check par t173 [13631488, 7340032, 3145728, 2097152] [1048576, 1048576, 1048576, 2097152] st = true := by decide +kernel
def t174 : Tree := (.ref (.cut 1 (.cut 2 (.cut 3 .leaf .leaf) .leaf) (.cut 2 (.cut 3 (.cut 0 .leaf (.cut 1 .leaf .leaf)) (.cut 0 .leaf .leaf)) (.cut 3 (.cut 0 .leaf .leaf) .leaf))))
theorem h174 : check par t174 [15204352, 5242880, 1048576, 1048576] [524288, 1048576, 1048576, 1048576] st = true := by decide +kernel
def t175 : Tree := (.ref (.cut 1 (.cut 2 (.cut 3 (.cut 0 .leaf .leaf) .leaf) .leaf) (.cut 2 (.cut 3 (.cut 0 (.cut 1 .leaf (.ref (.cut 2 .leaf .leaf))) (.ref (.cut 1 .leaf (.cut 2 .leaf .leaf)))) (.cut 0 .leaf .leaf)) (.cut 3 (.cut 0 .leaf .leaf) .leaf))))
theorem h175 : check par t175 [16252928, 5242880, 1048576, 1048576] [524288, 1048576, 1048576, 1048576] st = true := by decide +kernel
def t176 : Tree := (.ref (.cut 0 (.cut 1 (.ref (.cut 2 .out .leaf)) (.cut 2 .out (.cut 3 .leaf .out))) (.ref (.cut 1 .leaf (.cut 2 .out (.cut 3 .leaf .out))))))
theorem h176 : check par t176 [15728640, 5242880, 1048576, 3145728] [1048576, 1048576, 1048576, 1048576] st = true := by decide +kernel
def t177 : Tree := (.ref (.cut 0 (.cut 1 (.ref (.cut 2 .leaf (.cut 3 .leaf (.cut 0 .leaf .leaf)))) (.cut 2 (.ref (.cut 3 (.cut 0 .leaf .leaf) .leaf)) (.cut 3 .leaf .leaf))) (.ref (.cut 1 (.cut 2 .leaf (.cut 3 .leaf .leaf)) (.cut 2 (.cut 3 (.cut 0 (.cut 1 .leaf .leaf) .leaf) .leaf) (.cut 3 .leaf .leaf))))))
theorem h177 : check par t177 [15728640, 5242880, 3145728, 1048576] [1048576, 1048576, 1048576, 1048576] st = true := by decide +kernel
def t178 : Tree := (.ref (.cut 0 (.cut 1 (.ref (.cut 2 (.cut 3 .leaf .leaf) .leaf)) (.cut 2 (.ref (.cut 3 .leaf .leaf)) (.cut 3 .leaf .leaf))) (.ref (.cut 1 (.cut 2 .leaf (.cut 3 .leaf .leaf)) (.cut 2 (.cut 3 .leaf .leaf) (.cut 3 .leaf .leaf))))))
theorem h178 : check par t178 [15728640, 5242880, 3145728, 3145728] [1048576, 1048576, 1048576, 1048576] st = true := by decide +kernel
def t179 : Tree := (.ref (.cut 1 (.cut 2 (.ref (.cut 3 (.cut 0 .leaf (.cut 1 .leaf .leaf)) (.cut 0 .leaf .leaf))) (.cut 3 (.ref (.cut 0 .leaf .leaf)) .leaf)) (.cut 2 (.ref (.cut 3 (.cut 0 .leaf (.cut 1 .leaf (.cut 2 .leaf .leaf))) .leaf)) (.cut 3 (.cut 0 .leaf .leaf) .leaf))))
theorem h179 : check par t179 [15204352, 7340032, 1048576, 1048576] [524288, 1048576, 1048576, 1048576] st = true := by decide +kernel
def t180 : Tree := (.ref (.cut 2 (.cut 3 (.ref (.cut 0 (.cut 1 (.cut 2 .leaf .leaf) (.cut 2 (.cut 3 .leaf .leaf) .leaf)) (.cut 1 (.cut 2 (.cut 3 .leaf .leaf) .leaf) (.cut 2 (.cut 3 (.cut 0 .leaf .leaf) .leaf) (.cut 3 .leaf .leaf))))) (.cut 0 (.cut 1 .leaf .leaf) (.ref (.cut 1 .leaf .leaf)))) (.cut 3 (.cut 0 (.cut 1 .leaf .leaf) (.ref (.cut 1 .leaf .leaf))) (.cut 0 .leaf (.cut 1 .leaf .leaf)))))
theorem h180 : check par t180 [16252928, 6815744, 1048576, 1048576] [524288, 524288, 1048576, 1048576] st = true := by decide +kernel
def t181 : Tree := (.ref (.cut 3 (.ref (.cut 0 (.cut 1 (.cut 2 (.cut 3 .leaf .leaf) .leaf) (.cut 2 (.cut 3 .leaf .leaf) .leaf)) (.cut 1 (.cut 2 (.cut 3 (.cut 0 .leaf .leaf) .leaf) (.cut 3 .leaf .leaf)) (.cut 2 (.cut 3 (.cut 0 .leaf .leaf) .leaf) (.cut 3 .leaf .leaf))))) (.cut 0 (.cut 1 .leaf .leaf) (.ref (.cut 1 .leaf .leaf)))))
theorem h181 : check par t181 [16252928, 7864320, 524288, 1048576] [524288, 524288, 524288, 1048576] st = true := by decide +kernel
def t182 : Tree := (.ref (.cut 3 (.cut 0 (.cut 1 .leaf .leaf) (.ref (.cut 1 .leaf .leaf))) (.ref (.cut 0 .leaf (.ref (.cut 1 .leaf .leaf))))))
theorem h182 : check par t182 [16252928, 7864320, 1572864, 1048576] [524288, 524288, 524288, 1048576] st = true := by decide +kernel
def t183 : Tree := (.ref (.cut 0 (.cut 1 (.cut 2 .out (.cut 3 .leaf .out)) (.cut 2 .out (.cut 3 .leaf .out))) (.ref (.cut 1 (.cut 2 .out (.cut 3 .leaf .out)) (.cut 2 .out (.cut 3 .leaf .out))))))
theorem h183 : check par t183 [15728640, 7340032, 1048576, 3145728] [1048576, 1048576, 1048576, 1048576] st = true := by decide +kernel
def t184 : Tree := (.ref (.cut 0 (.cut 1 (.cut 2 (.ref (.cut 3 .leaf .leaf)) (.cut 3 .leaf .leaf)) (.cut 2 .leaf .leaf)) (.ref (.cut 1 (.cut 2 (.cut 3 (.cut 0 .leaf (.ref (.cut 1 .leaf .leaf))) (.cut 0 (.cut 1 .leaf .leaf) .leaf)) .leaf) (.cut 2 (.cut 3 (.cut 0 .leaf .leaf) (.cut 0 .leaf .leaf)) .leaf)))))
theorem h184 : check par t184 [15728640, 7340032, 3145728, 1048576] [1048576, 1048576, 1048576, 1048576] st = true := by decide +kernel
def t185 : Tree := (.ref (.cut 0 (.cut 1 (.cut 2 .leaf .leaf) (.cut 2 (.cut 3 .leaf .leaf) .leaf)) (.cut 1 (.cut 2 (.ref (.cut 3 .leaf .leaf)) (.cut 3 .leaf .leaf)) (.cut 2 (.ref (.cut 3 .leaf .leaf)) (.cut 3 .leaf .leaf)))))
theorem h185 : check par t185 [15728640, 7340032, 3145728, 3145728] [1048576, 1048576, 1048576, 1048576] st = true := by decide +kernel
def t186 : Tree := (.ref (.cut 1 (.ref (.cut 2 .out (.cut 3 (.cut 0 (.cut 1 .leaf .leaf) (.cut 1 .leaf .leaf)) .out))) (.cut 2 .out (.cut 3 (.cut 0 (.cut 1 .leaf .leaf) .leaf) .out))))
theorem h186 : check par t186 [13631488, 6291456, 2097152, 6291456] [1048576, 2097152, 2097152, 2097152] st = true := by decide +kernel
def t187 : Tree := (.ref (.cut 1 (.ref (.cut 2 .out (.cut 3 (.cut 0 (.cut 1 (.cut 2 .out .leaf) .leaf) (.cut 1 (.cut 2 .out (.cut 3 .leaf .out)) (.cut 2 .out .leaf))) .out))) (.cut 2 .out (.cut 3 (.ref (.cut 0 (.cut 1 .leaf .leaf) (.cut 1 .leaf .leaf))) .out))))
theorem h187 : check par t187 [15728640, 6291456, 2097152, 6291456] [1048576, 2097152, 2097152, 2097152] st = true := by decide +kernel
def t188 : Tree := (.ref (.cut 2 (.cut 3 (.cut 0 (.cut 1 .leaf .leaf) (.cut 1 (.cut 2 .leaf .leaf) .leaf)) (.cut 0 (.cut 1 (.cut 2 .leaf .leaf) .leaf) (.cut 1 (.cut 2 (.cut 3 .leaf .leaf) .leaf) .leaf))) (.cut 3 (.cut 0 (.cut 1 .out .leaf) (.cut 1 .out .leaf)) (.cut 0 (.cut 1 .out .leaf) (.cut 1 .out .leaf)))))
theorem h188 : check par t188 [13631488, 5242880, 6291456, 2097152] [1048576, 1048576, 2097152, 2097152] st = true := by decide +kernel
def t189 : Tree := (.ref (.cut 2 (.cut 3 (.cut 0 (.cut 1 .leaf .leaf) (.cut 1 .leaf .leaf)) (.cut 0 .leaf (.cut 1 .leaf .leaf))) (.cut 3 (.cut 0 .leaf .leaf) (.cut 0 .leaf .leaf))))
theorem h189 : check par t189 [13631488, 7340032, 6291456, 2097152] [1048576, 1048576, 2097152, 2097152] st = true := by decide +kernel
def t190 : Tree := (.ref (.cut 3 (.cut 0 (.cut 1 (.cut 2 (.cut 3 .leaf .leaf) .leaf) (.cut 2 .leaf .leaf)) (.cut 1 (.ref (.cut 2 (.cut 3 .leaf .leaf) .leaf)) (.cut 2 .leaf (.cut 3 .leaf .leaf)))) (.cut 0 (.cut 1 (.cut 2 (.cut 3 .leaf .leaf) .leaf) (.cut 2 .leaf .leaf)) (.cut 1 (.cut 2 .leaf (.cut 3 .leaf .leaf)) (.cut 2 (.cut 3 .leaf .leaf) .leaf)))))
theorem h190 : check par t190 [15728640, 5242880, 5242880, 2097152] [1048576, 1048576, 1048576, 2097152] st = true := by decide +kernel
def t191 : Tree := (.ref (.cut 3 (.cut 0 (.cut 1 .out .leaf) (.cut 1 .out .leaf)) (.cut 0 (.cut 1 .out .leaf) (.cut 1 .out .leaf))))
theorem h191 : check par t191 [15728640, 5242880, 7340032, 2097152] [1048576, 1048576, 1048576, 2097152] st = true := by decide +kernel
def t192 : Tree := (.ref (.cut 2 (.cut 3 (.cut 0 (.cut 1 (.cut 2 .leaf .leaf) .leaf) (.cut 1 (.cut 2 (.cut 3 .leaf .leaf) .leaf) (.cut 2 .leaf .leaf))) (.cut 0 (.cut 1 .leaf .leaf) (.cut 1 .leaf .leaf))) (.cut 3 (.cut 0 .leaf (.cut 1 .leaf .leaf)) (.cut 0 .leaf (.cut 1 .leaf .leaf)))))
theorem h192 : check par t192 [15728640, 7340032, 6291456, 2097152] [1048576, 1048576, 2097152, 2097152] st = true := by decide +kernel
def t193 : Tree := (.ref (.cut 2 (.cut 3 (.cut 0 (.cut 1 (.ref (.cut 2 .leaf .leaf)) (.cut 2 .leaf .leaf)) (.cut 1 (.ref (.cut 2 .leaf .leaf)) (.cut 2 .leaf .leaf))) (.ref (.cut 0 (.cut 1 .leaf .leaf) (.cut 1 .leaf .leaf)))) (.cut 3 (.cut 0 (.cut 1 .out .leaf) (.cut 1 .out (.cut 2 .leaf .out))) .leaf)))
theorem h193 : check par t193 [13631488, 5242880, 6291456, 6291456] [1048576, 1048576, 2097152, 2097152] st = true := by decide +kernel
def t194 : Tree := (.ref (.cut 2 (.cut 3 (.cut 0 .leaf (.cut 1 .leaf .leaf)) (.ref (.cut 0 .leaf .leaf))) (.cut 3 (.cut 0 .leaf .leaf) (.cut 0 (.cut 1 .leaf (.cut 2 .leaf .leaf)) (.cut 1 (.cut 2 .leaf .leaf) .leaf)))))
theorem h194 : check par t194 [13631488, 7340032, 6291456, 6291456] [1048576, 1048576, 2097152, 2097152] st = true := by decide +kernel
def t195 : Tree := (.ref (.cut 2 (.cut 3 (.cut 0 (.cut 1 (.ref (.cut 2 .leaf .leaf)) (.cut 2 .leaf (.cut 3 .leaf .leaf))) (.cut 1 (.ref (.cut 2 (.cut 3 .leaf .leaf) .leaf)) (.ref (.cut 2 .leaf .leaf)))) (.ref (.cut 0 (.cut 1 .leaf .leaf) (.cut 1 .leaf (.cut 2 .out .leaf))))) (.cut 3 (.cut 0 (.cut 1 .out (.cut 2 .leaf .out)) (.cut 1 .out (.cut 2 .leaf .out))) .leaf)))
theorem h195 : check par t195 [15728640, 5242880, 6291456, 6291456] [1048576, 1048576, 2097152, 2097152] st = true := by decide +kernel
def t196 : Tree := (.ref (.cut 2 (.cut 3 (.cut 0 (.cut 1 (.cut 2 .leaf .leaf) .leaf) (.cut 1 (.cut 2 .leaf .leaf) (.cut 2 .leaf .leaf))) (.ref (.cut 0 .leaf .leaf))) (.cut 3 (.cut 0 .leaf .leaf) (.cut 0 (.cut 1 (.cut 2 .leaf .out) .out) .out))))
theorem h196 : check par t196 [15728640, 7340032, 6291456, 6291456] [1048576, 1048576, 2097152, 2097152] st = true := by decide +kernel
def t197 : Tree := (.ref (.cut 2 .out (.ref (.cut 3 (.cut 0 (.cut 1 .out (.cut 2 .out .out)) (.cut 1 .out (.cut 2 .out .out))) .out))))
theorem h197 : check par t197 [10485760, 2097152, 4194304, 12582912] [2097152, 2097152, 4194304, 4194304] st = true := by decide +kernel
def t198 : Tree := .out
theorem h198 : check par t198 [10485760, 6291456, 2097152, 12582912] [2097152, 2097152, 2097152, 4194304] st = true := by decide +kernel
def t199 : Tree := (.ref (.cut 2 .out (.cut 3 (.cut 0 (.cut 1 .out (.cut 2 .out .out)) (.cut 1 .out .leaf)) .out)))
theorem h199 : check par t199 [9437184, 5242880, 6291456, 10485760] [1048576, 1048576, 2097152, 2097152] st = true := by decide +kernel
def t200 : Tree := (.ref (.cut 2 .out (.cut 3 (.cut 0 (.cut 1 (.cut 2 .out (.ref (.cut 3 (.cut 0 .leaf .leaf) .out))) (.ref (.cut 2 .out (.cut 3 (.cut 0 (.cut 1 (.cut 2 .out (.cut 3 .leaf .out)) (.cut 2 .out (.cut 3 .leaf .out))) (.cut 1 .leaf (.cut 2 .out (.cut 3 .leaf .out)))) .out)))) (.cut 1 (.cut 2 .out (.cut 3 .leaf .out)) (.cut 2 .out (.cut 3 (.cut 0 .leaf .leaf) .out)))) .out)))
theorem h200 : check par t200 [9437184, 7340032, 6291456, 10485760] [1048576, 1048576, 2097152, 2097152] st = true := by decide +kernel
end FastNoise.NormCheck.Simplex4
