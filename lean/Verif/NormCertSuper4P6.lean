import Verif.NormCertSuper4
/-! Generated by tools/normcert/gen.py: a certificate for the checker `Verif.NormCheck`. -/
namespace FastNoise.NormCheck.Super4
open FastNoise.RangeCheck (Tree)
set_option maxRecDepth 1000000
def t201 : Tree := (.ref (.cut 0 (.cut 1 (.cut 2 (.cut 3 .leaf .leaf) (.cut 3 .leaf .leaf)) (.cut 2 (.ref (.cut 3 .leaf .leaf)) .leaf)) (.cut 1 (.cut 2 (.ref (.cut 3 .leaf .leaf)) .leaf) (.cut 2 .leaf (.cut 3 .leaf .leaf)))))
theorem h201 : check par t201 [9437184, 9437184, 7340032, 5242880] [1048576, 1048576, 1048576, 1048576] st = true := by decide +kernel
def t202 : Tree := (.ref (.cut 0 (.ref (.cut 1 (.ref (.cut 2 (.ref (.cut 3 .leaf .leaf)) (.cut 3 .leaf .leaf))) (.ref (.cut 2 (.ref (.cut 3 .leaf .leaf)) (.ref (.cut 3 .leaf .leaf)))))) (.ref (.cut 1 (.cut 2 (.ref (.cut 3 .leaf .leaf)) (.ref (.cut 3 .leaf .leaf))) (.ref (.cut 2 .leaf .leaf))))))
theorem h202 : check par t202 [9437184, 9437184, 7340032, 7340032] [1048576, 1048576, 1048576, 1048576] st = true := by decide +kernel
def t203 : Tree := (.ref (.cut 2 (.ref (.cut 3 (.ref (.cut 0 .out (.ref (.cut 1 .leaf .out)))) (.ref (.cut 0 .out (.ref (.cut 1 (.ref (.cut 2 .out .leaf)) .out)))))) (.ref (.cut 3 (.ref (.cut 0 .out (.ref (.cut 1 (.ref (.cut 2 .leaf .leaf)) .out)))) (.ref (.cut 0 .out (.cut 1 (.ref (.cut 2 (.ref (.cut 3 .leaf .leaf)) (.ref (.cut 3 .leaf .out)))) .out)))))))
theorem h203 : check par t203 [9437184, 11534336, 6291456, 6291456] [1048576, 1048576, 2097152, 2097152] st = true := by decide +kernel
def t204 : Tree := (.ref (.cut 3 (.ref (.cut 0 (.ref (.cut 1 (.cut 2 .leaf .leaf) .leaf)) (.ref (.cut 1 (.cut 2 .leaf .leaf) .leaf)))) (.ref (.cut 0 (.ref (.cut 1 (.cut 2 .out (.ref (.cut 3 .leaf .out))) (.ref (.cut 2 .out .leaf)))) (.ref (.cut 1 (.cut 2 .out .leaf) (.ref (.cut 2 .out .leaf))))))))
theorem h204 : check par t204 [11534336, 9437184, 5242880, 6291456] [1048576, 1048576, 1048576, 2097152] st = true := by decide +kernel
def t205 : Tree := (.ref (.cut 3 (.ref (.cut 0 (.ref (.cut 1 (.cut 2 .leaf .leaf) (.ref (.cut 2 .leaf .leaf)))) (.ref (.cut 1 (.cut 2 .leaf .leaf) (.ref (.cut 2 .leaf .leaf)))))) (.ref (.cut 0 (.ref (.cut 1 (.cut 2 (.cut 3 .leaf .leaf) (.cut 3 .leaf .leaf)) (.cut 2 (.ref (.cut 3 .leaf .leaf)) (.ref (.cut 3 .leaf .out))))) (.cut 1 (.cut 2 .leaf .leaf) (.cut 2 .leaf .out))))))
theorem h205 : check par t205 [11534336, 9437184, 7340032, 6291456] [1048576, 1048576, 1048576, 2097152] st = true := by decide +kernel
def t206 : Tree := (.ref (.cut 3 (.ref (.cut 0 (.cut 1 .leaf .leaf) (.cut 1 .leaf .leaf))) (.ref (.cut 0 (.ref (.cut 1 (.cut 2 .out .leaf) (.ref (.cut 2 .out .leaf)))) (.ref (.cut 1 (.cut 2 .out .leaf) .leaf))))))
theorem h206 : check par t206 [11534336, 11534336, 5242880, 6291456] [1048576, 1048576, 1048576, 2097152] st = true := by decide +kernel
def t207 : Tree := (.ref (.cut 3 (.ref (.cut 0 (.ref (.cut 1 (.cut 2 .leaf .leaf) (.ref (.cut 2 .leaf .leaf)))) (.ref (.cut 1 (.cut 2 .leaf .leaf) .leaf)))) (.ref (.cut 0 (.ref (.cut 1 (.cut 2 .leaf .out) .out)) .out))))
theorem h207 : check par t207 [11534336, 11534336, 7340032, 6291456] [1048576, 1048576, 1048576, 2097152] st = true := by decide +kernel
def t208 : Tree := (.ref (.cut 0 .out (.ref (.cut 1 (.ref (.cut 2 (.ref (.cut 3 (.cut 0 .out (.ref (.cut 1 .leaf .out))) (.ref (.cut 0 .out (.cut 1 .leaf .out))))) (.ref (.cut 3 (.ref (.cut 0 .out (.cut 1 .leaf .out))) (.ref (.cut 0 .out (.cut 1 .leaf .out))))))) .out))))
theorem h208 : check par t208 [10485760, 14680064, 2097152, 2097152] [2097152, 2097152, 2097152, 2097152] st = true := by decide +kernel
def t209 : Tree := (.ref (.cut 0 .out (.ref (.cut 1 (.ref (.cut 2 .out (.ref (.cut 3 (.cut 0 .out (.ref (.cut 1 .leaf .out))) .out)))) .out))))
theorem h209 : check par t209 [10485760, 14680064, 2097152, 6291456] [2097152, 2097152, 2097152, 2097152] st = true := by decide +kernel
def t210 : Tree := (.ref (.cut 0 .out (.ref (.cut 1 (.ref (.cut 2 (.ref (.cut 3 (.ref (.cut 0 .out (.ref (.cut 1 .leaf .out)))) (.ref (.cut 0 .out (.ref (.cut 1 .leaf .out)))))) (.ref (.cut 3 (.ref (.cut 0 .out (.ref (.cut 1 .leaf .out)))) (.ref (.cut 0 .out (.cut 1 .leaf .out))))))) .out))))
theorem h210 : check par t210 [10485760, 14680064, 6291456, 2097152] [2097152, 2097152, 2097152, 2097152] st = true := by decide +kernel
def t211 : Tree := (.ref (.cut 0 .out (.ref (.cut 1 (.ref (.cut 2 (.ref (.cut 3 (.ref (.cut 0 .out .leaf)) (.cut 0 .out .out))) (.ref (.cut 3 (.ref (.cut 0 .out .out)) .out)))) .out))))
theorem h211 : check par t211 [10485760, 14680064, 6291456, 6291456] [2097152, 2097152, 2097152, 2097152] st = true := by decide +kernel
def t212 : Tree := (.ref (.cut 3 (.ref (.cut 0 (.ref (.cut 1 (.cut 2 .leaf .leaf) .leaf)) (.ref (.cut 1 (.cut 2 .leaf .leaf) (.cut 2 .leaf .leaf))))) (.ref (.cut 0 (.ref (.cut 1 (.cut 2 .out .leaf) .leaf)) (.cut 1 (.cut 2 .out .leaf) .leaf)))))
theorem h212 : check par t212 [13631488, 9437184, 1048576, 2097152] [1048576, 1048576, 1048576, 2097152] st = true := by decide +kernel
def t213 : Tree := (.ref (.cut 3 (.ref (.cut 0 (.ref (.cut 1 (.cut 2 .leaf .leaf) .leaf)) (.cut 1 (.cut 2 .leaf .leaf) .leaf))) (.ref (.cut 0 (.ref (.cut 1 .leaf .leaf)) (.ref (.cut 1 (.cut 2 .leaf .leaf) (.cut 2 .leaf .leaf)))))))
theorem h213 : check par t213 [13631488, 9437184, 3145728, 2097152] [1048576, 1048576, 1048576, 2097152] st = true := by decide +kernel
def t214 : Tree := (.ref (.cut 2 (.ref (.cut 3 (.cut 0 (.ref (.cut 1 .leaf .leaf)) (.ref (.cut 1 .leaf .leaf))) (.ref (.cut 0 .leaf (.cut 1 .leaf .leaf))))) (.ref (.cut 3 (.ref (.cut 0 .leaf (.cut 1 .leaf .leaf))) (.ref (.cut 0 (.cut 1 .leaf .leaf) (.cut 1 (.cut 2 .leaf .leaf) (.cut 2 .leaf .leaf))))))))
theorem h214 : check par t214 [13631488, 11534336, 2097152, 2097152] [1048576, 1048576, 2097152, 2097152] st = true := by decide +kernel
def t215 : Tree := (.ref (.cut 0 (.ref (.cut 1 (.cut 2 (.ref (.cut 3 .leaf .leaf)) (.ref (.cut 3 .leaf .leaf))) (.cut 2 (.ref (.cut 3 .leaf .leaf)) (.ref (.cut 3 .leaf .leaf))))) (.ref (.cut 1 (.cut 2 (.cut 3 .leaf .leaf) .leaf) (.cut 2 (.cut 3 .leaf .leaf) (.ref (.cut 3 .leaf .leaf)))))))
theorem h215 : check par t215 [15728640, 9437184, 1048576, 1048576] [1048576, 1048576, 1048576, 1048576] st = true := by decide +kernel
def t216 : Tree := (.ref (.cut 0 (.ref (.cut 1 (.ref (.cut 2 .out (.ref (.cut 3 .leaf .out)))) (.ref (.cut 2 .out .leaf)))) (.ref (.cut 1 (.ref (.cut 2 .out (.ref (.cut 3 .leaf .out)))) (.ref (.cut 2 .out .leaf))))))
theorem h216 : check par t216 [15728640, 9437184, 1048576, 3145728] [1048576, 1048576, 1048576, 1048576] st = true := by decide +kernel
def t217 : Tree := (.ref (.cut 3 (.ref (.cut 0 (.ref (.cut 1 (.ref (.cut 2 .leaf .leaf)) (.ref (.cut 2 .leaf .leaf)))) (.ref (.cut 1 (.ref (.cut 2 .leaf .leaf)) (.ref (.cut 2 .leaf .leaf)))))) (.ref (.cut 0 (.ref (.cut 1 (.ref (.cut 2 .leaf .leaf)) (.ref (.cut 2 .leaf .leaf)))) (.ref (.cut 1 (.ref (.cut 2 .leaf .leaf)) (.ref (.cut 2 .leaf .leaf))))))))
theorem h217 : check par t217 [15728640, 9437184, 3145728, 2097152] [1048576, 1048576, 1048576, 2097152] st = true := by decide +kernel
def t218 : Tree := (.ref (.cut 3 (.ref (.cut 0 (.ref (.cut 1 (.cut 2 .leaf .leaf) (.cut 2 .leaf .leaf))) (.ref (.cut 1 (.ref (.cut 2 .leaf (.ref (.cut 3 .leaf .leaf)))) .leaf)))) (.ref (.cut 0 (.ref (.cut 1 (.cut 2 .out .leaf) .leaf)) (.cut 1 (.ref (.cut 2 .out .leaf)) (.ref (.cut 2 .out .leaf)))))))
theorem h218 : check par t218 [15728640, 11534336, 1048576, 2097152] [1048576, 1048576, 1048576, 2097152] st = true := by decide +kernel
def t219 : Tree := (.ref (.cut 3 (.ref (.cut 0 (.ref (.cut 1 (.cut 2 .leaf .leaf) .leaf)) (.cut 1 (.ref (.cut 2 .leaf .leaf)) (.ref (.cut 2 .leaf .leaf))))) (.ref (.cut 0 (.cut 1 .leaf .leaf) (.cut 1 (.ref (.cut 2 .leaf .leaf)) .leaf)))))
theorem h219 : check par t219 [15728640, 11534336, 3145728, 2097152] [1048576, 1048576, 1048576, 2097152] st = true := by decide +kernel
def t220 : Tree := (.ref (.cut 1 (.ref (.cut 2 .out (.ref (.cut 3 (.cut 0 (.cut 1 .leaf .leaf) (.cut 1 .leaf .leaf)) .out)))) (.ref (.cut 2 .out (.ref (.cut 3 (.cut 0 .leaf (.cut 1 (.cut 2 .out .leaf) .leaf)) .out))))))
theorem h220 : check par t220 [13631488, 10485760, 2097152, 6291456] [1048576, 2097152, 2097152, 2097152] st = true := by decide +kernel
def t221 : Tree := (.ref (.cut 1 (.ref (.cut 2 .out (.ref (.cut 3 (.ref (.cut 0 (.ref (.cut 1 .leaf .leaf)) (.ref (.cut 1 (.cut 2 .out .leaf) (.cut 2 .out .leaf))))) .out)))) (.ref (.cut 2 .out (.ref (.cut 3 (.ref (.cut 0 (.cut 1 (.cut 2 .out .leaf) .leaf) (.cut 1 (.ref (.cut 2 .out .leaf)) (.ref (.cut 2 .out .out))))) .out))))))
theorem h221 : check par t221 [15728640, 10485760, 2097152, 6291456] [1048576, 2097152, 2097152, 2097152] st = true := by decide +kernel
def t222 : Tree := (.ref (.cut 2 (.ref (.cut 3 (.cut 0 (.ref (.cut 1 .leaf .leaf)) (.cut 1 (.cut 2 .leaf .leaf) (.cut 2 .leaf .leaf))) (.ref (.cut 0 (.cut 1 .leaf .leaf) (.cut 1 .leaf .leaf))))) (.ref (.cut 3 (.ref (.cut 0 (.ref (.cut 1 .leaf .leaf)) (.cut 1 .leaf .leaf))) (.ref (.cut 0 (.cut 1 .leaf .leaf) (.cut 1 .leaf .leaf)))))))
theorem h222 : check par t222 [13631488, 9437184, 6291456, 2097152] [1048576, 1048576, 2097152, 2097152] st = true := by decide +kernel
def t223 : Tree := (.ref (.cut 2 (.ref (.cut 3 (.ref (.cut 0 (.ref (.cut 1 (.cut 2 .leaf .leaf) .leaf)) (.cut 1 (.cut 2 .leaf .leaf) .leaf))) (.ref (.cut 0 .leaf (.cut 1 (.cut 2 .leaf .leaf) .leaf))))) (.ref (.cut 3 (.ref (.cut 0 (.ref (.cut 1 .leaf .leaf)) (.ref (.cut 1 .leaf .leaf)))) (.ref (.cut 0 (.cut 1 .leaf .leaf) (.cut 1 .leaf .leaf)))))))
theorem h223 : check par t223 [13631488, 11534336, 6291456, 2097152] [1048576, 1048576, 2097152, 2097152] st = true := by decide +kernel
def t224 : Tree := (.ref (.cut 3 (.cut 0 (.ref (.cut 1 (.cut 2 .leaf .leaf) (.cut 2 .leaf .leaf))) (.ref (.cut 1 (.cut 2 .leaf .leaf) (.cut 2 .leaf .leaf)))) (.ref (.cut 0 (.ref (.cut 1 .leaf .leaf)) (.ref (.cut 1 (.cut 2 .leaf .leaf) (.cut 2 .leaf .leaf)))))))
theorem h224 : check par t224 [15728640, 9437184, 5242880, 2097152] [1048576, 1048576, 1048576, 2097152] st = true := by decide +kernel
def t225 : Tree := (.ref (.cut 3 (.ref (.cut 0 (.cut 1 .leaf .leaf) (.cut 1 .leaf .leaf))) (.ref (.cut 0 (.ref (.cut 1 .leaf .leaf)) (.cut 1 (.cut 2 .leaf .leaf) .leaf)))))
theorem h225 : check par t225 [15728640, 9437184, 7340032, 2097152] [1048576, 1048576, 1048576, 2097152] st = true := by decide +kernel
def t226 : Tree := (.ref (.cut 3 (.cut 0 (.cut 1 (.cut 2 .leaf .leaf) (.ref (.cut 2 .leaf .leaf))) (.cut 1 (.ref (.cut 2 .leaf .leaf)) (.ref (.cut 2 .leaf .leaf)))) (.ref (.cut 0 (.cut 1 (.cut 2 .leaf .leaf) .leaf) (.cut 1 (.ref (.cut 2 .leaf .leaf)) (.ref (.cut 2 .leaf .out)))))))
theorem h226 : check par t226 [15728640, 11534336, 5242880, 2097152] [1048576, 1048576, 1048576, 2097152] st = true := by decide +kernel
def t227 : Tree := (.ref (.cut 3 (.cut 0 (.ref (.cut 1 (.cut 2 .leaf .leaf) (.ref (.cut 2 .leaf .leaf)))) (.ref (.cut 1 .leaf (.cut 2 .leaf .out)))) (.ref (.cut 0 (.ref (.cut 1 .leaf .out)) .out))))
theorem h227 : check par t227 [15728640, 11534336, 7340032, 2097152] [1048576, 1048576, 1048576, 2097152] st = true := by decide +kernel
def t228 : Tree := (.ref (.cut 3 (.ref (.cut 0 (.cut 1 (.cut 2 .leaf .leaf) (.cut 2 .leaf .leaf)) (.cut 1 .leaf (.cut 2 .leaf .leaf)))) (.cut 0 (.cut 1 (.cut 2 .out .leaf) .leaf) (.ref (.cut 1 (.ref (.cut 2 .out .leaf)) .leaf)))))
theorem h228 : check par t228 [13631488, 9437184, 5242880, 6291456] [1048576, 1048576, 1048576, 2097152] st = true := by decide +kernel
def t229 : Tree := (.ref (.cut 3 (.cut 0 (.cut 1 (.cut 2 .leaf .leaf) .leaf) (.ref (.cut 1 (.ref (.cut 2 .leaf .leaf)) .leaf))) (.ref (.cut 0 (.cut 1 (.cut 2 .leaf .out) .out) .out))))
theorem h229 : check par t229 [13631488, 9437184, 7340032, 6291456] [1048576, 1048576, 1048576, 2097152] st = true := by decide +kernel
def t230 : Tree := (.ref (.cut 2 (.ref (.cut 3 (.ref (.cut 0 .leaf .leaf)) (.cut 0 (.cut 1 .leaf .out) .out))) (.ref (.cut 3 (.ref (.cut 0 (.cut 1 .leaf .out) .out)) .out))))
theorem h230 : check par t230 [13631488, 11534336, 6291456, 6291456] [1048576, 1048576, 2097152, 2097152] st = true := by decide +kernel
def t231 : Tree := (.ref (.cut 1 (.ref (.cut 2 (.ref (.cut 3 (.ref (.cut 0 (.cut 1 .leaf (.cut 2 .leaf .leaf)) (.cut 1 .leaf (.cut 2 .leaf .out)))) (.ref (.cut 0 (.cut 1 (.cut 2 .out .out) .out) .out)))) (.ref (.cut 3 (.cut 0 (.cut 1 (.cut 2 .leaf .out) .out) .out) .out)))) (.cut 2 (.ref (.cut 3 (.cut 0 (.ref (.cut 1 .leaf .out)) .out) .out)) .out)))
theorem h231 : check par t231 [15728640, 10485760, 6291456, 6291456] [1048576, 2097152, 2097152, 2097152] st = true := by decide +kernel
end FastNoise.NormCheck.Super4
