import Verif.NormCertSimplex4
/-! Generated by tools/normcert/gen.py: a certificate for the checker `Verif.NormCheck`. -/
namespace FastNoise.NormCheck.Simplex4
open FastNoise.RangeCheck (Tree)
set_option maxRecDepth 1000000
def t201 : Tree := (.ref (.cut 1 (.ref (.cut 2 .out (.cut 3 (.cut 0 .leaf .leaf) .out))) (.cut 2 .out (.ref (.cut 3 (.cut 0 (.cut 1 .leaf (.cut 2 .out .leaf)) (.cut 1 .leaf .leaf)) .out)))))
theorem h201 : check par t201 [11534336, 6291456, 6291456, 10485760] [1048576, 2097152, 2097152, 2097152] st = true := by decide +kernel
def t202 : Tree := .out
theorem h202 : check par t202 [10485760, 6291456, 6291456, 14680064] [2097152, 2097152, 2097152, 2097152] st = true := by decide +kernel
def t203 : Tree := (.ref (.cut 1 (.ref (.cut 2 .out (.ref (.cut 3 (.cut 0 (.cut 1 .out (.cut 2 .out .out)) (.cut 1 .out (.cut 2 .out .out))) .out)))) (.cut 2 .out (.cut 3 (.cut 0 (.cut 1 (.ref (.cut 2 .out (.cut 3 .leaf .out))) (.ref (.cut 2 .out (.cut 3 (.ref (.cut 0 .leaf .out)) .out)))) (.cut 1 (.ref (.cut 2 .out (.cut 3 .leaf .out))) (.ref (.cut 2 .out .out)))) .out))))
theorem h203 : check par t203 [14680064, 4194304, 4194304, 12582912] [2097152, 4194304, 4194304, 4194304] st = true := by decide +kernel
def t204 : Tree := .out
theorem h204 : check par t204 [10485760, 2097152, 12582912, 4194304] [2097152, 2097152, 4194304, 4194304] st = true := by decide +kernel
def t205 : Tree := (.ref (.cut 0 (.cut 1 .out (.cut 2 (.cut 3 (.cut 0 .leaf (.cut 1 .out .leaf)) (.ref (.cut 0 (.cut 1 .out .leaf) .leaf))) .out)) (.cut 1 .out (.cut 2 (.cut 3 (.cut 0 (.cut 1 .out .leaf) (.cut 1 .out .leaf)) (.cut 0 (.cut 1 .out (.cut 2 .leaf .out)) (.cut 1 .out .leaf))) .out))))
theorem h205 : check par t205 [10485760, 6291456, 10485760, 2097152] [2097152, 2097152, 2097152, 2097152] st = true := by decide +kernel
def t206 : Tree := .out
theorem h206 : check par t206 [9437184, 5242880, 10485760, 6291456] [1048576, 1048576, 2097152, 2097152] st = true := by decide +kernel
def t207 : Tree := (.ref (.cut 0 (.cut 1 .out (.cut 2 (.cut 3 .leaf .leaf) .out)) (.cut 1 .out (.cut 2 .leaf .out))))
theorem h207 : check par t207 [9437184, 7340032, 9437184, 5242880] [1048576, 1048576, 1048576, 1048576] st = true := by decide +kernel
def t208 : Tree := (.ref (.cut 0 (.cut 1 .out (.ref (.cut 2 (.cut 3 (.cut 0 (.cut 1 .out (.cut 2 .leaf .out)) .leaf) (.ref (.cut 0 (.cut 1 .out (.cut 2 (.cut 3 .leaf .leaf) .out)) (.cut 1 .out (.cut 2 (.cut 3 .leaf .leaf) .out))))) .out))) (.cut 1 .out (.cut 2 (.cut 3 .leaf (.ref (.cut 0 .leaf .leaf))) .out))))
theorem h208 : check par t208 [9437184, 7340032, 9437184, 7340032] [1048576, 1048576, 1048576, 1048576] st = true := by decide +kernel
def t209 : Tree := .out
theorem h209 : check par t209 [9437184, 7340032, 11534336, 6291456] [1048576, 1048576, 1048576, 2097152] st = true := by decide +kernel
def t210 : Tree := (.ref (.cut 1 .out (.cut 2 (.cut 3 (.cut 0 (.ref (.cut 1 .out .leaf)) (.cut 1 .out .leaf)) (.ref (.cut 0 (.cut 1 .out (.cut 2 (.cut 3 .leaf .leaf) .out)) (.cut 1 .out .leaf)))) .out)))
theorem h210 : check par t210 [11534336, 6291456, 10485760, 6291456] [1048576, 2097152, 2097152, 2097152] st = true := by decide +kernel
def t211 : Tree := .out
theorem h211 : check par t211 [10485760, 6291456, 14680064, 4194304] [2097152, 2097152, 2097152, 4194304] st = true := by decide +kernel
def t212 : Tree := .out
theorem h212 : check par t212 [14680064, 2097152, 12582912, 4194304] [2097152, 2097152, 4194304, 4194304] st = true := by decide +kernel
def t213 : Tree := (.ref (.cut 0 (.cut 1 .out (.cut 2 (.cut 3 (.cut 0 .leaf .leaf) (.cut 0 .leaf .leaf)) .out)) (.cut 1 .out (.cut 2 (.cut 3 .leaf (.cut 0 .leaf .leaf)) .out))))
theorem h213 : check par t213 [14680064, 6291456, 10485760, 2097152] [2097152, 2097152, 2097152, 2097152] st = true := by decide +kernel
def t214 : Tree := (.ref (.cut 0 (.cut 1 .out (.cut 2 (.cut 3 (.cut 0 (.cut 1 .out (.cut 2 .leaf .out)) (.cut 1 .out .leaf)) (.ref (.cut 0 .leaf .out))) .out)) (.cut 1 .out (.cut 2 (.cut 3 (.cut 0 (.cut 1 .out .out) .out) .out) .out))))
theorem h214 : check par t214 [14680064, 6291456, 10485760, 6291456] [2097152, 2097152, 2097152, 2097152] st = true := by decide +kernel
def t215 : Tree := .out
theorem h215 : check par t215 [14680064, 6291456, 14680064, 4194304] [2097152, 2097152, 2097152, 4194304] st = true := by decide +kernel
def t216 : Tree := .out
theorem h216 : check par t216 [10485760, 2097152, 12582912, 12582912] [2097152, 2097152, 4194304, 4194304] st = true := by decide +kernel
def t217 : Tree := (.ref (.cut 1 .out (.cut 2 (.ref (.cut 3 (.cut 0 (.ref (.cut 1 .out (.cut 2 (.cut 3 (.cut 0 (.cut 1 .out (.cut 2 (.cut 3 .leaf .leaf) .out)) (.cut 1 .out (.cut 2 .leaf .out))) (.cut 0 (.cut 1 .out .out) .out)) .out))) (.cut 1 .out (.cut 2 (.cut 3 (.cut 0 .leaf .out) .out) .out))) (.ref (.cut 0 (.cut 1 .out .out) .out)))) .out)))
theorem h217 : check par t217 [9437184, 6291456, 10485760, 10485760] [1048576, 2097152, 2097152, 2097152] st = true := by decide +kernel
def t218 : Tree := (.ref (.cut 1 .out (.cut 2 (.cut 3 (.cut 0 (.ref (.cut 1 .out .out)) .out) .out) .out)))
theorem h218 : check par t218 [11534336, 6291456, 10485760, 10485760] [1048576, 2097152, 2097152, 2097152] st = true := by decide +kernel
def t219 : Tree := (.ref (.cut 0 (.ref (.cut 1 .out .out)) .out))
theorem h219 : check par t219 [10485760, 6291456, 10485760, 14680064] [2097152, 2097152, 2097152, 2097152] st = true := by decide +kernel
def t220 : Tree := .out
theorem h220 : check par t220 [10485760, 6291456, 14680064, 12582912] [2097152, 2097152, 2097152, 4194304] st = true := by decide +kernel
def t221 : Tree := (.ref (.cut 1 .out (.cut 2 (.cut 3 (.cut 0 (.ref (.cut 1 .out .out)) .out) .out) .out)))
theorem h221 : check par t221 [14680064, 4194304, 12582912, 12582912] [2097152, 4194304, 4194304, 4194304] st = true := by decide +kernel
def t222 : Tree := (.ref (.cut 1 (.cut 2 (.cut 3 (.cut 0 .leaf .leaf) (.cut 0 .leaf (.cut 1 .leaf .leaf))) (.cut 3 .leaf (.cut 0 .leaf .leaf))) (.cut 2 (.cut 3 (.cut 0 .out (.cut 1 .leaf .out)) (.cut 0 .out (.cut 1 .leaf .out))) (.cut 3 (.cut 0 .out .leaf) .leaf))))
theorem h222 : check par t222 [9437184, 10485760, 2097152, 2097152] [1048576, 2097152, 2097152, 2097152] st = true := by decide +kernel
def t223 : Tree := (.ref (.cut 2 (.cut 3 (.cut 0 (.cut 1 .leaf .leaf) (.cut 1 (.cut 2 .leaf .leaf) (.cut 2 .leaf .leaf))) (.cut 0 (.cut 1 .leaf .leaf) (.cut 1 .leaf (.cut 2 .out .leaf)))) (.cut 3 (.cut 0 .leaf .leaf) (.cut 0 .leaf .leaf))))
theorem h223 : check par t223 [11534336, 9437184, 2097152, 2097152] [1048576, 1048576, 2097152, 2097152] st = true := by decide +kernel
def t224 : Tree := (.ref (.cut 3 (.cut 0 (.cut 1 (.cut 2 (.cut 3 .leaf .leaf) .leaf) (.cut 2 .leaf .leaf)) (.cut 1 (.cut 2 .leaf .leaf) (.cut 2 (.ref (.cut 3 .leaf .leaf)) (.cut 3 .leaf .leaf)))) (.cut 0 (.cut 1 (.cut 2 .out .leaf) (.cut 2 .out .leaf)) (.cut 1 (.cut 2 .out .leaf) (.cut 2 .out .leaf)))))
theorem h224 : check par t224 [11534336, 11534336, 1048576, 2097152] [1048576, 1048576, 1048576, 2097152] st = true := by decide +kernel
def t225 : Tree := (.ref (.cut 3 (.cut 0 (.cut 1 .leaf .leaf) (.cut 1 .leaf (.cut 2 .leaf .leaf))) (.cut 0 .leaf (.cut 1 .leaf .leaf))))
theorem h225 : check par t225 [11534336, 11534336, 3145728, 2097152] [1048576, 1048576, 1048576, 2097152] st = true := by decide +kernel
def t226 : Tree := (.ref (.cut 0 (.cut 1 (.cut 2 .out (.cut 3 (.cut 0 (.cut 1 .leaf (.cut 2 .out .leaf)) (.cut 1 (.cut 2 .out .leaf) (.cut 2 .out .leaf))) .out)) (.cut 2 .out (.cut 3 (.cut 0 .out .leaf) .out))) (.cut 1 (.cut 2 .out (.cut 3 (.cut 0 (.cut 1 (.cut 2 .out .leaf) .leaf) (.cut 1 .leaf .leaf)) .out)) (.cut 2 .out (.cut 3 (.cut 0 .leaf .leaf) .out)))))
theorem h226 : check par t226 [10485760, 10485760, 2097152, 6291456] [2097152, 2097152, 2097152, 2097152] st = true := by decide +kernel
def t227 : Tree := (.ref (.cut 1 (.cut 2 (.cut 3 (.cut 0 .leaf .leaf) (.cut 0 (.cut 1 .leaf .leaf) .leaf)) (.cut 3 .leaf (.cut 0 (.cut 1 .leaf .leaf) .leaf))) (.cut 2 (.cut 3 (.cut 0 .out .leaf) (.cut 0 .out .leaf)) (.cut 3 (.cut 0 .out (.cut 1 .leaf .out)) (.cut 0 .out .leaf)))))
theorem h227 : check par t227 [9437184, 10485760, 6291456, 2097152] [1048576, 2097152, 2097152, 2097152] st = true := by decide +kernel
def t228 : Tree := (.ref (.cut 1 (.cut 2 (.cut 3 .leaf (.cut 0 .leaf .leaf)) (.cut 3 (.cut 0 .leaf .leaf) (.cut 0 .leaf .leaf))) (.cut 2 (.cut 3 (.cut 0 .leaf (.cut 1 .leaf .leaf)) .leaf) (.cut 3 (.cut 0 .leaf (.cut 1 .leaf .leaf)) .leaf))))
theorem h228 : check par t228 [11534336, 10485760, 6291456, 2097152] [1048576, 2097152, 2097152, 2097152] st = true := by decide +kernel
def t229 : Tree := (.ref (.cut 3 (.cut 0 (.cut 1 (.cut 2 .leaf (.cut 3 .leaf .leaf)) (.cut 2 .leaf .leaf)) (.cut 1 (.cut 2 .leaf .leaf) .leaf)) (.cut 0 (.ref (.cut 1 (.cut 2 .out (.ref (.cut 3 .leaf .out))) (.cut 2 .out (.ref (.cut 3 .leaf .out))))) (.cut 1 (.ref (.cut 2 .out (.cut 3 .leaf .out))) (.cut 2 .out (.cut 3 .leaf .out))))))
theorem h229 : check par t229 [9437184, 9437184, 5242880, 6291456] [1048576, 1048576, 1048576, 2097152] st = true := by decide +kernel
def t230 : Tree := (.ref (.cut 0 (.cut 1 (.cut 2 (.cut 3 .leaf .leaf) (.ref (.cut 3 .leaf .leaf))) (.cut 2 (.cut 3 .leaf .leaf) (.ref (.cut 3 .leaf .leaf)))) (.cut 1 (.cut 2 .leaf (.cut 3 .leaf .leaf)) (.cut 2 .leaf .leaf))))
theorem h230 : check par t230 [9437184, 9437184, 7340032, 5242880] [1048576, 1048576, 1048576, 1048576] st = true := by decide +kernel
def t231 : Tree := (.ref (.cut 2 (.ref (.cut 3 (.cut 0 .leaf .leaf) (.ref (.cut 0 .leaf .leaf)))) (.ref (.cut 3 (.cut 0 (.cut 1 (.cut 2 .leaf .leaf) .leaf) .leaf) (.ref (.cut 0 (.cut 1 (.cut 2 (.cut 3 .leaf .leaf) (.cut 3 .leaf .leaf)) (.cut 2 .leaf (.cut 3 .leaf .leaf))) (.cut 1 (.cut 2 .leaf (.cut 3 .leaf .leaf)) (.cut 2 .leaf .leaf))))))))
theorem h231 : check par t231 [8912896, 8912896, 7340032, 7340032] [524288, 524288, 1048576, 1048576] st = true := by decide +kernel
def t232 : Tree := (.ref (.cut 2 (.cut 3 .leaf .leaf) (.ref (.cut 3 .leaf (.ref (.cut 0 .out (.cut 1 .leaf .out)))))))
theorem h232 : check par t232 [8912896, 9961472, 7340032, 7340032] [524288, 524288, 1048576, 1048576] st = true := by decide +kernel
def t233 : Tree := (.ref (.cut 1 (.cut 2 (.cut 3 .leaf .leaf) (.ref (.cut 3 .leaf (.ref (.cut 0 .leaf .leaf))))) (.cut 2 (.cut 3 .leaf .leaf) (.cut 3 .leaf (.ref (.cut 0 (.cut 1 .leaf .out) .out))))))
theorem h233 : check par t233 [9961472, 9437184, 7340032, 7340032] [524288, 1048576, 1048576, 1048576] st = true := by decide +kernel
def t234 : Tree := (.ref (.cut 2 (.cut 3 (.cut 0 .out .leaf) (.cut 0 .out (.cut 1 (.cut 2 .out (.cut 3 .leaf .out)) .out))) (.cut 3 (.cut 0 .out (.cut 1 (.cut 2 .leaf .leaf) .out)) (.cut 0 .out (.cut 1 (.cut 2 (.ref (.cut 3 .leaf .leaf)) (.ref (.cut 3 .leaf .out))) .out)))))
theorem h234 : check par t234 [9437184, 11534336, 6291456, 6291456] [1048576, 1048576, 2097152, 2097152] st = true := by decide +kernel
def t235 : Tree := (.ref (.cut 3 (.cut 0 (.cut 1 .leaf .leaf) .leaf) (.cut 0 (.cut 1 .leaf (.cut 2 .out .leaf)) (.cut 1 (.cut 2 .out .leaf) (.cut 2 .out .leaf)))))
theorem h235 : check par t235 [11534336, 9437184, 5242880, 6291456] [1048576, 1048576, 1048576, 2097152] st = true := by decide +kernel
def t236 : Tree := (.ref (.cut 3 (.cut 0 (.cut 1 .leaf .leaf) (.cut 1 .leaf .leaf)) (.cut 0 (.cut 1 (.cut 2 (.cut 3 .leaf .leaf) (.ref (.cut 3 .leaf .leaf))) (.cut 2 (.cut 3 .leaf .leaf) (.cut 3 .leaf .out))) (.cut 1 (.cut 2 .leaf (.cut 3 .leaf .out)) (.cut 2 .leaf .out)))))
theorem h236 : check par t236 [11534336, 9437184, 7340032, 6291456] [1048576, 1048576, 1048576, 2097152] st = true := by decide +kernel
def t237 : Tree := (.ref (.cut 2 (.cut 3 (.cut 0 .leaf .leaf) (.cut 0 (.cut 1 (.cut 2 .out .leaf) (.cut 2 .out .leaf)) (.cut 1 .leaf .leaf))) (.cut 3 (.cut 0 (.cut 1 .leaf .leaf) .leaf) (.cut 0 (.cut 1 (.cut 2 .leaf .out) .out) .out))))
theorem h237 : check par t237 [11534336, 11534336, 6291456, 6291456] [1048576, 1048576, 2097152, 2097152] st = true := by decide +kernel
def t238 : Tree := (.ref (.cut 0 .out (.cut 1 (.cut 2 (.cut 3 (.cut 0 .out (.cut 1 (.ref (.cut 2 (.cut 3 .leaf .leaf) .leaf)) .out)) (.cut 0 .out (.cut 1 (.cut 2 .out .leaf) .out))) (.cut 3 (.cut 0 .out (.cut 1 (.cut 2 (.cut 3 .leaf .leaf) .leaf) .out)) (.cut 0 .out (.cut 1 .leaf .out)))) .out)))
theorem h238 : check par t238 [10485760, 14680064, 2097152, 2097152] [2097152, 2097152, 2097152, 2097152] st = true := by decide +kernel
def t239 : Tree := (.ref (.cut 0 .out (.cut 1 (.cut 2 .out (.cut 3 (.cut 0 .out (.cut 1 .leaf .out)) .out)) .out)))
theorem h239 : check par t239 [10485760, 14680064, 2097152, 6291456] [2097152, 2097152, 2097152, 2097152] st = true := by decide +kernel
def t240 : Tree := (.ref (.cut 3 (.cut 0 .out (.cut 1 (.cut 2 (.cut 3 (.cut 0 .out (.cut 1 .leaf .out)) (.cut 0 .out (.cut 1 .leaf .out))) (.cut 3 (.cut 0 .out (.cut 1 (.cut 2 .leaf .leaf) .out)) (.cut 0 .out (.cut 1 .leaf .out)))) .out)) (.cut 0 .out (.cut 1 (.cut 2 (.cut 3 (.cut 0 .out .leaf) (.cut 0 .out .out)) (.cut 3 (.cut 0 .out .out) .out)) .out))))
theorem h240 : check par t240 [10485760, 14680064, 6291456, 4194304] [2097152, 2097152, 2097152, 4194304] st = true := by decide +kernel
def t241 : Tree := (.ref (.cut 3 (.cut 0 (.cut 1 (.cut 2 (.ref (.cut 3 .leaf .leaf)) .leaf) (.cut 2 (.ref (.cut 3 .leaf .leaf)) (.cut 3 .leaf .leaf))) (.ref (.cut 1 (.cut 2 (.ref (.cut 3 .leaf .leaf)) .leaf) (.cut 2 (.cut 3 (.cut 0 .leaf .leaf) .leaf) (.cut 3 .leaf .leaf))))) (.cut 0 (.cut 1 .leaf (.cut 2 .out .leaf)) (.cut 1 .leaf (.cut 2 .out (.cut 3 .leaf .out))))))
theorem h241 : check par t241 [13631488, 9437184, 1048576, 2097152] [1048576, 1048576, 1048576, 2097152] st = true := by decide +kernel
def t242 : Tree := (.ref (.cut 3 (.cut 0 (.cut 1 .leaf .leaf) (.cut 1 (.cut 2 .leaf .leaf) (.cut 2 .leaf .leaf))) (.cut 0 .leaf (.cut 1 .leaf .leaf))))
theorem h242 : check par t242 [13631488, 9437184, 3145728, 2097152] [1048576, 1048576, 1048576, 2097152] st = true := by decide +kernel
def t243 : Tree := (.ref (.cut 0 (.cut 1 (.cut 2 (.ref (.cut 3 .leaf .leaf)) (.cut 3 .leaf .leaf)) (.ref (.cut 2 (.cut 3 .leaf .leaf) (.cut 3 .leaf .leaf)))) (.ref (.cut 1 (.cut 2 (.cut 3 (.cut 0 .leaf (.cut 1 .leaf .leaf)) .leaf) (.cut 3 .leaf .leaf)) (.cut 2 (.cut 3 .leaf (.ref (.cut 0 .leaf .leaf))) (.cut 3 (.cut 0 .leaf .leaf) .leaf))))))
theorem h243 : check par t243 [13631488, 11534336, 1048576, 1048576] [1048576, 1048576, 1048576, 1048576] st = true := by decide +kernel
def t244 : Tree := (.ref (.cut 0 (.cut 1 (.cut 2 .out .leaf) (.cut 2 .out .leaf)) (.cut 1 (.cut 2 .out (.cut 3 .leaf .out)) (.cut 2 .out (.cut 3 .leaf .out)))))
theorem h244 : check par t244 [13631488, 11534336, 1048576, 3145728] [1048576, 1048576, 1048576, 1048576] st = true := by decide +kernel
def t245 : Tree := (.ref (.cut 3 (.cut 0 (.cut 1 (.cut 2 .leaf .leaf) (.cut 2 (.cut 3 .leaf .leaf) .leaf)) (.cut 1 (.cut 2 (.cut 3 .leaf .leaf) .leaf) (.cut 2 (.cut 3 .leaf .leaf) (.cut 3 .leaf .leaf)))) (.cut 0 (.cut 1 .leaf .leaf) (.cut 1 .leaf (.cut 2 .leaf .leaf)))))
theorem h245 : check par t245 [13631488, 11534336, 3145728, 2097152] [1048576, 1048576, 1048576, 2097152] st = true := by decide +kernel
def t246 : Tree := (.ref (.cut 1 (.cut 2 (.ref (.cut 3 (.cut 0 .leaf (.ref (.cut 1 .leaf .leaf))) .leaf)) (.cut 3 (.cut 0 .leaf .leaf) .leaf)) (.cut 2 (.ref (.cut 3 (.cut 0 (.cut 1 .leaf .leaf) (.ref (.cut 1 .leaf .leaf))) (.cut 0 .leaf .leaf))) (.cut 3 (.cut 0 .leaf .leaf) (.cut 0 .leaf .leaf)))))
theorem h246 : check par t246 [15204352, 9437184, 1048576, 1048576] [524288, 1048576, 1048576, 1048576] st = true := by decide +kernel
def t247 : Tree := (.ref (.cut 3 (.cut 0 (.cut 1 (.cut 2 (.cut 3 .leaf .leaf) .leaf) (.cut 2 (.cut 3 .leaf .leaf) .leaf)) (.cut 1 (.cut 2 (.cut 3 (.cut 0 .leaf .leaf) .leaf) (.cut 3 .leaf .leaf)) (.cut 2 (.cut 3 (.cut 0 .leaf .leaf) .leaf) (.cut 3 .leaf .leaf)))) (.cut 0 .leaf (.cut 1 .leaf .leaf))))
theorem h247 : check par t247 [16252928, 8912896, 524288, 1048576] [524288, 524288, 524288, 1048576] st = true := by decide +kernel
def t248 : Tree := (.ref (.cut 3 (.ref (.cut 0 (.cut 1 .leaf .leaf) (.cut 1 .leaf (.cut 2 .leaf .leaf)))) (.ref (.cut 0 .leaf (.ref (.cut 1 .leaf .leaf))))))
theorem h248 : check par t248 [16252928, 8912896, 1572864, 1048576] [524288, 524288, 524288, 1048576] st = true := by decide +kernel
def t249 : Tree := (.ref (.cut 3 (.cut 0 (.cut 1 (.cut 2 (.cut 3 .leaf .leaf) .leaf) (.cut 2 .leaf .leaf)) (.cut 1 (.cut 2 (.cut 3 (.cut 0 .leaf .leaf) .leaf) (.cut 3 .leaf .leaf)) (.cut 2 (.cut 3 .leaf .leaf) (.cut 3 .leaf .leaf)))) (.cut 0 (.cut 1 .leaf .leaf) (.cut 1 .leaf .leaf))))
theorem h249 : check par t249 [16252928, 9961472, 524288, 1048576] [524288, 524288, 524288, 1048576] st = true := by decide +kernel
def t250 : Tree := (.ref (.cut 3 (.cut 0 (.cut 1 .leaf .leaf) (.cut 1 (.cut 2 .leaf .leaf) (.cut 2 .leaf .leaf))) (.cut 0 (.cut 1 .leaf .leaf) (.ref (.cut 1 .leaf .leaf)))))
theorem h250 : check par t250 [16252928, 9961472, 1572864, 1048576] [524288, 524288, 524288, 1048576] st = true := by decide +kernel
def t251 : Tree := (.ref (.cut 0 (.cut 1 (.ref (.cut 2 .out .leaf)) (.ref (.cut 2 .out (.cut 3 .leaf .out)))) (.ref (.cut 1 (.ref (.cut 2 .out (.cut 3 .leaf .out))) (.ref (.cut 2 .out (.cut 3 .leaf .out)))))))
theorem h251 : check par t251 [15728640, 9437184, 1048576, 3145728] [1048576, 1048576, 1048576, 1048576] st = true := by decide +kernel
def t252 : Tree := (.ref (.cut 3 (.cut 0 (.cut 1 (.cut 2 .leaf .leaf) (.cut 2 .leaf .leaf)) (.cut 1 (.ref (.cut 2 (.cut 3 .leaf .leaf) .leaf)) (.ref (.cut 2 (.cut 3 .leaf .leaf) .leaf)))) (.cut 0 (.cut 1 (.cut 2 .leaf .leaf) (.cut 2 .leaf .leaf)) (.cut 1 (.cut 2 (.cut 3 .leaf .leaf) .leaf) (.cut 2 (.cut 3 .leaf .leaf) .leaf)))))
theorem h252 : check par t252 [15728640, 9437184, 3145728, 2097152] [1048576, 1048576, 1048576, 2097152] st = true := by decide +kernel
def t253 : Tree := (.ref (.cut 1 (.cut 2 (.ref (.cut 3 (.ref (.cut 0 .leaf .leaf)) (.cut 0 .leaf .leaf))) (.cut 3 (.cut 0 .leaf .leaf) (.cut 0 .leaf .leaf))) (.cut 2 (.ref (.cut 3 .leaf .leaf)) (.cut 3 .leaf .leaf))))
theorem h253 : check par t253 [15204352, 11534336, 1048576, 1048576] [524288, 1048576, 1048576, 1048576] st = true := by decide +kernel
def t254 : Tree := (.ref (.cut 2 (.ref (.cut 3 (.cut 0 (.cut 1 .leaf .leaf) (.cut 1 (.cut 2 .leaf .leaf) .leaf)) (.cut 0 (.cut 1 .leaf .leaf) (.cut 1 .leaf .leaf)))) (.cut 3 (.cut 0 (.cut 1 .leaf .leaf) (.cut 1 .leaf .leaf)) (.cut 0 (.cut 1 .leaf .leaf) (.cut 1 .leaf (.cut 2 .leaf .leaf))))))
theorem h254 : check par t254 [16252928, 11010048, 1048576, 1048576] [524288, 524288, 1048576, 1048576] st = true := by decide +kernel
def t255 : Tree := (.ref (.cut 2 (.ref (.cut 3 (.cut 0 .leaf (.cut 1 .leaf .leaf)) .leaf)) (.cut 3 .leaf (.cut 0 .leaf (.cut 1 .leaf .leaf)))))
theorem h255 : check par t255 [16252928, 12058624, 1048576, 1048576] [524288, 524288, 1048576, 1048576] st = true := by decide +kernel
def t256 : Tree := (.ref (.cut 0 (.cut 1 (.cut 2 .out (.cut 3 .leaf .out)) (.cut 2 .out (.cut 3 (.ref (.cut 0 .leaf .leaf)) .out))) (.cut 1 (.ref (.cut 2 .out (.cut 3 .leaf .out))) (.ref (.cut 2 .out (.cut 3 .leaf .out))))))
theorem h256 : check par t256 [15728640, 11534336, 1048576, 3145728] [1048576, 1048576, 1048576, 1048576] st = true := by decide +kernel
def t257 : Tree := (.ref (.cut 0 (.cut 1 (.cut 2 (.ref (.cut 3 .leaf .leaf)) (.cut 3 .leaf .leaf)) (.cut 2 (.ref (.cut 3 .leaf (.cut 0 .leaf .leaf))) (.cut 3 .leaf .leaf))) (.cut 1 (.ref (.cut 2 (.ref (.cut 3 .leaf .leaf)) (.cut 3 .leaf .leaf))) (.ref (.cut 2 (.cut 3 .leaf .leaf) (.cut 3 .leaf .leaf))))))
theorem h257 : check par t257 [15728640, 11534336, 3145728, 1048576] [1048576, 1048576, 1048576, 1048576] st = true := by decide +kernel
end FastNoise.NormCheck.Simplex4
