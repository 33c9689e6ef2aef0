import Verif.NormCertSuper4
/-! Generated by tools/normcert/gen.py: a certificate for the checker `Verif.NormCheck`. -/
namespace FastNoise.NormCheck.Super4
open FastNoise.RangeCheck (Tree)
set_option maxRecDepth 1000000
def t232 : Tree := (.ref (.cut 2 (.ref (.cut 3 (.cut 0 (.cut 1 .leaf .leaf) (.cut 1 .leaf .leaf)) (.ref (.cut 0 .leaf .leaf)))) (.ref (.cut 3 (.ref (.cut 0 .leaf .leaf)) (.ref (.cut 0 (.ref (.cut 1 .leaf .leaf)) .leaf))))))
theorem h232 : check par t232 [13631488, 13631488, 2097152, 2097152] [1048576, 1048576, 2097152, 2097152] st = true := by decide +kernel
def t233 : Tree := (.ref (.cut 2 (.ref (.cut 3 (.ref (.cut 0 .out (.ref (.cut 1 .leaf .out)))) (.ref (.cut 0 .out (.ref (.cut 1 .leaf .out)))))) (.ref (.cut 3 (.cut 0 .out (.ref (.cut 1 .leaf .out))) (.ref (.cut 0 .out .leaf))))))
theorem h233 : check par t233 [13631488, 15728640, 2097152, 2097152] [1048576, 1048576, 2097152, 2097152] st = true := by decide +kernel
def t234 : Tree := (.ref (.cut 2 (.ref (.cut 3 (.ref (.cut 0 .leaf (.cut 1 .leaf .leaf))) (.ref (.cut 0 (.ref (.cut 1 .leaf .leaf)) (.ref (.cut 1 .leaf .leaf)))))) (.ref (.cut 3 (.cut 0 (.ref (.cut 1 .leaf .leaf)) (.ref (.cut 1 .leaf .leaf))) (.ref (.cut 0 .leaf .leaf))))))
theorem h234 : check par t234 [15728640, 13631488, 2097152, 2097152] [1048576, 1048576, 2097152, 2097152] st = true := by decide +kernel
def t235 : Tree := (.ref (.cut 2 (.ref (.cut 3 (.ref (.cut 0 (.ref (.cut 1 .leaf .leaf)) (.cut 1 .leaf .leaf))) (.ref (.cut 0 (.cut 1 .leaf .leaf) (.ref (.cut 1 .leaf .leaf)))))) (.ref (.cut 3 (.ref (.cut 0 (.cut 1 .leaf .leaf) (.ref (.cut 1 .leaf .leaf)))) (.ref (.cut 0 .leaf .out))))))
theorem h235 : check par t235 [15728640, 15728640, 2097152, 2097152] [1048576, 1048576, 2097152, 2097152] st = true := by decide +kernel
def t236 : Tree := (.ref (.cut 0 (.ref (.cut 1 (.ref (.cut 2 .out (.ref (.cut 3 (.ref (.cut 0 (.ref (.cut 1 .leaf .leaf)) (.cut 1 .leaf .leaf))) .out)))) (.ref (.cut 2 .out (.ref (.cut 3 (.ref (.cut 0 .out .out)) .out)))))) (.ref (.cut 1 (.ref (.cut 2 .out (.ref (.cut 3 (.ref (.cut 0 (.cut 1 .leaf .out) .out)) .out)))) (.ref (.cut 2 .out .out))))))
theorem h236 : check par t236 [14680064, 14680064, 2097152, 6291456] [2097152, 2097152, 2097152, 2097152] st = true := by decide +kernel
def t237 : Tree := (.ref (.cut 2 (.ref (.cut 3 (.ref (.cut 0 (.cut 1 .leaf .leaf) (.cut 1 .leaf (.cut 2 .leaf .leaf)))) (.ref (.cut 0 (.ref (.cut 1 .leaf .leaf)) (.cut 1 .leaf .leaf))))) (.ref (.cut 3 (.cut 0 (.ref (.cut 1 .leaf .leaf)) (.ref (.cut 1 .leaf (.ref (.cut 2 .leaf .out))))) (.cut 0 (.ref (.cut 1 .leaf .out)) .out)))))
theorem h237 : check par t237 [13631488, 13631488, 6291456, 2097152] [1048576, 1048576, 2097152, 2097152] st = true := by decide +kernel
def t238 : Tree := (.ref (.cut 2 (.ref (.cut 3 (.cut 0 .out (.ref (.cut 1 (.ref (.cut 2 .leaf .leaf)) .out))) (.ref (.cut 0 .out .out)))) (.cut 3 (.ref (.cut 0 .out .out)) .out)))
theorem h238 : check par t238 [13631488, 15728640, 6291456, 2097152] [1048576, 1048576, 2097152, 2097152] st = true := by decide +kernel
def t239 : Tree := (.ref (.cut 2 (.ref (.cut 3 (.cut 0 (.ref (.cut 1 (.ref (.cut 2 .leaf .leaf)) (.cut 2 .leaf .leaf))) (.cut 1 (.ref (.cut 2 .leaf .leaf)) (.ref (.cut 2 .leaf .out)))) (.ref (.cut 0 (.cut 1 .leaf .out) .out)))) (.cut 3 (.ref (.cut 0 (.ref (.cut 1 (.ref (.cut 2 .leaf .out)) .out)) .out)) .out)))
theorem h239 : check par t239 [15728640, 13631488, 6291456, 2097152] [1048576, 1048576, 2097152, 2097152] st = true := by decide +kernel
def t240 : Tree := (.ref (.cut 2 (.cut 3 (.cut 0 (.ref (.cut 1 (.ref (.cut 2 .leaf .out)) .out)) .out) .out) .out))
theorem h240 : check par t240 [15728640, 15728640, 6291456, 2097152] [1048576, 1048576, 2097152, 2097152] st = true := by decide +kernel
def t241 : Tree := (.ref (.cut 0 (.ref (.cut 1 (.cut 2 (.ref (.cut 3 (.ref (.cut 0 (.cut 1 .leaf .out) .out)) .out)) .out) .out)) .out))
theorem h241 : check par t241 [14680064, 14680064, 6291456, 6291456] [2097152, 2097152, 2097152, 2097152] st = true := by decide +kernel
def t242 : Tree := .out
theorem h242 : check par t242 [10485760, 10485760, 2097152, 12582912] [2097152, 2097152, 2097152, 4194304] st = true := by decide +kernel
def t243 : Tree := (.ref (.cut 1 (.ref (.cut 2 .out (.ref (.cut 3 (.ref (.cut 0 (.cut 1 (.cut 2 .out (.ref (.cut 3 .leaf .out))) (.ref (.cut 2 .out (.ref (.cut 3 .leaf .out))))) (.ref (.cut 1 (.cut 2 .out (.ref (.cut 3 .leaf .out))) (.cut 2 .out .out))))) .out)))) (.ref (.cut 2 .out (.ref (.cut 3 (.ref (.cut 0 .out .out)) .out))))))
theorem h243 : check par t243 [9437184, 10485760, 6291456, 10485760] [1048576, 2097152, 2097152, 2097152] st = true := by decide +kernel
def t244 : Tree := (.ref (.cut 1 (.ref (.cut 2 .out (.ref (.cut 3 (.ref (.cut 0 (.ref (.cut 1 (.ref (.cut 2 .out .out)) .out)) .out)) .out)))) (.ref (.cut 2 .out .out))))
theorem h244 : check par t244 [11534336, 10485760, 6291456, 10485760] [1048576, 2097152, 2097152, 2097152] st = true := by decide +kernel
def t245 : Tree := .out
theorem h245 : check par t245 [10485760, 10485760, 6291456, 14680064] [2097152, 2097152, 2097152, 2097152] st = true := by decide +kernel
def t246 : Tree := (.ref (.cut 2 .out (.ref (.cut 3 (.ref (.cut 0 .out .out)) .out))))
theorem h246 : check par t246 [10485760, 14680064, 4194304, 12582912] [2097152, 2097152, 4194304, 4194304] st = true := by decide +kernel
def t247 : Tree := (.ref (.cut 1 (.ref (.cut 2 .out (.ref (.cut 3 (.ref (.cut 0 (.ref (.cut 1 (.ref (.cut 2 .out .out)) .out)) .out)) .out)))) (.ref (.cut 2 .out .out))))
theorem h247 : check par t247 [14680064, 12582912, 4194304, 12582912] [2097152, 4194304, 4194304, 4194304] st = true := by decide +kernel
def t248 : Tree := (.ref (.cut 2 (.ref (.cut 3 (.cut 0 .leaf .leaf) (.cut 0 (.cut 1 .leaf .leaf) (.cut 1 .leaf .leaf)))) (.ref (.cut 3 (.ref (.cut 0 (.cut 1 .out .leaf) .leaf)) (.cut 0 (.cut 1 .out .leaf) (.ref (.cut 1 .out .leaf)))))))
theorem h248 : check par t248 [9437184, 9437184, 10485760, 2097152] [1048576, 1048576, 2097152, 2097152] st = true := by decide +kernel
def t249 : Tree := (.ref (.cut 2 (.ref (.cut 3 (.ref (.cut 0 .out .leaf)) (.cut 0 .out (.ref (.cut 1 .leaf .out))))) (.ref (.cut 3 (.ref (.cut 0 .out (.cut 1 .leaf .out))) (.cut 0 .out (.ref (.cut 1 .leaf .out)))))))
theorem h249 : check par t249 [9437184, 11534336, 10485760, 2097152] [1048576, 1048576, 2097152, 2097152] st = true := by decide +kernel
def t250 : Tree := (.ref (.cut 2 (.ref (.cut 3 (.ref (.cut 0 .leaf (.cut 1 .leaf .leaf))) (.cut 0 (.ref (.cut 1 .leaf .leaf)) (.cut 1 .leaf .leaf)))) (.ref (.cut 3 (.ref (.cut 0 (.cut 1 .out .leaf) (.cut 1 .out .leaf))) (.cut 0 (.ref (.cut 1 .out .leaf)) (.ref (.cut 1 .out .leaf)))))))
theorem h250 : check par t250 [11534336, 9437184, 10485760, 2097152] [1048576, 1048576, 2097152, 2097152] st = true := by decide +kernel
def t251 : Tree := (.ref (.cut 2 (.ref (.cut 3 (.ref (.cut 0 (.cut 1 .leaf .leaf) (.cut 1 .leaf .leaf))) (.cut 0 (.ref (.cut 1 .leaf .leaf)) (.ref (.cut 1 .leaf .leaf))))) (.ref (.cut 3 (.cut 0 .leaf .leaf) (.cut 0 (.cut 1 .leaf .out) .out)))))
theorem h251 : check par t251 [11534336, 11534336, 10485760, 2097152] [1048576, 1048576, 2097152, 2097152] st = true := by decide +kernel
def t252 : Tree := (.ref (.cut 0 (.cut 1 (.ref (.cut 2 .leaf (.cut 3 .leaf .leaf))) (.ref (.cut 2 (.cut 3 .leaf .leaf) .leaf))) (.ref (.cut 1 (.cut 2 (.cut 3 .leaf .leaf) .leaf) (.ref (.cut 2 .leaf .leaf))))))
theorem h252 : check par t252 [9437184, 9437184, 9437184, 5242880] [1048576, 1048576, 1048576, 1048576] st = true := by decide +kernel
def t253 : Tree := (.ref (.cut 0 (.cut 1 (.cut 2 (.cut 3 (.ref (.cut 0 .leaf .leaf)) .leaf) (.ref (.cut 3 .leaf .leaf))) (.ref (.cut 2 (.ref (.cut 3 .leaf .leaf)) (.cut 3 .leaf .out)))) (.ref (.cut 1 (.cut 2 (.ref (.cut 3 .leaf .leaf)) (.cut 3 .leaf .out)) (.cut 2 (.cut 3 .leaf .out) .out)))))
theorem h253 : check par t253 [9437184, 9437184, 9437184, 7340032] [1048576, 1048576, 1048576, 1048576] st = true := by decide +kernel
def t254 : Tree := (.ref (.cut 3 (.ref (.cut 0 (.cut 1 .out (.ref (.cut 2 .leaf .out))) (.cut 1 .out (.ref (.cut 2 .leaf .out))))) (.ref (.cut 0 (.ref (.cut 1 .out .out)) .out))))
theorem h254 : check par t254 [9437184, 9437184, 11534336, 6291456] [1048576, 1048576, 1048576, 2097152] st = true := by decide +kernel
def t255 : Tree := (.ref (.cut 2 (.ref (.cut 3 (.ref (.cut 0 .out (.cut 1 (.ref (.cut 2 .leaf .leaf)) .out))) (.ref (.cut 0 .out .out)))) (.ref (.cut 3 (.ref (.cut 0 .out .out)) .out))))
theorem h255 : check par t255 [9437184, 11534336, 10485760, 6291456] [1048576, 1048576, 2097152, 2097152] st = true := by decide +kernel
def t256 : Tree := (.ref (.cut 2 (.ref (.cut 3 (.ref (.cut 0 (.ref (.cut 1 (.cut 2 .leaf .leaf) (.ref (.cut 2 .leaf .leaf)))) (.cut 1 (.ref (.cut 2 .leaf .leaf)) (.cut 2 .leaf .out)))) (.ref (.cut 0 (.ref (.cut 1 (.ref (.cut 2 .leaf .out)) .out)) .out)))) (.ref (.cut 3 (.ref (.cut 0 (.ref (.cut 1 .out .out)) .out)) .out))))
theorem h256 : check par t256 [11534336, 9437184, 10485760, 6291456] [1048576, 1048576, 2097152, 2097152] st = true := by decide +kernel
def t257 : Tree := (.ref (.cut 2 (.ref (.cut 3 (.ref (.cut 0 (.ref (.cut 1 (.cut 2 .leaf .out) .out)) .out)) .out)) .out))
theorem h257 : check par t257 [11534336, 11534336, 10485760, 6291456] [1048576, 1048576, 2097152, 2097152] st = true := by decide +kernel
def t258 : Tree := (.ref (.cut 3 (.ref (.cut 0 (.ref (.cut 1 .out (.ref (.cut 2 (.ref (.cut 3 (.ref (.cut 0 .out (.cut 1 .out .out))) (.ref (.cut 0 .out .out)))) .out)))) (.ref (.cut 1 .out (.ref (.cut 2 (.ref (.cut 3 (.ref (.cut 0 (.cut 1 .out .out) .out)) .out)) .out)))))) (.ref (.cut 0 (.ref (.cut 1 .out .out)) .out))))
theorem h258 : check par t258 [10485760, 10485760, 14680064, 4194304] [2097152, 2097152, 2097152, 4194304] st = true := by decide +kernel
def t259 : Tree := (.ref (.cut 2 (.ref (.cut 3 (.ref (.cut 0 .out (.ref (.cut 1 (.cut 2 (.ref (.cut 3 (.ref (.cut 0 .out (.cut 1 .leaf .out))) (.ref (.cut 0 .out .out)))) (.ref (.cut 3 (.ref (.cut 0 .out .out)) .out))) .out)))) (.ref (.cut 0 .out .out)))) (.ref (.cut 3 (.ref (.cut 0 .out .out)) .out))))
theorem h259 : check par t259 [10485760, 14680064, 12582912, 4194304] [2097152, 2097152, 4194304, 4194304] st = true := by decide +kernel
def t260 : Tree := (.ref (.cut 2 (.ref (.cut 3 (.ref (.cut 0 (.ref (.cut 1 .leaf .leaf)) (.ref (.cut 1 .leaf .leaf)))) (.ref (.cut 0 (.cut 1 .leaf .leaf) (.ref (.cut 1 .leaf .leaf)))))) (.ref (.cut 3 (.ref (.cut 0 (.ref (.cut 1 .out .leaf)) (.ref (.cut 1 .out .leaf)))) (.ref (.cut 0 (.cut 1 .out .out) .out))))))
theorem h260 : check par t260 [13631488, 9437184, 10485760, 2097152] [1048576, 1048576, 2097152, 2097152] st = true := by decide +kernel
def t261 : Tree := (.ref (.cut 2 (.ref (.cut 3 (.ref (.cut 0 (.ref (.cut 1 .leaf .leaf)) (.ref (.cut 1 .leaf .leaf)))) (.ref (.cut 0 (.cut 1 .leaf .out) .out)))) (.ref (.cut 3 (.ref (.cut 0 (.ref (.cut 1 .leaf .out)) .out)) .out))))
theorem h261 : check par t261 [13631488, 11534336, 10485760, 2097152] [1048576, 1048576, 2097152, 2097152] st = true := by decide +kernel
def t262 : Tree := (.ref (.cut 1 (.ref (.cut 2 (.ref (.cut 3 (.cut 0 (.cut 1 .leaf .leaf) .leaf) (.ref (.cut 0 .leaf .out)))) (.ref (.cut 3 (.ref (.cut 0 (.cut 1 .out .out) .out)) .out)))) (.ref (.cut 2 (.ref (.cut 3 (.ref (.cut 0 (.cut 1 .leaf .out) .out)) .out)) .out))))
theorem h262 : check par t262 [15728640, 10485760, 10485760, 2097152] [1048576, 2097152, 2097152, 2097152] st = true := by decide +kernel
def t263 : Tree := (.ref (.cut 0 (.ref (.cut 1 (.ref (.cut 2 (.ref (.cut 3 (.ref (.cut 0 (.cut 1 (.ref (.cut 2 .leaf .out)) .out) .out)) .out)) .out)) .out)) .out))
theorem h263 : check par t263 [14680064, 10485760, 10485760, 6291456] [2097152, 2097152, 2097152, 2097152] st = true := by decide +kernel
def t264 : Tree := (.ref (.cut 3 (.ref (.cut 0 (.ref (.cut 1 .out .out)) .out)) .out))
theorem h264 : check par t264 [14680064, 10485760, 14680064, 4194304] [2097152, 2097152, 2097152, 4194304] st = true := by decide +kernel
def t265 : Tree := (.ref (.cut 2 (.ref (.cut 3 (.ref (.cut 0 (.ref (.cut 1 (.ref (.cut 2 (.ref (.cut 3 (.ref (.cut 0 (.ref (.cut 1 .leaf .out)) .out)) .out)) .out)) .out)) .out)) .out)) .out))
theorem h265 : check par t265 [14680064, 14680064, 12582912, 4194304] [2097152, 2097152, 4194304, 4194304] st = true := by decide +kernel
def t266 : Tree := (.ref (.cut 0 (.ref (.cut 1 (.ref (.cut 2 (.ref (.cut 3 (.ref (.cut 0 (.ref (.cut 1 (.ref (.cut 2 (.ref (.cut 3 (.ref (.cut 0 (.cut 1 (.ref (.cut 2 .leaf .out)) .out) .out)) .out)) .out)) .out)) .out)) .out)) .out)) .out)) .out))
theorem h266 : check par t266 [12582912, 12582912, 12582912, 12582912] [4194304, 4194304, 4194304, 4194304] st = true := by decide +kernel
end FastNoise.NormCheck.Super4
