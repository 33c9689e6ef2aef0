import Verif.NormCertSimplex4
/-! Generated by tools/normcert/gen.py: a certificate for the checker `Verif.NormCheck`. -/
namespace FastNoise.NormCheck.Simplex4
open FastNoise.RangeCheck (Tree)
set_option maxRecDepth 1000000
def t258 : Tree := (.ref (.cut 0 (.cut 1 (.cut 2 .leaf .leaf) (.cut 2 (.cut 3 .leaf .leaf) .leaf)) (.cut 1 (.cut 2 (.cut 3 .leaf .leaf) .leaf) (.cut 2 (.cut 3 .leaf .leaf) (.cut 3 .leaf .leaf)))))
theorem h258 : check par t258 [15728640, 11534336, 3145728, 3145728] [1048576, 1048576, 1048576, 1048576] st = true := by decide +kernel
def t259 : Tree := (.ref (.cut 1 (.cut 2 .out (.cut 3 (.cut 0 (.cut 1 .leaf .leaf) (.cut 1 (.cut 2 .out .leaf) .leaf)) .out)) (.cut 2 .out (.cut 3 (.cut 0 (.cut 1 .leaf .leaf) (.cut 1 .leaf .leaf)) .out))))
theorem h259 : check par t259 [13631488, 10485760, 2097152, 6291456] [1048576, 2097152, 2097152, 2097152] st = true := by decide +kernel
def t260 : Tree := (.ref (.cut 1 (.cut 2 .out (.cut 3 (.cut 0 (.cut 1 (.cut 2 .out .leaf) (.cut 2 .out .leaf)) (.cut 1 .leaf (.cut 2 .out .leaf))) .out)) (.cut 2 .out (.cut 3 (.cut 0 (.cut 1 (.cut 2 .out .leaf) (.cut 2 .out .leaf)) (.cut 1 (.cut 2 .out .leaf) (.cut 2 .out .out))) .out))))
theorem h260 : check par t260 [15728640, 10485760, 2097152, 6291456] [1048576, 2097152, 2097152, 2097152] st = true := by decide +kernel
def t261 : Tree := (.ref (.cut 1 (.cut 2 (.cut 3 (.cut 0 .leaf (.cut 1 .leaf .leaf)) (.cut 0 .leaf .leaf)) (.cut 3 (.cut 0 .leaf .leaf) .leaf)) (.cut 2 (.cut 3 (.cut 0 (.cut 1 .leaf .leaf) (.cut 1 .leaf (.cut 2 .leaf .leaf))) (.cut 0 .leaf (.cut 1 .leaf .leaf))) (.cut 3 (.cut 0 (.cut 1 .leaf .leaf) (.cut 1 .leaf .leaf)) (.cut 0 .leaf .leaf)))))
theorem h261 : check par t261 [13631488, 10485760, 6291456, 2097152] [1048576, 2097152, 2097152, 2097152] st = true := by decide +kernel
def t262 : Tree := (.ref (.cut 2 (.cut 3 (.cut 0 (.cut 1 .leaf .leaf) (.cut 1 (.cut 2 .leaf .leaf) (.cut 2 .leaf .leaf))) (.cut 0 (.cut 1 .leaf .leaf) (.cut 1 .leaf .leaf))) (.cut 3 (.cut 0 .leaf .leaf) (.cut 0 .leaf .leaf))))
theorem h262 : check par t262 [15728640, 9437184, 6291456, 2097152] [1048576, 1048576, 2097152, 2097152] st = true := by decide +kernel
def t263 : Tree := (.ref (.cut 3 (.cut 0 (.cut 1 (.cut 2 .leaf .leaf) (.cut 2 (.cut 3 .leaf .leaf) .leaf)) (.cut 1 (.cut 2 (.cut 3 .leaf .leaf) .leaf) (.cut 2 (.ref (.cut 3 .leaf .leaf)) (.cut 3 .leaf .leaf)))) (.cut 0 (.cut 1 .leaf (.cut 2 .leaf .leaf)) (.cut 1 .leaf (.cut 2 .leaf .out)))))
theorem h263 : check par t263 [15728640, 11534336, 5242880, 2097152] [1048576, 1048576, 1048576, 2097152] st = true := by decide +kernel
def t264 : Tree := (.ref (.cut 3 (.cut 0 (.cut 1 .leaf .leaf) (.cut 1 .leaf (.cut 2 .leaf .out))) (.cut 0 (.cut 1 .leaf .out) .out)))
theorem h264 : check par t264 [15728640, 11534336, 7340032, 2097152] [1048576, 1048576, 1048576, 2097152] st = true := by decide +kernel
def t265 : Tree := (.ref (.cut 1 (.cut 2 (.cut 3 .leaf (.cut 0 (.cut 1 (.cut 2 .out .leaf) .leaf) (.cut 1 (.cut 2 .out .leaf) .leaf))) (.cut 3 (.cut 0 .leaf .leaf) (.cut 0 (.cut 1 .leaf .out) .out))) (.cut 2 (.cut 3 .leaf (.cut 0 .leaf .out)) (.cut 3 (.cut 0 .leaf .out) .out))))
theorem h265 : check par t265 [13631488, 10485760, 6291456, 6291456] [1048576, 2097152, 2097152, 2097152] st = true := by decide +kernel
def t266 : Tree := (.ref (.cut 1 (.cut 2 (.cut 3 (.cut 0 .leaf (.cut 1 .leaf .leaf)) (.cut 0 (.cut 1 (.cut 2 .out .out) .out) .out)) (.cut 3 (.cut 0 .leaf .out) .out)) (.cut 2 (.cut 3 (.cut 0 .leaf .out) .out) .out)))
theorem h266 : check par t266 [15728640, 10485760, 6291456, 6291456] [1048576, 2097152, 2097152, 2097152] st = true := by decide +kernel
def t267 : Tree := (.ref (.cut 0 (.cut 1 (.cut 2 (.cut 3 .leaf .leaf) (.cut 3 .leaf .leaf)) (.cut 2 .leaf (.cut 3 .leaf (.cut 0 .out .leaf)))) (.cut 1 (.cut 2 .leaf (.cut 3 .leaf (.cut 0 .leaf .leaf))) (.ref (.cut 2 (.cut 3 .leaf .leaf) .leaf)))))
theorem h267 : check par t267 [13631488, 13631488, 1048576, 1048576] [1048576, 1048576, 1048576, 1048576] st = true := by decide +kernel
def t268 : Tree := (.ref (.cut 0 (.cut 1 (.cut 2 .out (.cut 3 .leaf .out)) (.cut 2 .out (.cut 3 .leaf .out))) (.cut 1 (.cut 2 .out (.cut 3 .leaf .out)) (.cut 2 .out (.cut 3 .leaf .out)))))
theorem h268 : check par t268 [13631488, 13631488, 1048576, 3145728] [1048576, 1048576, 1048576, 1048576] st = true := by decide +kernel
def t269 : Tree := (.ref (.cut 0 (.cut 1 (.cut 2 (.cut 3 .leaf .leaf) (.cut 3 .leaf .leaf)) (.cut 2 (.ref (.cut 3 (.cut 0 .out .leaf) .leaf)) (.cut 3 .leaf .leaf))) (.cut 1 (.cut 2 (.ref (.cut 3 (.cut 0 .leaf .leaf) .leaf)) (.cut 3 .leaf .leaf)) (.cut 2 .leaf (.cut 3 .leaf (.cut 0 .leaf .leaf))))))
theorem h269 : check par t269 [13631488, 13631488, 3145728, 1048576] [1048576, 1048576, 1048576, 1048576] st = true := by decide +kernel
def t270 : Tree := (.ref (.cut 0 (.cut 1 (.cut 2 .leaf .leaf) (.cut 2 (.cut 3 .leaf .leaf) .leaf)) (.cut 1 (.cut 2 (.cut 3 .leaf .leaf) .leaf) (.cut 2 (.cut 3 (.cut 0 .leaf .leaf) .leaf) (.cut 3 .leaf .leaf)))))
theorem h270 : check par t270 [13631488, 13631488, 3145728, 3145728] [1048576, 1048576, 1048576, 1048576] st = true := by decide +kernel
def t271 : Tree := (.ref (.cut 2 (.cut 3 (.ref (.cut 0 .out (.cut 1 (.cut 2 (.ref (.cut 3 .leaf .leaf)) .leaf) .out))) (.cut 0 .out (.ref (.cut 1 (.cut 2 .out (.cut 3 .leaf .out)) .out)))) (.cut 3 (.cut 0 .out (.ref (.cut 1 (.cut 2 .leaf (.cut 3 .leaf .leaf)) .out))) (.cut 0 .out (.cut 1 (.cut 2 (.ref (.cut 3 .leaf .leaf)) (.cut 3 .leaf .out)) .out)))))
theorem h271 : check par t271 [13631488, 15728640, 2097152, 2097152] [1048576, 1048576, 2097152, 2097152] st = true := by decide +kernel
def t272 : Tree := (.ref (.cut 3 (.ref (.cut 0 (.cut 1 (.cut 2 .leaf .leaf) (.cut 2 (.ref (.cut 3 .leaf .leaf)) .leaf)) (.cut 1 (.cut 2 (.ref (.cut 3 .leaf .leaf)) .leaf) (.cut 2 .leaf (.cut 3 .leaf .leaf))))) (.cut 0 (.cut 1 (.cut 2 .out (.cut 3 .leaf .out)) (.ref (.cut 2 .out (.cut 3 .leaf .out)))) (.ref (.cut 1 (.ref (.cut 2 .out (.cut 3 .leaf .out))) .leaf)))))
theorem h272 : check par t272 [15728640, 13631488, 1048576, 2097152] [1048576, 1048576, 1048576, 2097152] st = true := by decide +kernel
def t273 : Tree := (.ref (.cut 0 (.cut 1 (.cut 2 .leaf (.cut 3 .leaf (.cut 0 .leaf .leaf))) (.ref (.cut 2 .leaf (.cut 3 .leaf .leaf)))) (.ref (.cut 1 (.cut 2 .leaf (.cut 3 .leaf .leaf)) .leaf))))
theorem h273 : check par t273 [15728640, 13631488, 3145728, 1048576] [1048576, 1048576, 1048576, 1048576] st = true := by decide +kernel
def t274 : Tree := (.ref (.cut 0 (.cut 1 (.cut 2 (.cut 3 (.cut 0 .leaf .leaf) .leaf) (.cut 3 .leaf .leaf)) (.cut 2 (.ref (.cut 3 .leaf .leaf)) (.cut 3 .leaf .out))) (.cut 1 (.cut 2 (.ref (.cut 3 .leaf .leaf)) (.cut 3 .leaf .out)) (.ref (.cut 2 (.cut 3 .leaf .out) .out)))))
theorem h274 : check par t274 [15728640, 13631488, 3145728, 3145728] [1048576, 1048576, 1048576, 1048576] st = true := by decide +kernel
def t275 : Tree := (.ref (.cut 3 (.cut 0 (.cut 1 (.cut 2 (.ref (.cut 3 .leaf .leaf)) (.cut 3 .leaf .leaf)) (.ref (.cut 2 .leaf (.cut 3 .leaf .leaf)))) (.cut 1 (.cut 2 .leaf (.cut 3 .leaf .leaf)) (.ref (.cut 2 .leaf .leaf)))) (.cut 0 (.cut 1 (.cut 2 .out .leaf) .leaf) (.ref (.cut 1 (.cut 2 .out .leaf) (.cut 2 .out .out))))))
theorem h275 : check par t275 [15728640, 15728640, 1048576, 2097152] [1048576, 1048576, 1048576, 2097152] st = true := by decide +kernel
def t276 : Tree := (.ref (.cut 3 (.ref (.cut 0 (.cut 1 (.cut 2 .leaf .leaf) (.ref (.cut 2 .leaf .leaf))) (.cut 1 (.cut 2 .leaf .leaf) (.cut 2 .leaf .out)))) (.ref (.cut 0 (.cut 1 (.cut 2 (.cut 3 .leaf .out) .out) .out) .out))))
theorem h276 : check par t276 [15728640, 15728640, 3145728, 2097152] [1048576, 1048576, 1048576, 2097152] st = true := by decide +kernel
def t277 : Tree := (.ref (.cut 0 (.cut 1 (.cut 2 .out (.cut 3 (.cut 0 (.cut 1 .leaf (.cut 2 .out .leaf)) (.cut 1 (.cut 2 .out .leaf) (.cut 2 .out .out))) .out)) (.cut 2 .out (.cut 3 (.cut 0 .out .out) .out))) (.cut 1 (.cut 2 .out (.cut 3 (.cut 0 (.cut 1 (.cut 2 .out .out) .out) .out) .out)) (.cut 2 .out .out))))
theorem h277 : check par t277 [14680064, 14680064, 2097152, 6291456] [2097152, 2097152, 2097152, 2097152] st = true := by decide +kernel
def t278 : Tree := (.ref (.cut 3 (.cut 0 (.cut 1 (.cut 2 .leaf .leaf) (.cut 2 (.cut 3 .leaf .leaf) .leaf)) (.cut 1 (.cut 2 (.cut 3 .leaf .leaf) .leaf) (.cut 2 (.cut 3 .leaf .leaf) (.cut 3 .leaf .leaf)))) (.cut 0 (.cut 1 .leaf (.cut 2 .leaf .leaf)) (.cut 1 (.cut 2 .leaf .leaf) (.cut 2 .leaf .out)))))
theorem h278 : check par t278 [13631488, 13631488, 5242880, 2097152] [1048576, 1048576, 1048576, 2097152] st = true := by decide +kernel
def t279 : Tree := (.ref (.cut 3 (.cut 0 (.cut 1 (.cut 2 .leaf .leaf) (.cut 2 .leaf .leaf)) (.cut 1 (.cut 2 .leaf .leaf) (.cut 2 (.cut 3 .leaf .out) .out))) (.cut 0 (.cut 1 .leaf .out) .out)))
theorem h279 : check par t279 [13631488, 13631488, 7340032, 2097152] [1048576, 1048576, 1048576, 2097152] st = true := by decide +kernel
def t280 : Tree := (.ref (.cut 2 (.cut 3 (.cut 0 .out (.cut 1 (.ref (.cut 2 (.cut 3 .leaf (.cut 0 .out .out)) (.cut 3 .leaf .out))) .out)) (.cut 0 .out .out)) (.cut 3 (.cut 0 .out .out) .out)))
theorem h280 : check par t280 [13631488, 15728640, 6291456, 2097152] [1048576, 1048576, 2097152, 2097152] st = true := by decide +kernel
def t281 : Tree := (.ref (.cut 3 (.cut 0 (.cut 1 (.cut 2 (.cut 3 .leaf .leaf) (.cut 3 .leaf .leaf)) (.ref (.cut 2 (.cut 3 .leaf (.cut 0 .leaf .out)) (.cut 3 .leaf .out)))) (.ref (.cut 1 (.cut 2 (.cut 3 .leaf .leaf) (.cut 3 .leaf .out)) (.cut 2 (.ref (.cut 3 .leaf .out)) .out)))) (.cut 0 (.cut 1 (.cut 2 .leaf .out) .out) .out)))
theorem h281 : check par t281 [15728640, 13631488, 5242880, 2097152] [1048576, 1048576, 1048576, 2097152] st = true := by decide +kernel
def t282 : Tree := (.ref (.cut 3 (.cut 0 (.cut 1 (.cut 2 (.cut 3 .leaf .out) .out) .out) .out) .out))
theorem h282 : check par t282 [15728640, 13631488, 7340032, 2097152] [1048576, 1048576, 1048576, 2097152] st = true := by decide +kernel
def t283 : Tree := (.ref (.cut 2 (.cut 3 (.ref (.cut 0 (.cut 1 (.cut 2 (.cut 3 (.ref (.cut 0 (.cut 1 .leaf .out) .out)) .out) .out) .out) .out)) .out) .out))
theorem h283 : check par t283 [15728640, 15728640, 6291456, 2097152] [1048576, 1048576, 2097152, 2097152] st = true := by decide +kernel
def t284 : Tree := (.ref (.cut 0 (.cut 1 (.cut 2 (.cut 3 (.cut 0 .leaf .out) .out) .out) .out) .out))
theorem h284 : check par t284 [14680064, 14680064, 6291456, 6291456] [2097152, 2097152, 2097152, 2097152] st = true := by decide +kernel
def t285 : Tree := .out
theorem h285 : check par t285 [10485760, 10485760, 2097152, 12582912] [2097152, 2097152, 2097152, 4194304] st = true := by decide +kernel
def t286 : Tree := (.ref (.cut 2 .out (.ref (.cut 3 (.cut 0 (.ref (.cut 1 (.cut 2 .out (.cut 3 (.cut 0 (.cut 1 (.cut 2 .out (.cut 3 .leaf .out)) (.cut 2 .out .leaf)) (.cut 1 (.cut 2 .out .leaf) (.cut 2 .out .out))) .out)) (.cut 2 .out (.cut 3 (.cut 0 .out .out) .out)))) (.cut 1 (.cut 2 .out (.cut 3 (.cut 0 .leaf .out) .out)) (.ref (.cut 2 .out .out)))) .out))))
theorem h286 : check par t286 [9437184, 9437184, 6291456, 10485760] [1048576, 1048576, 2097152, 2097152] st = true := by decide +kernel
def t287 : Tree := (.ref (.cut 2 .out (.ref (.cut 3 (.cut 0 .out .out) .out))))
theorem h287 : check par t287 [9437184, 11534336, 6291456, 10485760] [1048576, 1048576, 2097152, 2097152] st = true := by decide +kernel
def t288 : Tree := (.ref (.cut 1 (.cut 2 .out (.cut 3 (.cut 0 (.ref (.cut 1 (.ref (.cut 2 .out .out)) .out)) .out) .out)) (.cut 2 .out .out)))
theorem h288 : check par t288 [11534336, 10485760, 6291456, 10485760] [1048576, 2097152, 2097152, 2097152] st = true := by decide +kernel
def t289 : Tree := .out
theorem h289 : check par t289 [10485760, 10485760, 6291456, 14680064] [2097152, 2097152, 2097152, 2097152] st = true := by decide +kernel
def t290 : Tree := (.ref (.cut 2 .out (.cut 3 (.cut 0 .out .out) .out)))
theorem h290 : check par t290 [10485760, 14680064, 4194304, 12582912] [2097152, 2097152, 4194304, 4194304] st = true := by decide +kernel
def t291 : Tree := (.ref (.cut 1 (.cut 2 .out (.cut 3 (.cut 0 (.cut 1 (.cut 2 .out .out) .out) .out) .out)) (.cut 2 .out .out)))
theorem h291 : check par t291 [14680064, 12582912, 4194304, 12582912] [2097152, 4194304, 4194304, 4194304] st = true := by decide +kernel
def t292 : Tree := (.ref (.cut 1 (.cut 2 (.cut 3 (.cut 0 (.cut 1 (.cut 2 .leaf .leaf) .leaf) (.cut 1 .leaf .leaf)) (.cut 0 (.cut 1 .leaf (.ref (.cut 2 .leaf .leaf))) (.cut 1 (.cut 2 .leaf .leaf) .leaf))) (.ref (.cut 3 .leaf .leaf))) (.cut 2 (.cut 3 (.ref (.cut 0 .out .leaf)) (.ref (.cut 0 .out .leaf))) (.ref (.cut 3 (.cut 0 .out (.cut 1 .leaf .out)) (.cut 0 .out (.cut 1 .leaf .out)))))))
theorem h292 : check par t292 [9437184, 10485760, 10485760, 2097152] [1048576, 2097152, 2097152, 2097152] st = true := by decide +kernel
def t293 : Tree := (.ref (.cut 2 (.cut 3 (.cut 0 .leaf .leaf) (.cut 0 .leaf .leaf)) (.cut 3 (.cut 0 (.ref (.cut 1 .out .leaf)) (.cut 1 .out (.cut 2 .leaf .out))) (.cut 0 .leaf (.cut 1 .out (.cut 2 .leaf .out))))))
theorem h293 : check par t293 [11534336, 9437184, 10485760, 2097152] [1048576, 1048576, 2097152, 2097152] st = true := by decide +kernel
def t294 : Tree := (.ref (.cut 2 (.cut 3 (.cut 0 (.cut 1 (.cut 2 .leaf .leaf) .leaf) (.cut 1 .leaf (.cut 2 .leaf .leaf))) (.cut 0 .leaf .leaf)) (.cut 3 (.cut 0 (.ref (.cut 1 (.cut 2 .leaf .leaf) (.cut 2 .leaf .leaf))) (.cut 1 (.cut 2 (.cut 3 .leaf .leaf) .leaf) (.ref (.cut 2 .leaf .out)))) (.cut 0 (.ref (.cut 1 (.cut 2 .leaf .out) .out)) .out))))
theorem h294 : check par t294 [11534336, 11534336, 10485760, 2097152] [1048576, 1048576, 2097152, 2097152] st = true := by decide +kernel
def t295 : Tree := (.ref (.cut 0 (.ref (.cut 1 (.cut 2 (.cut 3 .leaf .leaf) .leaf) (.cut 2 .leaf .leaf))) (.cut 1 (.ref (.cut 2 .leaf .leaf)) (.cut 2 (.cut 3 .leaf .leaf) .leaf))))
theorem h295 : check par t295 [9437184, 9437184, 9437184, 5242880] [1048576, 1048576, 1048576, 1048576] st = true := by decide +kernel
def t296 : Tree := (.ref (.cut 2 (.cut 3 (.cut 0 (.cut 1 .leaf .leaf) .leaf) (.ref (.cut 0 (.cut 1 (.cut 2 (.cut 3 .leaf .leaf) (.cut 3 .leaf .leaf)) (.cut 2 (.cut 3 .leaf .leaf) (.cut 3 .leaf .out))) (.cut 1 (.cut 2 (.cut 3 .leaf .leaf) (.cut 3 .leaf .out)) (.cut 2 (.cut 3 .leaf .out) .out))))) (.cut 3 .leaf (.cut 0 (.cut 1 .out .out) .out))))
theorem h296 : check par t296 [8912896, 8912896, 9437184, 7340032] [524288, 524288, 1048576, 1048576] st = true := by decide +kernel
def t297 : Tree := (.ref (.cut 2 (.cut 3 .leaf (.cut 0 .out .out)) (.cut 3 .leaf .out)))
theorem h297 : check par t297 [8912896, 9961472, 9437184, 7340032] [524288, 524288, 1048576, 1048576] st = true := by decide +kernel
def t298 : Tree := (.ref (.cut 1 (.cut 2 (.cut 3 .leaf (.cut 0 (.ref (.cut 1 .leaf .out)) .out)) (.ref (.cut 3 .leaf .out))) (.ref (.cut 2 (.cut 3 .leaf .out) .out))))
theorem h298 : check par t298 [9961472, 9437184, 9437184, 7340032] [524288, 1048576, 1048576, 1048576] st = true := by decide +kernel
def t299 : Tree := (.ref (.cut 3 (.ref (.cut 0 (.cut 1 .out .leaf) (.cut 1 .out .leaf))) (.ref (.cut 0 (.cut 1 .out .out) .out))))
theorem h299 : check par t299 [9437184, 9437184, 11534336, 6291456] [1048576, 1048576, 1048576, 2097152] st = true := by decide +kernel
def t300 : Tree := (.ref (.cut 2 (.cut 3 (.ref (.cut 0 .out (.cut 1 (.cut 2 .leaf .leaf) .out))) (.ref (.cut 0 .out .out))) (.ref (.cut 3 (.ref (.cut 0 .out .out)) .out))))
theorem h300 : check par t300 [9437184, 11534336, 10485760, 6291456] [1048576, 1048576, 2097152, 2097152] st = true := by decide +kernel
def t301 : Tree := (.ref (.cut 1 (.cut 2 (.cut 3 (.cut 0 (.cut 1 (.cut 2 (.cut 3 .leaf .leaf) .leaf) (.cut 2 .leaf .leaf)) (.cut 1 (.cut 2 .leaf .leaf) .leaf)) (.cut 0 (.cut 1 (.ref (.cut 2 (.cut 3 .leaf .out) .out)) .out) .out)) (.cut 3 (.ref (.cut 0 (.cut 1 .out .out) .out)) .out)) (.cut 2 (.cut 3 (.cut 0 (.cut 1 (.cut 2 .leaf .out) .out) .out) .out) .out)))
theorem h301 : check par t301 [11534336, 10485760, 10485760, 6291456] [1048576, 2097152, 2097152, 2097152] st = true := by decide +kernel
def t302 : Tree := (.ref (.cut 3 (.cut 0 (.ref (.cut 1 .out (.cut 2 (.cut 3 (.cut 0 .out (.cut 1 .out .out)) .leaf) .out))) (.cut 1 .out (.ref (.cut 2 (.ref (.cut 3 (.cut 0 (.cut 1 .out .out) .out) .out)) .out)))) (.cut 0 (.ref (.cut 1 .out .out)) .out)))
theorem h302 : check par t302 [10485760, 10485760, 14680064, 4194304] [2097152, 2097152, 2097152, 4194304] st = true := by decide +kernel
def t303 : Tree := (.ref (.cut 2 (.cut 3 (.cut 0 .out (.cut 1 (.cut 2 (.cut 3 (.ref (.cut 0 .out (.cut 1 (.cut 2 .leaf .leaf) .out))) (.cut 0 .out .out)) (.ref (.cut 3 (.cut 0 .out .out) .out))) .out)) (.cut 0 .out .out)) (.ref (.cut 3 (.cut 0 .out .out) .out))))
theorem h303 : check par t303 [10485760, 14680064, 12582912, 4194304] [2097152, 2097152, 4194304, 4194304] st = true := by decide +kernel
def t304 : Tree := (.ref (.cut 2 (.cut 3 (.cut 0 (.cut 1 .leaf .leaf) (.cut 1 .leaf .leaf)) (.cut 0 .leaf .leaf)) (.cut 3 (.cut 0 (.cut 1 .out (.cut 2 .leaf .out)) (.cut 1 .out (.cut 2 .leaf .out))) (.cut 0 (.cut 1 .out .out) .out))))
theorem h304 : check par t304 [13631488, 9437184, 10485760, 2097152] [1048576, 1048576, 2097152, 2097152] st = true := by decide +kernel
def t305 : Tree := (.ref (.cut 2 (.cut 3 (.cut 0 (.cut 1 (.cut 2 .leaf .leaf) (.cut 2 .leaf .leaf)) (.cut 1 (.cut 2 .leaf .leaf) (.cut 2 .leaf .out))) (.cut 0 (.cut 1 .leaf .out) .out)) (.cut 3 (.cut 0 (.cut 1 (.cut 2 .leaf .out) .out) .out) .out)))
theorem h305 : check par t305 [13631488, 11534336, 10485760, 2097152] [1048576, 1048576, 2097152, 2097152] st = true := by decide +kernel
def t306 : Tree := (.ref (.cut 1 (.cut 2 (.cut 3 (.cut 0 (.cut 1 .leaf .leaf) .leaf) (.cut 0 .leaf .out)) (.cut 3 (.cut 0 (.cut 1 .out .out) .out) .out)) (.cut 2 (.cut 3 (.cut 0 (.cut 1 (.cut 2 .leaf .out) .out) .out) .out) .out)))
theorem h306 : check par t306 [15728640, 10485760, 10485760, 2097152] [1048576, 2097152, 2097152, 2097152] st = true := by decide +kernel
def t307 : Tree := (.ref (.cut 0 (.cut 1 (.cut 2 (.cut 3 (.cut 0 (.cut 1 .leaf .out) .out) .out) .out) .out) .out))
theorem h307 : check par t307 [14680064, 10485760, 10485760, 6291456] [2097152, 2097152, 2097152, 2097152] st = true := by decide +kernel
def t308 : Tree := (.ref (.cut 3 (.cut 0 (.cut 1 .out .out) .out) .out))
theorem h308 : check par t308 [14680064, 10485760, 14680064, 4194304] [2097152, 2097152, 2097152, 4194304] st = true := by decide +kernel
def t309 : Tree := (.ref (.cut 2 (.cut 3 (.cut 0 (.cut 1 (.cut 2 (.cut 3 (.cut 0 (.cut 1 (.cut 2 .leaf .out) .out) .out) .out) .out) .out) .out) .out) .out))
theorem h309 : check par t309 [14680064, 14680064, 12582912, 4194304] [2097152, 2097152, 4194304, 4194304] st = true := by decide +kernel
def t310 : Tree := (.ref (.cut 0 (.cut 1 (.cut 2 (.cut 3 (.cut 0 (.cut 1 (.ref (.cut 2 (.cut 3 (.ref (.cut 0 (.ref (.cut 1 (.cut 2 (.cut 3 (.cut 0 (.cut 1 (.cut 2 (.cut 3 .leaf .out) .out) .out) .out) .out) .out) .out)) .out)) .out) .out)) .out) .out) .out) .out) .out) .out))
theorem h310 : check par t310 [12582912, 12582912, 12582912, 12582912] [4194304, 4194304, 4194304, 4194304] st = true := by decide +kernel
end FastNoise.NormCheck.Simplex4
