import Verif.RangeCertOuterSimplex4
/-! Generated by tools/rangecert/gen.py: a certificate for the checker `Verif.RangeCheck`. -/
namespace FastNoise.RangeCheck.OuterSimplex4
set_option maxRecDepth 1000000
def t270 : Tree := (.ref (.cut 3 (.ref (.cut 0 (.cut 1 (.ref (.cut 2 (.cut 3 .leaf .leaf) (.ref (.cut 3 .leaf .leaf)))) (.ref (.cut 2 (.ref (.cut 3 .leaf .leaf)) (.cut 3 .leaf .leaf)))) (.cut 1 (.ref (.cut 2 (.cut 3 .leaf .leaf) (.ref (.cut 3 .leaf .leaf)))) (.cut 2 (.ref (.cut 3 .leaf .leaf)) (.ref (.cut 3 .leaf .leaf)))))) (.ref (.cut 0 (.cut 1 (.ref (.cut 2 (.cut 3 .leaf .leaf) (.ref (.cut 3 .leaf .leaf)))) (.cut 2 (.ref (.cut 3 .leaf .leaf)) (.cut 3 .leaf .leaf))) (.cut 1 (.ref (.cut 2 (.cut 3 .leaf .leaf) (.ref (.cut 3 .leaf .leaf)))) (.cut 2 (.ref (.cut 3 .leaf .leaf)) (.cut 3 .leaf .leaf)))))))
theorem h270 : check par t270 [36864, 28672, 28672, 24576] [4096, 4096, 4096, 8192] st = true := by decide +kernel
def t271 : Tree := (.ref (.cut 1 (.cut 2 (.cut 3 (.cut 0 (.cut 1 .leaf .leaf) (.cut 1 .leaf .leaf)) (.ref (.cut 0 (.cut 1 (.cut 2 .out .leaf) (.cut 2 .out .leaf)) (.cut 1 .leaf .leaf)))) (.ref (.cut 3 (.ref (.cut 0 (.cut 1 .out (.cut 2 .leaf .out)) (.cut 1 .out .leaf))) (.ref (.cut 0 (.cut 1 .out .leaf) (.cut 1 .out .leaf)))))) (.cut 2 (.ref (.cut 3 (.cut 0 (.cut 1 (.ref .leaf) (.cut 2 .leaf .leaf)) (.cut 1 .leaf .leaf)) (.ref (.cut 0 (.cut 1 (.cut 2 .out .leaf) (.cut 2 .out .leaf)) (.cut 1 .leaf .leaf))))) (.cut 3 (.ref (.cut 0 (.cut 1 (.cut 2 .leaf .leaf) (.cut 2 .leaf .leaf)) (.cut 1 .leaf .leaf))) (.cut 0 (.ref (.cut 1 (.cut 2 .leaf .leaf) (.cut 2 .leaf (.cut 3 .leaf .leaf)))) (.cut 1 .leaf .leaf))))))
theorem h271 : check par t271 [45056, 24576, 24576, 24576] [4096, 8192, 8192, 8192] st = true := by decide +kernel
def t272 : Tree := (.ref (.cut 1 (.ref (.cut 2 (.cut 3 (.cut 0 .leaf .leaf) (.ref (.cut 0 (.cut 1 (.cut 2 .out (.cut 3 .leaf .out)) (.cut 2 .out (.cut 3 .leaf .out))) (.cut 1 (.cut 2 .out (.cut 3 .leaf .out)) (.cut 2 .out (.cut 3 .leaf .out)))))) (.cut 3 (.ref (.cut 0 (.cut 1 .out (.cut 2 .leaf .out)) (.cut 1 .out (.cut 2 .leaf .out)))) (.cut 0 (.cut 1 .out (.cut 2 .leaf .out)) (.cut 1 .out (.cut 2 .leaf .out)))))) (.cut 2 (.cut 3 (.ref (.cut 0 (.cut 1 (.ref (.cut 2 .leaf .leaf)) (.cut 2 (.cut 3 (.cut 0 .leaf .leaf) (.cut 0 .leaf .leaf)) (.cut 3 (.cut 0 .leaf .leaf) .leaf))) (.cut 1 .leaf (.cut 2 (.cut 3 (.cut 0 .leaf .leaf) .leaf) (.cut 3 .leaf .leaf))))) (.ref (.cut 0 (.cut 1 (.ref (.cut 2 .out .leaf)) .leaf) (.cut 1 (.ref (.cut 2 .out .leaf)) .leaf)))) (.cut 3 (.ref (.cut 0 (.cut 1 (.ref (.cut 2 .leaf .leaf)) .leaf) (.cut 1 (.ref (.cut 2 .leaf .leaf)) .leaf))) (.ref (.cut 0 (.cut 1 .leaf .leaf) (.cut 1 .leaf .leaf)))))))
theorem h272 : check par t272 [51200, 4096, 4096, 4096] [2048, 4096, 4096, 4096] st = true := by decide +kernel
def t273 : Tree := (.ref (.cut 1 (.ref (.cut 2 (.cut 3 .leaf (.ref (.cut 0 (.cut 1 (.cut 2 .out .leaf) (.cut 2 .out .leaf)) .leaf))) (.cut 3 (.ref (.cut 0 (.cut 1 .out (.cut 2 .leaf .out)) .leaf)) (.cut 0 .leaf .leaf)))) (.cut 2 (.cut 3 (.ref (.cut 0 (.cut 1 .leaf (.cut 2 .leaf .leaf)) .leaf)) (.ref (.cut 0 .leaf .leaf))) (.cut 3 (.ref (.cut 0 .leaf .leaf)) (.ref (.cut 0 .leaf .leaf))))))
theorem h273 : check par t273 [55296, 4096, 4096, 4096] [2048, 4096, 4096, 4096] st = true := by decide +kernel
def t274 : Tree := (.ref (.cut 0 (.cut 1 (.cut 2 .out (.cut 3 (.cut 0 (.cut 1 .out (.cut 2 .out .out)) (.cut 1 .out (.cut 2 .out .out))) .out)) (.cut 2 .out (.cut 3 (.cut 0 (.cut 1 (.cut 2 .out .leaf) (.cut 2 .out .leaf)) (.cut 1 (.cut 2 .out .leaf) (.cut 2 .out .leaf))) .out))) (.cut 1 (.cut 2 .out (.cut 3 (.cut 0 (.cut 1 .out (.cut 2 .out .out)) (.cut 1 .out (.cut 2 .out .out))) .out)) (.cut 2 .out (.cut 3 (.cut 0 (.cut 1 (.cut 2 .out (.cut 3 .leaf .out)) (.cut 2 .out .leaf)) (.cut 1 (.cut 2 .out (.cut 3 .leaf .out)) (.cut 2 .out .leaf))) .out)))))
theorem h274 : check par t274 [53248, 4096, 4096, 12288] [4096, 4096, 4096, 4096] st = true := by decide +kernel
def t275 : Tree := (.ref (.cut 3 (.ref (.cut 0 (.cut 1 .out (.cut 2 (.cut 3 (.cut 0 (.cut 1 .out (.cut 2 .leaf .out)) (.cut 1 .out (.cut 2 .leaf .out))) (.cut 0 (.cut 1 .out (.cut 2 .leaf .out)) (.cut 1 .out (.cut 2 .leaf .out)))) .out)) (.cut 1 .out (.cut 2 (.cut 3 (.cut 0 (.cut 1 .out (.cut 2 .leaf .out)) (.cut 1 .out (.cut 2 .leaf .out))) (.cut 0 (.cut 1 .out (.cut 2 .leaf .out)) (.cut 1 .out (.cut 2 .leaf .out)))) .out)))) (.ref (.cut 0 (.cut 1 .out (.cut 2 (.cut 3 (.ref (.cut 0 .leaf .leaf)) (.cut 0 .leaf .leaf)) .out)) (.cut 1 .out (.cut 2 (.ref (.cut 3 (.cut 0 .leaf .leaf) (.cut 0 .leaf (.cut 1 .out .leaf)))) .out))))))
theorem h275 : check par t275 [53248, 4096, 12288, 8192] [4096, 4096, 4096, 8192] st = true := by decide +kernel
def t276 : Tree := (.ref (.cut 1 (.cut 2 (.cut 3 (.cut 0 (.cut 1 .leaf (.cut 2 .leaf .leaf)) (.cut 1 (.cut 2 .leaf .leaf) (.cut 2 (.cut 3 (.cut 0 .leaf .leaf) .leaf) (.cut 3 .leaf .leaf)))) (.cut 0 .leaf (.cut 1 .leaf .leaf))) (.cut 3 (.cut 0 .leaf (.cut 1 .leaf .leaf)) (.cut 0 .leaf .leaf))) (.cut 2 (.cut 3 (.cut 0 (.cut 1 (.cut 2 (.cut 3 .leaf .leaf) .leaf) .leaf) (.cut 1 (.cut 2 (.cut 3 (.cut 0 .leaf .leaf) .leaf) (.cut 3 .leaf .leaf)) (.cut 2 (.cut 3 (.cut 0 .leaf .leaf) (.cut 0 .leaf .leaf)) (.cut 3 (.cut 0 .leaf .leaf) .leaf)))) (.cut 0 (.cut 1 .leaf .leaf) (.cut 1 .leaf .leaf))) (.cut 3 (.cut 0 (.cut 1 .leaf .leaf) (.cut 1 .leaf .leaf)) (.cut 0 .leaf .leaf)))))
theorem h276 : check par t276 [50176, 10240, 2048, 2048] [1024, 2048, 2048, 2048] st = true := by decide +kernel
def t277 : Tree := (.ref (.cut 2 (.cut 3 (.cut 0 (.cut 1 (.cut 2 .leaf .leaf) (.cut 2 (.cut 3 (.cut 0 .leaf .leaf) .leaf) (.cut 3 .leaf .leaf))) (.cut 1 .leaf (.cut 2 (.cut 3 (.cut 0 .leaf .leaf) .leaf) (.cut 3 .leaf .leaf)))) (.cut 0 (.cut 1 .leaf .leaf) (.cut 1 .leaf .leaf))) (.cut 3 (.cut 0 (.cut 1 .leaf .leaf) (.cut 1 .leaf .leaf)) (.cut 0 (.cut 1 .leaf .leaf) (.cut 1 .leaf .leaf)))))
theorem h277 : check par t277 [52224, 9216, 2048, 2048] [1024, 1024, 2048, 2048] st = true := by decide +kernel
def t278 : Tree := (.ref (.cut 1 (.cut 2 (.cut 3 (.cut 0 (.cut 1 .leaf .leaf) (.cut 1 .leaf (.cut 2 (.cut 3 (.cut 0 .leaf .leaf) .leaf) .leaf))) (.cut 0 .leaf (.cut 1 .leaf .leaf))) (.cut 3 (.cut 0 .leaf (.cut 1 .leaf .leaf)) (.cut 0 .leaf .leaf))) (.cut 2 (.cut 3 (.cut 0 (.cut 1 (.cut 2 .leaf .leaf) .leaf) (.cut 1 (.cut 2 (.cut 3 (.cut 0 .leaf .leaf) .leaf) (.cut 3 .leaf .leaf)) (.cut 2 (.cut 3 (.cut 0 .leaf .leaf) .leaf) (.cut 3 .leaf .leaf)))) (.cut 0 .leaf (.cut 1 .leaf .leaf))) (.cut 3 (.cut 0 .leaf (.cut 1 .leaf .leaf)) (.cut 0 .leaf .leaf)))))
theorem h278 : check par t278 [51712, 11264, 1024, 1024] [512, 1024, 1024, 1024] st = true := by decide +kernel
def t279 : Tree := (.ref (.cut 2 (.cut 3 (.cut 0 (.cut 1 .leaf (.cut 2 (.cut 3 (.cut 0 .leaf (.cut 1 .leaf .leaf)) .leaf) (.cut 3 .leaf .leaf))) (.cut 1 .leaf (.cut 2 (.cut 3 (.cut 0 .leaf .leaf) .leaf) (.cut 3 .leaf .leaf)))) (.cut 0 (.cut 1 .leaf .leaf) (.cut 1 .leaf .leaf))) (.cut 3 (.cut 0 (.cut 1 .leaf .leaf) (.cut 1 .leaf .leaf)) (.cut 0 .leaf (.cut 1 .leaf .leaf)))))
theorem h279 : check par t279 [52736, 10752, 1024, 1024] [512, 512, 1024, 1024] st = true := by decide +kernel
def t280 : Tree := (.ref (.cut 1 (.cut 2 (.cut 3 (.cut 0 (.cut 1 .leaf .leaf) (.cut 1 .leaf (.cut 2 (.cut 3 (.cut 0 .leaf .leaf) .leaf) .leaf))) (.cut 0 .leaf (.cut 1 .leaf .leaf))) (.cut 3 (.cut 0 .leaf (.cut 1 .leaf .leaf)) (.cut 0 .leaf .leaf))) (.cut 2 (.cut 3 (.cut 0 (.cut 1 .leaf .leaf) (.cut 1 (.cut 2 (.cut 3 (.cut 0 .leaf .leaf) .leaf) .leaf) (.cut 2 (.cut 3 (.cut 0 .leaf .leaf) .leaf) (.cut 3 .leaf .leaf)))) (.cut 0 .leaf (.cut 1 .leaf .leaf))) (.cut 3 (.cut 0 .leaf (.cut 1 .leaf .leaf)) (.cut 0 .leaf .leaf)))))
theorem h280 : check par t280 [52480, 11776, 512, 512] [256, 512, 512, 512] st = true := by decide +kernel
def t281 : Tree := (.ref (.cut 2 (.cut 3 (.cut 0 (.cut 1 (.cut 2 .leaf .leaf) (.cut 2 (.cut 3 (.cut 0 .leaf (.cut 1 .leaf .leaf)) .leaf) (.cut 3 .leaf .leaf))) (.cut 1 .leaf (.cut 2 (.cut 3 (.cut 0 (.cut 1 .leaf .leaf) .leaf) .leaf) (.cut 3 .leaf .leaf)))) (.cut 0 (.cut 1 .leaf .leaf) (.cut 1 .leaf .leaf))) (.cut 3 (.cut 0 (.cut 1 .leaf .leaf) (.cut 1 .leaf .leaf)) (.cut 0 .leaf (.cut 1 .leaf .leaf)))))
theorem h281 : check par t281 [52992, 11520, 512, 512] [256, 256, 512, 512] st = true := by decide +kernel
def t282 : Tree := (.ref (.cut 1 (.cut 2 (.cut 3 (.cut 0 (.cut 1 .leaf .leaf) (.cut 1 .leaf (.cut 2 (.cut 3 .leaf .leaf) .leaf))) (.cut 0 .leaf (.cut 1 .leaf .leaf))) (.cut 3 (.cut 0 .leaf (.cut 1 .leaf .leaf)) (.cut 0 .leaf .leaf))) (.cut 2 (.cut 3 (.cut 0 (.cut 1 .leaf .leaf) (.cut 1 (.cut 2 (.cut 3 (.cut 0 .leaf .leaf) .leaf) .leaf) (.cut 2 (.cut 3 .leaf .leaf) .leaf))) (.cut 0 .leaf (.cut 1 .leaf .leaf))) (.cut 3 (.cut 0 .leaf (.cut 1 .leaf .leaf)) (.cut 0 .leaf .leaf)))))
theorem h282 : check par t282 [52864, 12032, 256, 256] [128, 256, 256, 256] st = true := by decide +kernel
def t283 : Tree := (.ref (.cut 2 (.cut 3 (.cut 0 (.cut 1 (.cut 2 .leaf .leaf) (.cut 2 (.cut 3 (.cut 0 .leaf (.cut 1 .leaf .leaf)) .leaf) (.cut 3 .leaf .leaf))) (.cut 1 .leaf (.cut 2 (.cut 3 (.cut 0 (.cut 1 .leaf .leaf) .leaf) (.cut 0 .leaf .leaf)) (.cut 3 (.cut 0 .leaf .leaf) .leaf)))) (.cut 0 (.cut 1 .leaf .leaf) (.cut 1 .leaf .leaf))) (.cut 3 (.cut 0 (.cut 1 .leaf .leaf) (.cut 1 .leaf .leaf)) (.cut 0 .leaf (.cut 1 .leaf .leaf)))))
theorem h283 : check par t283 [53120, 11904, 256, 256] [128, 128, 256, 256] st = true := by decide +kernel
def t284 : Tree := (.ref (.cut 1 (.cut 2 (.cut 3 (.cut 0 .leaf (.cut 1 .leaf (.cut 2 (.cut 3 .leaf .leaf) .leaf))) (.cut 0 .leaf (.cut 1 .leaf .leaf))) (.cut 3 (.cut 0 .leaf (.cut 1 .leaf .leaf)) (.cut 0 .leaf .leaf))) (.cut 2 (.cut 3 (.cut 0 (.cut 1 .leaf .leaf) (.cut 1 (.cut 2 (.cut 3 .leaf .leaf) .leaf) .leaf)) (.cut 0 .leaf (.cut 1 .leaf .leaf))) (.cut 3 (.cut 0 .leaf (.cut 1 .leaf .leaf)) (.cut 0 .leaf .leaf)))))
theorem h284 : check par t284 [53056, 12160, 128, 128] [64, 128, 128, 128] st = true := by decide +kernel
def t285 : Tree := (.ref (.cut 2 (.cut 3 (.cut 0 (.cut 1 (.cut 2 .leaf .leaf) (.cut 2 (.cut 3 (.cut 0 .leaf (.cut 1 .leaf .leaf)) (.cut 0 .leaf .leaf)) (.cut 3 (.cut 0 .leaf .leaf) .leaf))) (.cut 1 (.cut 2 .leaf .leaf) (.cut 2 (.cut 3 (.cut 0 (.cut 1 .leaf .leaf) (.cut 1 .leaf .leaf)) (.cut 0 .leaf .leaf)) (.cut 3 (.cut 0 .leaf .leaf) .leaf)))) (.cut 0 (.cut 1 .leaf .leaf) (.cut 1 .leaf .leaf))) (.cut 3 (.cut 0 (.cut 1 .leaf .leaf) (.cut 1 .leaf .leaf)) (.cut 0 (.cut 1 .leaf .leaf) (.cut 1 .leaf .leaf)))))
theorem h285 : check par t285 [53184, 12096, 128, 128] [64, 64, 128, 128] st = true := by decide +kernel
def t286 : Tree := (.ref (.cut 1 (.cut 2 (.cut 3 (.cut 0 .leaf (.cut 1 .leaf .leaf)) (.cut 0 .leaf .leaf)) (.cut 3 (.cut 0 .leaf .leaf) .leaf)) (.cut 2 (.cut 3 (.cut 0 .leaf (.cut 1 .leaf .leaf)) (.cut 0 .leaf .leaf)) (.cut 3 (.cut 0 .leaf .leaf) (.cut 0 .leaf .leaf)))))
theorem h286 : check par t286 [53152, 12224, 64, 64] [32, 64, 64, 64] st = true := by decide +kernel
def t287 : Tree := (.ref (.cut 2 (.cut 3 (.cut 0 (.cut 1 (.cut 2 .leaf .leaf) (.cut 2 (.cut 3 .leaf .leaf) (.cut 3 .leaf .leaf))) (.cut 1 (.cut 2 (.cut 3 .leaf .leaf) .leaf) (.cut 2 (.cut 3 (.cut 0 .leaf (.cut 1 .leaf .leaf)) (.cut 0 .leaf .leaf)) (.cut 3 (.cut 0 .leaf .leaf) (.cut 0 .leaf .leaf))))) (.cut 0 (.cut 1 .leaf .leaf) (.cut 1 .leaf (.cut 2 .out .leaf)))) (.cut 3 (.cut 0 (.cut 1 .leaf .leaf) (.cut 1 .leaf (.cut 2 .leaf .leaf))) (.cut 0 (.cut 1 .leaf .leaf) (.cut 1 .leaf .leaf)))))
theorem h287 : check par t287 [53216, 12192, 64, 64] [32, 32, 64, 64] st = true := by decide +kernel
def t288 : Tree := (.ref (.cut 3 (.cut 0 (.cut 1 (.cut 2 (.cut 3 (.cut 0 .leaf .leaf) (.cut 0 .leaf .leaf)) (.cut 3 (.cut 0 .leaf .leaf) .leaf)) (.cut 2 (.cut 3 .leaf .leaf) .leaf)) (.cut 1 (.cut 2 (.cut 3 (.cut 0 (.cut 1 .leaf .leaf) (.cut 1 .leaf .leaf)) (.cut 0 .leaf (.cut 1 .leaf .leaf))) (.cut 3 (.cut 0 .leaf (.cut 1 .leaf .leaf)) (.cut 0 .leaf .leaf))) (.cut 2 (.cut 3 (.cut 0 .leaf (.cut 1 .leaf .leaf)) (.cut 0 .leaf (.cut 1 .leaf .leaf))) (.cut 3 (.cut 0 .leaf (.cut 1 .leaf .leaf)) (.cut 0 .leaf (.cut 1 .leaf .leaf)))))) (.cut 0 (.cut 1 .leaf .leaf) (.cut 1 (.cut 2 .out (.cut 3 .leaf .out)) (.cut 2 .out (.cut 3 (.cut 0 .leaf .leaf) .out))))))
theorem h288 : check par t288 [53216, 12256, 32, 64] [32, 32, 32, 64] st = true := by decide +kernel
def t289 : Tree := (.ref (.cut 3 (.cut 0 (.cut 1 .leaf .leaf) (.cut 1 (.cut 2 (.cut 3 .leaf .leaf) .leaf) (.cut 2 (.cut 3 (.cut 0 .leaf .leaf) (.cut 0 .leaf .leaf)) .leaf))) (.cut 0 (.cut 1 .leaf .leaf) (.cut 1 .leaf (.cut 2 .leaf .leaf)))))
theorem h289 : check par t289 [53216, 12256, 96, 64] [32, 32, 32, 64] st = true := by decide +kernel
def t290 : Tree := (.ref (.cut 0 (.cut 1 .leaf (.cut 2 .out .leaf)) (.cut 1 (.cut 2 .out (.cut 3 .leaf .out)) (.cut 2 .out (.cut 3 (.cut 0 .leaf .leaf) .out)))))
theorem h290 : check par t290 [53184, 12224, 64, 192] [64, 64, 64, 64] st = true := by decide +kernel
def t291 : Tree := (.ref (.cut 3 (.cut 0 (.cut 1 .leaf (.cut 2 .leaf .leaf)) (.cut 1 (.cut 2 (.cut 3 .leaf .leaf) .leaf) (.cut 2 (.cut 3 (.cut 0 .leaf .leaf) (.cut 0 .leaf .leaf)) .leaf))) (.cut 0 (.cut 1 .leaf .leaf) (.cut 1 (.cut 2 .leaf .leaf) (.cut 2 .leaf .leaf)))))
theorem h291 : check par t291 [53184, 12224, 192, 128] [64, 64, 64, 128] st = true := by decide +kernel
def t292 : Tree := (.ref (.cut 0 (.cut 1 .leaf (.cut 2 .out .leaf)) (.cut 1 (.cut 2 .out (.cut 3 .leaf .out)) (.cut 2 .out (.cut 3 (.cut 0 .leaf .leaf) .out)))))
theorem h292 : check par t292 [53120, 12160, 128, 384] [128, 128, 128, 128] st = true := by decide +kernel
def t293 : Tree := (.ref (.cut 3 (.cut 0 (.cut 1 .leaf (.cut 2 .leaf .leaf)) (.cut 1 (.cut 2 .leaf .leaf) (.cut 2 (.cut 3 (.cut 0 .leaf .leaf) (.cut 0 .leaf .leaf)) .leaf))) (.cut 0 (.cut 1 .leaf .leaf) (.cut 1 .leaf (.cut 2 .leaf .leaf)))))
theorem h293 : check par t293 [53120, 12160, 384, 256] [128, 128, 128, 256] st = true := by decide +kernel
def t294 : Tree := (.ref (.cut 0 (.cut 1 .leaf (.cut 2 .out .leaf)) (.cut 1 (.cut 2 .out .leaf) (.cut 2 .out (.cut 3 (.cut 0 .leaf .leaf) .out)))))
theorem h294 : check par t294 [52992, 12032, 256, 768] [256, 256, 256, 256] st = true := by decide +kernel
def t295 : Tree := (.ref (.cut 3 (.cut 0 (.cut 1 .leaf (.cut 2 .leaf .leaf)) (.cut 1 (.cut 2 .leaf .leaf) (.cut 2 (.cut 3 (.cut 0 .leaf .leaf) (.cut 0 .leaf .leaf)) .leaf))) (.cut 0 (.cut 1 .leaf .leaf) (.cut 1 .leaf (.cut 2 .leaf .leaf)))))
theorem h295 : check par t295 [52992, 12032, 768, 512] [256, 256, 256, 512] st = true := by decide +kernel
def t296 : Tree := (.ref (.cut 0 (.cut 1 (.cut 2 .out .leaf) (.cut 2 .out .leaf)) (.cut 1 (.cut 2 .out .leaf) (.cut 2 .out (.cut 3 (.cut 0 .leaf .leaf) .out)))))
theorem h296 : check par t296 [52736, 11776, 512, 1536] [512, 512, 512, 512] st = true := by decide +kernel
def t297 : Tree := (.ref (.cut 3 (.cut 0 (.cut 1 (.cut 2 .leaf .leaf) (.cut 2 .leaf .leaf)) (.cut 1 (.cut 2 .leaf .leaf) (.cut 2 (.cut 3 (.cut 0 .leaf .leaf) (.cut 0 .leaf .leaf)) .leaf))) (.cut 0 (.cut 1 .leaf .leaf) (.cut 1 .leaf (.cut 2 .leaf .leaf)))))
theorem h297 : check par t297 [52736, 11776, 1536, 1024] [512, 512, 512, 1024] st = true := by decide +kernel
def t298 : Tree := (.ref (.cut 0 (.cut 1 (.cut 2 .out .leaf) (.cut 2 .out (.cut 3 .leaf .out))) (.cut 1 (.cut 2 .out (.cut 3 .leaf .out)) (.cut 2 .out (.cut 3 (.cut 0 .leaf .leaf) .out)))))
theorem h298 : check par t298 [52224, 11264, 1024, 3072] [1024, 1024, 1024, 1024] st = true := by decide +kernel
def t299 : Tree := (.ref (.cut 3 (.cut 0 (.cut 1 (.cut 2 .leaf .leaf) (.cut 2 .leaf .leaf)) (.cut 1 (.cut 2 .leaf .leaf) (.cut 2 (.cut 3 (.cut 0 .leaf .leaf) (.cut 0 .leaf .leaf)) .leaf))) (.cut 0 (.cut 1 .leaf .leaf) (.cut 1 .leaf (.cut 2 (.cut 3 .leaf .leaf) .leaf)))))
theorem h299 : check par t299 [52224, 11264, 3072, 2048] [1024, 1024, 1024, 2048] st = true := by decide +kernel
def t300 : Tree := (.ref (.cut 0 (.cut 1 (.cut 2 .out (.cut 3 .leaf .out)) (.cut 2 .out (.cut 3 .leaf .out))) (.cut 1 (.cut 2 .out (.cut 3 .leaf .out)) (.cut 2 .out (.cut 3 (.cut 0 .leaf .leaf) .out)))))
theorem h300 : check par t300 [51200, 10240, 2048, 6144] [2048, 2048, 2048, 2048] st = true := by decide +kernel
def t301 : Tree := (.ref (.cut 3 (.cut 0 (.cut 1 (.cut 2 (.cut 3 .leaf .leaf) .leaf) (.cut 2 (.cut 3 (.cut 0 .leaf .leaf) .leaf) .leaf)) (.cut 1 (.cut 2 (.cut 3 .leaf .leaf) .leaf) (.cut 2 (.cut 3 (.cut 0 .leaf .leaf) (.cut 0 .leaf .leaf)) .leaf))) (.cut 0 (.cut 1 (.cut 2 .leaf .leaf) (.cut 2 (.cut 3 .leaf .leaf) .leaf)) (.cut 1 (.cut 2 .leaf .leaf) (.cut 2 (.cut 3 .leaf .leaf) .leaf)))))
theorem h301 : check par t301 [51200, 10240, 6144, 4096] [2048, 2048, 2048, 4096] st = true := by decide +kernel
def t302 : Tree := (.ref (.cut 1 (.cut 2 (.cut 3 (.cut 0 (.cut 1 .leaf .leaf) (.cut 1 (.cut 2 (.cut 3 .leaf .leaf) .leaf) .leaf)) (.cut 0 .leaf (.cut 1 .leaf .leaf))) (.cut 3 (.cut 0 .leaf (.cut 1 .leaf .leaf)) (.cut 0 .leaf (.cut 1 .leaf .leaf)))) (.cut 2 (.cut 3 (.cut 0 .leaf .leaf) (.cut 0 .leaf .leaf)) (.cut 3 (.cut 0 .leaf .leaf) .leaf))))
theorem h302 : check par t302 [50176, 14336, 2048, 2048] [1024, 2048, 2048, 2048] st = true := by decide +kernel
def t303 : Tree := (.ref (.cut 1 (.cut 2 (.cut 3 (.cut 0 .leaf (.cut 1 (.cut 2 .leaf .leaf) .leaf)) (.cut 0 .leaf (.cut 1 .leaf .leaf))) (.cut 3 (.cut 0 .leaf (.cut 1 .leaf .leaf)) (.cut 0 .leaf .leaf))) (.cut 2 (.cut 3 .leaf .leaf) .leaf)))
theorem h303 : check par t303 [51712, 13312, 1024, 1024] [512, 1024, 1024, 1024] st = true := by decide +kernel
def t304 : Tree := (.ref (.cut 1 (.cut 2 (.cut 3 (.cut 0 .leaf (.cut 1 .leaf .leaf)) (.cut 0 .leaf .leaf)) (.cut 3 (.cut 0 .leaf .leaf) (.cut 0 .leaf .leaf))) (.cut 2 (.cut 3 .leaf .leaf) .leaf)))
theorem h304 : check par t304 [52480, 12800, 512, 512] [256, 512, 512, 512] st = true := by decide +kernel
def t305 : Tree := (.ref (.cut 1 (.cut 2 (.cut 3 (.cut 0 .leaf (.cut 1 .leaf .leaf)) (.cut 0 .leaf .leaf)) (.cut 3 (.cut 0 .leaf .leaf) (.cut 0 .leaf .leaf))) .leaf))
theorem h305 : check par t305 [52864, 12544, 256, 256] [128, 256, 256, 256] st = true := by decide +kernel
def t306 : Tree := (.ref (.cut 1 (.cut 2 (.cut 3 (.cut 0 .leaf .leaf) (.cut 0 .leaf .leaf)) (.cut 3 (.cut 0 .leaf .leaf) (.cut 0 .leaf .leaf))) .leaf))
theorem h306 : check par t306 [53056, 12416, 128, 128] [64, 128, 128, 128] st = true := by decide +kernel
def t307 : Tree := (.ref (.cut 2 (.cut 3 (.cut 0 (.cut 1 (.cut 2 (.cut 3 .leaf .leaf) .leaf) .leaf) (.cut 1 (.cut 2 (.cut 3 (.cut 0 (.cut 1 .leaf .leaf) (.cut 1 (.cut 2 (.cut 3 (.cut 0 .leaf .leaf) (.cut 0 .leaf .leaf)) (.cut 3 (.cut 0 .leaf .leaf) .leaf)) .leaf)) (.cut 0 .leaf (.cut 1 (.cut 2 .out .leaf) .leaf))) (.cut 3 (.cut 0 .leaf (.cut 1 (.cut 2 .leaf .leaf) .leaf)) (.cut 0 .leaf (.cut 1 .leaf .leaf)))) (.cut 2 (.cut 3 .leaf .leaf) (.cut 3 .leaf .leaf)))) (.cut 0 (.cut 1 .leaf .leaf) (.cut 1 (.cut 2 .out (.cut 3 (.cut 0 .leaf .leaf) .out)) (.cut 2 .out .leaf)))) (.cut 3 (.cut 0 (.cut 1 .leaf .leaf) (.cut 1 (.cut 2 (.cut 3 (.cut 0 .leaf .leaf) (.cut 0 .leaf .leaf)) .leaf) (.cut 2 .leaf .leaf))) (.cut 0 (.cut 1 .leaf .leaf) (.cut 1 (.cut 2 (.cut 3 .leaf .leaf) .leaf) .leaf)))))
theorem h307 : check par t307 [53184, 12352, 128, 128] [64, 64, 128, 128] st = true := by decide +kernel
def t308 : Tree := (.ref (.cut 2 (.cut 3 (.cut 0 .leaf .leaf) (.cut 0 .leaf .leaf)) (.cut 3 (.cut 0 .leaf .leaf) (.cut 0 .leaf .leaf))))
theorem h308 : check par t308 [53184, 12480, 128, 128] [64, 64, 128, 128] st = true := by decide +kernel
def t309 : Tree := (.ref (.cut 0 (.cut 1 .leaf .leaf) (.cut 1 (.cut 2 .out (.cut 3 (.cut 0 .leaf .leaf) .out)) (.cut 2 .out (.cut 3 .leaf .out)))))
theorem h309 : check par t309 [53120, 12416, 128, 384] [128, 128, 128, 128] st = true := by decide +kernel
def t310 : Tree := (.ref (.cut 3 (.cut 0 (.cut 1 .leaf .leaf) (.cut 1 (.cut 2 (.cut 3 (.cut 0 .leaf .leaf) (.cut 0 .leaf .leaf)) .leaf) (.cut 2 .leaf .leaf))) (.cut 0 (.cut 1 .leaf .leaf) (.cut 1 (.cut 2 (.cut 3 .leaf .leaf) .leaf) .leaf))))
theorem h310 : check par t310 [53120, 12416, 384, 256] [128, 128, 128, 256] st = true := by decide +kernel
def t311 : Tree := (.ref (.cut 2 (.cut 3 (.cut 0 .leaf (.cut 1 .leaf .leaf)) (.cut 0 .leaf (.cut 1 .leaf .leaf))) (.cut 3 (.cut 0 .leaf (.cut 1 .leaf .leaf)) (.cut 0 .leaf (.cut 1 .leaf .leaf)))))
theorem h311 : check par t311 [53120, 12672, 256, 256] [128, 128, 256, 256] st = true := by decide +kernel
def t312 : Tree := (.ref (.cut 0 (.cut 1 (.cut 2 .out .leaf) .leaf) (.cut 1 (.cut 2 .out (.cut 3 (.cut 0 .leaf .leaf) .out)) (.cut 2 .out (.cut 3 .leaf .out)))))
theorem h312 : check par t312 [52992, 12544, 256, 768] [256, 256, 256, 256] st = true := by decide +kernel
def t313 : Tree := (.ref (.cut 3 (.cut 0 (.cut 1 (.cut 2 .leaf .leaf) .leaf) (.cut 1 (.cut 2 (.cut 3 (.cut 0 .leaf .leaf) (.cut 0 .leaf .leaf)) .leaf) (.cut 2 (.cut 3 (.cut 0 .leaf .leaf) .leaf) .leaf))) (.cut 0 (.cut 1 .leaf .leaf) (.cut 1 (.cut 2 (.cut 3 .leaf .leaf) .leaf) (.cut 2 .leaf .leaf)))))
theorem h313 : check par t313 [52992, 12544, 768, 512] [256, 256, 256, 512] st = true := by decide +kernel
def t314 : Tree := (.ref (.cut 2 (.cut 3 (.cut 0 .leaf (.cut 1 .leaf .leaf)) (.cut 0 .leaf (.cut 1 .leaf .leaf))) (.cut 3 (.cut 0 .leaf (.cut 1 .leaf .leaf)) (.cut 0 .leaf (.cut 1 .leaf .leaf)))))
theorem h314 : check par t314 [52992, 13056, 512, 512] [256, 256, 512, 512] st = true := by decide +kernel
def t315 : Tree := (.ref (.cut 0 (.cut 1 (.cut 2 .out .leaf) .leaf) (.cut 1 (.cut 2 .out (.cut 3 (.cut 0 .leaf .leaf) .out)) (.cut 2 .out (.cut 3 (.cut 0 .leaf .leaf) .out)))))
theorem h315 : check par t315 [52736, 12800, 512, 1536] [512, 512, 512, 512] st = true := by decide +kernel
def t316 : Tree := (.ref (.cut 3 (.cut 0 (.cut 1 (.cut 2 .leaf .leaf) .leaf) (.cut 1 (.cut 2 (.cut 3 (.cut 0 .leaf .leaf) (.cut 0 .leaf .leaf)) .leaf) (.cut 2 (.cut 3 (.cut 0 .leaf .leaf) (.cut 0 .leaf .leaf)) .leaf))) (.cut 0 (.cut 1 .leaf .leaf) (.cut 1 (.cut 2 (.cut 3 .leaf .leaf) .leaf) (.cut 2 (.cut 3 .leaf .leaf) .leaf)))))
theorem h316 : check par t316 [52736, 12800, 1536, 1024] [512, 512, 512, 1024] st = true := by decide +kernel
def t317 : Tree := (.ref (.cut 2 (.cut 3 (.cut 0 .leaf (.cut 1 (.cut 2 .leaf .leaf) .leaf)) (.cut 0 .leaf (.cut 1 .leaf .leaf))) (.cut 3 (.cut 0 .leaf (.cut 1 .leaf .leaf)) (.cut 0 .leaf (.cut 1 .leaf .leaf)))))
theorem h317 : check par t317 [52736, 13824, 1024, 1024] [512, 512, 1024, 1024] st = true := by decide +kernel
def t318 : Tree := (.ref (.cut 0 (.cut 1 (.cut 2 .out (.cut 3 .leaf .out)) .leaf) (.cut 1 (.cut 2 .out (.cut 3 (.cut 0 .leaf .leaf) .out)) (.cut 2 .out (.cut 3 (.cut 0 .leaf .leaf) .out)))))
theorem h318 : check par t318 [52224, 13312, 1024, 3072] [1024, 1024, 1024, 1024] st = true := by decide +kernel
def t319 : Tree := (.ref (.cut 3 (.cut 0 (.cut 1 (.cut 2 .leaf .leaf) .leaf) (.cut 1 (.cut 2 (.cut 3 (.cut 0 .leaf .leaf) (.cut 0 .leaf .leaf)) .leaf) (.cut 2 (.cut 3 (.cut 0 .leaf .leaf) (.cut 0 .leaf .leaf)) .leaf))) (.cut 0 (.cut 1 (.cut 2 .leaf .leaf) .leaf) (.cut 1 (.cut 2 (.cut 3 .leaf .leaf) .leaf) (.cut 2 (.cut 3 .leaf .leaf) .leaf)))))
theorem h319 : check par t319 [52224, 13312, 3072, 2048] [1024, 1024, 1024, 2048] st = true := by decide +kernel
def t320 : Tree := (.ref (.cut 2 (.cut 3 (.cut 0 (.cut 1 .leaf .leaf) (.cut 1 (.cut 2 (.cut 3 .leaf .leaf) .leaf) .leaf)) (.cut 0 (.cut 1 .leaf .leaf) (.cut 1 (.cut 2 .out .leaf) .leaf))) (.cut 3 (.cut 0 (.cut 1 .leaf .leaf) (.cut 1 (.cut 2 .leaf .leaf) .leaf)) (.cut 0 .leaf (.cut 1 .leaf .leaf)))))
theorem h320 : check par t320 [52224, 15360, 2048, 2048] [1024, 1024, 2048, 2048] st = true := by decide +kernel
def t321 : Tree := (.ref (.cut 0 (.cut 1 (.cut 2 .out (.cut 3 (.cut 0 .leaf .leaf) .out)) (.cut 2 .out .leaf)) (.cut 1 (.cut 2 .out (.cut 3 (.cut 0 .leaf .leaf) .out)) (.cut 2 .out (.cut 3 (.cut 0 .leaf .leaf) .out)))))
theorem h321 : check par t321 [51200, 14336, 2048, 6144] [2048, 2048, 2048, 2048] st = true := by decide +kernel
def t322 : Tree := (.ref (.cut 3 (.cut 0 (.cut 1 (.cut 2 (.cut 3 (.cut 0 .leaf .leaf) (.cut 0 .leaf .leaf)) .leaf) (.cut 2 .leaf .leaf)) (.cut 1 (.cut 2 (.cut 3 (.cut 0 .leaf (.cut 1 .leaf .leaf)) (.cut 0 .leaf .leaf)) .leaf) (.cut 2 (.cut 3 (.cut 0 .leaf .leaf) (.cut 0 .leaf .leaf)) .leaf))) (.cut 0 (.cut 1 (.cut 2 (.cut 3 .leaf .leaf) .leaf) (.cut 2 .leaf .leaf)) (.cut 1 (.cut 2 (.cut 3 (.cut 0 .leaf .leaf) .leaf) .leaf) (.cut 2 (.cut 3 (.cut 0 .leaf .leaf) .leaf) .leaf)))))
theorem h322 : check par t322 [51200, 14336, 6144, 4096] [2048, 2048, 2048, 4096] st = true := by decide +kernel
def t323 : Tree := (.ref (.cut 2 (.cut 3 (.cut 0 (.cut 1 .leaf (.cut 2 .leaf .leaf)) .leaf) (.cut 0 (.cut 1 .leaf .leaf) .leaf)) (.cut 3 (.cut 0 (.cut 1 .leaf .leaf) .leaf) (.cut 0 .leaf .leaf))))
theorem h323 : check par t323 [54272, 9216, 2048, 2048] [1024, 1024, 2048, 2048] st = true := by decide +kernel
def t324 : Tree := (.ref (.cut 2 (.cut 3 (.cut 0 (.cut 1 .leaf (.cut 2 .leaf .leaf)) .leaf) (.cut 0 (.cut 1 .leaf .leaf) .leaf)) (.cut 3 (.cut 0 (.cut 1 .leaf .leaf) .leaf) (.cut 0 .leaf .leaf))))
theorem h324 : check par t324 [53760, 10752, 1024, 1024] [512, 512, 1024, 1024] st = true := by decide +kernel
def t325 : Tree := (.ref (.cut 2 (.cut 3 (.cut 0 (.cut 1 .leaf (.cut 2 (.cut 3 .leaf .leaf) .leaf)) (.cut 1 .leaf .leaf)) (.cut 0 (.cut 1 .leaf .leaf) .leaf)) (.cut 3 (.cut 0 (.cut 1 .leaf .leaf) .leaf) (.cut 0 .leaf .leaf))))
theorem h325 : check par t325 [53504, 11520, 512, 512] [256, 256, 512, 512] st = true := by decide +kernel
def t326 : Tree := (.ref (.cut 2 (.cut 3 (.cut 0 (.cut 1 .leaf (.cut 2 (.cut 3 (.cut 0 .leaf .leaf) .leaf) .leaf)) (.cut 1 .leaf .leaf)) (.cut 0 (.cut 1 .leaf .leaf) .leaf)) (.cut 3 (.cut 0 (.cut 1 .leaf .leaf) .leaf) (.cut 0 (.cut 1 .leaf .leaf) .leaf))))
theorem h326 : check par t326 [53376, 11904, 256, 256] [128, 128, 256, 256] st = true := by decide +kernel
def t327 : Tree := (.ref (.cut 2 (.cut 3 (.cut 0 (.cut 1 .leaf (.cut 2 (.cut 3 (.cut 0 .leaf .leaf) (.cut 0 .leaf .leaf)) (.cut 3 (.cut 0 .leaf .leaf) .leaf))) (.cut 1 .leaf .leaf)) (.cut 0 (.cut 1 .leaf .leaf) (.cut 1 .leaf .leaf))) (.cut 3 (.cut 0 (.cut 1 .leaf .leaf) (.cut 1 .leaf .leaf)) (.cut 0 (.cut 1 .leaf .leaf) .leaf))))
theorem h327 : check par t327 [53312, 12096, 128, 128] [64, 64, 128, 128] st = true := by decide +kernel
def t328 : Tree := (.ref (.cut 2 (.cut 3 (.cut 0 (.cut 1 (.cut 2 .leaf .leaf) (.cut 2 (.cut 3 (.cut 0 (.cut 1 .leaf .leaf) (.cut 1 .leaf .leaf)) (.cut 0 (.cut 1 .leaf .leaf) .leaf)) (.cut 3 (.cut 0 (.cut 1 .leaf .leaf) .leaf) (.cut 0 .leaf .leaf)))) (.cut 1 .leaf (.cut 2 (.cut 3 (.cut 0 .leaf .leaf) (.cut 0 .leaf .leaf)) (.cut 3 (.cut 0 .leaf .leaf) .leaf)))) (.cut 0 (.cut 1 .leaf (.cut 2 .out (.cut 3 .leaf .out))) (.cut 1 .leaf (.cut 2 .out .leaf)))) (.cut 3 (.cut 0 (.cut 1 .leaf (.cut 2 (.cut 3 .leaf .leaf) .leaf)) (.cut 1 .leaf (.cut 2 .leaf .leaf))) (.cut 0 (.cut 1 .leaf .leaf) (.cut 1 .leaf .leaf)))))
theorem h328 : check par t328 [53280, 12192, 64, 64] [32, 32, 64, 64] st = true := by decide +kernel
def t329 : Tree := (.ref (.cut 2 (.cut 3 (.cut 0 (.cut 1 .leaf (.cut 2 (.cut 3 .leaf .leaf) (.cut 3 .leaf .leaf))) (.cut 1 (.cut 2 (.cut 3 .leaf .leaf) .leaf) (.cut 2 (.cut 3 (.cut 0 .leaf .leaf) .leaf) (.cut 3 .leaf (.cut 0 .leaf .leaf))))) (.cut 0 (.cut 1 .leaf (.cut 2 .out (.cut 3 .leaf .out))) (.cut 1 .leaf (.cut 2 .out (.cut 3 .leaf .out))))) (.cut 3 (.cut 0 (.cut 1 .leaf (.cut 2 .leaf .leaf)) (.cut 1 .leaf (.cut 2 (.cut 3 (.cut 0 .leaf .leaf) .leaf) .leaf))) (.cut 0 (.cut 1 .leaf .leaf) (.cut 1 .leaf .leaf)))))
theorem h329 : check par t329 [53264, 12240, 32, 32] [16, 16, 32, 32] st = true := by decide +kernel
def t330 : Tree := (.ref (.cut 3 (.cut 0 (.cut 1 (.cut 2 (.cut 3 (.cut 0 .leaf .leaf) .leaf) (.cut 3 .leaf (.cut 0 .leaf .leaf))) (.cut 2 (.cut 3 .leaf .leaf) (.cut 3 .leaf .leaf))) (.cut 1 (.cut 2 (.cut 3 (.cut 0 .leaf .leaf) (.cut 0 .leaf .leaf)) (.cut 3 (.cut 0 .leaf .leaf) (.cut 0 .leaf .leaf))) (.cut 2 (.cut 3 (.cut 0 .leaf .leaf) (.cut 0 .leaf .leaf)) (.cut 3 (.cut 0 .leaf .leaf) (.cut 0 .leaf (.cut 1 .leaf .leaf)))))) (.cut 0 (.cut 1 (.cut 2 .out (.cut 3 .leaf .out)) (.cut 2 .out .leaf)) (.cut 1 (.cut 2 .out (.cut 3 (.cut 0 .leaf .leaf) .out)) (.cut 2 .out (.cut 3 (.cut 0 .leaf .leaf) .out))))))
theorem h330 : check par t330 [53264, 12272, 16, 32] [16, 16, 16, 32] st = true := by decide +kernel
def t331 : Tree := (.ref (.cut 3 (.cut 0 (.cut 1 (.cut 2 (.cut 3 (.cut 0 .leaf .leaf) .leaf) .leaf) (.cut 2 .leaf .leaf)) (.cut 1 (.cut 2 (.cut 3 (.cut 0 .leaf .leaf) (.cut 0 .leaf .leaf)) (.cut 3 .leaf .leaf)) (.cut 2 (.cut 3 (.cut 0 .leaf (.cut 1 .leaf .leaf)) (.cut 0 .leaf .leaf)) (.cut 3 (.cut 0 .leaf .leaf) (.cut 0 .leaf .leaf))))) (.cut 0 (.cut 1 .leaf .leaf) (.cut 1 (.cut 2 (.cut 3 .leaf .leaf) .leaf) (.cut 2 (.cut 3 (.cut 0 .leaf .leaf) .leaf) (.cut 3 .leaf .leaf))))))
theorem h331 : check par t331 [53264, 12272, 48, 32] [16, 16, 16, 32] st = true := by decide +kernel
def t332 : Tree := (.ref (.cut 2 (.cut 3 (.cut 0 (.cut 1 .leaf (.cut 2 (.cut 3 (.cut 0 .leaf .leaf) (.cut 0 .leaf .leaf)) (.cut 3 (.cut 0 .leaf .leaf) (.cut 0 .leaf .leaf)))) (.cut 1 .leaf .leaf)) (.cut 0 (.cut 1 .leaf (.cut 2 .out (.cut 3 (.cut 0 .leaf .leaf) .out))) (.cut 1 .leaf .leaf))) (.cut 3 (.cut 0 (.cut 1 .leaf (.cut 2 (.cut 3 (.cut 0 .leaf .leaf) (.cut 0 .leaf .leaf)) .leaf)) (.cut 1 .leaf .leaf)) (.cut 0 (.cut 1 .leaf (.cut 2 .leaf .leaf)) (.cut 1 .leaf .leaf)))))
theorem h332 : check par t332 [53296, 12240, 32, 32] [16, 16, 32, 32] st = true := by decide +kernel
def t333 : Tree := (.ref (.cut 3 (.cut 0 (.cut 1 (.cut 2 (.cut 3 (.cut 0 .leaf .leaf) (.cut 0 .leaf .leaf)) (.cut 3 (.cut 0 .leaf .leaf) (.cut 0 (.cut 1 .leaf .leaf) (.cut 1 .leaf .leaf)))) (.cut 2 (.cut 3 .leaf (.cut 0 (.cut 1 .leaf .leaf) .leaf)) (.cut 3 (.cut 0 (.cut 1 .leaf .leaf) .leaf) (.cut 0 (.cut 1 .leaf .leaf) .leaf)))) (.cut 1 (.cut 2 (.cut 3 .leaf (.cut 0 .leaf .leaf)) (.cut 3 (.cut 0 .leaf .leaf) (.cut 0 .leaf .leaf))) (.cut 2 (.cut 3 .leaf (.cut 0 .leaf .leaf)) (.cut 3 (.cut 0 .leaf .leaf) (.cut 0 (.cut 1 .leaf .leaf) .leaf))))) (.cut 0 (.cut 1 (.cut 2 .out (.cut 3 (.cut 0 .leaf (.cut 1 .leaf .leaf)) .out)) (.cut 2 .out (.cut 3 (.cut 0 .leaf .leaf) .out))) (.cut 1 (.cut 2 .out (.cut 3 (.cut 0 .leaf .leaf) .out)) (.cut 2 .out (.cut 3 (.cut 0 .leaf .leaf) .out))))))
theorem h333 : check par t333 [53296, 12272, 16, 32] [16, 16, 16, 32] st = true := by decide +kernel
def t334 : Tree := (.ref (.cut 0 (.cut 1 (.cut 2 (.cut 3 (.cut 0 (.cut 1 .leaf .leaf) (.cut 1 .leaf .leaf)) (.cut 0 .leaf (.cut 1 .leaf .leaf))) (.cut 3 (.cut 0 .leaf .leaf) (.cut 0 .leaf .leaf))) (.cut 2 (.cut 3 (.cut 0 (.cut 1 .leaf .leaf) .leaf) (.cut 0 .leaf .leaf)) (.cut 3 (.cut 0 .leaf .leaf) (.cut 0 .leaf .leaf)))) (.cut 1 (.cut 2 (.cut 3 (.cut 0 .leaf .leaf) (.cut 0 .leaf .leaf)) (.cut 3 (.cut 0 .leaf .leaf) (.cut 0 .leaf .leaf))) (.cut 2 (.cut 3 (.cut 0 (.cut 1 .leaf .leaf) .leaf) (.cut 0 .leaf .leaf)) (.cut 3 (.cut 0 .leaf .leaf) (.cut 0 .leaf .leaf))))))
theorem h334 : check par t334 [53296, 12272, 48, 16] [16, 16, 16, 16] st = true := by decide +kernel
def t335 : Tree := (.ref (.cut 0 (.cut 1 (.cut 2 (.cut 3 (.cut 0 .leaf .leaf) .leaf) (.cut 3 .leaf .leaf)) (.cut 2 (.cut 3 (.cut 0 .leaf .leaf) .leaf) (.cut 3 .leaf .leaf))) (.cut 1 (.cut 2 (.cut 3 (.cut 0 .leaf .leaf) .leaf) (.cut 3 .leaf .leaf)) (.cut 2 (.cut 3 (.cut 0 .leaf .leaf) (.cut 0 .leaf .leaf)) (.cut 3 (.cut 0 .leaf .leaf) .leaf)))))
theorem h335 : check par t335 [53296, 12272, 48, 48] [16, 16, 16, 16] st = true := by decide +kernel
def t336 : Tree := (.ref (.cut 0 (.cut 1 (.cut 2 .out (.cut 3 (.cut 0 .leaf (.cut 1 .leaf .leaf)) .out)) (.cut 2 .out (.cut 3 (.cut 0 (.cut 1 .leaf .leaf) (.cut 1 .leaf .leaf)) .out))) (.cut 1 (.cut 2 .out (.cut 3 (.cut 0 (.cut 1 .leaf .leaf) (.cut 1 .leaf .leaf)) .out)) (.cut 2 .out (.cut 3 (.cut 0 (.cut 1 .leaf (.cut 2 .out .leaf)) (.cut 1 .leaf (.cut 2 .out .leaf))) .out)))))
theorem h336 : check par t336 [53280, 12256, 32, 96] [32, 32, 32, 32] st = true := by decide +kernel
def t337 : Tree := (.ref (.cut 0 (.cut 1 (.cut 2 (.cut 3 (.cut 0 .leaf (.cut 1 .leaf .leaf)) (.cut 0 .leaf (.cut 1 .leaf .leaf))) .leaf) (.cut 2 (.cut 3 (.cut 0 (.cut 1 .leaf .leaf) (.cut 1 .leaf (.cut 2 .leaf .leaf))) (.cut 0 (.cut 1 .leaf .leaf) (.cut 1 .leaf .leaf))) .leaf)) (.cut 1 (.cut 2 (.cut 3 (.cut 0 (.cut 1 .leaf .leaf) (.cut 1 .leaf .leaf)) (.cut 0 (.cut 1 .leaf .leaf) (.cut 1 .leaf .leaf))) .leaf) (.cut 2 (.cut 3 (.cut 0 (.cut 1 (.cut 2 .leaf .leaf) (.cut 2 .leaf .leaf)) (.cut 1 (.cut 2 .leaf .leaf) (.cut 2 (.cut 3 .leaf .leaf) .leaf))) (.cut 0 (.cut 1 .leaf (.cut 2 .leaf .leaf)) (.cut 1 .leaf (.cut 2 .leaf .leaf)))) (.cut 3 (.cut 0 .leaf .leaf) .leaf)))))
theorem h337 : check par t337 [53280, 12256, 96, 32] [32, 32, 32, 32] st = true := by decide +kernel
def t338 : Tree := (.ref (.cut 0 (.cut 1 (.cut 2 (.cut 3 .leaf .leaf) .leaf) (.cut 2 (.cut 3 (.cut 0 .leaf .leaf) .leaf) .leaf)) (.cut 1 (.cut 2 (.cut 3 (.cut 0 .leaf .leaf) .leaf) .leaf) (.cut 2 (.cut 3 (.cut 0 .leaf (.cut 1 .leaf .leaf)) .leaf) (.cut 3 .leaf .leaf)))))
theorem h338 : check par t338 [53280, 12256, 96, 96] [32, 32, 32, 32] st = true := by decide +kernel
def t339 : Tree := (.ref (.cut 2 (.cut 3 (.cut 0 (.cut 1 .leaf .leaf) .leaf) (.cut 0 (.cut 1 .leaf .leaf) .leaf)) (.cut 3 (.cut 0 (.cut 1 .leaf .leaf) .leaf) (.cut 0 (.cut 1 .leaf .leaf) .leaf))))
theorem h339 : check par t339 [53344, 12192, 64, 64] [32, 32, 64, 64] st = true := by decide +kernel
def t340 : Tree := (.ref (.cut 1 (.cut 2 (.cut 3 (.cut 0 .leaf .leaf) (.cut 0 .leaf .leaf)) (.cut 3 (.cut 0 .leaf .leaf) (.cut 0 .leaf .leaf))) (.cut 2 (.cut 3 (.cut 0 (.cut 1 .leaf (.cut 2 (.cut 3 .leaf (.cut 0 .leaf .leaf)) (.cut 3 (.cut 0 .leaf .leaf) (.cut 0 .leaf .leaf)))) (.cut 1 .leaf .leaf)) (.cut 0 (.cut 1 .leaf (.cut 2 .out (.cut 3 (.cut 0 .leaf .leaf) .out))) (.cut 1 .leaf .leaf))) (.cut 3 (.cut 0 (.cut 1 .leaf (.cut 2 (.cut 3 (.cut 0 .leaf .leaf) (.cut 0 .leaf .leaf)) (.cut 3 (.cut 0 .leaf .leaf) (.cut 0 .leaf .leaf)))) (.cut 1 .leaf .leaf)) (.cut 0 (.cut 1 .leaf (.cut 2 (.cut 3 (.cut 0 .leaf .leaf) (.cut 0 .leaf .leaf)) (.cut 3 (.cut 0 .leaf .leaf) .leaf))) (.cut 1 .leaf .leaf))))))
theorem h340 : check par t340 [53328, 12256, 32, 32] [16, 32, 32, 32] st = true := by decide +kernel
def t341 : Tree := (.ref (.cut 1 .leaf (.cut 2 (.cut 3 (.cut 0 .leaf .leaf) (.cut 0 .leaf .leaf)) (.cut 3 (.cut 0 .leaf .leaf) (.cut 0 .leaf .leaf)))))
theorem h341 : check par t341 [53360, 12256, 32, 32] [16, 32, 32, 32] st = true := by decide +kernel
def t342 : Tree := (.ref (.cut 0 (.cut 1 (.cut 2 .out (.cut 3 (.cut 0 .leaf .leaf) .out)) (.cut 2 .out (.cut 3 (.cut 0 (.cut 1 .leaf (.cut 2 .out .leaf)) (.cut 1 .leaf .leaf)) .out))) (.cut 1 .leaf (.cut 2 .out (.cut 3 (.cut 0 .leaf .leaf) .out)))))
theorem h342 : check par t342 [53344, 12256, 32, 96] [32, 32, 32, 32] st = true := by decide +kernel
def t343 : Tree := (.ref (.cut 3 (.cut 0 (.cut 1 (.cut 2 (.cut 3 (.cut 0 .leaf .leaf) (.cut 0 .leaf .leaf)) .leaf) (.cut 2 (.cut 3 (.cut 0 (.cut 1 .leaf (.cut 2 (.cut 3 .leaf .leaf) .leaf)) (.cut 1 .leaf .leaf)) (.cut 0 (.cut 1 .leaf (.cut 2 .leaf .leaf)) (.cut 1 .leaf .leaf))) (.cut 3 (.cut 0 .leaf .leaf) (.cut 0 .leaf .leaf)))) (.cut 1 .leaf (.cut 2 (.cut 3 (.cut 0 .leaf .leaf) (.cut 0 .leaf .leaf)) .leaf))) (.cut 0 (.cut 1 (.cut 2 .leaf .leaf) (.cut 2 (.cut 3 (.cut 0 (.cut 1 .leaf .leaf) .leaf) (.cut 0 .leaf .leaf)) (.cut 3 (.cut 0 .leaf .leaf) .leaf))) (.cut 1 .leaf (.cut 2 (.cut 3 .leaf .leaf) .leaf)))))
theorem h343 : check par t343 [53344, 12256, 96, 64] [32, 32, 32, 64] st = true := by decide +kernel
def t344 : Tree := (.ref (.cut 0 (.cut 1 (.cut 2 .out (.cut 3 (.cut 0 .leaf .leaf) .out)) (.cut 2 .out (.cut 3 (.cut 0 (.cut 1 .leaf .leaf) (.cut 1 .leaf .leaf)) .out))) (.cut 1 (.cut 2 .out (.cut 3 .leaf .out)) (.cut 2 .out (.cut 3 (.cut 0 (.cut 1 .leaf .leaf) (.cut 1 .leaf .leaf)) .out)))))
theorem h344 : check par t344 [53312, 12224, 64, 192] [64, 64, 64, 64] st = true := by decide +kernel
def t345 : Tree := (.ref (.cut 3 (.cut 0 (.cut 1 (.cut 2 (.cut 3 (.cut 0 .leaf .leaf) (.cut 0 .leaf .leaf)) .leaf) (.cut 2 (.cut 3 (.cut 0 (.cut 1 .leaf .leaf) (.cut 1 .leaf .leaf)) (.cut 0 (.cut 1 .leaf .leaf) (.cut 1 .leaf .leaf))) .leaf)) (.cut 1 (.cut 2 (.cut 3 (.cut 0 .leaf .leaf) .leaf) .leaf) (.cut 2 (.cut 3 (.cut 0 (.cut 1 .leaf .leaf) (.cut 1 .leaf .leaf)) (.cut 0 (.cut 1 .leaf .leaf) (.cut 1 .leaf .leaf))) (.cut 3 .leaf .leaf)))) (.cut 0 (.cut 1 (.cut 2 .leaf .leaf) (.cut 2 (.cut 3 (.cut 0 .leaf .leaf) .leaf) .leaf)) (.cut 1 (.cut 2 .leaf .leaf) (.cut 2 (.cut 3 (.cut 0 .leaf .leaf) .leaf) .leaf)))))
theorem h345 : check par t345 [53312, 12224, 192, 128] [64, 64, 64, 128] st = true := by decide +kernel
def t346 : Tree := (.ref (.cut 1 (.cut 2 (.cut 3 (.cut 0 .leaf .leaf) (.cut 0 .leaf .leaf)) (.cut 3 (.cut 0 .leaf .leaf) .leaf)) (.cut 2 (.cut 3 (.cut 0 (.cut 1 .leaf (.cut 2 (.cut 3 (.cut 0 (.cut 1 .leaf .leaf) .leaf) (.cut 0 (.cut 1 .leaf .leaf) .leaf)) (.cut 3 (.cut 0 (.cut 1 .leaf .leaf) .leaf) (.cut 0 (.cut 1 .leaf .leaf) .leaf)))) (.cut 1 .leaf .leaf)) (.cut 0 (.cut 1 .leaf (.cut 2 .out (.cut 3 (.cut 0 .leaf .leaf) .out))) (.cut 1 .leaf .leaf))) (.cut 3 (.cut 0 (.cut 1 .leaf (.cut 2 (.cut 3 (.cut 0 .leaf .leaf) (.cut 0 .leaf .leaf)) .leaf)) (.cut 1 .leaf .leaf)) (.cut 0 (.cut 1 .leaf (.cut 2 (.cut 3 .leaf .leaf) .leaf)) (.cut 1 .leaf .leaf))))))
theorem h346 : check par t346 [53440, 12160, 128, 128] [64, 128, 128, 128] st = true := by decide +kernel
def t347 : Tree := (.ref (.cut 0 (.cut 1 (.cut 2 .out (.cut 3 .leaf .out)) (.cut 2 .out (.cut 3 (.cut 0 .leaf (.cut 1 .leaf .leaf)) .out))) (.cut 1 .leaf (.cut 2 .out (.cut 3 (.cut 0 .leaf .leaf) .out)))))
theorem h347 : check par t347 [53376, 12160, 128, 384] [128, 128, 128, 128] st = true := by decide +kernel
def t348 : Tree := (.ref (.cut 3 (.cut 0 (.cut 1 (.cut 2 (.cut 3 (.cut 0 .leaf .leaf) .leaf) .leaf) (.cut 2 (.cut 3 (.cut 0 .leaf (.cut 1 .leaf .leaf)) (.cut 0 .leaf (.cut 1 .leaf .leaf))) .leaf)) (.cut 1 .leaf (.cut 2 (.cut 3 (.cut 0 (.cut 1 .leaf .leaf) .leaf) (.cut 0 .leaf .leaf)) .leaf))) (.cut 0 (.cut 1 .leaf (.cut 2 (.cut 3 .leaf .leaf) .leaf)) (.cut 1 .leaf (.cut 2 (.cut 3 (.cut 0 .leaf .leaf) .leaf) .leaf)))))
theorem h348 : check par t348 [53376, 12160, 384, 256] [128, 128, 128, 256] st = true := by decide +kernel
def t349 : Tree := (.ref (.cut 1 (.cut 2 (.cut 3 (.cut 0 .leaf .leaf) .leaf) (.cut 3 .leaf .leaf)) (.cut 2 (.cut 3 (.cut 0 (.cut 1 .leaf (.cut 2 (.cut 3 (.cut 0 .leaf .leaf) (.cut 0 .leaf .leaf)) (.cut 3 (.cut 0 .leaf .leaf) (.cut 0 .leaf .leaf)))) (.cut 1 .leaf .leaf)) (.cut 0 (.cut 1 .leaf (.cut 2 .out .leaf)) (.cut 1 .leaf .leaf))) (.cut 3 (.cut 0 (.cut 1 .leaf (.cut 2 .leaf .leaf)) (.cut 1 .leaf .leaf)) (.cut 0 (.cut 1 .leaf .leaf) .leaf)))))
theorem h349 : check par t349 [53632, 12032, 256, 256] [128, 256, 256, 256] st = true := by decide +kernel
def t350 : Tree := (.ref (.cut 0 (.cut 1 (.cut 2 .out (.cut 3 .leaf .out)) (.cut 2 .out (.cut 3 (.cut 0 .leaf .leaf) .out))) (.cut 1 .leaf (.cut 2 .out (.cut 3 (.cut 0 .leaf .leaf) .out)))))
theorem h350 : check par t350 [53504, 12032, 256, 768] [256, 256, 256, 256] st = true := by decide +kernel
def t351 : Tree := (.ref (.cut 3 (.cut 0 (.cut 1 (.cut 2 .leaf .leaf) (.cut 2 (.cut 3 (.cut 0 .leaf (.cut 1 .leaf .leaf)) (.cut 0 .leaf .leaf)) .leaf)) (.cut 1 .leaf (.cut 2 (.cut 3 (.cut 0 .leaf .leaf) (.cut 0 .leaf .leaf)) .leaf))) (.cut 0 (.cut 1 .leaf (.cut 2 (.cut 3 .leaf .leaf) .leaf)) (.cut 1 .leaf (.cut 2 (.cut 3 .leaf .leaf) .leaf)))))
theorem h351 : check par t351 [53504, 12032, 768, 512] [256, 256, 256, 512] st = true := by decide +kernel
def t352 : Tree := (.ref (.cut 1 (.cut 2 (.cut 3 .leaf .leaf) .leaf) (.cut 2 (.cut 3 (.cut 0 (.cut 1 .leaf (.cut 2 (.cut 3 .leaf .leaf) .leaf)) .leaf) (.cut 0 (.cut 1 .leaf .leaf) .leaf)) (.cut 3 (.cut 0 (.cut 1 .leaf .leaf) .leaf) (.cut 0 (.cut 1 .leaf .leaf) .leaf)))))
theorem h352 : check par t352 [54016, 11776, 512, 512] [256, 512, 512, 512] st = true := by decide +kernel
def t353 : Tree := (.ref (.cut 0 (.cut 1 (.cut 2 .out .leaf) (.cut 2 .out (.cut 3 (.cut 0 .leaf .leaf) .out))) (.cut 1 .leaf (.cut 2 .out (.cut 3 (.cut 0 .leaf .leaf) .out)))))
theorem h353 : check par t353 [53760, 11776, 512, 1536] [512, 512, 512, 512] st = true := by decide +kernel
def t354 : Tree := (.ref (.cut 3 (.cut 0 (.cut 1 (.cut 2 .leaf .leaf) (.cut 2 (.cut 3 (.cut 0 .leaf .leaf) (.cut 0 .leaf .leaf)) .leaf)) (.cut 1 .leaf (.cut 2 (.cut 3 (.cut 0 .leaf .leaf) (.cut 0 .leaf .leaf)) .leaf))) (.cut 0 (.cut 1 .leaf (.cut 2 (.cut 3 .leaf .leaf) .leaf)) (.cut 1 .leaf (.cut 2 (.cut 3 .leaf .leaf) .leaf)))))
theorem h354 : check par t354 [53760, 11776, 1536, 1024] [512, 512, 512, 1024] st = true := by decide +kernel
def t355 : Tree := (.ref (.cut 1 (.cut 2 (.cut 3 .leaf .leaf) .leaf) (.cut 2 (.cut 3 (.cut 0 (.cut 1 .leaf (.cut 2 .leaf .leaf)) .leaf) (.cut 0 (.cut 1 .leaf .leaf) .leaf)) (.cut 3 (.cut 0 (.cut 1 .leaf .leaf) .leaf) (.cut 0 (.cut 1 .leaf .leaf) .leaf)))))
theorem h355 : check par t355 [54784, 11264, 1024, 1024] [512, 1024, 1024, 1024] st = true := by decide +kernel
def t356 : Tree := (.ref (.cut 0 (.cut 1 (.cut 2 .out .leaf) (.cut 2 .out (.cut 3 (.cut 0 .leaf .leaf) .out))) (.cut 1 .leaf (.cut 2 .out (.cut 3 (.cut 0 .leaf .leaf) .out)))))
theorem h356 : check par t356 [54272, 11264, 1024, 3072] [1024, 1024, 1024, 1024] st = true := by decide +kernel
def t357 : Tree := (.ref (.cut 3 (.cut 0 (.cut 1 (.cut 2 .leaf .leaf) (.cut 2 (.cut 3 (.cut 0 .leaf .leaf) (.cut 0 .leaf .leaf)) .leaf)) (.cut 1 .leaf (.cut 2 (.cut 3 (.cut 0 .leaf .leaf) (.cut 0 .leaf .leaf)) .leaf))) (.cut 0 (.cut 1 .leaf (.cut 2 (.cut 3 .leaf .leaf) .leaf)) (.cut 1 .leaf (.cut 2 (.cut 3 .leaf .leaf) .leaf)))))
theorem h357 : check par t357 [54272, 11264, 3072, 2048] [1024, 1024, 1024, 2048] st = true := by decide +kernel
def t358 : Tree := (.ref (.cut 1 (.cut 2 .leaf .leaf) (.cut 2 (.cut 3 (.cut 0 (.cut 1 .leaf .leaf) .leaf) (.cut 0 (.cut 1 .leaf .leaf) .leaf)) (.cut 3 (.cut 0 (.cut 1 .leaf .leaf) .leaf) (.cut 0 (.cut 1 .leaf .leaf) .leaf)))))
theorem h358 : check par t358 [56320, 10240, 2048, 2048] [1024, 2048, 2048, 2048] st = true := by decide +kernel
def t359 : Tree := (.ref (.cut 0 (.cut 1 (.cut 2 .out (.cut 3 .leaf .out)) (.cut 2 .out (.cut 3 (.cut 0 .leaf .leaf) .out))) (.cut 1 .leaf (.cut 2 .out (.cut 3 (.cut 0 .leaf .leaf) .out)))))
theorem h359 : check par t359 [55296, 10240, 2048, 6144] [2048, 2048, 2048, 2048] st = true := by decide +kernel
def t360 : Tree := (.ref (.cut 3 (.cut 0 (.cut 1 (.cut 2 .leaf .leaf) (.cut 2 (.cut 3 (.cut 0 .leaf .leaf) (.cut 0 .leaf .leaf)) .leaf)) (.cut 1 .leaf (.cut 2 (.cut 3 (.cut 0 .leaf .leaf) (.cut 0 .leaf .leaf)) .leaf))) (.cut 0 (.cut 1 .leaf (.cut 2 (.cut 3 (.cut 0 .leaf .leaf) .leaf) .leaf)) (.cut 1 .leaf (.cut 2 (.cut 3 .leaf .leaf) .leaf)))))
theorem h360 : check par t360 [55296, 10240, 6144, 4096] [2048, 2048, 2048, 4096] st = true := by decide +kernel
def t361 : Tree := (.ref (.cut 1 (.cut 2 (.cut 3 (.cut 0 (.cut 1 .leaf .leaf) (.cut 1 (.cut 2 (.cut 3 .leaf .leaf) (.cut 3 .leaf (.cut 0 .leaf .leaf))) .leaf)) (.cut 0 (.cut 1 .leaf .leaf) (.cut 1 (.cut 2 .out (.cut 3 .leaf .out)) .leaf))) (.cut 3 (.cut 0 (.cut 1 .leaf .leaf) (.cut 1 (.cut 2 (.cut 3 (.cut 0 .leaf .leaf) .leaf) (.cut 3 .leaf .leaf)) .leaf)) (.cut 0 .leaf (.cut 1 (.cut 2 (.cut 3 .leaf .leaf) .leaf) .leaf)))) (.cut 2 (.cut 3 (.cut 0 .leaf .leaf) (.cut 0 .leaf .leaf)) (.cut 3 (.cut 0 .leaf .leaf) (.cut 0 .leaf .leaf)))))
theorem h361 : check par t361 [53264, 12320, 32, 32] [16, 32, 32, 32] st = true := by decide +kernel
def t362 : Tree := (.ref (.cut 3 (.cut 0 (.cut 1 (.cut 2 (.cut 3 .leaf (.cut 0 .leaf .leaf)) (.cut 3 (.cut 0 .leaf .leaf) (.cut 0 .leaf (.cut 1 .leaf .leaf)))) (.cut 2 .leaf (.cut 3 .leaf .leaf))) (.cut 1 (.cut 2 (.cut 3 .leaf (.cut 0 .leaf .leaf)) (.cut 3 (.cut 0 .leaf .leaf) (.cut 0 .leaf .leaf))) (.cut 2 (.cut 3 .leaf .leaf) (.cut 3 .leaf (.cut 0 .leaf .leaf))))) (.cut 0 (.cut 1 (.cut 2 .out (.cut 3 (.cut 0 .leaf .leaf) .out)) (.cut 2 .out (.cut 3 .leaf .out))) (.cut 1 (.cut 2 .out (.cut 3 (.cut 0 .leaf .leaf) .out)) (.cut 2 .out (.cut 3 (.cut 0 .leaf .leaf) .out))))))
theorem h362 : check par t362 [53296, 12304, 16, 32] [16, 16, 16, 32] st = true := by decide +kernel
def t363 : Tree := (.ref (.cut 0 (.cut 1 (.cut 2 (.cut 3 (.cut 0 .leaf (.cut 1 .leaf .leaf)) (.cut 0 .leaf .leaf)) (.cut 3 (.cut 0 .leaf .leaf) (.cut 0 .leaf .leaf))) (.cut 2 (.cut 3 .leaf .leaf) (.cut 3 .leaf .leaf))) (.cut 1 (.cut 2 (.cut 3 (.cut 0 .leaf .leaf) (.cut 0 .leaf .leaf)) (.cut 3 (.cut 0 .leaf .leaf) (.cut 0 .leaf .leaf))) (.cut 2 (.cut 3 (.cut 0 .leaf .leaf) (.cut 0 .leaf .leaf)) (.cut 3 (.cut 0 .leaf .leaf) (.cut 0 .leaf .leaf))))))
theorem h363 : check par t363 [53296, 12304, 48, 16] [16, 16, 16, 16] st = true := by decide +kernel
def t364 : Tree := (.ref (.cut 0 (.cut 1 (.cut 2 (.cut 3 (.cut 0 .leaf .leaf) (.cut 0 .leaf .leaf)) (.cut 3 (.cut 0 .leaf .leaf) .leaf)) (.cut 2 (.cut 3 .leaf .leaf) .leaf)) (.cut 1 (.cut 2 (.cut 3 (.cut 0 .leaf .leaf) (.cut 0 .leaf .leaf)) (.cut 3 (.cut 0 .leaf .leaf) .leaf)) (.cut 2 (.cut 3 (.cut 0 .leaf .leaf) (.cut 0 .leaf .leaf)) (.cut 3 (.cut 0 .leaf .leaf) .leaf)))))
theorem h364 : check par t364 [53296, 12304, 48, 48] [16, 16, 16, 16] st = true := by decide +kernel
def t365 : Tree := (.ref (.cut 2 (.cut 3 (.cut 0 .leaf (.cut 1 .leaf .leaf)) (.cut 0 (.cut 1 .leaf .leaf) (.cut 1 .leaf .leaf))) (.cut 3 (.cut 0 (.cut 1 .leaf .leaf) (.cut 1 .leaf .leaf)) (.cut 0 (.cut 1 .leaf .leaf) (.cut 1 .leaf .leaf)))))
theorem h365 : check par t365 [53296, 12336, 32, 32] [16, 16, 32, 32] st = true := by decide +kernel
def t366 : Tree := (.ref (.cut 0 (.cut 1 (.cut 2 .out (.cut 3 (.cut 0 .leaf (.cut 1 .leaf .leaf)) .out)) (.cut 2 .out (.cut 3 .leaf .out))) (.cut 1 (.cut 2 .out (.cut 3 (.cut 0 (.cut 1 (.cut 2 .out .leaf) .leaf) (.cut 1 (.cut 2 .out .leaf) (.cut 2 .out .leaf))) .out)) (.cut 2 .out (.cut 3 (.cut 0 .leaf (.cut 1 .leaf .leaf)) .out)))))
theorem h366 : check par t366 [53280, 12320, 32, 96] [32, 32, 32, 32] st = true := by decide +kernel
def t367 : Tree := (.ref (.cut 0 (.cut 1 (.cut 2 (.cut 3 (.cut 0 .leaf (.cut 1 .leaf .leaf)) (.cut 0 .leaf (.cut 1 .leaf .leaf))) (.cut 3 (.cut 0 .leaf .leaf) .leaf)) (.cut 2 (.cut 3 .leaf .leaf) .leaf)) (.cut 1 (.cut 2 (.cut 3 (.cut 0 (.cut 1 (.cut 2 (.cut 3 .leaf .leaf) .leaf) (.cut 2 .leaf .leaf)) (.cut 1 (.cut 2 (.cut 3 .leaf .leaf) .leaf) (.cut 2 (.cut 3 .leaf .leaf) .leaf))) (.cut 0 (.cut 1 (.cut 2 .leaf .leaf) .leaf) (.cut 1 (.cut 2 .leaf .leaf) (.cut 2 .leaf .leaf)))) (.cut 3 (.cut 0 .leaf .leaf) (.cut 0 .leaf .leaf))) (.cut 2 (.cut 3 (.cut 0 (.cut 1 .leaf .leaf) (.cut 1 .leaf .leaf)) (.cut 0 .leaf (.cut 1 .leaf .leaf))) (.cut 3 (.cut 0 .leaf .leaf) (.cut 0 .leaf .leaf))))))
theorem h367 : check par t367 [53280, 12320, 96, 32] [32, 32, 32, 32] st = true := by decide +kernel
def t368 : Tree := (.ref (.cut 0 (.cut 1 (.cut 2 (.cut 3 (.cut 0 .leaf .leaf) .leaf) (.cut 3 .leaf .leaf)) (.cut 2 .leaf .leaf)) (.cut 1 (.cut 2 (.cut 3 (.cut 0 (.cut 1 .leaf .leaf) (.cut 1 .leaf .leaf)) (.cut 0 .leaf .leaf)) (.cut 3 (.cut 0 .leaf .leaf) .leaf)) (.cut 2 (.cut 3 (.cut 0 .leaf .leaf) (.cut 0 .leaf .leaf)) (.cut 3 (.cut 0 .leaf .leaf) .leaf)))))
theorem h368 : check par t368 [53280, 12320, 96, 96] [32, 32, 32, 32] st = true := by decide +kernel
def t369 : Tree := (.ref (.cut 2 (.cut 3 (.cut 0 (.cut 1 .leaf .leaf) (.cut 1 (.cut 2 .leaf (.cut 3 .leaf .leaf)) .leaf)) (.cut 0 (.cut 1 .leaf .leaf) (.cut 1 (.cut 2 .out .leaf) .leaf))) (.cut 3 (.cut 0 (.cut 1 .leaf .leaf) (.cut 1 (.cut 2 .leaf .leaf) .leaf)) (.cut 0 .leaf (.cut 1 .leaf .leaf)))))
theorem h369 : check par t369 [53280, 12384, 64, 64] [32, 32, 64, 64] st = true := by decide +kernel
def t370 : Tree := (.ref (.cut 2 (.cut 3 (.cut 0 (.cut 1 (.cut 2 (.cut 3 .leaf .leaf) (.cut 3 .leaf (.cut 0 .leaf .leaf))) (.cut 2 (.cut 3 .leaf .leaf) (.cut 3 .leaf .leaf))) (.cut 1 .leaf .leaf)) (.cut 0 (.cut 1 (.cut 2 .out (.cut 3 (.cut 0 .leaf .leaf) .out)) (.cut 2 .out .leaf)) (.cut 1 (.cut 2 .out .leaf) .leaf))) (.cut 3 (.cut 0 (.cut 1 (.cut 2 (.cut 3 (.cut 0 .leaf .leaf) (.cut 0 .leaf .leaf)) (.cut 3 (.cut 0 .leaf .leaf) (.cut 0 .leaf .leaf))) (.cut 2 (.cut 3 .leaf .leaf) (.cut 3 .leaf .leaf))) (.cut 1 (.cut 2 .leaf (.cut 3 .leaf .leaf)) .leaf)) (.cut 0 (.cut 1 (.cut 2 (.cut 3 (.cut 0 .leaf .leaf) (.cut 0 .leaf .leaf)) (.cut 3 (.cut 0 .leaf .leaf) .leaf)) (.cut 2 (.cut 3 .leaf .leaf) .leaf)) (.cut 1 (.cut 2 (.cut 3 .leaf .leaf) .leaf) (.cut 2 .leaf .leaf))))))
theorem h370 : check par t370 [53328, 12304, 32, 32] [16, 16, 32, 32] st = true := by decide +kernel
def t371 : Tree := (.ref (.cut 2 (.cut 3 (.cut 0 (.cut 1 .leaf .leaf) (.cut 1 .leaf .leaf)) (.cut 0 (.cut 1 .leaf .leaf) (.cut 1 .leaf .leaf))) (.cut 3 (.cut 0 (.cut 1 .leaf .leaf) (.cut 1 .leaf .leaf)) (.cut 0 (.cut 1 (.cut 2 .leaf .leaf) .leaf) (.cut 1 .leaf .leaf)))))
theorem h371 : check par t371 [53328, 12336, 32, 32] [16, 16, 32, 32] st = true := by decide +kernel
def t372 : Tree := (.ref (.cut 1 (.cut 2 (.cut 3 (.cut 0 (.cut 1 .leaf .leaf) .leaf) (.cut 0 (.cut 1 .leaf .leaf) .leaf)) (.cut 3 (.cut 0 (.cut 1 .leaf .leaf) .leaf) (.cut 0 (.cut 1 .leaf .leaf) .leaf))) (.cut 2 (.cut 3 (.cut 0 .leaf .leaf) (.cut 0 (.cut 1 .leaf .leaf) .leaf)) (.cut 3 (.cut 0 (.cut 1 .leaf .leaf) .leaf) (.cut 0 (.cut 1 .leaf .leaf) .leaf)))))
theorem h372 : check par t372 [53360, 12320, 32, 32] [16, 32, 32, 32] st = true := by decide +kernel
def t373 : Tree := (.ref (.cut 0 (.cut 1 (.cut 2 .out (.cut 3 (.cut 0 (.cut 1 (.cut 2 .out .leaf) .leaf) (.cut 1 .leaf .leaf)) .out)) (.cut 2 .out (.cut 3 (.cut 0 (.cut 1 .leaf .leaf) (.cut 1 .leaf .leaf)) .out))) (.cut 1 (.cut 2 .out (.cut 3 (.cut 0 (.cut 1 .leaf .leaf) .leaf) .out)) (.cut 2 .out (.cut 3 (.cut 0 .leaf .leaf) .out)))))
theorem h373 : check par t373 [53344, 12320, 32, 96] [32, 32, 32, 32] st = true := by decide +kernel
def t374 : Tree := (.ref (.cut 0 (.cut 1 (.cut 2 (.cut 3 (.cut 0 (.cut 1 (.cut 2 (.cut 3 .leaf .leaf) .leaf) (.cut 2 .leaf .leaf)) (.cut 1 (.cut 2 .leaf .leaf) (.cut 2 .leaf .leaf))) (.cut 0 (.cut 1 (.cut 2 .leaf .leaf) .leaf) (.cut 1 .leaf .leaf))) (.cut 3 (.cut 0 .leaf .leaf) (.cut 0 .leaf .leaf))) (.cut 2 (.cut 3 (.cut 0 (.cut 1 (.cut 2 .leaf .leaf) .leaf) (.cut 1 .leaf .leaf)) (.cut 0 (.cut 1 .leaf .leaf) (.cut 1 .leaf .leaf))) (.cut 3 (.cut 0 .leaf .leaf) (.cut 0 .leaf .leaf)))) (.cut 1 (.cut 2 (.cut 3 (.cut 0 (.cut 1 .leaf .leaf) .leaf) (.cut 0 (.cut 1 .leaf .leaf) .leaf)) (.cut 3 (.cut 0 .leaf .leaf) (.cut 0 .leaf .leaf))) (.cut 2 (.cut 3 (.cut 0 (.cut 1 .leaf .leaf) .leaf) (.cut 0 .leaf .leaf)) (.cut 3 .leaf (.cut 0 .leaf .leaf))))))
theorem h374 : check par t374 [53344, 12320, 96, 32] [32, 32, 32, 32] st = true := by decide +kernel
end FastNoise.RangeCheck.OuterSimplex4
