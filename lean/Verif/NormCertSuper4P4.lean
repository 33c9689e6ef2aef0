import Verif.NormCertSuper4
/-! Generated by tools/normcert/gen.py: a certificate for the checker `Verif.NormCheck`. -/
namespace FastNoise.NormCheck.Super4
open FastNoise.RangeCheck (Tree)
set_option maxRecDepth 1000000
def t130 : Tree := (.ref (.cut 3 (.ref (.cut 0 (.ref (.cut 1 (.cut 2 .leaf .leaf) .leaf)) (.ref (.cut 1 (.cut 2 .leaf .leaf) (.cut 2 .leaf .leaf))))) (.ref (.cut 0 (.cut 1 (.ref (.cut 2 .out .leaf)) (.ref (.cut 2 .out .leaf))) (.cut 1 (.ref (.cut 2 .out .leaf)) (.ref (.cut 2 .out .leaf)))))))
theorem h130 : check par t130 [13631488, 3145728, 1048576, 2097152] [1048576, 1048576, 1048576, 2097152] st = true := by decide +kernel
def t131 : Tree := (.ref (.cut 3 (.ref (.cut 0 (.cut 1 (.ref (.cut 2 .leaf .leaf)) (.ref (.cut 2 .leaf .leaf))) (.cut 1 (.ref (.cut 2 .leaf .leaf)) (.ref (.cut 2 .leaf .leaf))))) (.ref (.cut 0 (.cut 1 .leaf .leaf) (.ref (.cut 1 .leaf .leaf))))))
theorem h131 : check par t131 [13631488, 3145728, 3145728, 2097152] [1048576, 1048576, 1048576, 2097152] st = true := by decide +kernel
def t132 : Tree := (.ref (.cut 2 (.ref (.cut 3 (.ref (.cut 0 .leaf .leaf)) (.ref (.cut 0 (.ref (.cut 1 .leaf .leaf)) (.ref (.cut 1 .leaf .leaf)))))) (.ref (.cut 3 (.ref (.cut 0 (.ref (.cut 1 .out .leaf)) (.ref (.cut 1 .out .leaf)))) (.ref (.cut 0 .leaf (.ref (.cut 1 .out .leaf))))))))
theorem h132 : check par t132 [15728640, 1048576, 2097152, 2097152] [1048576, 1048576, 2097152, 2097152] st = true := by decide +kernel
def t133 : Tree := (.ref (.cut 2 (.ref (.cut 3 (.ref (.cut 0 (.ref (.cut 1 .leaf .leaf)) (.ref (.cut 1 .leaf .leaf)))) (.ref (.cut 0 .leaf (.ref (.cut 1 .leaf .leaf)))))) (.ref (.cut 3 (.cut 0 .leaf (.ref (.cut 1 .leaf .leaf))) (.ref (.cut 0 (.cut 1 .leaf .leaf) (.cut 1 (.cut 2 .leaf .leaf) .leaf)))))))
theorem h133 : check par t133 [15728640, 3145728, 2097152, 2097152] [1048576, 1048576, 2097152, 2097152] st = true := by decide +kernel
def t134 : Tree := (.ref (.cut 1 (.ref (.cut 2 .out (.ref (.cut 3 (.ref (.cut 0 (.cut 1 .out (.ref (.cut 2 .out .out))) (.cut 1 .out .leaf))) .out)))) (.ref (.cut 2 .out (.ref (.cut 3 (.ref (.cut 0 (.cut 1 (.ref (.cut 2 .out .leaf)) (.ref (.cut 2 .out .leaf))) (.cut 1 .leaf (.ref (.cut 2 .out .leaf))))) .out))))))
theorem h134 : check par t134 [13631488, 2097152, 2097152, 6291456] [1048576, 2097152, 2097152, 2097152] st = true := by decide +kernel
def t135 : Tree := (.ref (.cut 1 (.ref (.cut 2 .out (.ref (.cut 3 (.ref (.cut 0 (.ref (.cut 1 .out (.cut 2 .out .out))) (.ref (.cut 1 .out .leaf)))) .out)))) (.ref (.cut 2 .out (.ref (.cut 3 (.ref (.cut 0 (.cut 1 .leaf .leaf) .leaf)) .out))))))
theorem h135 : check par t135 [15728640, 2097152, 2097152, 6291456] [1048576, 2097152, 2097152, 2097152] st = true := by decide +kernel
def t136 : Tree := (.ref (.cut 1 .out (.ref (.cut 2 (.ref (.cut 3 (.ref (.cut 0 (.cut 1 .out (.ref (.cut 2 .leaf .out))) (.cut 1 .out (.cut 2 .leaf .out)))) (.ref (.cut 0 (.cut 1 .out (.ref (.cut 2 .leaf .out))) (.cut 1 .out (.ref (.cut 2 .leaf .out))))))) .out))))
theorem h136 : check par t136 [13631488, 2097152, 6291456, 2097152] [1048576, 2097152, 2097152, 2097152] st = true := by decide +kernel
def t137 : Tree := (.ref (.cut 1 .out (.ref (.cut 2 (.ref (.cut 3 (.ref (.cut 0 (.ref (.cut 1 .out (.cut 2 .leaf .out))) (.ref (.cut 1 .out (.cut 2 .leaf .out))))) (.ref (.cut 0 (.cut 1 .out .leaf) .leaf)))) .out))))
theorem h137 : check par t137 [15728640, 2097152, 6291456, 2097152] [1048576, 2097152, 2097152, 2097152] st = true := by decide +kernel
def t138 : Tree := (.ref (.cut 1 .out (.ref (.cut 2 (.ref (.cut 3 (.ref (.cut 0 (.cut 1 .out (.cut 2 .leaf .out)) (.cut 1 .out .leaf))) (.ref (.cut 0 (.cut 1 .out (.cut 2 .out .out)) (.ref (.cut 1 .out .leaf)))))) .out))))
theorem h138 : check par t138 [13631488, 2097152, 6291456, 6291456] [1048576, 2097152, 2097152, 2097152] st = true := by decide +kernel
def t139 : Tree := (.ref (.cut 1 .out (.cut 2 (.ref (.cut 3 (.cut 0 (.cut 1 .out .leaf) (.ref (.cut 1 .out .leaf))) (.ref (.cut 0 (.cut 1 .out .leaf) (.cut 1 .out .leaf))))) .out)))
theorem h139 : check par t139 [15728640, 2097152, 6291456, 6291456] [1048576, 2097152, 2097152, 2097152] st = true := by decide +kernel
def t140 : Tree := (.ref (.cut 3 (.cut 0 (.ref (.cut 1 (.cut 2 .leaf .leaf) (.cut 2 .leaf .leaf))) (.cut 1 (.cut 2 .leaf .leaf) (.cut 2 (.ref (.cut 3 .leaf .leaf)) (.ref (.cut 3 .leaf .leaf))))) (.ref (.cut 0 (.cut 1 (.cut 2 .out .leaf) (.ref (.cut 2 .out .leaf))) (.cut 1 (.cut 2 .out .leaf) .leaf)))))
theorem h140 : check par t140 [13631488, 5242880, 1048576, 2097152] [1048576, 1048576, 1048576, 2097152] st = true := by decide +kernel
def t141 : Tree := (.ref (.cut 3 (.ref (.cut 0 (.cut 1 (.cut 2 .leaf .leaf) (.ref (.cut 2 .leaf .leaf))) (.cut 1 (.cut 2 .leaf .leaf) .leaf))) (.ref (.cut 0 (.cut 1 (.cut 2 .leaf .leaf) (.ref (.cut 2 .leaf .leaf))) (.cut 1 (.ref (.cut 2 .leaf .leaf)) (.ref (.cut 2 .leaf .leaf)))))))
theorem h141 : check par t141 [13631488, 5242880, 3145728, 2097152] [1048576, 1048576, 1048576, 2097152] st = true := by decide +kernel
def t142 : Tree := (.ref (.cut 3 (.ref (.cut 0 (.ref (.cut 1 (.ref (.cut 2 .leaf .leaf)) (.cut 2 .leaf .leaf))) (.ref (.cut 1 (.cut 2 .leaf (.ref (.cut 3 .leaf .leaf))) (.cut 2 (.ref (.cut 3 .leaf .leaf)) (.ref (.cut 3 .leaf .leaf))))))) (.ref (.cut 0 (.cut 1 .leaf (.ref (.cut 2 .out .leaf))) (.ref (.cut 1 .leaf (.cut 2 .out .leaf)))))))
theorem h142 : check par t142 [13631488, 7340032, 1048576, 2097152] [1048576, 1048576, 1048576, 2097152] st = true := by decide +kernel
def t143 : Tree := (.ref (.cut 3 (.ref (.cut 0 (.cut 1 .leaf (.ref (.cut 2 .leaf .leaf))) (.ref (.cut 1 .leaf (.cut 2 .leaf .leaf))))) (.ref (.cut 0 (.cut 1 (.ref (.cut 2 .leaf .leaf)) (.cut 2 .leaf .leaf)) (.ref (.cut 1 (.cut 2 .leaf .leaf) (.cut 2 .leaf .leaf)))))))
theorem h143 : check par t143 [13631488, 7340032, 3145728, 2097152] [1048576, 1048576, 1048576, 2097152] st = true := by decide +kernel
def t144 : Tree := (.ref (.cut 3 (.ref (.cut 0 (.cut 1 (.ref (.cut 2 .leaf .leaf)) (.cut 2 (.ref (.cut 3 .leaf .leaf)) (.ref (.cut 3 .leaf .leaf)))) (.ref (.cut 1 (.cut 2 .leaf .leaf) (.cut 2 (.ref (.cut 3 .leaf .leaf)) .leaf))))) (.ref (.cut 0 (.ref (.cut 1 (.cut 2 .out .leaf) .leaf)) (.ref (.cut 1 (.cut 2 .out .leaf) (.ref (.cut 2 .out .leaf))))))))
theorem h144 : check par t144 [15728640, 5242880, 1048576, 2097152] [1048576, 1048576, 1048576, 2097152] st = true := by decide +kernel
def t145 : Tree := (.ref (.cut 3 (.ref (.cut 0 (.ref (.cut 1 (.cut 2 .leaf .leaf) .leaf)) (.ref (.cut 1 (.cut 2 .leaf .leaf) (.ref (.cut 2 .leaf .leaf)))))) (.ref (.cut 0 (.cut 1 .leaf .leaf) .leaf))))
theorem h145 : check par t145 [15728640, 5242880, 3145728, 2097152] [1048576, 1048576, 1048576, 2097152] st = true := by decide +kernel
def t146 : Tree := (.ref (.cut 0 (.ref (.cut 1 (.cut 2 (.ref (.cut 3 .leaf .leaf)) .leaf) (.cut 2 (.ref (.cut 3 .leaf .leaf)) (.ref (.cut 3 .leaf .leaf))))) (.ref (.cut 1 (.ref (.cut 2 (.cut 3 .leaf .leaf) .leaf)) (.cut 2 (.cut 3 .leaf .leaf) (.ref (.cut 3 .leaf .leaf)))))))
theorem h146 : check par t146 [15728640, 7340032, 1048576, 1048576] [1048576, 1048576, 1048576, 1048576] st = true := by decide +kernel
def t147 : Tree := (.ref (.cut 0 (.ref (.cut 1 (.cut 2 .out .leaf) (.cut 2 .out .leaf))) (.cut 1 (.cut 2 .out .leaf) (.cut 2 .out (.ref (.cut 3 .leaf .out))))))
theorem h147 : check par t147 [15728640, 7340032, 1048576, 3145728] [1048576, 1048576, 1048576, 1048576] st = true := by decide +kernel
def t148 : Tree := (.ref (.cut 3 (.ref (.cut 0 (.ref (.cut 1 (.cut 2 .leaf .leaf) (.cut 2 .leaf .leaf))) (.cut 1 (.cut 2 .leaf .leaf) (.cut 2 .leaf .leaf)))) (.ref (.cut 0 (.ref (.cut 1 .leaf (.cut 2 .leaf .leaf))) (.ref (.cut 1 .leaf (.cut 2 .leaf .leaf)))))))
theorem h148 : check par t148 [15728640, 7340032, 3145728, 2097152] [1048576, 1048576, 1048576, 2097152] st = true := by decide +kernel
def t149 : Tree := (.ref (.cut 1 (.ref (.cut 2 .out (.ref (.cut 3 (.ref (.cut 0 (.cut 1 (.cut 2 .out .leaf) (.cut 2 .out .leaf)) (.cut 1 (.cut 2 .out .leaf) (.cut 2 .out .leaf)))) .out)))) (.cut 2 .out (.ref (.cut 3 (.ref (.cut 0 (.cut 1 (.ref (.cut 2 .out .leaf)) .leaf) (.ref (.cut 1 (.cut 2 .out .leaf) .leaf)))) .out)))))
theorem h149 : check par t149 [13631488, 6291456, 2097152, 6291456] [1048576, 2097152, 2097152, 2097152] st = true := by decide +kernel
def t150 : Tree := (.ref (.cut 1 (.cut 2 .out (.ref (.cut 3 (.cut 0 (.cut 1 .leaf (.cut 2 .out .leaf)) (.ref (.cut 1 (.cut 2 .out .leaf) (.cut 2 .out .leaf)))) .out))) (.cut 2 .out (.ref (.cut 3 (.ref (.cut 0 (.cut 1 (.cut 2 .out .leaf) (.cut 2 .out .leaf)) (.cut 1 .leaf (.cut 2 .out .leaf)))) .out)))))
theorem h150 : check par t150 [15728640, 6291456, 2097152, 6291456] [1048576, 2097152, 2097152, 2097152] st = true := by decide +kernel
def t151 : Tree := (.ref (.cut 3 (.ref (.cut 0 (.ref (.cut 1 .leaf .leaf)) (.ref (.cut 1 .leaf .leaf)))) (.ref (.cut 0 (.cut 1 (.cut 2 .leaf .leaf) (.cut 2 .leaf .leaf)) (.cut 1 (.cut 2 .leaf .leaf) (.cut 2 .leaf .leaf))))))
theorem h151 : check par t151 [13631488, 5242880, 5242880, 2097152] [1048576, 1048576, 1048576, 2097152] st = true := by decide +kernel
def t152 : Tree := (.ref (.cut 3 (.ref (.cut 0 (.ref (.cut 1 .out .leaf)) (.ref (.cut 1 .out .leaf)))) (.ref (.cut 0 (.cut 1 .out .leaf) (.ref (.cut 1 .out (.cut 2 .leaf .out)))))))
theorem h152 : check par t152 [13631488, 5242880, 7340032, 2097152] [1048576, 1048576, 1048576, 2097152] st = true := by decide +kernel
def t153 : Tree := (.ref (.cut 3 (.ref (.cut 0 (.ref (.cut 1 (.ref (.cut 2 .leaf .leaf)) .leaf)) (.ref (.cut 1 (.cut 2 .leaf .leaf) (.cut 2 .leaf .leaf))))) (.ref (.cut 0 (.cut 1 (.ref (.cut 2 .leaf .leaf)) .leaf) (.ref (.cut 1 (.cut 2 .leaf .leaf) .leaf))))))
theorem h153 : check par t153 [13631488, 7340032, 5242880, 2097152] [1048576, 1048576, 1048576, 2097152] st = true := by decide +kernel
def t154 : Tree := (.ref (.cut 3 (.ref (.cut 0 .leaf (.cut 1 .leaf .leaf))) (.ref (.cut 0 (.cut 1 (.cut 2 .leaf .leaf) .leaf) (.cut 1 (.cut 2 .leaf .leaf) .leaf)))))
theorem h154 : check par t154 [13631488, 7340032, 7340032, 2097152] [1048576, 1048576, 1048576, 2097152] st = true := by decide +kernel
def t155 : Tree := (.ref (.cut 2 (.cut 3 (.ref (.cut 0 .leaf .leaf)) (.ref (.cut 0 (.cut 1 .leaf (.cut 2 .leaf .leaf)) (.ref (.cut 1 (.cut 2 .leaf .leaf) (.cut 2 .leaf .leaf)))))) (.ref (.cut 3 (.ref (.cut 0 (.cut 1 .out .leaf) (.cut 1 .out .leaf))) (.ref (.cut 0 (.cut 1 .out (.cut 2 .leaf .out)) (.cut 1 .out (.cut 2 .leaf .out))))))))
theorem h155 : check par t155 [15728640, 5242880, 6291456, 2097152] [1048576, 1048576, 2097152, 2097152] st = true := by decide +kernel
def t156 : Tree := (.ref (.cut 3 (.ref (.cut 0 (.cut 1 (.ref (.cut 2 .leaf .leaf)) (.cut 2 .leaf .leaf)) (.cut 1 .leaf (.cut 2 .leaf .leaf)))) (.ref (.cut 0 (.cut 1 (.cut 2 .leaf .leaf) (.cut 2 .leaf .leaf)) (.cut 1 .leaf (.cut 2 .leaf .leaf))))))
theorem h156 : check par t156 [15728640, 7340032, 5242880, 2097152] [1048576, 1048576, 1048576, 2097152] st = true := by decide +kernel
def t157 : Tree := (.ref (.cut 3 (.ref (.cut 0 (.cut 1 .leaf .leaf) .leaf)) (.ref (.cut 0 (.ref (.cut 1 (.cut 2 .leaf .leaf) .leaf)) (.cut 1 .leaf (.ref (.cut 2 .leaf .leaf)))))))
theorem h157 : check par t157 [15728640, 7340032, 7340032, 2097152] [1048576, 1048576, 1048576, 2097152] st = true := by decide +kernel
def t158 : Tree := (.ref (.cut 2 (.ref (.cut 3 (.ref (.cut 0 (.cut 1 .leaf .leaf) (.cut 1 .leaf .leaf))) (.cut 0 (.ref (.cut 1 (.cut 2 .out .leaf) .leaf)) (.ref (.cut 1 (.cut 2 .out .leaf) .leaf))))) (.ref (.cut 3 (.ref (.cut 0 (.ref (.cut 1 .out .leaf)) (.ref (.cut 1 .out .leaf)))) (.ref (.cut 0 (.cut 1 .out .leaf) (.ref (.cut 1 .out .leaf))))))))
theorem h158 : check par t158 [13631488, 5242880, 6291456, 6291456] [1048576, 1048576, 2097152, 2097152] st = true := by decide +kernel
def t159 : Tree := (.ref (.cut 3 (.ref (.cut 0 (.ref (.cut 1 .leaf (.cut 2 .leaf .leaf))) (.ref (.cut 1 .leaf (.cut 2 .leaf .leaf))))) (.ref (.cut 0 (.cut 1 (.ref (.cut 2 .out .leaf)) (.ref (.cut 2 .out .leaf))) (.ref (.cut 1 .leaf .leaf))))))
theorem h159 : check par t159 [13631488, 7340032, 5242880, 6291456] [1048576, 1048576, 1048576, 2097152] st = true := by decide +kernel
end FastNoise.NormCheck.Super4
