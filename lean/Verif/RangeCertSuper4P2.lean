import Verif.RangeCertSuper4
/-! Generated by tools/rangecert/gen.py: a certificate for the checker `Verif.RangeCheck`. -/
namespace FastNoise.RangeCheck.Super4
set_option maxRecDepth 1000000
def t19 : Tree := (.ref (.cut 1 (.ref (.cut 2 (.ref (.cut 3 (.ref (.cut 0 (.ref (.cut 1 (.ref (.cut 2 (.ref (.cut 3 (.ref (.cut 0 (.ref (.cut 1 (.ref (.cut 2 (.ref .leaf) (.ref .leaf))) (.ref (.cut 2 (.ref .leaf) (.ref .leaf))))) (.ref (.cut 1 (.ref .leaf) (.ref .leaf))))) (.ref (.cut 0 (.ref (.cut 1 (.ref (.cut 2 .out (.ref (.cut 3 (.ref .leaf) .out)))) (.ref (.cut 2 .out (.ref (.cut 3 (.ref .leaf) .out)))))) (.ref (.cut 1 (.ref (.cut 2 .out (.ref (.cut 3 (.ref .leaf) .out)))) (.ref (.cut 2 .out (.ref .leaf))))))))) (.ref (.cut 3 (.ref (.cut 0 (.ref (.cut 1 .out (.ref (.cut 2 (.ref (.cut 3 (.ref .leaf) (.ref .leaf))) .out)))) (.ref (.cut 1 .out (.ref (.cut 2 (.ref .leaf) .out)))))) (.ref (.cut 0 (.cut 1 .out (.ref (.cut 2 (.ref (.cut 3 (.ref .leaf) (.ref .leaf))) .out))) (.ref (.cut 1 .out (.ref (.cut 2 (.ref (.cut 3 (.ref .leaf) (.ref .leaf))) .out)))))))))) (.ref (.cut 2 (.ref (.cut 3 (.ref (.cut 0 (.ref (.cut 1 (.ref (.cut 2 (.cut 3 (.ref .leaf) (.ref .leaf)) (.ref (.cut 3 (.ref .leaf) (.ref .leaf))))) (.cut 2 (.ref (.cut 3 (.ref .leaf) (.ref .leaf))) (.ref (.cut 3 (.ref .leaf) (.ref .leaf)))))) (.ref (.cut 1 (.cut 2 (.ref .leaf) (.ref .leaf)) (.cut 2 (.ref .leaf) (.ref .leaf)))))) (.ref (.cut 0 (.cut 1 (.ref (.cut 2 .out (.ref (.cut 3 (.ref .leaf) .out)))) (.ref (.cut 2 .out (.ref (.cut 3 (.ref .leaf) .out))))) (.ref (.cut 1 (.ref (.cut 2 .out (.ref (.cut 3 (.ref .leaf) .out)))) (.ref (.cut 2 .out (.ref (.cut 3 (.ref .leaf) .out)))))))))) (.ref (.cut 3 (.ref (.cut 0 (.cut 1 (.ref (.cut 2 (.ref (.cut 3 .leaf (.ref .leaf))) (.ref (.cut 3 (.ref .leaf) (.ref .leaf))))) (.ref (.cut 2 (.ref (.cut 3 (.ref .leaf) (.ref .leaf))) (.ref (.cut 3 (.ref .leaf) (.ref .leaf)))))) (.ref (.cut 1 (.ref (.cut 2 (.ref .leaf) (.ref .leaf))) (.ref (.cut 2 (.ref .leaf) (.ref .leaf))))))) (.ref (.cut 0 (.cut 1 (.ref (.cut 2 (.cut 3 .leaf (.ref .leaf)) (.ref (.cut 3 (.ref .leaf) (.ref .leaf))))) (.ref (.cut 2 (.ref (.cut 3 (.ref .leaf) (.ref .leaf))) (.cut 3 (.ref .leaf) .leaf)))) (.ref (.cut 1 (.cut 2 (.cut 3 (.ref .leaf) (.ref .leaf)) (.ref (.cut 3 (.ref .leaf) (.ref .leaf)))) (.cut 2 (.ref (.cut 3 (.ref .leaf) (.ref .leaf))) (.cut 3 (.ref .leaf) (.ref .leaf))))))))))))) (.ref (.cut 1 (.ref (.cut 2 (.ref (.cut 3 (.ref .leaf) (.ref (.cut 0 (.ref (.cut 1 (.ref (.cut 2 .out (.ref .leaf))) (.ref (.cut 2 .out (.ref .leaf))))) (.ref .leaf))))) (.ref (.cut 3 (.ref (.cut 0 (.ref (.cut 1 .out (.ref (.cut 2 (.ref .leaf) .out)))) (.ref .leaf))) (.ref (.cut 0 (.ref (.cut 1 .out (.ref (.cut 2 (.ref .leaf) .out)))) (.ref (.cut 1 .out (.ref (.cut 2 (.ref .leaf) .out)))))))))) (.ref (.cut 2 (.ref (.cut 3 (.ref (.cut 0 (.ref (.cut 1 (.ref .leaf) (.ref .leaf))) (.ref .leaf))) (.ref (.cut 0 (.ref (.cut 1 (.cut 2 .out (.ref .leaf)) (.cut 2 .out (.ref .leaf)))) (.ref (.cut 1 (.ref .leaf) (.ref .leaf))))))) (.ref (.cut 3 (.ref (.cut 0 (.ref (.cut 1 (.cut 2 (.ref .leaf) (.ref .leaf)) (.cut 2 (.ref .leaf) .leaf))) (.ref (.cut 1 (.ref .leaf) (.ref .leaf))))) (.ref (.cut 0 (.cut 1 (.cut 2 (.ref .leaf) (.ref .leaf)) (.cut 2 (.ref .leaf) .leaf)) (.cut 1 (.ref (.cut 2 (.ref .leaf) (.ref .leaf))) (.cut 2 (.ref .leaf) .leaf)))))))))))) (.ref (.cut 0 (.ref (.cut 1 (.ref (.cut 2 .out (.ref (.cut 3 (.ref (.cut 0 (.ref (.cut 1 .out (.ref (.cut 2 .out .out)))) (.cut 1 .out (.ref (.cut 2 .out .out))))) .out)))) (.ref (.cut 2 .out (.ref (.cut 3 (.ref (.cut 0 (.cut 1 (.ref (.cut 2 .out (.ref (.cut 3 .leaf .out)))) (.ref (.cut 2 .out (.ref (.cut 3 .leaf .out))))) (.cut 1 (.ref (.cut 2 .out (.ref (.cut 3 .leaf .out)))) (.ref (.cut 2 .out (.ref (.cut 3 (.ref .leaf) .out))))))) .out)))))) (.ref (.cut 1 (.ref (.cut 2 .out (.ref (.cut 3 (.ref (.cut 0 (.ref (.cut 1 .out (.cut 2 .out .out))) (.ref (.cut 1 .out (.ref (.cut 2 .out .out)))))) .out)))) (.ref (.cut 2 .out (.ref (.cut 3 (.ref (.cut 0 (.cut 1 (.ref (.cut 2 .out (.ref (.cut 3 .leaf .out)))) (.ref (.cut 2 .out (.cut 3 .leaf .out)))) (.ref (.cut 1 (.ref (.cut 2 .out (.ref (.cut 3 (.ref .leaf) .out)))) (.cut 2 .out (.ref .leaf)))))) .out)))))))))) (.ref (.cut 3 (.ref (.cut 0 (.ref (.cut 1 .out (.ref (.cut 2 (.ref (.cut 3 (.ref (.cut 0 (.ref (.cut 1 .out (.ref (.cut 2 (.ref (.cut 3 (.ref .leaf) (.ref .leaf))) .out)))) (.cut 1 .out (.ref (.cut 2 (.ref (.cut 3 .leaf (.ref .leaf))) .out))))) (.ref (.cut 0 (.cut 1 .out (.ref (.cut 2 (.cut 3 (.ref .leaf) (.ref .leaf)) .out))) (.cut 1 .out (.ref (.cut 2 (.ref (.cut 3 (.ref .leaf) (.ref .leaf))) .out))))))) .out)))) (.ref (.cut 1 .out (.ref (.cut 2 (.ref (.cut 3 (.ref (.cut 0 (.ref (.cut 1 .out (.ref (.cut 2 (.ref .leaf) .out)))) (.ref (.cut 1 .out (.ref (.cut 2 (.ref .leaf) .out)))))) (.ref (.cut 0 (.cut 1 .out (.ref (.cut 2 .leaf .out))) (.ref (.cut 1 .out (.cut 2 (.ref .leaf) .out))))))) .out)))))) (.ref (.cut 0 (.ref (.cut 1 .out (.ref (.cut 2 (.ref (.cut 3 (.ref (.cut 0 (.cut 1 .out (.ref (.cut 2 (.ref (.cut 3 (.ref .leaf) (.ref .leaf))) .out))) (.ref (.cut 1 .out (.ref (.cut 2 (.cut 3 .leaf (.ref .leaf)) .out)))))) (.ref (.cut 0 (.cut 1 .out (.cut 2 .out .out)) (.ref (.cut 1 .out (.ref (.cut 2 .out .out)))))))) .out)))) (.ref (.cut 1 .out (.ref (.cut 2 (.ref (.cut 3 (.ref (.cut 0 (.ref (.cut 1 .out (.ref (.cut 2 (.cut 3 (.ref .leaf) (.ref .leaf)) .out)))) (.ref (.cut 1 .out (.cut 2 (.ref .leaf) .out))))) (.ref (.cut 0 (.cut 1 .out (.ref (.cut 2 .out .out))) (.cut 1 .out (.ref (.cut 2 .out .out))))))) .out)))))))))) (.ref (.cut 2 (.ref (.cut 3 (.ref (.cut 0 (.ref (.cut 1 (.ref (.cut 2 (.ref (.cut 3 (.cut 0 (.ref (.cut 1 (.cut 2 (.ref (.cut 3 (.ref .leaf) (.ref .leaf))) (.ref (.cut 3 (.ref .leaf) (.ref .leaf)))) (.cut 2 (.ref (.cut 3 (.ref .leaf) (.ref .leaf))) (.ref (.cut 3 (.ref .leaf) (.ref .leaf)))))) (.ref (.cut 1 (.cut 2 (.ref (.cut 3 (.ref .leaf) (.ref .leaf))) (.ref (.cut 3 (.ref .leaf) (.ref .leaf)))) (.cut 2 (.ref (.cut 3 (.ref .leaf) (.ref .leaf))) (.ref (.cut 3 (.ref .leaf) (.ref .leaf))))))) (.ref (.cut 0 (.ref (.cut 1 (.cut 2 .out (.ref (.cut 3 (.ref .leaf) .out))) (.ref (.cut 2 .out (.ref (.cut 3 .leaf .out)))))) (.cut 1 (.cut 2 .out (.ref (.cut 3 .leaf .out))) (.ref (.cut 2 .out (.ref (.cut 3 .leaf .out))))))))) (.ref (.cut 3 (.ref (.cut 0 (.ref (.cut 1 (.cut 2 (.ref (.cut 3 (.ref .leaf) (.ref .leaf))) (.ref (.cut 3 (.ref .leaf) (.ref .leaf)))) (.ref (.cut 2 (.ref (.cut 3 .leaf .leaf)) (.ref (.cut 3 (.ref (.cut 0 (.ref .leaf) .leaf)) .leaf)))))) (.cut 1 (.cut 2 (.ref (.cut 3 (.ref .leaf) (.ref .leaf))) (.ref (.cut 3 .leaf (.ref .leaf)))) (.ref (.cut 2 (.cut 3 .leaf (.ref .leaf)) (.cut 3 (.ref .leaf) (.ref .leaf))))))) (.ref (.cut 0 (.cut 1 (.cut 2 (.ref (.cut 3 (.ref .leaf) (.ref .leaf))) (.ref (.cut 3 (.ref .leaf) (.ref .leaf)))) (.ref (.cut 2 (.ref (.cut 3 (.ref .leaf) (.ref .leaf))) (.ref (.cut 3 (.ref .leaf) (.ref .leaf)))))) (.cut 1 (.ref (.cut 2 (.ref (.cut 3 (.ref .leaf) (.ref .leaf))) (.cut 3 (.ref .leaf) (.ref .leaf)))) (.ref (.cut 2 (.ref (.cut 3 (.ref .leaf) (.ref .leaf))) (.ref (.cut 3 (.ref .leaf) .leaf))))))))))) (.ref (.cut 2 (.ref (.cut 3 (.ref (.cut 0 (.ref (.cut 1 (.ref (.cut 2 (.ref (.cut 3 .leaf (.ref .leaf))) (.ref (.cut 3 (.ref .leaf) (.ref .leaf))))) (.cut 2 (.ref (.cut 3 .leaf (.ref .leaf))) (.cut 3 (.ref .leaf) (.ref .leaf))))) (.ref (.cut 1 (.cut 2 (.ref (.cut 3 (.ref .leaf) (.ref .leaf))) (.ref (.cut 3 (.ref .leaf) (.ref .leaf)))) (.ref (.cut 2 (.ref (.cut 3 (.ref .leaf) (.ref .leaf))) (.ref (.cut 3 (.ref .leaf) (.ref .leaf))))))))) (.ref (.cut 0 (.ref (.cut 1 (.ref (.cut 2 .out (.cut 3 (.ref .leaf) .out))) (.ref (.cut 2 .out (.ref (.cut 3 (.ref .leaf) .out)))))) (.ref (.cut 1 (.ref (.cut 2 .out (.ref (.cut 3 (.ref .leaf) .out)))) (.cut 2 .out (.ref (.cut 3 (.ref .leaf) .out))))))))) (.ref (.cut 3 (.ref (.cut 0 (.ref (.cut 1 (.ref (.cut 2 (.cut 3 (.ref .leaf) (.ref .leaf)) (.cut 3 (.cut 0 (.ref .leaf) (.ref .leaf)) (.ref .leaf)))) (.ref (.cut 2 (.ref (.cut 3 (.ref .leaf) (.ref .leaf))) (.ref (.cut 3 .leaf (.ref .leaf))))))) (.ref (.cut 1 (.ref (.cut 2 (.cut 3 .leaf (.ref .leaf)) (.cut 3 (.ref .leaf) (.ref .leaf)))) (.cut 2 (.ref (.cut 3 .leaf (.ref .leaf))) (.ref (.cut 3 (.cut 0 (.ref .leaf) .leaf) (.ref .leaf)))))))) (.ref (.cut 0 (.cut 1 (.ref (.cut 2 (.ref (.cut 3 (.ref .leaf) (.ref .leaf))) (.ref (.cut 3 (.ref .leaf) (.ref .leaf))))) (.cut 2 (.ref (.cut 3 (.ref .leaf) (.ref .leaf))) (.ref (.cut 3 (.ref .leaf) (.ref .leaf))))) (.ref (.cut 1 (.ref (.cut 2 (.ref (.cut 3 (.ref .leaf) (.ref .leaf))) (.ref (.cut 3 (.ref .leaf) (.ref .leaf))))) (.cut 2 (.ref (.cut 3 (.ref .leaf) (.ref .leaf))) (.ref (.cut 3 (.ref .leaf) (.ref .leaf)))))))))))))) (.ref (.cut 1 (.ref (.cut 2 (.ref (.cut 3 (.ref (.cut 0 (.cut 1 (.ref (.cut 2 (.ref .leaf) (.ref .leaf))) (.cut 2 (.ref (.cut 3 (.ref .leaf) (.ref .leaf))) (.ref (.cut 3 (.ref .leaf) (.ref .leaf))))) (.ref (.cut 1 .leaf (.cut 2 (.ref .leaf) (.ref .leaf)))))) (.ref (.cut 0 (.ref (.cut 1 (.cut 2 .out (.cut 3 (.ref .leaf) .out)) (.ref (.cut 2 .out (.cut 3 (.ref .leaf) .out))))) (.ref (.cut 1 (.cut 2 .out (.ref .leaf)) (.ref (.cut 2 .out (.ref .leaf))))))))) (.ref (.cut 3 (.ref (.cut 0 (.ref (.cut 1 (.cut 2 (.ref .leaf) (.ref .leaf)) (.ref (.cut 2 (.cut 3 (.ref .leaf) (.ref .leaf)) (.cut 3 (.ref .leaf) (.ref .leaf)))))) (.ref (.cut 1 (.cut 2 (.ref .leaf) (.ref .leaf)) (.ref (.cut 2 .leaf (.ref .leaf))))))) (.ref (.cut 0 (.cut 1 (.ref (.cut 2 (.ref (.cut 3 (.ref .leaf) (.ref .leaf))) .leaf)) (.ref (.cut 2 (.ref (.cut 3 .leaf (.ref .leaf))) (.ref (.cut 3 (.ref .leaf) .leaf))))) (.ref (.cut 1 (.cut 2 (.ref .leaf) (.ref .leaf)) (.cut 2 (.ref .leaf) (.ref .leaf)))))))))) (.ref (.cut 2 (.ref (.cut 3 (.ref (.cut 0 (.ref (.cut 1 (.cut 2 (.ref (.cut 3 (.ref .leaf) (.ref .leaf))) (.ref (.cut 3 (.ref .leaf) (.ref .leaf)))) (.ref (.cut 2 (.ref (.cut 3 (.ref .leaf) (.ref .leaf))) (.ref (.cut 3 (.ref .leaf) (.ref .leaf))))))) (.ref (.cut 1 (.ref (.cut 2 (.cut 3 (.ref .leaf) (.ref .leaf)) (.ref (.cut 3 (.ref .leaf) (.ref .leaf))))) (.ref (.cut 2 (.cut 3 (.ref .leaf) (.ref .leaf)) (.ref (.cut 3 (.ref .leaf) (.ref .leaf))))))))) (.ref (.cut 0 (.ref (.cut 1 (.cut 2 .out (.ref (.cut 3 (.ref .leaf) .out))) (.cut 2 .out (.ref (.cut 3 (.ref .leaf) .out))))) (.ref (.cut 1 (.cut 2 .out (.ref (.cut 3 .leaf .out))) (.cut 2 .out (.ref (.cut 3 (.ref .leaf) .out))))))))) (.ref (.cut 3 (.ref (.cut 0 (.ref (.cut 1 (.cut 2 (.ref (.cut 3 .leaf (.ref .leaf))) (.ref (.cut 3 (.ref .leaf) (.ref .leaf)))) (.cut 2 (.ref (.cut 3 .leaf (.ref .leaf))) (.cut 3 (.ref .leaf) (.ref .leaf))))) (.ref (.cut 1 (.cut 2 (.ref (.cut 3 .leaf (.ref .leaf))) (.ref (.cut 3 (.ref .leaf) (.ref .leaf)))) (.cut 2 (.ref (.cut 3 .leaf (.ref .leaf))) (.cut 3 (.ref .leaf) (.ref .leaf))))))) (.ref (.cut 0 (.ref (.cut 1 (.cut 2 (.ref (.cut 3 .leaf (.ref .leaf))) (.cut 3 (.ref .leaf) (.ref .leaf))) (.cut 2 (.ref (.cut 3 (.ref .leaf) (.ref .leaf))) (.cut 3 (.ref .leaf) (.ref .leaf))))) (.ref (.cut 1 (.cut 2 (.ref (.cut 3 .leaf (.ref .leaf))) (.cut 3 (.ref .leaf) .leaf)) (.cut 2 (.ref (.cut 3 (.ref .leaf) (.ref .leaf))) (.cut 3 (.ref .leaf) (.ref .leaf))))))))))))))) (.ref (.cut 0 (.ref (.cut 1 (.ref (.cut 2 .out (.ref (.cut 3 (.ref (.cut 0 (.cut 1 (.ref (.cut 2 .out (.ref (.cut 3 (.ref .leaf) .out)))) (.cut 2 .out (.ref (.cut 3 (.ref .leaf) .out)))) (.ref (.cut 1 (.ref (.cut 2 .out (.ref (.cut 3 .leaf .out)))) (.cut 2 .out (.ref (.cut 3 (.ref .leaf) .out))))))) .out)))) (.ref (.cut 2 .out (.ref (.cut 3 (.ref (.cut 0 (.cut 1 (.ref (.cut 2 .out (.ref (.cut 3 (.ref .leaf) .out)))) (.ref (.cut 2 .out (.ref (.cut 3 (.ref .leaf) .out))))) (.ref (.cut 1 (.ref (.cut 2 .out (.ref (.cut 3 .leaf .out)))) (.ref (.cut 2 .out (.ref (.cut 3 (.ref .leaf) .out)))))))) .out)))))) (.ref (.cut 1 (.ref (.cut 2 .out (.ref (.cut 3 (.ref (.cut 0 (.cut 1 (.ref (.cut 2 .out (.cut 3 .leaf .out))) (.cut 2 .out (.ref (.cut 3 (.ref .leaf) .out)))) (.ref (.cut 1 (.cut 2 .out .leaf) (.cut 2 .out .leaf))))) .out)))) (.ref (.cut 2 .out (.ref (.cut 3 (.ref (.cut 0 (.cut 1 (.ref (.cut 2 .out (.ref (.cut 3 .leaf .out)))) (.cut 2 .out (.ref (.cut 3 .leaf .out)))) (.cut 1 (.ref (.cut 2 .out (.cut 3 .leaf .out))) (.cut 2 .out (.ref (.cut 3 .leaf .out)))))) .out)))))))))) (.ref (.cut 3 (.ref (.cut 0 (.ref (.cut 1 (.ref (.cut 2 (.ref (.cut 3 (.ref (.cut 0 (.ref (.cut 1 (.cut 2 (.ref (.cut 3 (.ref .leaf) .leaf)) (.ref (.cut 3 (.ref .leaf) (.ref .leaf)))) (.ref (.cut 2 (.ref (.cut 3 (.ref .leaf) (.ref .leaf))) (.cut 3 .leaf .leaf))))) (.ref (.cut 1 (.ref (.cut 2 (.cut 3 (.ref .leaf) (.ref .leaf)) (.ref (.cut 3 (.ref .leaf) (.ref .leaf))))) (.cut 2 (.ref (.cut 3 (.ref .leaf) (.ref .leaf))) (.cut 3 .leaf (.ref .leaf))))))) (.ref (.cut 0 (.cut 1 (.ref (.cut 2 (.ref (.cut 3 .leaf (.ref .leaf))) (.ref (.cut 3 (.ref .leaf) (.ref .leaf))))) (.cut 2 (.ref (.cut 3 (.ref .leaf) (.ref .leaf))) (.cut 3 (.ref .leaf) (.ref .leaf)))) (.ref (.cut 1 (.ref (.cut 2 (.cut 3 (.ref .leaf) (.ref .leaf)) (.ref (.cut 3 (.ref .leaf) (.ref .leaf))))) (.cut 2 (.ref (.cut 3 (.ref .leaf) (.ref .leaf))) (.cut 3 (.ref .leaf) (.ref .leaf))))))))) (.ref (.cut 3 (.ref (.cut 0 (.ref (.cut 1 .out (.ref (.cut 2 (.cut 3 (.ref .leaf) .leaf) .out)))) (.ref (.cut 1 .out (.ref (.cut 2 (.cut 3 (.ref .leaf) (.ref .leaf)) .out)))))) (.ref (.cut 0 (.cut 1 .out (.ref (.cut 2 (.cut 3 .leaf (.ref .leaf)) .out))) (.ref (.cut 1 .out (.cut 2 (.ref (.cut 3 (.ref .leaf) (.ref .leaf))) .out))))))))) (.ref (.cut 2 (.ref (.cut 3 (.ref (.cut 0 (.ref (.cut 1 (.ref (.cut 2 (.cut 3 (.ref .leaf) .leaf) (.ref (.cut 3 (.ref .leaf) .leaf)))) (.cut 2 (.cut 3 (.ref .leaf) (.ref .leaf)) (.ref (.cut 3 (.ref .leaf) .leaf))))) (.ref (.cut 1 (.ref (.cut 2 (.cut 3 (.ref .leaf) (.ref .leaf)) (.ref (.cut 3 (.ref .leaf) (.ref .leaf))))) (.cut 2 (.ref (.cut 3 (.ref .leaf) (.ref .leaf))) (.ref (.cut 3 (.ref .leaf) (.ref .leaf)))))))) (.ref (.cut 0 (.cut 1 (.ref (.cut 2 (.cut 3 (.ref .leaf) (.ref .leaf)) (.ref (.cut 3 .leaf (.ref .leaf))))) (.ref (.cut 2 (.ref (.cut 3 .leaf (.ref .leaf))) (.ref (.cut 3 .leaf .leaf))))) (.ref (.cut 1 (.ref (.cut 2 (.cut 3 (.ref .leaf) (.ref .leaf)) (.cut 3 (.ref .leaf) (.ref .leaf)))) (.ref (.cut 2 (.ref (.cut 3 .leaf (.ref .leaf))) (.cut 3 .leaf (.ref .leaf)))))))))) (.ref (.cut 3 (.ref (.cut 0 (.ref (.cut 1 (.cut 2 (.cut 3 (.ref .leaf) .leaf) (.ref (.cut 3 (.ref .leaf) .leaf))) (.cut 2 (.ref (.cut 3 (.ref .leaf) .leaf)) (.ref (.cut 3 (.ref .leaf) .leaf))))) (.cut 1 (.cut 2 (.cut 3 (.ref .leaf) (.ref .leaf)) (.ref (.cut 3 .leaf (.ref .leaf)))) (.ref (.cut 2 (.ref (.cut 3 .leaf (.ref .leaf))) (.cut 3 (.ref .leaf) (.ref .leaf))))))) (.ref (.cut 0 (.cut 1 (.cut 2 (.ref (.cut 3 (.ref .leaf) .leaf)) (.ref (.cut 3 (.ref .leaf) (.ref .leaf)))) (.ref (.cut 2 (.ref (.cut 3 (.ref .leaf) (.ref .leaf))) (.ref (.cut 3 .leaf .leaf))))) (.cut 1 (.cut 2 (.cut 3 (.ref .leaf) (.ref .leaf)) (.ref (.cut 3 (.ref .leaf) (.ref .leaf)))) (.ref (.cut 2 (.ref (.cut 3 (.ref .leaf) (.ref .leaf))) (.ref (.cut 3 .leaf (.ref .leaf)))))))))))))) (.ref (.cut 1 (.cut 2 (.cut 3 (.ref (.cut 0 (.ref (.cut 1 (.ref (.cut 2 (.ref (.cut 3 (.ref .leaf) .leaf)) (.ref (.cut 3 .leaf (.ref .leaf))))) (.cut 2 (.ref (.cut 3 .leaf (.ref .leaf))) (.cut 3 (.ref .leaf) (.ref .leaf))))) (.ref (.cut 1 (.ref (.cut 2 (.ref .leaf) (.ref (.cut 3 .leaf (.ref .leaf))))) (.cut 2 (.ref (.cut 3 .leaf (.ref .leaf))) (.cut 3 (.ref .leaf) (.ref .leaf))))))) (.ref (.cut 0 (.ref (.cut 1 (.ref (.cut 2 (.cut 3 (.ref .leaf) .leaf) (.ref (.cut 3 .leaf .leaf)))) (.cut 2 (.ref (.cut 3 .leaf .leaf)) (.cut 3 (.ref .leaf) (.ref .leaf))))) (.ref (.cut 1 (.cut 2 (.ref .leaf) (.ref .leaf)) (.ref (.cut 2 (.ref .leaf) .leaf))))))) (.ref (.cut 3 (.ref (.cut 0 (.cut 1 .out (.ref (.cut 2 (.ref (.cut 3 (.ref .leaf) (.ref .leaf))) .out))) (.cut 1 .out (.ref (.cut 2 (.ref (.cut 3 .leaf (.ref .leaf))) .out))))) (.ref (.cut 0 (.cut 1 .out (.cut 2 (.ref (.cut 3 (.ref .leaf) (.ref .leaf))) .out)) (.cut 1 .out (.cut 2 (.ref (.cut 3 (.ref .leaf) .leaf)) .out))))))) (.ref (.cut 2 (.ref (.cut 3 (.ref (.cut 0 (.cut 1 (.ref (.cut 2 (.ref (.cut 3 .leaf (.ref .leaf))) (.ref (.cut 3 (.ref .leaf) (.ref .leaf))))) (.ref (.cut 2 (.ref (.cut 3 (.ref .leaf) (.ref .leaf))) (.ref (.cut 3 (.ref .leaf) (.ref .leaf)))))) (.cut 1 (.ref (.cut 2 (.ref (.cut 3 .leaf (.ref .leaf))) (.cut 3 .leaf (.ref .leaf)))) (.ref (.cut 2 (.ref (.cut 3 (.ref .leaf) (.ref .leaf))) (.ref (.cut 3 .leaf (.ref .leaf)))))))) (.ref (.cut 0 (.cut 1 (.ref (.cut 2 (.cut 3 (.ref .leaf) (.ref .leaf)) (.cut 3 (.ref .leaf) (.ref .leaf)))) (.cut 2 (.ref (.cut 3 (.ref .leaf) (.ref .leaf))) (.ref (.cut 3 .leaf (.ref .leaf))))) (.cut 1 (.ref (.cut 2 (.cut 3 (.ref .leaf) .leaf) (.cut 3 (.ref .leaf) (.ref .leaf)))) (.cut 2 (.ref (.cut 3 (.ref .leaf) .leaf)) (.ref (.cut 3 (.ref .leaf) (.ref .leaf))))))))) (.cut 3 (.ref (.cut 0 (.cut 1 (.cut 2 (.ref (.cut 3 .leaf (.ref .leaf))) (.ref (.cut 3 (.ref .leaf) (.ref .leaf)))) (.ref (.cut 2 (.ref (.cut 3 (.ref .leaf) (.ref .leaf))) (.cut 3 .leaf (.ref .leaf))))) (.cut 1 (.cut 2 (.cut 3 (.ref .leaf) (.ref .leaf)) (.ref (.cut 3 (.ref .leaf) (.ref .leaf)))) (.ref (.cut 2 (.ref (.cut 3 (.ref .leaf) (.ref .leaf))) (.cut 3 .leaf (.ref .leaf))))))) (.ref (.cut 0 (.ref (.cut 1 (.cut 2 (.ref (.cut 3 (.ref .leaf) (.ref .leaf))) (.ref (.cut 3 (.ref .leaf) (.ref .leaf)))) (.ref (.cut 2 (.ref (.cut 3 (.ref .leaf) (.ref .leaf))) (.ref (.cut 3 .leaf .leaf)))))) (.cut 1 (.ref (.cut 2 (.ref (.cut 3 .leaf (.ref .leaf))) (.ref (.cut 3 (.ref .leaf) (.ref .leaf))))) (.ref (.cut 2 (.ref (.cut 3 (.ref .leaf) (.ref .leaf))) (.ref (.cut 3 (.ref .leaf) (.ref .leaf))))))))))))))) (.ref (.cut 0 (.ref (.cut 1 (.ref (.cut 2 (.ref (.cut 3 (.ref (.cut 0 (.cut 1 (.ref (.cut 2 (.cut 3 .leaf (.ref .leaf)) (.ref (.cut 3 (.ref .leaf) (.ref .leaf))))) (.ref (.cut 2 (.ref (.cut 3 (.ref .leaf) (.ref .leaf))) (.ref (.cut 3 (.ref .leaf) .leaf))))) (.cut 1 (.cut 2 (.ref (.cut 3 (.ref .leaf) (.ref .leaf))) (.ref (.cut 3 (.ref .leaf) (.ref .leaf)))) (.ref (.cut 2 (.ref (.cut 3 (.ref .leaf) (.ref .leaf))) (.ref (.cut 3 (.ref .leaf) .leaf))))))) (.ref (.cut 0 (.ref (.cut 1 (.cut 2 .out (.ref (.cut 3 .leaf .out))) (.ref (.cut 2 .out (.cut 3 .leaf .out))))) (.ref (.cut 1 (.ref (.cut 2 .out (.ref (.cut 3 .leaf .out)))) (.ref (.cut 2 .out (.cut 3 .leaf .out))))))))) (.ref (.cut 3 (.ref (.cut 0 (.ref (.cut 1 .out (.ref (.cut 2 (.cut 3 (.ref .leaf) .leaf) .out)))) (.ref (.cut 1 .out (.ref (.cut 2 (.cut 3 (.ref .leaf) .leaf) .out)))))) (.ref (.cut 0 (.cut 1 .out (.ref (.cut 2 (.cut 3 .leaf (.ref .leaf)) .out))) (.ref (.cut 1 .out (.cut 2 (.cut 3 .leaf (.ref .leaf)) .out))))))))) (.ref (.cut 2 (.ref (.cut 3 (.ref (.cut 0 (.ref (.cut 1 (.cut 2 (.ref (.cut 3 (.ref .leaf) (.ref .leaf))) (.ref (.cut 3 (.ref .leaf) .leaf))) (.cut 2 (.ref (.cut 3 .leaf (.ref .leaf))) (.ref (.cut 3 (.ref .leaf) (.ref .leaf)))))) (.ref (.cut 1 (.cut 2 (.ref (.cut 3 (.ref .leaf) (.ref .leaf))) (.ref (.cut 3 (.ref .leaf) .leaf))) (.ref (.cut 2 (.ref (.cut 3 .leaf (.ref .leaf))) (.ref (.cut 3 (.ref .leaf) .leaf)))))))) (.ref (.cut 0 (.cut 1 (.ref (.cut 2 .out (.cut 3 .leaf .out))) (.ref (.cut 2 .out (.cut 3 (.ref .leaf) .out)))) (.ref (.cut 1 (.cut 2 .out (.cut 3 .leaf .out)) (.cut 2 .out (.cut 3 (.ref .leaf) .out)))))))) (.ref (.cut 3 (.ref (.cut 0 (.cut 1 (.ref (.cut 2 (.cut 3 .leaf .leaf) (.cut 3 (.ref .leaf) (.ref .leaf)))) (.ref (.cut 2 (.cut 3 (.ref .leaf) (.ref .leaf)) (.cut 3 (.ref .leaf) .leaf)))) (.ref (.cut 1 (.cut 2 (.cut 3 .leaf .leaf) (.cut 3 (.ref .leaf) (.ref .leaf))) (.cut 2 (.cut 3 (.ref .leaf) (.ref .leaf)) (.cut 3 (.ref .leaf) .leaf)))))) (.ref (.cut 0 (.cut 1 (.cut 2 (.cut 3 (.ref .leaf) (.ref .leaf)) (.ref (.cut 3 (.ref .leaf) (.ref (.cut 0 .leaf .out))))) (.cut 2 (.ref (.cut 3 (.ref .leaf) (.ref (.cut 0 .leaf .out)))) (.cut 3 (.ref (.cut 0 .leaf .out)) .out))) (.cut 1 (.cut 2 (.cut 3 .leaf (.ref .leaf)) (.ref (.cut 3 (.ref .leaf) .out))) (.cut 2 (.ref (.cut 3 (.ref .leaf) .out)) .out)))))))))) (.ref (.cut 1 (.ref (.cut 2 (.ref (.cut 3 (.cut 0 (.cut 1 (.ref (.cut 2 (.cut 3 (.ref .leaf) (.ref .leaf)) (.ref (.cut 3 (.ref .leaf) (.ref .leaf))))) (.ref (.cut 2 (.ref (.cut 3 (.ref .leaf) (.ref .leaf))) (.ref (.cut 3 (.ref .leaf) .leaf))))) (.cut 1 (.cut 2 (.ref .leaf) (.ref .leaf)) (.ref (.cut 2 (.ref .leaf) (.ref .leaf))))) (.ref (.cut 0 (.cut 1 (.cut 2 .out (.ref (.cut 3 .leaf .out))) (.ref (.cut 2 .out (.cut 3 .leaf .out)))) (.cut 1 (.cut 2 .out (.ref (.cut 3 (.ref .leaf) .out))) (.ref (.cut 2 .out (.cut 3 (.ref .leaf) .out)))))))) (.ref (.cut 3 (.ref (.cut 0 (.cut 1 .out (.ref (.cut 2 (.cut 3 (.ref .leaf) .leaf) .out))) (.cut 1 .out (.ref (.cut 2 (.ref .leaf) .out))))) (.ref (.cut 0 (.ref (.cut 1 .out (.cut 2 (.cut 3 .leaf (.ref .leaf)) .out))) (.cut 1 .out (.cut 2 (.ref .leaf) .out)))))))) (.ref (.cut 2 (.ref (.cut 3 (.ref (.cut 0 (.cut 1 (.cut 2 (.ref (.cut 3 (.ref .leaf) (.ref .leaf))) (.ref (.cut 3 (.ref .leaf) .leaf))) (.cut 2 (.ref (.cut 3 .leaf (.ref .leaf))) (.ref (.cut 3 (.ref .leaf) (.ref .leaf))))) (.cut 1 (.cut 2 (.cut 3 (.ref .leaf) (.ref .leaf)) (.ref .leaf)) (.ref (.cut 2 (.cut 3 (.ref .leaf) (.ref .leaf)) (.ref (.cut 3 (.ref .leaf) (.ref .leaf)))))))) (.ref (.cut 0 (.ref (.cut 1 (.cut 2 .out (.cut 3 .leaf .out)) (.cut 2 .out (.cut 3 (.ref .leaf) .out)))) (.cut 1 (.cut 2 .out (.ref .leaf)) (.cut 2 .out .out)))))) (.ref (.cut 3 (.ref (.cut 0 (.ref (.cut 1 (.cut 2 (.cut 3 (.ref .leaf) .leaf) (.cut 3 (.ref .leaf) (.ref .leaf))) (.cut 2 (.cut 3 (.ref .leaf) (.ref .leaf)) (.cut 3 (.ref .leaf) .out)))) (.cut 1 (.cut 2 (.ref .leaf) (.ref (.cut 3 (.ref .leaf) .out))) (.cut 2 (.ref (.cut 3 (.ref .leaf) .out)) .out)))) (.ref (.cut 0 (.cut 1 (.cut 2 (.cut 3 .leaf .out) .out) .out) .out))))))))))))))))
theorem h19 : check par t19 [57344, 16384, 16384, 16384] [8192, 16384, 16384, 16384] st = true := by decide +kernel
def t20 : Tree := (.ref (.cut 0 (.ref (.cut 1 (.ref (.cut 2 .out (.ref (.cut 3 (.ref (.cut 0 (.ref (.cut 1 .out (.ref (.cut 2 .out .out)))) (.ref (.cut 1 .out (.ref (.cut 2 .out .out)))))) .out)))) (.ref (.cut 2 .out (.ref (.cut 3 (.ref (.cut 0 (.ref (.cut 1 (.ref (.cut 2 .out (.ref (.cut 3 (.ref (.cut 0 (.ref (.cut 1 .out (.ref (.cut 2 .out .out)))) (.cut 1 .out (.ref (.cut 2 .out .out))))) .out)))) (.ref (.cut 2 .out (.ref (.cut 3 (.ref (.cut 0 (.ref (.cut 1 (.ref (.cut 2 .out (.ref (.cut 3 (.ref (.cut 0 (.cut 1 .out (.cut 2 .out .out)) (.cut 1 .out (.cut 2 .out .out)))) .out)))) (.ref (.cut 2 .out (.ref (.cut 3 (.cut 0 (.cut 1 (.ref (.cut 2 .out (.ref (.cut 3 (.ref (.cut 0 (.cut 1 .out (.cut 2 .out .out)) (.cut 1 .out (.cut 2 .out .out)))) .out)))) (.ref (.cut 2 .out (.cut 3 (.cut 0 (.cut 1 (.ref (.cut 2 .out (.ref .leaf))) (.cut 2 .out .leaf)) (.ref (.cut 1 (.ref (.cut 2 .out (.ref .leaf))) (.cut 2 .out .leaf)))) .out)))) (.ref (.cut 1 (.ref (.cut 2 .out (.ref (.cut 3 (.ref (.cut 0 (.cut 1 .out (.cut 2 .out .out)) (.cut 1 .out (.ref (.cut 2 .out .out))))) .out)))) (.cut 2 .out (.ref (.cut 3 (.ref (.cut 0 (.cut 1 (.cut 2 .out (.ref (.cut 3 .leaf .out))) (.cut 2 .out .leaf)) (.cut 1 (.cut 2 .out (.ref (.cut 3 (.cut 0 (.cut 1 .out .out) .out) .out))) (.cut 2 .out .out)))) .out)))))) .out)))))) (.ref (.cut 1 (.ref (.cut 2 .out (.ref (.cut 3 (.ref (.cut 0 (.cut 1 .out (.ref (.cut 2 .out .out))) (.cut 1 .out (.ref (.cut 2 .out .out))))) .out)))) (.ref (.cut 2 .out (.ref (.cut 3 (.ref (.cut 0 (.cut 1 (.cut 2 .out (.ref (.cut 3 (.cut 0 (.ref (.cut 1 .out (.cut 2 .out .out))) (.cut 1 .out (.ref (.cut 2 .out .out)))) .out))) (.cut 2 .out (.ref (.cut 3 (.ref (.cut 0 (.cut 1 (.cut 2 .out .out) .out) .out)) .out)))) (.ref (.cut 1 (.cut 2 .out (.ref (.cut 3 (.cut 0 (.cut 1 .out .out) .out) .out))) (.cut 2 .out .out))))) .out)))))))) .out)))))) (.ref (.cut 1 (.ref (.cut 2 .out (.ref (.cut 3 (.ref (.cut 0 (.ref (.cut 1 .out (.ref (.cut 2 .out .out)))) (.ref (.cut 1 .out (.ref (.cut 2 .out .out)))))) .out)))) (.ref (.cut 2 .out (.ref (.cut 3 (.ref (.cut 0 (.ref (.cut 1 (.cut 2 .out (.ref (.cut 3 (.cut 0 (.cut 1 .out (.ref (.cut 2 .out .out))) (.ref (.cut 1 .out (.cut 2 .out .out)))) .out))) (.ref (.cut 2 .out (.ref (.cut 3 (.cut 0 (.ref (.cut 1 (.cut 2 .out .out) .out)) .out) .out)))))) (.ref (.cut 1 (.cut 2 .out (.ref (.cut 3 (.cut 0 (.ref (.cut 1 .out .out)) .out) .out))) (.cut 2 .out .out))))) .out)))))))) .out)))))) (.ref (.cut 1 (.ref (.cut 2 .out (.ref (.cut 3 (.ref (.cut 0 (.ref (.cut 1 .out (.ref (.cut 2 .out .out)))) (.ref (.cut 1 .out (.ref (.cut 2 .out .out)))))) .out)))) (.ref (.cut 2 .out (.ref (.cut 3 (.ref (.cut 0 (.ref (.cut 1 (.ref (.cut 2 .out (.ref (.cut 3 (.ref (.cut 0 (.cut 1 .out (.ref (.cut 2 .out .out))) (.ref (.cut 1 .out (.cut 2 .out .out))))) .out)))) (.ref (.cut 2 .out (.ref (.cut 3 (.cut 0 (.ref (.cut 1 (.cut 2 .out .out) .out)) .out) .out)))))) (.ref (.cut 1 (.ref (.cut 2 .out (.ref (.cut 3 (.ref (.cut 0 (.cut 1 .out .out) .out)) .out)))) (.ref (.cut 2 .out .out)))))) .out))))))))
theorem h20 : check par t20 [49152, 16384, 16384, 49152] [16384, 16384, 16384, 16384] st = true := by decide +kernel
def t21 : Tree := (.ref (.cut 3 (.ref (.cut 0 (.ref (.cut 1 .out (.ref (.cut 2 (.ref (.cut 3 (.ref (.cut 0 (.ref (.cut 1 .out (.ref (.cut 2 (.ref (.cut 3 (.ref (.cut 0 (.cut 1 .out (.cut 2 (.cut 3 (.ref .leaf) (.ref .leaf)) .out)) (.cut 1 .out (.cut 2 (.ref (.cut 3 .leaf (.ref .leaf))) .out)))) (.cut 0 (.cut 1 .out (.ref (.cut 2 (.cut 3 .leaf (.cut 0 (.ref .leaf) (.ref .leaf))) .out))) (.ref (.cut 1 .out (.cut 2 (.ref (.cut 3 .leaf (.cut 0 .leaf (.ref .leaf)))) .out)))))) .out)))) (.ref (.cut 1 .out (.ref (.cut 2 (.ref (.cut 3 (.ref (.cut 0 (.cut 1 .out (.cut 2 (.cut 3 (.ref .leaf) (.ref .leaf)) .out)) (.ref (.cut 1 .out (.cut 2 (.cut 3 .leaf .leaf) .out))))) (.ref (.cut 0 (.ref (.cut 1 .out (.cut 2 (.ref (.cut 3 .leaf (.cut 0 .leaf (.ref .leaf)))) .out))) (.ref (.cut 1 .out (.cut 2 (.ref (.cut 3 (.ref .leaf) (.ref .leaf))) .out))))))) .out)))))) (.ref (.cut 0 (.ref (.cut 1 .out (.ref (.cut 2 (.ref (.cut 3 (.ref (.cut 0 (.ref (.cut 1 .out (.cut 2 (.ref (.cut 3 (.cut 0 (.ref (.cut 1 .out (.cut 2 .leaf .out))) (.cut 1 .out (.ref (.cut 2 (.ref .leaf) .out)))) (.ref (.cut 0 (.ref (.cut 1 .out (.cut 2 (.ref (.cut 3 .leaf (.cut 0 .leaf .leaf))) .out))) (.ref (.cut 1 .out (.cut 2 (.ref (.cut 3 (.ref .leaf) (.ref (.cut 0 (.ref .leaf) .leaf)))) .out))))))) .out))) (.cut 1 .out (.ref (.cut 2 (.ref (.cut 3 (.ref (.cut 0 (.cut 1 .out (.ref (.cut 2 .leaf .out))) (.cut 1 .out (.ref .leaf)))) (.ref (.cut 0 (.ref (.cut 1 .out (.cut 2 (.cut 3 (.ref .leaf) (.cut 0 .leaf .leaf)) .out))) (.cut 1 .out (.cut 2 (.cut 3 (.ref .leaf) .leaf) .out)))))) .out))))) (.ref (.cut 0 (.ref (.cut 1 .out (.ref (.cut 2 (.ref (.cut 3 (.ref (.cut 0 (.cut 1 .out (.cut 2 (.ref (.cut 3 (.cut 0 (.ref (.cut 1 .out (.ref (.cut 2 .leaf .out)))) (.cut 1 .out (.ref (.cut 2 (.ref (.cut 3 .leaf .leaf)) .out)))) (.ref (.cut 0 (.cut 1 .out (.cut 2 (.ref (.cut 3 .leaf .leaf)) .out)) (.cut 1 .out (.cut 2 (.ref (.cut 3 (.ref (.cut 0 .leaf (.cut 1 .out .leaf))) (.cut 0 .leaf (.cut 1 .out (.ref (.cut 2 .leaf .out)))))) .out)))))) .out)) (.cut 1 .out (.cut 2 (.ref (.cut 3 (.cut 0 (.cut 1 .out (.cut 2 (.ref (.cut 3 .leaf .leaf)) .out)) (.cut 1 .out (.cut 2 (.cut 3 (.ref .leaf) (.ref .leaf)) .out))) (.cut 0 (.ref (.cut 1 .out (.cut 2 (.cut 3 (.cut 0 (.cut 1 .out (.ref (.cut 2 .leaf .out))) (.cut 1 .out (.ref (.cut 2 .leaf .out)))) (.cut 0 (.cut 1 .out (.cut 2 (.ref (.cut 3 .leaf .leaf)) .out)) (.cut 1 .out (.cut 2 (.cut 3 (.ref (.cut 0 .leaf .leaf)) (.cut 0 (.ref (.cut 1 .out .leaf)) (.cut 1 .out (.ref (.cut 2 (.cut 3 .leaf .leaf) .out))))) .out)))) .out))) (.cut 1 .out (.ref (.cut 2 (.cut 3 (.cut 0 (.cut 1 .out (.ref (.cut 2 .leaf .out))) (.cut 1 .out (.cut 2 (.ref .leaf) .out))) (.cut 0 (.cut 1 .out (.cut 2 (.cut 3 (.ref (.cut 0 .leaf .leaf)) (.cut 0 (.cut 1 .out (.ref (.cut 2 (.cut 3 .leaf .leaf) .out))) (.cut 1 .out (.ref (.cut 2 (.cut 3 .leaf .leaf) .out))))) .out)) (.cut 1 .out (.cut 2 (.cut 3 (.cut 0 .leaf .leaf) (.cut 0 (.cut 1 .out (.cut 2 (.ref (.cut 3 .leaf (.ref .leaf))) .out)) (.ref (.cut 1 .out (.cut 2 .leaf .out))))) .out)))) .out)))))) .out)))) (.cut 0 (.cut 1 .out (.ref (.cut 2 (.cut 3 (.ref (.cut 0 (.cut 1 .out (.cut 2 .leaf .out)) (.cut 1 .out (.cut 2 (.ref (.cut 3 (.cut 0 .leaf (.cut 1 .out .leaf)) .leaf)) .out)))) (.cut 0 (.cut 1 .out (.cut 2 .leaf .out)) (.ref (.cut 1 .out (.cut 2 (.ref .leaf) .out))))) .out))) (.ref (.cut 1 .out (.cut 2 (.ref (.cut 3 (.ref (.cut 0 (.cut 1 .out (.cut 2 (.cut 3 (.ref (.cut 0 (.cut 1 .out (.cut 2 (.cut 3 .leaf .leaf) .out)) (.cut 1 .out (.cut 2 (.cut 3 (.cut 0 (.cut 1 .out (.ref .leaf)) (.cut 1 .out (.cut 2 (.ref .leaf) .out))) (.cut 0 .leaf (.cut 1 .out (.cut 2 .leaf .out)))) .out)))) (.cut 0 (.cut 1 .out (.cut 2 .leaf .out)) (.cut 1 .out (.cut 2 (.cut 3 .leaf (.ref .leaf)) .out)))) .out)) (.cut 1 .out (.cut 2 (.cut 3 (.cut 0 (.ref (.cut 1 .out (.cut 2 (.cut 3 (.cut 0 (.cut 1 .out (.cut 2 (.ref (.cut 3 (.cut 0 .leaf (.cut 1 .out .leaf)) (.cut 0 .leaf (.cut 1 .out .leaf)))) .out)) (.cut 1 .out (.cut 2 (.cut 3 (.ref (.cut 0 (.cut 1 .out (.cut 2 .leaf .out)) (.ref (.cut 1 .out (.cut 2 .leaf .out))))) (.ref (.cut 0 (.cut 1 .out (.ref (.cut 2 .leaf .out))) (.cut 1 .out (.ref (.cut 2 .leaf .out)))))) .out))) (.ref (.cut 0 (.cut 1 .out (.cut 2 (.cut 3 (.cut 0 .leaf .leaf) .leaf) .out)) (.cut 1 .out (.cut 2 (.cut 3 (.cut 0 (.cut 1 .out (.cut 2 (.ref .leaf) .out)) (.cut 1 .out (.cut 2 (.ref (.cut 3 (.ref .leaf) .leaf)) .out))) (.cut 0 .leaf .leaf)) .out))))) .out))) (.ref (.cut 1 .out (.cut 2 (.cut 3 (.ref (.cut 0 (.cut 1 .out (.cut 2 (.cut 3 (.cut 0 (.ref (.cut 1 .out (.cut 2 .leaf .out))) (.cut 1 .out (.ref (.cut 2 .leaf .out)))) (.cut 0 (.cut 1 .out (.cut 2 (.ref (.cut 3 .leaf .leaf)) .out)) (.cut 1 .out (.cut 2 (.ref (.cut 3 .leaf .leaf)) .out)))) .out)) (.cut 1 .out (.cut 2 (.cut 3 (.cut 0 .leaf .leaf) (.cut 0 (.cut 1 .out (.ref (.cut 2 .leaf .out))) (.ref (.cut 1 .out .leaf)))) .out)))) (.cut 0 (.cut 1 .out (.cut 2 (.cut 3 (.ref (.cut 0 (.cut 1 .out (.cut 2 (.ref (.cut 3 .leaf .leaf)) .out)) (.cut 1 .out (.ref (.cut 2 .leaf .out))))) (.ref (.cut 0 (.cut 1 .out .out) .out))) .out)) (.cut 1 .out (.cut 2 (.ref (.cut 3 (.cut 0 (.ref (.cut 1 .out .out)) .out) .out)) .out)))) .out)))) (.ref (.cut 0 (.cut 1 .out (.cut 2 (.cut 3 (.cut 0 (.cut 1 .out .leaf) (.cut 1 .out (.cut 2 .leaf .out))) .leaf) .out)) (.cut 1 .out (.cut 2 (.cut 3 (.cut 0 (.cut 1 .out .out) .out) .out) .out))))) .out)))) (.ref (.cut 0 (.cut 1 .out (.cut 2 (.cut 3 (.ref .leaf) .leaf) .out)) (.cut 1 .out (.cut 2 (.cut 3 (.ref (.cut 0 (.cut 1 .out .out) .out)) .out) .out)))))) .out)))))) .out)))) (.ref (.cut 1 .out (.ref (.cut 2 (.ref (.cut 3 (.ref (.cut 0 (.cut 1 .out (.ref (.cut 2 (.cut 3 (.ref (.cut 0 (.cut 1 .out (.cut 2 (.cut 3 (.ref .leaf) (.ref .leaf)) .out)) (.cut 1 .out (.cut 2 .leaf .out)))) (.cut 0 (.cut 1 .out (.cut 2 (.ref (.cut 3 (.ref (.cut 0 (.cut 1 .out .leaf) .leaf)) (.ref (.cut 0 (.cut 1 .out (.cut 2 (.cut 3 .leaf (.cut 0 (.cut 1 .out .leaf) .leaf)) .out)) (.cut 1 .out (.cut 2 (.cut 3 .leaf .leaf) .out)))))) .out)) (.ref (.cut 1 .out (.cut 2 (.cut 3 (.ref .leaf) (.ref (.cut 0 (.cut 1 .out .leaf) .leaf))) .out))))) .out))) (.cut 1 .out (.ref (.cut 2 (.cut 3 (.ref (.cut 0 (.cut 1 .out .leaf) .leaf)) (.ref (.cut 0 (.cut 1 .out (.cut 2 (.cut 3 .leaf (.ref .leaf)) .out)) (.cut 1 .out (.ref .leaf))))) .out))))) (.ref (.cut 0 (.cut 1 .out (.cut 2 (.cut 3 (.ref (.cut 0 (.ref (.cut 1 .out (.cut 2 (.cut 3 (.cut 0 (.cut 1 .out (.cut 2 (.cut 3 (.cut 0 (.ref (.cut 1 .out (.cut 2 (.cut 3 (.ref .leaf) (.ref .leaf)) .out))) (.cut 1 .out (.cut 2 (.ref .leaf) .out))) (.cut 0 (.cut 1 .out .out) .out)) .out)) (.cut 1 .out (.cut 2 (.cut 3 (.cut 0 .leaf .out) .out) .out))) (.cut 0 (.cut 1 .out .out) .out)) .out))) (.cut 1 .out (.ref (.cut 2 (.cut 3 (.cut 0 (.cut 1 .out .out) .out) .out) .out))))) (.ref (.cut 0 (.cut 1 .out .out) .out))) .out)) (.ref (.cut 1 .out (.cut 2 (.cut 3 (.ref (.cut 0 (.cut 1 .out .out) .out)) .out) .out))))))) .out)))))))) .out)))) (.ref (.cut 1 .out (.ref (.cut 2 (.ref (.cut 3 (.ref (.cut 0 (.ref (.cut 1 .out (.cut 2 (.ref (.cut 3 (.cut 0 (.ref (.cut 1 .out .leaf)) (.ref .leaf)) (.ref (.cut 0 (.cut 1 .out (.cut 2 .leaf .out)) (.cut 1 .out (.cut 2 .leaf .out)))))) .out))) (.ref (.cut 1 .out (.cut 2 (.cut 3 (.ref (.cut 0 (.ref .leaf) (.ref .leaf))) (.ref (.cut 0 (.ref (.cut 1 .out (.ref .leaf))) (.ref .leaf)))) .out))))) (.ref (.cut 0 (.ref (.cut 1 .out (.ref (.cut 2 (.cut 3 (.ref (.cut 0 (.cut 1 .out (.cut 2 (.cut 3 .leaf (.ref (.cut 0 .leaf .out))) .out)) (.ref (.cut 1 .out (.cut 2 (.cut 3 .leaf .out) .out))))) (.ref (.cut 0 (.ref (.cut 1 .out .out)) .out))) .out)))) (.ref (.cut 1 .out (.cut 2 (.cut 3 (.ref (.cut 0 (.ref (.cut 1 .out .out)) .out)) .out) .out))))))) .out)))))))) .out)))) (.ref (.cut 1 .out (.ref (.cut 2 (.ref (.cut 3 (.ref (.cut 0 (.ref (.cut 1 .out (.ref (.cut 2 (.ref (.cut 3 (.ref (.cut 0 (.ref (.cut 1 .out (.cut 2 (.cut 3 (.ref .leaf) (.ref .leaf)) .out))) (.cut 1 .out (.cut 2 (.ref (.cut 3 (.ref .leaf) (.ref .leaf))) .out)))) (.ref (.cut 0 (.cut 1 .out (.ref (.cut 2 (.cut 3 (.ref .leaf) .leaf) .out))) (.cut 1 .out (.cut 2 (.ref (.cut 3 (.ref .leaf) .leaf)) .out)))))) .out)))) (.ref (.cut 1 .out (.ref (.cut 2 (.ref (.cut 3 (.ref (.cut 0 (.cut 1 .out (.cut 2 (.cut 3 .leaf (.ref .leaf)) .out)) (.cut 1 .out (.cut 2 (.cut 3 .leaf .leaf) .out)))) (.ref (.cut 0 (.ref (.cut 1 .out (.cut 2 (.cut 3 (.ref .leaf) (.ref .leaf)) .out))) (.ref (.cut 1 .out (.cut 2 (.ref (.cut 3 .leaf .out)) .out))))))) .out)))))) (.ref (.cut 0 (.ref (.cut 1 .out (.ref (.cut 2 (.cut 3 (.ref (.cut 0 (.cut 1 .out (.ref (.cut 2 (.ref (.cut 3 (.ref .leaf) (.ref (.cut 0 .leaf .out)))) .out))) (.ref (.cut 1 .out (.ref (.cut 2 (.ref (.cut 3 (.ref .leaf) .out)) .out)))))) (.ref (.cut 0 (.cut 1 .out .out) .out))) .out)))) (.ref (.cut 1 .out (.ref (.cut 2 (.ref (.cut 3 (.ref (.cut 0 (.cut 1 .out .out) .out)) .out)) .out)))))))) .out)))))) (.ref (.cut 0 (.ref (.cut 1 .out (.ref (.cut 2 (.ref (.cut 3 (.ref (.cut 0 (.ref (.cut 1 .out (.ref (.cut 2 (.ref (.cut 3 (.ref (.cut 0 (.cut 1 .out (.cut 2 (.ref (.cut 3 (.ref (.cut 0 (.cut 1 .out (.cut 2 (.cut 3 (.cut 0 (.cut 1 .out .leaf) (.ref (.cut 1 .out .leaf))) (.ref (.cut 0 (.cut 1 .out .out) .out))) .out)) (.ref (.cut 1 .out (.cut 2 (.ref (.cut 3 (.ref (.cut 0 (.cut 1 .out .out) .out)) .out)) .out))))) (.ref (.cut 0 (.cut 1 .out .out) .out)))) .out)) (.ref (.cut 1 .out (.cut 2 (.ref (.cut 3 (.ref (.cut 0 (.cut 1 .out .out) .out)) .out)) .out))))) (.ref (.cut 0 (.ref (.cut 1 .out .out)) .out)))) .out)))) (.ref (.cut 1 .out (.ref (.cut 2 (.ref (.cut 3 (.ref (.cut 0 (.ref (.cut 1 .out .out)) .out)) .out)) .out)))))) (.ref (.cut 0 (.ref (.cut 1 .out .out)) .out)))) .out)))) (.ref (.cut 1 .out (.ref (.cut 2 (.ref (.cut 3 (.ref (.cut 0 (.ref (.cut 1 .out .out)) .out)) .out)) .out))))))))
theorem h21 : check par t21 [49152, 16384, 49152, 32768] [16384, 16384, 16384, 32768] st = true := by decide +kernel
def t22 : Tree := (.ref (.cut 3 (.ref (.cut 0 (.ref (.cut 1 (.ref (.cut 2 (.ref (.cut 3 (.cut 0 (.ref (.cut 1 (.cut 2 (.cut 3 .leaf (.ref .leaf)) (.ref (.cut 3 (.ref .leaf) .leaf))) (.ref (.cut 2 (.cut 3 .leaf (.ref .leaf)) (.ref (.cut 3 (.ref .leaf) (.ref .leaf))))))) (.ref (.cut 1 (.ref (.cut 2 (.cut 3 .leaf (.ref .leaf)) (.ref (.cut 3 (.ref .leaf) (.ref .leaf))))) (.cut 2 (.cut 3 .leaf (.ref .leaf)) (.ref (.cut 3 (.ref .leaf) (.ref .leaf))))))) (.ref (.cut 0 (.cut 1 (.cut 2 .out (.ref (.cut 3 .leaf .out))) (.ref (.cut 2 .out (.ref (.cut 3 .leaf .out))))) (.ref (.cut 1 (.ref (.cut 2 .out (.ref (.cut 3 .leaf .out)))) (.cut 2 .out (.ref (.cut 3 (.ref .leaf) .out))))))))) (.ref (.cut 3 (.ref (.cut 0 (.cut 1 (.cut 2 (.cut 3 (.ref .leaf) (.ref .leaf)) (.ref (.cut 3 .leaf (.ref .leaf)))) (.ref (.cut 2 (.cut 3 (.ref .leaf) (.ref .leaf)) (.ref (.cut 3 .leaf .leaf))))) (.ref (.cut 1 (.ref (.cut 2 (.cut 3 (.ref .leaf) (.ref .leaf)) (.ref (.cut 3 .leaf .leaf)))) (.cut 2 (.ref (.cut 3 (.ref .leaf) (.ref .leaf))) (.ref (.cut 3 .leaf (.ref .leaf)))))))) (.ref (.cut 0 (.cut 1 (.ref (.cut 2 (.cut 3 (.ref .leaf) (.ref .leaf)) (.cut 3 (.ref .leaf) .leaf))) (.ref (.cut 2 (.ref (.cut 3 (.ref .leaf) (.ref .leaf))) (.ref (.cut 3 (.ref .leaf) (.ref .leaf)))))) (.cut 1 (.ref (.cut 2 (.ref (.cut 3 (.ref .leaf) (.ref .leaf))) (.ref (.cut 3 (.ref .leaf) (.ref .leaf))))) (.ref (.cut 2 (.cut 3 (.ref .leaf) (.ref .leaf)) (.ref (.cut 3 (.ref .leaf) (.ref .leaf)))))))))))) (.ref (.cut 2 (.ref (.cut 3 (.ref (.cut 0 .out (.cut 1 (.cut 2 (.cut 3 (.ref .leaf) (.ref .leaf)) (.ref (.cut 3 (.ref .leaf) (.ref .leaf)))) .out))) (.ref (.cut 0 .out (.ref (.cut 1 (.ref (.cut 2 .out (.cut 3 (.ref .leaf) .out))) .out)))))) (.ref (.cut 3 (.ref (.cut 0 .out (.ref (.cut 1 (.ref (.cut 2 (.cut 3 (.ref .leaf) (.ref .leaf)) (.ref (.cut 3 .leaf (.ref .leaf))))) .out)))) (.ref (.cut 0 .out (.ref (.cut 1 (.cut 2 (.ref (.cut 3 .leaf (.ref .leaf))) (.ref (.cut 3 (.ref .leaf) (.ref .leaf)))) .out)))))))))) (.ref (.cut 1 (.ref (.cut 2 (.ref (.cut 3 (.ref (.cut 0 (.cut 1 (.cut 2 (.ref (.cut 3 .leaf (.ref .leaf))) (.ref (.cut 3 (.ref .leaf) (.ref .leaf)))) (.cut 2 (.cut 3 (.ref .leaf) (.ref .leaf)) (.ref (.cut 3 (.ref .leaf) (.ref .leaf))))) (.cut 1 (.cut 2 (.ref (.cut 3 (.ref .leaf) (.ref .leaf))) (.cut 3 (.ref .leaf) (.ref .leaf))) (.cut 2 (.ref (.cut 3 .leaf (.ref .leaf))) (.cut 3 (.ref .leaf) (.ref .leaf)))))) (.ref (.cut 0 (.ref (.cut 1 (.cut 2 .out (.ref (.cut 3 .leaf .out))) (.cut 2 .out (.cut 3 (.ref .leaf) .out)))) (.cut 1 (.ref (.cut 2 .out (.ref (.cut 3 .leaf .out)))) (.ref (.cut 2 .out (.ref (.cut 3 (.ref .leaf) .out))))))))) (.ref (.cut 3 (.ref (.cut 0 (.ref (.cut 1 (.cut 2 (.cut 3 (.ref .leaf) (.ref .leaf)) (.ref (.cut 3 (.ref .leaf) .leaf))) (.cut 2 (.cut 3 (.ref .leaf) (.ref .leaf)) (.ref (.cut 3 .leaf (.ref .leaf)))))) (.cut 1 (.ref (.cut 2 (.ref (.cut 3 (.ref .leaf) (.ref .leaf))) (.ref (.cut 3 .leaf (.ref .leaf))))) (.ref (.cut 2 (.cut 3 .leaf (.ref .leaf)) (.ref (.cut 3 .leaf .leaf))))))) (.ref (.cut 0 (.ref (.cut 1 (.cut 2 (.cut 3 (.ref .leaf) (.ref .leaf)) (.cut 3 (.ref .leaf) .leaf)) (.cut 2 (.ref (.cut 3 .leaf (.ref .leaf))) (.cut 3 (.ref .leaf) (.ref .leaf))))) (.ref (.cut 1 (.cut 2 (.ref (.cut 3 .leaf (.ref .leaf))) (.ref (.cut 3 (.ref .leaf) (.ref .leaf)))) (.cut 2 (.ref (.cut 3 .leaf (.ref .leaf))) (.ref (.cut 3 (.ref .leaf) (.ref .leaf)))))))))))) (.ref (.cut 2 (.ref (.cut 3 (.cut 0 (.cut 1 (.ref (.cut 2 (.cut 3 .leaf (.ref .leaf)) (.cut 3 (.ref .leaf) .leaf))) (.ref (.cut 2 (.ref (.cut 3 (.ref .leaf) (.ref .leaf))) (.ref (.cut 3 (.ref .leaf) (.ref .leaf)))))) (.ref (.cut 1 (.ref (.cut 2 (.ref (.cut 3 (.ref .leaf) (.ref .leaf))) (.ref (.cut 3 (.ref .leaf) (.ref .leaf))))) (.ref (.cut 2 (.cut 3 (.ref .leaf) (.ref .leaf)) (.ref (.cut 3 (.ref .leaf) (.ref .leaf)))))))) (.ref (.cut 0 (.cut 1 (.cut 2 .out (.ref (.cut 3 .leaf .out))) (.ref (.cut 2 .out (.ref (.cut 3 (.ref .leaf) .out))))) (.ref (.cut 1 (.ref (.cut 2 .out (.ref (.cut 3 (.ref .leaf) .out)))) (.cut 2 .out (.cut 3 (.ref .leaf) .out)))))))) (.ref (.cut 3 (.ref (.cut 0 (.cut 1 (.cut 2 (.cut 3 (.ref .leaf) (.ref .leaf)) (.ref (.cut 3 .leaf .leaf))) (.ref (.cut 2 (.cut 3 (.ref .leaf) (.ref .leaf)) (.ref (.cut 3 (.ref .leaf) .leaf))))) (.ref (.cut 1 (.ref (.cut 2 (.cut 3 (.ref .leaf) (.ref .leaf)) (.ref (.cut 3 (.ref .leaf) .leaf)))) (.cut 2 (.cut 3 (.ref .leaf) (.ref .leaf)) (.ref (.cut 3 (.ref .leaf) (.ref .leaf)))))))) (.ref (.cut 0 (.ref (.cut 1 (.ref (.cut 2 (.ref (.cut 3 .leaf (.ref .leaf))) (.cut 3 (.ref .leaf) (.ref .leaf)))) (.ref (.cut 2 (.ref (.cut 3 (.ref .leaf) (.ref .leaf))) (.ref (.cut 3 (.ref .leaf) (.ref .leaf))))))) (.ref (.cut 1 (.ref (.cut 2 (.ref (.cut 3 (.ref .leaf) (.ref .leaf))) (.ref (.cut 3 (.ref .leaf) (.ref .leaf))))) (.ref (.cut 2 (.cut 3 (.ref .leaf) (.ref .leaf)) (.ref (.cut 3 (.ref .leaf) (.ref .leaf))))))))))))))))) (.ref (.cut 0 (.ref (.cut 1 (.ref (.cut 2 .out (.cut 3 (.ref (.cut 0 (.cut 1 (.cut 2 .out (.ref (.cut 3 .leaf .out))) (.ref (.cut 2 .out (.cut 3 (.ref .leaf) .out)))) (.ref (.cut 1 (.ref (.cut 2 .out (.cut 3 (.ref .leaf) .out))) (.ref (.cut 2 .out (.cut 3 .leaf .out))))))) .out))) (.ref (.cut 2 .out (.ref (.cut 3 (.ref (.cut 0 .out (.ref (.cut 1 (.cut 2 .out (.ref (.cut 3 .leaf .out))) .out)))) .out)))))) (.ref (.cut 1 (.ref (.cut 2 .out (.ref (.cut 3 (.ref (.cut 0 (.ref (.cut 1 (.cut 2 .out (.cut 3 (.ref .leaf) .out)) (.cut 2 .out (.ref (.cut 3 .leaf .out))))) (.cut 1 (.cut 2 .out (.ref (.cut 3 (.ref .leaf) .out))) (.ref (.cut 2 .out (.cut 3 (.ref .leaf) .out)))))) .out)))) (.ref (.cut 2 .out (.ref (.cut 3 (.ref (.cut 0 (.cut 1 (.ref (.cut 2 .out (.cut 3 (.ref .leaf) .out))) (.ref (.cut 2 .out (.cut 3 .leaf .out)))) (.cut 1 (.ref (.cut 2 .out (.cut 3 .leaf .out))) (.cut 2 .out (.cut 3 .leaf .out))))) .out))))))))))
theorem h22 : check par t22 [40960, 40960, 8192, 16384] [8192, 8192, 8192, 16384] st = true := by decide +kernel
def t23 : Tree := (.ref (.cut 0 (.ref (.cut 1 (.ref (.cut 2 (.ref (.cut 3 (.cut 0 (.cut 1 (.cut 2 (.ref (.cut 3 (.ref .leaf) .leaf)) (.ref (.cut 3 .leaf .leaf))) (.ref (.cut 2 (.cut 3 (.ref .leaf) (.ref .leaf)) (.ref (.cut 3 .leaf (.ref .leaf)))))) (.cut 1 (.ref (.cut 2 (.cut 3 (.ref .leaf) (.ref .leaf)) (.ref (.cut 3 .leaf (.ref .leaf))))) (.cut 2 (.ref (.cut 3 (.ref .leaf) (.ref .leaf))) (.cut 3 (.ref .leaf) (.ref .leaf))))) (.cut 0 (.cut 1 (.cut 2 (.ref (.cut 3 .leaf (.ref .leaf))) (.ref (.cut 3 (.ref .leaf) (.ref (.cut 0 .leaf .leaf))))) (.ref (.cut 2 (.ref (.cut 3 .leaf .leaf)) (.cut 3 .leaf (.ref .leaf))))) (.ref (.cut 1 (.ref (.cut 2 (.ref (.cut 3 .leaf .leaf)) (.cut 3 .leaf (.ref .leaf)))) (.ref (.cut 2 (.cut 3 .leaf .leaf) (.cut 3 .leaf (.ref .leaf))))))))) (.cut 3 (.ref (.cut 0 (.cut 1 (.cut 2 (.cut 3 .leaf (.ref .leaf)) (.cut 3 (.ref .leaf) (.ref .leaf))) (.ref (.cut 2 (.ref (.cut 3 .leaf (.ref .leaf))) (.cut 3 .leaf (.ref .leaf))))) (.cut 1 (.ref (.cut 2 (.ref (.cut 3 .leaf (.ref .leaf))) (.cut 3 .leaf (.ref .leaf)))) (.cut 2 (.ref (.cut 3 .leaf .leaf)) (.cut 3 .leaf (.ref .leaf)))))) (.cut 0 (.cut 1 (.cut 2 (.ref (.cut 3 (.ref .leaf) (.cut 0 .leaf (.ref .leaf)))) (.ref (.cut 3 .leaf (.cut 0 (.ref .leaf) (.ref .leaf))))) (.ref (.cut 2 (.ref (.cut 3 (.ref .leaf) (.cut 0 .out .leaf))) (.ref (.cut 3 .leaf (.cut 0 .out .leaf)))))) (.ref (.cut 1 (.ref (.cut 2 (.ref (.cut 3 (.ref .leaf) (.cut 0 .leaf .leaf))) (.ref (.cut 3 .leaf (.cut 0 .leaf (.ref .leaf)))))) (.cut 2 (.ref (.cut 3 .leaf .leaf)) (.cut 3 (.ref .leaf) (.ref .leaf))))))))) (.ref (.cut 2 (.ref (.cut 3 (.ref (.cut 0 .out (.cut 1 (.cut 2 (.ref (.cut 3 .leaf .leaf)) (.cut 3 (.ref .leaf) (.ref .leaf))) .out))) (.cut 0 .out (.ref (.cut 1 (.cut 2 (.ref (.cut 3 (.ref .leaf) .leaf)) (.ref (.cut 3 .leaf (.ref .leaf)))) .out))))) (.ref (.cut 3 (.ref (.cut 0 .out (.ref (.cut 1 (.cut 2 (.ref (.cut 3 .leaf (.ref .leaf))) (.cut 3 .leaf (.ref .leaf))) .out)))) (.ref (.cut 0 .out (.ref (.cut 1 (.ref (.cut 2 (.ref (.cut 3 .leaf (.ref .leaf))) (.cut 3 (.ref .leaf) (.ref .leaf)))) .out)))))))))) (.ref (.cut 1 (.ref (.cut 2 (.ref (.cut 3 (.ref (.cut 0 (.cut 1 (.cut 2 (.cut 3 (.ref .leaf) (.ref .leaf)) (.cut 3 (.ref .leaf) (.ref .leaf))) (.cut 2 (.ref (.cut 3 .leaf .leaf)) (.cut 3 (.ref .leaf) (.ref .leaf)))) (.cut 1 (.cut 2 (.ref (.cut 3 (.ref .leaf) .leaf)) (.cut 3 (.ref .leaf) (.ref .leaf))) (.cut 2 (.ref (.cut 3 .leaf .leaf)) (.cut 3 (.ref .leaf) (.ref .leaf)))))) (.cut 0 (.ref (.cut 1 (.cut 2 (.cut 3 (.ref .leaf) (.ref .leaf)) (.cut 3 (.ref .leaf) (.ref .leaf))) (.cut 2 (.ref (.cut 3 (.ref .leaf) .leaf)) (.ref (.cut 3 .leaf (.ref .leaf)))))) (.cut 1 (.cut 2 (.ref (.cut 3 (.ref .leaf) (.ref .leaf))) (.ref (.cut 3 .leaf .leaf))) (.ref (.cut 2 (.ref (.cut 3 .leaf .leaf)) (.cut 3 (.ref .leaf) .leaf))))))) (.ref (.cut 3 (.ref (.cut 0 (.cut 1 (.cut 2 (.ref (.cut 3 .leaf .leaf)) (.cut 3 (.ref .leaf) (.ref .leaf))) (.ref (.cut 2 (.ref (.cut 3 .leaf (.ref .leaf))) (.cut 3 .leaf (.ref .leaf))))) (.ref (.cut 1 (.cut 2 (.cut 3 .leaf .leaf) (.cut 3 .leaf .leaf)) (.cut 2 (.cut 3 .leaf .leaf) (.cut 3 .leaf .leaf)))))) (.ref (.cut 0 (.ref (.cut 1 (.ref (.cut 2 (.ref (.cut 3 (.ref .leaf) (.cut 0 .leaf .leaf))) (.ref (.cut 3 .leaf (.cut 0 .leaf (.ref .leaf)))))) (.ref (.cut 2 (.ref (.cut 3 .leaf (.ref .leaf))) (.cut 3 (.ref .leaf) (.ref .leaf)))))) (.ref (.cut 1 (.cut 2 (.cut 3 (.ref .leaf) (.ref .leaf)) (.ref (.cut 3 (.ref .leaf) (.ref .leaf)))) (.ref (.cut 2 (.cut 3 (.ref .leaf) (.ref .leaf)) (.ref (.cut 3 (.ref .leaf) .leaf)))))))))))) (.ref (.cut 2 (.ref (.cut 3 (.ref (.cut 0 (.ref (.cut 1 (.cut 2 (.ref (.cut 3 .leaf .leaf)) (.cut 3 (.ref .leaf) (.ref .leaf))) (.ref (.cut 2 (.cut 3 (.ref .leaf) .leaf) (.cut 3 (.ref .leaf) (.ref .leaf)))))) (.ref (.cut 1 (.ref (.cut 2 (.cut 3 (.ref .leaf) .leaf) (.cut 3 (.ref .leaf) (.ref .leaf)))) (.cut 2 (.cut 3 .leaf .leaf) (.cut 3 (.ref .leaf) .leaf)))))) (.ref (.cut 0 (.cut 1 (.ref (.cut 2 (.cut 3 .leaf (.ref .leaf)) (.cut 3 (.ref .leaf) (.ref .leaf)))) (.ref (.cut 2 (.cut 3 (.ref .leaf) .leaf) (.cut 3 (.ref .leaf) .leaf)))) (.cut 1 (.ref (.cut 2 (.cut 3 (.ref .leaf) .leaf) (.cut 3 (.ref .leaf) .leaf))) (.cut 2 (.cut 3 (.ref .leaf) .leaf) (.ref (.cut 3 .leaf .leaf)))))))) (.ref (.cut 3 (.ref (.cut 0 (.cut 1 (.cut 2 (.cut 3 (.ref .leaf) (.ref .leaf)) (.ref (.cut 3 .leaf .leaf))) (.ref (.cut 2 (.ref (.cut 3 (.ref .leaf) .leaf)) (.ref (.cut 3 .leaf (.ref .leaf)))))) (.cut 1 (.ref (.cut 2 (.ref (.cut 3 (.ref .leaf) .leaf)) (.ref (.cut 3 .leaf (.ref .leaf))))) (.cut 2 (.ref (.cut 3 (.ref .leaf) (.ref .leaf))) (.cut 3 .leaf (.ref .leaf)))))) (.cut 0 (.ref (.cut 1 (.cut 2 (.ref (.cut 3 .leaf (.ref .leaf))) (.ref (.cut 3 (.ref .leaf) .leaf))) (.ref (.cut 2 (.cut 3 .leaf (.ref .leaf)) (.ref (.cut 3 (.ref .leaf) .leaf)))))) (.cut 1 (.ref (.cut 2 (.cut 3 .leaf (.ref .leaf)) (.ref (.cut 3 (.ref .leaf) .leaf)))) (.cut 2 (.ref (.cut 3 .leaf .leaf)) (.cut 3 (.ref .leaf) (.ref .leaf)))))))))))))
theorem h23 : check par t23 [40960, 40960, 24576, 8192] [8192, 8192, 8192, 8192] st = true := by decide +kernel
def t24 : Tree := (.ref (.cut 3 (.ref (.cut 0 (.ref (.cut 1 (.ref (.cut 2 (.ref (.cut 3 .leaf (.ref (.cut 0 (.cut 1 .leaf (.ref .leaf)) .leaf)))) (.cut 3 (.ref (.cut 0 (.cut 1 .leaf (.ref .leaf)) .leaf)) (.cut 0 (.cut 1 (.ref .leaf) (.ref .leaf)) (.cut 1 (.ref .leaf) (.ref .leaf)))))) (.ref (.cut 2 (.ref (.cut 3 .leaf (.ref (.cut 0 .out (.ref .leaf))))) (.ref (.cut 3 (.ref (.cut 0 .out (.ref .leaf))) (.cut 0 .out .leaf))))))) (.ref (.cut 1 (.ref (.cut 2 (.ref (.cut 3 .leaf (.ref (.cut 0 (.ref .leaf) .leaf)))) (.ref (.cut 3 (.ref (.cut 0 (.ref .leaf) .leaf)) (.cut 0 (.cut 1 .leaf .leaf) (.cut 1 .leaf .leaf)))))) (.cut 2 (.cut 3 .leaf (.ref .leaf)) (.cut 3 (.ref .leaf) (.cut 0 (.ref .leaf) (.ref .leaf)))))))) (.ref (.cut 0 (.ref (.cut 1 (.ref (.cut 2 .out (.ref (.cut 3 (.ref (.cut 0 (.cut 1 (.cut 2 .out (.ref (.cut 3 .leaf .out))) (.ref (.cut 2 .out (.cut 3 .leaf .out)))) (.ref (.cut 1 (.ref (.cut 2 .out (.cut 3 .leaf .out))) (.cut 2 .out .leaf))))) .out)))) (.ref (.cut 2 .out (.ref (.cut 3 (.ref (.cut 0 .out (.ref (.cut 1 (.cut 2 .out .leaf) .out)))) .out)))))) (.cut 1 (.ref (.cut 2 .out (.ref (.cut 3 (.ref (.cut 0 (.ref (.cut 1 (.cut 2 .out (.cut 3 .leaf .out)) (.cut 2 .out .leaf))) (.cut 1 (.cut 2 .out (.ref .leaf)) (.ref (.cut 2 .out .leaf))))) .out)))) (.cut 2 .out (.ref (.cut 3 (.ref (.cut 0 (.cut 1 (.ref .leaf) (.ref .leaf)) (.cut 1 (.ref .leaf) .leaf))) .out))))))))
theorem h24 : check par t24 [36864, 36864, 20480, 24576] [4096, 4096, 4096, 8192] st = true := by decide +kernel
def t25 : Tree := (.ref (.cut 0 (.ref (.cut 1 (.ref (.cut 2 (.cut 3 (.ref (.cut 0 (.cut 1 (.ref (.cut 2 (.ref .leaf) .leaf)) (.ref (.cut 2 .leaf .leaf))) (.ref (.cut 1 (.ref (.cut 2 .leaf .leaf)) (.ref .leaf))))) (.ref (.cut 0 (.cut 1 (.cut 2 (.ref .leaf) (.cut 3 .leaf (.ref .leaf))) (.ref (.cut 2 .leaf (.cut 3 .leaf .leaf)))) (.ref (.cut 1 (.ref (.cut 2 .leaf (.cut 3 .leaf .leaf))) (.cut 2 .leaf .leaf)))))) (.cut 3 (.cut 0 (.ref (.cut 1 (.cut 2 .leaf .leaf) (.ref (.cut 2 .leaf .leaf)))) (.cut 1 (.ref (.cut 2 .leaf .leaf)) .leaf)) (.ref (.cut 0 (.ref (.cut 1 (.ref (.cut 2 (.cut 3 .leaf (.cut 0 .leaf .leaf)) (.ref (.cut 3 .leaf (.cut 0 .leaf .leaf))))) (.ref (.cut 2 (.ref (.cut 3 .leaf (.cut 0 .out .leaf))) (.cut 3 (.ref .leaf) (.ref (.cut 0 .out .leaf))))))) (.ref (.cut 1 (.ref (.cut 2 (.ref (.cut 3 .leaf (.cut 0 .leaf (.ref .leaf)))) (.cut 3 (.ref .leaf) (.ref (.cut 0 (.ref .leaf) .leaf))))) (.ref (.cut 2 (.cut 3 (.ref .leaf) (.ref .leaf)) (.cut 3 (.ref .leaf) .leaf)))))))))) (.ref (.cut 2 (.ref (.cut 3 (.ref (.cut 0 .out (.cut 1 (.ref .leaf) .out))) (.ref (.cut 0 .out (.ref (.cut 1 (.cut 2 .leaf (.ref .leaf)) .out)))))) (.ref (.cut 3 (.ref (.cut 0 .out (.cut 1 .leaf .out))) (.ref (.cut 0 .out (.cut 1 (.ref (.cut 2 (.ref (.cut 3 .leaf .leaf)) (.cut 3 .leaf (.ref .leaf)))) .out))))))))) (.cut 1 (.ref (.cut 2 (.ref (.cut 3 (.ref (.cut 0 (.cut 1 (.ref .leaf) (.ref .leaf)) (.cut 1 (.ref .leaf) (.ref .leaf)))) (.ref (.cut 0 (.ref (.cut 1 (.cut 2 .leaf (.cut 3 (.ref .leaf) .leaf)) (.cut 2 .leaf (.ref .leaf)))) (.cut 1 (.cut 2 (.ref .leaf) .leaf) (.ref (.cut 2 .leaf .leaf))))))) (.ref (.cut 3 (.ref (.cut 0 (.cut 1 (.cut 2 .leaf (.ref .leaf)) .leaf) (.cut 1 .leaf .leaf))) (.ref (.cut 0 (.ref (.cut 1 (.cut 2 (.ref (.cut 3 .leaf (.ref (.cut 0 .leaf .leaf)))) (.cut 3 (.ref .leaf) (.cut 0 .leaf .leaf))) (.cut 2 (.ref (.cut 3 .leaf .leaf)) (.cut 3 .leaf (.ref .leaf))))) (.cut 1 (.cut 2 (.ref (.cut 3 (.ref .leaf) .leaf)) (.cut 3 (.ref .leaf) .leaf)) (.ref (.cut 2 .leaf (.ref (.cut 3 .leaf .leaf))))))))))) (.cut 2 (.ref (.cut 3 (.ref (.cut 0 .leaf .leaf)) (.ref (.cut 0 (.cut 1 (.ref .leaf) (.ref .leaf)) (.cut 1 (.ref .leaf) .leaf))))) (.ref (.cut 3 (.cut 0 (.cut 1 .leaf (.ref .leaf)) (.ref (.cut 1 (.ref .leaf) (.ref .leaf)))) (.ref (.cut 0 (.ref (.cut 1 (.ref (.cut 2 (.ref .leaf) (.ref .leaf))) (.ref (.cut 2 (.ref .leaf) (.ref .leaf))))) (.ref (.cut 1 (.ref (.cut 2 (.ref .leaf) (.ref .leaf))) (.ref .leaf)))))))))))
theorem h25 : check par t25 [36864, 36864, 28672, 20480] [4096, 4096, 4096, 4096] st = true := by decide +kernel
end FastNoise.RangeCheck.Super4
