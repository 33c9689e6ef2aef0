import Verif.RangeCheckLemmas
import Verif.RangeCertSimplex2P0
/-! Generated by tools/rangecert/gen.py: a certificate for the checker `Verif.RangeCheck`. -/
namespace FastNoise.RangeCheck.Simplex2

def tree : Tree := t0
theorem checked : check par tree [32768, 32768] [32768, 32768] st = true := h0

end FastNoise.RangeCheck.Simplex2
