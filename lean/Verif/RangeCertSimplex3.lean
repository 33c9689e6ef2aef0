import Verif.RangeCheck
/-! Generated by tools/rangecert/gen.py: a certificate for the checker `Verif.RangeCheck`. -/
namespace FastNoise.RangeCheck.Simplex3

/-- The ramps, in skewed coordinates, times 2. -/
def gs : List (List Z) := [[(0, 2), (0, 0), (0, 0)],
  [(0, 0), (2, 0), (0, 2)],
  [(0, 0), (0, 2), (2, 0)],
  [(2, 0), (0, 0), (0, 0)],
  [(0, 0), (0, 2), (0, 0)],
  [(2, 0), (0, 0), (0, 2)],
  [(0, 2), (0, 0), (2, 0)],
  [(0, 0), (2, 0), (0, 0)],
  [(0, 0), (0, 0), (0, 2)],
  [(2, 0), (0, 2), (0, 0)],
  [(0, 2), (2, 0), (0, 0)],
  [(0, 0), (0, 0), (2, 0)]]
/-- The grid points, times 65536. -/
def st : St := [([(0, 0), (0, 0), (0, 0)], gs),
  ([(65536, 0), (0, 0), (0, 0)], gs),
  ([(65536, 0), (65536, 0), (0, 0)], gs),
  ([(65536, 0), (65536, 0), (65536, 0)], gs)]
def par : Par := ⟨4, 5, 51539607552, 218271837989283227333280247388964037045780480000, 196608⟩

end FastNoise.RangeCheck.Simplex3
