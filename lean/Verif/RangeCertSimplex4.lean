import Verif.RangeCheck
/-! Generated by tools/rangecert/gen.py: a certificate for the checker `Verif.RangeCheck`. -/
namespace FastNoise.RangeCheck.Simplex4

/-- The ramps, in skewed coordinates, times 1099511627776. -/
def gs : List (List Z) := [[(0, 455846309568), (643665318208, 0), (643665318208, 0), (643665318208, 0)],
  [(0, 151948769856), (947562857920, 0), (947562857920, 0), (0, 1251460397632)],
  [(0, 151948769856), (947562857920, 0), (0, 1251460397632), (947562857920, 0)],
  [(151948769856, 0), (1251460397632, 0), (0, 947562857920), (0, 947562857920)],
  [(0, 151948769856), (0, 1251460397632), (947562857920, 0), (947562857920, 0)],
  [(151948769856, 0), (0, 947562857920), (1251460397632, 0), (0, 947562857920)],
  [(151948769856, 0), (0, 947562857920), (0, 947562857920), (1251460397632, 0)],
  [(455846309568, 0), (0, 643665318208), (0, 643665318208), (0, 643665318208)],
  [(643665318208, 0), (0, 455846309568), (643665318208, 0), (643665318208, 0)],
  [(947562857920, 0), (0, 151948769856), (947562857920, 0), (0, 1251460397632)],
  [(947562857920, 0), (0, 151948769856), (0, 1251460397632), (947562857920, 0)],
  [(1251460397632, 0), (151948769856, 0), (0, 947562857920), (0, 947562857920)],
  [(0, 1251460397632), (0, 151948769856), (947562857920, 0), (947562857920, 0)],
  [(0, 947562857920), (151948769856, 0), (1251460397632, 0), (0, 947562857920)],
  [(0, 947562857920), (151948769856, 0), (0, 947562857920), (1251460397632, 0)],
  [(0, 643665318208), (455846309568, 0), (0, 643665318208), (0, 643665318208)],
  [(643665318208, 0), (643665318208, 0), (0, 455846309568), (643665318208, 0)],
  [(947562857920, 0), (947562857920, 0), (0, 151948769856), (0, 1251460397632)],
  [(947562857920, 0), (0, 1251460397632), (0, 151948769856), (947562857920, 0)],
  [(1251460397632, 0), (0, 947562857920), (151948769856, 0), (0, 947562857920)],
  [(0, 1251460397632), (947562857920, 0), (0, 151948769856), (947562857920, 0)],
  [(0, 947562857920), (1251460397632, 0), (151948769856, 0), (0, 947562857920)],
  [(0, 947562857920), (0, 947562857920), (151948769856, 0), (1251460397632, 0)],
  [(0, 643665318208), (0, 643665318208), (455846309568, 0), (0, 643665318208)],
  [(643665318208, 0), (643665318208, 0), (643665318208, 0), (0, 455846309568)],
  [(947562857920, 0), (947562857920, 0), (0, 1251460397632), (0, 151948769856)],
  [(947562857920, 0), (0, 1251460397632), (947562857920, 0), (0, 151948769856)],
  [(1251460397632, 0), (0, 947562857920), (0, 947562857920), (151948769856, 0)],
  [(0, 1251460397632), (947562857920, 0), (947562857920, 0), (0, 151948769856)],
  [(0, 947562857920), (1251460397632, 0), (0, 947562857920), (151948769856, 0)],
  [(0, 947562857920), (0, 947562857920), (1251460397632, 0), (151948769856, 0)],
  [(0, 643665318208), (0, 643665318208), (0, 643665318208), (455846309568, 0)]]
/-- The grid points, times 65536. -/
def st : St := [([(0, 0), (0, 0), (0, 0), (0, 0)], gs),
  ([(65536, 0), (0, 0), (0, 0), (0, 0)], gs),
  ([(65536, 0), (65536, 0), (0, 0), (0, 0)], gs),
  ([(65536, 0), (65536, 0), (65536, 0), (0, 0)], gs),
  ([(65536, 0), (65536, 0), (65536, 0), (65536, 0)], gs)]
def par : Par := ⟨5, 1, 12884901888, 562886218876080226061917866687672390925856744063839272655, 262144⟩

end FastNoise.RangeCheck.Simplex4
