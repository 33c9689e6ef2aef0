import Verif.RangeCheck
/-! Generated by tools/rangecert/gen.py: a certificate for the checker `Verif.RangeCheck`. -/
namespace FastNoise.RangeCheck.Super4

/-- The ramps, in skewed coordinates, times 1099511627776. -/
def gs : List (List Z) := [[(0, 455846309568), (643665318208, 0), (643665318208, 0), (643665318208, 0)],
  [(0, 151948769856), (947562857920, 0), (947562857920, 0), (0, 1251460397632)],
  [(0, 151948769856), (947562857920, 0), (0, 1251460397632), (947562857920, 0)],
  [(151948769856, 0), (1251460397632, 0), (0, 947562857920), (0, 947562857920)],
  [(0, 151948769856), (0, 1251460397632), (947562857920, 0), (947562857920, 0)],
  [(151948769856, 0), (0, 947562857920), (1251460397632, 0), (0, 947562857920)],
  [(151948769856, 0), (0, 947562857920), (0, 947562857920), (1251460397632, 0)],
  [(455846309568, 0), (0, 643665318208), (0, 643665318208), (0, 643665318208)],
  [(643665318208, 0), (0, 455846309568), (643665318208, 0), (643665318208, 0)],
  [(947562857920, 0), (0, 151948769856), (947562857920, 0), (0, 1251460397632)],
  [(947562857920, 0), (0, 151948769856), (0, 1251460397632), (947562857920, 0)],
  [(1251460397632, 0), (151948769856, 0), (0, 947562857920), (0, 947562857920)],
  [(0, 1251460397632), (0, 151948769856), (947562857920, 0), (947562857920, 0)],
  [(0, 947562857920), (151948769856, 0), (1251460397632, 0), (0, 947562857920)],
  [(0, 947562857920), (151948769856, 0), (0, 947562857920), (1251460397632, 0)],
  [(0, 643665318208), (455846309568, 0), (0, 643665318208), (0, 643665318208)],
  [(643665318208, 0), (643665318208, 0), (0, 455846309568), (643665318208, 0)],
  [(947562857920, 0), (947562857920, 0), (0, 151948769856), (0, 1251460397632)],
  [(947562857920, 0), (0, 1251460397632), (0, 151948769856), (947562857920, 0)],
  [(1251460397632, 0), (0, 947562857920), (151948769856, 0), (0, 947562857920)],
  [(0, 1251460397632), (947562857920, 0), (0, 151948769856), (947562857920, 0)],
  [(0, 947562857920), (1251460397632, 0), (151948769856, 0), (0, 947562857920)],
  [(0, 947562857920), (0, 947562857920), (151948769856, 0), (1251460397632, 0)],
  [(0, 643665318208), (0, 643665318208), (455846309568, 0), (0, 643665318208)],
  [(643665318208, 0), (643665318208, 0), (643665318208, 0), (0, 455846309568)],
  [(947562857920, 0), (947562857920, 0), (0, 1251460397632), (0, 151948769856)],
  [(947562857920, 0), (0, 1251460397632), (947562857920, 0), (0, 151948769856)],
  [(1251460397632, 0), (0, 947562857920), (0, 947562857920), (151948769856, 0)],
  [(0, 1251460397632), (947562857920, 0), (947562857920, 0), (0, 151948769856)],
  [(0, 947562857920), (1251460397632, 0), (0, 947562857920), (151948769856, 0)],
  [(0, 947562857920), (0, 947562857920), (1251460397632, 0), (151948769856, 0)],
  [(0, 643665318208), (0, 643665318208), (0, 643665318208), (455846309568, 0)]]
/-- The grid points, times 65536. -/
def st : St := [([(0, 65536), (0, 65536), (0, 65536), (0, 65536)], gs),
  ([(0, 0), (0, 65536), (0, 65536), (0, 65536)], gs),
  ([(65536, 0), (0, 65536), (0, 65536), (0, 65536)], gs),
  ([(131072, 0), (0, 65536), (0, 65536), (0, 65536)], gs),
  ([(0, 65536), (0, 0), (0, 65536), (0, 65536)], gs),
  ([(0, 0), (0, 0), (0, 65536), (0, 65536)], gs),
  ([(65536, 0), (0, 0), (0, 65536), (0, 65536)], gs),
  ([(131072, 0), (0, 0), (0, 65536), (0, 65536)], gs),
  ([(0, 65536), (65536, 0), (0, 65536), (0, 65536)], gs),
  ([(0, 0), (65536, 0), (0, 65536), (0, 65536)], gs),
  ([(65536, 0), (65536, 0), (0, 65536), (0, 65536)], gs),
  ([(131072, 0), (65536, 0), (0, 65536), (0, 65536)], gs),
  ([(0, 65536), (131072, 0), (0, 65536), (0, 65536)], gs),
  ([(0, 0), (131072, 0), (0, 65536), (0, 65536)], gs),
  ([(65536, 0), (131072, 0), (0, 65536), (0, 65536)], gs),
  ([(131072, 0), (131072, 0), (0, 65536), (0, 65536)], gs),
  ([(0, 65536), (0, 65536), (0, 0), (0, 65536)], gs),
  ([(0, 0), (0, 65536), (0, 0), (0, 65536)], gs),
  ([(65536, 0), (0, 65536), (0, 0), (0, 65536)], gs),
  ([(131072, 0), (0, 65536), (0, 0), (0, 65536)], gs),
  ([(0, 65536), (0, 0), (0, 0), (0, 65536)], gs),
  ([(0, 0), (0, 0), (0, 0), (0, 65536)], gs),
  ([(65536, 0), (0, 0), (0, 0), (0, 65536)], gs),
  ([(131072, 0), (0, 0), (0, 0), (0, 65536)], gs),
  ([(0, 65536), (65536, 0), (0, 0), (0, 65536)], gs),
  ([(0, 0), (65536, 0), (0, 0), (0, 65536)], gs),
  ([(65536, 0), (65536, 0), (0, 0), (0, 65536)], gs),
  ([(131072, 0), (65536, 0), (0, 0), (0, 65536)], gs),
  ([(0, 65536), (131072, 0), (0, 0), (0, 65536)], gs),
  ([(0, 0), (131072, 0), (0, 0), (0, 65536)], gs),
  ([(65536, 0), (131072, 0), (0, 0), (0, 65536)], gs),
  ([(131072, 0), (131072, 0), (0, 0), (0, 65536)], gs),
  ([(0, 65536), (0, 65536), (65536, 0), (0, 65536)], gs),
  ([(0, 0), (0, 65536), (65536, 0), (0, 65536)], gs),
  ([(65536, 0), (0, 65536), (65536, 0), (0, 65536)], gs),
  ([(131072, 0), (0, 65536), (65536, 0), (0, 65536)], gs),
  ([(0, 65536), (0, 0), (65536, 0), (0, 65536)], gs),
  ([(0, 0), (0, 0), (65536, 0), (0, 65536)], gs),
  ([(65536, 0), (0, 0), (65536, 0), (0, 65536)], gs),
  ([(131072, 0), (0, 0), (65536, 0), (0, 65536)], gs),
  ([(0, 65536), (65536, 0), (65536, 0), (0, 65536)], gs),
  ([(0, 0), (65536, 0), (65536, 0), (0, 65536)], gs),
  ([(65536, 0), (65536, 0), (65536, 0), (0, 65536)], gs),
  ([(131072, 0), (65536, 0), (65536, 0), (0, 65536)], gs),
  ([(0, 65536), (131072, 0), (65536, 0), (0, 65536)], gs),
  ([(0, 0), (131072, 0), (65536, 0), (0, 65536)], gs),
  ([(65536, 0), (131072, 0), (65536, 0), (0, 65536)], gs),
  ([(131072, 0), (131072, 0), (65536, 0), (0, 65536)], gs),
  ([(0, 65536), (0, 65536), (131072, 0), (0, 65536)], gs),
  ([(0, 0), (0, 65536), (131072, 0), (0, 65536)], gs),
  ([(65536, 0), (0, 65536), (131072, 0), (0, 65536)], gs),
  ([(131072, 0), (0, 65536), (131072, 0), (0, 65536)], gs),
  ([(0, 65536), (0, 0), (131072, 0), (0, 65536)], gs),
  ([(0, 0), (0, 0), (131072, 0), (0, 65536)], gs),
  ([(65536, 0), (0, 0), (131072, 0), (0, 65536)], gs),
  ([(131072, 0), (0, 0), (131072, 0), (0, 65536)], gs),
  ([(0, 65536), (65536, 0), (131072, 0), (0, 65536)], gs),
  ([(0, 0), (65536, 0), (131072, 0), (0, 65536)], gs),
  ([(65536, 0), (65536, 0), (131072, 0), (0, 65536)], gs),
  ([(131072, 0), (65536, 0), (131072, 0), (0, 65536)], gs),
  ([(0, 65536), (131072, 0), (131072, 0), (0, 65536)], gs),
  ([(0, 0), (131072, 0), (131072, 0), (0, 65536)], gs),
  ([(65536, 0), (131072, 0), (131072, 0), (0, 65536)], gs),
  ([(131072, 0), (131072, 0), (131072, 0), (0, 65536)], gs),
  ([(0, 65536), (0, 65536), (0, 65536), (0, 0)], gs),
  ([(0, 0), (0, 65536), (0, 65536), (0, 0)], gs),
  ([(65536, 0), (0, 65536), (0, 65536), (0, 0)], gs),
  ([(131072, 0), (0, 65536), (0, 65536), (0, 0)], gs),
  ([(0, 65536), (0, 0), (0, 65536), (0, 0)], gs),
  ([(0, 0), (0, 0), (0, 65536), (0, 0)], gs),
  ([(65536, 0), (0, 0), (0, 65536), (0, 0)], gs),
  ([(131072, 0), (0, 0), (0, 65536), (0, 0)], gs),
  ([(0, 65536), (65536, 0), (0, 65536), (0, 0)], gs),
  ([(0, 0), (65536, 0), (0, 65536), (0, 0)], gs),
  ([(65536, 0), (65536, 0), (0, 65536), (0, 0)], gs),
  ([(131072, 0), (65536, 0), (0, 65536), (0, 0)], gs),
  ([(0, 65536), (131072, 0), (0, 65536), (0, 0)], gs),
  ([(0, 0), (131072, 0), (0, 65536), (0, 0)], gs),
  ([(65536, 0), (131072, 0), (0, 65536), (0, 0)], gs),
  ([(131072, 0), (131072, 0), (0, 65536), (0, 0)], gs),
  ([(0, 65536), (0, 65536), (0, 0), (0, 0)], gs),
  ([(0, 0), (0, 65536), (0, 0), (0, 0)], gs),
  ([(65536, 0), (0, 65536), (0, 0), (0, 0)], gs),
  ([(131072, 0), (0, 65536), (0, 0), (0, 0)], gs),
  ([(0, 65536), (0, 0), (0, 0), (0, 0)], gs),
  ([(0, 0), (0, 0), (0, 0), (0, 0)], gs),
  ([(65536, 0), (0, 0), (0, 0), (0, 0)], gs),
  ([(131072, 0), (0, 0), (0, 0), (0, 0)], gs),
  ([(0, 65536), (65536, 0), (0, 0), (0, 0)], gs),
  ([(0, 0), (65536, 0), (0, 0), (0, 0)], gs),
  ([(65536, 0), (65536, 0), (0, 0), (0, 0)], gs),
  ([(131072, 0), (65536, 0), (0, 0), (0, 0)], gs),
  ([(0, 65536), (131072, 0), (0, 0), (0, 0)], gs),
  ([(0, 0), (131072, 0), (0, 0), (0, 0)], gs),
  ([(65536, 0), (131072, 0), (0, 0), (0, 0)], gs),
  ([(131072, 0), (131072, 0), (0, 0), (0, 0)], gs),
  ([(0, 65536), (0, 65536), (65536, 0), (0, 0)], gs),
  ([(0, 0), (0, 65536), (65536, 0), (0, 0)], gs),
  ([(65536, 0), (0, 65536), (65536, 0), (0, 0)], gs),
  ([(131072, 0), (0, 65536), (65536, 0), (0, 0)], gs),
  ([(0, 65536), (0, 0), (65536, 0), (0, 0)], gs),
  ([(0, 0), (0, 0), (65536, 0), (0, 0)], gs),
  ([(65536, 0), (0, 0), (65536, 0), (0, 0)], gs),
  ([(131072, 0), (0, 0), (65536, 0), (0, 0)], gs),
  ([(0, 65536), (65536, 0), (65536, 0), (0, 0)], gs),
  ([(0, 0), (65536, 0), (65536, 0), (0, 0)], gs),
  ([(65536, 0), (65536, 0), (65536, 0), (0, 0)], gs),
  ([(131072, 0), (65536, 0), (65536, 0), (0, 0)], gs),
  ([(0, 65536), (131072, 0), (65536, 0), (0, 0)], gs),
  ([(0, 0), (131072, 0), (65536, 0), (0, 0)], gs),
  ([(65536, 0), (131072, 0), (65536, 0), (0, 0)], gs),
  ([(131072, 0), (131072, 0), (65536, 0), (0, 0)], gs),
  ([(0, 65536), (0, 65536), (131072, 0), (0, 0)], gs),
  ([(0, 0), (0, 65536), (131072, 0), (0, 0)], gs),
  ([(65536, 0), (0, 65536), (131072, 0), (0, 0)], gs),
  ([(131072, 0), (0, 65536), (131072, 0), (0, 0)], gs),
  ([(0, 65536), (0, 0), (131072, 0), (0, 0)], gs),
  ([(0, 0), (0, 0), (131072, 0), (0, 0)], gs),
  ([(65536, 0), (0, 0), (131072, 0), (0, 0)], gs),
  ([(131072, 0), (0, 0), (131072, 0), (0, 0)], gs),
  ([(0, 65536), (65536, 0), (131072, 0), (0, 0)], gs),
  ([(0, 0), (65536, 0), (131072, 0), (0, 0)], gs),
  ([(65536, 0), (65536, 0), (131072, 0), (0, 0)], gs),
  ([(131072, 0), (65536, 0), (131072, 0), (0, 0)], gs),
  ([(0, 65536), (131072, 0), (131072, 0), (0, 0)], gs),
  ([(0, 0), (131072, 0), (131072, 0), (0, 0)], gs),
  ([(65536, 0), (131072, 0), (131072, 0), (0, 0)], gs),
  ([(131072, 0), (131072, 0), (131072, 0), (0, 0)], gs),
  ([(0, 65536), (0, 65536), (0, 65536), (65536, 0)], gs),
  ([(0, 0), (0, 65536), (0, 65536), (65536, 0)], gs),
  ([(65536, 0), (0, 65536), (0, 65536), (65536, 0)], gs),
  ([(131072, 0), (0, 65536), (0, 65536), (65536, 0)], gs),
  ([(0, 65536), (0, 0), (0, 65536), (65536, 0)], gs),
  ([(0, 0), (0, 0), (0, 65536), (65536, 0)], gs),
  ([(65536, 0), (0, 0), (0, 65536), (65536, 0)], gs),
  ([(131072, 0), (0, 0), (0, 65536), (65536, 0)], gs),
  ([(0, 65536), (65536, 0), (0, 65536), (65536, 0)], gs),
  ([(0, 0), (65536, 0), (0, 65536), (65536, 0)], gs),
  ([(65536, 0), (65536, 0), (0, 65536), (65536, 0)], gs),
  ([(131072, 0), (65536, 0), (0, 65536), (65536, 0)], gs),
  ([(0, 65536), (131072, 0), (0, 65536), (65536, 0)], gs),
  ([(0, 0), (131072, 0), (0, 65536), (65536, 0)], gs),
  ([(65536, 0), (131072, 0), (0, 65536), (65536, 0)], gs),
  ([(131072, 0), (131072, 0), (0, 65536), (65536, 0)], gs),
  ([(0, 65536), (0, 65536), (0, 0), (65536, 0)], gs),
  ([(0, 0), (0, 65536), (0, 0), (65536, 0)], gs),
  ([(65536, 0), (0, 65536), (0, 0), (65536, 0)], gs),
  ([(131072, 0), (0, 65536), (0, 0), (65536, 0)], gs),
  ([(0, 65536), (0, 0), (0, 0), (65536, 0)], gs),
  ([(0, 0), (0, 0), (0, 0), (65536, 0)], gs),
  ([(65536, 0), (0, 0), (0, 0), (65536, 0)], gs),
  ([(131072, 0), (0, 0), (0, 0), (65536, 0)], gs),
  ([(0, 65536), (65536, 0), (0, 0), (65536, 0)], gs),
  ([(0, 0), (65536, 0), (0, 0), (65536, 0)], gs),
  ([(65536, 0), (65536, 0), (0, 0), (65536, 0)], gs),
  ([(131072, 0), (65536, 0), (0, 0), (65536, 0)], gs),
  ([(0, 65536), (131072, 0), (0, 0), (65536, 0)], gs),
  ([(0, 0), (131072, 0), (0, 0), (65536, 0)], gs),
  ([(65536, 0), (131072, 0), (0, 0), (65536, 0)], gs),
  ([(131072, 0), (131072, 0), (0, 0), (65536, 0)], gs),
  ([(0, 65536), (0, 65536), (65536, 0), (65536, 0)], gs),
  ([(0, 0), (0, 65536), (65536, 0), (65536, 0)], gs),
  ([(65536, 0), (0, 65536), (65536, 0), (65536, 0)], gs),
  ([(131072, 0), (0, 65536), (65536, 0), (65536, 0)], gs),
  ([(0, 65536), (0, 0), (65536, 0), (65536, 0)], gs),
  ([(0, 0), (0, 0), (65536, 0), (65536, 0)], gs),
  ([(65536, 0), (0, 0), (65536, 0), (65536, 0)], gs),
  ([(131072, 0), (0, 0), (65536, 0), (65536, 0)], gs),
  ([(0, 65536), (65536, 0), (65536, 0), (65536, 0)], gs),
  ([(0, 0), (65536, 0), (65536, 0), (65536, 0)], gs),
  ([(65536, 0), (65536, 0), (65536, 0), (65536, 0)], gs),
  ([(131072, 0), (65536, 0), (65536, 0), (65536, 0)], gs),
  ([(0, 65536), (131072, 0), (65536, 0), (65536, 0)], gs),
  ([(0, 0), (131072, 0), (65536, 0), (65536, 0)], gs),
  ([(65536, 0), (131072, 0), (65536, 0), (65536, 0)], gs),
  ([(131072, 0), (131072, 0), (65536, 0), (65536, 0)], gs),
  ([(0, 65536), (0, 65536), (131072, 0), (65536, 0)], gs),
  ([(0, 0), (0, 65536), (131072, 0), (65536, 0)], gs),
  ([(65536, 0), (0, 65536), (131072, 0), (65536, 0)], gs),
  ([(131072, 0), (0, 65536), (131072, 0), (65536, 0)], gs),
  ([(0, 65536), (0, 0), (131072, 0), (65536, 0)], gs),
  ([(0, 0), (0, 0), (131072, 0), (65536, 0)], gs),
  ([(65536, 0), (0, 0), (131072, 0), (65536, 0)], gs),
  ([(131072, 0), (0, 0), (131072, 0), (65536, 0)], gs),
  ([(0, 65536), (65536, 0), (131072, 0), (65536, 0)], gs),
  ([(0, 0), (65536, 0), (131072, 0), (65536, 0)], gs),
  ([(65536, 0), (65536, 0), (131072, 0), (65536, 0)], gs),
  ([(131072, 0), (65536, 0), (131072, 0), (65536, 0)], gs),
  ([(0, 65536), (131072, 0), (131072, 0), (65536, 0)], gs),
  ([(0, 0), (131072, 0), (131072, 0), (65536, 0)], gs),
  ([(65536, 0), (131072, 0), (131072, 0), (65536, 0)], gs),
  ([(131072, 0), (131072, 0), (131072, 0), (65536, 0)], gs),
  ([(0, 65536), (0, 65536), (0, 65536), (131072, 0)], gs),
  ([(0, 0), (0, 65536), (0, 65536), (131072, 0)], gs),
  ([(65536, 0), (0, 65536), (0, 65536), (131072, 0)], gs),
  ([(131072, 0), (0, 65536), (0, 65536), (131072, 0)], gs),
  ([(0, 65536), (0, 0), (0, 65536), (131072, 0)], gs),
  ([(0, 0), (0, 0), (0, 65536), (131072, 0)], gs),
  ([(65536, 0), (0, 0), (0, 65536), (131072, 0)], gs),
  ([(131072, 0), (0, 0), (0, 65536), (131072, 0)], gs),
  ([(0, 65536), (65536, 0), (0, 65536), (131072, 0)], gs),
  ([(0, 0), (65536, 0), (0, 65536), (131072, 0)], gs),
  ([(65536, 0), (65536, 0), (0, 65536), (131072, 0)], gs),
  ([(131072, 0), (65536, 0), (0, 65536), (131072, 0)], gs),
  ([(0, 65536), (131072, 0), (0, 65536), (131072, 0)], gs),
  ([(0, 0), (131072, 0), (0, 65536), (131072, 0)], gs),
  ([(65536, 0), (131072, 0), (0, 65536), (131072, 0)], gs),
  ([(131072, 0), (131072, 0), (0, 65536), (131072, 0)], gs),
  ([(0, 65536), (0, 65536), (0, 0), (131072, 0)], gs),
  ([(0, 0), (0, 65536), (0, 0), (131072, 0)], gs),
  ([(65536, 0), (0, 65536), (0, 0), (131072, 0)], gs),
  ([(131072, 0), (0, 65536), (0, 0), (131072, 0)], gs),
  ([(0, 65536), (0, 0), (0, 0), (131072, 0)], gs),
  ([(0, 0), (0, 0), (0, 0), (131072, 0)], gs),
  ([(65536, 0), (0, 0), (0, 0), (131072, 0)], gs),
  ([(131072, 0), (0, 0), (0, 0), (131072, 0)], gs),
  ([(0, 65536), (65536, 0), (0, 0), (131072, 0)], gs),
  ([(0, 0), (65536, 0), (0, 0), (131072, 0)], gs),
  ([(65536, 0), (65536, 0), (0, 0), (131072, 0)], gs),
  ([(131072, 0), (65536, 0), (0, 0), (131072, 0)], gs),
  ([(0, 65536), (131072, 0), (0, 0), (131072, 0)], gs),
  ([(0, 0), (131072, 0), (0, 0), (131072, 0)], gs),
  ([(65536, 0), (131072, 0), (0, 0), (131072, 0)], gs),
  ([(131072, 0), (131072, 0), (0, 0), (131072, 0)], gs),
  ([(0, 65536), (0, 65536), (65536, 0), (131072, 0)], gs),
  ([(0, 0), (0, 65536), (65536, 0), (131072, 0)], gs),
  ([(65536, 0), (0, 65536), (65536, 0), (131072, 0)], gs),
  ([(131072, 0), (0, 65536), (65536, 0), (131072, 0)], gs),
  ([(0, 65536), (0, 0), (65536, 0), (131072, 0)], gs),
  ([(0, 0), (0, 0), (65536, 0), (131072, 0)], gs),
  ([(65536, 0), (0, 0), (65536, 0), (131072, 0)], gs),
  ([(131072, 0), (0, 0), (65536, 0), (131072, 0)], gs),
  ([(0, 65536), (65536, 0), (65536, 0), (131072, 0)], gs),
  ([(0, 0), (65536, 0), (65536, 0), (131072, 0)], gs),
  ([(65536, 0), (65536, 0), (65536, 0), (131072, 0)], gs),
  ([(131072, 0), (65536, 0), (65536, 0), (131072, 0)], gs),
  ([(0, 65536), (131072, 0), (65536, 0), (131072, 0)], gs),
  ([(0, 0), (131072, 0), (65536, 0), (131072, 0)], gs),
  ([(65536, 0), (131072, 0), (65536, 0), (131072, 0)], gs),
  ([(131072, 0), (131072, 0), (65536, 0), (131072, 0)], gs),
  ([(0, 65536), (0, 65536), (131072, 0), (131072, 0)], gs),
  ([(0, 0), (0, 65536), (131072, 0), (131072, 0)], gs),
  ([(65536, 0), (0, 65536), (131072, 0), (131072, 0)], gs),
  ([(131072, 0), (0, 65536), (131072, 0), (131072, 0)], gs),
  ([(0, 65536), (0, 0), (131072, 0), (131072, 0)], gs),
  ([(0, 0), (0, 0), (131072, 0), (131072, 0)], gs),
  ([(65536, 0), (0, 0), (131072, 0), (131072, 0)], gs),
  ([(131072, 0), (0, 0), (131072, 0), (131072, 0)], gs),
  ([(0, 65536), (65536, 0), (131072, 0), (131072, 0)], gs),
  ([(0, 0), (65536, 0), (131072, 0), (131072, 0)], gs),
  ([(65536, 0), (65536, 0), (131072, 0), (131072, 0)], gs),
  ([(131072, 0), (65536, 0), (131072, 0), (131072, 0)], gs),
  ([(0, 65536), (131072, 0), (131072, 0), (131072, 0)], gs),
  ([(0, 0), (131072, 0), (131072, 0), (131072, 0)], gs),
  ([(65536, 0), (131072, 0), (131072, 0), (131072, 0)], gs),
  ([(131072, 0), (131072, 0), (131072, 0), (131072, 0)], gs)]
def par : Par := ⟨5, 1, 17179869184, 2773484608857588052775338244736342918552225388502857318095, 262144⟩

end FastNoise.RangeCheck.Super4
