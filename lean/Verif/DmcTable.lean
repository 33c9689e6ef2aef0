/-!
# `tools/NodeEditor/util/DmcTable.inl`

Generated from the source by a script: `EDGEk` is `2^k` (lines 3-17), rows in source order.
-/

namespace FastNoise.Mesh

/-- DmcTable.inl:74-329 `kDualPointsList`: for each of the 256 cell codes up to four dual points, each the set of the cell edges it belongs to (bit k = edge k). -/
def dualPointsList : List (List Nat) := [
  [0, 0, 0, 0], [265, 0, 0, 0], [515, 0, 0, 0], [778, 0, 0, 0],
  [400, 0, 0, 0], [153, 0, 0, 0], [515, 400, 0, 0], [666, 0, 0, 0],
  [560, 0, 0, 0], [265, 560, 0, 0], [51, 0, 0, 0], [314, 0, 0, 0],
  [928, 0, 0, 0], [681, 0, 0, 0], [419, 0, 0, 0], [170, 0, 0, 0],
  [2060, 0, 0, 0], [2309, 0, 0, 0], [515, 2060, 0, 0], [2822, 0, 0, 0],
  [400, 2060, 0, 0], [2197, 0, 0, 0], [515, 400, 2060, 0], [2710, 0, 0, 0],
  [560, 2060, 0, 0], [2309, 560, 0, 0], [51, 2060, 0, 0], [2358, 0, 0, 0],
  [928, 2060, 0, 0], [2725, 0, 0, 0], [419, 2060, 0, 0], [2214, 0, 0, 0],
  [1030, 0, 0, 0], [265, 1030, 0, 0], [1541, 0, 0, 0], [1804, 0, 0, 0],
  [400, 1030, 0, 0], [153, 1030, 0, 0], [1541, 400, 0, 0], [1692, 0, 0, 0],
  [560, 1030, 0, 0], [265, 560, 1030, 0], [1077, 0, 0, 0], [1340, 0, 0, 0],
  [928, 1030, 0, 0], [681, 1030, 0, 0], [1445, 0, 0, 0], [1196, 0, 0, 0],
  [3082, 0, 0, 0], [3331, 0, 0, 0], [3593, 0, 0, 0], [3840, 0, 0, 0],
  [400, 3082, 0, 0], [3219, 0, 0, 0], [3593, 400, 0, 0], [3728, 0, 0, 0],
  [560, 3082, 0, 0], [3331, 560, 0, 0], [3129, 0, 0, 0], [3376, 0, 0, 0],
  [928, 3082, 0, 0], [3747, 0, 0, 0], [3497, 0, 0, 0], [3232, 0, 0, 0],
  [2240, 0, 0, 0], [265, 2240, 0, 0], [515, 2240, 0, 0], [778, 2240, 0, 0],
  [2384, 0, 0, 0], [2137, 0, 0, 0], [515, 2384, 0, 0], [2650, 0, 0, 0],
  [560, 2240, 0, 0], [265, 560, 2240, 0], [51, 2240, 0, 0], [314, 2240, 0, 0],
  [2912, 0, 0, 0], [2665, 0, 0, 0], [2403, 0, 0, 0], [2154, 0, 0, 0],
  [204, 0, 0, 0], [453, 0, 0, 0], [515, 204, 0, 0], [966, 0, 0, 0],
  [348, 0, 0, 0], [85, 0, 0, 0], [515, 348, 0, 0], [598, 0, 0, 0],
  [560, 204, 0, 0], [453, 560, 0, 0], [51, 204, 0, 0], [502, 0, 0, 0],
  [876, 0, 0, 0], [613, 0, 0, 0], [367, 0, 0, 0], [102, 0, 0, 0],
  [1030, 2240, 0, 0], [265, 1030, 2240, 0], [1541, 2240, 0, 0], [1804, 2240, 0, 0],
  [2384, 1030, 0, 0], [2137, 1030, 0, 0], [1541, 2384, 0, 0], [3676, 0, 0, 0],
  [560, 1030, 2240, 0], [265, 560, 1030, 2240], [1077, 2240, 0, 0], [1340, 2240, 0, 0],
  [2912, 1030, 0, 0], [2665, 1030, 0, 0], [3429, 0, 0, 0], [3180, 0, 0, 0],
  [1226, 0, 0, 0], [1475, 0, 0, 0], [1737, 0, 0, 0], [1984, 0, 0, 0],
  [1370, 0, 0, 0], [1107, 0, 0, 0], [1881, 0, 0, 0], [1616, 0, 0, 0],
  [560, 1226, 0, 0], [1475, 560, 0, 0], [1273, 0, 0, 0], [1520, 0, 0, 0],
  [1898, 0, 0, 0], [1635, 0, 0, 0], [265, 1120, 0, 0], [1120, 0, 0, 0],
  [1120, 0, 0, 0], [265, 1120, 0, 0], [515, 1120, 0, 0], [778, 1120, 0, 0],
  [400, 1120, 0, 0], [153, 1120, 0, 0], [515, 400, 1120, 0], [666, 1120, 0, 0],
  [1616, 0, 0, 0], [265, 1616, 0, 0], [1107, 0, 0, 0], [1370, 0, 0, 0],
  [1984, 0, 0, 0], [1737, 0, 0, 0], [1475, 0, 0, 0], [1226, 0, 0, 0],
  [2060, 1120, 0, 0], [2309, 1120, 0, 0], [515, 2060, 1120, 0], [2822, 1120, 0, 0],
  [400, 2060, 1120, 0], [2197, 1120, 0, 0], [515, 400, 2060, 1120], [2710, 1120, 0, 0],
  [1616, 2060, 0, 0], [2309, 1616, 0, 0], [1107, 2060, 0, 0], [3414, 0, 0, 0],
  [1984, 2060, 0, 0], [3781, 0, 0, 0], [1475, 2060, 0, 0], [3270, 0, 0, 0],
  [102, 0, 0, 0], [265, 102, 0, 0], [613, 0, 0, 0], [876, 0, 0, 0],
  [400, 102, 0, 0], [153, 102, 0, 0], [613, 400, 0, 0], [764, 0, 0, 0],
  [598, 0, 0, 0], [265, 598, 0, 0], [85, 0, 0, 0], [348, 0, 0, 0],
  [966, 0, 0, 0], [719, 0, 0, 0], [453, 0, 0, 0], [204, 0, 0, 0],
  [2154, 0, 0, 0], [2403, 0, 0, 0], [2665, 0, 0, 0], [2912, 0, 0, 0],
  [400, 2154, 0, 0], [2291, 0, 0, 0], [2665, 400, 0, 0], [2800, 0, 0, 0],
  [2650, 0, 0, 0], [2899, 0, 0, 0], [2137, 0, 0, 0], [2384, 0, 0, 0],
  [3018, 0, 0, 0], [515, 2240, 0, 0], [2505, 0, 0, 0], [2240, 0, 0, 0],
  [3232, 0, 0, 0], [265, 3232, 0, 0], [515, 3232, 0, 0], [778, 3232, 0, 0],
  [3376, 0, 0, 0], [3129, 0, 0, 0], [515, 3376, 0, 0], [3642, 0, 0, 0],
  [3728, 0, 0, 0], [265, 3728, 0, 0], [3219, 0, 0, 0], [3482, 0, 0, 0],
  [3840, 0, 0, 0], [3593, 0, 0, 0], [3331, 0, 0, 0], [3082, 0, 0, 0],
  [1196, 0, 0, 0], [1445, 0, 0, 0], [515, 1196, 0, 0], [1958, 0, 0, 0],
  [1340, 0, 0, 0], [1077, 0, 0, 0], [515, 1340, 0, 0], [1590, 0, 0, 0],
  [1692, 0, 0, 0], [1941, 0, 0, 0], [1183, 0, 0, 0], [400, 1030, 0, 0],
  [1804, 0, 0, 0], [1541, 0, 0, 0], [1295, 0, 0, 0], [1030, 0, 0, 0],
  [2214, 0, 0, 0], [265, 2214, 0, 0], [2725, 0, 0, 0], [2988, 0, 0, 0],
  [2358, 0, 0, 0], [2111, 0, 0, 0], [2869, 0, 0, 0], [560, 2060, 0, 0],
  [2710, 0, 0, 0], [265, 2710, 0, 0], [2197, 0, 0, 0], [2460, 0, 0, 0],
  [2822, 0, 0, 0], [2575, 0, 0, 0], [2309, 0, 0, 0], [2060, 0, 0, 0],
  [170, 0, 0, 0], [419, 0, 0, 0], [681, 0, 0, 0], [928, 0, 0, 0],
  [314, 0, 0, 0], [51, 0, 0, 0], [825, 0, 0, 0], [560, 0, 0, 0],
  [666, 0, 0, 0], [915, 0, 0, 0], [153, 0, 0, 0], [400, 0, 0, 0],
  [778, 0, 0, 0], [515, 0, 0, 0], [265, 0, 0, 0], [0, 0, 0, 0]
]

end FastNoise.Mesh
