/-!
# Lattice hashing

Model of the integer hashing in include/FastNoise/Generators/Utils.inl.  One SIMD lane of an `int32v`
is a `BitVec 32`; `+`, `*` wrap around, `>>` on `int32v` is arithmetic, `BitShiftRightZeroExtend` is
logical (FastSIMD; not part of /repo, trusted).
-/
namespace FastNoise.Hash

/-- One lane of an `int32v`. -/
abbrev I32 := BitVec 32

/-- `Primes::X`, Utils.inl:8 -/
def primeX : I32 := 0xF797C5C7
/-- `Primes::Y`, Utils.inl:9 -/
def primeY : I32 := 0x6C060C89
/-- `Primes::Z`, Utils.inl:10 -/
def primeZ : I32 := 0x465FD04F
/-- `Primes::W`, Utils.inl:11 -/
def primeW : I32 := 0xF7A62279
/-- `Primes::Lookup`, Utils.inl:13 -/
def primes : List I32 := [primeX, primeY, primeZ, primeW]
/-- `HashMultiplier::A`, Utils.inl:18 -/
def mulA : I32 := 0xB7E0A5F5

/-- The primed position of a lattice point: `Convert<int32_t>( xs ) * int32v( Primes::X )` for every axis,
e.g. Perlin.inl:15-16, Value.inl:15-16, Cellular.inl:45-46.  Two to four coordinates. -/
def primed (coords : List I32) : List I32 := List.zipWith (· * ·) coords primes

/-- `hash = seed; hash ^= ( primedPos ^ ... )`: Utils.inl:224-225, 235-236, 245-246. -/
def key (seed : I32) (primedPos : List I32) : I32 := seed ^^^ primedPos.foldr (· ^^^ ·) 0

/-- `HashPrimesHB`: Utils.inl:232-240. -/
def hashPrimesHB (seed : I32) (primedPos : List I32) : I32 := key seed primedPos * mulA

/-- `HashPrimes`: Utils.inl:221-230.  `>>` is the arithmetic shift of a signed vector. -/
def hashPrimes (seed : I32) (primedPos : List I32) : I32 :=
  let hash := key seed primedPos * mulA
  hash.sshiftRight 15 ^^^ hash

/-- The integer converted to float by `GetValueCoord`: Utils.inl:242-250. -/
def valueCoord (seed : I32) (primedPos : List I32) : I32 :=
  let hash := key seed primedPos
  hash * (hash * mulA)

/-- The seed of octave `i` of a fractal: `seed -= int32v( -1 )` once per octave after the first, Fractal.inl:27, 57
(and `seedInc`, DomainWarpFractal.inl:26, 62). -/
def octaveSeed (seed : I32) : Nat → I32
  | 0 => seed
  | i + 1 => octaveSeed seed i - (-1)

end FastNoise.Hash
