import Verif.Model.Simd
import Verif.Model.Basic

/-!
# The random generators (src/random_generator.hpp)

`std::mt19937_64`, `std::default_random_engine` and the standard distributions, which only make seeds, are represented by
their results.
-/

namespace GT

/-! ### `Wyhash64` -/

/-- `Wyhash64` (src/random_generator.hpp:30-70). -/
structure Wyhash where
  x : BitVec 64
deriving DecidableEq, Repr

/-- `tmp = (__uint128_t) x * c; (tmp >> 64) ^ tmp`, the low 64 bits (src/random_generator.hpp:48-52). -/
def wyMix (c x : BitVec 64) : BitVec 64 :=
  let tmp := x.toNat * c.toNat
  BitVec.ofNat 64 (tmp >>> 64) ^^^ BitVec.ofNat 64 tmp

/-- Conversion of an unsigned 64-bit integer to `double`: rounded to 53 significant bits, to the nearest, ties to even
(the cast at src/random_generator.hpp:54). -/
def toDouble (m : Nat) : Nat :=
  if m < 2 ^ 53 then m
  else
    let e := m.log2 - 52
    let q := m / 2 ^ e
    let r := m % 2 ^ e
    if r > 2 ^ (e - 1) ∨ (r = 2 ^ (e - 1) ∧ q % 2 = 1) then (q + 1) * 2 ^ e else q * 2 ^ e

/-- `m2` of `next_u` after the state has become `x` (src/random_generator.hpp:48-52). -/
def wyM2 (x : BitVec 64) : BitVec 64 := wyMix 0x1b03738712fad5c9#64 (wyMix 0xa3b195354a39b70d#64 x)

/-- The change of state in `next_u` (src/random_generator.hpp:47). -/
@[irreducible] def Wyhash.advance (g : Wyhash) : Wyhash := ⟨g.x + 0x60bee2bee120fc15#64⟩

/-- `next_u` (src/random_generator.hpp:45-56); the product with 2^-64 is exact. -/
def Wyhash.nextU (g : Wyhash) : Rat × Wyhash :=
  ((toDouble (wyM2 g.advance.x).toNat : Rat) / 2 ^ 64, g.advance)

/-- The generator after `n` calls of `next_u` (src/random_generator.hpp:45-56). -/
def Wyhash.after (g : Wyhash) : Nat → Wyhash
  | 0 => g
  | n + 1 => g.advance.after n

/-- `seed_internal` and `seed` (src/random_generator.hpp:38-43, 63-68) with `hi` and `lo` drawn from 15 to 2^32 - 1 by
`std::mt19937_64`. -/
def Wyhash.seeded (hi lo : Nat) : Wyhash := (Wyhash.mk (BitVec.ofNat 64 (hi <<< 32 ||| lo))).after 32

/-- The generator as the stream of draws the other models use (src/random_generator.hpp:45-56). -/
def Wyhash.stream (g : Wyhash) : Rng := ⟨fun k => (g.after k).nextU.1, 0⟩

/-! ### `XorShift128plus4G` (AVX2) -/

/-- Four 64-bit lanes, `__m256i` (src/random_generator.hpp:99-100, 188). -/
abbrev Lanes (n : Nat) := Fin n → BitVec 64

/-- `XorShift128plus4G` (src/random_generator.hpp:74-124). -/
structure XorShift4 where
  part1 : Lanes 4
  part2 : Lanes 4

/-- `next` (src/random_generator.hpp:88-98). The value first given to `s1` is overwritten before it is used. -/
def XorShift4.next (g : XorShift4) : Lanes 4 × XorShift4 :=
  let s0 := g.part2
  let s1 : Lanes 4 := fun i => g.part2 i ^^^ (g.part2 i <<< 23)
  let p2 : Lanes 4 := fun i => ((s1 i ^^^ s0 i) ^^^ (s1 i >>> 18)) ^^^ (s0 i >>> 5)
  (fun i => p2 i + s0 i, ⟨s0, p2⟩)

/-- The generator after `n` calls (src/random_generator.hpp:87-97). -/
def XorShift4.after (g : XorShift4) : Nat → XorShift4
  | 0 => g
  | n + 1 => (g.next.2).after n

/-- Byte `l` of a register of 64-bit lanes, little endian (the result type at src/random_generator.hpp:96, 172). -/
def byteOf {n : Nat} (v : Lanes n) (l : Nat) : Byte :=
  if h : l / 8 < n then (v ⟨l / 8, h⟩ >>> (8 * (l % 8))).setWidth 8 else 0#8

/-- The 64-bit lane made of eight bytes (src/random_generator.hpp:118-119). -/
def laneOf (b : Nat → Byte) (i : Nat) : BitVec 64 :=
  (List.range 8).foldl (fun v j => v ||| ((b (8 * i + j)).setWidth 64 <<< (8 * j))) 0#64

/-- `seed` (src/random_generator.hpp:81-86, 105-122) with the 64 random bytes `b`, each drawn from 5 to 251. -/
def XorShift4.seeded (b : Nat → Byte) : XorShift4 :=
  (XorShift4.mk (fun i => laneOf b i.val) (fun i => laneOf b (4 + i.val))).after 32

/-- The generator as the stream of vectors of bytes the other models use (src/random_generator.hpp:87-97). -/
def XorShift4.stream (g : XorShift4) : VRng := ⟨fun k l => byteOf (g.after k).next.1 l, 0⟩

/-! ### `Xoshiro128Plus` (NEON) -/

/-- `Xoshiro128Plus` (src/random_generator.hpp:130-213). -/
structure Xoshiro2 where
  st0 : Lanes 2
  st1 : Lanes 2

/-- `next` (src/random_generator.hpp:161-172). -/
def Xoshiro2.next (g : Xoshiro2) : Lanes 2 × Xoshiro2 :=
  let s0 := g.st1
  let s1 : Lanes 2 := fun i => (g.st0 i <<< 23) ^^^ g.st0 i
  let n1 : Lanes 2 := fun i => (s1 i ^^^ s0 i) ^^^ ((s1 i >>> 18) ^^^ (s0 i >>> 5))
  (fun i => n1 i + s0 i, ⟨s0, n1⟩)

/-- The generator after `n` calls (src/random_generator.hpp:161-172). -/
def Xoshiro2.after (g : Xoshiro2) : Nat → Xoshiro2
  | 0 => g
  | n + 1 => (g.next.2).after n

/-- `seed` (src/random_generator.hpp:137-143, 192-212) with the eight random bytes as `seed64`. -/
def Xoshiro2.seeded (seed64 : BitVec 64) : Xoshiro2 :=
  (Xoshiro2.mk (fun _ => seed64) (fun _ => 0x73A2C175221D6A27#64)).after 32

/-- The generator as a stream of vectors of bytes (src/random_generator.hpp:161-172). -/
def Xoshiro2.stream (g : Xoshiro2) : VRng := ⟨fun k l => byteOf (g.after k).next.1 l, 0⟩

end GT
