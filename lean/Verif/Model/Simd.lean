import Verif.Model.Basic

/-!
# Byte vectors

Semantics of the vector instructions used by the AVX2 and NEON backends, lane by lane.  A vector of
`L` lanes is a function from lanes to bytes; memory is a function from addresses to bytes (only the
addresses of the allocation are ever used).
-/

namespace GT

/-- One byte lane, `int8_t` or `uint8_t` depending on the instruction (src/func_avx2.hpp:187-260). -/
abbrev Byte := BitVec 8

/-- A vector register of `L` byte lanes: `__m256i` (`L = 32`), `int8x16_t` (`L = 16`)
(src/func_avx2.hpp:187-260, src/func_neon.hpp:190-300). -/
abbrev Vec (L : Nat) := Fin L → Byte

/-- Byte-addressed memory behind a pointer (src/aligned_tsetlin_state.hpp:33). -/
abbrev Mem := Nat → Byte

/-- `_mm256_load_si256(&m[off])` / `vld1q_s8` (src/func_avx2.hpp:192,...; src/func_neon.hpp). -/
def load (L : Nat) (m : Mem) (off : Nat) : Vec L := fun l => m (off + l.val)

/-- `_mm256_store_si256(&m[off], v)` / `vst1q_s8` (src/func_avx2.hpp:505,...). -/
def store {L : Nat} (m : Mem) (off : Nat) (v : Vec L) : Mem := fun a =>
  if h : off ≤ a ∧ a - off < L then v ⟨a - off, h.2⟩ else m a

/-- `_mm256_set1_epi8(b)` / `vdupq_n_s8` (src/func_avx2.hpp:179). -/
def set1 (L : Nat) (b : Byte) : Vec L := fun _ => b

/-- A comparison result lane: all ones or all zeros (src/func_avx2.hpp:195). -/
def maskOf (b : Bool) : Byte := if b then 0xFF#8 else 0#8

/-- `_mm256_cmpgt_epi8(a, b)`: signed `a > b` per lane (src/func_avx2.hpp:195, 211). -/
def cmpgt {L : Nat} (a b : Vec L) : Vec L := fun l => maskOf ((b l).slt (a l))

/-- `_mm256_cmpeq_epi8(a, b)` (src/func_avx2.hpp:201, 208). -/
def cmpeq {L : Nat} (a b : Vec L) : Vec L := fun l => maskOf (a l == b l)

/-- `_mm256_and_si256` (src/func_avx2.hpp:233, 250). -/
def vand {L : Nat} (a b : Vec L) : Vec L := fun l => a l &&& b l

/-- `_mm256_or_si256` (src/func_avx2.hpp:200, 216). -/
def vor {L : Nat} (a b : Vec L) : Vec L := fun l => a l ||| b l

/-- `~v` on a vector (GCC vector extension) (src/func_avx2.hpp:198, 233). -/
def vnot {L : Nat} (a : Vec L) : Vec L := fun l => ~~~ (a l)

/-- One lane of a saturating signed add (src/func_avx2.hpp:504). -/
def satAdd (x y : Byte) : Byte := BitVec.ofInt 8 (sat8 (x.toInt + y.toInt))

/-- `_mm256_adds_epi8` / `vqaddq_s8`: signed saturating addition (src/func_avx2.hpp:504, 527, 559). -/
def vadds {L : Nat} (a b : Vec L) : Vec L := fun l => satAdd (a l) (b l)

/-- `__builtin_popcount(_mm256_movemask_epi8(v))`: number of lanes with the sign bit set
(src/func_avx2.hpp:198, 214). -/
def popcountMask {L : Nat} (v : Vec L) : Nat := (List.finRange L).countP (fun l => (v l).msb)

/-- `_mm256_movemask_epi8(v) != 0`: some lane has the sign bit set (src/func_avx2.hpp:198). -/
def anyMask {L : Nat} (v : Vec L) : Bool := (List.finRange L).any (fun l => (v l).msb)

/-- `_mm256_testz_si256(v, v) == 0`: some bit of the vector is set (src/func_avx2.hpp:202, 219). -/
def anyBit {L : Nat} (v : Vec L) : Bool := (List.finRange L).any (fun l => v l != 0#8)

/-- A vector generator (`XorShift128plus4G avx2_rng`, src/aligned_tsetlin_state.hpp:55): call number and
lane to byte, arbitrary. -/
structure VRng where
  draw : Nat → Nat → Byte
  pos : Nat

/-- `avx2_rng.next()`: a fresh vector of random bytes (src/func_avx2.hpp:486, 509, 554). -/
def VRng.next (L : Nat) (g : VRng) : Vec L × VRng :=
  (fun l => g.draw g.pos l.val, { g with pos := g.pos + 1 })

end GT
