/-!
# Fixed-width integers and random streams

The building blocks shared by all models: two's-complement wrap-around, byte saturation and
random generators as arbitrary infinite streams.
-/

namespace GT

/-- Value stored when an `int8_t` lvalue receives the integer `x`: two's-complement wrap.
Models every narrowing store to `int8_t* clauses` (src/aligned_tsetlin_state.hpp:33). -/
def wrap8 (x : Int) : Int := (x + 128) % 256 - 128

/-- Value stored when a `WeightInt` (`int16_t`) lvalue receives `x`: two's-complement wrap.
Models `typedef int16_t WeightInt` (src/gt_common.hpp:10). -/
def wrap16 (x : Int) : Int := (x + 32768) % 65536 - 32768

/-- Value stored when an `int32_t` lvalue receives `x` (src/inference.hpp:17,225).  Signed overflow
of `int32_t` is undefined behaviour in C++; the model wraps. -/
def wrap32 (x : Int) : Int := (x + 2147483648) % 4294967296 - 2147483648

/-- One lane of `_mm256_adds_epi8` (src/func_avx2.hpp:504,527,559,...) or `vqaddq_s8`
(src/func_neon.hpp:601,...): signed byte addition with saturation. -/
def sat8 (x : Int) : Int := max (-128) (min 127 x)

/-- A pseudo-random generator seen as an arbitrary infinite stream of draws and a position in it.
Models `std::default_random_engine rng` read through `std::uniform_real_distribution`, and
`Wyhash64 fast_rng` read through `next_u` (src/aligned_tsetlin_state.hpp:51-52,
src/random_generator.hpp:45-56).  Quantifying over all streams covers every generator and seed;
draws are exact rationals instead of doubles. -/
structure Rng where
  draw : Nat → Rat
  pos : Nat

/-- One draw, advancing the generator (src/random_generator.hpp:45-56). -/
def Rng.next (g : Rng) : Rat × Rng := (g.draw g.pos, { g with pos := g.pos + 1 })

end GT
