import Verif.Model.Feedback
import Verif.Model.Avx2

/-!
# The floating-point computations (src/feedback_block.hpp, src/aligned_tsetlin_state.hpp)

The other models compute probabilities with exact rationals. Here every operation on doubles is followed by rounding to 53 bits, to the
nearest, ties to even, as IEEE 754 prescribes for `double`. Exponents are not limited; that no computation leaves the range is proved.
-/

namespace GT

/-- The exponent of a positive number: `2 ^ e ≤ x < 2 ^ (e + 1)` (the `double`s of src/feedback_block.hpp:212-229 and
src/aligned_tsetlin_state.hpp:22-24 are stored with it). -/
def ilog2 (x : Rat) : Int :=
  let e : Int := (x.num.natAbs.log2 : Int) - x.den.log2
  if (2 : Rat) ^ e ≤ x then e else e - 1

/-- The nearest integer, ties to even (the rounding of the results at src/feedback_block.hpp:93-94 and the like). -/
def roundEven (y : Rat) : Int :=
  if y - y.floor < 1 / 2 then y.floor
  else if 1 / 2 < y - y.floor then y.floor + 1
  else if y.floor % 2 = 0 then y.floor else y.floor + 1

/-- Rounding of a number that is not negative (the rounding of the results at src/feedback_block.hpp:93-94 and the like). -/
def rndPos (x : Rat) : Rat := if x = 0 then 0 else roundEven (x / (2 : Rat) ^ (ilog2 x - 52)) * (2 : Rat) ^ (ilog2 x - 52)

/-- The result of a `double` operation whose exact result is `x` (src/feedback_block.hpp:93-94, 114-115,
src/aligned_tsetlin_state.hpp:65-69). -/
def rnd (x : Rat) : Rat := if x < 0 then -rndPos (-x) else rndPos x

/-- `(m_threshold - v_clamped_pos) / (2*m_threshold)` (src/feedback_block.hpp:114-115, 266-267, 331-332). -/
def posProbD (T : Rat) (v : Int) : Rat := rnd (rnd (T - clampT T v) / rnd (2 * T))

/-- `(m_threshold + v_clamped) / (2*m_threshold)` (src/feedback_block.hpp:93-94, 271-272, 328-329). -/
def negQuotD (T : Rat) (v : Int) : Rat := rnd (rnd (T + clampT T v) / rnd (2 * T))

/-- `( (m_threshold + v_clamped) / (2*m_threshold) ) + 1e-16` (src/feedback_block.hpp:93-94, 328-329); the literal is itself rounded. -/
def negProbD (T : Rat) (v : Int) : Rat := rnd (negQuotD T v + rnd (1 / 10 ^ 16))

/-- `FeedbackBlock::process` (src/feedback_block.hpp:72-123) with rounded probabilities. -/
def FB.processD (smp : List Rat → Rat → Nat) (fb : FB) (label : Nat) : FB :=
  let predicted := argmaxLoop fb.votes 0 0 (fb.votes.headD 0)
  let ws := (fb.votes.map (negProbD fb.threshold)).set label 0
  let u := fb.rng.next
  let neg := smp ws u.1
  { fb with
    posClass := label
    negClass := neg
    total := fb.total + 1
    correct := if predicted = label then fb.correct + 1 else fb.correct
    updProb := ws
    negProb := ws.getD neg 0
    posProb := posProbD fb.threshold (fb.votes.getD label 0)
    rng := u.2 }

/-- `FeedbackBlockUniform::process` (src/feedback_block.hpp:315-356) with rounded probabilities. -/
def FB.processUniformD (draws : Nat → Nat) (fuel k : Nat) (fb : FB) (label : Nat) : Option FB :=
  (rejectLoop draws label fuel k).map fun r =>
    { fb with
      posClass := label
      negClass := r.1
      negProb := negProbD fb.threshold (fb.votes.getD r.1 0)
      posProb := posProbD fb.threshold (fb.votes.getD label 0)
      total := fb.total + 1
      correct := if argmaxLoop fb.votes.tail 1 0 (fb.votes.headD 0) = label then fb.correct + 1
        else fb.correct }

/-- `std::partial_sum` on doubles: `acc` is the sum so far (standard library, used at src/feedback_block.hpp:108). -/
def partialSumsD : Rat → List Rat → List Rat
  | _, [] => []
  | acc, p :: ps => rnd (acc + p) :: partialSumsD (rnd (acc + p)) ps

/-- The cumulated probabilities `std::discrete_distribution` of libstdc++ keeps: normalised weights, partial sums, the last one replaced by
1 (standard library, used at src/feedback_block.hpp:108). -/
def cumulatedD (ws : List Rat) : List Rat :=
  let sum := ws.foldl (fun a w => rnd (a + w)) 0
  (partialSumsD 0 (ws.map fun w => rnd (w / sum))).dropLast ++ [1]

/-- `std::discrete_distribution::operator()` of libstdc++ with the draw `u`: the first class whose cumulated probability is not below it
(standard library, used at src/feedback_block.hpp:108-109). With fewer than two weights it returns 0. -/
def discreteD (ws : List Rat) (u : Rat) : Nat :=
  if ws.length < 2 then 0 else (cumulatedD ws).findIdx fun c => decide (u ≤ c)

/-- `std::default_random_engine` of libstdc++, `minstd_rand0` (standard library, used at src/feedback_block.hpp:215). -/
def minstdNext (x : Nat) : Nat := 16807 * x % 2147483647

/-- The state after `seed(s)` (standard library, used at src/feedback_block.hpp:32). -/
def minstdSeed (s : Nat) : Nat := if s % 2147483647 = 0 then 1 else s % 2147483647

/-- The state after `k` calls (standard library, used at src/feedback_block.hpp:109). -/
def minstdAfter (x : Nat) : Nat → Nat
  | 0 => x
  | k + 1 => minstdAfter (minstdNext x) k

/-- `std::generate_canonical<double, 53>` of libstdc++ from two results `a` and `b` of the engine, which lie between 1 and 2147483646
(standard library, used at src/feedback_block.hpp:109). `fused`: whether the compiler turns `sum += x * tmp` into one fused operation
with one rounding, which gcc may do with the flag `-mfma` (setup.py:45). -/
def canonicalD (fused : Bool) (a b : Nat) : Rat :=
  let sum :=
    if fused then rnd (rnd (0 + (a - 1 : Nat) * 1) + (b - 1 : Nat) * 2147483646)
    else rnd (rnd (0 + rnd ((a - 1 : Nat) * 1)) + rnd ((b - 1 : Nat) * 2147483646))
  let r := rnd (sum / rnd (2147483646 * 2147483646))
  if r ≥ 1 then 1 - 1 / 2 ^ 53 else r

/-- The engine as the stream of draws `std::discrete_distribution` makes, two calls for each (standard library, used at
src/feedback_block.hpp:109). -/
def minstdStream (fused : Bool) (x : Nat) : Rng := ⟨fun k => canonicalD fused (minstdAfter x (2 * k + 1)) (minstdAfter x (2 * k + 2)), 0⟩

/-- A counter of type `double` after `n` times `+= 1.0` (src/feedback_block.hpp:60-61, 100-104). -/
def counterD : Nat → Rat
  | 0 => 0
  | n + 1 => rnd (counterD n + 1)

/-- `get_train_accuracy` (src/feedback_block.hpp:64-70) after `correct` and `total` increments. -/
def accuracyD (correct total : Nat) : Rat := if counterD total > 0 then rnd (counterD correct / counterD total) else 0

/-- `s_inv` (src/aligned_tsetlin_state.hpp:65, src/sparse_tsetlin_state.hpp:59). -/
def sInvD (s : Rat) : Rat := rnd (1 / s)

/-- `s_min1_inv` (src/aligned_tsetlin_state.hpp:66, src/sparse_tsetlin_state.hpp:60). -/
def sMin1InvD (s : Rat) : Rat := rnd (rnd (s - 1) / s)

/-- `gtcmp_for_s` (src/aligned_tsetlin_state.hpp:68-72): the cast to `int32_t` drops the fraction. -/
def gtcmpD (s : Rat) : Int := max (-127) (min 126 ((rnd (rnd (1 / s) * 255)).floor - 127 + 1))

/-- `set_s` on an AVX2 block (src/aligned_tsetlin_state.hpp:62-73). -/
def VCfg.setSD (c : VCfg) (s : Rat) : VCfg := { c with cmpS := BitVec.ofInt 8 (gtcmpD s) }

end GT
