import Verif.Lemmas.Double2
import Verif.Spec.Avx2

/-!
# C83: the probabilities and scores in the double-precision arithmetic the code uses

The statements of C19, C20 and C49 are about exact arithmetic. Here every operation is rounded to a double, and the promises are proved for
the rounded numbers.
-/

namespace GT
open Spec Dbl

/-- The rounding used in the model gives a closest double, and a double is not changed by it. -/
theorem C83_rounding (x : Rat) : NearestDouble x (rnd x) ∧ (IsDouble x → rnd x = x) := ⟨nearest x, rnd_of_isDouble⟩

/-- Ties go to the even neighbour; the sum `1 + 1e-16` is 1. -/
example : rnd (2 ^ 53 + 1) = 2 ^ 53 ∧ rnd (2 ^ 53 + 3) = 2 ^ 53 + 4 ∧ rnd (1 / 3) = 6004799503160661 / 2 ^ 54 ∧
    rnd (1 + rnd (1 / 10 ^ 16)) = 1 := by decide +kernel

/-! ## Update probabilities -/

/-- The probability of updating for the target class, for any threshold of at least 1: between 0 and 1, 0 exactly if the votes have reached
the threshold, 1 if they have reached its negative, and within 2^-52 of the exact value. -/
theorem C83_positive (smp : List Rat → Rat → Nat) (fb : FB) (label : Nat) (hT : 1 ≤ fb.threshold) (hd : IsDouble fb.threshold)
    (v : Int) (hv : fb.votes[label]? = some v) (c : Rat) (hc : Clamped fb.threshold v c) :
    (fb.processD smp label).posClass = label ∧
    0 ≤ (fb.processD smp label).posProb ∧ (fb.processD smp label).posProb ≤ 1 ∧
    ((fb.processD smp label).posProb = 0 ↔ fb.threshold ≤ v) ∧
    ((v : Rat) ≤ -fb.threshold → (fb.processD smp label).posProb = 1) ∧
    |(fb.processD smp label).posProb - (fb.threshold - c) / (2 * fb.threshold)| ≤ 1 / 2 ^ 52 := by
  have hT0 : 0 ≤ fb.threshold := by linarith
  have e : (fb.processD smp label).posProb = posProbD fb.threshold v := by simp [FB.processD, hv]
  rw [clamped_unique hc (clampT_clamped fb.threshold v hT0) hT0, e]
  obtain ⟨b1, b2⟩ := clamp_bounds fb.threshold v hT0
  obtain ⟨q1, q2, q3, q4⟩ := quot_bounds (a := fb.threshold - clampT fb.threshold v) hT hd (by linarith) (by linarith)
  have hcl := clampT_clamped fb.threshold v hT0
  refine ⟨rfl, q1, q2, q3.trans ⟨fun h => ?_, fun h => ?_⟩, fun h => ?_, q4⟩
  · by_contra hlt
    have hlt := not_le.mp hlt
    rcases le_total (v : Rat) (-fb.threshold) with h2 | h2
    · rw [hcl.1 h2] at h; linarith
    · rw [hcl.2.2 h2 hlt.le] at h; linarith
  · rw [hcl.2.1 h]; ring
  · unfold posProbD
    rw [hcl.1 h, show fb.threshold - -fb.threshold = 2 * fb.threshold by ring, rnd_of_isDouble (isDouble_double hd),
      div_self (by linarith), rnd_one]

/-- More votes for the target never make its update more likely. -/
theorem C83_positive_antitone (smp : List Rat → Rat → Nat) (fb fb' : FB) (label : Nat) (hT : 1 ≤ fb.threshold)
    (hd : IsDouble fb.threshold) (hTT : fb'.threshold = fb.threshold) (v v' : Int) (hv : fb.votes[label]? = some v)
    (hv' : fb'.votes[label]? = some v') (h : v ≤ v') : (fb'.processD smp label).posProb ≤ (fb.processD smp label).posProb := by
  have e : (fb.processD smp label).posProb = posProbD fb.threshold v := by simp [FB.processD, hv]
  have e' : (fb'.processD smp label).posProb = posProbD fb.threshold v' := by simp [FB.processD, hv', hTT]
  rw [e, e']
  have := clamp_mono fb.threshold h
  have b := clamp_bounds fb.threshold v' (by linarith)
  exact quot_mono hT hd (by linarith) (by linarith)

/-- With an integer threshold (below 2^49) votes that differ inside the limits give probabilities that differ, so the probability is 1 only
for votes at or below the negative threshold. -/
theorem C83_positive_strict (smp : List Rat → Rat → Nat) (fb fb' : FB) (label T : Nat) (hT : 1 ≤ T) (hT' : T ≤ 2 ^ 49)
    (hf : fb.threshold = T) (hf' : fb'.threshold = T) (v v' : Int) (hv : fb.votes[label]? = some v)
    (hv' : fb'.votes[label]? = some v') (h : v < v') (h1 : -T < v') (h2 : v < T) :
    (fb'.processD smp label).posProb < (fb.processD smp label).posProb := by
  have e : (fb.processD smp label).posProb = posProbD T v := by simp [FB.processD, hv, hf]
  have e' : (fb'.processD smp label).posProb = posProbD T v' := by simp [FB.processD, hv', hf']
  rw [e, e']
  rw [posProbD_nat T v hT hT', posProbD_nat T v' hT hT']
  have hs := clampZ_strict hT h h1 h2
  have b := clampZ_bounds T v
  have b' := clampZ_bounds T v'
  have f := frac_strict (n := 2 * T) (a := (T - clampZ T v').toNat) (b := (T - clampZ T v).toNat) (by omega) (by omega) (by omega)
  have g := inv_gap (n := 2 * T) (by omega) (by omega)
  norm_num at f g ⊢
  linarith

/-- The probability of updating for the class trained against: more than 0, at most 1 although `1e-16` is added, and within 2^-51 of the
exact value; if the sampler returns the target itself, nothing is updated for it. -/
theorem C83_negative (smp : List Rat → Rat → Nat) (fb : FB) (label : Nat) (hT : 1 ≤ fb.threshold) (hd : IsDouble fb.threshold)
    (hl : label < fb.votes.length) :
    ((fb.processD smp label).negClass = label → (fb.processD smp label).negProb = 0) ∧
    ((fb.processD smp label).negClass ≠ label → ∀ v, fb.votes[(fb.processD smp label).negClass]? = some v →
      ∀ c, Clamped fb.threshold v c →
        0 < (fb.processD smp label).negProb ∧ (fb.processD smp label).negProb ≤ 1 ∧
        |(fb.processD smp label).negProb - ((fb.threshold + c) / (2 * fb.threshold) + 1 / 10 ^ 16)| ≤ 1 / 2 ^ 51) := by
  constructor
  · intro h
    simp only [FB.processD] at h ⊢
    rw [h]
    simp [hl]
  · intro hne v hv c hc
    rw [clamped_unique hc (clampT_clamped fb.threshold v (by linarith)) (by linarith)]
    have e : (fb.processD smp label).negProb = negProbD fb.threshold v := by
      simp only [FB.processD] at hv hne ⊢
      rw [List.getD_eq_getElem?_getD, List.getElem?_set_ne (Ne.symm hne), List.getElem?_map, hv]
      rfl
    rw [e]
    exact negProbD_bounds v hT hd

/-- More votes for a class never make an update against it less likely; with an integer threshold (below 2^49) and votes inside the limits
they make it more likely. -/
theorem C83_negative_monotone (smp : List Rat → Rat → Nat) (fb fb' : FB) (label k T : Nat) (hT : 1 ≤ T) (hT' : T ≤ 2 ^ 49)
    (hf : fb.threshold = T) (hf' : fb'.threshold = T) (hk : k ≠ label) (hn : (fb.processD smp label).negClass = k)
    (hn' : (fb'.processD smp label).negClass = k) (v v' : Int) (hv : fb.votes[k]? = some v) (hv' : fb'.votes[k]? = some v') :
    (v ≤ v' → (fb.processD smp label).negProb ≤ (fb'.processD smp label).negProb) ∧
    (v < v' → -(T : Int) < v' → v < T → (fb.processD smp label).negProb < (fb'.processD smp label).negProb) := by
  have e : ∀ (g : FB) (w : Int), g.threshold = T → (g.processD smp label).negClass = k → g.votes[k]? = some w →
      (g.processD smp label).negProb = negProbD T w := by
    intro g w h1 h2 h3
    simp only [FB.processD] at h2 ⊢
    rw [h2, List.getD_eq_getElem?_getD, List.getElem?_set_ne (Ne.symm hk), List.getElem?_map, h3, h1]
    rfl
  rw [e fb v hf hn hv, e fb' v' hf' hn' hv']
  have hT1 : (1 : Rat) ≤ T := by exact_mod_cast hT
  exact ⟨negProbD_mono hT1 (isDouble_nat T (by omega)), negProbD_strict hT hT'⟩

/-- Both feedback blocks count every example, count it as correct exactly if its label is the lowest class with the most votes, and leave
the votes as they are; the class drawn uniformly is one that was drawn and is not the label. -/
theorem C83_counts (fb : FB) (label : Nat) (hv : fb.votes ≠ []) :
    (∀ smp, let fb' := fb.processD smp label
      fb'.posClass = label ∧ fb'.votes = fb.votes ∧ fb'.total = fb.total + 1 ∧
      (LowestMax fb.votes label → fb'.correct = fb.correct + 1) ∧ (¬ LowestMax fb.votes label → fb'.correct = fb.correct)) ∧
    (∀ draws fuel k fb', fb.processUniformD draws fuel k label = some fb' →
      fb'.posClass = label ∧ fb'.votes = fb.votes ∧ fb'.total = fb.total + 1 ∧
      (LowestMax fb.votes label → fb'.correct = fb.correct + 1) ∧ (¬ LowestMax fb.votes label → fb'.correct = fb.correct) ∧
      fb'.negClass ≠ label ∧ ∃ i, k ≤ i ∧ draws i = fb'.negClass) := by
  have e1 : argmaxLoop fb.votes 0 0 (fb.votes.headD 0) = fb.predict := by
    cases h : fb.votes with
    | nil => exact absurd h hv
    | cons v vs => simp [FB.predict, h, argmaxLoop]
  have e2 : argmaxLoop fb.votes.tail 1 0 (fb.votes.headD 0) = fb.predict := by
    rw [← e1]
    cases h : fb.votes with
    | nil => exact absurd h hv
    | cons v vs => simp [argmaxLoop]
  have hp := predict_lowestMax fb hv
  have hiff : LowestMax fb.votes label ↔ fb.predict = label :=
    ⟨fun h => lowestMax_unique hp h, fun h => h ▸ hp⟩
  refine ⟨fun smp => ⟨rfl, rfl, rfl, ?_, ?_⟩, ?_⟩
  · intro h
    simp only [FB.processD, e1, if_pos (hiff.mp h)]
  · intro h
    simp only [FB.processD, e1, if_neg (fun x => h (hiff.mpr x))]
  · intro draws fuel k fb' h
    unfold FB.processUniformD at h
    cases hr : rejectLoop draws label fuel k with
    | none => simp [hr] at h
    | some r =>
      simp only [hr, Option.map_some, Option.some.injEq] at h
      subst h
      refine ⟨rfl, rfl, rfl, ?_, ?_, rejectLoop_sound draws label fuel k r hr⟩
      · intro h
        simp only [e2, if_pos (hiff.mp h)]
      · intro h
        simp only [e2, if_neg (fun x => h (hiff.mpr x))]

example : (((FB.new 3 10 ⟨fun _ => 1 / 3, 0⟩).processUniformD (fun i => i % 3) 5 0 0).map fun fb => (fb.correct, fb.total, fb.negClass)) =
    some (1, 1, 1) := by decide +kernel

/-- The same bounds for the feedback block with uniformly drawn classes. -/
theorem C83_uniform (draws : Nat → Nat) (fuel k : Nat) (fb fb' : FB) (label : Nat) (hT : 1 ≤ fb.threshold)
    (hd : IsDouble fb.threshold) (h : fb.processUniformD draws fuel k label = some fb') (v w : Int)
    (hv : fb.votes[label]? = some v) (hw : fb.votes[fb'.negClass]? = some w) (c d : Rat) (hc : Clamped fb.threshold v c)
    (hd' : Clamped fb.threshold w d) :
    0 ≤ fb'.posProb ∧ fb'.posProb ≤ 1 ∧ (fb'.posProb = 0 ↔ fb.threshold - c = 0) ∧ 0 < fb'.negProb ∧ fb'.negProb ≤ 1 ∧
    |fb'.posProb - (fb.threshold - c) / (2 * fb.threshold)| ≤ 1 / 2 ^ 52 ∧
    |fb'.negProb - ((fb.threshold + d) / (2 * fb.threshold) + 1 / 10 ^ 16)| ≤ 1 / 2 ^ 51 := by
  have hT0 : 0 ≤ fb.threshold := by linarith
  rw [clamped_unique hc (clampT_clamped fb.threshold v hT0) hT0, clamped_unique hd' (clampT_clamped fb.threshold w hT0) hT0]
  unfold FB.processUniformD at h
  cases hr : rejectLoop draws label fuel k with
  | none => simp [hr] at h
  | some r =>
    simp only [hr, Option.map_some, Option.some.injEq] at h
    subst h
    simp only at hw ⊢
    have e1 : fb.votes.getD label 0 = v := by simp [List.getD, hv]
    have e2 : fb.votes.getD r.1 0 = w := by simp [List.getD, hw]
    rw [e1, e2]
    obtain ⟨b1, b2⟩ := clamp_bounds fb.threshold v hT0
    obtain ⟨q1, q2, q3, q4⟩ := quot_bounds (a := fb.threshold - clampT fb.threshold v) hT hd (by linarith) (by linarith)
    obtain ⟨n1, n2, n3⟩ := negProbD_bounds w hT hd
    exact ⟨q1, q2, q3, n1, n2, q4, n3⟩

/-- Nothing on the way to a probability overflows or becomes subnormal, so IEEE 754 doubles give the same results. -/
theorem C83_in_range (T : Rat) (hT : 1 ≤ T) (hT' : T ≤ (2 : Rat) ^ (900 : Int)) (hd : IsDouble T) (v : Int) :
    InDoubleRange (rnd (T - clampT T v)) ∧ InDoubleRange (rnd (T + clampT T v)) ∧ InDoubleRange (rnd (2 * T)) ∧
    InDoubleRange (posProbD T v) ∧ InDoubleRange (negQuotD T v) ∧ InDoubleRange (negProbD T v) := by
  obtain ⟨b1, b2⟩ := clamp_bounds T v (by linarith)
  have hf := fixed_point hT hd
  have hc := fixed_clamp hT hd v
  have hn : ∃ k : Int, -clampT T v * 2 ^ 52 = k := by
    obtain ⟨k, hk⟩ := hc
    exact ⟨-k, by push_cast; rw [neg_mul, hk]⟩
  obtain ⟨p1, p2, p3⟩ := quot_range (a := T - clampT T v) hT hT' hd (by linarith) (by linarith) (fixed_sub hf hc)
  have hs : ∃ k : Int, (T + clampT T v) * 2 ^ 52 = k := by
    have := fixed_sub hf hn
    rwa [sub_neg_eq_add] at this
  obtain ⟨q1, -, q3⟩ := quot_range (a := T + clampT T v) hT hT' hd (by linarith) (by linarith) hs
  refine ⟨p1, q1, p2, p3, q3, ?_⟩
  obtain ⟨n1, n2, -⟩ := negProbD_bounds v hT hd
  have t1 : (1 : Rat) < 2 ^ (1024 : Int) := by
    have := zpow_lt (show (0 : Int) < 1024 by norm_num)
    rwa [zpow_zero] at this
  have t2 : (2 : Rat) ^ (-1022 : Int) ≤ 2 ^ (-54 : Int) := zpow_mono (by norm_num)
  refine inRange_of n1.le (.inr (t2.trans (le_rnd_of (two_zpow_pos _).le (isDouble_zpow _) ?_))) (lt_of_le_of_lt n2 t1)
  have q0 : 0 ≤ negQuotD T v := (quot_bounds (a := T + clampT T v) hT hd (by linarith) (by linarith)).1
  have e : (2 : Rat) ^ (-54 : Int) ≤ rnd (1 / 10 ^ 16) := by rw [eps_eq, zpow_neg]; norm_num
  linarith

/-- Non-vacuity: threshold 10, votes 3 for the target, 10 and -10 for the others; the draw 1/2 selects class 1. -/
example : IsDouble 10 ∧
    ((({ FB.new 3 10 ⟨fun _ => 1 / 2, 0⟩ with votes := [3, 10, -10] }).processD discreteD 0).negClass,
      (({ FB.new 3 10 ⟨fun _ => 1 / 2, 0⟩ with votes := [3, 10, -10] }).processD discreteD 0).posProb,
      (({ FB.new 3 10 ⟨fun _ => 1 / 2, 0⟩ with votes := [3, 10, -10] }).processD discreteD 0).negProb) =
    (1, 3152519739159347 / 2 ^ 53, 1) := by
  refine ⟨⟨10, 0, by norm_num, by norm_num⟩, by decide +kernel⟩

/-! ## The class trained against -/

/-- The draws that the engine of the feedback block makes for `std::discrete_distribution`, from any seed, stay away from 0 and 1,
with or without fused operations. -/
theorem C83_engine_draws (fused : Bool) (seed k : Nat) :
    1 / 2 ^ 32 ≤ (minstdStream fused (minstdSeed seed)).draw k ∧ (minstdStream fused (minstdSeed seed)).draw k ≤ 1 - 1 / 2 ^ 32 := by
  obtain ⟨h0, h1⟩ := minstdSeed_range seed
  obtain ⟨a0, a1⟩ := minstdAfter_range (2 * k + 1) h0 h1
  have e : minstdAfter (minstdSeed seed) (2 * k + 2) = minstdNext (minstdAfter (minstdSeed seed) (2 * k + 1)) :=
    minstdAfter_succ _ _
  show 1 / 2 ^ 32 ≤ canonicalD _ _ _ ∧ canonicalD _ _ _ ≤ _
  rw [e]
  exact canonical_range fused a0 a1

/-- C20 and C83: with the engine and the sampler of libstdc++, in double arithmetic, the class trained against exists and is not the target,
for every seed, every number of earlier draws, all votes and between 2 and 2^20 classes. -/
theorem C83_negative_class_valid (fused : Bool) (fb : FB) (seed k label : Nat) (hr : fb.rng = { minstdStream fused (minstdSeed seed) with pos := k })
    (hT : 1 ≤ fb.threshold) (hd : IsDouble fb.threshold) (h2 : 2 ≤ fb.votes.length) (hn : fb.votes.length < 2 ^ 20)
    (hl : label < fb.votes.length) :
    (fb.processD discreteD label).negClass < fb.votes.length ∧ (fb.processD discreteD label).negClass ≠ label ∧
    0 < (fb.processD discreteD label).negProb := by
  obtain ⟨u0, u1⟩ := C83_engine_draws fused seed k
  have hu : fb.rng.next.1 = (minstdStream fused (minstdSeed seed)).draw k := by rw [hr]; rfl
  have e : (fb.processD discreteD label).negClass =
      discreteD ((fb.votes.map (negProbD fb.threshold)).set label 0) ((minstdStream fused (minstdSeed seed)).draw k) := by
    rw [← hu]; rfl
  generalize (minstdStream fused (minstdSeed seed)).draw k = u at *
  have hlen : ((fb.votes.map (negProbD fb.threshold)).set label 0).length = fb.votes.length := by simp
  have hw : ∀ w ∈ (fb.votes.map (negProbD fb.threshold)).set label 0, 0 ≤ w := by
    intro w hw
    rcases List.mem_or_eq_of_mem_set hw with h | h
    · obtain ⟨v, -, rfl⟩ := List.mem_map.mp h
      exact (negProbD_bounds v hT hd).1.le
    · exact h.ge
  have hu0 : 0 < u := by norm_num at u0; linarith
  have hu1 : u ≤ 1 := by norm_num at u1; linarith
  have hpos : 0 < ((fb.votes.map (negProbD fb.threshold)).set label 0).sum := by
    obtain ⟨j, hj, hne⟩ : ∃ j, j < fb.votes.length ∧ label ≠ j := by
      by_cases h : label = 0
      · exact ⟨1, by omega, by omega⟩
      · exact ⟨0, by omega, h⟩
    have hmem : negProbD fb.threshold fb.votes[j] ∈ (fb.votes.map (negProbD fb.threshold)).set label 0 := by
      apply List.mem_of_getElem? (i := j)
      rw [List.getElem?_set_ne hne]
      simp [hj]
    have := List.single_le_sum hw _ hmem
    exact lt_of_lt_of_le (negProbD_bounds _ hT hd).1 this
  have hlt := discrete_lt ((fb.votes.map (negProbD fb.threshold)).set label 0) u (by omega) hu1
  have hne := discrete_ne ((fb.votes.map (negProbD fb.threshold)).set label 0) u (by omega) (by omega) hw hpos label
    (by simp [hl]) hu0 u1
  rw [hlen, ← e] at hlt
  rw [← e] at hne
  refine ⟨hlt, hne, ?_⟩
  exact (((C83_negative discreteD fb label hT hd hl).2 hne _ (List.getElem?_eq_getElem hlt)) _
    (clampT_clamped fb.threshold _ (by linarith))).1

/-- Non-vacuity: five classes, threshold 7, seed 42. -/
example :
    (({ FB.new 5 7 (minstdStream true (minstdSeed 42)) with votes := [3, 7, -2, 0, 5] }).processD discreteD 2).negClass ≠ 2 ∧
    (({ FB.new 5 7 (minstdStream true (minstdSeed 42)) with votes := [3, 7, -2, 0, 5] }).processD discreteD 2).negClass < 5 := by
  decide +kernel

/-- It is the engine that ensures this. With a finer generator that can return 1 - 2^-53, rounding in the sampler would select the target if
it is the last class: four classes, threshold 2, votes -1, 1 and -1 for the others. Nothing would be updated against it then. -/
theorem C83_sampler_alone_selects_target :
    ((({ FB.new 4 2 ⟨fun _ => 1 - 1 / 2 ^ 53, 0⟩ with votes := [-1, 1, -1, 0] }).processD discreteD 3).negClass,
      (({ FB.new 4 2 ⟨fun _ => 1 - 1 / 2 ^ 53, 0⟩ with votes := [-1, 1, -1, 0] }).processD discreteD 3).negProb) = (3, 0) := by
  decide +kernel

/-! ## Scores -/

/-- The counters are exact up to 2^53 increments; then they stick. -/
theorem C83_counters (n : Nat) : (n ≤ 2 ^ 53 → counterD n = n) ∧ (2 ^ 53 ≤ n → counterD n = 2 ^ 53) :=
  ⟨counter_eq n, counter_sticks n⟩

/-- Epochs with up to 2^50 examples: the rounded training accuracies compare as the numbers of correct predictions do; 0 means none and 1
means all. -/
theorem C83_accuracy_order (a b n : Nat) (hn : n ≤ 2 ^ 50) (h0 : 0 < n) (ha : a ≤ n) (hb : b ≤ n) :
    (accuracyD a n < accuracyD b n ↔ a < b) ∧ (accuracyD a n = accuracyD b n ↔ a = b) ∧ (accuracyD a n = 0 ↔ a = 0) ∧
    (accuracyD a n = 1 ↔ a = n) ∧ 0 ≤ accuracyD a n ∧ accuracyD a n ≤ 1 := by
  have hn0 : (0 : Rat) < n := by exact_mod_cast h0
  have e : ∀ c, c ≤ n → accuracyD c n = rnd ((c : Rat) / n) := by
    intro c hc
    unfold accuracyD
    rw [counter_eq n (by omega), counter_eq c (by omega), if_pos hn0]
  have st : ∀ c d, c ≤ n → d ≤ n → c < d → accuracyD c n < accuracyD d n := by
    intro c d hc hd h
    rw [e c hc, e d hd]
    have f := frac_strict (by omega) h hd
    have g := inv_gap h0 hn
    norm_num at f g ⊢
    linarith
  have z : accuracyD 0 n = 0 := by rw [e 0 (by omega)]; simp [rnd_zero]
  have o : accuracyD n n = 1 := by rw [e n le_rfl, div_self hn0.ne', rnd_one]
  have lt : ∀ c d, c ≤ n → d ≤ n → (accuracyD c n < accuracyD d n ↔ c < d) := by
    intro c d hc hd
    refine ⟨fun h => ?_, st c d hc hd⟩
    by_contra hcd
    rcases Nat.lt_or_eq_of_le (not_lt.mp hcd) with h' | h'
    · exact absurd (st d c hd hc h') (not_lt.mpr h.le)
    · rw [h'] at h; exact lt_irrefl _ h
  have eq : ∀ c d, c ≤ n → d ≤ n → (accuracyD c n = accuracyD d n ↔ c = d) := by
    intro c d hc hd
    refine ⟨fun h => ?_, fun h => by rw [h]⟩
    rcases Nat.lt_trichotomy c d with h' | h' | h'
    · exact absurd h (st c d hc hd h').ne
    · exact h'
    · exact absurd h.symm (st d c hd hc h').ne
  refine ⟨lt a b ha hb, eq a b ha hb, ?_, ?_, ?_, ?_⟩
  · have := eq a 0 ha (by omega)
    rwa [z] at this
  · have := eq a n ha le_rfl
    rwa [o] at this
  · rw [e a ha]; exact rnd_nonneg (by positivity)
  · rw [← o]
    rcases Nat.lt_or_eq_of_le ha with h | h
    · exact (st a n ha le_rfl h).le
    · rw [h]

/-- Non-vacuity: 2 and 3 correct of 3. -/
example : accuracyD 2 3 = 6004799503160661 / 2 ^ 53 ∧ accuracyD 3 3 = 1 ∧ accuracyD 0 0 = 0 := by decide +kernel

/-- Without the bound on the number of examples the order can be lost: beyond 2^53 additional correct predictions are not counted. -/
theorem C83_counter_limit : accuracyD (2 ^ 53) (2 ^ 53 + 1) = 1 := by
  unfold accuracyD
  rw [counter_sticks _ (by norm_num), counter_sticks _ (by norm_num)]
  norm_num [rnd_one]

/-! ## The specificity s -/

/-- For `s ≥ 1` the probabilities `1/s` and `(s-1)/s` of the portable backend are rounded to numbers between 0 and 1, exact at `s = 1`, with
at most two rounding errors. -/
theorem C83_s_probabilities (s : Rat) (hs : 1 ≤ s) :
    0 < sInvD s ∧ sInvD s ≤ 1 ∧ 0 ≤ sMin1InvD s ∧ sMin1InvD s ≤ 1 ∧ (s = 1 → sInvD s = 1) ∧ (sMin1InvD s = 0 ↔ s = 1) ∧
    |sInvD s - 1 / s| ≤ 1 / 2 ^ 53 ∧ |sMin1InvD s - (s - 1) / s| ≤ 1 / 2 ^ 51 := by
  have h0 : 0 < s := by linarith
  have i0 : 0 < 1 / s := by positivity
  have i1 : 1 / s ≤ 1 := by rw [div_le_one h0]; exact hs
  have d0 : 0 ≤ s - 1 := by linarith
  have d1 : 0 ≤ (s - 1) / s := by positivity
  have d2 : (s - 1) / s ≤ 1 := by rw [div_le_one h0]; linarith
  have q0 : 0 ≤ rnd (s - 1) / s := div_nonneg (rnd_nonneg d0) h0.le
  have e1 : |rnd (s - 1) / s - (s - 1) / s| ≤ 1 / 2 ^ 53 := by
    rw [← sub_div, abs_div, abs_of_pos h0, div_le_iff₀ h0]
    have := rnd_err d0
    calc |rnd (s - 1) - (s - 1)| ≤ (s - 1) / 2 ^ 53 := this
      _ ≤ s / 2 ^ 53 := div_le_div_of_nonneg_right (by linarith) (by norm_num)
      _ = 1 / 2 ^ 53 * s := by ring
  have e2 := rnd_err q0
  have e3 := rnd_err i0.le
  unfold sInvD sMin1InvD
  refine ⟨rnd_pos i0, (rnd_mono i0.le i1).trans_eq rnd_one, rnd_nonneg q0, ?_, ?_, ?_, ?_, ?_⟩
  · by_cases hbig : s ≤ 2 ^ 53
    · -- the difference is at most the double `s`-rounded value
      have : rnd (s - 1) / s ≤ 1 := by
        rw [div_le_one h0]
        have h1 := rnd_le_mul d0
        have : (s - 1) * (1 + 1 / 2 ^ 53) ≤ s := by norm_num at hbig ⊢; linarith
        linarith
      exact (rnd_mono q0 this).trans_eq rnd_one
    · have h1 := rnd_le_mul d0
      have : rnd (s - 1) / s ≤ 1 + 1 / 2 ^ 53 := by
        rw [div_le_iff₀ h0]
        norm_num at h1 ⊢
        linarith
      have h2 := rnd_mono q0 this
      have e : rnd (1 + 1 / 2 ^ 53) = 1 := by decide +kernel
      rwa [e] at h2
  · rintro rfl; rw [div_one, rnd_one]
  · rw [rnd_eq_zero q0, div_eq_zero_iff, rnd_eq_zero d0]
    constructor
    · rintro (h | h) <;> linarith
    · intro h; left; linarith
  · refine e3.trans (div_le_div_of_nonneg_right i1 (by norm_num))
  · obtain ⟨a1, a2⟩ := abs_le.mp e1
    obtain ⟨b1, b2⟩ := abs_le.mp e2
    clear e1 e2 e3
    generalize rnd (s - 1) / s = q at *
    generalize rnd q = z at *
    generalize (s - 1) / s = y at *
    rw [abs_le]
    norm_num at a1 a2 b1 b2 ⊢
    constructor <;> linarith

/-- A larger `s` never makes `1/s` larger. -/
theorem C83_s_antitone (s s' : Rat) (hs : 1 ≤ s) (h : s ≤ s') : sInvD s' ≤ sInvD s := by
  have h0 : 0 < s := by linarith
  have h0' : 0 < s' := by linarith
  exact rnd_mono (by positivity) (one_div_le_one_div_of_le h0 h)

/-- The threshold byte of the vectorised backends, computed in doubles: in range, never increasing with `s`, between 2 and 254 updating
byte values, within 2 of `256/s`; it is the exact one or one larger. -/
theorem C83_threshold_byte (cfg : VCfg) (s : Rat) (hs : 1 ≤ s) :
    -126 ≤ gtcmpD s ∧ gtcmpD s ≤ 126 ∧ (cfg.setSD s).cmpS.toInt = gtcmpD s ∧
    (∀ s', s ≤ s' → gtcmpD s' ≤ gtcmpD s) ∧
    gtcmpForS s ≤ gtcmpD s ∧ gtcmpD s ≤ gtcmpForS s + 1 ∧
    2 ≤ updatingBytes (cfg.setSD s).cmpS.toInt ∧ updatingBytes (cfg.setSD s).cmpS.toInt ≤ 254 ∧
    256 / s - 2 ≤ (updatingBytes (cfg.setSD s).cmpS.toInt : Rat) ∧
    (updatingBytes (cfg.setSD s).cmpS.toInt : Rat) ≤ 256 / s + 2 := by
  have h0 : 0 < s := by linarith
  obtain ⟨f1, f2, f3, f4⟩ := floor_bounds s hs
  obtain ⟨g1, g2, g3⟩ := byte_bounds hs
  have fl := floor_le' (rnd (rnd (1 / s) * 255))
  have e := updatingBytes_eq (cfg.setSD s).cmpS
  have e2 : (cfg.setSD s).cmpS.toInt = gtcmpD s := toInt_gtcmpD s
  have up1 : (rnd (rnd (1 / s) * 255)).floor ≤ (1 / s * 255).floor + 1 := by
    have h255 : 255 / s ≤ 255 := by rw [div_le_iff₀ h0]; linarith
    have : ((rnd (rnd (1 / s) * 255)).floor : Rat) < ((1 / s * 255).floor : Rat) + 2 := by
      clear e e2 f1 f2 f3 g1 g2
      generalize (rnd (rnd (1 / s) * 255)).floor = k at *
      generalize (1 / s * 255).floor = j at *
      generalize rnd (rnd (1 / s) * 255) = z at *
      generalize 255 / s = y at *
      norm_num at g3
      linarith
    have : (rnd (rnd (1 / s) * 255)).floor < (1 / s * 255).floor + 2 := by exact_mod_cast this
    omega
  have mono : ∀ s', s ≤ s' → (rnd (rnd (1 / s') * 255)).floor ≤ (rnd (rnd (1 / s) * 255)).floor := fun s' h => byte_mono hs h
  have hup : ((rnd (rnd (1 / s) * 255)).floor : Rat) ≤ 256 / s := by
    have e4 : (256 : Rat) / s = 255 / s + 1 / s := by field_simp; norm_num
    have e5 : 255 / s = 255 * (1 / s) := by ring
    have e6 : 0 < 1 / s := by positivity
    rw [e4]
    rw [e5] at g3 ⊢
    generalize 1 / s = y at *
    norm_num at g3
    linarith
  rw [e2] at e ⊢
  unfold gtcmpD gtcmpForS at *
  generalize (rnd (rnd (1 / s) * 255)).floor = k at *
  generalize (1 / s * 255).floor = j at *
  generalize updatingBytes (max (-127) (min 126 (k - 127 + 1))) = n at *
  refine ⟨by omega, by omega, rfl, ?_, by omega, by omega, by omega, by omega, ?_, ?_⟩
  · intro s' h
    have := mono s' h
    omega
  · have e4 : (256 : Rat) / s = 255 / s + 1 / s := by field_simp; norm_num
    have e5 : 1 / s ≤ 1 := by rw [div_le_one h0]; exact hs
    rcases (by omega : j + 2 ≤ (n : Int) ∨ ((n : Int) = 254 ∧ 252 < k)) with h | ⟨h, -⟩
    · have : (j : Rat) + 2 ≤ (n : Rat) := by exact_mod_cast h
      linarith
    · have : (n : Rat) = 254 := by exact_mod_cast h
      have : 255 / s ≤ 255 := by rw [div_le_iff₀ h0]; linarith
      linarith
  · have hk : (n : Int) ≤ k + 2 := by omega
    have hk' : (n : Rat) ≤ (k : Rat) + 2 := by exact_mod_cast hk
    linarith

/-- Non-vacuity: `s = 3`. -/
example : sInvD 3 = 6004799503160661 / 2 ^ 54 ∧ sMin1InvD 3 = 6004799503160661 / 2 ^ 53 ∧ gtcmpD 3 = -41 ∧ gtcmpForS 3 = -41 := by
  decide +kernel

/-- Rounding does make a difference: for the double `s` closest to 255/7 the threshold is one larger than in exact arithmetic. -/
theorem C83_threshold_byte_differs : 1 ≤ rnd (255 / 7) ∧ gtcmpForS (rnd (255 / 7)) = -120 ∧ gtcmpD (rnd (255 / 7)) = -119 := by
  decide +kernel

end GT
