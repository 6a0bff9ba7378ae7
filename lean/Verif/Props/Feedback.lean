import Verif.Lemmas.Feedback

/-!
# C19, C20, C21: feedback probabilities, negative class, prediction
-/

namespace GT
open Spec

/-! ## C21 -/

/-- C21: the predicted class is the lowest-numbered class with the most votes (so it is a valid class), and
there is only one such class. -/
theorem C21_predict_lowest_max (fb : FB) (h : fb.votes ≠ []) :
    LowestMax fb.votes fb.predict ∧ ∀ k, LowestMax fb.votes k → k = fb.predict := by
  have h1 : LowestMax fb.votes fb.predict := predict_lowestMax fb h
  exact ⟨h1, fun k hk => lowestMax_unique hk h1⟩

/-- C21: the class used for the training accuracy is the same one. -/
theorem C21_process_uses_predict (smp : List Rat → Rat → Nat) (fb : FB) (label : Nat) (h : fb.votes ≠ []) :
    (fb.process smp label).correct = fb.correct + (if fb.predict = label then 1 else 0) ∧
    (fb.process smp label).total = fb.total + 1 := by
  refine ⟨?_, rfl⟩
  have : argmaxLoop fb.votes 0 0 (fb.votes.headD 0) = fb.predict := by
    cases hv : fb.votes with
    | nil => exact absurd hv h
    | cons v vs => simp [FB.predict, hv, argmaxLoop]
  simp only [FB.process, this]
  split <;> rfl

example : LowestMax [3, 7, -2, 7] 1 := by
  refine ⟨7, rfl, ?_⟩
  rintro (_ | _ | _ | _ | i) w h <;> simp at h <;> subst h <;> decide

/-! ## C19 -/

/-- C19: the positive update probability is `(T - c)/(2T)` with `c` the votes of the true class clamped to
[-T, T]; it is between 0 and 1, 0 at votes ≥ T and 1 at votes ≤ -T. -/
theorem C19_positive_probability (smp : List Rat → Rat → Nat) (fb : FB) (label : Nat)
    (hT : 1 ≤ fb.threshold) (v : Int) (hv : fb.votes[label]? = some v) (c : Rat)
    (hc : Clamped fb.threshold v c) :
    (fb.process smp label).posClass = label ∧
    (fb.process smp label).posProb = (fb.threshold - c) / (2 * fb.threshold) ∧
    0 ≤ (fb.process smp label).posProb ∧ (fb.process smp label).posProb ≤ 1 ∧
    ((fb.threshold ≤ v) → (fb.process smp label).posProb = 0) ∧
    (((v : Rat) ≤ -fb.threshold) → (fb.process smp label).posProb = 1) := by
  have hd : fb.votes.getD label 0 = v := by simp [List.getD, hv]
  have e : (fb.process smp label).posProb =
      (fb.threshold - clampT fb.threshold v) / (2 * fb.threshold) := by simp [FB.process, hv]
  have hcl := clampT_clamped fb.threshold v (by linarith)
  rw [clamped_unique hc hcl (by linarith)]
  refine ⟨rfl, e, ?_⟩
  rw [e]
  have hb := clampT_bounds fb.threshold v (by linarith)
  have h2 : 0 < 2 * fb.threshold := by linarith
  refine ⟨div_nonneg (by linarith [hb.2]) h2.le, ?_, ?_, ?_⟩
  · rw [div_le_one h2]; linarith [hb.1]
  · intro h; rw [hcl.2.1 h]; simp
  · intro h; rw [hcl.1 h, div_eq_one_iff_eq h2.ne']; ring

/-- C19: more votes for the true class never raise the positive update probability. -/
theorem C19_positive_antitone (smp : List Rat → Rat → Nat) (fb fb' : FB) (label : Nat)
    (hT : 1 ≤ fb.threshold) (hTT : fb'.threshold = fb.threshold) (v v' : Int)
    (hv : fb.votes[label]? = some v) (hv' : fb'.votes[label]? = some v') (h : v ≤ v') :
    (fb'.process smp label).posProb ≤ (fb.process smp label).posProb := by
  have e : (fb.process smp label).posProb =
      (fb.threshold - clampT fb.threshold v) / (2 * fb.threshold) := by simp [FB.process, hv]
  have e' : (fb'.process smp label).posProb =
      (fb.threshold - clampT fb.threshold v') / (2 * fb.threshold) := by simp [FB.process, hv', hTT]
  rw [e, e']
  have := clampT_mono fb.threshold h
  apply div_le_div_of_nonneg_right _ (by linarith)
  linarith

/-- C19: the negative update probability is `(T + c)/(2T) + 1e-16` with `c` the clamped votes of the sampled
class, so it lies in (0, 1 + 1e-16]. -/
theorem C19_negative_probability (smp : List Rat → Rat → Nat) (fb : FB) (label : Nat)
    (hT : 1 ≤ fb.threshold) (hne : (fb.process smp label).negClass ≠ label) (v : Int)
    (hv : fb.votes[(fb.process smp label).negClass]? = some v) (c : Rat) (hc : Clamped fb.threshold v c) :
    (fb.process smp label).negProb = (fb.threshold + c) / (2 * fb.threshold) + 1 / 10 ^ 16 ∧
    0 < (fb.process smp label).negProb ∧ (fb.process smp label).negProb ≤ 1 + 1 / 10 ^ 16 := by
  have hcl := clampT_clamped fb.threshold v (by linarith)
  rw [clamped_unique hc hcl (by linarith)]
  have e : (fb.process smp label).negProb = negWeight fb.threshold v := by
    simp only [FB.process] at hv hne ⊢
    simp [List.getD, Ne.symm hne, hv]
  have hb := negWeight_bounds fb.threshold v (by linarith)
  rw [e]
  exact ⟨rfl, hb.1, hb.2⟩

/-- C19: more votes for a class never lower the probability with which it would be updated as the negative
class. -/
theorem C19_negative_monotone (smp : List Rat → Rat → Nat) (fb fb' : FB) (label k : Nat)
    (hT : 1 ≤ fb.threshold) (hTT : fb'.threshold = fb.threshold) (v v' : Int) (hk : k ≠ label)
    (hn : (fb.process smp label).negClass = k) (hn' : (fb'.process smp label).negClass = k)
    (hv : fb.votes[k]? = some v) (hv' : fb'.votes[k]? = some v') (h : v ≤ v') :
    (fb.process smp label).negProb ≤ (fb'.process smp label).negProb := by
  have c := clampT_clamped fb.threshold v (by linarith)
  have c' := clampT_clamped fb.threshold v' (by linarith)
  rw [(C19_negative_probability smp fb label hT (by rw [hn]; exact hk) v (by rw [hn]; exact hv) _ c).1,
    (C19_negative_probability smp fb' label (by rw [hTT]; exact hT) (by rw [hn']; exact hk) v'
      (by rw [hn']; exact hv') _ (by rw [hTT]; exact c')).1, hTT]
  have := clampT_mono fb.threshold h
  gcongr

/-- C19 for the uniform feedback block: the same two formulas. -/
theorem C19_uniform (draws : Nat → Nat) (fuel k : Nat) (fb fb' : FB) (label : Nat)
    (hT : 1 ≤ fb.threshold) (h : fb.processUniform draws fuel k label = some fb') (v w : Int)
    (hv : fb.votes[label]? = some v) (hw : fb.votes[fb'.negClass]? = some w) (c d : Rat)
    (hc : Clamped fb.threshold v c) (hd : Clamped fb.threshold w d) :
    fb'.posProb = (fb.threshold - c) / (2 * fb.threshold) ∧
    fb'.negProb = (fb.threshold + d) / (2 * fb.threshold) + 1 / 10 ^ 16 := by
  rw [clamped_unique hc (clampT_clamped fb.threshold v (by linarith)) (by linarith),
    clamped_unique hd (clampT_clamped fb.threshold w (by linarith)) (by linarith)]
  unfold FB.processUniform at h
  cases hr : rejectLoop draws label fuel k with
  | none => simp [hr] at h
  | some r =>
    simp [hr] at h
    subst h
    simp only at hw
    simp [hv, hw, negWeight]

example : Clamped 10 (-3) (-3) ∧ Clamped 10 25 10 := by
  constructor <;> refine ⟨?_, ?_, ?_⟩ <;> norm_num

/-! ## C20 -/

/-- C20: with at least two classes, a valid label and a draw inside (0, 1), the sampled negative class is a
valid class other than the label. -/
theorem C20_negative_class_valid (smp : List Rat → Rat → Nat) (hs : SamplerSound smp) (fb : FB)
    (label : Nat) (hT : 1 ≤ fb.threshold) (h2 : 2 ≤ fb.votes.length) (hl : label < fb.votes.length)
    (hu : 0 < fb.rng.next.1 ∧ fb.rng.next.1 < 1) :
    (fb.process smp label).negClass < fb.votes.length ∧ (fb.process smp label).negClass ≠ label := by
  obtain ⟨w, hw, hw0⟩ := hs ((fb.votes.map (negWeight fb.threshold)).set label 0) fb.rng.next.1
    (negWeights_nonneg fb label (by linarith)) (negWeights_pos fb label (by linarith) h2) hu.1 hu.2
  have hn : (fb.process smp label).negClass =
    smp ((fb.votes.map (negWeight fb.threshold)).set label 0) fb.rng.next.1 := rfl
  rw [hn]
  generalize smp ((fb.votes.map (negWeight fb.threshold)).set label 0) fb.rng.next.1 = k at hw
  obtain ⟨hlt, -⟩ := List.getElem?_eq_some_iff.mp hw
  refine ⟨by simpa using hlt, ?_⟩
  rintro rfl
  rw [List.getElem?_set] at hw
  simp [hl] at hw
  linarith

/-- C20: every class other than the label is chosen for some draw. -/
theorem C20_every_other_class_reachable (smp : List Rat → Rat → Nat) (hs : SamplerComplete smp) (fb : FB)
    (label k : Nat) (hT : 1 ≤ fb.threshold) (hk : k < fb.votes.length) (hne : k ≠ label) :
    ∃ u, 0 < u ∧ u < 1 ∧
      ({ fb with rng := ⟨fun _ => u, 0⟩ }.process smp label).negClass = k := by
  have hw : ((fb.votes.map (negWeight fb.threshold)).set label 0)[k]? =
      some (negWeight fb.threshold fb.votes[k]) := by
    rw [List.getElem?_set]
    simp [Ne.symm hne, hk]
  obtain ⟨u, h0, h1, e⟩ := hs _ k _ (negWeights_nonneg fb label (by linarith)) hw
    (negWeight_bounds _ _ (by linarith)).1
  exact ⟨u, h0, h1, e⟩

/-- The library's sampling algorithm, in exact arithmetic, has both assumed properties. -/
theorem C20_library_sampler : SamplerSound discreteSample ∧ SamplerComplete discreteSample :=
  ⟨discreteSample_sound, discreteSample_complete⟩

/-- C20 for the uniform feedback block: whenever the rejection loop stops, the negative class is one of the
drawn classes and differs from the label; it stops exactly when some draw differs from the label. -/
theorem C20_uniform (draws : Nat → Nat) (k : Nat) (fb : FB) (label : Nat) :
    (∀ fuel fb', fb.processUniform draws fuel k label = some fb' →
      fb'.negClass ≠ label ∧ ∃ i, k ≤ i ∧ draws i = fb'.negClass) ∧
    ((∃ fuel fb', fb.processUniform draws fuel k label = some fb') ↔ ∃ i, k ≤ i ∧ draws i ≠ label) := by
  refine ⟨?_, ?_⟩
  · intro fuel fb' h
    unfold FB.processUniform at h
    cases hr : rejectLoop draws label fuel k with
    | none => simp [hr] at h
    | some r =>
      simp [hr] at h
      subst h
      exact rejectLoop_sound draws label fuel k r hr
  · constructor
    · rintro ⟨fuel, fb', h⟩
      unfold FB.processUniform at h
      cases hr : rejectLoop draws label fuel k with
      | none => simp [hr] at h
      | some r =>
        obtain ⟨h1, i, hi, e⟩ := rejectLoop_sound draws label fuel k r hr
        exact ⟨i, hi, by rw [e]; exact h1⟩
    · rintro ⟨i, hi, hne⟩
      obtain ⟨fuel, r, hr⟩ := rejectLoop_stops draws label k i hi hne
      exact ⟨fuel, _, by simp [FB.processUniform, hr]; rfl⟩

/-- C21 for the uniform feedback block: whenever it returns, it has counted the example once, and counted it as
correct exactly if the label is the lowest class with the most votes. -/
theorem C21_uniform_counts (draws : Nat → Nat) (fuel k : Nat) (fb fb' : FB) (label : Nat) (hv : fb.votes ≠ [])
    (h : fb.processUniform draws fuel k label = some fb') :
    fb'.posClass = label ∧ fb'.votes = fb.votes ∧ fb'.total = fb.total + 1 ∧
    (LowestMax fb.votes label → fb'.correct = fb.correct + 1) ∧
    (¬ LowestMax fb.votes label → fb'.correct = fb.correct) := by
  have e : argmaxLoop fb.votes.tail 1 0 (fb.votes.headD 0) = fb.predict := by
    cases h : fb.votes with
    | nil => exact absurd h hv
    | cons v vs => simp [FB.predict, h]
  have hp := predict_lowestMax fb hv
  have hiff : LowestMax fb.votes label ↔ fb.predict = label :=
    ⟨fun h => lowestMax_unique hp h, fun h => h ▸ hp⟩
  unfold FB.processUniform at h
  cases hr : rejectLoop draws label fuel k with
  | none => simp [hr] at h
  | some r =>
    simp only [hr, Option.map_some, Option.some.injEq] at h
    subst h
    refine ⟨rfl, rfl, rfl, fun h => ?_, fun h => ?_⟩
    · simp only [e, if_pos (hiff.mp h)]
    · simp only [e, if_neg (fun x => h (hiff.mpr x))]

example : (((FB.new 3 10 ⟨fun _ => 1 / 3, 0⟩).processUniform (fun i => i % 3) 5 0 0).map fun fb => (fb.correct, fb.total, fb.negClass)) =
    some (1, 1, 1) := by decide +kernel

/-- With a single class the uniform feedback block never returns, whatever is drawn. -/
theorem C20_uniform_one_class_diverges (draws : Nat → Nat) (hd : ∀ i, draws i < 1) (k fuel : Nat) (fb : FB) :
    fb.processUniform draws fuel k 0 = none := by
  have h := (C20_uniform draws k fb 0).2
  cases e : fb.processUniform draws fuel k 0 with
  | none => rfl
  | some fb' =>
    obtain ⟨i, -, hi⟩ := h.mp ⟨fuel, fb', e⟩
    have := hd i
    omega

/-- With a single class the focused feedback block takes the true class itself as the negative class
(`std::discrete_distribution` over one weight returns 0). -/
theorem C20_one_class_degenerates (fb : FB) (v : Int) (h : fb.votes = [v]) :
    (fb.process discreteSample 0).negClass = 0 ∧ (fb.process discreteSample 0).posClass = 0 := by
  refine ⟨?_, rfl⟩
  simp [FB.process, h, discreteSample, discreteLoop]

example : SamplerSound discreteSample ∧ (2 : Nat) ≤ ([5, -3, 0] : List Int).length ∧
    ((FB.new 3 10 ⟨fun _ => 1 / 3, 0⟩).process discreteSample 0).negClass = 1 := by
  refine ⟨discreteSample_sound, by decide, by decide +kernel⟩

end GT
