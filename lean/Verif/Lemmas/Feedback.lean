import Verif.Spec.Feedback
import Mathlib.Algebra.Order.Field.Rat
import Mathlib.Algebra.Order.BigOperators.Group.List
import Mathlib.Tactic.Linarith
import Mathlib.Tactic.FieldSimp
import Mathlib.Tactic.Positivity
import Mathlib.Tactic.Ring
import Mathlib.Tactic.GCongr

/-! # Helper lemmas about feedback blocks -/

namespace GT
open Spec

/-! ### Argmax -/

/-- `pre` is what was scanned so far, `bk` its lowest maximum. -/
theorem argmaxLoop_spec (vs pre : List Int) (bk : Nat) (bv : Int)
    (hb : pre[bk]? = some bv)
    (hm : ∀ (i : Nat) (w : Int), pre[i]? = some w → w ≤ bv ∧ (i < bk → w < bv)) :
    LowestMax (pre ++ vs) (argmaxLoop vs pre.length bk bv) := by
  induction vs generalizing pre bk bv with
  | nil => rw [argmaxLoop]; simp only [List.append_nil]; exact ⟨bv, hb, hm⟩
  | cons v vs ih =>
    rw [argmaxLoop]
    have hlen : bk < pre.length := (List.getElem?_eq_some_iff.mp hb).1
    have e : pre ++ v :: vs = (pre ++ [v]) ++ vs := by simp
    have el : (pre ++ [v]).length = pre.length + 1 := by simp
    split
    · rename_i hgt
      rw [e, ← el]
      apply ih
      · simp
      · intro i w hw
        rw [List.getElem?_append] at hw
        split at hw
        · rename_i hi
          have := (hm i w hw).1
          exact ⟨by omega, fun _ => by omega⟩
        · rename_i hi
          have : i = pre.length ∧ w = v := by
            rw [List.getElem?_singleton] at hw
            split at hw <;> simp at hw
            exact ⟨by omega, hw.symm⟩
          obtain ⟨rfl, rfl⟩ := this
          exact ⟨by omega, fun h => by omega⟩
    · rename_i hle
      rw [e, ← el]
      apply ih
      · rw [List.getElem?_append_left hlen]; exact hb
      · intro i w hw
        rw [List.getElem?_append] at hw
        split at hw
        · exact hm i w hw
        · rename_i hi
          have : i = pre.length ∧ w = v := by
            rw [List.getElem?_singleton] at hw
            split at hw <;> simp at hw
            exact ⟨by omega, hw.symm⟩
          obtain ⟨rfl, rfl⟩ := this
          exact ⟨by omega, fun h => by omega⟩

theorem predict_lowestMax (fb : FB) (h : fb.votes ≠ []) : LowestMax fb.votes fb.predict := by
  unfold FB.predict
  cases hv : fb.votes with
  | nil => exact absurd hv h
  | cons v vs =>
    have := argmaxLoop_spec vs [v] 0 v rfl (by
      intro i w hw
      rw [List.getElem?_singleton] at hw
      split at hw <;> simp at hw
      subst hw
      exact ⟨by omega, by omega⟩)
    simpa using this

theorem lowestMax_unique {votes : List Int} {k k' : Nat} (h : LowestMax votes k) (h' : LowestMax votes k') :
    k = k' := by
  obtain ⟨v, hv, hm⟩ := h
  obtain ⟨v', hv', hm'⟩ := h'
  have a := hm k' v' hv'
  have b := hm' k v hv
  rcases Nat.lt_trichotomy k k' with h | h | h
  · have := b.2 h; omega
  · exact h
  · have := a.2 h; omega

/-! ### Clamping -/

theorem clampT_clamped (T : Rat) (v : Int) (hT : 0 ≤ T) : Clamped T v (clampT T v) := by
  unfold clampT
  refine ⟨fun h => ?_, fun h => ?_, fun h1 h2 => ?_⟩
  · rw [min_eq_right (by linarith), max_eq_left h]
  · rw [min_eq_left h, max_eq_right (by linarith)]
  · rw [min_eq_right h2, max_eq_right h1]

theorem clamped_unique {T : Rat} {v : Int} {c d : Rat} (hc : Clamped T v c) (hd : Clamped T v d)
    (_hT : 0 ≤ T) : c = d := by
  rcases le_total (v : Rat) (-T) with h | h
  · rw [hc.1 h, hd.1 h]
  · rcases le_total (v : Rat) T with h2 | h2
    · rw [hc.2.2 h h2, hd.2.2 h h2]
    · rw [hc.2.1 h2, hd.2.1 h2]

theorem clampT_bounds (T : Rat) (v : Int) (hT : 0 ≤ T) : -T ≤ clampT T v ∧ clampT T v ≤ T := by
  unfold clampT
  exact ⟨le_max_left _ _, max_le (by linarith) (min_le_left _ _)⟩

theorem clampT_mono (T : Rat) {v v' : Int} (h : v ≤ v') : clampT T v ≤ clampT T v' := by
  unfold clampT
  have : (v : Rat) ≤ v' := by exact_mod_cast h
  exact max_le_max le_rfl (min_le_min le_rfl this)

theorem negWeight_bounds (T : Rat) (v : Int) (hT : 0 < T) :
    0 < negWeight T v ∧ negWeight T v ≤ 1 + 1 / 10 ^ 16 := by
  unfold negWeight
  have hb := clampT_bounds T v hT.le
  have h2 : 0 < 2 * T := by linarith
  have a : 0 ≤ (T + clampT T v) / (2 * T) := div_nonneg (by linarith [hb.1]) h2.le
  have b : (T + clampT T v) / (2 * T) ≤ 1 := by rw [div_le_one h2]; linarith [hb.2]
  have c : (0 : Rat) < 1 / 10 ^ 16 := by norm_num
  constructor <;> linarith

theorem negWeights_nonneg (fb : FB) (label : Nat) (hT : 0 < fb.threshold) :
    ∀ w ∈ (fb.votes.map (negWeight fb.threshold)).set label 0, 0 ≤ w := by
  intro w hw
  rcases List.mem_or_eq_of_mem_set hw with h | h
  · obtain ⟨v, -, rfl⟩ := List.mem_map.mp h
    exact (negWeight_bounds _ _ hT).1.le
  · exact h.ge

theorem negWeights_pos (fb : FB) (label : Nat) (hT : 0 < fb.threshold) (h2 : 2 ≤ fb.votes.length) :
    ∃ w ∈ (fb.votes.map (negWeight fb.threshold)).set label 0, 0 < w := by
  obtain ⟨k, hk, hne⟩ : ∃ k, k < fb.votes.length ∧ k ≠ label := by
    by_cases h : label = 0
    · exact ⟨1, by omega, by omega⟩
    · exact ⟨0, by omega, Ne.symm h⟩
  have hw : ((fb.votes.map (negWeight fb.threshold)).set label 0)[k]? =
      some (negWeight fb.threshold fb.votes[k]) := by
    rw [List.getElem?_set]
    simp [Ne.symm hne, hk]
  exact ⟨_, List.mem_of_getElem? hw, (negWeight_bounds _ _ hT).1⟩

/-! ### Sampling -/

theorem discreteLoop_sound (ws : List Rat) (t : Rat) (k : Nat) (ht : 0 < t) (hs : t ≤ ws.sum) :
    ∃ i w, discreteLoop ws t k = k + i ∧ ws[i]? = some w ∧ 0 < w := by
  induction ws generalizing t k with
  | nil => simp at hs; linarith
  | cons a ws ih =>
    rw [discreteLoop]
    split
    · rename_i h; exact ⟨0, a, by simp, by simp, by linarith⟩
    · rename_i h
      push Not at h
      obtain ⟨i, w, e, hw, h0⟩ := ih (t - a) (k + 1) (by linarith) (by simp at hs; linarith)
      exact ⟨i + 1, w, by rw [e]; omega, by simpa using hw, h0⟩

theorem discreteSample_sound : SamplerSound discreteSample := by
  intro ws u hn hp h0 h1
  have hsum : 0 < ws.sum := by
    obtain ⟨w, hw, hw0⟩ := hp
    exact lt_of_lt_of_le hw0 (List.single_le_sum hn w hw)
  obtain ⟨i, w, e, hw, hw0⟩ := discreteLoop_sound ws (u * ws.sum) 0 (by positivity)
    (by nlinarith)
  exact ⟨w, by unfold discreteSample; rw [e]; simpa using hw, hw0⟩

theorem discreteLoop_hit (ws : List Rat) (hn : ∀ w ∈ ws, 0 ≤ w) (i : Nat) (w : Rat)
    (hw : ws[i]? = some w) (t : Rat) (k : Nat) (h1 : (ws.take i).sum < t)
    (h2 : t ≤ (ws.take i).sum + w) : discreteLoop ws t k = k + i := by
  induction ws generalizing i t k with
  | nil => simp at hw
  | cons a ws ih =>
    rw [discreteLoop]
    cases i with
    | zero =>
      simp at hw h1 h2
      subst hw
      rw [if_pos h2]; simp
    | succ i =>
      simp only [List.take_succ_cons, List.sum_cons] at h1 h2
      have hpos : 0 ≤ (ws.take i).sum :=
        List.sum_nonneg fun w hw => hn w (List.mem_cons_of_mem _ (List.mem_of_mem_take hw))
      rw [if_neg (by linarith), ih (fun w hw => hn w (List.mem_cons_of_mem _ hw)) i (by simpa using hw)
        (t - a) (k + 1) (by linarith) (by linarith)]
      omega

theorem discreteSample_complete : SamplerComplete discreteSample := by
  intro ws i w hn hw h0
  have hmem := List.mem_of_getElem? hw
  have hsum : 0 < ws.sum := lt_of_lt_of_le h0 (List.single_le_sum hn w hmem)
  have hpre : 0 ≤ (ws.take i).sum := List.sum_nonneg fun w hw => hn w (List.mem_of_mem_take hw)
  have htot : (ws.take i).sum + w ≤ ws.sum := by
    have e : ws.sum = (ws.take i).sum + (ws.drop i).sum := by rw [← List.sum_append, List.take_append_drop]
    obtain ⟨hlt, hw'⟩ := List.getElem?_eq_some_iff.mp hw
    have e2 : ws.drop i = w :: ws.drop (i + 1) := by rw [List.drop_eq_getElem_cons hlt, hw']
    have h3 : 0 ≤ (ws.drop (i + 1)).sum := List.sum_nonneg fun w hw => hn w (List.mem_of_mem_drop hw)
    rw [e, e2, List.sum_cons]; linarith
  refine ⟨((ws.take i).sum + w / 2) / ws.sum, by positivity, ?_, ?_⟩
  · rw [div_lt_one hsum]; linarith
  · unfold discreteSample
    rw [div_mul_cancel₀ _ hsum.ne', discreteLoop_hit ws hn i w hw _ 0 (by linarith) (by linarith)]
    simp

theorem rejectLoop_sound (draws : Nat → Nat) (pos fuel k : Nat) (r : Nat × Nat)
    (h : rejectLoop draws pos fuel k = some r) : r.1 ≠ pos ∧ ∃ i, k ≤ i ∧ draws i = r.1 := by
  induction fuel generalizing k with
  | zero => simp [rejectLoop] at h
  | succ f ih =>
    rw [rejectLoop] at h
    split at h
    · obtain ⟨a, i, hi, e⟩ := ih (k + 1) h
      exact ⟨a, i, by omega, e⟩
    · rename_i hne
      simp at h; subst h
      exact ⟨hne, k, Nat.le_refl _, rfl⟩

theorem rejectLoop_stops (draws : Nat → Nat) (pos k i : Nat) (hi : k ≤ i) (hne : draws i ≠ pos) :
    ∃ fuel r, rejectLoop draws pos fuel k = some r := by
  obtain ⟨d, rfl⟩ := Nat.exists_eq_add_of_le hi
  induction d generalizing k with
  | zero => exact ⟨1, (draws k, k + 1), by rw [rejectLoop, if_neg (by simpa using hne)]⟩
  | succ d ih =>
    by_cases h : draws k = pos
    · obtain ⟨f, r, e⟩ := ih (k + 1) (by omega) (by rwa [show k + 1 + d = k + (d + 1) by omega])
      exact ⟨f + 1, r, by rw [rejectLoop, if_pos h, e]⟩
    · exact ⟨1, (draws k, k + 1), by rw [rejectLoop, if_neg h]⟩

end GT
