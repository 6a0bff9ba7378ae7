import Verif.Spec.Multi
import Verif.Lemmas.Feedback
import Verif.Lemmas.Executor

/-! # Lemmas about multi-label mode -/

namespace GT

open Spec

theorem tally_aux (bvs : List (List Int)) (fb : FB) (n : Nat) (hn : fb.nClasses = n)
    (hl : fb.votes.length = 2 * n) (hb : ∀ v ∈ bvs, v.length = 2 * n) (a : Nat → Int)
    (ha : ∀ i, i < n → fb.votes[i]? = some (wrap16 (a i))) :
    (∀ i, i < n → (bvs.foldl FB.register fb).votes[i]? =
      some (wrap16 (a i + (bvs.map (·.getD i 0)).sum))) ∧
    (∀ i, n ≤ i → (bvs.foldl FB.register fb).votes[i]? = fb.votes[i]?) ∧
    (bvs.foldl FB.register fb).votes.length = 2 * n ∧ (bvs.foldl FB.register fb).nClasses = n ∧
    (bvs.foldl FB.register fb).threshold = fb.threshold := by
  induction bvs generalizing fb a with
  | nil => exact ⟨by simpa using ha, fun _ _ => rfl, hl, hn, rfl⟩
  | cons v vs ih =>
    have hv : v.length = 2 * n := hb v (by simp)
    have hlr := register_length fb v (by omega) (by omega)
    have hg := fun k => register_get fb v (by omega) (by omega) k
    obtain ⟨i1, i2, i3, i4, i5⟩ := ih (fb.register v) hn (by omega) (fun w hw => hb w (by simp [hw]))
      (fun i => a i + v.getD i 0) (by
        intro i hi
        rw [hg i, if_pos (by omega)]
        have : fb.votes.getD i 0 = wrap16 (a i) := by simp [List.getD, ha i hi]
        rw [this, wrap16_add_wrap16])
    simp only [List.foldl_cons]
    refine ⟨?_, ?_, i3, i4, i5⟩
    · intro i hi
      rw [i1 i hi]
      simp only [List.map_cons, List.sum_cons]
      congr 2; omega
    · intro i hi
      rw [i2 i hi, hg i, if_neg (by omega)]

/-- What the feedback block of a multi-label run always satisfies. -/
structure MultiFB (n : Nat) (fb : FB) : Prop where
  classes : fb.nClasses = n
  votes   : fb.votes.length = 2 * n

theorem newMulti_multiFB (n : Nat) (T : Rat) (rng : Rng) : MultiFB n (FB.newMulti n T rng) :=
  ⟨rfl, by simp [FB.newMulti]; omega⟩

theorem tally_spec (fb : FB) (n : Nat) (h : MultiFB n fb) (bvs : List (List Int))
    (hb : ∀ v ∈ bvs, v.length = 2 * n) :
    (∀ i, i < n → (fb.tally bvs).votes[i]? = some (blockSum bvs i)) ∧
    (∀ i, i < n → (fb.tally bvs).votes[n + i]? = some 0) ∧ MultiFB n (fb.tally bvs) ∧
    (fb.tally bvs).threshold = fb.threshold := by
  have hr : fb.reset.votes = List.replicate (2 * n) 0 := by simp [FB.reset, h.votes]
  obtain ⟨a1, a2, a3, a4, a5⟩ := tally_aux bvs fb.reset n h.classes (by rw [hr]; simp) hb (fun _ => 0) (by
    intro i hi
    rw [hr, List.getElem?_replicate, if_pos (by omega), wrap16_zero])
  refine ⟨?_, ?_, ⟨a4, a3⟩, a5⟩
  · intro i hi
    have := a1 i hi
    simpa [FB.tally, blockSum] using this
  · intro i hi
    have := a2 (n + i) (by omega)
    rw [hr, List.getElem?_replicate, if_pos (by omega)] at this
    simpa [FB.tally] using this

/-- Number of labels that agree with the prediction. -/
theorem multiAccLoop_spec (votes : List Int) (n : Nat) (ls : List Nat) (k : Nat) (r : Nat × Nat) :
    (multiAccLoop votes n ls k r).2 = r.2 + ls.length ∧
    (multiAccLoop votes n ls k r).1 = r.1 + (ls.zipIdx k).countP (fun p =>
      decide (p.1 = 1 ↔ votes.getD p.2 0 ≥ votes.getD (p.2 + n) 0)) := by
  induction ls generalizing k r with
  | nil => simp [multiAccLoop]
  | cons l ls ih =>
    rw [multiAccLoop]
    obtain ⟨h1, h2⟩ := ih (k + 1) (if (if l = 1 then (votes.getD k 0 ≥ votes.getD (k + n) 0 : Bool)
      else (votes.getD k 0 < votes.getD (k + n) 0 : Bool)) then r.1 + 1 else r.1, r.2 + 1)
    refine ⟨by rw [h1]; simp; omega, ?_⟩
    rw [h2, List.zipIdx_cons, List.countP_cons]
    generalize votes.getD k 0 = a
    generalize votes.getD (k + n) 0 = b
    by_cases hl : l = 1 <;> by_cases hab : a ≥ b
    · simp [hl, hab]; omega
    · have : a < b := by omega
      simp [hl, hab]
    · have : ¬ a < b := by omega
      simp [hl, hab]
    · have : a < b := by omega
      simp [hl, this, Int.not_le.2 this]; omega

theorem clampT_zero (T : Rat) (hT : 0 < T) : clampT T 0 = 0 := by
  have := clampT_clamped T 0 hT.le
  exact this.2.2 (by push_cast; linarith) (by push_cast; linarith)

end GT
