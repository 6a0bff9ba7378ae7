import Verif.Spec.Config

/-! Helper lemmas for `Verif.Props.Config`. -/

namespace GT
open Spec

theorem checkSizes_none (l : List Int) : checkSizes l = none ↔ ∀ k ∈ l, 1 ≤ k := by
  unfold checkSizes
  split
  · rename_i h
    simp only [List.any_eq_true, decide_eq_true_eq] at h
    obtain ⟨k, hk, h1⟩ := h
    simp only [reduceCtorEq, false_iff]
    intro h
    have := h k hk
    omega
  · rename_i h
    simp only [List.any_eq_true, decide_eq_true_eq, not_exists, not_and] at h
    simp only [true_iff]
    intro k hk
    have := h k hk
    omega

theorem sum_replicate_int (n : Nat) (a : Int) : (List.replicate n a).sum = n * a := by
  induction n with
  | zero => simp
  | succ n ih => simp [List.replicate_succ, ih, Int.add_mul]; omega

theorem cycle_next_get {α : Type} (all : List α) (k : Nat) (h : all ≠ []) :
    ∃ a, all[k % all.length]? = some a ∧
      Cycle.next ⟨all, all.drop (k % all.length)⟩ = some (a, ⟨all, all.drop (k % all.length + 1)⟩) := by
  have hl : 0 < all.length := List.length_pos_iff.mpr h
  have hk := Nat.mod_lt k hl
  refine ⟨all[k % all.length], List.getElem?_eq_getElem hk, ?_⟩
  rw [Cycle.next]
  simp only [List.drop_eq_getElem_cons hk]

/-- A cycle iterator positioned after `k` calls of `next`: either at the position `k mod n`, or at the
end of a pass. -/
def CycleAt {α : Type} (c : Cycle α) (all : List α) (k : Nat) : Prop :=
  c.all = all ∧ (c.rest = all.drop (k % all.length) ∨ (c.rest = [] ∧ k % all.length = 0))

theorem cycleAt_next {α : Type} (c : Cycle α) (all : List α) (k : Nat) (h : all ≠ [])
    (hc : CycleAt c all k) :
    ∃ a c', c.next = some (a, c') ∧ all[k % all.length]? = some a ∧ CycleAt c' all (k + 1) := by
  have hl : 0 < all.length := List.length_pos_iff.mpr h
  obtain ⟨h1, h2⟩ := hc
  obtain ⟨a, ha, e⟩ := cycle_next_get all k h
  have key : CycleAt (⟨all, all.drop (k % all.length + 1)⟩ : Cycle α) all (k + 1) := by
    refine ⟨rfl, ?_⟩
    by_cases hk : k % all.length + 1 = all.length
    · right
      refine ⟨by simp [hk], ?_⟩
      rw [Nat.add_mod]
      by_cases h1 : all.length = 1
      · simp [h1, Nat.mod_one]
      · rw [Nat.mod_eq_of_lt (a := 1) (by omega), hk, Nat.mod_self]
    · left
      have : (k + 1) % all.length = k % all.length + 1 := by
        have := Nat.mod_lt k hl
        rw [Nat.add_mod]
        by_cases h1 : all.length = 1
        · omega
        · rw [Nat.mod_eq_of_lt (a := 1) (by omega), Nat.mod_eq_of_lt (by omega)]
      rw [this]
  refine ⟨a, _, ?_, ha, key⟩
  rcases c with ⟨call, crest⟩
  simp only at h1 h2
  subst h1
  rcases h2 with h2 | ⟨h2, h3⟩
  · rw [h2]; exact e
  · subst h2
    match call, h with
    | x :: xs, _ =>
      rw [h3] at ha ⊢
      simp [Cycle.next] at ha ⊢
      exact ha

theorem buildBlocks_get (tm : TM) (u : Bool) (sizes : List Int) (flags : List Bool)
    (hf : flags.length = sizes.length) (hs : tm.s ≠ []) (hb : tm.budgets ≠ []) (m : Nat)
    (cs : Cycle Rat) (cb : Cycle (Option Int)) (h1 : CycleAt cs tm.s m) (h2 : CycleAt cb tm.budgets m) :
    (buildBlocks tm u cs cb sizes flags).length = sizes.length ∧
    ∀ k (n : Int), sizes[k]? = some n → ∃ s b, tm.s[(m + k) % tm.s.length]? = some s ∧
      tm.budgets[(m + k) % tm.budgets.length]? = some b ∧
      (buildBlocks tm u cs cb sizes flags)[k]? = some
        { nLiterals := tm.nLiterals, nClauses := n, nClasses := tm.nClasses, s := s,
          budget := if u then b else none } := by
  induction sizes generalizing flags m cs cb with
  | nil => simp [buildBlocks]
  | cons n ns ih =>
    match flags, hf with
    | f :: fs, hf =>
      obtain ⟨s, cs', e1, g1, i1⟩ := cycleAt_next cs tm.s m hs h1
      obtain ⟨b, cb', e2, g2, i2⟩ := cycleAt_next cb tm.budgets m hb h2
      obtain ⟨l, g⟩ := ih fs (by simpa using hf) (m + 1) cs' cb' i1 i2
      simp only [buildBlocks, e1, e2]
      refine ⟨by simp [l], ?_⟩
      intro k n' hk
      cases k with
      | zero => simp at hk; subst hk; exact ⟨s, b, g1, g2, by simp⟩
      | succ k =>
        obtain ⟨s', b', h1, h2, h3⟩ := g k n' (by simpa using hk)
        exact ⟨s', b', by rw [← h1]; congr 2; omega, by rw [← h2]; congr 2; omega, by simpa using h3⟩

theorem initEvents_eq (i n : Nat) (seed : Int) :
    initEvents i n seed = (List.range n).map (fun k => AllocEvent.init (i + k) (seed + k)) := by
  induction n generalizing i seed with
  | zero => simp [initEvents]
  | succ n ih =>
    rw [initEvents, ih, List.range_succ_eq_map]
    simp only [List.map_cons, List.map_map]
    congr 1
    · simp
    · apply List.map_congr_left
      intro k _
      simp only [Function.comp, AllocEvent.init.injEq]
      omega

end GT
