import Verif.Spec.PredictArray
import Verif.Props.Predictor

/-! # Predictions and the memory layout of the example (C70) -/

namespace GT
open Spec

theorem toU8_binary (d : ElemType) (v : Nat) (h : v = 0 ∨ v = 1) : toU8 d (v : Int) = v := by
  rcases h with rfl | rfl <;> cases d <;> rfl

/-- The buffer keeps its length and the inference object its number of literals. -/
theorem arrayCalls_inv (rs : Rules) (s : String) (excl : Bool) (q : ArrayPredictor)
    (hq : ArrayPredictor.fromRuleset rs s excl = .ok q) (heap : Nat → Nat) (cs : List ArrayCall) :
    (afterArrayCalls heap q cs).copy.length = rs.nLits ∧ Holds rs (afterArrayCalls heap q cs).p.inf := by
  unfold ArrayPredictor.fromRuleset at hq
  split at hq
  · simp at hq
  · next p hp =>
    obtain rfl := Except.ok.inj hq
    have hh := (fromRuleset_holds rs s excl p hp).1
    suffices hs : ∀ (cs : List ArrayCall) (q : ArrayPredictor), q.copy.length = rs.nLits ∧ Holds rs q.p.inf →
        (afterArrayCalls heap q cs).copy.length = rs.nLits ∧ Holds rs (afterArrayCalls heap q cs).p.inf from
      hs cs _ ⟨by simp, hh⟩
    intro cs
    induction cs with
    | nil => intro q h; exact h
    | cons c cs ih =>
      intro q h
      apply ih
      cases c with
      | other c =>
        refine ⟨h.1, ?_⟩
        exact afterCalls_inf (Holds rs) (fun i y h => holds_explain rs i h y) q.p [c]
          (fun i x _ h => holds_predict rs i h x) h.2
      | predict a =>
        simp only [afterArrayCall, ArrayPredictor.predict]
        split
        · exact ⟨h.1, holds_predict rs _ h.2 _⟩
        · split
          · exact h
          · next b hb =>
            refine ⟨?_, holds_predict rs _ h.2 _⟩
            unfold copyTo at hb
            split at hb
            · simp at hb
            · split at hb
              · obtain rfl := Except.ok.inj hb; simpa [*] using h.1
              · split at hb
                · obtain rfl := Except.ok.inj hb; simpa using h.1
                · simp at hb

/-- C70 for `uint8` and `bool` examples of the right length: whatever was called before and wherever and with which
step the array lies in memory, contiguous or not, the prediction and the predictor's inference object afterwards
depend on its elements only, and are those of `Verif.Model.Inference`. Missing: signed integers
(`C70_strided_int_rejected`) and wrong lengths (`C70_short_example_reads_beyond`). -/
theorem C70_layout_partial (rs : Rules) (s : String) (excl : Bool) (q : ArrayPredictor)
    (hq : ArrayPredictor.fromRuleset rs s excl = .ok q) (heap : Nat → Nat) (cs : List ArrayCall)
    (x : List Nat) (hb : Binary x) (hx : x.length = rs.nLits) (a : NpArray) (ha : HoldsExample a x)
    (hd : a.dtype = .u8 ∨ a.dtype = .bool) :
    (((afterArrayCalls heap q cs).predict heap a).2 = ((afterArrayCalls heap q cs).p.predict x).2) ∧
    (((afterArrayCalls heap q cs).predict heap a).1.p = ((afterArrayCalls heap q cs).p.predict x).1) := by
  obtain ⟨h1, h2⟩ := arrayCalls_inv rs s excl q hq heap cs
  generalize afterArrayCalls heap q cs = q' at h1 h2 ⊢
  have hn : q'.p.inf.nLits = rs.nLits := h2.lits
  obtain ⟨hl, he⟩ := ha
  have helem : (List.range a.len).map (fun i => toU8 a.dtype (a.elem i)) = x := by
    apply List.ext_getElem (by simp [hl])
    intro i hi hi'
    rw [List.getElem_map, List.getElem_range, NpArray.elem, he i x[i] (List.getElem?_eq_getElem hi')]
    exact toU8_binary _ _ (hb _ (List.getElem_mem hi'))
  unfold ArrayPredictor.predict
  by_cases hc : a.contiguous = true
  · rw [if_pos hc]
    have : bytesRead q'.p.inf.nLits heap a = x := by
      rw [hn, ← hx]
      apply List.ext_getElem (by simp [bytesRead])
      intro i hi hi'
      have hmem := he i x[i] (List.getElem?_eq_getElem hi')
      simp only [bytesRead, List.getElem_map, List.getElem_range]
      split
      · have : a.off + a.stride * i = a.off + i := by
          simp only [NpArray.contiguous, Bool.or_eq_true, decide_eq_true_eq, beq_iff_eq] at hc
          rcases hc with hc | hc
          · have : i = 0 := by omega
            subst this; simp
          · rw [hc]; simp
        rw [← this, hmem]
        exact toU8_binary _ _ (hb _ (List.getElem_mem hi'))
      · rw [if_pos (by omega), NpArray.elem, hmem]
        exact toU8_binary _ _ (hb _ (List.getElem_mem hi'))
    rw [this]
    exact ⟨rfl, rfl⟩
  · rw [if_neg hc]
    have : copyTo q'.copy a = .ok x := by
      unfold copyTo
      rw [if_neg (by rcases hd with h | h <;> simp [h]), if_pos (by omega), helem]
    rw [this]
    exact ⟨rfl, rfl⟩

/-- C70: contiguous examples of signed integers are accepted too and give the same prediction. -/
theorem C70_contiguous_int (rs : Rules) (s : String) (excl : Bool) (q : ArrayPredictor)
    (hq : ArrayPredictor.fromRuleset rs s excl = .ok q) (heap : Nat → Nat) (cs : List ArrayCall)
    (x : List Nat) (hb : Binary x) (hx : x.length = rs.nLits) (a : NpArray) (ha : HoldsExample a x)
    (hc : a.contiguous = true) :
    ((afterArrayCalls heap q cs).predict heap a).2 = ((afterArrayCalls heap q cs).p.predict x).2 := by
  by_cases hd : a.dtype = .u8 ∨ a.dtype = .bool
  · exact (C70_layout_partial rs s excl q hq heap cs x hb hx a ha hd).1
  · have hu : a.dtype ≠ .u8 := fun h => hd (Or.inl h)
    obtain ⟨h1, h2⟩ := arrayCalls_inv rs s excl q hq heap cs
    generalize afterArrayCalls heap q cs = q' at h1 h2 ⊢
    unfold ArrayPredictor.predict
    rw [if_pos hc]
    have : bytesRead q'.p.inf.nLits heap a = x := by
      rw [h2.lits, ← hx]
      apply List.ext_getElem (by simp [bytesRead])
      intro i hi hi'
      simp only [bytesRead, List.getElem_map, List.getElem_range]
      rw [if_neg hu, if_pos (by have := ha.1; omega), NpArray.elem, ha.2 i x[i] (List.getElem?_eq_getElem hi')]
      exact toU8_binary _ _ (hb _ (List.getElem_mem hi'))
    rw [this]

/-- C70 is false for signed integers: a column of an integer matrix is rejected with a TypeError, whatever it
holds; so are strided examples of a wrong length, with a ValueError. In both cases the predictor stays as it was. -/
theorem C70_strided_int_rejected (heap : Nat → Nat) (q : ArrayPredictor) (a : NpArray)
    (hc : a.contiguous = false) :
    (a.dtype = .int → q.predict heap a = (q, .error "TypeError")) ∧
    (a.dtype ≠ .int → a.len ≠ q.copy.length → q.predict heap a = (q, .error "ValueError")) := by
  have hlen : a.len ≠ 1 := by
    intro h
    simp [NpArray.contiguous, h] at hc
  constructor <;> intro h
  · simp [ArrayPredictor.predict, hc, copyTo, h]
  · intro h'
    simp [ArrayPredictor.predict, hc, copyTo, h, h', hlen]

/-- An array of the given length at address 0 of a memory. -/
def shortArray (mem : Int → Int) (n : Nat) : NpArray := ⟨.u8, mem, 0, 1, n⟩

/-- C70 is false for contiguous examples that are too short: two such arrays with the same elements get different
predictions, because the bytes behind them are read too. -/
theorem C70_short_example_reads_beyond :
    ∃ (rs : Rules) (q : ArrayPredictor) (a b : NpArray) (heap : Nat → Nat), RulesOK rs ∧
      ArrayPredictor.fromRuleset rs "none" false = .ok q ∧ HoldsExample a [1] ∧ HoldsExample b [1] ∧
      a.dtype = b.dtype ∧ a.off = b.off ∧ a.stride = b.stride ∧
      (q.predict heap a).2 = .ok (.idx 0) ∧ (q.predict heap b).2 = .ok (.idx 1) := by
  have hh : ∀ mem : Int → Int, mem 0 = 1 → HoldsExample (shortArray mem 1) [1] := by
    intro mem h
    refine ⟨rfl, ?_⟩
    intro i v hv
    cases i with
    | zero => simp at hv; subst hv; simpa [shortArray] using h
    | succ i => simp at hv
  refine ⟨exRules, _, shortArray (fun i => if i = 0 then 1 else 0) 1, shortArray (fun _ => 1) 1, fun _ => 0,
    exRules_ok, rfl, hh _ (by simp), hh _ rfl, rfl, rfl, rfl, by decide +kernel, by decide +kernel⟩

/-- Every second byte of a memory, read backwards, as an example of two literals. -/
example : ∃ (q : ArrayPredictor) (a : NpArray), ArrayPredictor.fromRuleset exRules "literals" false = .ok q ∧
    HoldsExample a [1, 0] ∧ a.contiguous = false ∧ (a.dtype = .u8 ∨ a.dtype = .bool) ∧
    ((afterArrayCalls (fun _ => 0) q [.predict a, .other .explainAll]).predict (fun _ => 0) a).2 = .ok (.idx 0) := by
  refine ⟨_, ⟨.u8, fun i => if i = 2 then 1 else 0, 2, -2, 2⟩, rfl, ⟨rfl, ?_⟩, rfl, Or.inl rfl, by decide +kernel⟩
  intro i v hv
  match i, hv with
  | 0, hv => simp at hv; subst hv; rfl
  | 1, hv => simp at hv; subst hv; rfl
  | i + 2, hv => simp at hv

end GT
