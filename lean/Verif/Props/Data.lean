import Verif.Spec.Data

/-! # Setting a trainer's data (C34) -/

namespace GT
open Spec

theorem checkKinds_ok (held : Option XVal) (sparse : Bool) (x : XVal) :
    checkKinds held sparse x = .ok () ↔ Consistent held sparse x := by
  unfold checkKinds Consistent
  rcases held with _ | (_ | _ | _) <;> cases x <;> cases sparse <;> simp [XVal.isNd, XVal.isCsr]

theorem checkKinds_err (held : Option XVal) (sparse : Bool) (x : XVal) (e : PyErr)
    (h : checkKinds held sparse x = .error e) : ¬ Consistent held sparse x := by
  intro hc
  rw [(checkKinds_ok held sparse x).mpr hc] at h
  cases h

/-- The checks after the kinds, as one condition. -/
theorem rest_ok (nLits : Int) (x cx : XVal) (y cy : NArr)
    (hx : cx.dtype = x.dtype ∧ cx.dim 1 = x.dim 1) (hy : cy.dtype = y.dtype) (n k : Nat) (rest : List Nat)
    (hn : x.dim 0 = .ok n) (hk : (atleast1d y).shape = k :: rest) :
    (n = k ∧ checkTypes nLits cx cy = .ok ()) ↔ ∃ rows, Examples nLits rows x ∧ Labels rows y := by
  have hlab : y.shape.head?.getD 1 = k := by
    unfold atleast1d at hk
    split at hk
    · rename_i h; simp [h] at hk ⊢; exact hk.1
    · rw [hk]; rfl
  unfold checkTypes
  rw [hx.1, hx.2, hy]
  cases x with
  | other => simp [XVal.dim] at hn
  | ndarray a =>
    simp only [XVal.dim, XVal.dtype, Examples, Labels, hlab] at hn ⊢
    rcases hs : a.shape with _ | ⟨r, _ | ⟨c, q⟩⟩
    · simp [hs] at hn
    · simp [hs] at hn ⊢; grind
    · simp [hs] at hn ⊢; grind
  | csr d r c b =>
    simp [XVal.dim, XVal.dtype, Examples, Labels, hlab] at hn ⊢; grind

theorem xcopy_facts (x : XVal) (h : Heap) : (x.copy h).2.dtype = x.dtype ∧ (x.copy h).2.dim 1 = x.dim 1 := by
  cases x <;> exact ⟨rfl, rfl⟩

theorem atleast1d_dtype (y : NArr) : (atleast1d y).dtype = y.dtype := by
  unfold atleast1d; split <;> rfl

theorem atleast1d_cons (y : NArr) : ∃ k rest, (atleast1d y).shape = k :: rest := by
  unfold atleast1d
  split
  · exact ⟨1, [], rfl⟩
  · rename_i h
    exact List.exists_cons_of_ne_nil h

theorem examples_dim (nLits : Int) (rows : Nat) (x : XVal) (h : Examples nLits rows x) : x.dim 0 = .ok rows := by
  cases x with
  | other => exact h.elim
  | ndarray a => obtain ⟨-, c, q, hs, -⟩ := h; simp [XVal.dim, hs]
  | csr d r c b => obtain ⟨-, hs, -⟩ := h; simp [XVal.dim, hs]

/-- C34: `set_train_data` accepts exactly the good data. -/
theorem C34_train_accepts_iff (nLits : Int) (sparse : Bool) (t : TData) (h : Heap) (x : XVal) (y : NArr) :
    (t.setTrain nLits sparse h x y).1 = .ok () ↔ Good nLits sparse t.xEval x y := by
  unfold TData.setTrain Good
  rcases hk : checkKinds t.xEval sparse x with e | u
  · simp [checkKinds_err _ _ _ _ hk]
  have hc := (checkKinds_ok t.xEval sparse x).mp hk
  obtain ⟨k, rest, hy⟩ := atleast1d_cons y
  rcases hn : x.dim 0 with e | n
  · simp only [hc, true_and]
    refine ⟨fun h => (by cases h), ?_⟩
    rintro ⟨rows, hr, -⟩
    rw [examples_dim _ _ _ hr] at hn; cases hn
  · simp only [hc, true_and, hy]
    rw [← rest_ok nLits x (if t.copyTraining then x.copy h else (h, x)).2 y
      (if t.copyTraining then (atleast1d y).copy (if t.copyTraining then x.copy h else (h, x)).1
        else ((if t.copyTraining then x.copy h else (h, x)).1, atleast1d y)).2
      (by cases t.copyTraining <;> simp [xcopy_facts])
      (by cases t.copyTraining <;> simp [NArr.copy, atleast1d_dtype]) n k rest hn hy]
    by_cases hnk : n = k
    · simp only [hnk, ne_eq, not_true_eq_false, if_false, true_and]
      split <;> simp_all
    · simp [hnk]

/-- C34: `set_eval_data` accepts exactly the good data. -/
theorem C34_eval_accepts_iff (nLits : Int) (sparse : Bool) (t : TData) (h : Heap) (x : XVal) (y : NArr) :
    (t.setEval nLits sparse h x y).1 = .ok () ↔ Good nLits sparse t.xTrain x y := by
  unfold TData.setEval Good
  rcases hk : checkKinds t.xTrain sparse x with e | u
  · simp [checkKinds_err _ _ _ _ hk]
  have hc := (checkKinds_ok t.xTrain sparse x).mp hk
  obtain ⟨k, rest, hy⟩ := atleast1d_cons y
  rcases hn : x.dim 0 with e | n
  · simp only [hc, true_and]
    refine ⟨fun h => (by cases h), ?_⟩
    rintro ⟨rows, hr, -⟩
    rw [examples_dim _ _ _ hr] at hn; cases hn
  · simp only [hc, true_and, hy]
    rw [← rest_ok nLits x (x.copy h).2 y ((atleast1d y).copy (x.copy h).1).2 (xcopy_facts x h)
      (by simp [NArr.copy, atleast1d_dtype]) n k rest hn hy]
    by_cases hnk : n = k
    · simp only [hnk, ne_eq, not_true_eq_false, if_false, true_and]
      split <;> simp_all
    · simp [hnk]

/-- C34: a rejected call leaves the trainer's data as it was, and writes no buffer that existed. -/
theorem C34_rejected_unchanged (nLits : Int) (sparse : Bool) (t : TData) (h : Heap) (x : XVal) (y : NArr) :
    ((t.setTrain nLits sparse h x y).1 ≠ .ok () → (t.setTrain nLits sparse h x y).2.1 = t) ∧
    ((t.setEval nLits sparse h x y).1 ≠ .ok () → (t.setEval nLits sparse h x y).2.1 = t) ∧
    (∀ b, b < h.next → (t.setTrain nLits sparse h x y).2.2.mem b = h.mem b ∧
      (t.setEval nLits sparse h x y).2.2.mem b = h.mem b) := by
  have hcx : ∀ (h : Heap) (b : Nat), b < h.next → (x.copy h).1.mem b = h.mem b ∧ h.next ≤ (x.copy h).1.next := by
    intro h b hb
    cases x <;> simp [XVal.copy, NArr.copy, Heap.dup] <;> omega
  have hcy : ∀ (y : NArr) (h : Heap) (b : Nat), b < h.next → (y.copy h).1.mem b = h.mem b := by
    intro y h b hb
    simp [NArr.copy, Heap.dup]; omega
  refine ⟨?_, ?_, ?_⟩
  · unfold TData.setTrain; grind
  · unfold TData.setEval; grind
  · intro b hb
    have h1 := hcx h b hb
    have h2 := hcy (atleast1d y) (x.copy h).1 b (by omega)
    constructor
    · unfold TData.setTrain; grind
    · unfold TData.setEval; grind

/-- C34: accepted data is what the trainer then holds — same kind, dtype, shape and elements — beside the other
data set, which is untouched. -/
theorem C34_accepted_is_held (nLits : Int) (sparse : Bool) (t : TData) (h : Heap) (x : XVal) (y : NArr)
    (hb : ∀ b ∈ xBuf x, b < h.next) (hy : y.buf < h.next) :
    (∀ t' h', t.setTrain nLits sparse h x y = (.ok (), t', h') →
      ∃ x' y', t' = { t with xTrain := some x', yTrain := some y' } ∧
        content h' x' = content h x ∧ labelContent h' y' = labelContent h y) ∧
    (∀ t' h', t.setEval nLits sparse h x y = (.ok (), t', h') →
      ∃ x' y', t' = { t with xEval := some x', yEval := some y' } ∧
        content h' x' = content h x ∧ labelContent h' y' = labelContent h y) := by
  have hlc : ∀ h, labelContent h (atleast1d y) = labelContent h y := by
    intro h
    unfold atleast1d labelContent
    split <;> simp
  have hbuf : (atleast1d y).buf = y.buf := by unfold atleast1d; split <;> rfl
  have hcopy : ∀ (y : NArr) (h : Heap), labelContent (y.copy h).1 (y.copy h).2 = labelContent h y := by
    intro y h
    by_cases hs : y.shape = [] <;> simp [labelContent, NArr.copy, Heap.dup, hs]
  have hboth : content ((atleast1d y).copy (x.copy h).1).1 (x.copy h).2 = content h x ∧
      labelContent ((atleast1d y).copy (x.copy h).1).1 ((atleast1d y).copy (x.copy h).1).2 = labelContent h y := by
    rw [hcopy, hlc]
    constructor
    · cases x <;> simp [content, XVal.copy, NArr.copy, Heap.dup]
    · cases x <;> simp [labelContent, XVal.copy, NArr.copy, Heap.dup] <;> omega
  constructor
  · intro t' h' ht
    unfold TData.setTrain at ht
    cases hcp : t.copyTraining <;> simp only [hcp, Bool.false_eq_true, if_false, if_true] at ht
    · refine ⟨x, atleast1d y, ?_⟩
      have : labelContent h' (atleast1d y) = labelContent h' y := hlc h'
      grind
    · refine ⟨(x.copy h).2, ((atleast1d y).copy (x.copy h).1).2, ?_⟩
      grind
  · intro t' h' ht
    unfold TData.setEval at ht
    refine ⟨(x.copy h).2, ((atleast1d y).copy (x.copy h).1).2, ?_⟩
    grind

/-- C34: copied data does not follow later writes of the caller to the arrays passed: evaluation data always, and
training data with `copy_training_data`. -/
theorem C34_copied_data_is_private (nLits : Int) (sparse : Bool) (t : TData) (h : Heap) (x : XVal) (y : NArr)
    (b : Nat) (hb : b < h.next) (v : List Int) :
    (t.copyTraining = true → ∀ t' h', t.setTrain nLits sparse h x y = (.ok (), t', h') → ∃ x' y',
      t'.xTrain = some x' ∧ t'.yTrain = some y' ∧ content (h'.write b v) x' = content h' x' ∧
      labelContent (h'.write b v) y' = labelContent h' y') ∧
    (∀ t' h', t.setEval nLits sparse h x y = (.ok (), t', h') → ∃ x' y',
      t'.xEval = some x' ∧ t'.yEval = some y' ∧ content (h'.write b v) x' = content h' x' ∧
      labelContent (h'.write b v) y' = labelContent h' y') := by
  have hx : ∀ h', content (h'.write b v) (x.copy h).2 = content h' (x.copy h).2 := by
    intro h'
    cases x <;> simp [content, XVal.copy, NArr.copy, Heap.dup, Heap.write] <;> omega
  have hle : h.next ≤ (x.copy h).1.next := by
    cases x <;> simp [XVal.copy, NArr.copy, Heap.dup]
  have hy : ∀ h', labelContent (h'.write b v) ((atleast1d y).copy (x.copy h).1).2 =
      labelContent h' ((atleast1d y).copy (x.copy h).1).2 := by
    intro h'
    simp [labelContent, NArr.copy, Heap.dup, Heap.write]; omega
  constructor
  · intro hcp t' h' ht
    unfold TData.setTrain at ht
    simp only [hcp, if_true] at ht
    refine ⟨(x.copy h).2, ((atleast1d y).copy (x.copy h).1).2, ?_⟩
    grind
  · intro t' h' ht
    unfold TData.setEval at ht
    refine ⟨(x.copy h).2, ((atleast1d y).copy (x.copy h).1).2, ?_⟩
    grind

/-! A trainer for four literals, three examples, labels 0, 1, 0. -/
def exHeap : Heap := ⟨2, fun b => if b = 0 then [1, 0, 1, 0, 0, 0, 1, 1, 1, 1, 0, 0] else [0, 1, 9]⟩
def exData : TData := ⟨true, none, none, none, none⟩
def exX : XVal := .ndarray ⟨.uint8, [3, 4], 0⟩
def exY : NArr := ⟨.uint32, [3], 1⟩

example : Good 4 false none exX exY :=
  ⟨⟨by simp, by simp⟩, 3, ⟨rfl, 4, [], rfl, rfl⟩, rfl, rfl⟩

example : (exData.setTrain 4 false exHeap exX exY).1 = .ok () := rfl

/-- Rejected: int64 labels; sparse evaluation data beside dense training data. -/
example : (exData.setTrain 4 false exHeap exX { exY with dtype := .int64 }).1 = .error .valueError ∧
    ((exData.setTrain 4 false exHeap exX exY).2.1.setEval 4 false exHeap (.csr .uint8 3 4 0) exY).1 = .error .valueError :=
  ⟨rfl, rfl⟩

/-- Without `copy_training_data` the trainer follows writes to the caller's array. -/
example : ∃ t' h' x', ({ exData with copyTraining := false }).setTrain 4 false exHeap exX exY = (.ok (), t', h') ∧
    t'.xTrain = some x' ∧ content (h'.write 0 []) x' ≠ content h' x' :=
  ⟨_, _, exX, rfl, rfl, by decide⟩

/-- Rejections are not all `ValueError`: one-dimensional examples are an `IndexError`, and something that is not an
array is an `AttributeError`. -/
theorem C34_other_errors :
    (exData.setTrain 4 false exHeap (.ndarray ⟨.uint8, [3], 0⟩) exY).1 = .error .indexError ∧
    (exData.setTrain 4 false exHeap .other exY).1 = .error .attributeError := ⟨rfl, rfl⟩

/-- The values are not looked at: a label that is no class of the machine (9, whatever the number of classes) and
examples that are not 0 or 1 are accepted. -/
theorem C34_values_not_checked :
    ∃ (h : Heap) (x : XVal) (y : NArr), 9 ∈ h.mem y.buf ∧ (∃ b, xBuf x = some b ∧ 7 ∈ h.mem b) ∧
      (exData.setTrain 2 false h x y).1 = .ok () :=
  ⟨⟨2, fun b => if b = 0 then [7, 0] else [9]⟩, .ndarray ⟨.uint8, [1, 2], 0⟩, ⟨.uint32, [1], 1⟩,
    by decide, ⟨0, rfl, by decide⟩, rfl⟩

end GT
