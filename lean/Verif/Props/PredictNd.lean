import Verif.Spec.PredictNd
import Verif.Props.PredictArray

/-!
# Predictions for arrays of any shape and element type (C94)

Full statement: `predict(x)` answers with the prediction for the example that the elements of `x` spell in order, when there are
`n_literals` of them and each is 0 or 1, and raises an error otherwise, leaving the predictor as it was; shape, element type and
layout do not matter.

Proved: contiguous arrays of any shape and type with the right number of elements; strided `uint8` and `bool` rows. Missing because
the code does not do it: larger contiguous arrays (a batch of examples, say) are answered for their first `n_literals` elements,
fractions are cut off, strided arrays of other types and strided columns raise errors although they spell an example.
-/

namespace GT
open Spec

namespace Nd

theorem addrs_length : ∀ (ds : List (Nat × Int)) (o : Int), (ndAddrs ds o).length = ndSize ds
  | [], _ => rfl
  | d :: ds, o => by
    simp only [ndAddrs, ndSize, List.length_flatMap, addrs_length ds]
    simp

theorem flatMap_blocks (k : Nat) (o : Int) : ∀ n : Nat,
    (List.range n).flatMap (fun (i : Nat) => (List.range k).map fun (j : Nat) => o + (k : Int) * i + j) =
      (List.range (n * k)).map fun (j : Nat) => o + j
  | 0 => by simp
  | n + 1 => by
    rw [List.range_succ, List.flatMap_append, flatMap_blocks k o n, Nat.succ_mul, List.range_add, List.map_append]
    congr 1
    simp only [List.flatMap_cons, List.flatMap_nil, List.append_nil, List.map_map]
    refine List.map_congr_left fun j _ => ?_
    simp only [Function.comp_apply]
    push_cast
    rw [Int.mul_comm (k : Int) n]
    omega

theorem addrs_contiguous : ∀ (ds : List (Nat × Int)) (o : Int), ndSteps ds = true →
    ndAddrs ds o = (List.range (ndSize ds)).map fun (j : Nat) => o + j
  | [], o, _ => by simp [ndAddrs, ndSize]
  | d :: ds, o, h => by
    simp only [ndSteps, Bool.and_eq_true, Bool.or_eq_true, beq_iff_eq] at h
    obtain ⟨h1, h2⟩ := h
    simp only [ndAddrs, ndSize]
    have e : ∀ i ∈ List.range d.1, ndAddrs ds (o + d.2 * (i : Nat)) =
        (List.range (ndSize ds)).map fun (j : Nat) => o + (ndSize ds : Int) * i + j := by
      intro i hi
      rw [addrs_contiguous ds _ h1]
      rcases h2 with h2 | h2
      · have : i = 0 := by have := List.mem_range.mp hi; omega
        subst this
        simp
      · rw [h2]
    rw [List.flatMap_congr e]
    exact flatMap_blocks (ndSize ds) o d.1

theorem toU8Nd_binary (d : NdType) (v : Nat) (h : v = 0 ∨ v = 1) : toU8Nd d (v : Rat) = v := by
  rcases h with rfl | rfl <;> cases d <;> decide +kernel

/-- The buffer keeps its length and the inference object its number of literals. -/
theorem calls_inv (rs : Rules) (s : String) (excl : Bool) (q : ArrayPredictor)
    (hq : ArrayPredictor.fromRuleset rs s excl = .ok q) (heap : Nat → Nat) (cs : List NdCall) :
    (afterNdCalls heap q cs).copy.length = rs.nLits ∧ Holds rs (afterNdCalls heap q cs).p.inf := by
  have h0 := arrayCalls_inv rs s excl q hq heap []
  change q.copy.length = rs.nLits ∧ Holds rs q.p.inf at h0
  clear hq
  induction cs generalizing q with
  | nil => exact h0
  | cons c cs ih =>
    apply ih
    cases c with
    | other c =>
      exact ⟨h0.1, afterCalls_inf (Holds rs) (fun i y h => holds_explain rs i h y) q.p [c] (fun i x _ h => holds_predict rs i h x) h0.2⟩
    | predict a =>
      simp only [afterNdCall, ArrayPredictor.predictNd]
      split
      · exact ⟨h0.1, holds_predict rs _ h0.2 _⟩
      · next hc =>
        split
        · exact h0
        · next b hb =>
          refine ⟨?_, holds_predict rs _ h0.2 _⟩
          unfold copyToNd at hb
          split at hb
          · simp at hb
          · split at hb
            · obtain rfl := Except.ok.inj hb; simpa using h0.1
            · next d hd =>
              split at hb
              · next hlen =>
                obtain rfl := Except.ok.inj hb
                have hs : ∀ ds : List (Nat × Int), stripOnes ds = [d] → ndSize ds = d.1 := by
                  intro ds
                  induction ds with
                  | nil => intro h; simp [stripOnes] at h
                  | cons e ds ih2 =>
                    cases ds with
                    | nil =>
                      intro h
                      simp only [stripOnes, List.cons.injEq, and_true] at h
                      subst h
                      simp [ndSize]
                    | cons f ds =>
                      intro h
                      simp only [stripOnes] at h
                      split at h
                      · next h1 => rw [ndSize, ih2 h, h1, Nat.one_mul]
                      · simp at h
                simp only [NdArray.elems, List.length_map, addrs_length, hs _ hd]
                show d.1 = rs.nLits
                rw [hlen]
                exact h0.1
              · split at hb
                · obtain rfl := Except.ok.inj hb; simpa using h0.1
                · simp at hb
            · simp at hb

theorem stripOnes_row (d : Nat × Int) : ∀ ones : List (Nat × Int), (∀ o ∈ ones, o.1 = 1) → stripOnes (ones ++ [d]) = [d]
  | [], _ => rfl
  | [o], h => by
    simp [stripOnes, h o (by simp)]
  | o :: p :: ones, h => by
    have := stripOnes_row d (p :: ones) (fun q hq => h q (by simp [hq]))
    simp only [List.cons_append] at this ⊢
    simp only [stripOnes, h o (by simp), if_true]
    exact this

theorem stripOnes_single (d : Nat × Int) : ∀ ds : List (Nat × Int), stripOnes ds = [d] →
    ∃ ones, ds = ones ++ [d] ∧ ∀ o ∈ ones, o.1 = 1
  | [], h => by simp [stripOnes] at h
  | [e], h => ⟨[], by simpa [stripOnes] using h, by simp⟩
  | e :: f :: ds, h => by
    simp only [stripOnes] at h
    split at h
    · next h1 =>
      obtain ⟨ones, h2, h3⟩ := stripOnes_single d (f :: ds) h
      refine ⟨e :: ones, by rw [h2]; rfl, ?_⟩
      intro o ho
      rcases List.mem_cons.mp ho with rfl | ho
      · exact h1
      · exact h3 o ho
    · simp at h

theorem size_row (d : Nat × Int) : ∀ ones : List (Nat × Int), (∀ o ∈ ones, o.1 = 1) → ndSize (ones ++ [d]) = d.1
  | [], _ => by simp [ndSize]
  | o :: ones, h => by
    rw [List.cons_append, ndSize, size_row d ones (fun q hq => h q (by simp [hq])), h o (by simp), Nat.one_mul]

theorem steps_row (d : Nat × Int) : ∀ ones : List (Nat × Int), (∀ o ∈ ones, o.1 = 1) → d.1 = 1 → ndSteps (ones ++ [d]) = true
  | [], _, h => by simp [ndSteps, h]
  | o :: ones, h, hd => by
    rw [List.cons_append, ndSteps, steps_row d ones (fun q hq => h q (by simp [hq])) hd]
    simp [h o (by simp)]

theorem stripOnes_nil : ∀ ds : List (Nat × Int), stripOnes ds = [] → ds = []
  | [], _ => rfl
  | [e], h => by simp [stripOnes] at h
  | e :: f :: ds, h => by
    simp only [stripOnes] at h
    split at h
    · exact absurd (stripOnes_nil (f :: ds) h) (by simp)
    · simp at h

end Nd

/-- C94 for contiguous arrays of any shape, element type and place in memory, after any history: if the elements begin with an
example, the prediction is the one for that example. The property asks for this when nothing follows the example; that the rest is
not looked at is the defect `C94_batch_first_row`. -/
theorem C94_contiguous_partial (rs : Rules) (s : String) (excl : Bool) (q : ArrayPredictor)
    (hq : ArrayPredictor.fromRuleset rs s excl = .ok q) (heap : Nat → Nat) (cs : List NdCall)
    (x : List Nat) (hb : Binary x) (hx : x.length = rs.nLits) (a : NdArray) (ha : BeginsWith a x) (hc : a.contiguous = true) :
    (((afterNdCalls heap q cs).predictNd heap a).2 = ((afterNdCalls heap q cs).p.predict x).2) ∧
    (((afterNdCalls heap q cs).predictNd heap a).1.p = ((afterNdCalls heap q cs).p.predict x).1) := by
  obtain ⟨h1, h2⟩ := Nd.calls_inv rs s excl q hq heap cs
  generalize afterNdCalls heap q cs = q' at h1 h2 ⊢
  obtain ⟨rest, ha⟩ := ha
  have hel : ∀ i (hi : i < x.length), a.elems[i]? = some (x[i] : Rat) := by
    intro i hi
    rw [ha, List.getElem?_append_left (by simpa using hi)]
    simp [hi]
  have : bytesReadNd q'.p.inf.nLits heap a = x := by
    rw [h2.lits, ← hx]
    apply List.ext_getElem (by simp [bytesReadNd])
    intro i hi hi'
    have hbin : toU8Nd a.dtype (x[i] : Rat) = x[i] := Nd.toU8Nd_binary _ _ (hb _ (List.getElem_mem hi'))
    simp only [bytesReadNd, List.getElem_map, List.getElem_range]
    split
    · next hd =>
      have hst : ndSteps a.dims = true := by
        simp only [NdArray.contiguous, Bool.or_eq_true, beq_iff_eq] at hc
        rcases hc with hc | hc
        · have hl : a.elems.length = 0 := by rw [NdArray.elems, List.length_map, Nd.addrs_length, hc]
          have := hel i hi'
          rw [List.length_eq_zero_iff.mp hl] at this
          simp at this
        · exact hc
      have he := hel i hi'
      rw [NdArray.elems, Nd.addrs_contiguous _ _ hst, List.map_map, List.getElem?_map] at he
      obtain ⟨j, hj, hv⟩ := Option.map_eq_some_iff.mp he
      obtain ⟨hj1, hj2⟩ := List.getElem?_eq_some_iff.mp hj
      rw [List.getElem_range] at hj2
      subst hj2
      simp only [Function.comp_apply] at hv
      rw [hv, ← hd]
      exact hbin
    · rw [List.getElem?_map, hel i hi']
      exact hbin
  simp only [ArrayPredictor.predictNd, if_pos hc, this]
  exact ⟨trivial, trivial⟩

/-- C94 for strided `uint8` and `bool` rows, after any history. -/
theorem C94_strided_row_partial (rs : Rules) (s : String) (excl : Bool) (q : ArrayPredictor)
    (hq : ArrayPredictor.fromRuleset rs s excl = .ok q) (heap : Nat → Nat) (cs : List NdCall)
    (x : List Nat) (hb : Binary x) (hx : x.length = rs.nLits) (a : NdArray) (ha : Spells a x) (hr : IsRow a)
    (hd : a.dtype = .u8 ∨ a.dtype = .bool) :
    (((afterNdCalls heap q cs).predictNd heap a).2 = ((afterNdCalls heap q cs).p.predict x).2) ∧
    (((afterNdCalls heap q cs).predictNd heap a).1.p = ((afterNdCalls heap q cs).p.predict x).1) := by
  by_cases hc : a.contiguous = true
  · exact C94_contiguous_partial rs s excl q hq heap cs x hb hx a ⟨[], by rw [List.append_nil]; exact ha⟩ hc
  obtain ⟨h1, h2⟩ := Nd.calls_inv rs s excl q hq heap cs
  generalize afterNdCalls heap q cs = q' at h1 h2 ⊢
  obtain ⟨ones, d, hdims, hones⟩ := hr
  have hlen : d.1 = q'.copy.length := by
    have : a.elems.length = x.length := by rw [ha, List.length_map]
    rw [NdArray.elems, List.length_map, Nd.addrs_length, hdims, Nd.size_row d ones hones] at this
    omega
  have : copyToNd q'.copy a = .ok x := by
    unfold copyToNd
    rw [if_neg (by rcases hd with h | h <;> simp [h]), hdims, Nd.stripOnes_row d ones hones]
    simp only [if_pos hlen]
    refine congrArg Except.ok ?_
    rw [ha, List.map_map]
    conv_rhs => rw [← List.map_id x]
    exact List.map_congr_left fun v hv => Nd.toU8Nd_binary _ _ (hb v hv)
  simp only [ArrayPredictor.predictNd, if_neg hc, this]
  exact ⟨trivial, trivial⟩

/-- C94: exactly which strided arrays are refused, and that a refusal changes nothing. Signed and floating-point ones are refused
whatever they hold, and arrays that are not rows of the right length whatever their number of elements. -/
theorem C94_strided_refused (heap : Nat → Nat) (q : ArrayPredictor) (a : NdArray) (hc : a.contiguous = false) :
    (a.dtype = .int ∨ a.dtype = .flt → q.predictNd heap a = (q, .error "TypeError")) ∧
    (¬ (a.dtype = .int ∨ a.dtype = .flt) → ¬ (IsRow a ∧ ndSize a.dims = q.copy.length) → q.predictNd heap a = (q, .error "ValueError")) := by
  constructor
  · intro h
    simp [ArrayPredictor.predictNd, hc, copyToNd, h]
  · intro h hr
    have : copyToNd q.copy a = .error "ValueError" := by
      unfold copyToNd
      rw [if_neg h]
      split
      · next hs =>
        have := Nd.stripOnes_nil _ hs
        simp [NdArray.contiguous, this, ndSteps] at hc
      · next d hs =>
        obtain ⟨ones, h1, h2⟩ := Nd.stripOnes_single d _ hs
        rw [if_neg, if_neg]
        · intro h1'
          rw [NdArray.contiguous, h1, Nd.steps_row d ones h2 h1'] at hc
          simp at hc
        · intro hl
          refine hr ⟨⟨ones, d, h1, h2⟩, ?_⟩
          rw [h1, Nd.size_row d ones h2, hl]
      · rfl
    simp [ArrayPredictor.predictNd, hc, this]

/-- On one-dimensional arrays of integers this is the model of C70. -/
theorem C94_one_dimensional (heap : Nat → Nat) (q : ArrayPredictor) (a : NpArray) :
    q.predictNd heap (asNd a) = q.predict heap a := by
  have hcont : (asNd a).contiguous = a.contiguous := by
    simp only [NdArray.contiguous, asNd, ndSize, ndSteps, NpArray.contiguous, Nat.mul_one, Bool.true_and, Nat.cast_one]
    by_cases h : a.len ≤ 1
    · have : a.len = 0 ∨ a.len = 1 := by omega
      rcases this with h | h <;> simp [h]
    · have h0 : a.len ≠ 0 := by omega
      have h1 : a.len ≠ 1 := by omega
      have e0 : (a.len == 0) = false := by simpa using h0
      have e1 : (a.len == 1) = false := by simpa using h1
      simp [h, e0, e1]
  have hel : (asNd a).elems = (List.range a.len).map fun i => ((a.elem i : Int) : Rat) := by
    simp only [NdArray.elems, asNd, ndAddrs, NpArray.elem, List.map_flatMap, List.map_cons, List.map_nil]
    induction List.range a.len with
    | nil => rfl
    | cons i l ih => rw [List.flatMap_cons, ih]; rfl
  have hfl : ∀ v : Int, ((if 0 ≤ (v : Rat) then (v : Rat).floor else -((-(v : Rat)).floor)) % 256).toNat = (v % 256).toNat := by
    intro v
    split
    · rw [Rat.floor_intCast]
    · rw [← Int.cast_neg, Rat.floor_intCast, Int.neg_neg]
  have hconv : ∀ v : Int, toU8Nd (asNd a).dtype (v : Rat) = toU8 a.dtype v := by
    intro v
    cases hd : a.dtype <;> simp only [asNd, hd, toU8Nd, toU8, hfl]
    simp
  have hbytes : bytesReadNd q.p.inf.nLits heap (asNd a) = bytesRead q.p.inf.nLits heap a := by
    unfold bytesReadNd bytesRead
    refine List.map_congr_left fun i _ => ?_
    have hu : (asNd a).dtype = .u8 ↔ a.dtype = .u8 := by cases hd : a.dtype <;> simp [asNd, hd]
    by_cases h : a.dtype = .u8
    · rw [if_pos (hu.mpr h), if_pos h]
      show toU8Nd .u8 ((a.mem (a.off + i) : Int) : Rat) = _
      have := hconv (a.mem (a.off + i))
      rw [hu.mpr h, h] at this
      exact this
    · rw [if_neg (fun c => h (hu.mp c)), if_neg h, hel, List.map_map]
      by_cases hi : i < a.len
      · rw [if_pos hi, List.getElem?_map, List.getElem?_range hi]
        exact hconv _
      · rw [if_neg hi, List.getElem?_map, List.getElem?_eq_none (by simpa using hi)]
        rfl
  have hcopy : (asNd a).contiguous = false → copyToNd q.copy (asNd a) = copyTo q.copy a := by
    intro _
    unfold copyToNd copyTo
    have hi : ((asNd a).dtype = .int ∨ (asNd a).dtype = .flt) ↔ a.dtype = .int := by cases hd : a.dtype <;> simp [asNd, hd]
    by_cases h : a.dtype = .int
    · rw [if_pos (hi.mpr h), if_pos h]
    · rw [if_neg (fun c => h (hi.mp c)), if_neg h]
      show (if a.len = q.copy.length then _ else if a.len = 1 then _ else _) = _
      rw [hel, List.map_map]
      refine ite_congr rfl (fun _ => ?_) fun _ => ite_congr rfl (fun _ => ?_) fun _ => rfl
      · exact congrArg _ (List.map_congr_left fun i _ => hconv _)
      · refine congrArg _ (List.map_congr_left fun i _ => ?_)
        have e : a.elem 0 = a.mem a.off := by simp [NpArray.elem]
        rw [e]
        exact hconv (a.mem a.off)
  unfold ArrayPredictor.predictNd ArrayPredictor.predict
  rw [hcont, hbytes]
  split
  · rfl
  · next h =>
    rw [hcopy (by rw [hcont]; simpa using h)]
    cases copyTo q.copy a <;> rfl

/-- **C94 fails for batches**: a matrix with one example per row is answered, without an error, with the prediction for its first
row alone; the matrix below has rows of different classes. -/
theorem C94_batch_first_row :
    ∃ (q : ArrayPredictor) (a : NdArray), ArrayPredictor.fromRuleset exRules "none" false = .ok q ∧
      a.dtype = .u8 ∧ a.contiguous = true ∧ a.dims.map (·.1) = [2, 2] ∧ a.elems = [1, 0, 1, 1] ∧
      (q.predictNd (fun _ => 0) a).2 = .ok (.idx 0) ∧ (q.p.predict [1, 0]).2 = .ok (.idx 0) ∧ (q.p.predict [1, 1]).2 = .ok (.idx 1) := by
  exact ⟨_, ⟨.u8, fun i => if i = 1 then 0 else 1, 0, [(2, 2), (2, 1)]⟩, rfl, rfl, rfl, rfl, by decide +kernel, by decide +kernel,
    by decide +kernel, by decide +kernel⟩

/-- **C94 fails for fractions**: they are cut off without an error, so 0.9 counts as 0. -/
theorem C94_fraction_is_zero :
    ∃ (q : ArrayPredictor) (a : NdArray), ArrayPredictor.fromRuleset exRules "none" false = .ok q ∧
      a.dtype = .flt ∧ a.contiguous = true ∧ a.elems = [1, 9 / 10] ∧
      (q.predictNd (fun _ => 0) a).2 = (q.p.predict [1, 0]).2 ∧ (q.p.predict [1, 0]).2 ≠ (q.p.predict [1, 1]).2 := by
  exact ⟨_, ⟨.flt, fun i => if i = 1 then 9 / 10 else 1, 0, [(2, 1)]⟩, rfl, rfl, rfl, by decide +kernel, by decide +kernel,
    by decide +kernel⟩

/-- **C94 fails for strided columns**: a column of a matrix, kept as a matrix, spells an example and is refused. -/
theorem C94_column_refused :
    ∃ (q : ArrayPredictor) (a : NdArray), ArrayPredictor.fromRuleset exRules "none" false = .ok q ∧ a.dtype = .u8 ∧
      Spells a [1, 0] ∧ (q.predictNd (fun _ => 0) a).2 = .error "ValueError" ∧ (q.p.predict [1, 0]).2 = .ok (.idx 0) := by
  exact ⟨_, ⟨.u8, fun i => if i = 0 then 1 else 0, 0, [(2, 3), (1, 1)]⟩, rfl, rfl, by unfold Spells; decide +kernel, by decide +kernel,
    by decide +kernel⟩

/-- A float example of shape (1, 2), and every third byte of a memory as a row of shape (1, 1, 2). -/
example : ∃ (a b : NdArray), BeginsWith a [1, 0] ∧ a.contiguous = true ∧ a.dtype = .flt ∧
    Spells b [1, 0] ∧ IsRow b ∧ b.contiguous = false ∧ b.dtype = .bool := by
  refine ⟨⟨.flt, fun i => if i = 7 then 1 else 0, 7, [(1, 55), (2, 1)]⟩, ⟨.bool, fun i => if i = 2 then 1 else 0, 2, [(1, 9), (1, 4), (2, 3)]⟩,
    ⟨[], by decide +kernel⟩, rfl, rfl, by unfold Spells; decide +kernel, ⟨[(1, 9), (1, 4)], (2, 3), rfl, by simp⟩, by decide +kernel, rfl⟩

end GT
