import Verif.Spec.PaceVotes
import Verif.Props.Pace
import Verif.Props.ConvExec
import Verif.Props.SparseExec

/-!
# C106: predictions by the true vote sums, for convolutional and sparse machines

A machine starts with weights between `-bound` and `bound`. While its number of clauses times (`bound` + examples trained on) is at most 32767, every
prediction is made by the true sums of the votes.
-/

namespace GT
open Spec

/-- The weights of any of the clauses add up to at most their number times the bound. -/
theorem Pace.filter_sum_le {C : Type} (w : C → List Int) (p : C → Bool) (bound k : Nat) : ∀ (cls : List C), WeightsWithin bound (cls.map w) →
    (((cls.filter p).map fun c => (w c).getD k 0).sum).natAbs ≤ cls.length * bound := by
  intro cls
  induction cls with
  | nil => intro _; simp
  | cons c cls ih =>
    intro h
    have h1 := ih (fun r hr => h r (List.mem_cons_of_mem _ hr))
    have h2 : ((w c).getD k 0).natAbs ≤ bound := by
      rw [List.getD_eq_getElem?_getD]
      cases hk : (w c)[k]? with
      | none => simp
      | some v => exact h (w c) (by simp) v (List.mem_of_getElem? hk)
    simp only [List.length_cons, Nat.add_mul, Nat.one_mul, List.filter_cons]
    split
    · simp only [List.map_cons, List.sum_cons]; omega
    · omega

theorem Pace.wrap_sum {C : Type} (w : C → List Int) (p : C → Bool) (bound k : Nat) (cls : List C) (h : WeightsWithin bound (cls.map w))
    (hs : cls.length * bound ≤ 32767) :
    wrap16 ((cls.filter p).map fun c => (w c).getD k 0).sum = ((cls.filter p).map fun c => (w c).getD k 0).sum := by
  have := Pace.filter_sum_le w p bound k cls h
  exact Pace.wrap16_small (by omega) (by omega)

/-- C106, part, for portable convolutional machines. Missing: longer training, for which this is false of dense machines (`C106_overflow`). -/
theorem C106_conv_votes_partial (m np n bound : Nat) (e : Exec ConvBlock) (h : Ready n (ConvBlockOK m np n) e)
    (hw : WeightsWithin bound (e.blocks.flatMap convWeightsOf)) (smp : List Rat → Rat → Nat) (us : List (TMUse (List Nat)))
    (hs : (e.blocks.flatMap (·.clauses)).length * (bound + examplesShown us) ≤ 32767) (hb : bound + examplesShown us ≤ 32767)
    (data : List (List Nat)) (hx : ∀ x ∈ data, Binary x ∧ x.length = np * m) :
    ∃ ks, (Exec.evalPredict convBackend data data.length (afterUses convBackend smp us e)).2 = some ks ∧ ks.length = data.length ∧
      ∀ (i : Nat) (x : List Nat) (k : Nat), data[i]? = some x → ks[i]? = some k →
        LowestMax (trueConvVotes m np n (convModel (afterUses convBackend smp us e)) x) k := by
  have hmv := Pace.clauses_forall₂ convWeightsOf (C106_conv e smp us)
  have hw' := C106_bound_grows _ _ _ _ hmv hw hb
  have rows : ∀ e : Exec ConvBlock, ((convModel e).map fun c => c.2.2) = e.blocks.flatMap convWeightsOf := by
    intro e
    simp only [convModel, List.map_flatMap, List.map_map]
    rfl
  have hlen : (convModel (afterUses convBackend smp us e)).length = (e.blocks.flatMap (·.clauses)).length := by
    have h1 := hmv.length_eq
    rw [← rows, ← rows, List.length_map, List.length_map] at h1
    rw [← h1]
    simp [convModel, List.length_flatMap]
  obtain ⟨ks, a, b, c⟩ := C17_conv_batch_predictions m np n _ data (Pace.after_ready (CE.conv_keeps m np n) smp us e h) hx
  refine ⟨ks, a, b, fun i x k hi hk => ?_⟩
  have := c i x k hi hk
  rwa [show convModelVotes m np n (convModel (afterUses convBackend smp us e)) x =
      trueConvVotes m np n (convModel (afterUses convBackend smp us e)) x from
    List.map_congr_left fun k _ => by
      unfold convFiringSum
      exact Pace.wrap_sum (fun c : List Int × List Int × List Int => c.2.2) _ _ k _ (by rw [rows]; exact hw') (by rw [hlen]; exact hs)] at this

/-- C106, part, for AVX2 convolutional machines. -/
theorem C106_avx2_conv_votes_partial (m np n bound : Nat) (e : Exec VConvBlock) (h : Ready n (AvxConvBlockOK m np n) e)
    (hw : WeightsWithin bound (e.blocks.flatMap avxConvWeightsOf)) (smp : List Rat → Rat → Nat) (us : List (TMUse Mem))
    (hs : (e.blocks.flatMap (·.clauses)).length * (bound + examplesShown us) ≤ 32767) (hb : bound + examplesShown us ≤ 32767)
    (data : List Mem) (hx : ∀ x ∈ data, Binary (unpadExample (np * m) x)) :
    ∃ ks, (Exec.evalPredict avxConvBackend data data.length (afterUses avxConvBackend smp us e)).2 = some ks ∧ ks.length = data.length ∧
      ∀ (i : Nat) (x : Mem) (k : Nat), data[i]? = some x → ks[i]? = some k →
        LowestMax (trueConvVotes m np n (avxConvModel (afterUses avxConvBackend smp us e)) (unpadExample (np * m) x)) k := by
  have hmv := Pace.clauses_forall₂ avxConvWeightsOf (C106_avx2_conv e smp us)
  have hw' := C106_bound_grows _ _ _ _ hmv hw hb
  have rows : ∀ e : Exec VConvBlock, ((avxConvModel e).map fun c => c.2.2) = e.blocks.flatMap avxConvWeightsOf := by
    intro e
    simp only [avxConvModel, List.map_flatMap, List.map_map]
    rfl
  have hlen : (avxConvModel (afterUses avxConvBackend smp us e)).length = (e.blocks.flatMap (·.clauses)).length := by
    have h1 := hmv.length_eq
    rw [← rows, ← rows, List.length_map, List.length_map] at h1
    rw [← h1]
    simp [avxConvModel, List.length_flatMap]
  obtain ⟨ks, a, b, c⟩ := C17_avx2_conv_batch_predictions m np n _ data (Pace.after_ready (CE.avxConv_keeps m np n) smp us e h) hx
  refine ⟨ks, a, b, fun i x k hi hk => ?_⟩
  have := c i x k hi hk
  rwa [show convModelVotes m np n (avxConvModel (afterUses avxConvBackend smp us e)) (unpadExample (np * m) x) =
      trueConvVotes m np n (avxConvModel (afterUses avxConvBackend smp us e)) (unpadExample (np * m) x) from
    List.map_congr_left fun k _ => by
      unfold convFiringSum
      exact Pace.wrap_sum (fun c : List Int × List Int × List Int => c.2.2) _ _ k _ (by rw [rows]; exact hw') (by rw [hlen]; exact hs)] at this

/-- C106, part, for sparse machines, predicting for sorted examples; the examples trained on may be anything. -/
theorem C106_sparse_votes_partial (n bound : Nat) (e : Exec SBlock) (h : SSetUp n e)
    (hw : WeightsWithin bound (e.blocks.flatMap sparseWeightsOf)) (smp : List Rat → Rat → Nat) (us : List (TMUse (List Nat)))
    (hs : (e.blocks.flatMap (·.clauses)).length * (bound + examplesShown us) ≤ 32767) (hb : bound + examplesShown us ≤ 32767)
    (data : List (List Nat)) (hx : ∀ x ∈ data, SortedEx x) :
    ∃ ks, (Exec.evalPredict sparseBackend data data.length (afterUses sparseBackend smp us e)).2 = some ks ∧ ks.length = data.length ∧
      ∀ (i : Nat) (x : List Nat) (k : Nat), data[i]? = some x → ks[i]? = some k →
        LowestMax (trueSparseVotes n (sModel (afterUses sparseBackend smp us e)) x) k := by
  have hmv := Pace.clauses_forall₂ sparseWeightsOf (C106_sparse e smp us)
  have hw' := C106_bound_grows _ _ _ _ hmv hw hb
  have rows : ∀ e : Exec SBlock, ((sModel e).map fun c => c.2.2) = e.blocks.flatMap sparseWeightsOf := by
    intro e
    simp only [sModel, List.map_flatMap, List.map_map]
    rfl
  have hlen : (sModel (afterUses sparseBackend smp us e)).length = (e.blocks.flatMap (·.clauses)).length := by
    have h1 := hmv.length_eq
    rw [← rows, ← rows, List.length_map, List.length_map] at h1
    rw [← h1]
    simp [sModel, List.length_flatMap]
  obtain ⟨ks, a, b, c⟩ := C17_sparse_batch_predictions n _ data (Pace.after_ready (sparse_keeps n) smp us e h) hx
  refine ⟨ks, a, b, fun i x k hi hk => ?_⟩
  have := c i x k hi hk
  rwa [show sModelVotes n (sModel (afterUses sparseBackend smp us e)) x = trueSparseVotes n (sModel (afterUses sparseBackend smp us e)) x from
    List.map_congr_left fun k _ => by
      unfold sFiringSum
      exact Pace.wrap_sum (fun c : Half × Half × List Int => c.2.2) _ _ k _ (by rw [rows]; exact hw') (by rw [hlen]; exact hs)] at this

/-! ### The hypotheses are met -/

/-- Machines that have learned something, with three uses: training on 10 examples in all. -/
example : Ready 2 (ConvBlockOK 3 2 2) exConvExec ∧ WeightsWithin 4 (exConvExec.blocks.flatMap convWeightsOf) ∧
    ∀ us, us = [TMUse.epoch id (List.replicate 4 (([1, 0, 0, 0, 0, 1] : List Nat), 0)), .predict [[1, 1, 1, 0, 0, 0]],
      .epoch List.reverse (List.replicate 6 ([0, 1, 0, 0, 1, 1], 1))] →
      examplesShown us = 10 ∧ (exConvExec.blocks.flatMap (·.clauses)).length * (4 + examplesShown us) ≤ 32767 ∧ 4 + examplesShown us ≤ 32767 := by
  refine ⟨⟨by decide, rfl, rfl, by simp [exConvExec, ConvBlockOK, Shaped]⟩, by unfold WeightsWithin; decide, ?_⟩
  rintro us rfl
  exact ⟨rfl, by decide, by decide⟩

example : Ready 2 (AvxConvBlockOK 3 2 2) exVConvExec ∧ WeightsWithin 4 (exVConvExec.blocks.flatMap avxConvWeightsOf) :=
  ⟨⟨by decide, rfl, rfl, by simp [exVConvExec, AvxConvBlockOK]⟩, by
    unfold WeightsWithin
    simp only [exVConvExec, avxConvWeightsOf, List.flatMap_cons, List.flatMap_nil, List.map_cons, List.map_nil, List.append_nil]
    decide⟩

example : SSetUp 2 exSExec ∧ WeightsWithin 9 (exSExec.blocks.flatMap sparseWeightsOf) ∧
    (exSExec.blocks.flatMap (·.clauses)).length * (9 + examplesShown [TMUse.epoch id (List.replicate 20 (([0, 4] : List Nat), 0))]) ≤ 32767 ∧
    SortedEx [0, 4] := by
  refine ⟨?_, by unfold WeightsWithin; decide, by decide, by decide⟩
  refine ⟨by decide, rfl, rfl, ?_⟩
  simp [exSExec, SparseBlockOK]

end GT
