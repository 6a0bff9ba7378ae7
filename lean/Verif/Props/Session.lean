import Verif.Lemmas.Session
import Verif.Model.Executor

/-!
# C77: training and evaluation use exactly the examples and labels they should, and read nothing else
-/

namespace GT
open Spec

/-- A dense input block: after any sensible history from construction, every read was inside the arrays, and the clause blocks and the feedback
block got exactly the examples and labels asked for. Refused or otherwise unknown data sets may come in between as long as nothing is
trained or evaluated on them. -/
theorem C77_dense_partial (nLits nRead : Nat) (cs : List (SessionCall (NdArr Nat × NdArr Nat)))
    (as : List (SessionCall (Option (LabelledExamples (List Nat))))) (hm : List.Forall₂ (SameCall (DenseArrays nLits)) cs as)
    (hs : SensibleAll nRead ⟨some [], []⟩ as) :
    ∃ s, Session.run denseInput nRead ⟨FlatDenseIB.new nLits, []⟩ cs = some (s, asked nRead ⟨some [], []⟩ as) :=
  SessionL.run_ok (SessionL.dense_faithful nLits) nRead cs as _ ⟨some [], []⟩ (SessionL.dense_new nLits) rfl hm hs

/-- The same for CSR data shown to sparse clause blocks. -/
theorem C77_csr_partial (nLits nRead : Nat) (cs : List (SessionCall CsrData)) (as : List (SessionCall (Option (LabelledExamples (List Int)))))
    (hm : List.Forall₂ (SameCall CsrArrays) cs as) (hs : SensibleAll nRead ⟨some [], []⟩ as) :
    ∃ s, Session.run csrInput nRead ⟨FlatCsrIB.new nLits, []⟩ cs = some (s, asked nRead ⟨some [], []⟩ as) :=
  SessionL.run_ok (SessionL.csr_faithful nLits) nRead cs as _ ⟨some [], []⟩ (SessionL.csr_new nLits) rfl hm hs

/-- The same for CSR data shown to dense clause blocks. -/
theorem C77_csr_dense_partial (nLits nRead : Nat) (cs : List (SessionCall CsrData)) (as : List (SessionCall (Option (LabelledExamples (List Nat)))))
    (hm : List.Forall₂ (SameCall (CsrDenseArrays nLits)) cs as) (hs : SensibleAll nRead ⟨some [], []⟩ as) :
    ∃ s, Session.run csrDenseInput nRead ⟨FlatCsrDenseIB.new nLits, []⟩ cs = some (s, asked nRead ⟨some [], []⟩ as) :=
  SessionL.run_ok (SessionL.csrDense_faithful nLits) nRead cs as _ ⟨some [], []⟩ (SessionL.csrDense_new nLits) rfl hm hs

namespace SessionL

theorem trainer_asked {X : Type} (nRead : Nat) (train eval : LabelledExamples X) : ∀ (shs : List (List Nat → List Nat)) (p : InPlace X),
    asked nRead p (trainerCalls (some train) (some eval) eval.length shs) = runUses nRead train eval shs := by
  intro shs
  induction shs with
  | nil => intro p; rfl
  | cons sh shs ih => intro p; simp [trainerCalls, asked, asks, placed, runUses, ih]

theorem trainer_sensible {X : Type} (nRead : Nat) (train eval : LabelledExamples X) (hl : Labelled nRead train) :
    ∀ (shs : List (List Nat → List Nat)), (∀ sh ∈ shs, Shuffles sh train.length) → ∀ p : InPlace X,
    SensibleAll nRead p (trainerCalls (some train) (some eval) eval.length shs) := by
  intro shs
  induction shs with
  | nil => intro _ p; trivial
  | cons sh shs ih =>
    intro h p
    exact ⟨trivial, ⟨train, rfl, hl, h sh (by simp)⟩, trivial, by simp [Sensible, placed], ih (fun s hs => h s (by simp [hs])) _⟩

theorem trainer_same {D X : Type} (Enc : D → Option (LabelledExamples X) → Prop) (dt de : D) (train eval : LabelledExamples X) (ht : Enc dt (some train))
    (he : Enc de (some eval)) : ∀ (shs : List (List Nat → List Nat)),
    List.Forall₂ (SameCall Enc) (trainerCalls dt de eval.length shs) (trainerCalls (some train) (some eval) eval.length shs) := by
  intro shs
  induction shs with
  | nil => exact .nil
  | cons sh shs ih => exact .cons ht (.cons rfl (.cons he (.cons rfl ih)))

end SessionL

/-- `Trainer.train` on dense arrays, for any number of epochs and any shuffles: every epoch trains on each training example once with its own label and
evaluates each evaluation example once in order; nothing outside the arrays is read. -/
theorem C77_trainer_dense_partial (nLits nRead : Nat) (dt de : NdArr Nat × NdArr Nat) (train eval : LabelledExamples (List Nat))
    (ht : DenseArrays nLits dt (some train)) (he : DenseArrays nLits de (some eval)) (hl : Labelled nRead train)
    (shs : List (List Nat → List Nat)) (hsh : ∀ sh ∈ shs, Shuffles sh train.length) :
    ∃ s, Session.run denseInput nRead ⟨FlatDenseIB.new nLits, []⟩ (trainerCalls dt de eval.length shs) = some (s, runUses nRead train eval shs) := by
  rw [← SessionL.trainer_asked nRead train eval shs ⟨some [], []⟩]
  exact C77_dense_partial nLits nRead _ _ (SessionL.trainer_same _ _ _ _ _ ht he shs) (SessionL.trainer_sensible nRead train eval hl shs hsh _)

/-- The same on CSR arrays with dense clause blocks. -/
theorem C77_trainer_csr_dense_partial (nLits nRead : Nat) (dt de : CsrData) (train eval : LabelledExamples (List Nat))
    (ht : CsrDenseArrays nLits dt (some train)) (he : CsrDenseArrays nLits de (some eval)) (hl : Labelled nRead train)
    (shs : List (List Nat → List Nat)) (hsh : ∀ sh ∈ shs, Shuffles sh train.length) :
    ∃ s, Session.run csrDenseInput nRead ⟨FlatCsrDenseIB.new nLits, []⟩ (trainerCalls dt de eval.length shs) = some (s, runUses nRead train eval shs) := by
  rw [← SessionL.trainer_asked nRead train eval shs ⟨some [], []⟩]
  exact C77_csr_dense_partial nLits nRead _ _ (SessionL.trainer_same _ _ _ _ _ ht he shs) (SessionL.trainer_sensible nRead train eval hl shs hsh _)

/-- The same on CSR arrays with sparse clause blocks. -/
theorem C77_trainer_csr_partial (nLits nRead : Nat) (dt de : CsrData) (train eval : LabelledExamples (List Int))
    (ht : CsrArrays dt (some train)) (he : CsrArrays de (some eval)) (hl : Labelled nRead train)
    (shs : List (List Nat → List Nat)) (hsh : ∀ sh ∈ shs, Shuffles sh train.length) :
    ∃ s, Session.run csrInput nRead ⟨FlatCsrIB.new nLits, []⟩ (trainerCalls dt de eval.length shs) = some (s, runUses nRead train eval shs) := by
  rw [← SessionL.trainer_asked nRead train eval shs ⟨some [], []⟩]
  exact C77_csr_partial nLits nRead _ _ (SessionL.trainer_same _ _ _ _ _ ht he shs) (SessionL.trainer_sensible nRead train eval hl shs hsh _)

/-- Every example is trained on once per epoch, with its own labels: what an epoch uses is a rearrangement of the data set. -/
theorem C77_epoch_covers {X : Type} (nRead : Nat) (ds : LabelledExamples X) (sh : List Nat → List Nat) (h : Shuffles sh ds.length) :
    ((sh (List.range ds.length)).flatMap (trainedOn nRead ds)).Perm (ds.map fun e => .trained e.1 (e.2.take nRead)) := by
  refine (List.Perm.flatMap_right _ h).trans ?_
  rw [show (List.range ds.length).flatMap (trainedOn nRead ds) = ds.map fun e => .trained e.1 (e.2.take nRead) from ?_]
  have : ∀ (k : Nat), k ≤ ds.length → (List.range k).flatMap (trainedOn nRead ds) = (ds.take k).map fun e => .trained e.1 (e.2.take nRead) := by
    intro k
    induction k with
    | zero => intro _; simp
    | succ k ih =>
      intro hk
      have hk' : k < ds.length := by omega
      rw [List.range_succ, List.flatMap_append, ih (by omega), List.take_succ_eq_append_getElem hk', List.map_append]
      congr 1
      simp [trainedOn, List.getElem?_eq_getElem hk']
  simpa using this ds.length (Nat.le_refl _)

/-- One step of the executor on what it is shown: training on an example with its first label, or evaluating one. -/
def useShown {B E : Type} (be : Backend B E) (smp : List Rat → Rat → Nat) (e : Exec B) : Shown E → Exec B
  | .trained x y => e.trainOne be smp x (y.headD 0)
  | .evaluated x => (e.evalOne be x).1

/-- The executor model of C14 to C18, which is given a list of examples, is what the checked walk over the arrays amounts to: doing the executor's step on everything
`train_epoch` of a dense input block shows is training on the listed examples in the drawn order. -/
theorem C77_epoch_refines_partial {B : Type} (be : Backend B (List Nat)) (smp : List Rat → Rat → Nat) (nLits : Nat) (d : NdArr Nat × NdArr Nat)
    (ds : LabelledExamples (List Nat)) (hd : DenseArrays nLits d (some ds)) (hl : Labelled 1 ds) (sh : List Nat → List Nat) (hsh : Shuffles sh ds.length) :
    ∃ s tr, Session.run denseInput 1 ⟨FlatDenseIB.new nLits, []⟩ [.setData d, .trainEpoch sh] = some (s, tr) ∧
      ∀ e : Exec B, tr.foldl (useShown be smp) e =
        Exec.trainIndices be smp (ds.map fun p => (p.1, p.2.headD 0)) (sh (List.range ds.length)) e := by
  obtain ⟨s, hs⟩ := C77_dense_partial nLits 1 [.setData d, .trainEpoch sh] [.setData (some ds), .trainEpoch sh] (.cons hd (.cons rfl .nil))
    ⟨trivial, ⟨ds, rfl, hl, hsh⟩, trivial⟩
  refine ⟨s, _, hs, ?_⟩
  simp only [asked, asks, placed, Option.getD_some, List.nil_append, List.append_nil]
  generalize sh (List.range ds.length) = is
  induction is with
  | nil => intro e; rfl
  | cons i is ih =>
    intro e
    rw [List.flatMap_cons, List.foldl_append, Exec.trainIndices, List.getElem?_map]
    cases h : ds[i]? with
    | none => simpa [trainedOn, h] using ih e
    | some p =>
      have hp : 1 ≤ p.2.length := hl p (List.mem_of_getElem? h)
      obtain ⟨y, ys, hy⟩ : ∃ y ys, p.2 = y :: ys := by
        cases hq : p.2 with
        | nil => rw [hq] at hp; simp at hp
        | cons y ys => exact ⟨y, ys, rfl⟩
      simp only [trainedOn, h, List.foldl_cons, List.foldl_nil, Option.map_some]
      rw [ih]
      simp [useShown, hy]

/-! ## Histories that are not sensible, and data sets that are too large -/

/-- Without the bound on the offsets: once a dense data set has `(n - 1) * nLits ≥ 2^31`, an epoch overflows `int`, whatever the shuffle, the labels and the history. -/
theorem C77_large_data_faults (nRead : Nat) (s : Session FlatDenseIB) (n : Nat) (elems : List Nat) (labels : NdArr Nat) (hn : 0 < n)
    (hbig : 2147483648 ≤ (n - 1) * s.ib.nLits) (sh : List Nat → List Nat) (hsh : Shuffles sh n) :
    Session.run denseInput nRead s [.setData (⟨[n, s.ib.nLits], elems⟩, labels), .trainEpoch sh] = none :=
  SessionL.run_last_none (SessionL.epoch_none (io := denseInput) (SessionL.DataIs s.ib.nLits (some elems)) (fun _ _ _ hb h => SessionL.dense_keeps hb h) (e := n - 1)
    (fun _ hb => SessionL.dense_overflow hb hbig) _ n (SessionL.setData_data s.ib n elems labels) sh (SessionL.setData_count s.ib _) hsh (by omega))

/-- `train_slice(0, b)` with `b` beyond the number of examples reads past the end of the drawn order, with every input block. -/
theorem C77_slice_past_end_faults {S D X : Type} (io : InputOps S D X) (nRead : Nat) (s : Session S) (n : Nat) (hn : io.nExamples s.ib = n) (b : Int)
    (hb : (n : Int) < b) (sh : List Nat → List Nat) (hsh : Shuffles sh n) : s.call io nRead (.trainSlice 0 b sh) = none := by
  show trainSliceOn io nRead s 0 b sh = none
  unfold trainSliceOn
  dsimp only
  rw [hn, if_neg (by omega), if_pos rfl, Int.sub_zero, Int.toNat_natCast, show ((0 : Int)) = ((0 : Nat) : Int) from rfl,
    SessionL.trainWalk_short io nRead _ _ _ _ (by omega) (by rw [(SessionL.shuffles_lt hsh).2]; omega)]
  rfl

/-- A slice that does not begin at 0 goes on in the order drawn for an earlier data set: if the data set now in place has fewer examples than
that order mentions in the slice, the read is outside the data. -/
theorem C77_stale_order_faults (nRead : Nat) (s : Session FlatDenseIB) (n : Nat) (elems : List Nat) (labels : NdArr Nat)
    (hl : elems.length = n * s.ib.nLits) (h0 : 0 < s.ib.nLits) (a b j e : Nat) (ha : a ≠ 0) (hj : a ≤ j) (hb : j < b) (he : s.index[j]? = some e) (hn : n ≤ e)
    (sh : List Nat → List Nat) :
    Session.run denseInput nRead s [.setData (⟨[n, s.ib.nLits], elems⟩, labels), .trainSlice a b sh] = none := by
  refine SessionL.run_last_none ?_
  show trainSliceOn denseInput nRead _ a b sh = none
  unfold trainSliceOn
  dsimp only
  rw [if_neg (by omega), if_neg (by omega), SessionL.trainWalk_none denseInput nRead (SessionL.DataIs s.ib.nLits (some elems))
    (fun _ _ _ hb h => SessionL.dense_keeps hb h) _ e j he (fun _ hb => SessionL.dense_outside hb ?_) _ _ _ (show SessionL.DataIs s.ib.nLits (some elems) (denseInput.setData s.ib (⟨[n, s.ib.nLits], elems⟩, labels)).2 from
      SessionL.setData_data s.ib n elems labels) hj (by omega)]
  · rfl
  · rw [hl]
    have := Nat.mul_le_mul_right s.ib.nLits hn
    omega

/-- A refused data set leaves the old examples but the new count: if it had more examples, training and evaluation read past the end of the old data. -/
theorem C77_refused_data_faults (nRead : Nat) (s : Session FlatDenseIB) (n m w : Nat) (elems : List Nat) (d : NdArr Nat × NdArr Nat)
    (hd : s.ib.data = some elems) (hl : elems.length = n * s.ib.nLits) (h0 : 0 < s.ib.nLits) (hs : d.1.shape = [m, w]) (hw : w ≠ s.ib.nLits) (hm : n < m)
    (sh : List Nat → List Nat) (hsh : Shuffles sh m) :
    (denseInput.setData s.ib d).1 = true ∧ Session.run denseInput nRead s [.setData d, .trainEpoch sh] = none ∧
    Session.run denseInput nRead s [.setData d, .evalPredict m] = none := by
  have hr := SessionL.setData_refused s.ib d (by simpa [hs] using hw)
  rw [hd] at hr
  have hc : (s.ib.setData d).2.nExamples = m := by rw [SessionL.setData_count]; simp [hs]
  have hbad : ∀ b, SessionL.DataIs s.ib.nLits (some elems) b → b.prepare (n : Int) = none := fun b hb => SessionL.dense_outside hb (by omega)
  refine ⟨hr.1, SessionL.run_last_none (SessionL.epoch_none (io := denseInput) _ (fun _ _ _ hb h => SessionL.dense_keeps hb h) hbad _ m hr.2 sh hc hsh hm),
    SessionL.run_last_none ?_⟩
  unfold Session.call
  dsimp only
  rw [if_neg (by rw [show denseInput.nExamples (denseInput.setData s.ib d).2 = m from hc]; simp), show ((0 : Int)) = ((0 : Nat) : Int) from rfl,
    SessionL.evalWalk_none denseInput _ (fun _ _ _ hb h => SessionL.dense_keeps hb h) n hbad _ _ _
      (show SessionL.DataIs s.ib.nLits (some elems) (denseInput.setData s.ib d).2 from hr.2) (by omega) (by omega)]
  rfl

/-- Training on a data set without labels as the first one reads through a pointer that was never set. -/
theorem C77_no_labels_faults (nLits nRead n : Nat) (elems : List Nat) (labels : NdArr Nat) (hl : labels.shape.headD 0 = 0) (hn : 0 < n) (hr : 0 < nRead)
    (sh : List Nat → List Nat) :
    Session.run denseInput nRead ⟨FlatDenseIB.new nLits, []⟩ [.setData (⟨[n, nLits], elems⟩, labels), .trainEpoch sh] = none := by
  refine SessionL.run_last_none ?_
  have hset : denseInput.setData (FlatDenseIB.new nLits) (⟨[n, nLits], elems⟩, labels) =
      (false, { FlatDenseIB.new nLits with nExamples := n, data := some elems }) := by
    show FlatDenseIB.setData _ _ = _
    simp only [FlatDenseIB.setData, FlatDenseIB.new, List.headD_cons, List.tail_cons, ne_eq, not_true_eq_false, if_false, hl, if_true]
  show trainSliceOn denseInput nRead _ 0 _ sh = none
  unfold trainSliceOn
  simp only [hset]
  show (if _ then none else _) = none
  have hc : denseInput.nExamples ({ FlatDenseIB.new nLits with nExamples := n, data := some elems }) = n := rfl
  rw [hc, if_neg (by omega)]
  obtain ⟨r, hr'⟩ : ∃ r, ((n : Int) - 0).toNat = r + 1 := ⟨n - 1, by omega⟩
  obtain ⟨k, rfl⟩ : ∃ k, nRead = k + 1 := ⟨nRead - 1, by omega⟩
  rw [hr']
  rw [SessionL.trainWalk_unset denseInput _ k r 0 _ (fun e s' h => (SessionL.dense_unlabelled_keeps ⟨rfl, rfl⟩ h).2)]
  rfl

/-- A CSR row with a column outside the example buffer writes outside it, in every epoch and in every order. -/
theorem C77_csr_column_outside_faults (nRead : Nat) (s : Session FlatCsrDenseIB) (hs : s.ib.nLits ≤ s.ib.buffer.length) (d : CsrData) (n i : Nat)
    (hn : d.indptr.length = n + 1) (hi : i < n) (hsm : n < 2147483647) (row : List Int) (hr : CsrRow d i row) (v : Int) (hv : v ∈ row)
    (ho : v < 0 ∨ (s.ib.buffer.length : Int) ≤ v) (sh : List Nat → List Nat) (hsh : Shuffles sh n) :
    Session.run csrDenseInput nRead s [.setData d, .trainEpoch sh] = none :=
  SessionL.run_last_none (SessionL.epoch_none (io := csrDenseInput) (SessionL.CsrIs s.ib.nLits s.ib.buffer.length d)
    (fun _ _ _ hb h => SessionL.csrDense_keeps hs hb h) (e := i) (fun _ hb => SessionL.csrDense_outside hs hb hr (by omega) v hv ho) _ n
    (SessionL.csrDense_set s.ib d).1 sh (by
      show (s.ib.setData d).2.nExamples = n
      rw [(SessionL.csrDense_set s.ib d).2, hn]; simp) hsh hi)

/-- On a new block the buffer ends at the next multiple of 32 above the number of literals: a column at or beyond it writes
outside. -/
theorem C77_csr_new_buffer (nRead nLits : Nat) (d : CsrData) (n i : Nat)
    (hn : d.indptr.length = n + 1) (hi : i < n) (hsm : n < 2147483647) (row : List Int) (hr : CsrRow d i row) (v : Int) (hv : v ∈ row)
    (ho : v < 0 ∨ (((nLits / 32 + 1) * 32 : Nat) : Int) ≤ v) (sh : List Nat → List Nat) (hsh : Shuffles sh n) :
    Session.run csrDenseInput nRead ⟨FlatCsrDenseIB.new nLits, []⟩ [.setData d, .trainEpoch sh] = none := by
  have e : (FlatCsrDenseIB.new nLits).buffer.length = (nLits / 32 + 1) * 32 := by simp [FlatCsrDenseIB.new]
  refine C77_csr_column_outside_faults nRead _ ?_ d n i hn hi hsm row hr v hv ?_ sh hsh
  · show nLits ≤ _
    rw [e]; omega
  · show _ ∨ (((FlatCsrDenseIB.new nLits).buffer.length : Nat) : Int) ≤ v
    rw [e]; exact ho

/-! ## Examples -/

/-- Three examples with two literals and one label each. -/
def sessTrain : LabelledExamples (List Nat) := [([1, 0], [7]), ([0, 1], [8]), ([1, 1], [9])]

/-- Two examples to evaluate, without labels. -/
def sessEval : LabelledExamples (List Nat) := [([0, 0], []), ([1, 0], [])]

/-- The arrays of `sessTrain`. -/
def sessTrainArr : NdArr Nat × NdArr Nat := (⟨[3, 2], [1, 0, 0, 1, 1, 1]⟩, ⟨[3], [7, 8, 9]⟩)

/-- The arrays of `sessEval`. -/
def sessEvalArr : NdArr Nat × NdArr Nat := (⟨[2, 2], [0, 0, 1, 0]⟩, ⟨[0], []⟩)

theorem sessTrain_arrays : DenseArrays 2 sessTrainArr (some sessTrain) :=
  ⟨rfl, rfl, by simp [sessTrain], by simp [sessTrain], by simp [sessTrain], Or.inl ⟨1, Or.inl ⟨rfl, rfl⟩, rfl, by simp [sessTrain], by simp [sessTrain]⟩⟩

theorem sessEval_arrays : DenseArrays 2 sessEvalArr (some sessEval) :=
  ⟨rfl, rfl, by simp [sessEval], by simp [sessEval], by simp [sessEval], Or.inr ⟨rfl, by simp [sessEval]⟩⟩

/-- The hypotheses of `C77_trainer_dense_partial` hold for these arrays and two epochs, one of them in reversed order; and this is what is used. -/
example : (∃ s, Session.run denseInput 1 ⟨FlatDenseIB.new 2, []⟩ (trainerCalls sessTrainArr sessEvalArr 2 [List.reverse, id]) =
      some (s, runUses 1 sessTrain sessEval [List.reverse, id])) ∧
    runUses 1 sessTrain sessEval [List.reverse, id] =
      [.trained [1, 1] [9], .trained [0, 1] [8], .trained [1, 0] [7], .evaluated [0, 0], .evaluated [1, 0],
       .trained [1, 0] [7], .trained [0, 1] [8], .trained [1, 1] [9], .evaluated [0, 0], .evaluated [1, 0]] :=
  ⟨C77_trainer_dense_partial 2 1 _ _ _ _ sessTrain_arrays sessEval_arrays (by simp [Labelled, sessTrain]) _ (by
    intro sh h
    rcases List.mem_pair.mp h with rfl | rfl
    · exact List.reverse_perm _
    · exact List.Perm.refl _), rfl⟩

/-- A sensible history that sets data, is refused data, trains in slices and evaluates. -/
example : ∃ s, Session.run denseInput 1 ⟨FlatDenseIB.new 2, []⟩
    [.setData sessTrainArr, .setData (⟨[9, 3], []⟩, ⟨[0], []⟩), .setData sessTrainArr, .trainSlice 0 1 List.reverse, .trainSlice 1 3 id, .evalPredict 3] =
    some (s, [.trained [1, 1] [9], .trained [0, 1] [8], .trained [1, 0] [7], .evaluated [1, 0], .evaluated [0, 1], .evaluated [1, 1]]) :=
  C77_dense_partial 2 1 _ [.setData (some sessTrain), .setData none, .setData (some sessTrain), .trainSlice 0 1 List.reverse, .trainSlice 1 3 id, .evalPredict 3]
    (.cons sessTrain_arrays (.cons trivial (.cons sessTrain_arrays (.cons ⟨rfl, rfl, rfl⟩ (.cons ⟨rfl, rfl, rfl⟩ (.cons rfl .nil))))))
    ⟨trivial, trivial, trivial, ⟨sessTrain, rfl, by simp [Labelled, sessTrain], by decide, by
        rw [if_pos rfl]; exact ⟨List.reverse_perm _, by simp [sessTrain]⟩⟩,
      ⟨sessTrain, rfl, by simp [Labelled, sessTrain], by decide, by
        rw [if_neg (by decide)]; decide⟩, by simp [Sensible, placed], trivial⟩

/-- The rows {0, 2} and {1} of three columns. -/
def sessCsr : CsrData := ⟨[0, 2, 1], [0, 2, 3], ⟨[2], [4, 5]⟩⟩

theorem sessCsr_dense : CsrDenseArrays 3 sessCsr (some [([1, 0, 1], [4]), ([0, 1, 0], [5])]) := by
  refine ⟨rfl, by decide, ?_, 1, Or.inl ⟨rfl, rfl⟩, rfl, by simp, by simp⟩
  intro i h
  match i, h with
  | 0, _ => exact ⟨[0, 2], ⟨0, 2, rfl, rfl, by decide, by decide, rfl⟩, by decide, rfl⟩
  | 1, _ => exact ⟨[1], ⟨2, 3, rfl, rfl, by decide, by decide, rfl⟩, by decide, rfl⟩

theorem sessCsr_sparse : CsrArrays sessCsr (some [([0, 2], [4]), ([1], [5])]) := by
  refine ⟨rfl, by decide, ?_, 1, Or.inl ⟨rfl, rfl⟩, rfl, by simp, by simp⟩
  intro i h
  match i, h with
  | 0, _ => exact ⟨0, 2, rfl, rfl, by decide, by decide, rfl⟩
  | 1, _ => exact ⟨2, 3, rfl, rfl, by decide, by decide, rfl⟩

/-- The hypotheses of the CSR theorems hold for these arrays. -/
example : ∃ s, Session.run csrDenseInput 1 ⟨FlatCsrDenseIB.new 3, []⟩ (trainerCalls sessCsr sessCsr 2 [List.reverse]) =
    some (s, [.trained [0, 1, 0] [5], .trained [1, 0, 1] [4], .evaluated [1, 0, 1], .evaluated [0, 1, 0]]) :=
  C77_trainer_csr_dense_partial 3 1 _ _ _ _ sessCsr_dense sessCsr_dense (by simp [Labelled]) [List.reverse] (by
    intro sh h; rw [List.mem_singleton.mp h]; exact List.reverse_perm _)

example : ∃ s, Session.run csrInput 1 ⟨FlatCsrIB.new 3, []⟩ (trainerCalls sessCsr sessCsr 2 [List.reverse]) =
    some (s, [.trained [1] [5], .trained [0, 2] [4], .evaluated [0, 2], .evaluated [1]]) :=
  C77_trainer_csr_partial 3 1 _ _ _ _ sessCsr_sparse sessCsr_sparse (by simp [Labelled]) [List.reverse] (by
    intro sh h; rw [List.mem_singleton.mp h]; exact List.reverse_perm _)

/-- Training on data without labels after data with labels: each example silently gets the label of the last example used before. -/
theorem C77_stale_label :
    (Session.run denseInput 1 ⟨FlatDenseIB.new 2, []⟩ [.setData sessTrainArr, .trainEpoch id, .setData sessEvalArr, .trainEpoch id]).map Prod.snd =
    some [.trained [1, 0] [7], .trained [0, 1] [8], .trained [1, 1] [9], .trained [0, 0] [9], .trained [1, 0] [9]] := by
  decide

/-- A column between the number of literals and the end of the buffer is not an error, is not shown, and stays in the padding for the examples after it. -/
theorem C77_csr_column_in_padding :
    (Session.run csrDenseInput 1 ⟨FlatCsrDenseIB.new 3, []⟩ [.setData ⟨[1, 5, 0], [0, 2, 3], ⟨[2], [4, 5]⟩⟩, .trainEpoch id]).map
      (fun r => (r.2, r.1.ib.buffer.take 8)) =
    some ([.trained [0, 1, 0] [4], .trained [1, 0, 0] [5]], [1, 0, 0, 0, 0, 1, 0, 0]) := by
  decide

theorem shuffles_id (n : Nat) : Shuffles id n := List.Perm.refl _

/-- The hypotheses of the failure theorems can be met. -/
example : Session.run denseInput 1 ⟨FlatDenseIB.new 1024, []⟩ [.setData (⟨[2097153, 1024], []⟩, ⟨[0], []⟩), .trainEpoch id] = none :=
  C77_large_data_faults 1 ⟨FlatDenseIB.new 1024, []⟩ 2097153 [] ⟨[0], []⟩ (by decide) (show 2147483648 ≤ (2097153 - 1) * 1024 from Nat.le_of_ble_eq_true rfl) id (shuffles_id _)

example : Session.run denseInput 1 ⟨FlatDenseIB.new 2, [2, 0, 1]⟩ [.setData (⟨[1, 2], [1, 1]⟩, ⟨[1], [1]⟩), .trainSlice 1 3 id] = none :=
  C77_stale_order_faults 1 ⟨FlatDenseIB.new 2, [2, 0, 1]⟩ 1 [1, 1] ⟨[1], [1]⟩ rfl (by decide) 1 3 2 1 (by decide) (by decide) (by decide) rfl (by decide) id

example : Session.run csrDenseInput 1 ⟨FlatCsrDenseIB.new 3, []⟩ [.setData ⟨[1, 32], [0, 2], ⟨[1], [4]⟩⟩, .trainEpoch id] = none :=
  C77_csr_column_outside_faults 1 ⟨FlatCsrDenseIB.new 3, []⟩ (by decide) ⟨[1, 32], [0, 2], ⟨[1], [4]⟩⟩ 1 0 rfl (by decide) (by decide) [1, 32]
    ⟨0, 2, rfl, rfl, by decide, by decide, rfl⟩ 32 (by decide) (by decide) id (List.Perm.refl _)

end GT
