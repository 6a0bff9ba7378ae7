import Verif.Lemmas.PySession
import Verif.Props.Session

/-!
# C78: without the compiled core, training and evaluation use the same examples and labels
-/

namespace GT
open Spec

/-- Single-label dense data: any sensible history of whole-epoch or from-the-start calls on the Python executor shows the examples and labels asked for. -/
theorem C78_dense_partial (nLits : Nat) (cs : List (SessionCall (PyRows × PyRows))) (as : List (SessionCall (Option (LabelledExamples (List Nat)))))
    (hm : List.Forall₂ (SameCall (PyDenseArrays nLits 1)) cs as) (hs : SensibleAll 1 ⟨some [], []⟩ as) (hw : ∀ c ∈ cs, WholeSlices c) :
    ∃ s, pyRun pyDenseInput (PyDenseIB.new nLits) cs = some (s, asked 1 ⟨some [], []⟩ as) := by
  obtain ⟨s, h⟩ := SessionL.run_ok (PySessionL.pyDense_faithful nLits) 1 cs as ⟨PyDenseIB.new nLits, []⟩ ⟨some [], []⟩ (PySessionL.pyDense_new nLits) rfl hm hs
  exact ⟨s.ib, by rw [PySessionL.pyRun_eq _ _ _ [] hw, h]; rfl⟩

/-- CSR data with dense clause blocks, with any number of labels. -/
theorem C78_csr_dense_partial (nLits : Nat) (cs : List (SessionCall PyCsrData)) (as : List (SessionCall (Option (LabelledExamples (List Nat)))))
    (hm : List.Forall₂ (SameCall (PyCsrDenseArrays nLits)) cs as) (hs : SensibleAll 1 ⟨some [], []⟩ as) (hw : ∀ c ∈ cs, WholeSlices c) :
    ∃ s, pyRun pyCsrDenseInput (PyCsrDenseIB.new nLits) cs = some (s, asked 1 ⟨some [], []⟩ as) := by
  obtain ⟨s, h⟩ := SessionL.run_ok (PySessionL.pyCsrDense_faithful nLits) 1 cs as ⟨PyCsrDenseIB.new nLits, []⟩ ⟨some [], []⟩ (PySessionL.pyCsrDense_new nLits) rfl hm hs
  exact ⟨s.ib, by rw [PySessionL.pyRun_eq _ _ _ [] hw, h]; rfl⟩

/-- CSR data with sparse clause blocks, with any number of labels. -/
theorem C78_csr_partial (nLits : Nat) (cs : List (SessionCall PyCsrData)) (as : List (SessionCall (Option (LabelledExamples (List Int)))))
    (hm : List.Forall₂ (SameCall PyCsrArrays) cs as) (hs : SensibleAll 1 ⟨some [], []⟩ as) (hw : ∀ c ∈ cs, WholeSlices c) :
    ∃ s, pyRun pyCsrInput (PyCsrIB.new nLits) cs = some (s, asked 1 ⟨some [], []⟩ as) := by
  obtain ⟨s, h⟩ := SessionL.run_ok PySessionL.pyCsr_faithful 1 cs as ⟨PyCsrIB.new nLits, []⟩ ⟨some [], []⟩ (PySessionL.pyCsr_new nLits) rfl hm hs
  exact ⟨s.ib, by rw [PySessionL.pyRun_eq _ _ _ [] hw, h]; rfl⟩

namespace PySessionL

theorem trainer_whole {D : Type} (dt de : D) (n : Nat) : ∀ (shs : List (List Nat → List Nat)), ∀ c ∈ trainerCalls dt de n shs, WholeSlices c := by
  intro shs
  induction shs with
  | nil => intro c hc; simp [trainerCalls] at hc
  | cons sh shs ih =>
    intro c hc
    simp only [trainerCalls, List.cons_append, List.nil_append, List.mem_cons] at hc
    rcases hc with rfl | rfl | rfl | rfl | hc
    · trivial
    · trivial
    · trivial
    · trivial
    · exact ih c hc

end PySessionL

/-- `Trainer.train` on single-label dense data with one thread: Python and C++ are given the same examples and labels in the same order, for any number of
epochs, when the orders drawn are the same. -/
theorem C78_trainer_same_partial (nLits : Nat) (dt de : PyRows × PyRows) (dt' de' : NdArr Nat × NdArr Nat) (train eval : LabelledExamples (List Nat))
    (ht : PyDenseArrays nLits 1 dt (some train)) (he : PyDenseArrays nLits 1 de (some eval)) (ht' : DenseArrays nLits dt' (some train))
    (he' : DenseArrays nLits de' (some eval)) (shs : List (List Nat → List Nat)) (hsh : ∀ sh ∈ shs, Shuffles sh train.length) :
    ∃ ps cs, pyRun pyDenseInput (PyDenseIB.new nLits) (trainerCalls dt de eval.length shs) = some (ps, runUses 1 train eval shs) ∧
      Session.run denseInput 1 ⟨FlatDenseIB.new nLits, []⟩ (trainerCalls dt' de' eval.length shs) = some (cs, runUses 1 train eval shs) := by
  have hl : Labelled 1 train := fun e h => Nat.le_of_eq (ht.2.2.2.2.2 e h).symm
  have ha := SessionL.trainer_asked 1 train eval shs ⟨some [], []⟩
  obtain ⟨ps, h1⟩ := C78_dense_partial nLits _ _ (SessionL.trainer_same _ dt de train eval ht he shs) (SessionL.trainer_sensible 1 train eval hl shs hsh _)
    (PySessionL.trainer_whole dt de eval.length shs)
  obtain ⟨cs, h2⟩ := C77_trainer_dense_partial nLits 1 dt' de' train eval ht' he' hl shs hsh
  rw [ha] at h1
  exact ⟨ps, cs, h1, h2⟩

/-- `Trainer.train` on CSR data with sparse clause blocks and one thread: the same in Python and C++. -/
theorem C78_trainer_csr_same_partial (nLits : Nat) (dt de : PyCsrData) (dt' de' : CsrData) (train eval : LabelledExamples (List Int))
    (ht : PyCsrArrays dt (some train)) (he : PyCsrArrays de (some eval)) (ht' : CsrArrays dt' (some train)) (he' : CsrArrays de' (some eval))
    (hl : Labelled 1 train) (shs : List (List Nat → List Nat)) (hsh : ∀ sh ∈ shs, Shuffles sh train.length) :
    ∃ ps cs, pyRun pyCsrInput (PyCsrIB.new nLits) (trainerCalls dt de eval.length shs) = some (ps, runUses 1 train eval shs) ∧
      Session.run csrInput 1 ⟨FlatCsrIB.new nLits, []⟩ (trainerCalls dt' de' eval.length shs) = some (cs, runUses 1 train eval shs) := by
  have ha := SessionL.trainer_asked 1 train eval shs ⟨some [], []⟩
  obtain ⟨ps, h1⟩ := C78_csr_partial nLits _ _ (SessionL.trainer_same _ dt de train eval ht he shs) (SessionL.trainer_sensible 1 train eval hl shs hsh _)
    (PySessionL.trainer_whole dt de eval.length shs)
  obtain ⟨cs, h2⟩ := C77_trainer_csr_partial nLits 1 dt' de' train eval ht' he' hl shs hsh
  rw [ha] at h1
  exact ⟨ps, cs, h1, h2⟩

/-- Both dense blocks refuse the same arrays: those of another width, and labels of another number than the examples unless there are none. -/
theorem C78_same_refusals (b : PyDenseIB) (c : FlatDenseIB) (hn : b.nLits = c.nLits) (d : PyRows × PyRows) (d' : NdArr Nat × NdArr Nat)
    (h1 : d'.1.shape = [d.1.rows.length, d.1.cols]) (h2 : d'.2.shape.headD 0 = d.2.rows.length) :
    (pyDenseInput.setData b d).1 = (denseInput.setData c d').1 ∧
    ((pyDenseInput.setData b d).1 = true ↔ d.1.cols ≠ b.nLits ∨ d.2.rows.length ≠ 0 ∧ d.2.rows.length ≠ d.1.rows.length) := by
  have hp : (PyDenseIB.setData b d).1 = true ↔ d.1.cols ≠ b.nLits ∨ d.2.rows.length ≠ 0 ∧ d.2.rows.length ≠ d.1.rows.length := by
    unfold PyDenseIB.setData
    dsimp only
    split
    · rename_i h; exact ⟨fun _ => Or.inl h, fun _ => rfl⟩
    · rename_i h
      split
      · rename_i h3; exact ⟨fun h => by simp at h, fun h4 => by omega⟩
      · rename_i h3
        split
        · rename_i h4; exact ⟨fun _ => Or.inr ⟨h3, h4⟩, fun _ => rfl⟩
        · rename_i h4; exact ⟨fun h => by simp at h, fun h5 => by omega⟩
  have hc : (FlatDenseIB.setData c d').1 = true ↔ d'.1.shape.tail.headD 0 ≠ c.nLits ∨ d'.2.shape.headD 0 ≠ 0 ∧ d'.2.shape.headD 0 ≠ d'.1.shape.headD 0 := by
    unfold FlatDenseIB.setData
    dsimp only
    split
    · rename_i h; exact ⟨fun _ => Or.inl h, fun _ => rfl⟩
    · rename_i h
      split
      · rename_i h3; exact ⟨fun h => by simp at h, fun h4 => by omega⟩
      · rename_i h3
        split
        · rename_i h4; exact ⟨fun _ => Or.inr ⟨h3, by omega⟩, fun _ => rfl⟩
        · rename_i h4; exact ⟨fun h => by simp at h, fun h5 => by omega⟩
  refine ⟨?_, hp⟩
  show (PyDenseIB.setData b d).1 = (FlatDenseIB.setData c d').1
  rw [Bool.eq_iff_iff, hp, hc, h1, h2, hn]
  rfl

/-- CSR data are refused by the native block exactly if there is not one label (row) per row, and by the Python block exactly if, besides,
there are labels at all. Either way the new arrays are in place, with the old labels if they were refused. -/
theorem C78_csr_refusals (b : PyCsrDenseIB) (c : FlatCsrDenseIB) (d : PyCsrData) (d' : CsrData) (h1 : d'.indptr = d.indptr)
    (h2 : d'.labels.shape.headD 0 = d.labels.rows.length) :
    ((csrDenseInput.setData c d').1 = true ↔ d.labels.rows.length + 1 ≠ d.indptr.length) ∧
    ((pyCsrDenseInput.setData b d).1 = true ↔ d.labels.rows.length ≠ 0 ∧ d.labels.rows.length + 1 ≠ d.indptr.length) ∧
    (pyCsrDenseInput.setData b d).2.indptr = some d.indptr ∧ (csrDenseInput.setData c d').2.indptr = some d.indptr ∧
    ((pyCsrDenseInput.setData b d).1 = true → (pyCsrDenseInput.setData b d).2.labels = b.labels) ∧
    ((csrDenseInput.setData c d').1 = true → (csrDenseInput.setData c d').2.lab = c.lab) := by
  show ((FlatCsrDenseIB.setData c d').1 = true ↔ _) ∧ ((PyCsrDenseIB.setData b d).1 = true ↔ _) ∧
    (PyCsrDenseIB.setData b d).2.indptr = _ ∧ (FlatCsrDenseIB.setData c d').2.indptr = _ ∧
    ((PyCsrDenseIB.setData b d).1 = true → (PyCsrDenseIB.setData b d).2.labels = b.labels) ∧
    ((FlatCsrDenseIB.setData c d').1 = true → (FlatCsrDenseIB.setData c d').2.lab = c.lab)
  unfold FlatCsrDenseIB.setData PyCsrDenseIB.setData
  dsimp only
  rw [h1, h2]
  generalize d.labels.rows.length = n
  generalize d.indptr.length = m
  by_cases ha : (n : Int) = m - 1
  · have : n + 1 = m := by omega
    simp [ha, this]
  · have hb : n + 1 ≠ m := by omega
    by_cases hc : n = 0
    · subst hc
      have : ¬ (0 : Int) = m - 1 := by simpa using ha
      simp [this, hb]
    · simp [ha, hb, hc]

/-- The same of the blocks that show the rows to sparse clause blocks. -/
theorem C78_csr_rows_refusals (b : PyCsrIB) (c : FlatCsrIB) (d : PyCsrData) (d' : CsrData) (h1 : d'.indptr = d.indptr)
    (h2 : d'.labels.shape.headD 0 = d.labels.rows.length) :
    ((csrInput.setData c d').1 = true ↔ d.labels.rows.length + 1 ≠ d.indptr.length) ∧
    ((pyCsrInput.setData b d).1 = true ↔ d.labels.rows.length ≠ 0 ∧ d.labels.rows.length + 1 ≠ d.indptr.length) ∧
    (pyCsrInput.setData b d).2.indptr = some d.indptr ∧ (csrInput.setData c d').2.indptr = some d.indptr ∧
    ((pyCsrInput.setData b d).1 = true → (pyCsrInput.setData b d).2.labels = b.labels) ∧
    ((csrInput.setData c d').1 = true → (csrInput.setData c d').2.lab = c.lab) := by
  show ((FlatCsrIB.setData c d').1 = true ↔ _) ∧ ((PyCsrIB.setData b d).1 = true ↔ _) ∧
    (PyCsrIB.setData b d).2.indptr = _ ∧ (FlatCsrIB.setData c d').2.indptr = _ ∧
    ((PyCsrIB.setData b d).1 = true → (PyCsrIB.setData b d).2.labels = b.labels) ∧
    ((FlatCsrIB.setData c d').1 = true → (FlatCsrIB.setData c d').2.lab = c.lab)
  unfold FlatCsrIB.setData PyCsrIB.setData
  dsimp only
  rw [h1, h2]
  generalize d.labels.rows.length = n
  generalize d.indptr.length = m
  by_cases ha : (n : Int) = m - 1
  · have : n + 1 = m := by omega
    simp [ha, this]
  · have hb : n + 1 ≠ m := by omega
    by_cases hc : n = 0
    · subst hc
      have : ¬ (0 : Int) = m - 1 := by simpa using ha
      simp [this, hb]
    · simp [ha, hb, hc]

/-! ## Where the fallback differs -/

namespace PySessionL

/-- The arrays in place in a dense block. -/
def ArraysAre (d : PyRows × PyRows) (k : Nat) (b : PyDenseIB) : Prop := b.data = some d.1.rows ∧ b.labels = some d.2.rows ∧ b.perEx = k

theorem keeps {d : PyRows × PyRows} {k : Nat} {b b' : PyDenseIB} {i : Int} (hb : ArraysAre d k b) (h : b.prepare i = some b') : ArraysAre d k b' := by
  unfold PyDenseIB.prepare at h
  obtain ⟨l, h1, h⟩ := Option.bind_eq_some_iff.mp h
  obtain ⟨a, h2, h⟩ := Option.bind_eq_some_iff.mp h
  obtain ⟨o, h3, h⟩ := Option.bind_eq_some_iff.mp h
  cases h
  exact hb

theorem outside {d : PyRows × PyRows} {k : Nat} {b : PyDenseIB} {i : Nat} (hb : ArraysAre d k b) (h : d.2.rows.length ≤ i * k) : b.prepare i = none := by
  unfold PyDenseIB.prepare
  have : pyRow d.2.rows ((i : Int) * k) = none := by
    unfold pyRow
    have e : (i : Int) * k = ((i * k : Nat) : Int) := by simp
    rw [e, if_pos (by omega), Int.toNat_natCast]
    exact List.getElem?_eq_none h
  rw [hb.2.1, hb.2.2]
  simp [pyLabel, this]

theorem run_last_none {S D X : Type} {io : InputOps S D X} {s : S} {d : D} {c : SessionCall D} (h : pyCall io (io.setData s d).2 c = none) :
    pyRun io s [.setData d, c] = none := by
  simp only [pyRun, pyCall, Option.bind_eq_bind, Option.bind_some] at h ⊢
  rw [h]; rfl

theorem epoch_none {S D X : Type} {io : InputOps S D X} (P : S → Prop) (hP : ∀ s (i : Nat) s', P s → io.prepare s i = some s' → P s')
    {e : Nat} (hbad : ∀ s, P s → io.prepare s e = none) (s : S) (n : Nat) (hs : P s) (sh : List Nat → List Nat)
    (hn : io.nExamples s = n) (hsh : Shuffles sh n) (he : e < n) :
    pyCall io s (.trainEpoch sh) = none ∧ pyCall io s (.evalPredict n) = none := by
  constructor
  · rw [pyCall_eq io s [] (.trainEpoch sh) trivial, SessionL.epoch_none P hP hbad ⟨s, []⟩ n hs sh hn hsh he]
    rfl
  · unfold pyCall
    dsimp only
    rw [if_neg (by rw [hn]; simp), show ((0 : Int)) = ((0 : Nat) : Int) from rfl]
    exact SessionL.evalWalk_none io P hP e hbad n 0 s hs (by omega) (by omega)

end PySessionL

/-- With two or more labels per example and two or more examples, every epoch and every evaluation of the Python dense block raises: examples and labels are subscripted
with the index times the number of labels. The C++ block handles the same data (`C77_dense_partial`). -/
theorem C78_multi_label_raises (b : PyDenseIB) (k : Nat) (d : PyRows × PyRows) (ds : LabelledExamples (List Nat)) (hk : 2 ≤ k) (hn : 2 ≤ ds.length)
    (hd : PyDenseArrays b.nLits k d (some ds)) (sh : List Nat → List Nat) (hsh : Shuffles sh ds.length) :
    pyRun pyDenseInput b [.setData d, .trainEpoch sh] = none ∧ pyRun pyDenseInput b [.setData d, .evalPredict ds.length] = none := by
  obtain ⟨e1, e2, e3, e4, e5, e6⟩ := hd
  have hl : d.1.rows.length = ds.length := by rw [e2]; simp
  have hl2 : d.2.rows.length = ds.length := by rw [e4]; simp
  have hset : (pyDenseInput.setData b d).2 = { b with nExamples := ds.length, data := some d.1.rows, perEx := k, labels := some d.2.rows } := by
    show (PyDenseIB.setData b d).2 = _
    unfold PyDenseIB.setData
    dsimp only
    rw [if_neg (by rw [e1]; simp), hl2, hl, if_neg (by omega), if_neg (by simp)]
    rcases e5 with ⟨_, e5⟩ | ⟨e5, e7⟩
    · omega
    · simp [e5, e7]
  have hbad : ∀ s, PySessionL.ArraysAre d k s → pyDenseInput.prepare s ((ds.length - 1 : Nat) : Int) = none := by
    intro s hs
    refine PySessionL.outside hs ?_
    rw [hl2]
    have := Nat.mul_le_mul_left (ds.length - 1) hk
    omega
  have := PySessionL.epoch_none (io := pyDenseInput) _ (fun _ _ _ hb h => PySessionL.keeps hb h) hbad (pyDenseInput.setData b d).2 ds.length
    (by rw [hset]; exact ⟨rfl, rfl, rfl⟩) sh (by rw [hset]; rfl) hsh (by omega)
  exact ⟨PySessionL.run_last_none this.1, PySessionL.run_last_none this.2⟩

/-- Before it raises, the Python dense block trains on the wrong examples: with two labels per example the second example of the order is the third of the data set. -/
theorem C78_multi_label_wrong_example :
    (pyRun pyDenseInput (PyDenseIB.new 1) [.setData (⟨2, 1, [[5], [6], [7]]⟩, ⟨2, 2, [[1, 0], [0, 1], [1, 1]]⟩), .trainSlice 0 2 id]).map Prod.snd =
    some [.trained [5] [1], .trained [7] [1]] := by
  decide

/-- Data without labels, which the C++ block evaluates, make the Python block raise: the empty labels are kept and subscripted. -/
theorem C78_no_labels_raise (b : PyDenseIB) (d : PyRows × PyRows) (hc : d.1.cols = b.nLits) (hn : d.1.rows ≠ []) (hl : d.2.rows = []) (n : Nat)
    (he : n = d.1.rows.length) : pyRun pyDenseInput b [.setData d, .evalPredict n] = none := by
  have hset : (pyDenseInput.setData b d).2 = { b with nExamples := d.1.rows.length, data := some d.1.rows, labels := some d.2.rows } := by
    show (PyDenseIB.setData b d).2 = _
    unfold PyDenseIB.setData
    dsimp only
    rw [if_neg (by rw [hc]; simp), if_pos (by rw [hl]; rfl)]
  have h0 : 0 < d.1.rows.length := List.length_pos_iff.mpr hn
  exact PySessionL.run_last_none (PySessionL.epoch_none (io := pyDenseInput) (e := 0) (PySessionL.ArraysAre d b.perEx) (fun _ _ _ hb h => PySessionL.keeps hb h)
    (fun s hs => PySessionL.outside hs (by rw [hl]; simp)) _ n (by rw [hset]; exact ⟨rfl, rfl, rfl⟩) id (by rw [hset, he]; rfl) (List.Perm.refl _) (by omega)).2

/-- A slice that begins after 0 raises: its order is a local variable that was never assigned. C++ goes on in the drawn order (`C77_dense_partial`). -/
theorem C78_later_slice_raises {S D X : Type} (io : InputOps S D X) (s : S) (a b : Int) (ha : a ≠ 0) (hb : 0 < b) (sh : List Nat → List Nat) :
    pyCall io s (.trainSlice a b sh) = none := by
  simp [pyCall, pyTrainSlice, ha, hb]

/-- With more than one thread the fallback never trains, and the trainer's first evaluation raises. -/
theorem C78_threads_raise {S D X : Type} (io : InputOps S D X) (s : S) (dt de : D) (n : Nat) (shs : List (List Nat → List Nat)) (h : shs ≠ []) :
    pyMultiRun io s (trainerCalls dt de n shs) = none ∧ ∀ (sh : List Nat → List Nat) (a b : Int), pyMultiCall io s (.trainEpoch sh) = some (s, []) ∧
      pyMultiCall io s (.trainSlice a b sh) = some (s, []) := by
  refine ⟨?_, fun sh a b => ⟨rfl, rfl⟩⟩
  cases shs with
  | nil => exact absurd rfl h
  | cons sh shs => rfl

/-! ## Examples -/

/-- The arrays of `sessTrain` as the Python code sees them. -/
def pySessTrain : PyRows × PyRows := (⟨2, 2, [[1, 0], [0, 1], [1, 1]]⟩, ⟨1, 1, [[7], [8], [9]]⟩)

theorem pySessTrain_arrays : PyDenseArrays 2 1 pySessTrain (some sessTrain) :=
  ⟨rfl, rfl, by simp [sessTrain], rfl, Or.inl ⟨rfl, rfl⟩, by simp [sessTrain]⟩

/-- The hypotheses of `C78_trainer_same_partial` hold for these arrays. -/
example : ∃ ps cs, pyRun pyDenseInput (PyDenseIB.new 2) (trainerCalls pySessTrain pySessTrain 3 [List.reverse, id]) =
      some (ps, runUses 1 sessTrain sessTrain [List.reverse, id]) ∧
    Session.run denseInput 1 ⟨FlatDenseIB.new 2, []⟩ (trainerCalls sessTrainArr sessTrainArr 3 [List.reverse, id]) =
      some (cs, runUses 1 sessTrain sessTrain [List.reverse, id]) :=
  C78_trainer_same_partial 2 _ _ _ _ _ _ pySessTrain_arrays pySessTrain_arrays sessTrain_arrays sessTrain_arrays _ (by
    intro sh h
    rcases List.mem_pair.mp h with rfl | rfl
    · exact List.reverse_perm _
    · exact List.Perm.refl _)

/-- The hypotheses of `C78_csr_dense_partial` hold: two rows, two labels each. -/
example : ∃ s, pyRun pyCsrDenseInput (PyCsrDenseIB.new 3) [.setData ⟨[0, 2, 1], [0, 2, 3], ⟨2, 2, [[1, 0], [0, 1]]⟩⟩, .trainSlice 0 1 List.reverse] =
    some (s, [.trained [0, 1, 0] [0]]) :=
  C78_csr_dense_partial 3 _ [.setData (some [([1, 0, 1], [1, 0]), ([0, 1, 0], [0, 1])]), .trainSlice 0 1 List.reverse]
    (.cons ⟨rfl, by
      intro i h
      match i, h with
      | 0, _ => exact ⟨[0, 2], ⟨0, 2, rfl, rfl, by decide, by decide, rfl⟩, by decide, rfl⟩
      | 1, _ => exact ⟨[1], ⟨2, 3, rfl, rfl, by decide, by decide, rfl⟩, by decide, rfl⟩, 2, rfl, Or.inr ⟨rfl, rfl⟩, by simp⟩
      (.cons ⟨rfl, rfl, rfl⟩ .nil))
    ⟨trivial, ⟨_, rfl, by simp [Labelled], by decide, by rw [if_pos rfl]; exact ⟨List.reverse_perm _, by decide⟩⟩, trivial⟩
    (by intro c hc; rcases List.mem_pair.mp hc with rfl | rfl <;> simp [WholeSlices])

/-- The hypotheses of `C78_trainer_csr_same_partial` hold: two rows with one label each. -/
example : ∃ ps cs, pyRun pyCsrInput (PyCsrIB.new 3) (trainerCalls ⟨[0, 2, 1], [0, 2, 3], ⟨1, 1, [[1], [0]]⟩⟩ ⟨[0, 2, 1], [0, 2, 3], ⟨1, 1, [[1], [0]]⟩⟩ 2
        [List.reverse]) = some (ps, runUses 1 [([0, 2], [1]), ([1], [0])] [([0, 2], [1]), ([1], [0])] [List.reverse]) ∧
      Session.run csrInput 1 ⟨FlatCsrIB.new 3, []⟩ (trainerCalls ⟨[0, 2, 1], [0, 2, 3], ⟨[2], [1, 0]⟩⟩ ⟨[0, 2, 1], [0, 2, 3], ⟨[2], [1, 0]⟩⟩ 2 [List.reverse]) =
        some (cs, runUses 1 [([0, 2], [1]), ([1], [0])] [([0, 2], [1]), ([1], [0])] [List.reverse]) := by
  have hrow : ∀ (l : NdArr Nat) (i : Nat) (h : i < 2), CsrRow ⟨[0, 2, 1], [0, 2, 3], l⟩ i ([([0, 2], [1]), ([1], [0])] : LabelledExamples (List Int))[i].1 := by
    intro l i h
    match i, h with
    | 0, _ => exact ⟨0, 2, rfl, rfl, by decide, by simp, rfl⟩
    | 1, _ => exact ⟨2, 3, rfl, rfl, by decide, by simp, rfl⟩
  have hp : PyCsrArrays ⟨[0, 2, 1], [0, 2, 3], ⟨1, 1, [[1], [0]]⟩⟩ (some [([0, 2], [1]), ([1], [0])]) :=
    ⟨rfl, fun i h => hrow _ i h, 1, rfl, Or.inl ⟨rfl, rfl⟩, by simp⟩
  have hc : CsrArrays ⟨[0, 2, 1], [0, 2, 3], ⟨[2], [1, 0]⟩⟩ (some [([0, 2], [1]), ([1], [0])]) :=
    ⟨rfl, by decide, fun i h => hrow _ i h, by simp [LabelArray]⟩
  exact C78_trainer_csr_same_partial 3 _ _ _ _ _ _ hp hp hc hc (by simp [Labelled]) _ (by
    intro sh h
    rw [List.mem_singleton] at h
    subst h
    exact List.reverse_perm _)

/-- The hypotheses of `C78_multi_label_raises` hold: two examples with two labels each. -/
example : pyRun pyDenseInput (PyDenseIB.new 1) [.setData (⟨2, 1, [[1], [0]]⟩, ⟨2, 2, [[1, 0], [0, 1]]⟩), .evalPredict 2] = none :=
  (C78_multi_label_raises (PyDenseIB.new 1) 2 _ [([1], [1, 0]), ([0], [0, 1])] (by decide) (by decide)
    ⟨rfl, rfl, by simp [PyDenseIB.new], rfl, Or.inr ⟨rfl, rfl⟩, by simp⟩ id (List.Perm.refl _)).2

end GT
