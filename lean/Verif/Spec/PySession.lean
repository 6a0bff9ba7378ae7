import Verif.Spec.Session
import Verif.Model.PySession

/-!
# Data sets and histories on which the two implementations are compared
-/

namespace GT.Spec

/-- One row of labels per example; `k` labels each, in a one-dimensional array only if `k = 1`. -/
def PyLabels {X : Type} (l : PyRows) (ds : LabelledExamples X) (k : Nat) : Prop :=
  l.rows = ds.map Prod.snd ∧ (l.dims = 1 ∧ k = 1 ∨ l.dims = 2 ∧ l.cols = k) ∧ ∀ e ∈ ds, e.2.length = k

/-- The arrays of a dense data set with `k` labels per example. Nothing is asked of unknown data. -/
def PyDenseArrays (nLits k : Nat) (d : PyRows × PyRows) : Option (LabelledExamples (List Nat)) → Prop
  | none => True
  | some ds => d.1.cols = nLits ∧ d.1.rows = ds.map Prod.fst ∧ (∀ e ∈ ds, e.1.length = nLits) ∧ PyLabels d.2 ds k

/-- CSR arrays of a data set of 0/1 rows, with any number of labels. -/
def PyCsrDenseArrays (nLits : Nat) (d : PyCsrData) : Option (LabelledExamples (List Nat)) → Prop
  | none => True
  | some ds => d.indptr.length = ds.length + 1 ∧
      (∀ (i : Nat) (h : i < ds.length), ∃ row, CsrRow ⟨d.indices, d.indptr, ⟨[], []⟩⟩ i row ∧ (∀ v ∈ row, 0 ≤ v ∧ v < (nLits : Int)) ∧ ds[i].1 = onesAt nLits row) ∧
      ∃ k, PyLabels d.labels ds k

/-- CSR arrays of a data set of rows of column numbers, with any number of labels. -/
def PyCsrArrays (d : PyCsrData) : Option (LabelledExamples (List Int)) → Prop
  | none => True
  | some ds => d.indptr.length = ds.length + 1 ∧ (∀ (i : Nat) (h : i < ds.length), CsrRow ⟨d.indices, d.indptr, ⟨[], []⟩⟩ i ds[i].1) ∧
      ∃ k, PyLabels d.labels ds k

/-- The call does not train on a slice that begins after 0. -/
def WholeSlices {D : Type} : SessionCall D → Prop
  | .trainSlice a _ _ => a = 0
  | _ => True

end GT.Spec
