import Verif.Model.Session

/-!
# What training and evaluation should be given

A data set is a list of examples with their labels. A history of calls asks for certain examples with certain labels, in a certain
order; `asked` says which. `Sensible` says that the history only asks for examples and labels that exist.
-/

namespace GT.Spec

/-- LabelledExamples with their labels. -/
abbrev LabelledExamples (X : Type) := List (X × List Nat)

/-- The data set in place (`none`: one about which nothing is known), and the order drawn by the last `train_slice` that began at 0. -/
structure InPlace (X : Type) where
  data  : Option (LabelledExamples X)
  order : List Nat

/-- Example `e` with its first `nRead` labels. -/
def trainedOn {X : Type} (nRead : Nat) (ds : LabelledExamples X) (e : Nat) : List (Shown X) :=
  match ds[e]? with
  | some (x, y) => [.trained x (y.take nRead)]
  | none => []

/-- What one call asks for. -/
def asks {X : Type} (nRead : Nat) (p : InPlace X) : SessionCall (Option (LabelledExamples X)) → List (Shown X)
  | .setData _ => []
  | .trainEpoch sh => (sh (List.range (p.data.getD []).length)).flatMap (trainedOn nRead (p.data.getD []))
  | .trainSlice a b sh =>
    (((if a = 0 then sh (List.range (p.data.getD []).length) else p.order).drop a.toNat).take (b - a).toNat).flatMap (trainedOn nRead (p.data.getD []))
  | .evalPredict n => if n = (p.data.getD []).length then (p.data.getD []).map fun e => .evaluated e.1 else []

/-- What is in place after a call. -/
def placed {X : Type} (p : InPlace X) : SessionCall (Option (LabelledExamples X)) → InPlace X
  | .setData o => { p with data := o }
  | .trainEpoch sh => { p with order := sh (List.range (p.data.getD []).length) }
  | .trainSlice a _ sh => if a = 0 then { p with order := sh (List.range (p.data.getD []).length) } else p
  | .evalPredict _ => p

/-- Every example has at least `nRead` labels. -/
def Labelled {X : Type} (nRead : Nat) (ds : LabelledExamples X) : Prop := ∀ e ∈ ds, nRead ≤ e.2.length

/-- The shuffle rearranges the examples. -/
def Shuffles (sh : List Nat → List Nat) (n : Nat) : Prop := (sh (List.range n)).Perm (List.range n)

/-- A call that only asks for what exists: there is a known data set, labelled if it is trained on; a slice ends within the examples; and a slice that does
not begin at 0 goes on in an order drawn for no more examples than there are now. -/
def Sensible {X : Type} (nRead : Nat) (p : InPlace X) : SessionCall (Option (LabelledExamples X)) → Prop
  | .setData _ => True
  | .trainEpoch sh => ∃ ds, p.data = some ds ∧ Labelled nRead ds ∧ Shuffles sh ds.length
  | .trainSlice a b sh => ∃ ds, p.data = some ds ∧ Labelled nRead ds ∧ 0 ≤ a ∧
      (if a = 0 then Shuffles sh ds.length ∧ b ≤ ds.length else b ≤ p.order.length ∧ ∀ e ∈ p.order, e < ds.length)
  | .evalPredict _ => p.data ≠ none

/-- What a history asks for. -/
def asked {X : Type} (nRead : Nat) : InPlace X → List (SessionCall (Option (LabelledExamples X))) → List (Shown X)
  | _, [] => []
  | p, c :: cs => asks nRead p c ++ asked nRead (placed p c) cs

/-- A history of sensible calls. -/
def SensibleAll {X : Type} (nRead : Nat) : InPlace X → List (SessionCall (Option (LabelledExamples X))) → Prop
  | _, [] => True
  | p, c :: cs => Sensible nRead p c ∧ SensibleAll nRead (placed p c) cs

/-- The same call, with the arrays of the data set in place of the data set. -/
def SameCall {D X : Type} (Enc : D → Option (LabelledExamples X) → Prop) : SessionCall D → SessionCall (Option (LabelledExamples X)) → Prop
  | .setData d, .setData o => Enc d o
  | .trainEpoch sh, .trainEpoch sh' => sh = sh'
  | .trainSlice a b sh, .trainSlice a' b' sh' => a = a' ∧ b = b' ∧ sh = sh'
  | .evalPredict n, .evalPredict n' => n = n'
  | _, _ => False

/-- An array of labels, one row per example: one-dimensional, or two-dimensional with `k` columns. Offsets fit in an `int`. -/
def LabelArray {X : Type} (l : NdArr Nat) (ds : LabelledExamples X) : Prop :=
  ∃ k : Nat, (l.shape = [ds.length] ∧ k = 1 ∨ l.shape = [ds.length, k]) ∧ l.elems = (ds.map Prod.snd).flatten ∧
    (∀ e ∈ ds, e.2.length = k) ∧ (ds.length - 1) * k < 2147483648

/-- Arrays of a dense data set with `nLits` literals, with labels or without. All offsets fit in an `int`. Nothing is asked of unknown data. -/
def DenseArrays (nLits : Nat) (d : NdArr Nat × NdArr Nat) : Option (LabelledExamples (List Nat)) → Prop
  | none => True
  | some ds => d.1.shape = [ds.length, nLits] ∧ d.1.elems = (ds.map Prod.fst).flatten ∧ (∀ e ∈ ds, e.1.length = nLits) ∧
      ds.length < 2147483648 ∧ (ds.length - 1) * nLits < 2147483648 ∧
      (LabelArray d.2 ds ∨ d.2.shape.headD 0 = 0 ∧ ∀ e ∈ ds, e.2 = [])

/-- Row `i` of a CSR matrix lists the columns `row`. -/
def CsrRow (d : CsrData) (i : Nat) (row : List Int) : Prop :=
  ∃ a b : Nat, d.indptr[i]? = some (a : Int) ∧ d.indptr[i + 1]? = some (b : Int) ∧ a ≤ b ∧ b ≤ d.indices.length ∧
    row = (d.indices.drop a).take (b - a)

/-- CSR arrays of a data set whose examples are lists of the columns that are set. -/
def CsrArrays (d : CsrData) : Option (LabelledExamples (List Int)) → Prop
  | none => True
  | some ds => d.indptr.length = ds.length + 1 ∧ ds.length < 2147483647 ∧ (∀ (i : Nat) (h : i < ds.length), CsrRow d i ds[i].1) ∧ LabelArray d.labels ds

/-- The 0/1 row with ones in the given columns. -/
def onesAt (nLits : Nat) (row : List Int) : List Nat := (List.range nLits).map fun (j : Nat) => if (j : Int) ∈ row then 1 else 0

/-- CSR arrays of a data set of 0/1 rows with `nLits` literals; all columns are below `nLits`. -/
def CsrDenseArrays (nLits : Nat) (d : CsrData) : Option (LabelledExamples (List Nat)) → Prop
  | none => True
  | some ds => d.indptr.length = ds.length + 1 ∧ ds.length < 2147483647 ∧
      (∀ (i : Nat) (h : i < ds.length), ∃ row, CsrRow d i row ∧ (∀ v ∈ row, 0 ≤ v ∧ v < (nLits : Int)) ∧ ds[i].1 = onesAt nLits row) ∧
      LabelArray d.labels ds

/-- What a training run should use, epoch after epoch: every training example in the order drawn, then every evaluation example in order. -/
def runUses {X : Type} (nRead : Nat) (train eval : LabelledExamples X) : List (List Nat → List Nat) → List (Shown X)
  | [] => []
  | sh :: shs => (sh (List.range train.length)).flatMap (trainedOn nRead train) ++ (eval.map fun e => .evaluated e.1) ++ runUses nRead train eval shs

end GT.Spec
