import Verif.Spec.Resume

/-! # How far a machine can move in some training (C106) -/

namespace GT.Spec

/-- The number of examples a use trains on. -/
def TMUse.size {E : Type} : TMUse E → Nat
  | .epoch _ data => data.length
  | .predict _ => 0

/-- The number of examples all these uses train on, one counted as often as it is shown. -/
def examplesShown {E : Type} (us : List (TMUse E)) : Nat := (us.map TMUse.size).sum

/-- The weights `rows`, clause by clause and class by class, became `rows'`: none was added or lost, and every weight which `n` steps of 1 cannot
take out of 16 bits moved by at most `n`. -/
def MovedAtMost (n : Nat) (rows rows' : List (List Int)) : Prop :=
  List.Forall₂ (List.Forall₂ fun w w' => w.natAbs + n ≤ 32767 → (w' - w).natAbs ≤ n) rows rows'

/-- The same for the states of literals, which are bytes: every state moved by at most `n`. -/
def StatesMovedAtMost (n : Nat) (states states' : List Int) : Prop :=
  List.Forall₂ (fun v v' => -128 ≤ v → v ≤ 127 → (v' - v).natAbs ≤ n ∧ -128 ≤ v' ∧ v' ≤ 127) states states'

/-- The same for a clause of a vector block, whose states are the bytes of its row of memory: no byte, read as a signed number, moved by more than
`n`. -/
def BytesMovedAtMost (n : Nat) (row row' : Mem) : Prop := ∀ a, ((row' a).toInt - (row a).toInt).natAbs ≤ n

/-- The same for a half of a sparse clause, a list of literals with their states. A literal can be dropped, and can be taken up with the state
`fresh`. Every literal that is there afterwards was there before, with a state at most `n` away, or its state is at most `n` away from `fresh`. -/
def EntriesMovedAtMost (n : Nat) (fresh : Int) (h h' : List (Nat × Int)) : Prop :=
  (∀ e ∈ h, -128 ≤ e.2 ∧ e.2 ≤ 127) → ∀ e' ∈ h', (-128 ≤ e'.2 ∧ e'.2 ≤ 127) ∧
    ((∃ e ∈ h, e.1 = e'.1 ∧ (e'.2 - e.2).natAbs ≤ n) ∨ (e'.2 - fresh).natAbs ≤ n)

/-- The weights of a portable block. -/
def weightsOf (b : DBlock) : List (List Int) := b.clauses.map fun c => c.w

/-- The weights of an AVX2 block. -/
def avxWeightsOf (b : VBlock) : List (List Int) := b.clauses.map fun c => c.w

/-- The weights of a NEON block. -/
def neonWeightsOf (b : NBlock) : List (List Int) := b.clauses.map fun c => c.w

/-- The weights of a sparse block. -/
def sparseWeightsOf (b : SBlock) : List (List Int) := b.clauses.map fun c => c.w

/-- The weights of a convolutional block. -/
def convWeightsOf (b : ConvBlock) : List (List Int) := b.clauses.map fun c => c.base.w

/-- The weights of an AVX2 convolutional block. -/
def avxConvWeightsOf (b : VConvBlock) : List (List Int) := b.clauses.map fun c => c.base.w

/-- All weights are between `-bound` and `bound`. -/
def WeightsWithin (bound : Nat) (rows : List (List Int)) : Prop := ∀ row ∈ rows, ∀ w ∈ row, w.natAbs ≤ bound

/-- The votes of the clauses that fire on `x`, added up without any limit on their size. -/
noncomputable def trueVotes (n : Nat) (cls : List (List Int × List Int × List Int)) (x : List Nat) : List Int :=
  (List.range n).map fun k => firingSum cls x k

end GT.Spec
