import Verif.Spec.ConvExec
import Verif.Spec.SparseExec
import Verif.Model.Random

/-! # What it means that training has nothing left to do -/

namespace GT.Spec

/-- Votes that leave no doubt about class `y`: it has at least `T` votes and every other class at most `-T`. -/
def Settled (T : Rat) (votes : List Int) (y : Nat) : Prop :=
  (∃ v, votes[y]? = some v ∧ T ≤ v) ∧ ∀ (k : Nat) (u : Int), k ≠ y → votes[k]? = some u → (u : Rat) ≤ -T

/-- No draw of the stream from here on is below 1e-16. -/
def NoTinyDraw (g : Rng) : Prop := ∀ k, g.pos ≤ k → 1 / 10 ^ 16 ≤ g.draw k

/-- Epochs over the same data, one after the other, each with its own shuffle: the executor afterwards and the reported accuracies. -/
def trainEpochs {B E : Type} (be : Backend B E) (smp : List Rat → Rat → Nat) (data : List (E × Nat)) :
    List (List Nat → List Nat) → Exec B → Exec B × List Rat
  | [], e => (e, [])
  | sh :: shs, e =>
    let r := Exec.trainEpoch be smp sh data e
    let rs := trainEpochs be smp data shs r.1
    (rs.1, r.2 :: rs.2)

/-- A shuffle of the data: it permutes the indices. -/
def Reorders (n : Nat) (sh : List Nat → List Nat) : Prop := (sh (List.range n)).Perm (List.range n)

end GT.Spec
