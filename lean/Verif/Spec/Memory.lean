import Verif.Model.Memory

namespace GT
namespace Spec

/-- A process some sequence of calls leads to. -/
def Reached (p : CbHeap) : Prop := ∃ cs, CbHeap.start.calls cs = some p

/-- `initialize(seed)` is accepted: the seed is not 0, the sparse backend with a budget is given a positive one, and the
convolutional backends know the number of patches. -/
def Accepted (p : CbHeap) (b seed : Nat) (budgetOk : Bool) : Prop :=
  seed ≠ 0 ∧ ((p.kind b).fam = .sparse → (p.kind b).budget = true → budgetOk = true) ∧
    ((p.kind b).hasPatches = true → 0 < p.nPatches b)

/-- Block `b` holds no array, but perhaps its clause outputs: so after its construction and after `cleanup()`. -/
def Empty (p : CbHeap) (b : Nat) : Prop := ∀ f, f ≠ .outputs → p.ptr b f = none

/-- A training run on the blocks `bs`: initialise all, use them in any way, clean up all. -/
def trainingRun (bs : List Nat) (seed : Nat → Nat) (budgetOk : Nat → Bool) (uses : List (Nat × Use)) : List CbCall :=
  (bs.map fun b => .initialize b (seed b) (budgetOk b)) ++ (uses.map fun x => .use x.1 x.2) ++ bs.map .cleanup

end Spec
end GT
