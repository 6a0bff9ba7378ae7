import Verif.Model.Feedback

/-! # What the feedback and prediction properties mean -/

namespace GT.Spec

/-- `k` is the lowest-numbered class with the most votes. -/
def LowestMax (votes : List Int) (k : Nat) : Prop :=
  ∃ v, votes[k]? = some v ∧ ∀ (i : Nat) (w : Int), votes[i]? = some w → w ≤ v ∧ (i < k → w < v)

/-- `v` limited to the interval [-T, T]. -/
def Clamped (T : Rat) (v : Int) (c : Rat) : Prop :=
  ((v : Rat) ≤ -T → c = -T) ∧ (T ≤ (v : Rat) → c = T) ∧ (-T ≤ (v : Rat) → (v : Rat) ≤ T → c = v)

/-- What is assumed of the library's sampler: with at least one positive weight it returns an index of
positive weight. -/
def SamplerSound (smp : List Rat → Rat → Nat) : Prop :=
  ∀ ws u, (∀ w ∈ ws, 0 ≤ w) → (∃ w ∈ ws, 0 < w) → 0 < u → u < 1 → ∃ w, ws[smp ws u]? = some w ∧ 0 < w

/-- Every index of positive weight is returned for some draw. -/
def SamplerComplete (smp : List Rat → Rat → Nat) : Prop :=
  ∀ ws i w, (∀ w ∈ ws, 0 ≤ w) → ws[i]? = some w → 0 < w → ∃ u, 0 < u ∧ u < 1 ∧ smp ws u = i

end GT.Spec
