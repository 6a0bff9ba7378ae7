import Verif.Model.Dataset

/-! # What the XOR data set should be -/

namespace GT.Spec

/-- What numpy documents about its generator: `randint(low, high, size=(rows, cols))` with `low < high` and sizes that are
not negative is a `rows` by `cols` array of integers from `low` to `high - 1`; `random(n)` is `n` numbers in [0, 1). -/
structure NumpyRandom {S : Type} (np : NpRandom S) : Prop where
  randint : ∀ (low high rows cols : Int) (g g' : S) (x : List (List Int)), np.randint low high rows cols g = .ok (x, g') →
    (x.length : Int) = rows ∧ ∀ r ∈ x, (r.length : Int) = cols ∧ ∀ v ∈ r, low ≤ v ∧ v < high
  randint_ok : ∀ (low high rows cols : Int) (g : S), low < high → 0 ≤ rows → 0 ≤ cols →
    ∃ r, np.randint low high rows cols g = .ok r
  random : ∀ (n : Int) (g g' : S) (u : List Rat), np.random n g = .ok (u, g') →
    (u.length : Int) = n ∧ ∀ v ∈ u, 0 ≤ v ∧ v < 1
  random_ok : ∀ (n : Int) (g : S), 0 ≤ n → ∃ r, np.random n g = .ok r

/-- A table of binary examples: `rows` rows of `cols` values, each 0 or 1. -/
def BinaryTable (x : List (List Nat)) (rows cols : Int) : Prop :=
  (x.length : Int) = rows ∧ ∀ r ∈ x, (r.length : Int) = cols ∧ ∀ v ∈ r, v = 0 ∨ v = 1

/-- The exclusive or of the first two values of a row: 1 if they differ, else 0. -/
def xorLabel (r : List Nat) : Nat := if r[0]? = r[1]? then 0 else 1

end GT.Spec
