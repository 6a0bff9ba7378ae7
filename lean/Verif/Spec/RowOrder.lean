import Verif.Spec.Executor

/-! # What it means that the order of the rows does not matter -/

namespace GT.Spec

/-- An order of the rows of a data set: which row of the original comes first, second, and so on. -/
structure RowOrder where
  order : List Nat

namespace RowOrder

/-- It is an order of `n` rows: each of them occurs once. -/
def Of (p : RowOrder) (n : Nat) : Prop := p.order.Perm (List.range n)

/-- The rows of `data` in this order. -/
def rows {α : Type} (p : RowOrder) (data : List α) : List α := p.order.filterMap (data[·]?)

/-- Where row `i` of the original is now. -/
def place (p : RowOrder) (i : Nat) : Nat := p.order.idxOf i

/-- The visiting order that visits the same examples when the rows are in this order. -/
def visit (p : RowOrder) (is : List Nat) : List Nat := is.map p.place

/-- The shuffles, one for each epoch, that visit the same examples as `shuffle` when the rows are in this order. -/
def shuffles (p : RowOrder) (shuffle : Nat → List Nat → List Nat) : Nat → List Nat → List Nat :=
  fun ep l => p.visit (shuffle ep l)

end RowOrder

/-- A score that does not depend on the order in which labels and predictions are listed, as long as it is the same for both. -/
def ScoresPairs (metric : List Nat → List Nat → Rat) : Prop :=
  ∀ (p : RowOrder) (ys ks : List Nat), ys.length = ks.length → p.Of ys.length →
    metric (p.rows ys) (p.rows ks) = metric ys ks

/-- Share of the predictions that are right (the documented effect of scikit-learn's `accuracy_score`, the default score). -/
def accuracyScore (ys ks : List Nat) : Rat :=
  (((ys.zip ks).filter fun p => p.1 = p.2).length : Rat) / ys.length

end GT.Spec
