import Verif.Model.Files

/-! # Valid state files (C50) -/

namespace GT.Spec

/-- 16-bit weights and 8-bit clause states for the same number of clauses. -/
def ValidState (s : DenseArr) : Prop :=
  s.w.dtype = .int16 ∧ s.c.dtype = .int8 ∧ ∃ n, s.w.shape.head? = some n ∧ s.c.shape.head? = some n

/-- The name ends in `.npz`. -/
def NpzName (path : String) : Prop := ∃ stem, path.toList = stem ++ ['.', 'n', 'p', 'z']

end GT.Spec
