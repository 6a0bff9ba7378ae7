import Verif.Spec.Pace
import Verif.Spec.ConvExec
import Verif.Spec.SparseExec

/-! # Vote sums without any limit on their size (C106) -/

namespace GT.Spec

/-- The votes of the convolutional clauses that hold in some patch of `x`, added up without any limit on their size. -/
noncomputable def trueConvVotes (m np n : Nat) (cls : List (List Int × List Int × List Int)) (x : List Nat) : List Int :=
  (List.range n).map fun k => convFiringSum m np cls x k

/-- The votes of the sparse clauses that fire on `x`, added up without any limit on their size. -/
noncomputable def trueSparseVotes (n : Nat) (cls : List (Half × Half × List Int)) (x : List Nat) : List Int :=
  (List.range n).map fun k => sFiringSum cls x k

end GT.Spec
