import Verif.Spec.RecodeAvx
import Verif.Spec.Neon

/-! # What it means that the coding of the features does not matter on the NEON backend (C100) -/

namespace GT.Spec

/-- The second NEON block is the first over `n` features in the new coding, with vector generator `g`. Nothing is said about the padding. -/
structure Recoding.NeonBlock (r : Recoding) (n : Nat) (b : NBlock) (g : VRng) (d : NBlock) : Prop where
  cfg      : d.cfg = b.cfg
  nClasses : d.nClasses = b.nClasses
  votes    : d.votes = b.votes
  fast     : d.fast = b.fast
  vrng     : d.vrng = g
  clauses  : d.clauses.map (fun c => face (neonUnpad n c)) = b.clauses.map fun c => face (r.clause (neonUnpad n c))

/-- Both have crashed, or the second block holds the clauses of the first in the new coding, with the same outputs, and the same votes. -/
def SameRecodedNeon (r : Recoding) (n : Nat) : Option NBlock → Option NBlock → Prop
  | none, none => True
  | some b, some d =>
    d.clauses.map (fun c => face (neonUnpad n c)) = b.clauses.map (fun c => face (r.clause (neonUnpad n c))) ∧ d.votes = b.votes
  | _, _ => False

end GT.Spec
