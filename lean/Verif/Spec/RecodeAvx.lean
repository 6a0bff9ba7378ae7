import Verif.Spec.Recode
import Verif.Spec.Avx2

/-! # What it means that the coding of the features does not matter on the AVX2 backend (C100) -/

namespace GT.Spec

/-- The bytes of the next `k` vectors of `L` bytes of a vector generator. -/
def vectorBytes (L : Nat) (g : VRng) (k : Nat) : List Byte :=
  (List.range k).flatMap fun i => (List.range L).map fun l => g.draw (g.pos + i) l

/-- The second generator has the bytes of the first in another order: again and again both have produced the same bytes, each as often. -/
def ReshuffledBytes (L : Nat) (g h : VRng) : Prop := ∀ k, ∃ m, k ≤ m ∧ (vectorBytes L h m).Perm (vectorBytes L g m)

/-- The second AVX2 block is the first over `n` features in the new coding, with vector generator `g`. Nothing is said about the padding. -/
structure Recoding.AvxBlock (r : Recoding) (n : Nat) (b : VBlock) (g : VRng) (d : VBlock) : Prop where
  cfg      : d.cfg = b.cfg
  nClasses : d.nClasses = b.nClasses
  votes    : d.votes = b.votes
  fast     : d.fast = b.fast
  vrng     : d.vrng = g
  clauses  : d.clauses.map (visible n) = b.clauses.map fun c => r.clause (visible n c)

/-- The second call is the first with its example of `n` features in the new coding. -/
def Recoding.AvxCall (r : Recoding) (n : Nat) (c c' : Mem × Option Nat) : Prop :=
  unpadExample n c'.1 = r.lits (unpadExample n c.1) ∧ c'.2 = c.2

/-- The second block holds the clauses of the first in the new coding, with the same outputs, and the same votes. -/
def SameRecodedAvx (r : Recoding) (n : Nat) (b d : VBlock) : Prop :=
  d.clauses.map (visible n) = b.clauses.map (fun c => r.clause (visible n c)) ∧ d.votes = b.votes

end GT.Spec
