import Verif.Model.Conv
import Verif.Spec.Avx2

/-! # What convolutional clauses should output (C41) -/

namespace GT.Spec

/-- The literals of patch `k` of an example made of patches of `n` literals. -/
def patchLits (n : Nat) (x : List Nat) (k : Nat) : List Nat := (List.range n).map fun i => x.getD (k * n + i) 0

/-- The clause's conjunction holds in patch `k`. -/
def HoldsIn (c : Clause) (n : Nat) (x : List Nat) (k : Nat) : Prop := Satisfied c.pos c.neg (patchLits n x k)

/-- A dense block with a single clause. -/
def soloBlock (n nClasses : Nat) (cfg : Cfg) (c : Clause) (fast rng : Rng) : DBlock :=
  ⟨n, nClasses, cfg, [c], [], fast, rng⟩

/-- The clause stored in a padded row, with its active patch. -/
def unpadConv (n : Nat) (c : VConvClause) : ConvClause := ⟨unpad n c.base, c.patch⟩

end GT.Spec
