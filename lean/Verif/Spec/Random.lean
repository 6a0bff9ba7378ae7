import Verif.Model.Random
import Verif.Model.Neon

/-!
# What the random generators should do
-/

namespace GT.Spec

/-- A byte as the seeding of the AVX2 generator draws it. -/
def SeedByte (b : Byte) : Prop := 5 ≤ b.toNat ∧ b.toNat ≤ 251

instance (b : Byte) : Decidable (SeedByte b) := inferInstanceAs (Decidable (_ ∧ _))

/-- A number below 2^32 as the seeding of the portable generator draws it. -/
def SeedWord (n : Nat) : Prop := 15 ≤ n ∧ n < 2 ^ 32

/-- A history of calls of a NEON block; `none` when one crashed. -/
def neonRun (b : NBlock) : List VOp → Option NBlock
  | [] => some b
  | op :: ops => (b.apply op).bind fun b' => neonRun b' ops

/-- The literals of a call. -/
def opLits : VOp → Mem
  | .trainExample l => l
  | .evalExample l => l
  | .trainUpdate l _ => l

/-- In every call, feature `i` and feature `j` have the same value. -/
def TwinFeatures (ops : List VOp) (i j : Nat) : Prop := ∀ op ∈ ops, opLits op i = opLits op j

/-- The clause has the same states for feature `i` and feature `j`. -/
def TwinStates (mem : Nat) (c : VClause) (i j : Nat) : Prop :=
  c.row i = c.row j ∧ c.row (mem + i) = c.row (mem + j)

end GT.Spec
