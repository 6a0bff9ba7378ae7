import Verif.Spec.OnePatch
import Verif.Spec.Recode
import Verif.Model.SparseExec

/-! # What it means that the numbering of the classes does not matter (C101) -/

namespace GT.Spec

/-- Another numbering of the same classes: `order` lists the old classes in their new order. -/
structure Renumbering where
  order : List Nat

/-- It renumbers `m` classes: every old class occurs once. -/
def Renumbering.Of (r : Renumbering) (m : Nat) : Prop := r.order.Perm (List.range m)

/-- The new number of an old class. -/
def Renumbering.new (r : Renumbering) (k : Nat) : Nat := r.order.idxOf k

/-- One value for each class, in the new order. -/
def Renumbering.row {α : Type} (r : Renumbering) (z : α) (v : List α) : List α := r.order.map (v.getD · z)

/-- Clauses keep their literals; their weights are put in the new order. -/
def Renumbering.clause (r : Renumbering) (c : Clause) : Clause := { c with w := r.row 0 c.w }

/-- The same for a clause of the vector backends. -/
def Renumbering.vclause (r : Renumbering) (c : VClause) : VClause := { c with w := r.row 0 c.w }

/-- The same for a sparse clause. -/
def Renumbering.sclause (r : Renumbering) (c : SClause) : SClause := { c with w := r.row 0 c.w }

/-- A dense block with the classes renumbered. All generators stay as they are. -/
def Renumbering.block (r : Renumbering) (b : DBlock) : DBlock :=
  { b with clauses := b.clauses.map r.clause, votes := r.row 0 b.votes }

/-- An AVX2 block with the classes renumbered. -/
def Renumbering.vblock (r : Renumbering) (b : VBlock) : VBlock :=
  { b with clauses := b.clauses.map r.vclause, votes := r.row 0 b.votes }

/-- A NEON block with the classes renumbered. -/
def Renumbering.nblock (r : Renumbering) (b : NBlock) : NBlock :=
  { b with clauses := b.clauses.map r.vclause, votes := r.row 0 b.votes }

/-- A convolutional block with the classes renumbered. -/
def Renumbering.cblock (r : Renumbering) (b : ConvBlock) : ConvBlock :=
  { b with clauses := b.clauses.map fun c => { c with base := r.clause c.base }, votes := r.row 0 b.votes }

/-- A sparse block with the classes renumbered: each class takes its active literals along. -/
def Renumbering.sblock (r : Renumbering) (b : SBlock) : SBlock :=
  { b with clauses := b.clauses.map r.sclause, al := r.row ([], 0) b.al, votes := r.row 0 b.votes }

/-- The calls with renumbered labels. -/
def Renumbering.calls {E : Type} (r : Renumbering) (cs : List (E × Option Nat)) : List (E × Option Nat) :=
  cs.map fun c => (c.1, c.2.map r.new)

/-- The class the standard library picks for a number `u` is the first `k` for which the weights up to `k` reach `u` times the total weight.
So each class owns an interval of numbers as long as its part of the total weight. This is where the interval of class `k` begins. -/
def shareStart (ws : List Rat) (k : Nat) : Rat := (ws.take k).sum / ws.sum

/-- The number as far into the interval of the same class under the new numbering as `u` is in the old one. -/
def Renumbering.number (r : Renumbering) (ws : List Rat) (u : Rat) : Rat :=
  shareStart (r.row 0 ws) (r.new (discreteSample ws u)) + (u - shareStart ws (discreteSample ws u))

/-- The two feedback blocks have the same votes, class for class, the same threshold, and have seen as many examples. -/
def SameFb (r : Renumbering) (f f' : FB) : Prop :=
  f'.nClasses = f.nClasses ∧ f'.threshold = f.threshold ∧ f'.total = f.total ∧ f'.votes = r.row 0 f.votes

/-- At all times in a history of training and prediction calls: the two machines hold the same votes and clauses, class for class, and would
give the same votes to any example; and for the negative class the second draws the number of the first, moved by `Renumbering.number`. -/
def RunsRenumbered {B E : Type} (r : Renumbering) (be : Backend B E) (mk : B → B) (calls : List (E × Option Nat)) (e d : Exec B) : Prop :=
  ∀ k,
    let before := (runCalls be discreteSample (calls.take k) e).1
    let after := (runCalls be discreteSample (calls.take (k + 1)) e).1
    let before' := (runCalls be discreteSample (r.calls (calls.take k)) d).1
    SameFb r before.fb before'.fb ∧ before'.blocks = before.blocks.map mk ∧
    (∀ x, SameFb r (before.evalOne be x).1.fb (before'.evalOne be x).1.fb) ∧
    ∀ x y, calls[k]? = some (x, some y) → before'.fb.rng.next.1 = r.number after.fb.updProb before.fb.rng.next.1

/-- A training session with several classes, labels among them, a threshold, and numbers strictly between 0 and 1. -/
structure ProperSession {B E : Type} (m : Nat) (calls : List (E × Option Nat)) (e : Exec B) : Prop where
  classes : 2 ≤ m
  labels : ∀ c ∈ calls, ∀ y, c.2 = some y → y < m
  threshold : 1 ≤ e.fb.threshold
  numbers : ∀ i, 0 < e.fb.rng.draw i ∧ e.fb.rng.draw i < 1
  nClasses : e.fb.nClasses = m
  votes : e.fb.votes.length = m

/-- The second machine at the start: the same feedback block with renumbered votes, the numbers `g`, and renumbered blocks. -/
def Renumbering.exec {B : Type} (r : Renumbering) (mk : B → B) (e : Exec B) (g : Nat → Rat) : Exec B :=
  { e with fb := { e.fb with votes := r.row 0 e.fb.votes, rng := ⟨g, e.fb.rng.pos⟩ }, blocks := e.blocks.map mk }

/-- Class `k` has more votes than any other. -/
def Winner (votes : List Int) (k : Nat) : Prop := ∃ v, votes[k]? = some v ∧ ∀ (i : Nat) (w : Int), votes[i]? = some w → i ≠ k → w < v

/-- Some class has more votes than any other. -/
def NoTie (votes : List Int) : Prop := ∃ k, Winner votes k

end GT.Spec
