import Verif.Model.PySparse

/-! # What the properties of the pure-Python sparse clause block mean -/

namespace GT.Spec

/-- The literals a row tracks, each with the state at the same position. -/
def tracked (r : PRow) : List (Nat × Int) := r.idx.zip r.st

/-- The row includes literal `l`: it is tracked with a positive state. -/
def RowOn (r : PRow) (l : Nat) : Prop := ∃ v, (l, v) ∈ tracked r ∧ 0 < v

/-- The conjunction of a clause on an example, given as the literals that are 1: every included literal is in it, no included negated
literal is. -/
def PSHolds (c : PSClause) (x : List Nat) : Prop := (∀ l, RowOn c.pos l → l ∈ x) ∧ ∀ l, RowOn c.neg l → l ∉ x

/-- One state for each tracked literal, and no literal tracked twice. -/
def RowSound (r : PRow) : Prop := r.idx.length = r.st.length ∧ r.idx.Nodup

/-- At most seven active literals, none twice. -/
def AlSound (al : List Nat) : Prop := al.length ≤ 7 ∧ al.Nodup

/-- A clause for `n` classes whose rows are sound and have no state below -20; its literal count is 0, as at the start. -/
structure PSClauseSound (n : Nat) (c : PSClause) : Prop where
  pos : RowSound c.pos
  neg : RowSound c.neg
  weights : c.w.length = n
  posFloor : ∀ v ∈ c.pos.st, -20 ≤ v
  negFloor : ∀ v ∈ c.neg.st, -20 ≤ v
  count : c.cnt = 0

/-- Everything in a block fits together. -/
structure PSSound (b : PSBlock) : Prop where
  clauses : ∀ c ∈ b.clauses, PSClauseSound b.nClasses c
  classes : b.al.length = b.nClasses
  active : ∀ a ∈ b.al, AlSound a.1 ∧ AlSound a.2
  outs : ∀ os, b.outs = some os → os.length = b.clauses.length

/-- The class numbers of all updates exist. -/
def LabelsBelow (n : Nat) (ops : List BlockOp) : Prop :=
  ∀ op ∈ ops, ∀ x fb, op = .trainUpdate x fb → fb.posClass < n ∧ fb.negClass < n

/-- No update comes before the first example. -/
def Started (b : PSBlock) (ops : List BlockOp) : Prop := b.outs ≠ none ∨ ∀ x fb, ops.head? ≠ some (.trainUpdate x fb)

/-- The example of a call. -/
def exampleOf : BlockOp → List Nat
  | .trainExample x => x
  | .evalExample x => x
  | .trainUpdate x _ => x

/-- Literal `l` is known to the block: tracked by some clause or active for some class. -/
def Known (b : PSBlock) (l : Nat) : Prop :=
  (∃ c ∈ b.clauses, l ∈ c.pos.idx ∨ l ∈ c.neg.idx) ∨ ∃ a ∈ b.al, l ∈ a.1 ∨ l ∈ a.2

/-- The same literals at the same positions, and the state of each tracked literal `l` moved by `d l` at most `n l` times. -/
def RowMoves (d : Nat → Int) (n : Nat → Nat) (r r' : PRow) : Prop :=
  r'.idx = r.idx ∧ r'.st.length = r.st.length ∧
    ∀ (i l : Nat) (v : Int), r.idx[i]? = some l → r.st[i]? = some v → ∃ k : Nat, k ≤ n l ∧ r'.st[i]? = some (v + k * d l)

/-- The same literals at the same positions, and the state `v` of each tracked literal `l` replaced by `f l v`. -/
def RowBecomes (f : Nat → Int → Int) (r r' : PRow) : Prop :=
  r'.idx = r.idx ∧ r'.st.length = r.st.length ∧
    ∀ (i l : Nat) (v : Int), r.idx[i]? = some l → r.st[i]? = some v → r'.st[i]? = some (f l v)

/-- Row `r'` is row `r` followed by literals with state 0: those of `al` that are wanted and not tracked, in their order. -/
def RowAdopts (wanted : Nat → Bool) (al : List Nat) (r r' : PRow) : Prop :=
  r'.idx = r.idx ++ al.filter (fun l => decide (l ∉ r.idx) && wanted l) ∧
  r'.st = r.st ++ (al.filter (fun l => decide (l ∉ r.idx) && wanted l)).map fun _ => 0

/-- The active literals after meeting `l`: added at the end if new, only the last seven kept. -/
def remember (al : List Nat) (l : Nat) : List Nat :=
  if l ∈ al then al else (al ++ [l]).drop (al.length + 1 - 7)

/-- The active literals after an example: its untracked literals are met one after the other. -/
def rememberAll (r : PRow) (x al : List Nat) : List Nat := (x.filter fun l => decide (l ∉ r.idx)).foldl remember al

/-- The random numbers drawn for the literals of `x`: one for each row that tracks one. -/
def drawsFor (c : PSClause) (x : List Nat) : Nat :=
  x.countP (fun l => decide (l ∈ c.pos.idx)) + x.countP (fun l => decide (l ∈ c.neg.idx))

/-- The literals of `idx` that are not in `x`. -/
def absent (x idx : List Nat) : Nat := idx.countP fun l => decide (l ∉ x)

/-- Type I feedback of a clause that was 1: a tracked literal of the example goes up in the positive row with probability `(s-1)/s` and
down in the negative one with probability `1/s`, a tracked literal that is not in it goes down in the positive row with
probability `1/s` and up in the negative one with probability `(s-1)/s`; each has its own random number `u n`. -/
structure Reward (s : Rat) (x : List Nat) (u : Nat → Rat) (c c' : PSClause) : Prop where
  posIdx : c'.pos.idx = c.pos.idx
  negIdx : c'.neg.idx = c.neg.idx
  posLen : c'.pos.st.length = c.pos.st.length
  negLen : c'.neg.st.length = c.neg.st.length
  posIn : ∀ (i j l : Nat) (v : Int), x[i]? = some l → c.pos.idx[j]? = some l → c.pos.st[j]? = some v →
    c'.pos.st[j]? = some (if u (drawsFor c (x.take i)) ≤ (s - 1) / s then v + 1 else v)
  negIn : ∀ (i j l : Nat) (v : Int), x[i]? = some l → c.neg.idx[j]? = some l → c.neg.st[j]? = some v →
    c'.neg.st[j]? = some (if u (drawsFor c (x.take i) + if l ∈ c.pos.idx then 1 else 0) ≤ 1 / s then v - 1 else v)
  posOut : ∀ (j l : Nat) (v : Int), l ∉ x → c.pos.idx[j]? = some l → c.pos.st[j]? = some v →
    c'.pos.st[j]? = some (if u (drawsFor c x + absent x (c.pos.idx.take j)) ≤ 1 / s then v - 1 else v)
  negOut : ∀ (j l : Nat) (v : Int), l ∉ x → c.neg.idx[j]? = some l → c.neg.st[j]? = some v →
    c'.neg.st[j]? = some (if u (drawsFor c x + absent x c.pos.idx + absent x (c.neg.idx.take j)) ≤ (s - 1) / s then v + 1 else v)

/-- Type I feedback of a clause that was 0: every state goes down with probability `1/s`, each with its own random number. -/
structure Forget (s : Rat) (u : Nat → Rat) (c c' : PSClause) : Prop where
  posIdx : c'.pos.idx = c.pos.idx
  negIdx : c'.neg.idx = c.neg.idx
  posLen : c'.pos.st.length = c.pos.st.length
  negLen : c'.neg.st.length = c.neg.st.length
  pos : ∀ (j : Nat) (v : Int), c.pos.st[j]? = some v → c'.pos.st[j]? = some (if u j ≤ 1 / s then v - 1 else v)
  neg : ∀ (j : Nat) (v : Int), c.neg.st[j]? = some v → c'.neg.st[j]? = some (if u (c.pos.st.length + j) ≤ 1 / s then v - 1 else v)

/-- Type II feedback of a clause that was 1: tracked literals that would make it 0 and are not included go up by one, active ones of
the class that would make it 0 are tracked from now on, with state 0. -/
def Reject (x : List Nat) (a : List Nat × List Nat) (c c' : PSClause) : Prop :=
  ∃ p q, RowBecomes (fun l v => if l ∉ x ∧ v ≤ 0 then v + 1 else v) c.pos p ∧
    RowBecomes (fun l v => if l ∈ x ∧ v ≤ 0 then v + 1 else v) c.neg q ∧
    RowAdopts (fun l => decide (l ∉ x)) a.1 p c'.pos ∧ RowAdopts (fun l => decide (l ∈ x)) a.2 q c'.neg

/-- The random numbers from here on. -/
def Rng.ahead (g : Rng) (n : Nat) : Rat := g.draw (g.pos + n)

/-- Feedback to a clause for class `j` with weight `w` towards `target` (1 or -1): type I when the weight has the sign of the target,
type II when it has the other and the clause was 1, otherwise none. The weight moves away from zero under type I of a clause
that was 1, towards zero under type II. -/
inductive Fed (s : Rat) (x : List Nat) (j : Nat) (target : Int) (out : Nat) (c : PSClause) (al : List (List Nat × List Nat)) (g : Rng) :
    PSClause → List (List Nat × List Nat) → Rng → Prop
  | reward (w : Int) (a : List Nat × List Nat) (c' : PSClause) (n : Nat) (hw : c.w[j]? = some w) (ha : al[j]? = some a)
      (ht : (0 ≤ w ↔ 0 < target)) (ho : out = 1) (hr : x.Nodup → Reward s x (Rng.ahead g) c c') (hc : c'.cnt = c.cnt)
      (hw' : c'.w = c.w.set j (wrap8 (if 0 ≤ w then w + 1 else w - 1))) :
      Fed s x j target out c al g c' (al.set j (rememberAll c.pos x a.1, rememberAll c.neg x a.2)) { g with pos := g.pos + n }
  | forget (w : Int) (c' : PSClause) (n : Nat) (hw : c.w[j]? = some w) (ht : (0 ≤ w ↔ 0 < target)) (ho : out ≠ 1)
      (hf : Forget s (Rng.ahead g) c c') (hc : c'.cnt = c.cnt) (hw' : c'.w = c.w) :
      Fed s x j target out c al g c' al { g with pos := g.pos + n }
  | reject (w : Int) (a : List Nat × List Nat) (c' : PSClause) (hw : c.w[j]? = some w) (ha : al[j]? = some a)
      (ht : ¬ (0 ≤ w ↔ 0 < target)) (ho : out = 1) (hr : Reject x a c c') (hc : c'.cnt = c.cnt)
      (hw' : c'.w = c.w.set j (wrap8 (if 0 ≤ w then w - 1 else w + 1))) : Fed s x j target out c al g c' al g
  | none (w : Int) (hw : c.w[j]? = some w) (ht : ¬ (0 ≤ w ↔ 0 < target)) (ho : out ≠ 1) : Fed s x j target out c al g c al g

/-- One random number decides whether there is feedback. -/
def MaybeFed (s : Rat) (x : List Nat) (j : Nat) (target : Int) (p : Rat) (out : Nat) (c : PSClause) (al : List (List Nat × List Nat))
    (g : Rng) (c' : PSClause) (al' : List (List Nat × List Nat)) (g' : Rng) : Prop :=
  if g.draw g.pos < p then Fed s x j target out c al { g with pos := g.pos + 1 } c' al' g'
  else c' = c ∧ al' = al ∧ g' = { g with pos := g.pos + 1 }

/-- The literals with a state below -20 are gone, the others are as before. -/
def Dropped (c c' : PSClause) : Prop :=
  tracked c'.pos = (tracked c.pos).filter (fun p => decide (-20 ≤ p.2)) ∧
  tracked c'.neg = (tracked c.neg).filter (fun p => decide (-20 ≤ p.2)) ∧ c'.w = c.w ∧ c'.cnt = c.cnt

/-- One clause in `train_update`: feedback for the true class, then for the other class, then dropping. -/
def ClauseTrained (s : Rat) (x : List Nat) (fb : Feedback) (out : Nat) (c : PSClause) (al : List (List Nat × List Nat)) (g : Rng)
    (c' : PSClause) (al' : List (List Nat × List Nat)) (g' : Rng) : Prop :=
  ∃ c1 al1 g1 c2, MaybeFed s x fb.posClass 1 fb.posProb out c al g c1 al1 g1 ∧
    MaybeFed s x fb.negClass (-1) fb.negProb out c1 al1 g1 c2 al' g' ∧ Dropped c2 c'

/-- All clauses in `train_update`, in order, sharing the active literals and the generator. -/
inductive ClausesTrained (s : Rat) (x : List Nat) (fb : Feedback) :
    List Nat → List PSClause → List (List Nat × List Nat) → Rng → List PSClause → List (List Nat × List Nat) → Rng → Prop
  | nil (al : List (List Nat × List Nat)) (g : Rng) : ClausesTrained s x fb [] [] al g [] al g
  | cons {o : Nat} {os : List Nat} {c c' : PSClause} {cs cs' : List PSClause} {al al' al'' : List (List Nat × List Nat)} {g g' g'' : Rng}
      (h : ClauseTrained s x fb o c al g c' al' g') (t : ClausesTrained s x fb os cs al' g' cs' al'' g'') :
      ClausesTrained s x fb (o :: os) (c :: cs) al g (c' :: cs') al'' g''

/-- The rows of a block in their order: the positive ones, then the negative ones. -/
def rows (cs : List PSClause) : List PRow := cs.map (·.pos) ++ cs.map (·.neg)

/-- What `set_clause_output` takes for a clause without literals: row `k` and row `k + n_classes` are empty. -/
def Shortcut (n : Nat) (cs : List PSClause) (k : Nat) : Prop :=
  ∃ p q, (rows cs)[k]? = some p ∧ p.idx = [] ∧ (rows cs)[k + n]? = some q ∧ q.idx = []

/-- The votes for class `j` when clause `k` has output `os k`. -/
def voteOf (os : List Nat) (cs : List PSClause) (j : Nat) : Int :=
  ((List.range cs.length).map fun k => ((os[k]?.getD 0 : Nat) : Int) * (((cs[k]?).map fun c => c.w[j]?.getD 0).getD 0)).sum

end GT.Spec
