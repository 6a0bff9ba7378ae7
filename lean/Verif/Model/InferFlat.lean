import Verif.Model.Inference
import Verif.Model.Flat

/-!
# Inference on its arrays with checked accesses (src/inference.hpp)

The same functions as in `Verif.Model.Inference`, statement by statement, with the example buffer and with every array
access and every `int32_t` addition checked: `none` is undefined behaviour in C++. An example is the memory from the pointer
handed to `predict` on.
-/

namespace GT

/-- An `Inference` object together with its example buffer (src/inference.hpp:40, 227). -/
structure InfM where
  inf : Inf
  buf : List Nat
deriving DecidableEq, Repr

/-- The constructor (src/inference.hpp:25-42): `new example_type[...]` leaves the buffer with whatever was in memory, `junk`.
`none` when the size computation overflows. -/
def InfM.new (featImp litImp exclNeg : Bool) (nLits nClasses : Nat) (nExpl : Int) (junk : Nat → Nat) :
    Option (Except String InfM) := do
  let n ← i32 (nLits * 2)
  match Inf.new featImp litImp exclNeg nLits nClasses nExpl with
  | .error e => return .error e
  | .ok i => return .ok ⟨i, (List.range n.toNat).map junk⟩

/-- `set_rules` (src/inference.hpp:64-68). -/
def InfM.setRules (m : InfM) (rules : List (List Nat)) (weights : List (List Int)) : InfM :=
  { m with inf := m.inf.setRules rules weights }

/-- `set_features` (src/inference.hpp:70-83). `m_num_explanations` is the size of the importance vector. -/
def InfM.setFeatures (m : InfM) (f : List (List Nat)) : Except String InfM :=
  if m.inf.featImp then
    if f.length ≠ m.inf.impFeats.length then .error "RuntimeError"
    else .ok { m with inf := { m.inf with features := f } }
  else .error "RuntimeError"

/-- `set_empty_class_output` (src/inference.hpp:53-56). -/
def InfM.setEmptyClass (m : InfM) (k : Nat) : InfM := { m with inf := { m.inf with emptyClass := k } }

/-- `get_empty_class_output` (src/inference.hpp:58-61). -/
def InfM.getEmptyClass (m : InfM) : Nat := m.inf.emptyClass

/-- `memcpy(m_example, example, ...)` (src/inference.hpp:128). -/
def copyC (x : List Nat) (n : Nat) (buf : List Nat) : Option (List Nat) :=
  forLoop (fun k b => do
    let v ← rd x k
    wr b k v) n 0 buf

/-- `m_example[m_num_literals+i] = !m_example[i]` for all literals (src/inference.hpp:129-130). -/
def negateC (n : Nat) (buf : List Nat) : Option (List Nat) :=
  forLoop (fun k b => do
    let v ← rd b k
    let j ← i32 (n + k)
    wr b j (if v = 0 then 1 else 0)) n 0 buf

/-- The literal loop (src/inference.hpp:134-141). -/
def ruleHoldsC (buf : List Nat) : List Nat → Option Bool
  | [] => some true
  | l :: ls => do
    let v ← rd buf l
    if v = 0 then return false else ruleHoldsC buf ls

/-- `m_votes[i] += m_weights[clause_k][i]` for all classes (src/inference.hpp:145-146). -/
def addVotesC (weights : List (List Int)) (k nClasses : Nat) (votes : List Int) : Option (List Int) :=
  forLoop (fun c v => do
    let row ← rd weights k
    let w ← rd row c
    let a ← rd v c
    let s ← i32 (a + w)
    wr v c s) nClasses 0 votes

/-- The rule loop (src/inference.hpp:132-149): active clauses and votes. -/
def rulesC (i : Inf) (buf : List Nat) (s : List Nat × List Int) : Option (List Nat × List Int) :=
  forLoop (fun k s => do
    let r ← rd i.rules k
    if ← ruleHoldsC buf r then
      let votes ← addVotesC i.weights k i.nClasses s.2
      return (s.1 ++ [k], votes)
    else return s) i.rules.length 0 s

/-- The final argmax (src/inference.hpp:154-165). -/
def bestC (nClasses : Nat) (votes : List Int) : Option Nat := do
  let v ← rd votes 0
  let r ← forLoop (fun c (b : Nat × Int) => do
    let v ← rd votes c
    if v > b.2 then return (c, v) else return b) (nClasses - 1) 1 (0, v)
  return r.1

/-- `predict` (src/inference.hpp:122-166). -/
def InfM.predict (m : InfM) (x : List Nat) : Option (InfM × Nat) := do
  let buf ← copyC x m.inf.nLits m.buf
  let buf ← negateC m.inf.nLits buf
  let s ← rulesC m.inf buf ([], List.replicate m.inf.votes.length 0)
  let m := ⟨{ m.inf with active := s.1, votes := s.2 }, buf⟩
  if s.1.length = 0 then return (m, m.inf.emptyClass)
  else return (m, ← bestC m.inf.nClasses s.2)

/-- `v[k] += w` for every index of a list (src/inference.hpp:190-193, 199-202). -/
def addAtC (w : Int) : List Nat → List Int → Option (List Int)
  | [], v => some v
  | k :: ks, v => do
    let a ← rd v k
    let s ← i32 (a + w)
    addAtC w ks (← wr v k s)

/-- The loop of `calculate_importance` over the active clauses (src/inference.hpp:177-204). -/
def importanceC (i : Inf) (y : Nat) : List Nat → List Int → List Int → Option (List Int × List Int)
  | [], lits, feats => some (lits, feats)
  | k :: ks, lits, feats => do
    let row ← rd i.weights k
    let w ← rd row y
    if i.exclNeg ∧ w < 1 then importanceC i y ks lits feats
    else
      let feats ← if i.featImp then do addAtC w (← rd i.features k) feats else some feats
      let lits ← if i.litImp then do addAtC w (← rd i.rules k) lits else some lits
      importanceC i y ks lits feats

/-- `calculate_importance` (src/inference.hpp:168-205). -/
def InfM.explain (m : InfM) (y : Nat) : Option InfM := do
  let r ← importanceC m.inf y m.inf.active
    (if m.inf.litImp then List.replicate m.inf.impLits.length 0 else m.inf.impLits)
    (if m.inf.featImp then List.replicate m.inf.impFeats.length 0 else m.inf.impFeats)
  return { m with inf := { m.inf with impLits := r.1, impFeats := r.2 } }

/-- `Predictor` (green_tsetlin/predictor.py:14-39) with the example buffer of its backend. -/
structure PredM where
  p   : Predictor
  buf : List Nat
deriving DecidableEq, Repr

/-- The backend object of a predictor (green_tsetlin/predictor.py:38). -/
def PredM.back (q : PredM) : InfM := ⟨q.p.inf, q.buf⟩

/-- The predictor with its backend object in another state (green_tsetlin/predictor.py:38). -/
def PredM.withBack (q : PredM) (m : InfM) : PredM := ⟨{ q.p with inf := m.inf }, m.buf⟩

/-- `Predictor.from_ruleset` with `_set_ruleset` and `_create_backend_inference`
(green_tsetlin/predictor.py:41-47, 64-69, 166-172). -/
def PredM.fromRuleset (rs : Rules) (explanation : String) (exclNeg : Bool) (junk : Nat → Nat) :
    Option (Except String PredM) :=
  match parseExpl explanation with
  | .error e => some (.error e)
  | .ok ex => do
    let f := backendFlags ex exclNeg
    match ← InfM.new f.1 f.2.1 f.2.2 rs.nLits rs.nClasses (-1) junk with
    | .error e => return .error e
    | .ok m => return .ok ⟨⟨ex, (m.setRules rs.rules rs.weights).inf, none, none⟩, m.buf⟩

/-- `set_target_names` (green_tsetlin/predictor.py:86-88). -/
def PredM.setTargetNames (q : PredM) (names : List String) : PredM := { q with p := q.p.setTargetNames names }

/-- `predict` (green_tsetlin/predictor.py:91-107); `x` is the memory behind the array handed to the backend. -/
def PredM.predict (q : PredM) (x : List Nat) : Option (PredM × Except String Target) := do
  let r ← q.back.predict x
  let q := q.withBack r.1
  let q := { q with p := { q.p with last := some r.2 } }
  return (q, match q.p.names with
    | none => .ok (.idx r.2)
    | some ns => match ns[r.2]? with
      | some s => .ok (.name s)
      | none => .error "IndexError")

/-- The class `explain("target", target)` passes to the backend (green_tsetlin/predictor.py:130-139). -/
def explainClass (p : Predictor) (target : Option Target) : Except String Nat :=
  match target with
  | none => match p.last with
    | some k => .ok k
    | none => .error "TypeError"
  | some t => match p.names with
    | none => match t with
      | .idx k => .ok k
      | .name _ => .error "TypeError"
    | some ns => match t with
      | .name s => match invName ns 0 s with
        | some k => .ok k
        | none => .error "ValueError"
      | .idx _ => .error "ValueError"

/-- `explain("target", target)` (green_tsetlin/predictor.py:123-142). -/
def PredM.explainTarget (q : PredM) (target : Option Target) : Option (PredM × Except String Explanation) :=
  if q.p.expl = .none then some (q, .error "ValueError")
  else
    match explainClass q.p target with
    | .error e => some (q, .error e)
    | .ok k => do
      let m ← q.back.explain k
      return (q.withBack m, .ok (q.p.explanation m.inf))

/-- The loop of `explain("all")` (green_tsetlin/predictor.py:144-148). -/
def PredM.explainLoop (p : Predictor) : List Nat → InfM → Option (InfM × List (Nat × Explanation))
  | [], m => some (m, [])
  | k :: ks, m => do
    let m ← m.explain k
    let r ← PredM.explainLoop p ks m
    return (r.1, (k, p.explanation m.inf) :: r.2)

/-- `explain("all")` (green_tsetlin/predictor.py:123-127, 144-153). -/
def PredM.explainAll (q : PredM) : Option (PredM × Except String (List (Nat × Explanation))) :=
  if q.p.expl = .none then some (q, .error "ValueError")
  else do
    let r ← PredM.explainLoop q.p (List.range q.p.inf.nClasses) q.back
    return (q.withBack r.1,
      match q.p.names with
      | none => .ok r.2
      | some _ => if r.2 = [] then .ok [] else .error "TypeError")

end GT
