import Verif.Model.Ruleset

/-!
# Inference and the predictor (src/inference.hpp, green_tsetlin/predictor.py)
-/

namespace GT

/-- `Inference`'s template flags and fields (src/inference.hpp:19-21, 208-228). -/
structure Inf where
  featImp    : Bool
  litImp     : Bool
  exclNeg    : Bool
  nLits      : Nat
  nClasses   : Nat
  emptyClass : Nat
  rules      : List (List Nat)
  weights    : List (List Int)
  features   : List (List Nat)
  active     : List Nat
  votes      : List Int
  impLits    : List Int
  impFeats   : List Int
deriving DecidableEq, Repr

/-- The constructor (src/inference.hpp:25-42). `num_explanations` is a signed int; with feature importance a
negative one makes `resize` throw (`std::length_error`). -/
def Inf.new (featImp litImp exclNeg : Bool) (nLits nClasses : Nat) (nExpl : Int) : Except String Inf :=
  if featImp ∧ nExpl < 0 then .error "length_error"
  else .ok ⟨featImp, litImp, exclNeg, nLits, nClasses, 0, [], [], [], [], List.replicate nClasses 0,
    if litImp then List.replicate (nLits * 2) 0 else [],
    if featImp then List.replicate nExpl.toNat 0 else []⟩

/-- `set_rules` (src/inference.hpp:64-68). -/
def Inf.setRules (i : Inf) (rules : List (List Nat)) (weights : List (List Int)) : Inf :=
  { i with rules := rules, weights := weights }

/-- `m_example` after the copy (src/inference.hpp:128-130): the literals followed by their negations. -/
def inferExample (x : List Nat) : List Nat := x ++ x.map (fun v => if v = 0 then 1 else 0)

/-- The literal loop of `predict` (src/inference.hpp:134-141): leaves on the first zero. A literal index
outside the buffer is undefined behaviour in C++; here it reads 0. -/
def ruleHolds (ex : List Nat) : List Nat → Bool
  | [] => true
  | l :: ls => if ex.getD l 0 = 0 then false else ruleHolds ex ls

/-- The rule loop of `predict` (src/inference.hpp:132-149): clause index, active clauses so far, votes. -/
def inferLoop (nClasses : Nat) (ex : List Nat) :
    List (List Nat) → List (List Int) → Nat → List Nat → List Int → List Nat × List Int
  | r :: rs, w :: ws, k, act, votes =>
    if ruleHolds ex r then
      inferLoop nClasses ex rs ws (k + 1) (act ++ [k])
        ((List.range nClasses).map fun i => wrap32 (votes.getD i 0 + w.getD i 0))
    else inferLoop nClasses ex rs ws (k + 1) act votes
  | _, _, _, act, votes => (act, votes)

/-- The final argmax (src/inference.hpp:154-163). -/
def inferBest : List Int → Nat → Nat → Int → Nat
  | [], _, bk, _ => bk
  | v :: vs, k, bk, bv => if v > bv then inferBest vs (k + 1) k v else inferBest vs (k + 1) bk bv

/-- `predict` (src/inference.hpp:122-166). -/
def Inf.predict (i : Inf) (x : List Nat) : Inf × Nat :=
  let r := inferLoop i.nClasses (inferExample (x.take i.nLits)) i.rules i.weights 0 []
    (List.replicate i.votes.length 0)
  let i := { i with active := r.1, votes := r.2 }
  (i, if r.1.length = 0 then i.emptyClass else inferBest r.2.tail 1 0 (r.2.headD 0))

/-- `v[k] += w` for every index of a list (src/inference.hpp:190-202). -/
def addAt (v : List Int) (ks : List Nat) (w : Int) : List Int :=
  ks.foldl (fun v k => v.set k (wrap32 (v.getD k 0 + w))) v

/-- The loop of `calculate_importance` over the active clauses (src/inference.hpp:177-204). -/
def importanceLoop (i : Inf) (y : Nat) : List Nat → List Int → List Int → List Int × List Int
  | [], lits, feats => (lits, feats)
  | k :: ks, lits, feats =>
    let w := (i.weights.getD k []).getD y 0
    if i.exclNeg ∧ w < 1 then importanceLoop i y ks lits feats
    else
      let feats := if i.featImp then addAt feats (i.features.getD k []) w else feats
      let lits := if i.litImp then addAt lits (i.rules.getD k []) w else lits
      importanceLoop i y ks lits feats

/-- `calculate_importance` (src/inference.hpp:168-205). -/
def Inf.explain (i : Inf) (y : Nat) : Inf :=
  let r := importanceLoop i y i.active
    (if i.litImp then List.replicate i.impLits.length 0 else i.impLits)
    (if i.featImp then List.replicate i.impFeats.length 0 else i.impFeats)
  { i with impLits := r.1, impFeats := r.2 }

/-- The four values of the `explanation` argument (green_tsetlin/predictor.py:22-24). -/
inductive Expl
  | none
  | literals
  | features
  | both
deriving DecidableEq, Repr

/-- What a caller gets or passes as a class: an index, or a name when target names are set
(green_tsetlin/predictor.py:86-105, 131-138). -/
inductive Target
  | idx (k : Nat)
  | name (s : String)
deriving DecidableEq, Repr

/-- `Explanation` (green_tsetlin/predictor.py:12). -/
structure Explanation where
  literals : Option (List Int)
  features : Option (List Int)
deriving DecidableEq, Repr

/-- `Predictor` (green_tsetlin/predictor.py:14-39). -/
structure Predictor where
  expl   : Expl
  inf    : Inf
  names  : Option (List String)
  last   : Option Nat
deriving DecidableEq, Repr

/-- `Predictor.__init__`'s check of `explanation` (green_tsetlin/predictor.py:22-24). -/
def parseExpl (s : String) : Except String Expl :=
  if s = "none" then .ok .none
  else if s = "literals" then .ok .literals
  else if s = "features" then .ok .features
  else if s = "both" then .ok .both
  else .error "ValueError"

/-- `_get_backend` (green_tsetlin/predictor.py:174-192): template flags (feature importance, literal
importance, exclude negative). Without explanations negatives are never excluded. -/
def backendFlags (e : Expl) (exclNeg : Bool) : Bool × Bool × Bool :=
  match e with
  | .none => (false, false, false)
  | .literals => (false, true, exclNeg)
  | .features => (true, false, exclNeg)
  | .both => (true, true, exclNeg)

/-- `Predictor.from_ruleset` with `_set_ruleset` and `_create_backend_inference`
(green_tsetlin/predictor.py:41-47, 64-69, 166-172). `n_features` is still -1 at that point. -/
def Predictor.fromRuleset (rs : Rules) (explanation : String) (exclNeg : Bool) : Except String Predictor :=
  match parseExpl explanation with
  | .error e => .error e
  | .ok ex =>
    let f := backendFlags ex exclNeg
    match Inf.new f.1 f.2.1 f.2.2 rs.nLits rs.nClasses (-1) with
    | .error e => .error e
    | .ok i => .ok ⟨ex, i.setRules rs.rules rs.weights, none, none⟩

/-- `set_target_names` (green_tsetlin/predictor.py:86-88); the inverse dictionary is computed where it is
used. -/
def Predictor.setTargetNames (p : Predictor) (names : List String) : Predictor := { p with names := some names }

/-- `{v:k for k,v in enumerate(names)}[target]` (green_tsetlin/predictor.py:88,137): a repeated name keeps its
last index. -/
def invName (names : List String) (k : Nat) (target : String) : Option Nat :=
  match names with
  | [] => none
  | n :: ns =>
    match invName ns (k + 1) target with
    | some j => some j
    | none => if n = target then some k else none

/-- `predict` (green_tsetlin/predictor.py:91-107). The copy into contiguous memory has no visible effect.
The class is remembered before the name is looked up. -/
def Predictor.predict (p : Predictor) (x : List Nat) : Predictor × Except String Target :=
  let r := p.inf.predict x
  let p := { p with inf := r.1, last := some r.2 }
  (p, match p.names with
      | none => .ok (.idx r.2)
      | some ns => match ns[r.2]? with
        | some s => .ok (.name s)
        | none => .error "IndexError")

/-- `_get_explanation_from_backend` (green_tsetlin/predictor.py:109-119). -/
def Predictor.explanation (p : Predictor) (i : Inf) : Explanation :=
  match p.expl with
  | .literals => ⟨some i.impLits, none⟩
  | .features => ⟨none, some i.impFeats⟩
  | .both => ⟨some i.impLits, some i.impFeats⟩
  | .none => ⟨none, none⟩

/-- `explain("target", target)` (green_tsetlin/predictor.py:123-142). Passing `None` or a name to the C++
method is a TypeError. -/
def Predictor.explainTarget (p : Predictor) (target : Option Target) : Predictor × Except String Explanation :=
  if p.expl = .none then (p, .error "ValueError")
  else
    let cls : Except String Nat :=
      match target with
      | none => match p.last with
        | some k => .ok k
        | none => .error "TypeError"
      | some t => match p.names with
        | none => match t with
          | .idx k => .ok k
          | .name _ => .error "TypeError"
        | some ns => match t with
          | .name s => match invName ns 0 s with
            | some k => .ok k
            | none => .error "ValueError"
          | .idx _ => .error "ValueError"
    match cls with
    | .error e => (p, .error e)
    | .ok k =>
      let i := p.inf.explain k
      ({ p with inf := i }, .ok (p.explanation i))

/-- The loop of `explain("all")` (green_tsetlin/predictor.py:144-148). -/
def Predictor.explainLoop (p : Predictor) : List Nat → Inf → Inf × List (Nat × Explanation)
  | [], i => (i, [])
  | k :: ks, i =>
    let i := i.explain k
    let r := Predictor.explainLoop p ks i
    (r.1, (k, p.explanation i) :: r.2)

/-- `explain("all")` (green_tsetlin/predictor.py:123-127, 144-153). With target names the last line iterates
over the dictionary's keys, and unpacking an integer key is a TypeError; only an empty dictionary gets
through. -/
def Predictor.explainAll (p : Predictor) : Predictor × Except String (List (Nat × Explanation)) :=
  if p.expl = .none then (p, .error "ValueError")
  else
    let r := Predictor.explainLoop p (List.range p.inf.nClasses) p.inf
    ({ p with inf := r.1 },
      match p.names with
      | none => .ok r.2
      | some _ => if r.2 = [] then .ok [] else .error "TypeError")

end GT
