import Verif.Model.Inference

/-!
# The C exporters (green_tsetlin/writers/simple_c.py, green_tsetlin/writers/topographical_c.py)

The exporters write C text. The text is modelled as the sequence of tokens written between the fixed header
and the fixed footer: an opening `if(c1 && c2 ...){`, a line of `votes[k] += w;` statements, and a closing
`}`. Indentation and comments are left out. A C compiler accepts the text only if every condition is
non-empty and the braces match; `execC` is the meaning of such a text.
-/

namespace GT

/-- A test written into the program: `x[i] > 0` or `x[i] == 0` (green_tsetlin/writers/simple_c.py:63-66,
green_tsetlin/writers/topographical_c.py:162-165). -/
inductive CCond
  | pos (i : Nat)
  | zero (i : Nat)
deriving DecidableEq, Repr

/-- The pieces of program text (green_tsetlin/writers/simple_c.py:68-75, green_tsetlin/writers/topographical_c.py:167-175, 185-187). -/
inductive Tok
  | ifOpen (cs : List CCond)
  | add (w : List Int)
  | close
deriving DecidableEq, Repr

/-- The test for literal number `ta` of `n` (green_tsetlin/writers/simple_c.py:63-66, green_tsetlin/writers/topographical_c.py:162-165). -/
def condOf (n ta : Nat) : CCond := if ta < n then .pos ta else .zero (ta - n)

/-- Meaning of a test in C on `uint8_t* x` (green_tsetlin/writers/simple_c.py:63-66). -/
def CCond.holds (x : List Nat) : CCond → Bool
  | .pos i => decide (x.getD i 0 > 0)
  | .zero i => decide (x.getD i 0 = 0)

/-- `votes[k] += w` for the enumerated weights, on `int16_t` (green_tsetlin/writers/simple_c.py:70). -/
def addWeightLine (v w : List Int) : List Int := List.zipWith (fun a b => wrap16 (a + b)) v w

/-- Meaning of the program text: the stack holds the outcomes of the enclosing tests. `none`: the text is not
a C program (empty condition, unbalanced braces) (the text written at green_tsetlin/writers/simple_c.py:55-75). -/
def execC (x : List Nat) : List Tok → List Bool → List Int → Option (List Int)
  | [], [], v => some v
  | [], _ :: _, _ => none
  | .ifOpen cs :: ts, st, v => if cs = [] then none else execC x ts (cs.all (·.holds x) :: st) v
  | .add w :: ts, st, v => execC x ts st (if st.all id then addWeightLine v w else v)
  | .close :: ts, _ :: st, v => execC x ts st v
  | .close :: _, [], _ => none

/-- The program around the tokens (green_tsetlin/writers/simple_c.py:40-53, 77-97, green_tsetlin/writers/topographical_c.py:56-89): `votes` is a static
array that is cleared on entry (`static`: `prev` is what the last call left), and the first class with the
most votes is returned. -/
def runC (prog : List Tok) (prev : List Int) (x : List Nat) : Option (List Int × Nat) :=
  match execC x prog [] (List.replicate prev.length 0) with
  | none => none
  | some v => some (v, inferBest v.tail 1 0 (v.headD 0))

/-- `SimpleC._write_rule` (green_tsetlin/writers/simple_c.py:55-75). -/
def simpleRule (n : Nat) (rule : List Nat) (w : List Int) : List Tok :=
  [.ifOpen (rule.map (condOf n)), .add w, .close]

/-- `SimpleC.to_file` (green_tsetlin/writers/simple_c.py:20-37), the loop over the rules. -/
def simpleC (rs : Rules) : List Tok :=
  (List.zipWith (simpleRule rs.nLits) rs.rules rs.weights).flatten

/-! ### The decision tree -/

/-- `Node` (green_tsetlin/writers/topographical_c.py:7-11). -/
inductive Node
  | mk (ta : Option Nat) (w : Option (List Int)) (childs : List Node)

/-- Equality of the sets with these elements (green_tsetlin/writers/topographical_c.py:105: `self.rules[rule_k] == path`). -/
def sameSet (a b : List Nat) : Bool := a.all (b.contains ·) && b.all (a.contains ·)

/-- `self.rules[rule_k] - path` (green_tsetlin/writers/topographical_c.py:109). -/
def restOf (rule path : List Nat) : List Nat := rule.filter (fun t => !path.contains t)

/-- `ta2r` (green_tsetlin/writers/topographical_c.py:103-110): every literal some rule still needs, with the rules needing it. The
dictionary's order is irrelevant here because the choice from it is arbitrary in `grow`. -/
def candidates (rules : List (List Nat)) (R path : List Nat) : List (Nat × List Nat) :=
  (R.flatMap fun k => restOf (rules.getD k []) path).map fun h =>
    (h, R.filter fun k => (restOf (rules.getD k []) path).contains h)

/-- `_subtree` (green_tsetlin/writers/topographical_c.py:95-121): the loop for one node, with its arguments `head`, `rules`
(`R`), `path`, the attribute `rules_in_tree`, and the node's `w` and `childs` so far. `fuel` bounds the number
of steps (`none`: not finished). Python's `max` takes a largest entry, the first one in dictionary order,
which depends on the iteration order of a set: `pick` stands for any way of choosing an entry. -/
def grow (pick : List Nat → List Nat → List (Nat × List Nat) → Nat × List Nat)
    (rules : List (List Nat)) (weights : List (List Int)) :
    Nat → Option Nat → List Nat → List Nat → List Nat → Option (List Int) → List Node →
    Option (Node × List Nat)
  | 0, _, _, _, _, _, _ => none
  | fuel + 1, head, R, path, inTree, w, childs =>
    if R = [] then some (.mk head w childs, inTree)
    else
      let here := R.filter fun k => sameSet (rules.getD k []) path
      let w := here.foldl (fun _ k => some (weights.getD k [])) w
      let inTree := inTree ++ here
      let cands := candidates rules R path
      if cands = [] then some (.mk head w childs, inTree)
      else
        let next := pick path R cands
        match grow pick rules weights fuel (some next.1) next.2 (path ++ [next.1]) inTree none [] with
        | none => none
        | some (child, inTree) =>
          grow pick rules weights fuel head (R.filter fun k => !inTree.contains k) path inTree w
            (childs ++ [child])

mutual
/-- `_export_tree2` (green_tsetlin/writers/topographical_c.py:151-187). -/
def exportNode (n : Nat) : Node → List Nat → List Tok
  | .mk ta w childs, conds =>
    let conds := match ta with
      | some t => conds ++ [t]
      | none => conds
    match w with
    | some w =>
      [.ifOpen (conds.map (condOf n)), .add w] ++ exportList n childs [] ++
        (match ta with
          | some _ => [.close]
          | none => [])
    | none => exportList n childs conds
/-- The loop over the children (green_tsetlin/writers/topographical_c.py:182-183). -/
def exportList (n : Nat) : List Node → List Nat → List Tok
  | [], _ => []
  | c :: cs, conds => exportNode n c conds ++ exportList n cs conds
end

/-- `TopographicalC.to_file` (green_tsetlin/writers/topographical_c.py:34-52, 91-93); `inTree` is the attribute `rules_in_tree`,
empty for a new writer. -/
def topoC (pick : List Nat → List Nat → List (Nat × List Nat) → Nat × List Nat) (rs : Rules) (fuel : Nat)
    (inTree : List Nat) : Option (List Tok × List Nat) :=
  match grow pick rs.rules rs.weights fuel none (List.range rs.rules.length) [] inTree none [] with
  | none => none
  | some (root, inTree) => some (exportNode rs.nLits root [], inTree)

end GT
