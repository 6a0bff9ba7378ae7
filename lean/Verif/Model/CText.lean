import Verif.Model.Writers
import Verif.Spec.CLang

/-!
# The text the C exporters write (green_tsetlin/writers/simple_c.py, green_tsetlin/writers/topographical_c.py)

Character by character what is passed to `fp.write`. (Opening and closing the file is in `to_file` too; a failing
file system is not modelled.)
-/

namespace GT
open Spec.CLang

/-- `"{}".format(n)` for a natural number (green_tsetlin/writers/simple_c.py:64): decimal digits. -/
def fmtNat (n : Nat) : List Char := Nat.toDigits 10 n

/-- `"{}".format(w)` for an integer (green_tsetlin/writers/simple_c.py:70). -/
def fmtInt (w : Int) : List Char := if w < 0 then '-' :: fmtNat w.natAbs else fmtNat w.natAbs

/-- `sep.join(list)` (green_tsetlin/writers/simple_c.py:68, 70). -/
def joinText (sep : List Char) : List (List Char) → List Char
  | [] => []
  | [a] => a
  | a :: b :: l => a ++ sep ++ joinText sep (b :: l)

/-- An entry of `if_list` (green_tsetlin/writers/simple_c.py:62-66, green_tsetlin/writers/topographical_c.py:161-165). -/
def condText (n ta : Nat) : List Char :=
  if ta < n then c!"x[" ++ fmtNat ta ++ c!"] > 0" else c!"x[" ++ fmtNat (ta - n) ++ c!"] == 0"

/-- `add_votes` (green_tsetlin/writers/simple_c.py:70, green_tsetlin/writers/topographical_c.py:174): the entries
from number `k` on. -/
def voteTexts : Nat → List Int → List (List Char)
  | _, [] => []
  | k, w :: ws => (c!"votes[" ++ fmtNat k ++ c!"] += " ++ fmtInt w ++ c!";") :: voteTexts (k + 1) ws

/-- `if_statment` and `add_votes` with their newlines (green_tsetlin/writers/simple_c.py:68-74,
green_tsetlin/writers/topographical_c.py:167-175). -/
def ifText (n : Nat) (conds : List Nat) : List Char :=
  c!"if(" ++ joinText c!" && " (conds.map (condText n)) ++ c!"){\n"

/-- `add_votes` with its newline (green_tsetlin/writers/simple_c.py:70, 74, green_tsetlin/writers/topographical_c.py:174-175). -/
def addText (w : List Int) : List Char := joinText c!" " (voteTexts 0 w) ++ c!"\n"

/-- `_write_header` (green_tsetlin/writers/simple_c.py:40-53, green_tsetlin/writers/topographical_c.py:56-69). -/
def headerText (nClasses : Nat) : List Char :=
  c!"#include <inttypes.h>\n" ++ c!"#include <string.h>\n" ++ c!"\n" ++
  c!"#define NUM_CLASSES " ++ fmtNat nClasses ++ c!"\n" ++ c!"#define DEFAULT_OUTPUT 0\n" ++
  c!"int predict_tm(uint8_t* x)\n" ++ c!"{\n" ++ c!"    static int16_t votes[NUM_CLASSES] = {0};\n" ++
  c!"    memset(votes, 0, sizeof(votes));\n" ++ c!"\n" ++ c!"\n"

/-- `_write_find_output` (green_tsetlin/writers/simple_c.py:77-99, green_tsetlin/writers/topographical_c.py:71-89);
`default_output` is 0. -/
def findOutputText : List Char :=
  c!"int output_class = DEFAULT_OUTPUT;\n" ++ c!"int16_t most_votes = votes[DEFAULT_OUTPUT];\n" ++
  c!"for(int i = 1; i < NUM_CLASSES; ++i)\n" ++ c!"{\n" ++ c!"    if(votes[i] > most_votes)\n" ++ c!"    {\n" ++
  c!"        most_votes = votes[i];\n" ++ c!"        output_class = i;\n" ++ c!"    }\n" ++ c!"}\n" ++
  c!"    return output_class;\n" ++ c!"}\n"

/-- `SimpleC._write_rule` (green_tsetlin/writers/simple_c.py:55-75). -/
def ruleText (n : Nat) (rule : List Nat) (w : List Int) : List Char :=
  ifText n rule ++ addText w ++ c!"}\n"

/-- `SimpleC.to_file` (green_tsetlin/writers/simple_c.py:20-37). -/
def simpleText (rs : Rules) : List Char :=
  c!"#ifndef __SIMPLE_C_OUTPUT__H_\n" ++ c!"#define __SIMPLE_C_OUTPUT__H_\n" ++
  c!"// Export from green_tsetlin:SimpleC\n" ++ c!"\n" ++ headerText rs.nClasses ++ c!"\n" ++ c!"// start clauses" ++
  c!"\n" ++ (List.zipWith (ruleText rs.nLits) rs.rules rs.weights).flatten ++ findOutputText ++ c!"\n" ++
  c!"#endif // #ifndef __SIMPLE_C_OUTPUT__H_\n"

/-- `"  " * d` (green_tsetlin/writers/topographical_c.py:170, 186). -/
def indentText (d : Nat) : List Char := List.replicate (2 * d) ' '

mutual
/-- `_export_tree2` (green_tsetlin/writers/topographical_c.py:151-187). -/
def nodeText (n : Nat) : Node → Nat → List Nat → List Char
  | .mk ta w childs, d, conds =>
    let conds := match ta with
      | some t => conds ++ [t]
      | none => conds
    match w with
    | some w =>
      indentText d ++ ifText n conds ++ addText w ++ nodesText n childs (d + 1) [] ++
        (match ta with
          | some _ => indentText (d + 1) ++ c!"}\n"
          | none => [])
    | none => nodesText n childs d conds
/-- The loop over the children (green_tsetlin/writers/topographical_c.py:182-183). -/
def nodesText (n : Nat) : List Node → Nat → List Nat → List Char
  | [], _, _ => []
  | c :: cs, d, conds => nodeText n c d conds ++ nodesText n cs d conds
end

/-- The text `TopographicalC.to_file` writes for a tree (green_tsetlin/writers/topographical_c.py:36-52). -/
def treeText (nLits nClasses : Nat) (root : Node) : List Char :=
  c!"#ifndef __TOPOGRAPHICAL_C_OUTPUT__H_\n" ++ c!"#define __TOPOGRAPHICAL_C_OUTPUT__H_\n" ++
  c!"// Export from green_tsetlin:TopographicalC\n" ++ c!"\n" ++ headerText nClasses ++ c!"\n" ++
  c!"// start clauses" ++ c!"\n" ++ nodeText nLits root 0 [] ++ findOutputText ++ c!"\n" ++
  c!"#endif // #ifndef __TOPOGRAPHICAL_C_OUTPUT__H_\n"

/-- `TopographicalC.to_file` (green_tsetlin/writers/topographical_c.py:34-52, 91-93): builds the tree and writes it;
`pick`, `fuel` and `inTree` as for `topoC`. -/
def topoText (pick : List Nat → List Nat → List (Nat × List Nat) → Nat × List Nat) (rs : Rules) (fuel : Nat)
    (inTree : List Nat) : Option (List Char) :=
  match grow pick rs.rules rs.weights fuel none (List.range rs.rules.length) [] inTree none [] with
  | none => none
  | some (root, _) => some (treeText rs.nLits rs.nClasses root)

/-- `export_as_program` (green_tsetlin/predictor.py:49-62): the text written for an exporter name. -/
def exportAsProgram (pick : List Nat → List Nat → List (Nat × List Nat) → Nat × List Nat) (rs : Rules) (fuel : Nat)
    (exporter : String) : Except String (Option (List Char)) :=
  if exporter = "simple_c" then .ok (some (simpleText rs))
  else if exporter = "topological_c" then .ok (topoText pick rs fuel [])
  else .error "ValueError"

end GT
