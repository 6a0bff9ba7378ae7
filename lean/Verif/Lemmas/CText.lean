import Verif.Model.CText
import Verif.Props.Writers
import Mathlib.Tactic.IntervalCases

/-! # Lemmas for the text of the exported programs -/

namespace GT
open Spec Spec.CLang

/-! ### Lexer -/

theorem lexRun_append (s : LexSt × Bool) (a b : List Char) :
    lexRun s (a ++ b) = ((lexRun s a).1 ++ (lexRun (lexRun s a).2 b).1, (lexRun (lexRun s a).2 b).2) := by
  induction a generalizing s with
  | nil => simp [lexRun]
  | cons c a ih => simp only [List.cons_append, lexRun, ih, List.append_assoc]

/-- A piece of text gives these tokens, leading from one state to another. -/
def Lexes (s : LexSt × Bool) (t : List Char) (ts : List CTok) (s' : LexSt × Bool) : Prop := lexRun s t = (ts, s')

instance (s : LexSt × Bool) (t : List Char) (ts : List CTok) (s' : LexSt × Bool) : Decidable (Lexes s t ts s') :=
  inferInstanceAs (Decidable (_ = _))

theorem Lexes.append {s s' s'' : LexSt × Bool} {a b : List Char} {ts us : List CTok} (h : Lexes s a ts s')
    (h' : Lexes s' b us s'') : Lexes s (a ++ b) (ts ++ us) s'' := by
  unfold Lexes at *
  rw [lexRun_append, h, h']

theorem Lexes.nil (s : LexSt × Bool) : Lexes s [] [] s := rfl

/-- The lexer within a number. -/
def numSt (n : Nat) : LexSt := if n = 0 then .zero else .num n

theorem digitChar_facts (d : Nat) (h : d < 10) :
    (Nat.digitChar d).isDigit = true ∧ (Nat.digitChar d).toNat - 48 = d ∧ isWordChar (Nat.digitChar d) = false ∧
    (d ≠ 0 → Nat.digitChar d ≠ '0') ∧ Nat.digitChar d ≠ '\n' ∧ Nat.digitChar d ≠ ' ' ∧ Nat.digitChar d ≠ '\t' := by
  interval_cases d <;> decide +kernel

theorem lexStep_digit_first (d : Nat) (h : d < 10) (b : Bool) :
    lexStep (.idle, b) (Nat.digitChar d) = ([], numSt d, b) := by
  interval_cases d <;> cases b <;> decide +kernel

theorem lexStep_digit_next (n d : Nat) (hn : n ≠ 0) (h : d < 10) (b : Bool) :
    lexStep (numSt n, b) (Nat.digitChar d) = ([], numSt (10 * n + d), b) := by
  obtain ⟨h1, h2, -⟩ := digitChar_facts d h
  simp only [numSt, if_neg hn, lexStep, h1, if_true, h2]
  rw [if_neg (by omega)]

theorem fmtNat_small (n : Nat) (h : n < 10) : fmtNat n = [Nat.digitChar n] := by
  interval_cases n <;> decide +kernel

theorem fmtNat_big (n : Nat) (h : 10 ≤ n) : fmtNat n = fmtNat (n / 10) ++ [Nat.digitChar (n % 10)] := by
  unfold fmtNat
  rw [Nat.toDigits_of_base_le (by decide) h]

theorem lexes_fmtNat (n : Nat) (b : Bool) : Lexes (.idle, b) (fmtNat n) [] (numSt n, b) := by
  induction n using Nat.strongRecOn with
  | ind n ih =>
    by_cases h : n < 10
    · rw [fmtNat_small n h]
      simp only [Lexes, lexRun, lexStep_digit_first n h]
      rfl
    · rw [fmtNat_big n (by omega)]
      have h1 := ih (n / 10) (by omega)
      have h2 : Lexes (numSt (n / 10), b) [Nat.digitChar (n % 10)] [] (numSt n, b) := by
        simp only [Lexes, lexRun, lexStep_digit_next (n / 10) (n % 10) (by omega) (by omega)]
        rw [show 10 * (n / 10) + n % 10 = n by omega]
        rfl
      simpa using h1.append h2

/-- After a number, a character that cannot continue it. -/
theorem lexStep_num_end (n : Nat) (c : Char) (h : c.isDigit = false) (h' : isWordChar c = false) (b : Bool) :
    lexStep (numSt n, b) c = lexNext (.num n) b c := by
  unfold numSt
  split
  · next h0 => subst h0; simp [lexStep, h, h']
  · simp [lexStep, h, h']

theorem lexes_num_then (n : Nat) (b : Bool) (c : Char) (cs : List Char) (ts : List CTok) (s : LexSt × Bool)
    (h : c.isDigit = false) (h' : isWordChar c = false) (ht : Lexes (.idle, b) (c :: cs) ts s) :
    Lexes (numSt n, b) (c :: cs) (.num n :: ts) s := by
  unfold Lexes at *
  rw [lexRun] at ht ⊢
  rw [lexStep_num_end n c h h']
  simp only [lexStep] at ht
  simp only [lexNext]
  generalize lexRun (lexStart b c).2 cs = q at ht ⊢
  simp only [Prod.mk.injEq] at ht ⊢
  exact ⟨by rw [← ht.1]; rfl, ht.2⟩

/-! ### The tokens of the clauses -/

def condToks : CCond → List CTok
  | .pos i => [.id c!"x", .lbrk, .num i, .rbrk, .gt, .num 0]
  | .zero i => [.id c!"x", .lbrk, .num i, .rbrk, .eqeq, .num 0]

def condsToks : List CCond → List CTok
  | [] => []
  | [c] => condToks c
  | c :: d :: cs => condToks c ++ .andand :: condsToks (d :: cs)

def intToks (w : Int) : List CTok := if w < 0 then [.minus, .num w.natAbs] else [.num w.natAbs]

def votesToks : Nat → List Int → List CTok
  | _, [] => []
  | k, w :: ws => [.id c!"votes", .lbrk, .num k, .rbrk, .plusEq] ++ intToks w ++ .semi :: votesToks (k + 1) ws

/-- The tokens of C behind a token of `Verif.Model.Writers`. -/
def cToks : Tok → List CTok
  | .ifOpen cs => [.kIf, .lpar] ++ condsToks cs ++ [.rpar, .lbrc]
  | .add w => votesToks 0 w
  | .close => [.rbrc]

/-- A text that gives the tokens up to a number still being read. -/
theorem lexes_condText (n ta : Nat) : ∃ ts, condToks (condOf n ta) = ts ++ [.num 0] ∧
    Lexes (.idle, false) (condText n ta) ts (numSt 0, false) := by
  unfold condText condOf
  have hx : Lexes (.idle, false) c!"x[" [.id c!"x", .lbrk] (.idle, false) := by decide +kernel
  split
  · refine ⟨[.id c!"x", .lbrk, .num ta, .rbrk, .gt], rfl, ?_⟩
    have h2 : Lexes (numSt ta, false) c!"] > 0" [.num ta, .rbrk, .gt] (numSt 0, false) :=
      lexes_num_then ta false _ _ [.rbrk, .gt] _ (by decide) (by decide) (by decide +kernel)
    have := (hx.append (lexes_fmtNat ta false)).append h2
    simpa using this
  · refine ⟨[.id c!"x", .lbrk, .num (ta - n), .rbrk, .eqeq], rfl, ?_⟩
    have h2 : Lexes (numSt (ta - n), false) c!"] == 0" [.num (ta - n), .rbrk, .eqeq] (numSt 0, false) :=
      lexes_num_then (ta - n) false _ _ [.rbrk, .eqeq] _ (by decide) (by decide) (by decide +kernel)
    have := (hx.append (lexes_fmtNat (ta - n) false)).append h2
    simpa using this

theorem lexes_conds (n : Nat) (conds : List Nat) (h : conds ≠ []) :
    ∃ ts, condsToks (conds.map (condOf n)) = ts ++ [.num 0] ∧
      Lexes (.idle, false) (joinText c!" && " (conds.map (condText n))) ts (numSt 0, false) := by
  induction conds with
  | nil => exact absurd rfl h
  | cons a conds ih =>
    cases conds with
    | nil => exact lexes_condText n a
    | cons b conds =>
      obtain ⟨ts, h1, h2⟩ := ih (by simp)
      obtain ⟨us, h3, h4⟩ := lexes_condText n a
      refine ⟨us ++ [.num 0, .andand] ++ ts, ?_, ?_⟩
      · simp only [List.map_cons, condsToks] at h1 ⊢
        rw [h1, h3]; simp
      · have hs : Lexes (numSt 0, false) c!" && " [.num 0, .andand] (.idle, false) := by decide +kernel
        exact (h4.append hs).append h2

theorem lexes_ifText (n : Nat) (conds : List Nat) :
    Lexes (.idle, false) (ifText n conds) (cToks (.ifOpen (conds.map (condOf n)))) (.idle, false) := by
  have h0 : Lexes (.idle, false) c!"if(" [.kIf, .lpar] (.idle, false) := by decide +kernel
  unfold ifText
  by_cases h : conds = []
  · subst h
    have h1 : Lexes (.idle, false) c!"){\n" [.rpar, .lbrc] (.idle, false) := by decide +kernel
    exact (h0.append (Lexes.nil _)).append h1
  · obtain ⟨ts, h1, h2⟩ := lexes_conds n conds h
    have h3 : Lexes (numSt 0, false) c!"){\n" [.num 0, .rpar, .lbrc] (.idle, false) := by decide +kernel
    have := (h0.append h2).append h3
    simpa [cToks, h1] using this

theorem lexes_fmtInt (w : Int) : ∃ ts, intToks w = ts ++ [.num w.natAbs] ∧
    ∀ cs us s, Lexes (numSt w.natAbs, false) cs us s → Lexes (.idle, false) (fmtInt w ++ cs) (ts ++ us) s := by
  unfold intToks fmtInt
  split
  · refine ⟨[.minus], rfl, fun cs us s h => ?_⟩
    have hd : ∀ c : Char, c.isDigit = true → lexStep (.sym '-', false) c = lexNext .minus false c := by
      intro c hc
      have h1 : symTok2 '-' c = none := by
        unfold symTok2
        split <;> first | rfl | (exfalso; revert hc; decide)
      simp only [lexStep, h1]
      rw [if_neg (by simp)]
      rfl
    have hfirst : ∀ t ts s, (∃ c t', t = c :: t' ∧ c.isDigit = true) → Lexes (.idle, false) t ts s →
        Lexes (.idle, false) ('-' :: t) (.minus :: ts) s := by
      rintro t ts s ⟨c, t', rfl, hc⟩ ht
      unfold Lexes at *
      rw [lexRun, show lexStep (.idle, false) '-' = ([], .sym '-', false) by decide +kernel]
      rw [lexRun] at ht ⊢
      simp only [List.nil_append, hd c hc, lexNext]
      simp only [lexStep] at ht
      generalize lexRun (lexStart false c).2 t' = q at ht ⊢
      simp only [Prod.mk.injEq] at ht ⊢
      exact ⟨by rw [← ht.1]; rfl, ht.2⟩
    rw [List.cons_append]
    refine hfirst _ us s ?_ (by simpa using (lexes_fmtNat w.natAbs false).append h)
    have : ∀ n, ∃ c t', fmtNat n = c :: t' ∧ c.isDigit = true := by
      intro n
      induction n using Nat.strongRecOn with
      | ind n ih =>
        by_cases h : n < 10
        · exact ⟨_, _, fmtNat_small n h, (digitChar_facts n h).1⟩
        · obtain ⟨c, t', e1, e2⟩ := ih (n / 10) (by omega)
          exact ⟨c, _, by rw [fmtNat_big n (by omega), e1]; rfl, e2⟩
    obtain ⟨c, t', e1, e2⟩ := this w.natAbs
    exact ⟨c, t' ++ cs, by rw [e1]; rfl, e2⟩
  · exact ⟨[], rfl, fun cs us s h => by simpa using (lexes_fmtNat w.natAbs false).append h⟩

theorem lexes_voteText (k : Nat) (w : Int) :
    Lexes (.idle, false) (c!"votes[" ++ fmtNat k ++ c!"] += " ++ fmtInt w ++ c!";")
      ([.id c!"votes", .lbrk, .num k, .rbrk, .plusEq] ++ intToks w ++ [.semi]) (.idle, false) := by
  have h0 : Lexes (.idle, false) c!"votes[" [.id c!"votes", .lbrk] (.idle, false) := by decide +kernel
  have h2 : Lexes (numSt k, false) c!"] += " [.num k, .rbrk, .plusEq] (.idle, false) :=
    lexes_num_then k false _ _ [.rbrk, .plusEq] _ (by decide) (by decide) (by decide +kernel)
  obtain ⟨ts, e1, e2⟩ := lexes_fmtInt w
  have h3 : Lexes (numSt w.natAbs, false) c!";" [.num w.natAbs, .semi] (.idle, false) :=
    lexes_num_then _ false _ _ [.semi] _ (by decide) (by decide) (by decide +kernel)
  have := ((h0.append (lexes_fmtNat k false)).append h2).append (e2 _ _ _ h3)
  simpa [e1] using this

theorem lexes_addText (w : List Int) : Lexes (.idle, false) (addText w) (cToks (.add w)) (.idle, false) := by
  have : ∀ (w : List Int) (k : Nat),
      Lexes (.idle, false) (joinText c!" " (voteTexts k w)) (votesToks k w) (.idle, false) := by
    intro w
    induction w with
    | nil => intro k; exact Lexes.nil _
    | cons a w ih =>
      intro k
      have h1 := lexes_voteText k a
      cases w with
      | nil => exact h1
      | cons b w =>
        have h2 : Lexes (.idle, false) c!" " [] (.idle, false) := by decide +kernel
        have := (h1.append h2).append (ih (k + 1))
        simp only [voteTexts, joinText, votesToks, List.append_assoc, List.append_nil, List.cons_append, List.nil_append]
          at this ⊢
        exact this
  have h2 : Lexes (.idle, false) c!"\n" [] (.idle, false) := by decide +kernel
  simpa [cToks, addText] using (this w 0).append h2

theorem lexes_close : Lexes (.idle, false) c!"}\n" (cToks .close) (.idle, false) := by decide +kernel

theorem lexes_simple (n : Nat) (rules : List (List Nat)) (ws : List (List Int)) :
    Lexes (.idle, false) (List.zipWith (ruleText n) rules ws).flatten
      ((List.zipWith (simpleRule n) rules ws).flatten.flatMap cToks) (.idle, false) := by
  induction rules generalizing ws with
  | nil => exact Lexes.nil _
  | cons r rules ih =>
    cases ws with
    | nil => exact Lexes.nil _
    | cons w ws =>
      have := (((lexes_ifText n r).append (lexes_addText w)).append lexes_close).append (ih ws)
      simpa [ruleText, simpleRule] using this

theorem lexes_indent (d : Nat) : Lexes (.idle, false) (indentText d) [] (.idle, false) := by
  unfold indentText
  generalize 2 * d = k
  induction k with
  | zero => exact Lexes.nil _
  | succ k ih =>
    rw [List.replicate_succ']
    exact ih.append (by decide +kernel)

mutual
theorem lexes_node (n : Nat) : ∀ (t : Node) (d : Nat) (conds : List Nat),
    Lexes (.idle, false) (nodeText n t d conds) ((exportNode n t conds).flatMap cToks) (.idle, false)
  | .mk ta w childs, d, conds => by
    cases w with
    | none =>
      cases ta with
      | none => simpa only [nodeText, exportNode] using lexes_nodes n childs d conds
      | some t => simpa only [nodeText, exportNode] using lexes_nodes n childs d (conds ++ [t])
    | some w =>
      have h1 := fun c => (((lexes_indent d).append (lexes_ifText n c)).append (lexes_addText w)).append
        (lexes_nodes n childs (d + 1) [])
      cases ta with
      | none => simpa [nodeText, exportNode] using h1 conds
      | some t =>
        simpa [nodeText, exportNode] using (h1 (conds ++ [t])).append ((lexes_indent (d + 1)).append lexes_close)
theorem lexes_nodes (n : Nat) : ∀ (ts : List Node) (d : Nat) (conds : List Nat),
    Lexes (.idle, false) (nodesText n ts d conds) ((exportList n ts conds).flatMap cToks) (.idle, false)
  | [], _, _ => Lexes.nil _
  | t :: ts, d, conds => by
    rw [nodesText, exportList, List.flatMap_append]
    exact (lexes_node n t d conds).append (lexes_nodes n ts d conds)
end

/-! ### The whole text -/

/-- The tokens before the number of classes; `g` is the name of the include guard. -/
def guardToks (g : List Char) : List CTok :=
  [.hash, .id c!"ifndef", .id g, .eod, .hash, .id c!"define", .id g, .eod,
   .hash, .id c!"include", .lt, .id c!"inttypes", .dot, .id c!"h", .gt, .eod,
   .hash, .id c!"include", .lt, .id c!"string", .dot, .id c!"h", .gt, .eod, .hash, .id c!"define", .id c!"NUM_CLASSES"]

/-- The tokens from there to the first rule. -/
def startToks : List CTok :=
  [.eod, .hash, .id c!"define", .id c!"DEFAULT_OUTPUT", .num 0, .eod,
   .ty .int, .id c!"predict_tm", .lpar, .ty .uint8, .star, .id c!"x", .rpar, .lbrc,
   .kStatic, .ty .int16, .id c!"votes", .lbrk, .id c!"NUM_CLASSES", .rbrk, .assign, .lbrc, .num 0, .rbrc, .semi,
   .id c!"memset", .lpar, .id c!"votes", .comma, .num 0, .comma, .kSizeof, .lpar, .id c!"votes", .rpar, .rpar, .semi]

/-- The tokens after the last rule. -/
def endToks : List CTok :=
  [.ty .int, .id c!"output_class", .assign, .id c!"DEFAULT_OUTPUT", .semi,
   .ty .int16, .id c!"most_votes", .assign, .id c!"votes", .lbrk, .id c!"DEFAULT_OUTPUT", .rbrk, .semi,
   .kFor, .lpar, .ty .int, .id c!"i", .assign, .num 1, .semi, .id c!"i", .lt, .id c!"NUM_CLASSES", .semi,
   .plusPlus, .id c!"i", .rpar, .lbrc,
   .kIf, .lpar, .id c!"votes", .lbrk, .id c!"i", .rbrk, .gt, .id c!"most_votes", .rpar, .lbrc,
   .id c!"most_votes", .assign, .id c!"votes", .lbrk, .id c!"i", .rbrk, .semi,
   .id c!"output_class", .assign, .id c!"i", .semi, .rbrc, .rbrc,
   .kReturn, .id c!"output_class", .semi, .rbrc, .hash, .id c!"endif", .eod]

/-- The text around the rules, in the pieces the lexer sees. -/
def guardText (pre : List Char) : List Char :=
  pre ++ c!"\n" ++
  c!"#include <inttypes.h>\n" ++ c!"#include <string.h>\n" ++ c!"\n" ++ c!"#define NUM_CLASSES "

def startText : List Char :=
  c!"\n" ++ c!"#define DEFAULT_OUTPUT 0\n" ++
  c!"int predict_tm(uint8_t* x)\n" ++ c!"{\n" ++ c!"    static int16_t votes[NUM_CLASSES] = {0};\n" ++
  c!"    memset(votes, 0, sizeof(votes));\n" ++ c!"\n" ++ c!"\n" ++ c!"\n" ++ c!"// start clauses" ++ c!"\n"

def endText (post : List Char) : List Char := findOutputText ++ c!"\n" ++ post

theorem lexes_start (n : Nat) : Lexes (numSt n, true) startText (.num n :: startToks) (.idle, false) :=
  lexes_num_then n true _ _ startToks _ (by decide) (by decide) (by decide +kernel)

/-- A text with this guard, this number of classes and these rules. -/
def wholeText (pre post : List Char) (n : Nat) (body : List Char) : List Char :=
  guardText pre ++ (fmtNat n ++ (startText ++ (body ++ endText post)))

theorem lexes_whole (g pre post : List Char) (n : Nat) (body : List Char) (ts : List CTok)
    (h1 : Lexes (.idle, false) (guardText pre) (guardToks g) (.idle, true))
    (h2 : Lexes (.idle, false) body ts (.idle, false))
    (h3 : Lexes (.idle, false) (endText post) endToks (.idle, false)) :
    Lexes (.idle, false) (wholeText pre post n body) (guardToks g ++ .num n :: (startToks ++ (ts ++ endToks)))
      (.idle, false) := by
  have := h1.append ((lexes_fmtNat n true).append ((lexes_start n).append (h2.append h3)))
  simpa [wholeText] using this

def simplePre : List Char :=
  c!"#ifndef __SIMPLE_C_OUTPUT__H_\n" ++ c!"#define __SIMPLE_C_OUTPUT__H_\n" ++ c!"// Export from green_tsetlin:SimpleC\n"
def simplePost : List Char := c!"#endif // #ifndef __SIMPLE_C_OUTPUT__H_\n"
def treePre : List Char :=
  c!"#ifndef __TOPOGRAPHICAL_C_OUTPUT__H_\n" ++ c!"#define __TOPOGRAPHICAL_C_OUTPUT__H_\n" ++
  c!"// Export from green_tsetlin:TopographicalC\n"
def treePost : List Char := c!"#endif // #ifndef __TOPOGRAPHICAL_C_OUTPUT__H_\n"

theorem simpleText_eq (rs : Rules) : simpleText rs =
    wholeText simplePre simplePost rs.nClasses
      (List.zipWith (ruleText rs.nLits) rs.rules rs.weights).flatten := by
  simp only [simpleText, wholeText, guardText, startText, endText, headerText, simplePre, simplePost, List.append_assoc]

theorem treeText_eq (nLits nClasses : Nat) (root : Node) : treeText nLits nClasses root =
    wholeText treePre treePost nClasses
      (nodeText nLits root 0 []) := by
  simp only [treeText, wholeText, guardText, startText, endText, headerText, treePre, treePost, List.append_assoc]

/-! ### Preprocessor -/

/-- The function without macros. -/
def fnToks (n : Nat) : List CTok :=
  [.ty .int, .id c!"predict_tm", .lpar, .ty .uint8, .star, .id c!"x", .rpar, .lbrc,
   .kStatic, .ty .int16, .id c!"votes", .lbrk, .num n, .rbrk, .assign, .lbrc, .num 0, .rbrc, .semi,
   .id c!"memset", .lpar, .id c!"votes", .comma, .num 0, .comma, .kSizeof, .lpar, .id c!"votes", .rpar, .rpar, .semi]

def findToks (n : Nat) : List CTok :=
  [.ty .int, .id c!"output_class", .assign, .num 0, .semi,
   .ty .int16, .id c!"most_votes", .assign, .id c!"votes", .lbrk, .num 0, .rbrk, .semi,
   .kFor, .lpar, .ty .int, .id c!"i", .assign, .num 1, .semi, .id c!"i", .lt, .num n, .semi,
   .plusPlus, .id c!"i", .rpar, .lbrc,
   .kIf, .lpar, .id c!"votes", .lbrk, .id c!"i", .rbrk, .gt, .id c!"most_votes", .rpar, .lbrc,
   .id c!"most_votes", .assign, .id c!"votes", .lbrk, .id c!"i", .rbrk, .semi,
   .id c!"output_class", .assign, .id c!"i", .semi, .rbrc, .rbrc,
   .kReturn, .id c!"output_class", .semi, .rbrc]

def macros (g : List Char) (n : Nat) : List (List Char × Option Nat) :=
  [(c!"DEFAULT_OUTPUT", some 0), (c!"NUM_CLASSES", some n), (g, none)]

theorem ppRun_append (s : PPSt) (a b : List CTok) :
    ppRun s (a ++ b) = ((ppRun s a).1 ++ (ppRun (ppRun s a).2 b).1, (ppRun (ppRun s a).2 b).2) := by
  induction a generalizing s with
  | nil => simp [ppRun]
  | cons c a ih => simp only [List.cons_append, ppRun, ih, List.append_assoc]

/-- The names of the include guards. -/
def Guard (g : List Char) : Prop := g = c!"__SIMPLE_C_OUTPUT__H_" ∨ g = c!"__TOPOGRAPHICAL_C_OUTPUT__H_"

set_option maxRecDepth 4000 in
theorem pp_start (g : List Char) (hg : Guard g) (n : Nat) :
    ppRun ⟨[], [], none⟩ (guardToks g ++ .num n :: startToks) = (fnToks n, ⟨macros g n, [false], none⟩) := by
  rcases hg with rfl | rfl <;>
    simp [ppRun, ppStep, directive, PPSt.out, macroVal, macros, guardToks, startToks, fnToks]

theorem pp_end (g : List Char) (hg : Guard g) (n : Nat) :
    ppRun ⟨macros g n, [false], none⟩ endToks = (findToks n, ⟨macros g n, [], none⟩) := by
  rcases hg with rfl | rfl <;>
    simp [ppRun, ppStep, directive, PPSt.out, macroVal, macros, endToks, findToks]

/-- A token the preprocessor leaves alone. -/
def plainTok : CTok → Bool
  | .id s => s = c!"x" ∨ s = c!"votes"
  | .hash => false
  | .eod => false
  | .bad => false
  | _ => true

theorem pp_plain (g : List Char) (n : Nat) (off : List Bool) (hoff : off.contains true = false)
    (hg : Guard g) (ts : List CTok) (h : ∀ t ∈ ts, plainTok t = true) :
    ppRun ⟨macros g n, off, none⟩ ts = (ts, ⟨macros g n, off, none⟩) := by
  induction ts with
  | nil => rfl
  | cons t ts ih =>
    have ih := ih (fun t ht => h t (List.mem_cons_of_mem _ ht))
    have ht := h t List.mem_cons_self
    have hs : ppStep ⟨macros g n, off, none⟩ t = ([t], ⟨macros g n, off, none⟩) := by
      cases t with
      | id s =>
        have : macroVal (macros g n) s = none := by
          simp only [plainTok, decide_eq_true_eq] at ht
          rcases ht with rfl | rfl <;> rcases hg with rfl | rfl <;> rfl
        simp only [ppStep, PPSt.out, hoff, Bool.false_eq_true, if_false, this]
      | hash => exact absurd ht (by decide)
      | eod => exact absurd ht (by decide)
      | _ => simp only [ppStep, PPSt.out, hoff, Bool.false_eq_true, if_false]
    simp only [ppRun, hs, ih, List.singleton_append]

/-- Within lines that are left out. -/
theorem pp_out (ms : List (List Char × Option Nat)) (off : List Bool) (hoff : off.contains true = true)
    (ts : List CTok) (h : ∀ t ∈ ts, plainTok t = true) :
    ppRun ⟨ms, off, none⟩ ts = ([], ⟨ms, off, none⟩) := by
  induction ts with
  | nil => rfl
  | cons t ts ih =>
    have ih := ih (fun t ht => h t (List.mem_cons_of_mem _ ht))
    have ht := h t List.mem_cons_self
    have hs : ppStep ⟨ms, off, none⟩ t = ([], ⟨ms, off, none⟩) := by
      cases t with
      | hash => exact absurd ht (by decide)
      | eod => exact absurd ht (by decide)
      | _ => simp only [ppStep, PPSt.out, hoff, if_true]
    simp only [ppRun, hs, ih, List.nil_append]

theorem plain_conds (cs : List CCond) : ∀ t ∈ condsToks cs, plainTok t = true := by
  have h1 : ∀ c : CCond, ∀ t ∈ condToks c, plainTok t = true := by
    intro c
    cases c <;> simp [condToks, plainTok]
  induction cs with
  | nil => simp [condsToks]
  | cons c cs ih =>
    cases cs with
    | nil => exact h1 c
    | cons d cs =>
      intro t ht
      rw [condsToks, List.mem_append, List.mem_cons] at ht
      rcases ht with ht | rfl | ht
      · exact h1 c t ht
      · rfl
      · exact ih t ht

theorem plain_votes (w : List Int) (k : Nat) : ∀ t ∈ votesToks k w, plainTok t = true := by
  induction w generalizing k with
  | nil => simp [votesToks]
  | cons a w ih =>
    intro t ht
    simp only [votesToks, List.mem_append, List.mem_cons, List.not_mem_nil, or_false] at ht
    rcases ht with (ht | ht) | rfl | ht
    · rcases ht with rfl | rfl | rfl | rfl | rfl <;> first | rfl | decide
    · unfold intToks at ht
      split at ht <;> simp at ht
      · rcases ht with rfl | rfl <;> rfl
      · subst ht; rfl
    · rfl
    · exact ih _ t ht

theorem plain_toks (ts : List Tok) : ∀ t ∈ ts.flatMap cToks, plainTok t = true := by
  intro t ht
  obtain ⟨k, hk, ht⟩ := List.mem_flatMap.mp ht
  cases k with
  | ifOpen cs =>
    simp only [cToks, List.mem_append, List.mem_cons, List.not_mem_nil, or_false] at ht
    rcases ht with ((rfl | rfl) | ht) | rfl | rfl
    · rfl
    · rfl
    · exact plain_conds cs t ht
    · rfl
    · rfl
  | add w => exact plain_votes w 0 t ht
  | close => simp [cToks] at ht; subst ht; rfl

/-- All tokens of a text. -/
def allToks (g : List Char) (n : Nat) (ts : List Tok) : List CTok :=
  guardToks g ++ .num n :: (startToks ++ (ts.flatMap cToks ++ endToks))

theorem allToks_good (g : List Char) (n : Nat) (ts : List Tok) : (allToks g n ts).contains .bad = false := by
  rw [Bool.eq_false_iff]
  intro hc
  rw [List.contains_iff_mem] at hc
  simp only [allToks, List.mem_append, List.mem_cons] at hc
  rcases hc with hc | hc | hc | hc | hc
  · simp [guardToks] at hc
  · simp at hc
  · revert hc; decide
  · exact absurd (plain_toks ts _ hc) (by decide)
  · revert hc; decide

/-- The first time, the preprocessor leaves the function. -/
theorem pp_all (g : List Char) (hg : Guard g) (n : Nat) (ts : List Tok) :
    ppRun ⟨[], [], none⟩ (allToks g n ts) =
      (fnToks n ++ (ts.flatMap cToks ++ findToks n), ⟨macros g n, [], none⟩) := by
  have : allToks g n ts = (guardToks g ++ .num n :: startToks) ++ (ts.flatMap cToks ++ endToks) := by
    simp [allToks]
  rw [this, ppRun_append, pp_start g hg]
  simp only
  rw [ppRun_append, pp_plain g n [false] rfl hg _ (plain_toks ts)]
  simp only
  rw [pp_end g hg]

/-- The tokens the parser gets. -/
theorem lexed (g pre post : List Char) (hg : Guard g) (n : Nat) (body : List Char) (ts : List Tok)
    (h1 : Lexes (.idle, false) (guardText pre) (guardToks g) (.idle, true))
    (h2 : Lexes (.idle, false) body (ts.flatMap cToks) (.idle, false))
    (h3 : Lexes (.idle, false) (endText post) endToks (.idle, false)) :
    compile (wholeText pre post n body) = parseFile (fnToks n ++ (ts.flatMap cToks ++ findToks n)) := by
  have h : Lexes (.idle, false) (wholeText pre post n body) (allToks g n ts) (.idle, false) :=
    lexes_whole g pre post n body _ h1 h2 h3
  unfold compile lex
  unfold Lexes at h
  rw [h]
  simp only [allToks_good, Bool.false_eq_true, if_false]
  unfold preprocess
  rw [pp_all g hg]

end GT
