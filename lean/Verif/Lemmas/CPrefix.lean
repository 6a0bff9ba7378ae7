import Verif.Lemmas.CExec

/-! # Lemmas: no proper beginning of a C file is another C file -/

namespace GT.CPre
open Spec Spec.CLang

/-- The rest after the brace that closes the block `d` levels up. -/
def scan : Nat → List CTok → Option (List CTok)
  | _, [] => none
  | d, .lbrc :: ts => scan (d + 1) ts
  | 0, .rbrc :: ts => some ts
  | d + 1, .rbrc :: ts => scan d ts
  | d, _ :: ts => scan d ts

def isBrace : CTok → Bool
  | .lbrc => true
  | .rbrc => true
  | _ => false

theorem scan_cons (d : Nat) (t : CTok) (ts : List CTok) (h : isBrace t = false) : scan d (t :: ts) = scan d ts := by
  cases t <;> first | (simp [isBrace] at h; done) | simp only [scan]

theorem scan_append (d : Nat) (a m r : List CTok) (h : scan d a = some r) : scan d (a ++ m) = some (r ++ m) := by
  induction a generalizing d with
  | nil => simp [scan] at h
  | cons t a ih =>
    rw [List.cons_append]
    by_cases hb : isBrace t = true
    · cases t <;> first | (simp [isBrace] at hb; done) | skip
      · simp only [scan] at h ⊢
        exact ih _ h
      · cases d with
        | zero => simp only [scan] at h ⊢; rw [← Option.some.inj h]
        | succ d => simp only [scan] at h ⊢; exact ih _ h
    · have hb : isBrace t = false := by simpa using hb
      rw [scan_cons _ _ _ hb] at h ⊢
      exact ih _ h

theorem scan_up (d e : Nat) (a b : List CTok) (h : scan e a = some b) : scan (d + e + 1) a = scan d b := by
  induction a generalizing e with
  | nil => simp [scan] at h
  | cons t a ih =>
    by_cases hb : isBrace t = true
    · cases t <;> first | (simp [isBrace] at hb; done) | skip
      · simp only [scan] at h ⊢
        exact ih (e + 1) h
      · cases e with
        | zero => simp only [scan] at h ⊢; rw [Option.some.inj h]
        | succ e =>
          simp only [scan] at h
          rw [← ih e h]
          show scan (d + e + 1 + 1) (.rbrc :: a) = _
          simp only [scan]
    · have hb : isBrace t = false := by simpa using hb
      rw [scan_cons _ _ _ hb] at h ⊢
      exact ih _ h

theorem scan_braceless (d : Nat) (a m : List CTok) (h : ∀ t ∈ m, isBrace t = false) (hs : scan d (a ++ m) = some []) :
    m = [] := by
  induction a generalizing d with
  | nil =>
    exfalso
    induction m with
    | nil => simp [scan] at hs
    | cons t m ih =>
      rw [List.nil_append, scan_cons _ _ _ (h t List.mem_cons_self)] at hs
      exact ih (fun t ht => h t (List.mem_cons_of_mem _ ht)) hs
  | cons t a ih =>
    rw [List.cons_append] at hs
    by_cases hb : isBrace t = true
    · cases t <;> first | (simp [isBrace] at hb; done) | skip
      · simp only [scan] at hs; exact ih _ hs
      · cases d with
        | zero =>
          simp only [scan] at hs
          exact (List.append_eq_nil_iff.mp (Option.some.inj hs)).2
        | succ d => simp only [scan] at hs; exact ih _ hs
    · have hb : isBrace t = false := by simpa using hb
      rw [scan_cons _ _ _ hb] at hs
      exact ih _ hs

/-! ### What the parser consumes -/

theorem prim (ts r : List CTok) (e : CExpr) (h : parsePrim ts = some (e, r)) (d : Nat) : scan d ts = scan d r := by
  unfold parsePrim at h
  split at h <;> simp at h <;> obtain ⟨-, rfl⟩ := h <;> simp [scan]

theorem cmp (ts r : List CTok) (e : CExpr) (h : parseCmp ts = some (e, r)) (d : Nat) : scan d ts = scan d r := by
  unfold parseCmp at h
  split at h
  · simp at h
  all_goals
    next hp =>
      rw [prim _ _ _ hp]
      first
      | (split at h
         · next hq =>
           simp at h
           obtain ⟨-, rfl⟩ := h
           rw [scan_cons _ _ _ (by rfl)]
           exact prim _ _ _ hq d
         · simp at h)
      | (simp at h; obtain ⟨-, rfl⟩ := h; rfl)

theorem ands (fuel : Nat) (ts r : List CTok) (a e : CExpr) (h : parseAnds fuel a ts = some (e, r)) (d : Nat) :
    scan d ts = scan d r := by
  induction fuel generalizing a ts with
  | zero => simp [parseAnds] at h; rw [h.2]
  | succ fuel ih =>
    unfold parseAnds at h
    split at h
    · next hf =>
      split at h
      · next hc =>
        rw [scan_cons _ _ _ (by rfl), cmp _ _ _ hc]
        cases ‹fuel + 1 = _›
        exact ih _ _ h
      · simp at h
    · simp at h; rw [h.2]

theorem expr (ts r : List CTok) (e : CExpr) (h : parseExpr ts = some (e, r)) (d : Nat) : scan d ts = scan d r := by
  unfold parseExpr at h
  split at h
  · next hc => rw [cmp _ _ _ hc]; exact ands _ _ _ _ _ h d
  · simp at h

theorem simple (ts r : List CTok) (e : CStmt) (h : parseSimple ts = some (e, r)) (d : Nat) : scan d ts = scan d r := by
  unfold parseSimple at h
  split at h
  · simp at h; obtain ⟨-, rfl⟩ := h; simp [scan]
  · split at h
    · simp at h; obtain ⟨-, rfl⟩ := h; simp [scan]
    · simp at h
  all_goals
    first
    | (simp at h; done)
    | (split at h
       · next hc =>
         simp at h
         obtain ⟨-, rfl⟩ := h
         simp only [scan]
         rw [expr _ _ _ hc]
         simp only [scan]
       · simp at h)

theorem block (fuel : Nat) (ts r : List CTok) (e : List CStmt) (h : parseBlock fuel ts = some (e, r)) :
    scan 0 ts = some r := by
  induction fuel generalizing ts r e with
  | zero => simp [parseBlock] at h
  | succ fuel ih =>
    unfold parseBlock at h
    split at h
    · simp at h
    · simp at h; simp [scan, h]
    · next f _ hf =>
      obtain rfl : f = fuel := by omega
      split at h
      · next hc =>
        split at h
        · next hb =>
          split at h
          · next hb' =>
            simp at h
            obtain ⟨-, rfl⟩ := h
            simp only [scan]
            rw [expr _ _ _ hc]
            simp only [scan]
            have := scan_up 0 0 _ _ (ih _ _ _ hb)
            simp only [Nat.zero_add] at this ⊢
            rw [this]
            exact ih _ _ _ hb'
          · simp at h
        · simp at h
      · simp at h
    · next f _ _ hf =>
      obtain rfl : f = fuel := by omega
      split at h
      · next hc =>
        split at h
        · next hc' =>
          split at h
          · split at h
            · next hb =>
              split at h
              · next hb' =>
                simp at h
                obtain ⟨-, rfl⟩ := h
                simp only [scan]
                rw [prim _ _ _ hc]
                simp only [scan]
                rw [prim _ _ _ hc']
                simp only [scan]
                have := scan_up 0 0 _ _ (ih _ _ _ hb)
                simp only [Nat.zero_add] at this ⊢
                rw [this]
                exact ih _ _ _ hb'
              · simp at h
            · simp at h
          · simp at h
        · simp at h
      · simp at h
    · split at h
      · next hc =>
        split at h
        · next hb =>
          simp at h
          obtain ⟨-, rfl⟩ := h
          rw [simple _ _ _ hc]
          cases ‹fuel + 1 = _›
          exact ih _ _ _ hb
        · simp at h
      · simp at h

/-- A file that parses ends with the brace that closes its function. -/
theorem file (ts : List CTok) (f x : List Char) (b : List CStmt) (h : parseFile ts = some (f, x, b)) :
    ∃ rest, ts = [.ty .int, .id f, .lpar, .ty .uint8, .star, .id x, .rpar, .lbrc] ++ rest ∧ scan 0 rest = some [] := by
  unfold parseFile at h
  split at h
  · split at h
    · next hb =>
      simp at h
      obtain ⟨rfl, rfl, rfl⟩ := h
      exact ⟨_, rfl, block _ _ _ _ hb⟩
    · simp at h
  · simp at h

/-- No proper beginning of a file that parses, with or without further tokens that are not braces, parses. -/
theorem file_prefix (a m e : List CTok) (he : ∀ t ∈ e, isBrace t = false) (r q : List Char × List Char × List CStmt)
    (h1 : parseFile (a ++ m) = some r) (h2 : parseFile (a ++ e) = some q) : m = [] ∧ e = [] := by
  obtain ⟨f, x, b⟩ := r
  obtain ⟨f', x', b'⟩ := q
  obtain ⟨r1, e1, s1⟩ := file _ _ _ _ h1
  obtain ⟨r2, e2, s2⟩ := file _ _ _ _ h2
  -- the part before the body
  have hlen : 8 ≤ a.length := by
    by_contra hlt
    have hx : (.lbrc : CTok) ∈ e := by
      have h7 : (a ++ e)[7]? = some .lbrc := by rw [e2]; rfl
      rw [List.getElem?_append_right (by omega)] at h7
      exact List.mem_of_getElem? h7
    exact absurd (he _ hx) (by decide)
  have ha : a = a.take 8 ++ a.drop 8 := (List.take_append_drop 8 a).symm
  have d1 : a.drop 8 ++ m = r1 := by
    have := congrArg (List.drop 8) e1
    rw [List.drop_append_of_le_length hlen] at this
    rw [this]; rfl
  have d2 : a.drop 8 ++ e = r2 := by
    have := congrArg (List.drop 8) e2
    rw [List.drop_append_of_le_length hlen] at this
    rw [this]; rfl
  subst d1 d2
  have he0 : e = [] := scan_braceless 0 _ _ he s2
  subst he0
  rw [List.append_nil] at s2
  rw [scan_append _ _ m _ s2] at s1
  exact ⟨by simpa using s1, rfl⟩

/-! ### Preprocessor and lexer -/

theorem ppStep_brace (s : PPSt) (t : CTok) (h : isBrace t = false) : ∀ u ∈ (ppStep s t).1, isBrace u = false := by
  unfold ppStep
  intro u hu
  split at hu
  · split at hu
    · split at hu
      · simp at hu
      · simp at hu; subst hu; rfl
    · simp at hu
  · split at hu
    · simp at hu
    · simp at hu
    · split at hu
      · simp at hu
      · split at hu <;> simp at hu <;> subst hu <;> rfl
    · split at hu
      · simp at hu
      · simp at hu; subst hu; exact h

theorem ppRun_brace (ts : List CTok) (h : ∀ t ∈ ts, isBrace t = false) (s : PPSt) :
    ∀ u ∈ (ppRun s ts).1, isBrace u = false := by
  induction ts generalizing s with
  | nil => simp [ppRun]
  | cons t ts ih =>
    intro u hu
    simp only [ppRun, List.mem_append] at hu
    rcases hu with hu | hu
    · exact ppStep_brace s t (h t List.mem_cons_self) u hu
    · exact ih (fun t ht => h t (List.mem_cons_of_mem _ ht)) _ u hu

/-- A symbol being read that may continue is not a brace. -/
def GoodSt (s : LexSt × Bool) : Prop := ∀ c, s.1 = .sym c → isBrace (symTok c) = false

theorem lexStart_good (dir : Bool) (c : Char) : GoodSt (lexStart dir c).2 := by
  unfold lexStart GoodSt
  intro d
  split
  · split <;> simp
  split
  · simp
  split
  · simp
  split
  · simp
  split
  · simp
  split
  · simp
  split
  · next h =>
    simp only [LexSt.sym.injEq]
    rintro rfl
    rcases h with rfl | rfl | rfl | rfl | rfl | rfl | rfl <;> rfl
  · simp

theorem lexStep_good (s : LexSt × Bool) (c : Char) : GoodSt (lexStep s c).2 := by
  unfold lexStep
  split
  · exact lexStart_good _ _
  · split
    · intro d; simp
    · exact lexStart_good _ _
  · split
    · intro d; simp
    · exact lexStart_good _ _
  · split
    · intro d; simp
    · split
      · intro d; simp
      · exact lexStart_good _ _
  · split
    · intro d; simp
    · split
      · intro d; simp
      · exact lexStart_good _ _
  · split
    · exact lexStart_good _ _
    · intro d; simp

theorem lexRun_good (s : LexSt × Bool) (h : GoodSt s) (t : List Char) : GoodSt (lexRun s t).2 := by
  induction t generalizing s with
  | nil => exact h
  | cons c t ih => exact ih _ (lexStep_good s c)

/-- A newline ends what was being read: no brace comes of it. -/
theorem newline_brace (s : LexSt × Bool) (h : GoodSt s) : ∀ t ∈ (lexStep s '\n').1, isBrace t = false := by
  have hst : ∀ dir, ∀ t ∈ (lexStart dir '\n').1, isBrace t = false := by decide
  have hnx : ∀ u dir, isBrace u = false → ∀ t ∈ (lexNext u dir '\n').1, isBrace t = false := by
    intro u dir hu t ht
    simp only [lexNext, List.mem_cons] at ht
    rcases ht with rfl | ht
    · exact hu
    · exact hst dir t ht
  unfold lexStep
  split
  · exact hst _
  · rw [if_neg (by decide)]
    refine hnx _ _ ?_
    unfold wordTok
    split_ifs <;> rfl
  · rw [if_neg (by decide)]
    exact hnx _ _ rfl
  · rw [if_neg (by decide), if_neg (by decide)]
    exact hnx _ _ rfl
  · next d hd =>
    rw [if_neg (by simp)]
    split
    · next u hu =>
      exfalso
      revert hu
      unfold symTok2
      split <;> simp_all
    · exact hnx _ _ (h d hd)
  · rw [if_pos rfl]
    exact hst _

/-! ### Texts -/

theorem compile_iff (t : List Char) (r : List Char × List Char × List CStmt) :
    compile t = some r ↔ ∃ ts us ms, lexRun (.idle, false) t = (ts, .idle, false) ∧ ts.contains .bad = false ∧
      ppRun ⟨[], [], none⟩ ts = (us, ⟨ms, [], none⟩) ∧ parseFile us = some r := by
  constructor
  · intro h
    unfold compile lex at h
    split at h
    · next ts hl =>
      split at hl
      · next ts' hlr =>
        split at hl
        · simp at hl
        · next hb =>
          obtain rfl := Option.some.inj hl
          split at h
          · next us hp =>
            unfold preprocess at hp
            split at hp
            · next us' ms hpp =>
              obtain rfl := Option.some.inj hp
              exact ⟨_, _, ms, hlr, by simpa using hb, hpp, h⟩
            · simp at hp
          · simp at h
      · simp at hl
    · simp at h
  · rintro ⟨ts, us, ms, h1, h2, h3, h4⟩
    unfold compile lex preprocess
    rw [h1]
    simp only [h2, Bool.false_eq_true, if_false, h3, h4]

/-- A beginning of a text that compiles, given a final newline or not, does not compile or is the same program. -/
theorem compile_prefix (a b nl : List Char) (hnl : nl = [] ∨ nl = ['\n']) (r q : List Char × List Char × List CStmt)
    (h1 : compile (a ++ b) = some r) (h2 : compile (a ++ nl) = some q) : q = r := by
  obtain ⟨ts, us, ms, l1, -, p1, f1⟩ := (compile_iff _ _).mp h1
  obtain ⟨ts', us', ms', l2, -, p2, f2⟩ := (compile_iff _ _).mp h2
  rw [lexRun_append] at l1 l2
  have hg : GoodSt (lexRun (.idle, false) a).2 := lexRun_good _ (by intro c; simp) a
  generalize hA : lexRun (.idle, false) a = A at l1 l2 hg
  have e1 : ts = A.1 ++ (lexRun A.2 b).1 := (congrArg Prod.fst l1).symm
  have e2 : ts' = A.1 ++ (lexRun A.2 nl).1 := (congrArg Prod.fst l2).symm
  have hbr : ∀ t ∈ (lexRun A.2 nl).1, isBrace t = false := by
    rcases hnl with rfl | rfl
    · simp [lexRun]
    · simpa [lexRun] using newline_brace A.2 hg
  subst e1 e2
  rw [ppRun_append] at p1 p2
  generalize hP : ppRun ⟨[], [], none⟩ A.1 = P at p1 p2
  have u1 : us = P.1 ++ (ppRun P.2 (lexRun A.2 b).1).1 := (congrArg Prod.fst p1).symm
  have u2 : us' = P.1 ++ (ppRun P.2 (lexRun A.2 nl).1).1 := (congrArg Prod.fst p2).symm
  subst u1 u2
  obtain ⟨m0, e0⟩ := file_prefix _ _ _ (ppRun_brace _ hbr _) _ _ f1 f2
  rw [m0] at f1
  rw [e0] at f2
  exact Option.some.inj (f2.symm.trans f1)

/-! ### A second text with the same include guard -/

set_option maxRecDepth 4000 in
theorem pp_again (g : List Char) (hg : Guard g) (n n' : Nat) (ts : List Tok) :
    ppRun ⟨macros g n, [], none⟩ (allToks g n' ts) = ([], ⟨macros g n, [], none⟩) := by
  have : allToks g n' ts = (guardToks g ++ .num n' :: startToks) ++ (ts.flatMap cToks ++ endToks) := by
    simp [allToks]
  rw [this, ppRun_append]
  have h1 : ppRun ⟨macros g n, [], none⟩ (guardToks g ++ .num n' :: startToks) = ([], ⟨macros g n, [true], none⟩) := by
    rcases hg with rfl | rfl <;>
      simp [ppRun, ppStep, directive, PPSt.out, macroVal, macros, guardToks, startToks]
  rw [h1]
  simp only
  rw [ppRun_append, pp_out _ [true] rfl _ (plain_toks ts)]
  simp only
  have h2 : ppRun ⟨macros g n, [true], none⟩ endToks = ([], ⟨macros g n, [], none⟩) := by
    simp [ppRun, ppStep, directive, PPSt.out, endToks]
  rw [h2]
  rfl

/-- The name of the include guard of an exporter. -/
def guardOf (exporter : String) : List Char :=
  if exporter = "simple_c" then c!"__SIMPLE_C_OUTPUT__H_" else c!"__TOPOGRAPHICAL_C_OUTPUT__H_"

theorem guardOf_guard (exporter : String) : Guard (guardOf exporter) := by
  unfold guardOf
  split
  · exact .inl rfl
  · exact .inr rfl

theorem lexes_export (pick : List Nat → List Nat → List (Nat × List Nat) → Nat × List Nat) (exporter : String)
    (rs : Rules) (steps : Nat) (text : List Char) (h : exportAsProgram pick rs steps exporter = .ok (some text)) :
    ∃ ts, Lexes (.idle, false) text (allToks (guardOf exporter) rs.nClasses ts) (.idle, false) := by
  unfold exportAsProgram at h
  split at h
  · next he =>
    obtain rfl : simpleText rs = text := by simpa using h
    refine ⟨simpleC rs, ?_⟩
    rw [simpleText_eq, guardOf, if_pos he]
    exact lexes_whole _ _ _ _ _ _ (by decide +kernel) (lexes_simple _ _ _) (by decide +kernel)
  · next he =>
    split at h
    · unfold topoText at h
      split at h
      · simp at h
      · next root _ _ =>
        obtain rfl : treeText rs.nLits rs.nClasses root = text := by simpa using h
        refine ⟨exportNode rs.nLits root [], ?_⟩
        rw [treeText_eq, guardOf, if_neg he]
        exact lexes_whole _ _ _ _ _ _ (by decide +kernel) (lexes_node _ _ _ _) (by decide +kernel)
    · simp at h

theorem compile_of_lexes (text : List Char) (ts us : List CTok) (ms : List (List Char × Option Nat))
    (h : Lexes (.idle, false) text ts (.idle, false)) (hb : ts.contains .bad = false)
    (hp : ppRun ⟨[], [], none⟩ ts = (us, ⟨ms, [], none⟩)) : compile text = parseFile us := by
  unfold Lexes at h
  unfold compile lex preprocess
  rw [h]
  simp only [hb, Bool.false_eq_true, if_false, hp]

/-- A text followed by others with the same guard. -/
theorem compile_more (g : List Char) (hg : Guard g) (n : Nat) (ts : List Tok) (text : List Char)
    (h : Lexes (.idle, false) text (allToks g n ts) (.idle, false)) (more : List (List Char))
    (hm : ∀ t ∈ more, ∃ n' ts', Lexes (.idle, false) t (allToks g n' ts') (.idle, false)) :
    compile (text ++ more.flatten) = compile text := by
  rw [compile_of_lexes text _ _ _ h (allToks_good _ _ _) (pp_all g hg n ts)]
  have key : ∀ more : List (List Char),
      (∀ t ∈ more, ∃ n' ts', Lexes (.idle, false) t (allToks g n' ts') (.idle, false)) →
      ∃ us, Lexes (.idle, false) more.flatten us (.idle, false) ∧ us.contains .bad = false ∧
        ppRun ⟨macros g n, [], none⟩ us = ([], ⟨macros g n, [], none⟩) := by
    intro more
    induction more with
    | nil => intro _; exact ⟨[], rfl, rfl, rfl⟩
    | cons t more ih =>
      intro hm
      obtain ⟨us, h1, h2, h3⟩ := ih (fun t ht => hm t (List.mem_cons_of_mem _ ht))
      obtain ⟨n', ts', h4⟩ := hm t List.mem_cons_self
      refine ⟨allToks g n' ts' ++ us, h4.append h1, ?_, ?_⟩
      · have h5 := allToks_good g n' ts'
        simp only [List.contains_eq_mem, List.mem_append, decide_eq_false_iff_not] at h2 h5 ⊢
        tauto
      · rw [ppRun_append, pp_again g hg]
        simp only
        rw [h3]
        rfl
  obtain ⟨us, h1, h2, h3⟩ := key more hm
  refine compile_of_lexes _ _ _ (macros g n) (h.append h1) ?_ ?_
  · have h4 := allToks_good g n ts
    simp only [List.contains_eq_mem, List.mem_append, decide_eq_false_iff_not] at h4 h2 ⊢
    tauto
  · rw [ppRun_append, pp_all g hg]
    simp only
    rw [h3]
    simp

set_option maxRecDepth 4000 in
/-- A text followed by one with the other guard: the function is there twice. -/
theorem compile_both (g g' : List Char) (hg : Guard g) (hg' : Guard g') (hne : g ≠ g') (n n' : Nat) (ts ts' : List Tok)
    (text text' : List Char) (r : List Char × List Char × List CStmt)
    (h : Lexes (.idle, false) text (allToks g n ts) (.idle, false))
    (h' : Lexes (.idle, false) text' (allToks g' n' ts') (.idle, false)) (hc : compile text = some r) :
    compile (text ++ text') = none := by
  cases hq : compile (text ++ text') with
  | none => rfl
  | some q =>
    exfalso
    rw [compile_of_lexes text _ _ _ h (allToks_good _ _ _) (pp_all g hg n ts)] at hc
    have hs : ∃ t us s, ppRun ⟨macros g n, [], none⟩ (guardToks g' ++ .num n' :: startToks) = (t :: us, s) := by
      rcases hg with rfl | rfl <;> rcases hg' with rfl | rfl
      · exact absurd rfl hne
      · simp [ppRun, ppStep, directive, PPSt.out, macroVal, macros, guardToks, startToks]
      · simp [ppRun, ppStep, directive, PPSt.out, macroVal, macros, guardToks, startToks]
      · exact absurd rfl hne
    obtain ⟨t, us, s, hs⟩ := hs
    obtain ⟨ts1, us1, ms1, l1, -, p1, f1⟩ := (compile_iff _ _).mp hq
    have l2 := h.append h'
    unfold Lexes at l2
    rw [l1] at l2
    obtain rfl : ts1 = _ := (Prod.mk.inj l2).1
    rw [ppRun_append, pp_all g hg] at p1
    simp only at p1
    have hall : allToks g' n' ts' = (guardToks g' ++ .num n' :: startToks) ++ (ts'.flatMap cToks ++ endToks) := by
      simp [allToks]
    rw [hall, ppRun_append, hs] at p1
    have u1 := (Prod.mk.inj p1).1
    rw [← u1] at f1
    have := (file_prefix _ _ [] (by simp) _ _ f1 (by rw [List.append_nil]; exact hc)).1
    simp at this

end GT.CPre
