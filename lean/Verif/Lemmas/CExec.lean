import Verif.Lemmas.CText

/-! # Parsing and running the exported programs -/

namespace GT
open Spec Spec.CLang

/-! ### The block structure of a sequence of tokens -/

/-- Statements of the exported programs. -/
inductive Blks
  | nil
  | add (w : List Int) (rest : Blks)
  | ite (cs : List CCond) (body rest : Blks)

def Blks.flat : Blks → List Tok
  | .nil => []
  | .add w r => .add w :: r.flat
  | .ite cs b r => .ifOpen cs :: (b.flat ++ .close :: r.flat)

def Blks.eval (x : List Nat) : Blks → List Int → List Int
  | .nil, v => v
  | .add w r, v => r.eval x (addWeightLine v w)
  | .ite cs b r, v => r.eval x (if cs.all (·.holds x) then b.eval x v else v)

/-- No test is empty. -/
def Blks.ok : Blks → Prop
  | .nil => True
  | .add _ r => r.ok
  | .ite cs b r => cs ≠ [] ∧ b.ok ∧ r.ok

theorem execC_blocks (x : List Nat) (N : Nat) : ∀ (ts : List Tok) (st : List Bool) (v v' : List Int), ts.length ≤ N →
    execC x ts st v = some v' →
    ∃ b : Blks, b.ok ∧ ((ts = b.flat ∧ st = [] ∧ v' = b.eval x v) ∨
      (∃ h st' ts', st = h :: st' ∧ ts = b.flat ++ .close :: ts' ∧
        execC x ts' st' (if st.all id then b.eval x v else v) = some v')) := by
  induction N with
  | zero =>
    intro ts st v v' hl h
    obtain rfl := List.length_eq_zero_iff.mp (Nat.le_zero.mp hl)
    cases st with
    | nil => exact ⟨.nil, trivial, Or.inl ⟨rfl, rfl, by simpa [execC, Blks.eval] using h.symm⟩⟩
    | cons => simp [execC] at h
  | succ N ih =>
    intro ts st v v' hl h
    cases ts with
    | nil => exact ih [] st v v' (by simp) h
    | cons t ts =>
      simp only [List.length_cons] at hl
      cases t with
      | close =>
        cases st with
        | nil => simp [execC] at h
        | cons b st =>
          refine ⟨.nil, trivial, Or.inr ⟨b, st, ts, rfl, rfl, ?_⟩⟩
          simpa [execC, Blks.eval] using h
      | add w =>
        rw [execC] at h
        obtain ⟨b, hb, h0⟩ := ih ts st _ v' (by omega) h
        clear h
        refine ⟨.add w b, hb, ?_⟩
        rcases h0 with ⟨rfl, rfl, rfl⟩ | ⟨f, st', ts', rfl, rfl, h⟩
        · exact Or.inl ⟨rfl, rfl, by simp [Blks.eval]⟩
        · refine Or.inr ⟨f, st', ts', rfl, rfl, ?_⟩
          rw [← h]
          by_cases hs : (f :: st').all id = true <;> simp only [hs, if_true, if_false, Blks.eval, Bool.false_eq_true]
      | ifOpen cs =>
        rw [execC] at h
        split at h
        · simp at h
        · next hcs =>
          obtain ⟨b1, hb1, h0⟩ := ih ts _ v v' (by omega) h
          clear h
          rcases h0 with ⟨-, hn, -⟩ | ⟨f, st', ts', hst, rfl, h⟩
          · simp at hn
          · obtain ⟨rfl, rfl⟩ := List.cons.inj hst
            simp only [List.length_append, List.length_cons] at hl
            obtain ⟨b2, hb2, h0⟩ := ih ts' st _ v' (by omega) h
            clear h
            refine ⟨.ite cs b1 b2, ⟨hcs, hb1, hb2⟩, ?_⟩
            rcases h0 with ⟨rfl, rfl, rfl⟩ | ⟨f, st', ts'', rfl, rfl, h⟩
            · exact Or.inl ⟨rfl, rfl, by simp [Blks.eval]⟩
            · refine Or.inr ⟨f, st', ts'', rfl, by simp [Blks.flat], ?_⟩
              rw [← h]
              by_cases hs : (f :: st').all id = true
              · have : ∀ c : Bool, (c :: f :: st').all id = c := by
                  intro c; rw [List.all_cons, hs]; simp
                simp only [hs, if_true, this, Blks.eval]
              · have : ∀ c : Bool, (c :: f :: st').all id = false := by
                  intro c; rw [List.all_cons, Bool.eq_false_iff.mpr hs]; simp
                simp only [hs, if_false, this, Bool.false_eq_true]

/-! ### Parser -/

def condExpr : CCond → CExpr
  | .pos i => .gt (.idx c!"x" (.lit i)) (.lit 0)
  | .zero i => .eq (.idx c!"x" (.lit i)) (.lit 0)

def condsExpr : CExpr → List CCond → CExpr
  | e, [] => e
  | e, c :: cs => condsExpr (.and e (condExpr c)) cs

def addStmts : Nat → List Int → List CStmt
  | _, [] => []
  | k, w :: ws => .addTo c!"votes" (.lit k) (.lit w) :: addStmts (k + 1) ws

def Blks.stmts : Blks → List CStmt
  | .nil => []
  | .add w r => addStmts 0 w ++ r.stmts
  | .ite [] b r => b.stmts ++ r.stmts
  | .ite (c :: cs) b r => .ite (condsExpr (condExpr c) cs) b.stmts :: r.stmts

def Blks.size : Blks → Nat
  | .nil => 0
  | .add w r => w.length + r.size
  | .ite _ b r => 2 + b.size + r.size

def ParsesIn (N : Nat) (ts : List CTok) (r : List CStmt × List CTok) : Prop :=
  ∀ f, N ≤ f → parseBlock f ts = some r

theorem parseCmp_cond (c : CCond) (R : List CTok) : parseCmp (condToks c ++ R) = some (condExpr c, R) := by
  cases c <;> rfl

theorem parseAnds_conds (cs : List CCond) (e : CExpr) (f : Nat) (hf : cs.length ≤ f) (R : List CTok) :
    parseAnds f e ((cs.flatMap fun c => .andand :: condToks c) ++ .rpar :: R) = some (condsExpr e cs, .rpar :: R) := by
  induction cs generalizing e f with
  | nil => cases f <;> rfl
  | cons c cs ih =>
    obtain ⟨f, rfl⟩ : ∃ k, f = k + 1 := ⟨f - 1, by simp at hf; omega⟩
    rw [List.flatMap_cons, List.append_assoc, List.cons_append, parseAnds, parseCmp_cond]
    exact ih _ f (by simpa using hf)

theorem condsToks_cons (c : CCond) (cs : List CCond) :
    condsToks (c :: cs) = condToks c ++ cs.flatMap fun c => .andand :: condToks c := by
  induction cs generalizing c with
  | nil => simp [condsToks]
  | cons d cs ih => rw [condsToks, ih]; simp

theorem parseExpr_conds (c : CCond) (cs : List CCond) (R : List CTok) :
    parseExpr (condsToks (c :: cs) ++ .rpar :: R) = some (condsExpr (condExpr c) cs, .rpar :: R) := by
  rw [condsToks_cons, List.append_assoc, parseExpr, parseCmp_cond]
  apply parseAnds_conds
  have : cs.length ≤ (cs.flatMap fun c => CTok.andand :: condToks c).length := by
    induction cs with
    | nil => simp
    | cons d cs ih => simp only [List.flatMap_cons, List.length_append, List.length_cons]; omega
  simp only [List.length_append]
  omega

theorem parse_votes (w : List Int) (k : Nat) (N : Nat) (R : List CTok) (r : List CStmt) (T : List CTok)
    (h : ParsesIn N R (r, T)) : ParsesIn (N + w.length) (votesToks k w ++ R) (addStmts k w ++ r, T) := by
  induction w generalizing k with
  | nil => exact h
  | cons a w ih =>
    intro f hf
    simp only [List.length_cons] at hf
    obtain ⟨f, rfl⟩ : ∃ j, f = j + 1 := ⟨f - 1, by omega⟩
    have ih := ih (k + 1) f (by omega)
    have hp : ∀ R : List CTok, parseBlock (f + 1)
        ([.id c!"votes", .lbrk, .num k, .rbrk, .plusEq] ++ intToks a ++ .semi :: R) =
        match parseBlock f R with
        | some (rest, ts) => some (.addTo c!"votes" (.lit k) (.lit a) :: rest, ts)
        | none => none := by
      intro R
      unfold intToks
      split
      · have : a = -(a.natAbs : Int) := by omega
        conv_rhs => rw [this]
        rfl
      · have : a = (a.natAbs : Int) := by omega
        conv_rhs => rw [this]
        rfl
    rw [votesToks]
    refine Eq.trans (congrArg _ (List.append_assoc _ _ _)) ((hp (votesToks (k + 1) w ++ R)).trans ?_)
    rw [ih]
    rfl

theorem parse_blocks (b : Blks) (hb : b.ok) (N : Nat) (hN : 1 ≤ N) (R : List CTok) (r : List CStmt) (T : List CTok)
    (h : ParsesIn N R (r, T)) :
    ParsesIn (N + b.size) (b.flat.flatMap cToks ++ R) (b.stmts ++ r, T) := by
  induction b generalizing N R r T with
  | nil => exact h
  | add w b ih =>
    have h1 := ih hb N hN R r T h
    have h2 := parse_votes w 0 _ _ _ _ h1
    simp only [Blks.flat, List.flatMap_cons, cToks, List.append_assoc, Blks.stmts, Blks.size]
    intro f hf
    exact h2 f (by omega)
  | ite cs b c ihb ihc =>
    obtain ⟨hcs, hb1, hb2⟩ := hb
    cases cs with
    | nil => exact absurd rfl hcs
    | cons d cs =>
      intro f hf
      simp only [Blks.size] at hf
      obtain ⟨f, rfl⟩ : ∃ j, f = j + 1 := ⟨f - 1, by omega⟩
      have h1 := ihc hb2 N hN R r T h f (by omega)
      have h2 := ihb hb1 1 (by omega) (.rbrc :: (c.flat.flatMap cToks ++ R)) [] (c.flat.flatMap cToks ++ R)
        (by intro f hf; obtain ⟨f, rfl⟩ : ∃ j, f = j + 1 := ⟨f - 1, by omega⟩; rfl) f (by omega)
      simp only [Blks.flat, List.flatMap_cons, List.flatMap_append, cToks, List.append_assoc, List.cons_append,
        List.nil_append]
      rw [parseBlock, parseExpr_conds]
      simp only [h2, h1, List.append_nil, Blks.stmts, List.cons_append]

def findStmts (n : Nat) : List CStmt :=
  [.decl .int c!"output_class" (.lit 0), .decl .int16 c!"most_votes" (.idx c!"votes" (.lit 0)),
   .loop c!"i" (.lit 1) (.lit n)
     [.ite (.gt (.idx c!"votes" (.var c!"i")) (.var c!"most_votes"))
       [.set c!"most_votes" (.idx c!"votes" (.var c!"i")), .set c!"output_class" (.var c!"i")]],
   .ret (.var c!"output_class")]

theorem parse_find (n : Nat) : ParsesIn 10 (findToks n) (findStmts n, []) := by
  intro f hf
  obtain ⟨f, rfl⟩ : ∃ j, f = j + 10 := ⟨f - 10, by omega⟩
  rfl

theorem size_le (b : Blks) : b.size ≤ (b.flat.flatMap cToks).length := by
  have hv : ∀ (w : List Int) (k : Nat), w.length ≤ (votesToks k w).length := by
    intro w
    induction w with
    | nil => intro k; simp
    | cons a w ih =>
      intro k
      have := ih (k + 1)
      simp only [votesToks, List.length_append, List.length_cons]; omega
  induction b with
  | nil => simp [Blks.size]
  | add w b ih =>
    have := hv w 0
    simp only [Blks.flat, List.flatMap_cons, cToks, List.length_append, Blks.size]; omega
  | ite cs b c ihb ihc =>
    simp only [Blks.flat, List.flatMap_cons, List.flatMap_append, cToks, List.length_append, Blks.size,
      List.length_cons]
    omega

theorem parse_file (n : Nat) (b : Blks) (hb : b.ok) :
    parseFile (fnToks n ++ (b.flat.flatMap cToks ++ findToks n)) =
      some (c!"predict_tm", c!"x", .staticArr c!"votes" n :: .clear c!"votes" :: (b.stmts ++ findStmts n)) := by
  have h := parse_blocks b hb 10 (by omega) _ _ _ (parse_find n)
  have hs := size_le b
  have hf : (findToks n).length = 55 := rfl
  have hstart : ∀ R : List CTok, parseFile (fnToks n ++ R) =
      match parseBlock (R.length + 22) R with
      | some (body, []) => some (c!"predict_tm", c!"x", .staticArr c!"votes" n :: .clear c!"votes" :: body)
      | _ => none := by
    intro R
    have : parseBlock (R.length + 24) (.kStatic :: .ty .int16 :: .id c!"votes" :: .lbrk :: .num n :: .rbrk :: .assign ::
      .lbrc :: .num 0 :: .rbrc :: .semi :: .id c!"memset" :: .lpar :: .id c!"votes" :: .comma :: .num 0 :: .comma ::
      .kSizeof :: .lpar :: .id c!"votes" :: .rpar :: .rpar :: .semi :: R) =
      match parseBlock (R.length + 22) R with
      | some (body, ts) => some (.staticArr c!"votes" n :: .clear c!"votes" :: body, ts)
      | none => none := by
      have e1 : ∀ (f : Nat) (R : List CTok), parseBlock (f + 1) (.kStatic :: .ty .int16 :: .id c!"votes" :: .lbrk ::
          .num n :: .rbrk :: .assign :: .lbrc :: .num 0 :: .rbrc :: .semi :: R) =
          match parseBlock f R with
          | some (body, ts) => some (.staticArr c!"votes" n :: body, ts)
          | none => none := fun _ _ => rfl
      have e2 : ∀ (f : Nat) (R : List CTok), parseBlock (f + 1) (.id c!"memset" :: .lpar :: .id c!"votes" :: .comma ::
          .num 0 :: .comma :: .kSizeof :: .lpar :: .id c!"votes" :: .rpar :: .rpar :: .semi :: R) =
          match parseBlock f R with
          | some (body, ts) => some (.clear c!"votes" :: body, ts)
          | none => none := fun _ _ => rfl
      rw [e1, e2]
      cases parseBlock (R.length + 22) R <;> rfl
    simp only [fnToks, List.cons_append, List.nil_append, parseFile, List.length_cons]
    rw [this]
    cases parseBlock (R.length + 22) R with
    | none => rfl
    | some r => obtain ⟨body, ts⟩ := r; cases ts <;> rfl
  rw [hstart, h _ (by simp only [List.length_append]; omega)]

/-! ### Execution -/

def Runs (N : Nat) (s : Store) (ss : List CStmt) (s' : Store) : Prop :=
  ∀ (rest : List CStmt) (f : Nat), N ≤ f → ∃ f', f ≤ f' + N ∧ exec f s (ss ++ rest) = exec f' s' rest

theorem Runs.nil (s : Store) : Runs 0 s [] s := fun _ f _ => ⟨f, by omega, rfl⟩

theorem Runs.append {N M : Nat} {s s' s'' : Store} {a b : List CStmt} (h : Runs N s a s') (h' : Runs M s' b s'') :
    Runs (N + M) s (a ++ b) s'' := by
  intro rest f hf
  obtain ⟨f1, h1, e1⟩ := h (b ++ rest) f (by omega)
  obtain ⟨f2, h2, e2⟩ := h' rest f1 (by omega)
  exact ⟨f2, by omega, by rw [List.append_assoc, e1, e2]⟩

theorem Runs.mono {N M : Nat} {s s' : Store} {a : List CStmt} (h : Runs N s a s') (hle : N ≤ M) : Runs M s a s' := by
  intro rest f hf
  obtain ⟨f1, h1, e1⟩ := h rest f (by omega)
  exact ⟨f1, by omega, e1⟩

theorem Runs.simple {s s' : Store} {c : CStmt} (hc : ∀ f rest, exec (f + 1) s (c :: rest) =
      match execSimple s c with
      | some (s, none) => exec f s rest
      | r => r) (h : execSimple s c = some (s', none)) : Runs 1 s [c] s' := by
  intro rest f hf
  obtain ⟨f, rfl⟩ : ∃ j, f = j + 1 := ⟨f - 1, by omega⟩
  exact ⟨f, le_rfl, by rw [List.cons_append, List.nil_append, hc, h]⟩

theorem Runs.ends {N : Nat} {s s' : Store} {a : List CStmt} (h : Runs N s a s') (f : Nat) (hf : N + 1 ≤ f) :
    exec f s a = some (s', none) := by
  obtain ⟨f1, h1, e1⟩ := h [] f (by omega)
  rw [List.append_nil] at e1
  rw [e1]
  obtain ⟨f1, rfl⟩ : ∃ j, f1 = j + 1 := ⟨f1 - 1, by omega⟩
  rfl

theorem Runs.ite {N : Nat} {s s' : Store} {c : CExpr} {body : List CStmt} (b : Bool)
    (hc : evalE s c = some (if b then 1 else 0)) (h : b = true → Runs N s body s') (h' : b = false → s' = s) :
    Runs (N + 2) s [.ite c body] s' := by
  intro rest f hf
  obtain ⟨f, rfl⟩ : ∃ j, f = j + 1 := ⟨f - 1, by omega⟩
  refine ⟨f, by omega, ?_⟩
  rw [List.cons_append, List.nil_append, exec, hc]
  cases b with
  | false => rw [h' rfl]; rfl
  | true =>
    have := (h rfl).ends f (by omega)
    simp only [if_true]
    rw [this]

/-- The state of a call: its input is readable up to `n` and `votes` holds `v`. -/
def At (x : List Nat) (vars : List Char → Option (CTy × Int)) (arrs : List Char → Option (List Int)) (v : List Int) :
    Store := ⟨c!"x", x, upd arrs c!"votes" v, vars⟩

theorem upd_upd {α : Type} (f : List Char → Option α) (k : List Char) (a b : α) : upd (upd f k a) k b = upd f k b := by
  funext k'
  simp only [upd]
  split <;> rfl

theorem elemAt_nat (l : List Int) (i : Nat) : elemAt l (i : Int) = l[i]? := by
  unfold elemAt
  rw [if_neg (by omega)]
  rfl

def CCond.safe (n : Nat) : CCond → Prop
  | .pos i => i < n
  | .zero i => i < n

theorem eval_cond (x : List Nat) (vars arrs v) (c : CCond) (hc : c.safe x.length) :
    evalE (At x vars arrs v) (condExpr c) = some (if c.holds x then 1 else 0) := by
  have hx : ∀ i < x.length, (List.map Int.ofNat x)[i]? = some ((x.getD i 0 : Nat) : Int) := by
    intro i hi
    simp [hi]
  cases c with
  | pos i =>
    have hi : i < x.length := hc
    simp only [condExpr, evalE, At, if_true, elemAt_nat, hx i hi, CCond.holds, decide_eq_true_eq]
    by_cases h : x.getD i 0 > 0
    · rw [if_pos h, if_pos (by omega)]
    · rw [if_neg h, if_neg (by omega)]
  | zero i =>
    have hi : i < x.length := hc
    simp only [condExpr, evalE, At, if_true, elemAt_nat, hx i hi, CCond.holds, decide_eq_true_eq]
    by_cases h : x.getD i 0 = 0
    · rw [if_pos h, if_pos (by omega)]
    · rw [if_neg h, if_neg (by omega)]

theorem eval_conds (x : List Nat) (vars arrs v) (cs : List CCond) (hs : ∀ c ∈ cs, c.safe x.length) (e : CExpr) (b : Bool)
    (he : evalE (At x vars arrs v) e = some (if b then 1 else 0)) :
    evalE (At x vars arrs v) (condsExpr e cs) = some (if b && cs.all (·.holds x) then 1 else 0) := by
  induction cs generalizing e b with
  | nil => simpa [condsExpr] using he
  | cons c cs ih =>
    rw [condsExpr, ih (fun c hc => hs c (List.mem_cons_of_mem _ hc)) _ (b && c.holds x)]
    · simp [Bool.and_assoc]
    · have hc := eval_cond x vars arrs v c (hs c List.mem_cons_self)
      rw [evalE, he]
      cases b with
      | false => rfl
      | true =>
        simp only [if_true, hc, Bool.true_and]
        cases c.holds x <;> rfl

theorem runs_adds (x : List Nat) (vars arrs) (w suf pre : List Int) (h : suf.length = w.length) :
    Runs w.length (At x vars arrs (pre ++ suf)) (addStmts pre.length w)
      (At x vars arrs (pre ++ addWeightLine suf w)) := by
  induction w generalizing suf pre with
  | nil =>
    obtain rfl := List.length_eq_zero_iff.mp h
    exact Runs.nil _
  | cons a w ih =>
    cases suf with
    | nil => simp at h
    | cons b suf =>
      have h1 : Runs 1 (At x vars arrs (pre ++ b :: suf)) [.addTo c!"votes" (.lit (pre.length : Nat)) (.lit a)]
          (At x vars arrs (pre ++ wrap16 (b + a) :: suf)) := by
        apply Runs.simple (fun _ _ => rfl)
        have : (upd arrs c!"votes" (pre ++ b :: suf)) c!"votes" = some (pre ++ b :: suf) := by simp [upd]
        simp only [execSimple, At, this, evalE, elemAt_nat]
        rw [List.getElem?_append_right le_rfl, Nat.sub_self]
        simp only [List.getElem?_cons_zero, upd_upd, Int.toNat_natCast, conv]
        rw [List.set_append_right _ _ le_rfl, Nat.sub_self]
        rfl
      have h2 := ih suf (pre ++ [wrap16 (b + a)]) (by simpa using h)
      have h3 := h1.append (s'' := At x vars arrs (pre ++ addWeightLine (b :: suf) (a :: w))) (M := w.length)
        (b := addStmts (pre.length + 1) w) (by
          simpa [addWeightLine, List.append_assoc] using h2)
      simp only [addStmts, List.length_cons]
      rw [Nat.add_comm]
      exact h3

/-- Reads inside the input and as many weights as classes. -/
def Blks.safe (n m : Nat) : Blks → Prop
  | .nil => True
  | .add w r => w.length = m ∧ r.safe n m
  | .ite cs b r => (∀ c ∈ cs, c.safe n) ∧ b.safe n m ∧ r.safe n m

theorem Blks.eval_length (x : List Nat) (n m : Nat) (b : Blks) (hs : b.safe n m) (v : List Int) (hv : v.length = m) :
    (b.eval x v).length = m := by
  induction b generalizing v with
  | nil => exact hv
  | add w b ih =>
    apply ih hs.2
    simp [addWeightLine, hv, hs.1]
  | ite cs b c ihb ihc =>
    apply ihc hs.2.2
    split
    · exact ihb hs.2.1 v hv
    · exact hv

theorem runs_blocks (x : List Nat) (m : Nat) (vars arrs) (b : Blks) (hb : b.ok) (hs : b.safe x.length m) (v : List Int)
    (hv : v.length = m) : Runs b.size (At x vars arrs v) b.stmts (At x vars arrs (b.eval x v)) := by
  induction b generalizing v with
  | nil => exact Runs.nil _
  | add w b ih =>
    have h1 := runs_adds x vars arrs w v [] (hv.trans hs.1.symm)
    exact h1.append (ih hb hs.2 _ (by simp [addWeightLine, hv, hs.1]))
  | ite cs b c ihb ihc =>
    cases cs with
    | nil => exact absurd rfl hb.1
    | cons d cs =>
      have hd := eval_cond x vars arrs v d (hs.1 d List.mem_cons_self)
      have hc := eval_conds x vars arrs v cs (fun c hc => hs.1 c (List.mem_cons_of_mem _ hc)) _ _ hd
      have h1 : Runs (b.size + 2) (At x vars arrs v) [.ite (condsExpr (condExpr d) cs) b.stmts]
          (At x vars arrs (if (d :: cs).all (·.holds x) then b.eval x v else v)) := by
        apply Runs.ite _ hc
        · intro h
          rw [List.all_cons, h, if_pos rfl]
          exact ihb hb.2.1 hs.2.1 v hv
        · intro h
          rw [List.all_cons, h, if_neg (by simp)]
      have h2 := ihc hb.2.2 hs.2.2 (if (d :: cs).all (·.holds x) then b.eval x v else v) (by
        split
        · exact b.eval_length x x.length m hs.2.1 v hv
        · exact hv)
      refine Runs.mono (h1.append h2) ?_
      simp only [Blks.size]
      omega

/-- All votes fit in `int16_t`. -/
def Fit16 (v : List Int) : Prop := ∀ a ∈ v, wrap16 a = a

theorem wrap16_idem (a : Int) : wrap16 (wrap16 a) = wrap16 a := by
  unfold wrap16; omega

theorem eval_fit (x : List Nat) (b : Blks) (v : List Int) (hv : Fit16 v) : Fit16 (b.eval x v) := by
  induction b generalizing v with
  | nil => exact hv
  | add w b ih =>
    apply ih
    intro a ha
    simp only [addWeightLine] at ha
    obtain ⟨i, hi, rfl⟩ := List.mem_iff_getElem.mp ha
    rw [List.getElem_zipWith, wrap16_idem]
  | ite cs b c ihb ihc =>
    apply ihc
    split
    · exact ihb v hv
    · exact hv

/-! ### The class with the most votes -/

def loopBody : List CStmt :=
  [.ite (.gt (.idx c!"votes" (.var c!"i")) (.var c!"most_votes"))
    [.set c!"most_votes" (.idx c!"votes" (.var c!"i")), .set c!"output_class" (.var c!"i")]]

theorem wrap32_nat (j : Nat) (h : j < 2147483648) : wrap32 (j : Int) = j := by
  unfold wrap32; omega

theorem runs_body (x : List Nat) (arrs) (v : List Int) (hv : Fit16 v) (vars : List Char → Option (CTy × Int)) (j : Nat)
    (hj : j < 2147483648) (a oc mv : Int) (ha : v[j]? = some a) (hi : vars c!"i" = some (.int, (j : Int)))
    (ho : vars c!"output_class" = some (.int, oc)) (hm : vars c!"most_votes" = some (.int16, mv)) :
    ∃ vars', Runs 4 (At x vars arrs v) loopBody (At x vars' arrs v) ∧ vars' c!"i" = some (.int, (j : Int)) ∧
      vars' c!"output_class" = some (.int, if a > mv then (j : Int) else oc) ∧
      vars' c!"most_votes" = some (.int16, if a > mv then a else mv) := by
  have hve : (upd arrs c!"votes" v) c!"votes" = some v := by simp [upd]
  have hn : ¬ (c!"votes" = c!"x") := by decide
  have hidx : ∀ vars : List Char → Option (CTy × Int), vars c!"i" = some (.int, (j : Int)) →
      evalE (At x vars arrs v) (.idx c!"votes" (.var c!"i")) = some a := by
    intro vars hi
    simp only [evalE, At, if_neg hn, hve, hi, Option.map_some, elemAt_nat, ha]
  have hc : evalE (At x vars arrs v) (.gt (.idx c!"votes" (.var c!"i")) (.var c!"most_votes")) =
      some (if decide (a > mv) then 1 else 0) := by
    have hmv : evalE (At x vars arrs v) (.var c!"most_votes") = some mv := by simp only [evalE, At, hm, Option.map_some]
    rw [evalE, hidx vars hi, hmv]
    simp
  by_cases h : a > mv
  · refine ⟨upd (upd vars c!"most_votes" (.int16, a)) c!"output_class" (.int, (j : Int)), ?_, ?_, ?_, ?_⟩
    · apply Runs.ite (N := 2) _ hc
      · intro _
        have h1 : Runs 1 (At x vars arrs v) [.set c!"most_votes" (.idx c!"votes" (.var c!"i"))]
            (At x (upd vars c!"most_votes" (.int16, a)) arrs v) := by
          apply Runs.simple (fun _ _ => rfl)
          rw [execSimple, hidx vars hi]
          have : (At x vars arrs v).vars c!"most_votes" = some (.int16, mv) := hm
          rw [this]
          simp only [conv, hv a (List.mem_of_getElem? ha)]
          rfl
        have hi' : (upd vars c!"most_votes" (CTy.int16, a)) c!"i" = some (.int, (j : Int)) := by
          rw [← hi]; simp [upd]
        have ho' : (upd vars c!"most_votes" (CTy.int16, a)) c!"output_class" = some (.int, oc) := by
          rw [← ho]; simp [upd]
        have h2 : Runs 1 (At x (upd vars c!"most_votes" (.int16, a)) arrs v) [.set c!"output_class" (.var c!"i")]
            (At x (upd (upd vars c!"most_votes" (.int16, a)) c!"output_class" (.int, (j : Int))) arrs v) := by
          apply Runs.simple (fun _ _ => rfl)
          simp only [execSimple, At, evalE, hi', ho', Option.map_some, conv, wrap32_nat j hj]
        exact h1.append h2
      · intro h'; simp [h] at h'
    · rw [← hi]; simp [upd]
    · simp [upd, h]
    · simp [upd, h]
  · refine ⟨vars, ?_, hi, ?_, ?_⟩
    · apply Runs.ite (N := 2) _ hc
      · intro h'; simp [h] at h'
      · intro _; rfl
    · rw [ho, if_neg h]
    · rw [hm, if_neg h]

theorem runs_loop (x : List Nat) (arrs) (v : List Int) (hv : Fit16 v) (hlen : v.length < 2147483648) (vs : List Int) :
    ∀ (pre : List Int) (vars : List Char → Option (CTy × Int)) (oc : Nat) (mv : Int), v = pre ++ vs → 0 < pre.length →
    vars c!"output_class" = some (.int, (oc : Int)) → vars c!"most_votes" = some (.int16, mv) →
    ∃ vars', Runs (vs.length + 6) (At x vars arrs v)
        [.loop c!"i" (.lit (pre.length : Nat)) (.lit (v.length : Nat)) loopBody] (At x vars' arrs v) ∧
      vars' c!"output_class" = some (.int, (inferBest vs pre.length oc mv : Int)) := by
  induction vs with
  | nil =>
    intro pre vars oc mv he hp ho hm
    refine ⟨upd vars c!"i" (.int, (pre.length : Int)), ?_, by rw [show inferBest [] pre.length oc mv = oc from rfl, ← ho]; simp [upd]⟩
    intro rest f hf
    obtain ⟨f, rfl⟩ : ∃ j, f = j + 1 := ⟨f - 1, by omega⟩
    refine ⟨f, by simp, ?_⟩
    have hl : v.length = pre.length := by simp [he]
    rw [List.cons_append, List.nil_append, exec]
    simp only [evalE, conv, wrap32_nat pre.length (by omega), upd, if_true, Option.map_some, At]
    rw [if_neg (by omega)]
    rfl
  | cons a vs ih =>
    intro pre vars oc mv he hp ho hm
    have hl : v.length = pre.length + (vs.length + 1) := by simp [he]
    have ha : v[pre.length]? = some a := by rw [he, List.getElem?_append_right le_rfl]; simp
    have ho1 : (upd vars c!"i" (CTy.int, (pre.length : Int))) c!"output_class" = some (.int, (oc : Int)) := by
      rw [← ho]; simp [upd]
    have hm1 : (upd vars c!"i" (CTy.int, (pre.length : Int))) c!"most_votes" = some (.int16, mv) := by
      rw [← hm]; simp [upd]
    obtain ⟨vars1, hr, hi1, ho1, hm1⟩ := runs_body x arrs v hv _ pre.length (by omega) a oc mv ha
      (by simp [upd]) ho1 hm1
    obtain ⟨vars', h', ho'⟩ := ih (pre ++ [a]) vars1 (if a > mv then pre.length else oc) (if a > mv then a else mv)
      (by rw [he]; simp) (by simp) (by rw [ho1]; split <;> rfl) hm1
    refine ⟨vars', ?_, ?_⟩
    · intro rest f hf
      simp only [List.length_cons] at hf
      obtain ⟨f, rfl⟩ : ∃ j, f = j + 1 := ⟨f - 1, by omega⟩
      obtain ⟨f', hf', e'⟩ := h' rest f (by omega)
      refine ⟨f', by simp only [List.length_cons]; omega, ?_⟩
      rw [← e']
      have hend := hr.ends f (by omega)
      rw [List.cons_append, List.nil_append, exec]
      have h1 : evalE (At x vars arrs v) (.lit (pre.length : Nat)) = some (pre.length : Int) := rfl
      have h2 : ({ At x vars arrs v with vars := upd (At x vars arrs v).vars c!"i" (CTy.int, conv .int (pre.length : Int)) } : Store) =
          At x (upd vars c!"i" (CTy.int, (pre.length : Int))) arrs v := by
        simp only [At, conv, wrap32_nat pre.length (by omega)]
      have h3 : evalE (At x (upd vars c!"i" (CTy.int, (pre.length : Int))) arrs v) (.lt (.var c!"i") (.lit (v.length : Nat))) =
          some 1 := by
        simp only [evalE, At, upd, if_true, Option.map_some]
        rw [if_pos (by omega)]
      simp only [h1, h2, h3, hend]
      have h4 : (At x vars1 arrs v).vars c!"i" = some (.int, (pre.length : Int)) := hi1
      simp only [h4]
      simp
    · rw [ho']
      simp only [List.length_append, List.length_singleton, inferBest]
      split <;> rfl

theorem inferBest_lt (vs : List Int) (k bk : Nat) (bv : Int) (h : bk < k) : inferBest vs k bk bv < k + vs.length := by
  induction vs generalizing k bk bv with
  | nil => simpa [inferBest] using h
  | cons a vs ih =>
    rw [inferBest]
    have h1 := ih (k + 1) k a (by omega)
    have h2 := ih (k + 1) bk bv (by omega)
    simp only [List.length_cons]
    split <;> omega

theorem exec_find (x : List Nat) (vars arrs) (v : List Int) (hv : Fit16 v) (hne : v ≠ []) (hlen : v.length < 2147483648)
    (f : Nat) (hf : v.length + 9 ≤ f) :
    ∃ s, exec f (At x vars arrs v) (findStmts v.length) = some (s, some (inferBest v.tail 1 0 (v.headD 0) : Int)) ∧
      s.arrs = upd arrs c!"votes" v := by
  obtain ⟨a, vs, rfl⟩ := List.exists_cons_of_ne_nil hne
  have hn : ¬ (c!"votes" = c!"x") := by decide
  have h1 : Runs 1 (At x vars arrs (a :: vs)) [.decl .int c!"output_class" (.lit 0)]
      (At x (upd vars c!"output_class" (.int, 0)) arrs (a :: vs)) := by
    apply Runs.simple (fun _ _ => rfl)
    rfl
  have h2 : Runs 1 (At x (upd vars c!"output_class" (.int, 0)) arrs (a :: vs))
      [.decl .int16 c!"most_votes" (.idx c!"votes" (.lit 0))]
      (At x (upd (upd vars c!"output_class" (.int, 0)) c!"most_votes" (.int16, a)) arrs (a :: vs)) := by
    apply Runs.simple (fun _ _ => rfl)
    have : (upd arrs c!"votes" (a :: vs)) c!"votes" = some (a :: vs) := by simp [upd]
    simp only [execSimple, evalE, At, if_neg hn, this, elemAt, conv]
    simp [hv a List.mem_cons_self]
  obtain ⟨vars', h3, ho⟩ := runs_loop x arrs (a :: vs) hv hlen vs [a]
    (upd (upd vars c!"output_class" (.int, 0)) c!"most_votes" (.int16, a)) 0 a rfl (by simp) (by simp [upd])
    (by simp [upd])
  obtain ⟨f', hf', e⟩ := ((h1.append h2).append h3) [.ret (.var c!"output_class")] f (by simp at hf ⊢; omega)
  refine ⟨At x vars' arrs (a :: vs), ?_, rfl⟩
  rw [show findStmts (a :: vs).length = ([CStmt.decl .int c!"output_class" (.lit 0)] ++
    [.decl .int16 c!"most_votes" (.idx c!"votes" (.lit 0))] ++ [.loop c!"i" (.lit (([a] : List Int).length : Nat))
      (.lit ((a :: vs).length : Nat)) loopBody]) ++ [.ret (.var c!"output_class")] from rfl, e]
  obtain ⟨f', rfl⟩ : ∃ j, f' = j + 1 := ⟨f' - 1, by simp at hf hf'; omega⟩
  have hv' : (At x vars' arrs (a :: vs)).vars c!"output_class" = _ := ho
  have hb := inferBest_lt vs 1 0 a (by omega)
  simp only [List.length_cons] at hlen
  rw [exec]
  · simp only [execSimple, evalE, hv', Option.map_some, conv]
    rw [wrap32_nat _ (by simp only [List.length_singleton]; omega)]
    rfl
  · intros; simp_all
  · intros; simp_all

/-! ### A call -/

def Tok.safe (n m : Nat) : Tok → Prop
  | .ifOpen cs => ∀ c ∈ cs, c.safe n
  | .add w => w.length = m
  | .close => True

theorem Blks.safe_of (n m : Nat) (b : Blks) (h : ∀ t ∈ b.flat, t.safe n m) : b.safe n m := by
  induction b with
  | nil => trivial
  | add w b ih => exact ⟨h (.add w) List.mem_cons_self, ih fun t ht => h t (List.mem_cons_of_mem _ ht)⟩
  | ite cs b c ihb ihc =>
    refine ⟨h (.ifOpen cs) List.mem_cons_self, ihb fun t ht => h t ?_, ihc fun t ht => h t ?_⟩
    · simp [Blks.flat, ht]
    · simp [Blks.flat, ht]

/-- A program text whose tokens are `ts`, called with an input on which the tokens run to `v`. -/
theorem call_text (text : List Char) (m : Nat) (ts : List Tok) (h0 : 0 < m) (hm : m < 2147483648)
    (hc : compile text = parseFile (fnToks m ++ (ts.flatMap cToks ++ findToks m)))
    (x : List Nat) (hs : ∀ t ∈ ts, t.safe x.length m) (v : List Int) (he : execC x ts [] (List.replicate m 0) = some v)
    (statics : List Char → Option (List Int)) (hst : ∀ l, statics c!"votes" = some l → l.length = m)
    (f : Nat) (hf : (ts.flatMap cToks).length + m + 11 ≤ f) :
    ∃ st, call f text statics x = some ((inferBest v.tail 1 0 (v.headD 0) : Int), st) ∧ st c!"votes" = some v := by
  obtain ⟨b, hb, h⟩ := execC_blocks x ts.length ts [] _ v le_rfl he
  rcases h with ⟨rfl, -, rfl⟩ | ⟨_, _, _, h, -⟩
  swap
  · simp at h
  have hsafe := b.safe_of _ _ hs
  have hsz := size_le b
  have hl := b.eval_length x x.length m hsafe (List.replicate m 0) (by simp)
  have hfit : Fit16 (b.eval x (List.replicate m 0)) := by
    apply eval_fit
    intro a ha
    rw [List.eq_of_mem_replicate ha]
    rfl
  have h1 : ∃ arrs, Runs 2 ⟨c!"x", x, statics, fun _ => none⟩ [.staticArr c!"votes" m, .clear c!"votes"]
      (At x (fun _ => none) arrs (List.replicate m 0)) := by
    have e2 : ∀ (arrs : List Char → Option (List Int)) (l : List Int), arrs c!"votes" = some l → l.length = m →
        Runs 1 ⟨c!"x", x, arrs, fun _ => none⟩ [.clear c!"votes"] (At x (fun _ => none) arrs (List.replicate m 0)) := by
      intro arrs l hl hlm
      apply Runs.simple (fun _ _ => rfl)
      simp only [execSimple, hl, hlm]
      rfl
    cases hv : statics c!"votes" with
    | some l =>
      refine ⟨statics, ?_⟩
      have e1 : Runs 1 ⟨c!"x", x, statics, fun _ => none⟩ [.staticArr c!"votes" m] ⟨c!"x", x, statics, fun _ => none⟩ := by
        apply Runs.simple (fun _ _ => rfl)
        simp only [execSimple, hv]
      exact e1.append (e2 statics l hv (hst l hv))
    | none =>
      refine ⟨upd statics c!"votes" (List.replicate m 0), ?_⟩
      have e1 : Runs 1 ⟨c!"x", x, statics, fun _ => none⟩ [.staticArr c!"votes" m]
          ⟨c!"x", x, upd statics c!"votes" (List.replicate m 0), fun _ => none⟩ := by
        apply Runs.simple (fun _ _ => rfl)
        simp only [execSimple, hv]
      exact e1.append (e2 _ (List.replicate m 0) (by simp [upd]) (by simp))
  obtain ⟨arrs, h1⟩ := h1
  have h2 := runs_blocks x m (fun _ => none) arrs b hb hsafe (List.replicate m 0) (by simp)
  obtain ⟨f', hf', e⟩ := (h1.append h2) (findStmts m) f (by omega)
  obtain ⟨s, e3, e4⟩ := exec_find x (fun _ => none) arrs (b.eval x (List.replicate m 0)) hfit
    (by intro h; rw [h] at hl; simp at hl; omega) (by omega) f' (by omega)
  rw [hl] at e3
  refine ⟨s.arrs, ?_, by rw [e4]; simp [upd]⟩
  unfold call
  rw [hc, parse_file m b hb]
  simp only
  have e5 := e.trans e3
  rw [List.append_assoc] at e5
  simp only [List.cons_append, List.nil_append] at e5
  rw [e5]

/-! ### The tokens of the exporters stay inside the arrays -/

theorem condOf_safe (n ta : Nat) (h : ta < 2 * n) : (condOf n ta).safe n := by
  unfold condOf
  split
  · next h' => exact h'
  · show ta - n < n
    omega

theorem simpleC_safe (rs : Rules) (h : RulesOK rs) : ∀ t ∈ simpleC rs, t.safe rs.nLits rs.nClasses := by
  intro t ht
  simp only [simpleC, List.mem_flatten] at ht
  obtain ⟨l, hl, ht⟩ := ht
  obtain ⟨i, hi, rfl⟩ := List.mem_iff_getElem.mp hl
  rw [List.getElem_zipWith] at ht
  simp only [simpleRule, List.mem_cons, List.not_mem_nil, or_false] at ht
  rcases ht with rfl | rfl | rfl
  · intro c hc
    obtain ⟨ta, hta, rfl⟩ := List.mem_map.mp hc
    exact condOf_safe _ _ ((h.lits _ (List.getElem_mem _)).2 ta hta)
  · exact h.weights _ (List.getElem_mem _)
  · trivial

mutual
def NodeSafe (n m : Nat) : Node → Prop
  | .mk ta w childs => (∀ t, ta = some t → t < 2 * n) ∧ (∀ v, w = some v → v.length = m) ∧ NodesSafe n m childs
def NodesSafe (n m : Nat) : List Node → Prop
  | [] => True
  | c :: cs => NodeSafe n m c ∧ NodesSafe n m cs
end

theorem NodesSafe.append {n m : Nat} {a b : List Node} (ha : NodesSafe n m a) (hb : NodesSafe n m b) :
    NodesSafe n m (a ++ b) := by
  induction a with
  | nil => exact hb
  | cons c a ih => exact ⟨ha.1, ih ha.2⟩

theorem nodesSafe_one {n m : Nat} {c : Node} (h : NodeSafe n m c) : NodesSafe n m [c] := ⟨h, by simp [NodesSafe]⟩

theorem grow_safe (pick : List Nat → List Nat → List (Nat × List Nat) → Nat × List Nat) (hpick : ChoosesEntry pick)
    (rs : Rules) (h : RulesOK rs) (fuel : Nat) : ∀ (head : Option Nat) (R path inTree : List Nat)
    (w : Option (List Int)) (childs : List Node) (node : Node) (tree : List Nat), (∀ k ∈ R, k < rs.rules.length) →
    (∀ t, head = some t → t < 2 * rs.nLits) → (∀ v, w = some v → v.length = rs.nClasses) →
    NodesSafe rs.nLits rs.nClasses childs →
    grow pick rs.rules rs.weights fuel head R path inTree w childs = some (node, tree) →
    NodeSafe rs.nLits rs.nClasses node := by
  induction fuel with
  | zero => intro head R path inTree w childs node tree _ _ _ _ hg; simp [grow] at hg
  | succ fuel ih =>
    intro head R path inTree w childs node tree hR hh hw hch hg
    rw [grow] at hg
    split at hg
    · obtain ⟨rfl, -⟩ := Prod.mk.inj (Option.some.inj hg)
      exact ⟨hh, hw, hch⟩
    · simp only at hg
      have hw' : ∀ v, (R.filter fun k => sameSet (rs.rules.getD k []) path).foldl
          (fun _ k => some (rs.weights.getD k [])) w = some v → v.length = rs.nClasses := by
        have hsub : ∀ k ∈ R.filter fun k => sameSet (rs.rules.getD k []) path, k < rs.weights.length := by
          intro k hk
          rw [h.rows]
          exact hR k (List.mem_of_mem_filter hk)
        generalize R.filter (fun k => sameSet (rs.rules.getD k []) path) = here at hsub
        clear hg
        induction here generalizing w with
        | nil => exact hw
        | cons k here ih' =>
          apply ih'
          · intro v hv
            obtain rfl := Option.some.inj hv
            have hk := hsub k List.mem_cons_self
            simp only [List.getD, List.getElem?_eq_getElem hk, Option.getD_some]
            exact h.weights _ (List.getElem_mem _)
          · exact fun k hk => hsub k (List.mem_cons_of_mem _ hk)
      split at hg
      · obtain ⟨rfl, -⟩ := Prod.mk.inj (Option.some.inj hg)
        exact ⟨hh, hw', hch⟩
      · next hc =>
        have hmem := hpick path R _ hc
        simp only [candidates, List.mem_map, List.mem_flatMap] at hmem
        obtain ⟨t, ⟨k, hk, ht⟩, hnext⟩ := hmem
        split at hg
        · simp at hg
        · next child inTree' hchild =>
          rw [candidates, ← hnext] at hchild
          have ht2 : t < 2 * rs.nLits := by
            have hk' := hR k hk
            have := List.mem_of_mem_filter ht
            simp only [List.getD, List.getElem?_eq_getElem hk', Option.getD_some] at this
            exact (h.lits _ (List.getElem_mem _)).2 t this
          have hcs := ih _ _ _ _ _ _ _ _ (fun k hk => hR k (List.mem_of_mem_filter hk))
            (by intro t' ht'; obtain rfl := Option.some.inj ht'; exact ht2) (by simp) (by simp [NodesSafe]) hchild
          exact ih _ _ _ _ _ _ _ _ (fun k hk => hR k (List.mem_of_mem_filter hk)) hh hw' (hch.append (nodesSafe_one hcs)) hg

mutual
theorem exportNode_safe (n m : Nat) : ∀ (t : Node) (conds : List Nat), NodeSafe n m t → (∀ c ∈ conds, c < 2 * n) →
    ∀ k ∈ exportNode n t conds, k.safe n m
  | .mk ta w childs, conds, ht, hc => by
    obtain ⟨h1, h2, h3⟩ := ht
    have key : ∀ cs : List Nat, (∀ c ∈ cs, c < 2 * n) → ∀ (v : List Int) (post : List Tok), w = some v →
        (∀ k ∈ post, k = Tok.close) →
        ∀ k ∈ [.ifOpen (cs.map (condOf n)), .add v] ++ exportList n childs [] ++ post, k.safe n m := by
      intro cs hcs v post hv hp k hk
      simp only [List.mem_append, List.mem_cons, List.not_mem_nil, or_false] at hk
      rcases hk with ((rfl | rfl) | hk) | hk
      · intro c hcm
        obtain ⟨t, ht, rfl⟩ := List.mem_map.mp hcm
        exact condOf_safe _ _ (hcs t ht)
      · exact h2 v hv
      · exact exportList_safe n m childs [] h3 (by simp) k hk
      · rw [hp k hk]; trivial
    have hcons : ∀ t, ta = some t → ∀ c ∈ conds ++ [t], c < 2 * n := by
      intro t ht c hcm
      rcases List.mem_append.mp hcm with hcm | hcm
      · exact hc c hcm
      · rw [List.mem_singleton.mp hcm]; exact h1 t ht
    cases ta with
    | none =>
      cases w with
      | none => simpa only [exportNode] using exportList_safe n m childs conds h3 hc
      | some v => simpa only [exportNode] using key conds hc v [] rfl (by simp)
    | some t =>
      cases w with
      | none => simpa only [exportNode] using exportList_safe n m childs (conds ++ [t]) h3 (hcons t rfl)
      | some v => simpa only [exportNode] using key (conds ++ [t]) (hcons t rfl) v [.close] rfl (by simp)
theorem exportList_safe (n m : Nat) : ∀ (ts : List Node) (conds : List Nat), NodesSafe n m ts → (∀ c ∈ conds, c < 2 * n) →
    ∀ k ∈ exportList n ts conds, k.safe n m
  | [], _, _, _ => by simp [exportList]
  | c :: cs, conds, ht, hc => by
    intro k hk
    rw [exportList] at hk
    rcases List.mem_append.mp hk with hk | hk
    · exact exportNode_safe n m c conds ht.1 hc k hk
    · exact exportList_safe n m cs conds ht.2 hc k hk
end

theorem compile_simple (rs : Rules) : compile (simpleText rs) =
    parseFile (fnToks rs.nClasses ++ ((simpleC rs).flatMap cToks ++ findToks rs.nClasses)) := by
  rw [simpleText_eq]
  exact lexed c!"__SIMPLE_C_OUTPUT__H_" _ _ (.inl rfl) _ _ _ (by decide +kernel) (lexes_simple _ _ _) (by decide +kernel)

theorem compile_tree (n m : Nat) (root : Node) : compile (treeText n m root) =
    parseFile (fnToks m ++ ((exportNode n root []).flatMap cToks ++ findToks m)) := by
  rw [treeText_eq]
  exact lexed c!"__TOPOGRAPHICAL_C_OUTPUT__H_" _ _ (.inr rfl) _ _ _ (by decide +kernel) (lexes_node _ _ _ _) (by decide +kernel)

end GT
