import Verif.Spec.Dense

/-! Helper lemmas about the portable dense block. -/

namespace GT

theorem wrap8_id {x : Int} (h1 : -128 ≤ x) (h2 : x ≤ 127) : wrap8 x = x := by
  unfold wrap8; omega

theorem wrap16_id {x : Int} (h1 : -32768 ≤ x) (h2 : x ≤ 32767) : wrap16 x = x := by
  unfold wrap16; omega

theorem wrap16_add_wrap16 (x y : Int) : wrap16 (wrap16 x + y) = wrap16 (x + y) := by
  unfold wrap16; omega

theorem incState_eq {v : Int} (h : -127 ≤ v) : incState v = min 127 (max v (v + 1)) ∨ v > 127 := by
  unfold incState wrap8; omega

theorem incState_range {v : Int} (h : -127 ≤ v ∧ v ≤ 127) :
    -127 ≤ incState v ∧ incState v ≤ 127 := by
  unfold incState wrap8; split <;> omega

theorem decState_range {v : Int} (h : -127 ≤ v ∧ v ≤ 127) :
    -127 ≤ decState v ∧ decState v ≤ 127 := by
  unfold decState wrap8; split <;> omega

open Spec

@[simp] theorem inRange_cons {v : Int} {l : List Int} :
    InRange (v :: l) ↔ (-127 ≤ v ∧ v ≤ 127) ∧ InRange l := by
  simp [InRange]

@[simp] theorem inRange_nil : InRange [] := by simp [InRange]

theorem included_cons_zero {v : Int} {l : List Int} : Included (v :: l) 0 ↔ 0 ≤ v := by
  simp [Included]

theorem included_cons_succ {v : Int} {l : List Int} {i : Nat} :
    Included (v :: l) (i + 1) ↔ Included l i := by
  simp [Included]

theorem not_included_nil {i : Nat} : ¬ Included [] i := by simp [Included]

theorem forall_nat {P : Nat → Prop} : (∀ i, P i) ↔ P 0 ∧ ∀ i, P (i + 1) :=
  ⟨fun h => ⟨h 0, fun i => h _⟩, fun h i => by cases i with
    | zero => exact h.1
    | succ i => exact h.2 i⟩

theorem satisfied_cons {p q : Int} {ps qs : List Int} {x : Nat} {xs : List Nat} :
    Satisfied (p :: ps) (q :: qs) (x :: xs) ↔
      (0 ≤ p → x = 1) ∧ (0 ≤ q → x = 0) ∧ Satisfied ps qs xs := by
  unfold Satisfied
  rw [forall_nat, forall_nat (P := fun i => Included (q :: qs) i → _)]
  simp only [included_cons_zero, included_cons_succ]
  simp
  grind

theorem satisfied_nil {x : List Nat} : Satisfied [] [] x := by
  constructor <;> intro i h <;> exact absurd h not_included_nil

theorem emptyClause_cons {p q : Int} {ps qs : List Int} :
    EmptyClause (p :: ps) (q :: qs) ↔ p < 0 ∧ q < 0 ∧ EmptyClause ps qs := by
  unfold EmptyClause
  rw [forall_nat, forall_nat (P := fun i => ¬ Included (q :: qs) i)]
  simp only [included_cons_zero, included_cons_succ]
  grind

theorem emptyClause_nil : EmptyClause [] [] := by
  constructor <;> intro i <;> exact not_included_nil

theorem binary_cons {x : Nat} {xs : List Nat} :
    Binary (x :: xs) ↔ (x = 0 ∨ x = 1) ∧ Binary xs := by simp [Binary]

/-- Characterisation of the training loop. -/
theorem setOutLoop_spec (bud : Bool) (ps qs : List Int) (xs : List Nat) (pc nc : Nat)
    (hp : ps.length = xs.length) (hq : qs.length = xs.length) (hb : Binary xs) :
    ((setOutLoop bud ps qs xs pc nc).1 = 0 ∨ (setOutLoop bud ps qs xs pc nc).1 = 1) ∧
    ((setOutLoop bud ps qs xs pc nc).1 = 1 ↔ Satisfied ps qs xs) ∧
    (bud = true → (setOutLoop bud ps qs xs pc nc).1 = 1 →
      (setOutLoop bud ps qs xs pc nc).2.1 = pc + numIncluded ps ∧
      (setOutLoop bud ps qs xs pc nc).2.2 = nc + numIncluded qs) := by
  induction ps generalizing qs xs pc nc with
  | nil =>
    cases xs with
    | cons x xs => simp at hp
    | nil =>
      cases qs with
      | cons q qs => simp at hq
      | nil => simp [setOutLoop, satisfied_nil, numIncluded]
  | cons p ps ih =>
    cases xs with
    | nil => simp at hp
    | cons x xs =>
      cases qs with
      | nil => simp at hq
      | cons q qs =>
        rw [binary_cons] at hb
        simp only [List.length_cons, Nat.add_right_cancel_iff] at hp hq
        rw [satisfied_cons]
        unfold setOutLoop
        have ih' := fun pc nc => ih qs xs pc nc hp hq hb.2
        by_cases h0 : p ≥ 0 ∧ x = 0
        · simp only [h0, and_self, if_true]; grind
        · rw [if_neg h0]
          dsimp only
          by_cases h1 : q ≥ 0 ∧ x = 1
          · simp only [h1, and_self, if_true]; grind
          · rw [if_neg h1]
            refine ⟨(ih' _ _).1, ?_, ?_⟩
            · rw [(ih' _ _).2.1]; grind
            · intro hbud h
              have := (ih' _ _).2.2 hbud h
              simp only [numIncluded, List.filter_cons] at this ⊢
              rw [this.1, this.2]
              subst hbud
              constructor <;> split <;> simp_all <;> grind

/-- Characterisation of the evaluation loop. -/
theorem evalOutLoop_spec (ps qs : List Int) (xs : List Nat) (e : Bool)
    (hp : ps.length = xs.length) (hq : qs.length = xs.length) (hb : Binary xs) :
    ((evalOutLoop ps qs xs e).1 = 0 ∨ (evalOutLoop ps qs xs e).1 = 1) ∧
    ((evalOutLoop ps qs xs e).1 = 1 ↔ Satisfied ps qs xs) ∧
    ((evalOutLoop ps qs xs e).1 = 1 →
      ((evalOutLoop ps qs xs e).2 = true ↔ e = true ∧ EmptyClause ps qs)) := by
  induction ps generalizing qs xs e with
  | nil =>
    cases xs with
    | cons x xs => simp at hp
    | nil =>
      cases qs with
      | cons q qs => simp at hq
      | nil => simp [evalOutLoop, satisfied_nil, emptyClause_nil]
  | cons p ps ih =>
    cases xs with
    | nil => simp at hp
    | cons x xs =>
      cases qs with
      | nil => simp at hq
      | cons q qs =>
        rw [binary_cons] at hb
        simp only [List.length_cons, Nat.add_right_cancel_iff] at hp hq
        rw [satisfied_cons, emptyClause_cons]
        unfold evalOutLoop
        have ih' := fun e => ih qs xs e hp hq hb.2
        dsimp only
        by_cases h0 : p ≥ 0 ∧ x = 0
        · simp only [h0, and_self, if_true]; grind
        · rw [if_neg h0]
          by_cases h1 : q ≥ 0 ∧ x = 1
          · simp only [h1, and_self, if_true]; grind
          · rw [if_neg h1]
            refine ⟨(ih' _).1, ?_, ?_⟩
            · rw [(ih' _).2.1]; grind
            · intro h
              rw [(ih' _).2.2 h]
              grind

/-! ### Type I and Type II feedback, literal by literal -/

/-- Possible moves of a positive literal under Type Ia feedback. -/
def T1aPos (boost : Bool) (x : Nat) (p p' : Int) : Prop :=
  if x = 1 then p' = incState p ∨ (boost = false ∧ p' = p) else p' = decState p ∨ p' = p

/-- Possible moves of a negated literal under Type Ia feedback. -/
def T1aNeg (x : Nat) (q q' : Int) : Prop :=
  if x = 1 then q' = decState q ∨ q' = q else q' = incState q ∨ q' = q

/-- Unfolding of Type Ia feedback at the head of the rows. -/
theorem t1a_cons (cfg : Cfg) (p q : Int) (x : Nat) (ps qs : List Int) (xs : List Nat) (g : Rng) :
    ∃ p' q' g', T1aPos cfg.boost x p p' ∧ T1aNeg x q q' ∧
      t1a cfg (p :: ps) (q :: qs) (x :: xs) g =
        (p' :: (t1a cfg ps qs xs g').1, q' :: (t1a cfg ps qs xs g').2.1,
          (t1a cfg ps qs xs g').2.2) := by
  rw [t1a]
  by_cases h : x = 1
  · simp only [h, if_true]
    refine ⟨_, _, _, ?_, ?_, rfl⟩
    · simp only [T1aPos, if_true]; grind
    · simp only [T1aNeg, if_true]; grind
  · simp only [h, if_false]
    refine ⟨_, _, _, ?_, ?_, rfl⟩
    · simp only [T1aPos, h, if_false]; split <;> simp
    · simp only [T1aNeg, h, if_false]; split <;> simp

/-- Possible moves of any literal under Type Ib feedback. -/
def T1bMove (p p' : Int) : Prop := p' = decState p ∨ p' = p

theorem t1b_cons (cfg : Cfg) (p q : Int) (ps qs : List Int) (g : Rng) :
    ∃ p' q' g', T1bMove p p' ∧ T1bMove q q' ∧
      t1b cfg (p :: ps) (q :: qs) g =
        (p' :: (t1b cfg ps qs g').1, q' :: (t1b cfg ps qs g').2.1, (t1b cfg ps qs g').2.2) := by
  rw [t1b]
  refine ⟨_, _, _, ?_, ?_, rfl⟩
  · simp only [T1bMove]; split <;> simp
  · simp only [T1bMove]; split <;> simp

theorem t2_cons (p q : Int) (x : Nat) (ps qs : List Int) (xs : List Nat) :
    t2 (p :: ps) (q :: qs) (x :: xs) =
      ((if x = 0 ∧ p < 0 then wrap8 (p + 1) else p) :: (t2 ps qs xs).1,
       (if x ≠ 0 ∧ q < 0 then wrap8 (q + 1) else q) :: (t2 ps qs xs).2) := by
  rw [t2]; split <;> simp_all

/-- Generic pointwise consequence of Type Ia feedback. -/
theorem t1a_get (cfg : Cfg) (ps qs : List Int) (xs : List Nat) (g : Rng)
    (hp : ps.length = xs.length) (hq : qs.length = xs.length) (i : Nat) {p q : Int} {x : Nat}
    (h1 : ps[i]? = some p) (h2 : qs[i]? = some q) (h3 : xs[i]? = some x) :
    ∃ p' q', (t1a cfg ps qs xs g).1[i]? = some p' ∧ (t1a cfg ps qs xs g).2.1[i]? = some q' ∧
      T1aPos cfg.boost x p p' ∧ T1aNeg x q q' := by
  induction ps generalizing qs xs g i with
  | nil => simp at h1
  | cons a ps ih =>
    match qs, xs with
    | [], _ => simp at h2
    | _ :: _, [] => simp at h3
    | b :: qs, y :: xs =>
      obtain ⟨p', q', g', hP, hQ, e⟩ := t1a_cons cfg a b y ps qs xs g
      rw [e]
      cases i with
      | zero => simp at h1 h2 h3; subst h1 h2 h3; exact ⟨p', q', by simp, by simp, hP, hQ⟩
      | succ i =>
        simp only [List.getElem?_cons_succ] at h1 h2 h3 ⊢
        exact ih qs xs g' (by simpa using hp) (by simpa using hq) i h1 h2 h3

theorem t1b_get (cfg : Cfg) (ps qs : List Int) (g : Rng)
    (h : ps.length = qs.length) (i : Nat) {p q : Int}
    (h1 : ps[i]? = some p) (h2 : qs[i]? = some q) :
    ∃ p' q', (t1b cfg ps qs g).1[i]? = some p' ∧ (t1b cfg ps qs g).2.1[i]? = some q' ∧
      T1bMove p p' ∧ T1bMove q q' := by
  induction ps generalizing qs g i with
  | nil => simp at h1
  | cons a ps ih =>
    match qs with
    | [] => simp at h2
    | b :: qs =>
      obtain ⟨p', q', g', hP, hQ, e⟩ := t1b_cons cfg a b ps qs g
      rw [e]
      cases i with
      | zero => simp at h1 h2; subst h1 h2; exact ⟨p', q', by simp, by simp, hP, hQ⟩
      | succ i =>
        simp only [List.getElem?_cons_succ] at h1 h2 ⊢
        exact ih qs g' (by simpa using h) i h1 h2

theorem t2_get (ps qs : List Int) (xs : List Nat)
    (hp : ps.length = xs.length) (hq : qs.length = xs.length) (i : Nat) {p q : Int} {x : Nat}
    (h1 : ps[i]? = some p) (h2 : qs[i]? = some q) (h3 : xs[i]? = some x) :
    (t2 ps qs xs).1[i]? = some (if x = 0 ∧ p < 0 then wrap8 (p + 1) else p) ∧
    (t2 ps qs xs).2[i]? = some (if x ≠ 0 ∧ q < 0 then wrap8 (q + 1) else q) := by
  induction ps generalizing qs xs i with
  | nil => simp at h1
  | cons a ps ih =>
    match qs, xs with
    | [], _ => simp at h2
    | _ :: _, [] => simp at h3
    | b :: qs, y :: xs =>
      rw [t2_cons]
      cases i with
      | zero => simp at h1 h2 h3; subst h1 h2 h3; simp
      | succ i =>
        simp only [List.getElem?_cons_succ] at h1 h2 h3 ⊢
        exact ih qs xs (by simpa using hp) (by simpa using hq) i h1 h2 h3

theorem t1a_length (cfg : Cfg) (ps qs : List Int) (xs : List Nat) (g : Rng) :
    (t1a cfg ps qs xs g).1.length = ps.length ∧ (t1a cfg ps qs xs g).2.1.length = qs.length := by
  induction ps generalizing qs xs g with
  | nil => simp [t1a]
  | cons a ps ih =>
    match qs, xs with
    | [], _ => simp [t1a]
    | _ :: _, [] => simp [t1a]
    | b :: qs, y :: xs =>
      obtain ⟨p', q', g', hP, hQ, e⟩ := t1a_cons cfg a b y ps qs xs g
      rw [e]; simp [ih]

theorem t1b_length (cfg : Cfg) (ps qs : List Int) (g : Rng) :
    (t1b cfg ps qs g).1.length = ps.length ∧ (t1b cfg ps qs g).2.1.length = qs.length := by
  induction ps generalizing qs g with
  | nil => simp [t1b]
  | cons a ps ih =>
    match qs with
    | [] => simp [t1b]
    | b :: qs =>
      obtain ⟨p', q', g', hP, hQ, e⟩ := t1b_cons cfg a b ps qs g
      rw [e]; simp [ih]

theorem t2_length (ps qs : List Int) (xs : List Nat) :
    (t2 ps qs xs).1.length = ps.length ∧ (t2 ps qs xs).2.length = qs.length := by
  induction ps generalizing qs xs with
  | nil => simp [t2]
  | cons a ps ih =>
    match qs, xs with
    | [], _ => simp [t2]
    | _ :: _, [] => simp [t2]
    | b :: qs, y :: xs => rw [t2_cons]; simp [ih]

theorem t1a_inRange (cfg : Cfg) (ps qs : List Int) (xs : List Nat) (g : Rng)
    (hp : InRange ps) (hq : InRange qs) :
    InRange (t1a cfg ps qs xs g).1 ∧ InRange (t1a cfg ps qs xs g).2.1 := by
  induction ps generalizing qs xs g with
  | nil => simp [t1a, hq]
  | cons a ps ih =>
    match qs, xs with
    | [], _ => simp [t1a] ; simpa using hp
    | _ :: _, [] => rw [t1a]; exact ⟨hp, hq⟩; simp
    | b :: qs, y :: xs =>
      obtain ⟨p', q', g', hP, hQ, e⟩ := t1a_cons cfg a b y ps qs xs g
      rw [e]
      simp only [inRange_cons] at hp hq ⊢
      have := ih qs xs g' hp.2 hq.2
      refine ⟨⟨?_, this.1⟩, ?_, this.2⟩
      · unfold T1aPos incState decState wrap8 at hP; split at hP <;> grind
      · unfold T1aNeg incState decState wrap8 at hQ; split at hQ <;> grind

theorem t1b_inRange (cfg : Cfg) (ps qs : List Int) (g : Rng)
    (hp : InRange ps) (hq : InRange qs) :
    InRange (t1b cfg ps qs g).1 ∧ InRange (t1b cfg ps qs g).2.1 := by
  induction ps generalizing qs g with
  | nil => simp [t1b, hq]
  | cons a ps ih =>
    match qs with
    | [] => simp [t1b] ; simpa using hp
    | b :: qs =>
      obtain ⟨p', q', g', hP, hQ, e⟩ := t1b_cons cfg a b ps qs g
      rw [e]
      simp only [inRange_cons] at hp hq ⊢
      have := ih qs g' hp.2 hq.2
      refine ⟨⟨?_, this.1⟩, ?_, this.2⟩
      · unfold T1bMove decState wrap8 at hP; grind
      · unfold T1bMove decState wrap8 at hQ; grind

theorem t2_inRange (ps qs : List Int) (xs : List Nat) (hp : InRange ps) (hq : InRange qs) :
    InRange (t2 ps qs xs).1 ∧ InRange (t2 ps qs xs).2 := by
  induction ps generalizing qs xs with
  | nil => simp [t2, hq]
  | cons a ps ih =>
    match qs, xs with
    | [], _ => simp [t2] ; simpa using hp
    | _ :: _, [] => rw [t2]; exact ⟨hp, hq⟩; simp
    | b :: qs, y :: xs =>
      rw [t2_cons]
      simp only [inRange_cons] at hp hq ⊢
      have := ih qs xs hp.2 hq.2
      refine ⟨⟨?_, this.1⟩, ?_, this.2⟩ <;> unfold wrap8 <;> split <;> omega

@[simp] theorem budgetGate_pos (cfg : Cfg) (c : Clause) : (budgetGate cfg c).pos = c.pos := by
  unfold budgetGate; split <;> simp; split <;> simp

@[simp] theorem budgetGate_neg (cfg : Cfg) (c : Clause) : (budgetGate cfg c).neg = c.neg := by
  unfold budgetGate; split <;> simp; split <;> simp

@[simp] theorem budgetGate_w (cfg : Cfg) (c : Clause) : (budgetGate cfg c).w = c.w := by
  unfold budgetGate; split <;> simp; split <;> simp

theorem budgetGate_out (cfg : Cfg) (c : Clause) :
    (budgetGate cfg c).out = 1 ↔ c.out = 1 ∧ ∀ b, cfg.budget = some b → c.cnt ≤ b := by
  unfold budgetGate
  cases h : cfg.budget with
  | none => simp
  | some b => dsimp only; split <;> simp <;> omega

theorem clauseUpdate_inRange (cfg : Cfg) (x : List Nat) (j : Nat) (t : Int) (c : Clause) (g : Rng)
    (hp : InRange c.pos) (hq : InRange c.neg) :
    InRange (clauseUpdate cfg x j t c g).1.pos ∧ InRange (clauseUpdate cfg x j t c g).1.neg := by
  unfold clauseUpdate
  dsimp only
  repeat' split
  · exact t1a_inRange _ _ _ _ _ hp hq
  · exact t1b_inRange _ _ _ _ hp hq
  all_goals first
    | exact t1a_inRange _ _ _ _ _ hp hq
    | exact t1b_inRange _ _ _ _ hp hq
    | exact t2_inRange _ _ _ hp hq
    | exact ⟨hp, hq⟩

theorem trainClause_inRange (cfg : Cfg) (x : List Nat) (fb : Feedback) (c : Clause) (f g : Rng)
    (hp : InRange c.pos) (hq : InRange c.neg) :
    InRange (trainClause cfg x fb c f g).1.pos ∧ InRange (trainClause cfg x fb c f g).1.neg := by
  unfold trainClause
  dsimp only
  have h1 : ∀ r : Rng, InRange (clauseUpdate cfg x fb.posClass 1 (budgetGate cfg c) r).1.pos ∧
      InRange (clauseUpdate cfg x fb.posClass 1 (budgetGate cfg c) r).1.neg := fun r =>
    clauseUpdate_inRange _ _ _ _ _ _ (by simpa) (by simpa)
  have h2 : InRange (budgetGate cfg c).pos ∧ InRange (budgetGate cfg c).neg := by simp [hp, hq]
  have h3 : ∀ (d : Clause) (r : Rng), InRange d.pos ∧ InRange d.neg →
    InRange (clauseUpdate cfg x fb.negClass (-1) d r).1.pos ∧
      InRange (clauseUpdate cfg x fb.negClass (-1) d r).1.neg := fun d r h =>
    clauseUpdate_inRange _ _ _ _ _ _ h.1 h.2
  grind

/-- Clause `i` of the block is updated by the body of the loop, with two draws of the fast generator
per clause. -/
theorem trainClauses_get (cfg : Cfg) (x : List Nat) (fb : Feedback) (cs : List Clause) (f g : Rng)
    (i : Nat) (c : Clause) (h : cs[i]? = some c) :
    ∃ g', (trainClauses cfg x fb cs f g).1[i]? =
      some (trainClause cfg x fb c { f with pos := f.pos + 2 * i } g').1 := by
  induction cs generalizing f g i with
  | nil => simp at h
  | cons d cs ih =>
    rw [trainClauses]
    cases i with
    | zero => simp at h; subst h; exact ⟨g, by simp⟩
    | succ i =>
      simp only [List.getElem?_cons_succ] at h ⊢
      obtain ⟨g', e⟩ := ih (trainClause cfg x fb d f g).2.1 (trainClause cfg x fb d f g).2.2 i h
      refine ⟨g', ?_⟩
      rw [e]
      simp only [trainClause, Rng.next]
      grind

theorem trainClauses_length (cfg : Cfg) (x : List Nat) (fb : Feedback) (cs : List Clause) (f g : Rng) :
    (trainClauses cfg x fb cs f g).1.length = cs.length := by
  induction cs generalizing f g with
  | nil => simp [trainClauses]
  | cons d cs ih => simp [trainClauses, ih]

theorem trainClauses_mem (cfg : Cfg) (x : List Nat) (fb : Feedback) (cs : List Clause) (f g : Rng)
    (c' : Clause) (h : c' ∈ (trainClauses cfg x fb cs f g).1) :
    ∃ c ∈ cs, ∃ f' g', c' = (trainClause cfg x fb c f' g').1 := by
  obtain ⟨i, hi, rfl⟩ := List.mem_iff_getElem.mp h
  rw [trainClauses_length] at hi
  obtain ⟨g', e⟩ := trainClauses_get cfg x fb cs f g i _ (List.getElem?_eq_getElem hi)
  refine ⟨cs[i], List.getElem_mem _, { f with pos := f.pos + 2 * i }, g', ?_⟩
  rw [List.getElem?_eq_getElem (by rw [trainClauses_length]; exact hi)] at e
  exact Option.some.inj e

/-- Exact effect of one clause update on the weights. -/
theorem clauseUpdate_w (cfg : Cfg) (x : List Nat) (j : Nat) (t : Int) (c : Clause) (g : Rng)
    (ht : t = 1 ∨ t = -1) :
    (clauseUpdate cfg x j t c g).1.w =
      if c.out = 1 then c.w.set j (wrap16 (c.w.getD j 0 + t)) else c.w := by
  unfold clauseUpdate
  dsimp only
  generalize c.w.getD j 0 = w
  rcases ht with rfl | rfl <;> by_cases ho : c.out = 1 <;> by_cases hw : w ≥ 0 <;>
    simp [ho, hw, Int.sub_eq_add_neg]

theorem clauseUpdate_out (cfg : Cfg) (x : List Nat) (j : Nat) (t : Int) (c : Clause) (g : Rng) :
    (clauseUpdate cfg x j t c g).1.out = c.out ∧ (clauseUpdate cfg x j t c g).1.cnt = c.cnt := by
  unfold clauseUpdate
  dsimp only
  generalize c.w.getD j 0 = w
  repeat' split
  all_goals simp

/-- A silent clause never has a literal state raised. -/
theorem clauseUpdate_silent (cfg : Cfg) (x : List Nat) (j : Nat) (t : Int) (c : Clause) (g : Rng)
    (ho : c.out ≠ 1) :
    (clauseUpdate cfg x j t c g).1 = c ∨
      (clauseUpdate cfg x j t c g).1 =
        { c with pos := (t1b cfg c.pos c.neg g).1, neg := (t1b cfg c.pos c.neg g).2.1 } := by
  unfold clauseUpdate
  dsimp only
  generalize c.w.getD j 0 = w
  repeat' split
  all_goals simp_all

/-- Add `t` to entry `j` of a weight row, with the 16-bit store. -/
def bump (j : Nat) (t : Int) (w : List Int) : List Int := w.set j (wrap16 (w.getD j 0 + t))

theorem bump_get (j k : Nat) (t : Int) (w : List Int) :
    (bump j t w)[k]? = if k = j then w[k]?.map (fun v => wrap16 (v + t)) else w[k]? := by
  unfold bump
  rw [List.getElem?_set]
  by_cases h : j = k
  · subst h
    by_cases hl : j < w.length
    · simp [hl, List.getD]
    · simp [hl]
  · simp [h, Ne.symm h]

theorem bump2_get (w : List Int) (j pc nc : Nat) (v : Int) (P N : Prop) [Decidable P] [Decidable N]
    (hv : w[j]? = some v) (h1 : -32768 < v) (h2 : v < 32767) :
    (let w1 := if P then bump pc 1 w else w
     if N then bump nc (-1) w1 else w1)[j]? =
      some (v + (if j = pc ∧ P then 1 else 0) - (if j = nc ∧ N then 1 else 0)) := by
  have e1 : wrap16 (v + 1) = v + 1 := wrap16_id (by omega) (by omega)
  have e2 : wrap16 (v + -1) = v + -1 := wrap16_id (by omega) (by omega)
  have e3 : wrap16 (v + 1 + -1) = v := by rw [wrap16_id (by omega) (by omega)]; omega
  by_cases hP : P <;> by_cases hN : N <;> by_cases hp : j = pc <;> by_cases hn : j = nc <;>
    simp only [hP, hN, hp, hn, if_true, if_false, and_true, and_false, bump_get] <;>
    simp_all [Int.sub_eq_add_neg] <;> omega

/-- Exact effect of one clause's update step on its weights. -/
theorem trainClause_w (cfg : Cfg) (x : List Nat) (fb : Feedback) (c : Clause) (f g : Rng) :
    (trainClause cfg x fb c f g).1.w =
      (let w1 := if (budgetGate cfg c).out = 1 ∧ f.draw f.pos < fb.posProb
                 then bump fb.posClass 1 c.w else c.w
       if (budgetGate cfg c).out = 1 ∧ f.draw (f.pos + 1) < fb.negProb
       then bump fb.negClass (-1) w1 else w1) := by
  simp only [trainClause, Rng.next]
  by_cases h1 : f.draw f.pos < fb.posProb <;> by_cases h2 : f.draw (f.pos + 1) < fb.negProb <;>
    by_cases h3 : (budgetGate cfg c).out = 1 <;>
    simp [h1, h2, h3, clauseUpdate_w, clauseUpdate_out, bump]

theorem initHalf_spec (n : Nat) (g : Rng) :
    (initHalf n g).1.length = n ∧ ∀ v ∈ (initHalf n g).1, v = -1 ∨ v = 0 := by
  induction n generalizing g with
  | zero => simp [initHalf]
  | succ n ih => simp only [initHalf]; simp [ih]; grind

theorem initRows_spec (nLits k : Nat) (g : Rng) :
    (initRows nLits k g).1.length = k ∧
    ∀ r ∈ (initRows nLits k g).1, r.1.length = nLits ∧ r.2.length = nLits ∧
      (∀ v ∈ r.1, v = -1 ∨ v = 0) ∧ (∀ v ∈ r.2, v = -1 ∨ v = 0) := by
  induction k generalizing g with
  | zero => simp [initRows]
  | succ k ih =>
    simp only [initRows, List.length_cons, List.mem_cons]
    refine ⟨by rw [(ih _).1], ?_⟩
    intro r hr
    rcases hr with rfl | hr
    · exact ⟨(initHalf_spec _ _).1, (initHalf_spec _ _).1, (initHalf_spec _ _).2,
        (initHalf_spec _ _).2⟩
    · exact (ih _).2 r hr

theorem initWeights_spec (n : Nat) (g : Rng) :
    (initWeights n g).1.length = n ∧ ∀ v ∈ (initWeights n g).1, v = 1 ∨ v = -1 := by
  induction n generalizing g with
  | zero => simp [initWeights]
  | succ n ih => simp only [initWeights]; simp [ih]; grind

theorem initAllWeights_spec (nClasses k : Nat) (g : Rng) :
    (initAllWeights nClasses k g).1.length = k ∧
    ∀ r ∈ (initAllWeights nClasses k g).1, r.length = nClasses ∧ ∀ v ∈ r, v = 1 ∨ v = -1 := by
  induction k generalizing g with
  | zero => simp [initAllWeights]
  | succ k ih =>
    simp only [initAllWeights, List.length_cons, List.mem_cons]
    refine ⟨by rw [(ih _).1], ?_⟩
    intro r hr
    rcases hr with rfl | hr
    · exact initWeights_spec _ _
    · exact (ih _).2 r hr

theorem clauseUpdate_t2 (cfg : Cfg) (x : List Nat) (j : Nat) (target : Int) (c : Clause) (g : Rng)
    (h : WronglyFiring c j target) :
    (clauseUpdate cfg x j target c g).1.pos = (t2 c.pos c.neg x).1 ∧
    (clauseUpdate cfg x j target c g).1.neg = (t2 c.pos c.neg x).2 ∧
    (clauseUpdate cfg x j target c g).2 = g := by
  obtain ⟨ho, h⟩ := h
  unfold clauseUpdate
  dsimp only
  generalize c.w.getD j 0 = w at h
  rcases h with ⟨rfl, hw⟩ | ⟨rfl, hw⟩
  · have : ¬ 0 ≤ w := by omega
    simp [this, ho]
  · simp [hw, ho]

theorem repeatT2_head (k : Nat) (p q : Int) (ps qs : List Int) (x : Nat) (xs : List Nat)
    (hp : -127 ≤ p ∧ p ≤ 127) (hq : -127 ≤ q ∧ q ≤ 127) :
    ∃ ps' qs', repeatT2 (x :: xs) k (p :: ps, q :: qs) =
      ((if x = 0 ∧ p < 0 then min 0 (p + k) else p) :: ps',
       (if x ≠ 0 ∧ q < 0 then min 0 (q + k) else q) :: qs') := by
  induction k generalizing p q ps qs with
  | zero => exact ⟨ps, qs, by simp [repeatT2]; omega⟩
  | succ k ih =>
    rw [repeatT2, t2_cons]
    obtain ⟨ps', qs', e⟩ := ih (if x = 0 ∧ p < 0 then wrap8 (p + 1) else p)
      (if x ≠ 0 ∧ q < 0 then wrap8 (q + 1) else q) (t2 ps qs xs).1 (t2 ps qs xs).2
      (by unfold wrap8; split <;> omega) (by unfold wrap8; split <;> omega)
    refine ⟨ps', qs', ?_⟩
    rw [e]
    simp only [Prod.mk.injEq, List.cons.injEq, and_true]
    unfold wrap8
    constructor <;> grind

theorem clauseUpdate_t1a (cfg : Cfg) (x : List Nat) (j : Nat) (target : Int) (c : Clause) (g : Rng)
    (h : RightlyFiring c j target) :
    (clauseUpdate cfg x j target c g).1.pos = (t1a cfg c.pos c.neg x g).1 ∧
    (clauseUpdate cfg x j target c g).1.neg = (t1a cfg c.pos c.neg x g).2.1 := by
  obtain ⟨ho, h⟩ := h
  unfold clauseUpdate
  dsimp only
  generalize c.w.getD j 0 = w at h
  rcases h with ⟨rfl, hw⟩ | ⟨rfl, hw⟩
  · simp [hw, ho]
  · have : ¬ 0 ≤ w := by omega
    simp [this, ho]

theorem addVotes_length (v w : List Int) (h : w.length = v.length) :
    (addVotes v w).length = v.length := by
  simp [addVotes, h]

theorem countVotes_aux (cs : List Clause) (v : List Int) (n k : Nat) (hk : k < n)
    (hv : v.length = n) (hw : ∀ c ∈ cs, c.w.length = n) (a : Int) (ha : v[k]? = some (wrap16 a)) :
    (cs.foldl (fun v c => if c.out = 1 then addVotes v c.w else v) v)[k]? =
      some (wrap16 (a + voteSum cs k)) := by
  induction cs generalizing v a with
  | nil => simpa [voteSum] using ha
  | cons c cs ih =>
    simp only [List.foldl_cons]
    have hwc : c.w.length = n := hw c (by simp)
    by_cases ho : c.out = 1
    · have hk' : c.w[k]? = some (c.w.getD k 0) := by
        rw [List.getElem?_eq_getElem (by omega)]
        simp [List.getD, List.getElem?_eq_getElem (show k < c.w.length by omega)]
      rw [if_pos ho, ih (addVotes v c.w) (by rw [addVotes_length v c.w (by omega), hv])
        (fun d hd => hw d (by simp [hd])) (a + c.w.getD k 0) ?_]
      · have : voteSum (c :: cs) k = c.w.getD k 0 + voteSum cs k := by
          simp [voteSum, ho]
        rw [this, Int.add_assoc]
      · simp only [addVotes, List.getElem?_zipWith, ha, hk']
        rw [wrap16_add_wrap16]
    · rw [if_neg ho, ih v hv (fun d hd => hw d (by simp [hd])) a ha]
      have : voteSum (c :: cs) k = voteSum cs k := by
        simp [voteSum, ho]
      rw [this]

theorem noRise_refl (l : List Int) : NoRise l l :=
  ⟨rfl, fun i v v' h h' => by rw [h] at h'; cases h'; exact Int.le_refl _⟩

theorem Spec.NoRise.trans {a b c : List Int} (h1 : NoRise a b) (h2 : NoRise b c) : NoRise a c := by
  refine ⟨by rw [h2.1, h1.1], ?_⟩
  intro i v v' h h'
  have hi : i < b.length := by rw [h1.1]; exact (List.getElem?_eq_some_iff.mp h).1
  have hb : b[i]? = some b[i] := List.getElem?_eq_getElem hi
  exact Int.le_trans (h2.2 i _ _ hb h') (h1.2 i _ _ h hb)

theorem t1b_noRise (cfg : Cfg) (ps qs : List Int) (g : Rng) (hl : ps.length = qs.length)
    (hp : InRange ps) (hq : InRange qs) :
    NoRise ps (t1b cfg ps qs g).1 ∧ NoRise qs (t1b cfg ps qs g).2.1 := by
  have hlen := t1b_length cfg ps qs g
  refine ⟨⟨hlen.1, ?_⟩, hlen.2, ?_⟩
  · intro i v v' h h'
    have hi : i < qs.length := by rw [← hl]; exact (List.getElem?_eq_some_iff.mp h).1
    obtain ⟨p', q', h1, h2, hP, hQ⟩ := t1b_get cfg ps qs g hl i h (List.getElem?_eq_getElem hi)
    rw [h1] at h'
    cases h'
    have := hp v (List.mem_of_getElem? h)
    simp only [T1bMove, decState, wrap8] at hP
    grind
  · intro i v v' h h'
    have hi : i < ps.length := by rw [hl]; exact (List.getElem?_eq_some_iff.mp h).1
    obtain ⟨p', q', h1, h2, hP, hQ⟩ := t1b_get cfg ps qs g hl i (List.getElem?_eq_getElem hi) h
    rw [h2] at h'
    cases h'
    have := hq v (List.mem_of_getElem? h)
    simp only [T1bMove, decState, wrap8] at hQ
    grind

theorem clauseUpdate_silent_noRise (cfg : Cfg) (x : List Nat) (j : Nat) (t : Int) (c : Clause)
    (g : Rng) (ho : c.out ≠ 1) (hl : c.pos.length = c.neg.length)
    (hp : InRange c.pos) (hq : InRange c.neg) :
    (clauseUpdate cfg x j t c g).1.w = c.w ∧ NoRise c.pos (clauseUpdate cfg x j t c g).1.pos ∧
      NoRise c.neg (clauseUpdate cfg x j t c g).1.neg := by
  rcases clauseUpdate_silent cfg x j t c g ho with e | e
  · rw [e]; exact ⟨rfl, noRise_refl _, noRise_refl _⟩
  · rw [e]
    have := t1b_noRise cfg c.pos c.neg g hl hp hq
    exact ⟨rfl, this.1, this.2⟩

theorem trainClause_silent_noRise (cfg : Cfg) (x : List Nat) (fb : Feedback) (c : Clause)
    (f g : Rng) (ho : (budgetGate cfg c).out ≠ 1) (hl : c.pos.length = c.neg.length)
    (hp : InRange c.pos) (hq : InRange c.neg) :
    (trainClause cfg x fb c f g).1.w = c.w ∧ NoRise c.pos (trainClause cfg x fb c f g).1.pos ∧
      NoRise c.neg (trainClause cfg x fb c f g).1.neg := by
  have hgl : (budgetGate cfg c).pos.length = (budgetGate cfg c).neg.length := by simpa using hl
  have hgp : InRange (budgetGate cfg c).pos := by simpa using hp
  have hgq : InRange (budgetGate cfg c).neg := by simpa using hq
  -- after the first (possible) update
  have step1 : ∀ r, ((clauseUpdate cfg x fb.posClass 1 (budgetGate cfg c) r).1.out ≠ 1 ∧
      (clauseUpdate cfg x fb.posClass 1 (budgetGate cfg c) r).1.pos.length =
        (clauseUpdate cfg x fb.posClass 1 (budgetGate cfg c) r).1.neg.length) ∧
      InRange (clauseUpdate cfg x fb.posClass 1 (budgetGate cfg c) r).1.pos ∧
      InRange (clauseUpdate cfg x fb.posClass 1 (budgetGate cfg c) r).1.neg := by
    intro r
    have h := clauseUpdate_silent_noRise cfg x fb.posClass 1 (budgetGate cfg c) r ho hgl hgp hgq
    refine ⟨⟨by rw [(clauseUpdate_out _ _ _ _ _ _).1]; exact ho, ?_⟩,
      clauseUpdate_inRange _ _ _ _ _ _ hgp hgq⟩
    rw [h.2.1.1, h.2.2.1]; exact hgl
  have n1 := fun r => clauseUpdate_silent_noRise cfg x fb.posClass 1 (budgetGate cfg c) r ho hgl hgp hgq
  have n2 := fun r => clauseUpdate_silent_noRise cfg x fb.negClass (-1) (budgetGate cfg c) r ho hgl hgp hgq
  have n3 := fun r r' => clauseUpdate_silent_noRise cfg x fb.negClass (-1)
    (clauseUpdate cfg x fb.posClass 1 (budgetGate cfg c) r).1 r' (step1 r).1.1 (step1 r).1.2
    (step1 r).2.1 (step1 r).2.2
  simp only [budgetGate_pos, budgetGate_neg, budgetGate_w] at n1 n2
  unfold trainClause
  dsimp only
  by_cases hP : f.next.1 < fb.posProb <;> by_cases hN : f.next.2.next.1 < fb.negProb <;>
    simp only [hP, hN, if_true, if_false]
  · exact ⟨by rw [(n3 _ _).1, (n1 _).1], (n1 _).2.1.trans (n3 _ _).2.1, (n1 _).2.2.trans (n3 _ _).2.2⟩
  · exact n1 _
  · exact n2 _
  · exact ⟨by simp, by simp [noRise_refl], by simp [noRise_refl]⟩

theorem Spec.NoRise.included {a b : List Int} (h : NoRise a b) (i : Nat) (hi : Included b i) :
    Included a i := by
  obtain ⟨v', h', h0⟩ := hi
  have hl : i < a.length := by rw [← h.1]; exact (List.getElem?_eq_some_iff.mp h').1
  exact ⟨a[i], List.getElem?_eq_getElem hl,
    Int.le_trans h0 (h.2 i _ _ (List.getElem?_eq_getElem hl) h')⟩

theorem clauseUpdate_length (cfg : Cfg) (x : List Nat) (j : Nat) (t : Int) (c : Clause) (g : Rng) :
    (clauseUpdate cfg x j t c g).1.pos.length = c.pos.length ∧
    (clauseUpdate cfg x j t c g).1.neg.length = c.neg.length := by
  unfold clauseUpdate
  dsimp only
  generalize c.w.getD j 0 = w
  repeat' split
  all_goals simp [t1a_length, t1b_length, t2_length]

theorem trainClause_length (cfg : Cfg) (x : List Nat) (fb : Feedback) (c : Clause) (f g : Rng) :
    (trainClause cfg x fb c f g).1.pos.length = c.pos.length ∧
    (trainClause cfg x fb c f g).1.neg.length = c.neg.length := by
  unfold trainClause
  dsimp only
  split <;> split <;> simp [clauseUpdate_length]

theorem trainStep_keeps_shape (b : DBlock) (x : List Nat) (fb : Feedback) (n : Nat)
    (hb : ∀ c ∈ b.clauses, Shaped n c ∧ InRange c.pos ∧ InRange c.neg) :
    (b.trainStep x fb).cfg = b.cfg ∧
    ∀ c ∈ (b.trainStep x fb).clauses, Shaped n c ∧ InRange c.pos ∧ InRange c.neg := by
  refine ⟨rfl, ?_⟩
  intro c hc
  obtain ⟨d, hd, f, g, rfl⟩ := trainClauses_mem _ _ _ _ _ _ _ hc
  simp only [DBlock.apply, DBlock.countVotes, DBlock.trainSetOutput, List.mem_map] at hd
  obtain ⟨d', hd', rfl⟩ := hd
  have h := hb d' hd'
  refine ⟨?_, trainClause_inRange _ _ _ _ _ _ h.2.1 h.2.2⟩
  have := trainClause_length b.cfg x fb (setOutClause b.cfg x d') f g
  exact ⟨this.1.trans h.1.1, this.2.trans h.1.2⟩

/-! ### Exact draws of Type I feedback -/

theorem drawsBefore_cons (boost : Bool) (y : Nat) (xs : List Nat) (i : Nat) :
    Spec.drawsBefore boost (y :: xs) (i + 1) =
      (if boost = true ∧ y = 1 then 1 else 2) + Spec.drawsBefore boost xs i := by
  unfold Spec.drawsBefore
  have h : (xs.take i).count 1 ≤ i := Nat.le_trans List.count_le_length (by simp; omega)
  cases boost
  · simp; omega
  · by_cases hy : y = 1
    · simp [hy]; omega
    · simp [hy]; omega

theorem t1a_draws (cfg : Cfg) (ps qs : List Int) (xs : List Nat) (g : Rng)
    (hp : ps.length = xs.length) (hq : qs.length = xs.length) (i : Nat) {p q : Int} {x : Nat}
    (h1 : ps[i]? = some p) (h2 : qs[i]? = some q) (h3 : xs[i]? = some x) :
    (t1a cfg ps qs xs g).1[i]? = some (
      if x = 1 then
        (if cfg.boost = true ∨ g.draw (g.pos + Spec.drawsBefore cfg.boost xs i) ≤ cfg.sMin1Inv
          then incState p else p)
      else (if g.draw (g.pos + Spec.drawsBefore cfg.boost xs i) ≤ cfg.sInv then decState p else p)) ∧
    (t1a cfg ps qs xs g).2.1[i]? = some (
      if x = 1 then
        (if g.draw (g.pos + Spec.drawsBefore cfg.boost xs i + (if cfg.boost then 0 else 1)) ≤ cfg.sInv
          then decState q else q)
      else (if g.draw (g.pos + Spec.drawsBefore cfg.boost xs i + 1) ≤ cfg.sMin1Inv
          then incState q else q)) := by
  induction ps generalizing qs xs g i with
  | nil => simp at h1
  | cons a ps ih =>
    match qs, xs with
    | [], _ => simp at h2
    | _ :: _, [] => simp at h3
    | b :: qs, y :: xs =>
      cases i with
      | zero =>
        simp at h1 h2 h3; subst h1 h2 h3
        have h0 : Spec.drawsBefore cfg.boost (y :: xs) 0 = 0 := by simp [Spec.drawsBefore]
        rw [t1a, h0]
        clear ih h0
        by_cases hx : y = 1 <;> cases hb : cfg.boost <;> simp [hx, Rng.next] <;> grind
      | succ i =>
        simp only [List.getElem?_cons_succ] at h1 h2 h3
        rw [drawsBefore_cons]
        have := ih qs xs { g with pos := g.pos + (if cfg.boost = true ∧ y = 1 then 1 else 2) }
          (by simpa using hp) (by simpa using hq) i h1 h2 h3
        simp only [Nat.add_assoc] at this ⊢
        rw [t1a]
        by_cases hx : y = 1 <;> cases hb : cfg.boost <;>
          simp only [hx, hb, Rng.next, if_true, if_false, Bool.false_eq_true, List.getElem?_cons_succ,
            and_self, and_false, and_true, Nat.add_assoc] at this ⊢ <;> exact this

theorem t1b_draws (cfg : Cfg) (ps qs : List Int) (g : Rng)
    (h : ps.length = qs.length) (i : Nat) {p q : Int}
    (h1 : ps[i]? = some p) (h2 : qs[i]? = some q) :
    (t1b cfg ps qs g).1[i]? = some (if g.draw (g.pos + 2 * i) ≤ cfg.sInv then decState p else p) ∧
    (t1b cfg ps qs g).2.1[i]? =
      some (if g.draw (g.pos + 2 * i + 1) ≤ cfg.sInv then decState q else q) := by
  induction ps generalizing qs g i with
  | nil => simp at h1
  | cons a ps ih =>
    match qs with
    | [] => simp at h2
    | b :: qs =>
      cases i with
      | zero =>
        simp at h1 h2; subst h1 h2
        clear ih
        rw [t1b]; simp [Rng.next]; grind
      | succ i =>
        simp only [List.getElem?_cons_succ] at h1 h2
        have := ih qs { g with pos := g.pos + 2 } (by simpa using h) i h1 h2
        rw [t1b]
        simp only [Rng.next, List.getElem?_cons_succ, Nat.mul_add, Nat.add_assoc] at this ⊢
        rw [show 2 * i + 2 * 1 = 2 + 2 * i by omega, show 2 * i + (2 * 1 + 1) = 2 + (2 * i + 1) by omega]
        exact this

theorem incState_min {v : Int} (h : -127 ≤ v ∧ v ≤ 127) : incState v = min 127 (v + 1) := by
  unfold incState wrap8; split <;> omega

theorem decState_max {v : Int} (h : -127 ≤ v ∧ v ≤ 127) : decState v = max (-127) (v - 1) := by
  unfold decState wrap8; split <;> omega

end GT
