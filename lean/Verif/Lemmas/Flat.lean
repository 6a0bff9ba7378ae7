import Verif.Spec.Flat

namespace GT.FlatMem
open Spec

theorem i32_ok {z : Int} (h1 : 0 ≤ z) (h2 : z < 2147483648) : i32 z = some z := if_pos ⟨by omega, h2⟩

theorem i32_nat {z : Int} (n : Nat) (h : z = n) (hn : n < 2147483648) : i32 z = some (n : Int) := by
  subst h
  exact if_pos ⟨by omega, by omega⟩

theorem bind_of {α β : Type} {x : Option α} {a : α} (h : x = some a) (f : α → Option β) : (x >>= f) = f a := by
  subst h; rfl

theorem rd_mid {α : Type} (l r : List α) (a : α) (i : Int) (hi : i = l.length) : rd (l ++ a :: r) i = some a := by
  subst hi
  simp [rd]

theorem wr_mid {α : Type} (l r : List α) (a v : α) (i : Int) (hi : i = l.length) :
    wr (l ++ a :: r) i v = some (l ++ v :: r) := by
  subst hi
  simp [wr]

theorem rd_getElem {α : Type} (a : List α) (k : Nat) (h : k < a.length) : rd a (k : Int) = some a[k] := by
  simp [rd, h]

theorem rd_eq_mid {α : Type} {m : List α} (l r : List α) (a : α) {i : Int} (hm : m = l ++ a :: r) (hi : i = l.length) :
    rd m i = some a := by rw [hm]; exact rd_mid l r a i hi

theorem wr_eq_mid {α : Type} {m : List α} (l r : List α) (a v : α) {i : Int} (hm : m = l ++ a :: r) (hi : i = l.length) :
    wr m i v = some (l ++ v :: r) := by rw [hm]; exact wr_mid l r a v i hi

theorem violated_eq (p : Int) (x : List Nat) (k v a : Nat) (h : rd x (k : Int) = some a) :
    violated p x k v = some (decide (p ≥ 0 ∧ a = v)) := by
  unfold violated
  by_cases hp : p ≥ 0
  · rw [if_pos hp, h]
    simp only [Option.bind_eq_bind, Option.bind_some, Option.pure_def, hp, true_and]
    congr 1
  · rw [if_neg hp]; simp [hp]

/-- The inner loop of the clause outputs on rows in the middle of the array. -/
theorem flatSetLoop_eq (bud : Bool) (pre post : List Int) (o1 o2 : List Nat) (v0 : Nat) :
    ∀ (ps qs : List Int) (xs : List Nat) (pd qd : List Int) (xd : List Nat) (pc nc : Nat),
      qs.length = ps.length → xs.length = ps.length → xd.length = pd.length → 
      flatSetLoop bud (pre ++ (pd ++ ps) ++ (qd ++ qs) ++ post) (xd ++ xs) o1.length ps.length pd.length
        (pre.length + pd.length : Nat) (pre.length + (pd ++ ps).length + qd.length : Nat) (o1 ++ v0 :: o2, pc, nc) =
      some (o1 ++ (if (setOutLoop bud ps qs xs pc nc).1 = 0 then 0 else v0) :: o2,
        (setOutLoop bud ps qs xs pc nc).2.1, (setOutLoop bud ps qs xs pc nc).2.2) := by
  intro ps
  induction ps with
  | nil =>
    intro qs xs pd qd xd pc nc hq hx hxd
    have : qs = [] := by simpa using hq
    have : xs = [] := by simpa using hx
    subst_vars
    simp [flatSetLoop, setOutLoop]
  | cons p ps ih =>
    intro qs xs pd qd xd pc nc hq hx hxd
    obtain ⟨q, qs, rfl⟩ := List.exists_cons_of_length_eq_add_one hq
    obtain ⟨y, xs, rfl⟩ := List.exists_cons_of_length_eq_add_one hx
    have hp : rd (pre ++ (pd ++ p :: ps) ++ (qd ++ q :: qs) ++ post) ((pre.length + pd.length : Nat) : Int) = some p :=
      rd_eq_mid (pre ++ pd) (ps ++ (qd ++ q :: qs) ++ post) p (by simp) (by simp)
    have hqq : rd (pre ++ (pd ++ p :: ps) ++ (qd ++ q :: qs) ++ post)
        ((pre.length + (pd ++ p :: ps).length + qd.length : Nat) : Int) = some q :=
      rd_eq_mid (pre ++ (pd ++ p :: ps) ++ qd) (qs ++ post) q (by simp) (by simp; omega)
    have hxx : rd (xd ++ y :: xs) ((pd.length : Nat) : Int) = some y := rd_mid xd xs y _ (by rw [hxd])
    have hv := fun p v => violated_eq p (xd ++ y :: xs) pd.length v y hxx
    have hw : wr (o1 ++ v0 :: o2) ((o1.length : Nat) : Int) 0 = some (o1 ++ 0 :: o2) := wr_mid _ _ _ _ _ rfl
    rw [List.length_cons, flatSetLoop]
    simp only [hp, hqq, hv, hw, Option.bind_eq_bind, Option.bind_some, Option.pure_def]
    rw [setOutLoop]
    by_cases h1 : p ≥ 0 ∧ y = 0
    · simp [h1]
    · simp only [h1, decide_false, Bool.false_eq_true, if_false]
      by_cases h2 : q ≥ 0 ∧ y = 1
      · simp [h2]
      · simp only [h2, decide_false, Bool.false_eq_true, if_false]
        have := ih qs xs (pd ++ [p]) (qd ++ [q]) (xd ++ [y]) (if p ≥ 0 ∧ bud = true then pc + 1 else pc)
          (if q ≥ 0 ∧ bud = true then nc + 1 else nc) (by simpa using hq) (by simpa using hx) (by simp [hxd])
        rw [← this]
        simp only [List.append_assoc, List.cons_append, List.nil_append, List.length_append, List.length_cons, List.length_nil]
        congr 1


/-- The inner loop of the evaluation on rows in the middle of the array. -/
theorem flatEvalLoop_eq (pre post : List Int) (o1 o2 : List Nat) (v0 : Nat) :
    ∀ (ps qs : List Int) (xs : List Nat) (pd qd : List Int) (xd : List Nat) (e : Bool),
      qs.length = ps.length → xs.length = ps.length → xd.length = pd.length → 
      flatEvalLoop (pre ++ (pd ++ ps) ++ (qd ++ qs) ++ post) (xd ++ xs) o1.length ps.length pd.length
        (pre.length + pd.length : Nat) (pre.length + (pd ++ ps).length + qd.length : Nat) (o1 ++ v0 :: o2, e) =
      some (o1 ++ (if (evalOutLoop ps qs xs e).1 = 0 then 0 else v0) :: o2, (evalOutLoop ps qs xs e).2) := by
  intro ps
  induction ps with
  | nil =>
    intro qs xs pd qd xd e hq hx hxd
    have : qs = [] := by simpa using hq
    have : xs = [] := by simpa using hx
    subst_vars
    simp [flatEvalLoop, evalOutLoop]
  | cons p ps ih =>
    intro qs xs pd qd xd e hq hx hxd
    obtain ⟨q, qs, rfl⟩ := List.exists_cons_of_length_eq_add_one hq
    obtain ⟨y, xs, rfl⟩ := List.exists_cons_of_length_eq_add_one hx
    have hp : rd (pre ++ (pd ++ p :: ps) ++ (qd ++ q :: qs) ++ post) ((pre.length + pd.length : Nat) : Int) = some p :=
      rd_eq_mid (pre ++ pd) (ps ++ (qd ++ q :: qs) ++ post) p (by simp) (by simp)
    have hqq : rd (pre ++ (pd ++ p :: ps) ++ (qd ++ q :: qs) ++ post)
        ((pre.length + (pd ++ p :: ps).length + qd.length : Nat) : Int) = some q :=
      rd_eq_mid (pre ++ (pd ++ p :: ps) ++ qd) (qs ++ post) q (by simp) (by simp; omega)
    have hxx : rd (xd ++ y :: xs) ((pd.length : Nat) : Int) = some y := rd_mid xd xs y _ (by rw [hxd])
    have hv := fun p v => violated_eq p (xd ++ y :: xs) pd.length v y hxx
    have hw : wr (o1 ++ v0 :: o2) ((o1.length : Nat) : Int) 0 = some (o1 ++ 0 :: o2) := wr_mid _ _ _ _ _ rfl
    rw [List.length_cons, flatEvalLoop]
    simp only [hp, hqq, hv, hw, Option.bind_eq_bind, Option.bind_some, Option.pure_def]
    rw [evalOutLoop]
    by_cases h1 : p ≥ 0 ∧ y = 0
    · simp [h1]
    · simp only [h1, decide_false, Bool.false_eq_true, if_false]
      by_cases h2 : q ≥ 0 ∧ y = 1
      · simp [h2]
      · simp only [h2, decide_false, Bool.false_eq_true, if_false]
        have := ih qs xs (pd ++ [p]) (qd ++ [q]) (xd ++ [y]) (if q ≥ 0 then false else if p ≥ 0 then false else e)
          (by simpa using hq) (by simpa using hx) (by simp [hxd])
        rw [← this]
        simp only [List.append_assoc, List.cons_append, List.nil_append, List.length_append, List.length_cons, List.length_nil]
        congr 1

/-- The clauses of a block have the shape of the block. -/
def RowsOk (b : DBlock) (cs : List Clause) : Prop := ∀ c ∈ cs, Shaped b.nLits c ∧ c.w.length = b.nClasses

theorem RowsOk.length {b : DBlock} {cs : List Clause} (h : RowsOk b cs) :
    (cs.flatMap fun c => c.pos ++ c.neg).length = cs.length * (b.nLits * 2) := by
  induction cs with
  | nil => simp
  | cons c cs ih =>
    have h1 := h c List.mem_cons_self
    have h2 := ih fun c' hc' => h c' (List.mem_cons_of_mem _ hc')
    rw [List.flatMap_cons, List.length_append, h2, List.length_append, h1.1.1, h1.1.2, List.length_cons, Nat.succ_mul]
    omega

theorem RowsOk.wlength {b : DBlock} {cs : List Clause} (h : RowsOk b cs) :
    (cs.flatMap fun c => c.w).length = cs.length * b.nClasses := by
  induction cs with
  | nil => simp
  | cons c cs ih =>
    have h1 := h c List.mem_cons_self
    have h2 := ih fun c' hc' => h c' (List.mem_cons_of_mem _ hc')
    rw [List.flatMap_cons, List.length_append, h2, h1.2, List.length_cons, Nat.succ_mul]
    omega

theorem row_lt {n k m : Nat} (hk : k < m) (h : m * (n * 2) < 2147483648) : k * (n * 2) + n * 2 < 2147483648 := by
  have : (k + 1) * (n * 2) ≤ m * (n * 2) := Nat.mul_le_mul_right _ hk
  rw [Nat.succ_mul] at this
  omega

theorem rowPtr_eq {n k m : Nat} (hk : k < m) (hr : n * 2 < 2147483648) (h : m * (n * 2) < 2147483648) :
    rowPtr n k = some ((k * (n * 2) : Nat) : Int) := by
  have := row_lt hk h
  unfold rowPtr
  rw [bind_of (i32_nat (n * 2) (by push_cast; rfl) hr)]
  exact i32_nat _ (by push_cast; rfl) (by omega)

theorem negPtr_eq {n k m : Nat} (hk : k < m) (hr : n * 2 < 2147483648) (h : m * (n * 2) < 2147483648) :
    negPtr n k = some ((k * (n * 2) + n : Nat) : Int) := by
  have := row_lt hk h
  unfold negPtr
  rw [bind_of (rowPtr_eq hk hr h)]
  exact i32_nat _ (by push_cast; rfl) (by omega)

theorem setOutLoop_bit (bud : Bool) : ∀ (ps qs : List Int) (xs : List Nat) (pc nc : Nat),
    (if (setOutLoop bud ps qs xs pc nc).1 = 0 then 0 else 1) = (setOutLoop bud ps qs xs pc nc).1 := by
  intro ps
  induction ps with
  | nil => intros; simp [setOutLoop]
  | cons p ps ih =>
    intro qs xs pc nc
    cases qs with
    | nil => simp [setOutLoop]
    | cons q qs => cases xs with
      | nil => simp [setOutLoop]
      | cons y xs =>
        rw [setOutLoop]
        split
        · rfl
        · simp only
          split
          · rfl
          · exact ih _ _ _ _

theorem evalOutLoop_bit : ∀ (ps qs : List Int) (xs : List Nat) (e : Bool),
    (if (evalOutLoop ps qs xs e).1 = 0 then 0 else 1) = (evalOutLoop ps qs xs e).1 := by
  intro ps
  induction ps with
  | nil => intros; simp [evalOutLoop]
  | cons p ps ih =>
    intro qs xs e
    cases qs with
    | nil => simp [evalOutLoop]
    | cons q qs => cases xs with
      | nil => simp [evalOutLoop]
      | cons y xs =>
        rw [evalOutLoop]
        simp only
        split
        · rfl
        · split
          · rfl
          · exact ih _ _ _

theorem setOutBody_eq (b : DBlock) (x : List Nat) (hx : x.length = b.nLits) (done rest : List Clause) (c : Clause)
    (hok : RowsOk b (done ++ c :: rest)) (hs : Small b.nLits (done ++ c :: rest).length b.nClasses) :
    FlatTM.setOutBody x done.length (flatten { b with clauses := done ++ c :: rest }) =
      some (flatten { b with clauses := done ++ setOutClause b.cfg x c :: rest }) := by
  have hc := hok c (by simp)
  have hd : RowsOk b done := fun c' hc' => hok c' (by simp [hc'])
  have hlt : done.length < (done ++ c :: rest).length := by simp
  have hlen := hd.length
  unfold FlatTM.setOutBody
  simp only [flatten, List.map_append, List.map_cons, List.flatMap_append, List.flatMap_cons]
  rw [wr_mid (done.map (·.out)) (rest.map (·.out)) c.out 1 _ (by simp)]
  rw [rowPtr_eq hlt hs.row hs.clauses, negPtr_eq hlt hs.row hs.clauses]
  have hloop := flatSetLoop_eq b.cfg.budget.isSome (done.flatMap fun c => c.pos ++ c.neg)
    (rest.flatMap fun c => c.pos ++ c.neg) (done.map (·.out)) (rest.map (·.out)) 1 c.pos c.neg x [] [] [] 0 0
    (by rw [hc.1.1, hc.1.2]) (by rw [hc.1.1, hx]) rfl
  simp only [List.nil_append, List.length_nil, Nat.add_zero, List.length_map, hlen, hc.1.1, setOutLoop_bit] at hloop
  simp only [Option.bind_eq_bind, Option.bind_some, Option.pure_def]
  rw [show ((done.flatMap fun c => c.pos ++ c.neg) ++ (c.pos ++ c.neg ++ rest.flatMap fun c => c.pos ++ c.neg)) =
    (done.flatMap fun c => c.pos ++ c.neg) ++ c.pos ++ c.neg ++ (rest.flatMap fun c => c.pos ++ c.neg) by simp]
  rw [hloop]
  simp only [Option.bind_some, setOutClause]
  by_cases hbud : b.cfg.budget.isSome = true
  · rw [if_pos hbud, if_pos hbud]
    rw [wr_mid (done.map (·.cnt)) (rest.map (·.cnt)) c.cnt _ _ (by simp)]
    simp
  · rw [if_neg hbud, if_neg hbud]
    simp

theorem evalBody_eq (b : DBlock) (x : List Nat) (hx : x.length = b.nLits) (done rest : List Clause) (c : Clause)
    (hok : RowsOk b (done ++ c :: rest)) (hs : Small b.nLits (done ++ c :: rest).length b.nClasses) :
    FlatTM.evalBody x done.length (flatten { b with clauses := done ++ c :: rest }) =
      some (flatten { b with clauses := done ++ evalOutClause x c :: rest }) := by
  have hc := hok c (by simp)
  have hd : RowsOk b done := fun c' hc' => hok c' (by simp [hc'])
  have hlt : done.length < (done ++ c :: rest).length := by simp
  have hlen := hd.length
  unfold FlatTM.evalBody
  simp only [flatten, List.map_append, List.map_cons, List.flatMap_append, List.flatMap_cons]
  rw [wr_mid (done.map (·.out)) (rest.map (·.out)) c.out 1 _ (by simp)]
  rw [rowPtr_eq hlt hs.row hs.clauses, negPtr_eq hlt hs.row hs.clauses]
  have hloop := flatEvalLoop_eq (done.flatMap fun c => c.pos ++ c.neg)
    (rest.flatMap fun c => c.pos ++ c.neg) (done.map (·.out)) (rest.map (·.out)) 1 c.pos c.neg x [] [] [] true
    (by rw [hc.1.1, hc.1.2]) (by rw [hc.1.1, hx]) rfl
  simp only [List.nil_append, List.length_nil, Nat.add_zero, List.length_map, hlen, hc.1.1, evalOutLoop_bit] at hloop
  simp only [Option.bind_eq_bind, Option.bind_some, Option.pure_def]
  rw [show ((done.flatMap fun c => c.pos ++ c.neg) ++ (c.pos ++ c.neg ++ rest.flatMap fun c => c.pos ++ c.neg)) =
    (done.flatMap fun c => c.pos ++ c.neg) ++ c.pos ++ c.neg ++ (rest.flatMap fun c => c.pos ++ c.neg) by simp]
  rw [hloop]
  simp only [Option.bind_some, evalOutClause]
  by_cases he : (evalOutLoop c.pos c.neg x true).2 = true
  · rw [if_pos he, if_pos he]
    rw [wr_mid (done.map (·.out)) (rest.map (·.out)) _ 0 _ (by simp)]
    simp
  · rw [if_neg he, if_neg he]
    simp

/-- A loop over the clauses that changes one clause at a time. -/
theorem forLoop_map (b : DBlock) (body : Nat → FlatTM → Option FlatTM) (f : Clause → Clause) (total : Nat)
    (hf : ∀ c, Shaped b.nLits c ∧ c.w.length = b.nClasses → Shaped b.nLits (f c) ∧ (f c).w.length = b.nClasses)
    (h : ∀ (done rest : List Clause) (c : Clause), (done ++ c :: rest).length = total → RowsOk b (done ++ c :: rest) →
      body done.length (flatten { b with clauses := done ++ c :: rest }) =
        some (flatten { b with clauses := done ++ f c :: rest })) :
    ∀ (rest done : List Clause), (done ++ rest).length = total → RowsOk b (done ++ rest) →
      forLoop body rest.length done.length (flatten { b with clauses := done ++ rest }) =
        some (flatten { b with clauses := done ++ rest.map f }) := by
  intro rest
  induction rest with
  | nil => intro done _ _; simp [forLoop]
  | cons c rest ih =>
    intro done ht hok
    rw [List.length_cons, forLoop, h done rest c ht hok]
    simp only [Option.bind_eq_bind, Option.bind_some]
    have hok' : RowsOk b ((done ++ [f c]) ++ rest) := by
      intro c' hc'
      simp only [List.append_assoc, List.mem_append, List.mem_cons, List.not_mem_nil, or_false] at hc'
      rcases hc' with hc' | rfl | hc'
      · exact hok c' (by simp [hc'])
      · exact hf c (hok c (by simp))
      · exact hok c' (by simp [hc'])
    have := ih (done ++ [f c]) (by simpa using ht) hok'
    simp only [List.append_assoc, List.cons_append, List.nil_append, List.length_append, List.length_cons, List.length_nil,
      Nat.zero_add] at this
    rw [this, List.map_cons]

theorem flat_setOut (b : DBlock) (x : List Nat) (hb : BlockShaped b) (hs : Small b.nLits b.clauses.length b.nClasses)
    (hx : x.length = b.nLits) : (flatten b).setOut x = some (flatten (b.trainSetOutput x)) := by
  have := forLoop_map b (FlatTM.setOutBody x) (setOutClause b.cfg x) b.clauses.length (fun c hc => hc)
    (fun done rest c ht hok => setOutBody_eq b x hx done rest c hok (ht ▸ hs)) b.clauses [] rfl hb.rows
  exact this

theorem flat_evalOut (b : DBlock) (x : List Nat) (hb : BlockShaped b) (hs : Small b.nLits b.clauses.length b.nClasses)
    (hx : x.length = b.nLits) : (flatten b).evalOut x = some (flatten (b.evalSetOutput x)) := by
  have := forLoop_map b (FlatTM.evalBody x) (evalOutClause x) b.clauses.length (fun c hc => hc)
    (fun done rest c ht hok => evalBody_eq b x hx done rest c hok (ht ▸ hs)) b.clauses [] rfl hb.rows
  exact this

/-! ### Votes -/

theorem zeroLoop_eq : ∀ (l d : List Int),
    forLoop zeroBody l.length d.length (d ++ l) = some (d ++ List.replicate l.length 0) := by
  intro l
  induction l with
  | nil => intro d; simp [forLoop]
  | cons a l ih =>
    intro d
    rw [List.length_cons, forLoop, zeroBody, wr_mid d l a 0 _ rfl]
    simp only [Option.bind_eq_bind, Option.bind_some]
    have := ih (d ++ [0])
    simp only [List.append_assoc, List.cons_append, List.nil_append, List.length_append, List.length_cons, List.length_nil,
      Nat.zero_add] at this
    rw [this, List.replicate_succ]

theorem voteLoop_eq (n ck : Nat) (pre post : List Int) (hpre : pre.length = ck * n) (hsm : ck * n + n < 2147483648) :
    ∀ (ws vs wd vd : List Int), vs.length = ws.length → vd.length = wd.length → wd.length + ws.length = n →
      forLoop (voteBody n (pre ++ (wd ++ ws) ++ post) ck) ws.length wd.length (vd ++ vs) = some (vd ++ addVotes vs ws) := by
  intro ws
  induction ws with
  | nil =>
    intro vs wd vd hv _ _
    have : vs = [] := by simpa using hv
    subst this
    simp [forLoop, addVotes]
  | cons w ws ih =>
    intro vs wd vd hv hd hn
    obtain ⟨v, vs, rfl⟩ := List.exists_cons_of_length_eq_add_one hv
    rw [List.length_cons, forLoop, voteBody]
    rw [List.length_cons] at hn
    have h1 : i32 ((ck : Int) * (n : Int)) = some ((ck * n : Nat) : Int) := i32_nat (ck * n) (by push_cast; rfl) (by omega)
    have h2 : i32 (((ck * n : Nat) : Int) + (wd.length : Int)) = some ((ck * n + wd.length : Nat) : Int) :=
      i32_nat (ck * n + wd.length) (by push_cast; rfl) (by omega)
    rw [bind_of h1, bind_of h2, bind_of (rd_eq_mid (pre ++ wd) (ws ++ post) w (by simp) (by simp [hpre])),
      bind_of (rd_mid vd vs v _ (by rw [hd])), bind_of (wr_mid vd vs v _ _ (by rw [hd]))]
    have := ih vs (wd ++ [w]) (vd ++ [wrap16 (v + w)]) (by simpa using hv) (by simp [hd]) (by simp; omega)
    simp only [List.append_assoc, List.cons_append, List.nil_append, List.length_append, List.length_cons, List.length_nil,
      Nat.zero_add] at this ⊢
    rw [this]
    simp [addVotes]

theorem countLoop_eq (b : DBlock) (hb : RowsOk b b.clauses) (hs : b.clauses.length * b.nClasses < 2147483648) :
    ∀ (rest done : List Clause) (v : List Int), done ++ rest = b.clauses → v.length = b.nClasses →
      forLoop FlatTM.countBody rest.length done.length { flatten b with votes := v } =
        some { flatten b with votes := rest.foldl (fun v c => if c.out = 1 then addVotes v c.w else v) v } := by
  intro rest
  induction rest with
  | nil => intro done v _ _; simp [forLoop]
  | cons c rest ih =>
    intro done v hdr hv
    have hc := hb c (by rw [← hdr]; simp)
    have hd : RowsOk b done := fun c' hc' => hb c' (by rw [← hdr]; simp [hc'])
    have hlt : done.length < b.clauses.length := by rw [← hdr]; simp
    have hsm : done.length * b.nClasses + b.nClasses < 2147483648 := by
      have : (done.length + 1) * b.nClasses ≤ b.clauses.length * b.nClasses := Nat.mul_le_mul_right _ hlt
      rw [Nat.succ_mul] at this
      omega
    rw [List.length_cons, forLoop]
    have hbody : FlatTM.countBody done.length { flatten b with votes := v } =
        some { flatten b with votes := if c.out = 1 then addVotes v c.w else v } := by
      unfold FlatTM.countBody
      have hro : rd (flatten b).outputs ((done.length : Nat) : Int) = some c.out := by
        refine rd_eq_mid (done.map (·.out)) (rest.map (·.out)) c.out ?_ (by simp)
        simp [flatten, ← hdr]
      simp only [hro, Option.bind_eq_bind, Option.bind_some, Option.pure_def]
      by_cases ho : c.out = 1
      · rw [if_pos ho, if_pos ho]
        have hl := voteLoop_eq b.nClasses done.length (done.flatMap (·.w)) (rest.flatMap (·.w)) hd.wlength hsm c.w v [] []
          (by rw [hv, hc.2]) rfl (by simp [hc.2])
        simp only [List.nil_append, List.length_nil, hc.2] at hl
        have hw : (flatten b).weights = done.flatMap (·.w) ++ c.w ++ rest.flatMap (·.w) := by simp [flatten, ← hdr]
        have hn : (flatten b).nClasses = b.nClasses := rfl
        rw [hw, hn, hl]
        rfl
      · rw [if_neg ho, if_neg ho]
    rw [hbody]
    simp only [Option.bind_eq_bind, Option.bind_some]
    have := ih (done ++ [c]) (if c.out = 1 then addVotes v c.w else v) (by rw [← hdr]; simp) (by
      split
      · simp [addVotes, hv, hc.2]
      · exact hv)
    simp only [List.length_append, List.length_cons, List.length_nil, Nat.zero_add] at this
    rw [this, List.foldl_cons]

theorem flat_countVotes (b : DBlock) (hb : BlockShaped b) (hs : b.clauses.length * b.nClasses < 2147483648) :
    (flatten b).countVotes = some (flatten b.countVotes) := by
  unfold FlatTM.countVotes
  have hz := zeroLoop_eq b.votes []
  simp only [List.nil_append, List.length_nil, hb.votes] at hz
  have hv : (flatten b).votes = b.votes := rfl
  have hn : (flatten b).nClasses = b.nClasses := rfl
  rw [hv, hn, hz]
  simp only [Option.bind_eq_bind, Option.bind_some]
  have := countLoop_eq b hb.rows hs b.clauses [] (List.replicate b.nClasses 0) rfl (by simp)
  exact this

/-! ### Feedback -/

theorem flatInc_eq {m : List Int} (l r : List Int) (a : Int) {i : Int} (hm : m = l ++ a :: r) (hi : i = l.length) :
    flatInc m i = some (l ++ incState a :: r) := by
  unfold flatInc incState
  rw [bind_of (rd_eq_mid l r a hm hi)]
  split
  · exact wr_eq_mid l r a _ hm hi
  · rw [hm]; rfl

theorem flatDec_eq {m : List Int} (l r : List Int) (a : Int) {i : Int} (hm : m = l ++ a :: r) (hi : i = l.length) :
    flatDec m i = some (l ++ decState a :: r) := by
  unfold flatDec decState
  rw [bind_of (rd_eq_mid l r a hm hi)]
  split
  · exact wr_eq_mid l r a _ hm hi
  · rw [hm]; rfl

theorem flatRise_eq {m : List Int} (l r : List Int) (a : Int) {i : Int} (hm : m = l ++ a :: r) (hi : i = l.length) :
    flatRise m i = some (l ++ (if a < 0 then wrap8 (a + 1) else a) :: r) := by
  unfold flatRise
  rw [bind_of (rd_eq_mid l r a hm hi)]
  split
  · exact wr_eq_mid l r a _ hm hi
  · rw [hm]; rfl

/-- Memory around the two rows of one clause. -/
def mem (pre post ps qs : List Int) : List Int := pre ++ ps ++ qs ++ post

theorem mem_pos (pre post pd ps qs : List Int) (p : Int) :
    mem pre post (pd ++ p :: ps) qs = (pre ++ pd) ++ p :: (ps ++ qs ++ post) := by simp [mem]

theorem mem_neg (pre post ps qd qs : List Int) (q : Int) :
    mem pre post ps (qd ++ q :: qs) = (pre ++ ps ++ qd) ++ q :: (qs ++ post) := by simp [mem]

theorem flatT1aBody_eq (cfg : Cfg) (n : Nat) (pre post pd ps qd qs : List Int) (p q : Int) (x : List Nat) (y : Nat) (g : Rng)
    (hn : (pd ++ p :: ps).length = n) (hqd : qd.length = pd.length) (hx : rd x ((pd.length : Nat) : Int) = some y) :
    ∃ p' q' g', flatT1aBody cfg n pre.length x pd.length (mem pre post (pd ++ p :: ps) (qd ++ q :: qs), g) =
        some (mem pre post (pd ++ p' :: ps) (qd ++ q' :: qs), g') ∧
      ∀ xs, t1a cfg (p :: ps) (q :: qs) (y :: xs) g =
        (p' :: (t1a cfg ps qs xs g').1, q' :: (t1a cfg ps qs xs g').2.1, (t1a cfg ps qs xs g').2.2) := by
  have hinc : ∀ a b : Int, flatInc (mem pre post (pd ++ a :: ps) (qd ++ b :: qs)) (pre.length + (pd.length : Nat)) =
      some (mem pre post (pd ++ incState a :: ps) (qd ++ b :: qs)) := by
    intro a b
    rw [flatInc_eq (pre ++ pd) _ a (mem_pos _ _ _ _ _ _) (by simp), mem_pos]
  have hdec : ∀ a b : Int, flatDec (mem pre post (pd ++ a :: ps) (qd ++ b :: qs)) (pre.length + (pd.length : Nat)) =
      some (mem pre post (pd ++ decState a :: ps) (qd ++ b :: qs)) := by
    intro a b
    rw [flatDec_eq (pre ++ pd) _ a (mem_pos _ _ _ _ _ _) (by simp), mem_pos]
  have hincn : ∀ a b : Int, flatInc (mem pre post (pd ++ a :: ps) (qd ++ b :: qs)) (pre.length + (n : Nat) + (pd.length : Nat)) =
      some (mem pre post (pd ++ a :: ps) (qd ++ incState b :: qs)) := by
    intro a b
    rw [flatInc_eq (pre ++ (pd ++ a :: ps) ++ qd) _ b (mem_neg _ _ _ _ _ _)
      (by rw [← hn]; simp only [List.length_append, List.length_cons, hqd]; push_cast; omega), mem_neg]
  have hdecn : ∀ a b : Int, flatDec (mem pre post (pd ++ a :: ps) (qd ++ b :: qs)) (pre.length + (n : Nat) + (pd.length : Nat)) =
      some (mem pre post (pd ++ a :: ps) (qd ++ decState b :: qs)) := by
    intro a b
    rw [flatDec_eq (pre ++ (pd ++ a :: ps) ++ qd) _ b (mem_neg _ _ _ _ _ _)
      (by rw [← hn]; simp only [List.length_append, List.length_cons, hqd]; push_cast; omega), mem_neg]
  unfold flatT1aBody
  simp only [hx, Option.bind_eq_bind, Option.bind_some, Option.pure_def]
  by_cases hy : y = 1
  · simp only [if_pos hy]
    cases hb : cfg.boost
    · simp only [Bool.false_eq_true, if_false]
      by_cases h1 : g.next.1 ≤ cfg.sMin1Inv
      · simp only [if_pos h1, hinc, Option.bind_some]
        by_cases h2 : g.next.2.next.1 ≤ cfg.sInv
        · simp only [if_pos h2, hdecn, Option.bind_some]
          exact ⟨_, _, _, rfl, fun xs => by simp [t1a, hy, hb, h1, h2]⟩
        · simp only [if_neg h2]
          exact ⟨_, _, _, rfl, fun xs => by simp [t1a, hy, hb, h1, h2]⟩
      · simp only [if_neg h1]
        by_cases h2 : g.next.2.next.1 ≤ cfg.sInv
        · simp only [if_pos h2, hdecn, Option.bind_some]
          exact ⟨_, _, _, rfl, fun xs => by simp [t1a, hy, hb, h1, h2]⟩
        · simp only [if_neg h2]
          exact ⟨_, _, _, rfl, fun xs => by simp [t1a, hy, hb, h1, h2]⟩
    · simp only [if_true, hinc, Option.bind_some]
      by_cases h2 : g.next.1 ≤ cfg.sInv
      · simp only [if_pos h2, hdecn, Option.bind_some]
        exact ⟨_, _, _, rfl, fun xs => by simp [t1a, hy, hb, h2]⟩
      · simp only [if_neg h2]
        exact ⟨_, _, _, rfl, fun xs => by simp [t1a, hy, hb, h2]⟩
  · simp only [if_neg hy]
    by_cases h1 : g.next.1 ≤ cfg.sInv
    · simp only [if_pos h1, hdec, Option.bind_some]
      by_cases h2 : g.next.2.next.1 ≤ cfg.sMin1Inv
      · simp only [if_pos h2, hincn, Option.bind_some]
        exact ⟨_, _, _, rfl, fun xs => by simp [t1a, hy, h1, h2]⟩
      · simp only [if_neg h2]
        exact ⟨_, _, _, rfl, fun xs => by simp [t1a, hy, h1, h2]⟩
    · simp only [if_neg h1]
      by_cases h2 : g.next.2.next.1 ≤ cfg.sMin1Inv
      · simp only [if_pos h2, hincn, Option.bind_some]
        exact ⟨_, _, _, rfl, fun xs => by simp [t1a, hy, h1, h2]⟩
      · simp only [if_neg h2]
        exact ⟨_, _, _, rfl, fun xs => by simp [t1a, hy, h1, h2]⟩

theorem flatT1bBody_eq (cfg : Cfg) (n : Nat) (pre post pd ps qd qs : List Int) (p q : Int) (g : Rng)
    (hn : (pd ++ p :: ps).length = n) (hqd : qd.length = pd.length) :
    ∃ p' q' g', flatT1bBody cfg n pre.length pd.length (mem pre post (pd ++ p :: ps) (qd ++ q :: qs), g) =
        some (mem pre post (pd ++ p' :: ps) (qd ++ q' :: qs), g') ∧
      t1b cfg (p :: ps) (q :: qs) g =
        (p' :: (t1b cfg ps qs g').1, q' :: (t1b cfg ps qs g').2.1, (t1b cfg ps qs g').2.2) := by
  have hdec : ∀ a b : Int, flatDec (mem pre post (pd ++ a :: ps) (qd ++ b :: qs)) (pre.length + (pd.length : Nat)) =
      some (mem pre post (pd ++ decState a :: ps) (qd ++ b :: qs)) := by
    intro a b
    rw [flatDec_eq (pre ++ pd) _ a (mem_pos _ _ _ _ _ _) (by simp), mem_pos]
  have hdecn : ∀ a b : Int, flatDec (mem pre post (pd ++ a :: ps) (qd ++ b :: qs)) (pre.length + (n : Nat) + (pd.length : Nat)) =
      some (mem pre post (pd ++ a :: ps) (qd ++ decState b :: qs)) := by
    intro a b
    rw [flatDec_eq (pre ++ (pd ++ a :: ps) ++ qd) _ b (mem_neg _ _ _ _ _ _)
      (by rw [← hn]; simp only [List.length_append, List.length_cons, hqd]; push_cast; omega), mem_neg]
  unfold flatT1bBody
  simp only [Option.bind_eq_bind, Option.pure_def]
  by_cases h1 : g.next.1 ≤ cfg.sInv
  · simp only [if_pos h1, hdec, Option.bind_some]
    by_cases h2 : g.next.2.next.1 ≤ cfg.sInv
    · simp only [if_pos h2, hdecn, Option.bind_some]
      exact ⟨_, _, _, rfl, by simp [t1b, h1, h2]⟩
    · simp only [if_neg h2]
      exact ⟨_, _, _, rfl, by simp [t1b, h1, h2]⟩
  · simp only [if_neg h1]
    by_cases h2 : g.next.2.next.1 ≤ cfg.sInv
    · simp only [if_pos h2, hdecn, Option.bind_some]
      exact ⟨_, _, _, rfl, by simp [t1b, h1, h2]⟩
    · simp only [if_neg h2]
      exact ⟨_, _, _, rfl, by simp [t1b, h1, h2]⟩

theorem flatT2Body_eq (n : Nat) (pre post pd ps qd qs : List Int) (p q : Int) (x : List Nat) (y : Nat)
    (hn : (pd ++ p :: ps).length = n) (hqd : qd.length = pd.length) (hx : rd x ((pd.length : Nat) : Int) = some y) :
    ∃ p' q', flatT2Body n pre.length x pd.length (mem pre post (pd ++ p :: ps) (qd ++ q :: qs)) =
        some (mem pre post (pd ++ p' :: ps) (qd ++ q' :: qs)) ∧
      ∀ xs, t2 (p :: ps) (q :: qs) (y :: xs) = (p' :: (t2 ps qs xs).1, q' :: (t2 ps qs xs).2) := by
  unfold flatT2Body
  rw [bind_of hx]
  by_cases hy : y = 0
  · rw [if_pos hy, flatRise_eq (pre ++ pd) _ p (mem_pos _ _ _ _ _ _) (by simp), ← mem_pos]
    exact ⟨_, _, rfl, fun xs => by simp [t2, hy]⟩
  · rw [if_neg hy, flatRise_eq (pre ++ (pd ++ p :: ps) ++ qd) _ q (mem_neg _ _ _ _ _ _)
      (by rw [← hn]; simp only [List.length_append, List.length_cons, hqd]; push_cast; omega), ← mem_neg]
    exact ⟨_, _, rfl, fun xs => by simp [t2, hy]⟩

theorem flatT1a_loop (cfg : Cfg) (n : Nat) (pre post : List Int) :
    ∀ (ps qs : List Int) (xs : List Nat) (pd qd : List Int) (xd : List Nat) (g : Rng), qs.length = ps.length →
      xs.length = ps.length → qd.length = pd.length → xd.length = pd.length → (pd ++ ps).length = n →
      forLoop (flatT1aBody cfg n pre.length (xd ++ xs)) ps.length pd.length (mem pre post (pd ++ ps) (qd ++ qs), g) =
        some (mem pre post (pd ++ (t1a cfg ps qs xs g).1) (qd ++ (t1a cfg ps qs xs g).2.1), (t1a cfg ps qs xs g).2.2) := by
  intro ps
  induction ps with
  | nil =>
    intro qs xs pd qd xd g hq hx _ _ _
    have : qs = [] := by simpa using hq
    have : xs = [] := by simpa using hx
    subst_vars
    simp [forLoop, t1a]
  | cons p ps ih =>
    intro qs xs pd qd xd g hq hx hqd hxd hn
    obtain ⟨q, qs, rfl⟩ := List.exists_cons_of_length_eq_add_one hq
    obtain ⟨y, xs, rfl⟩ := List.exists_cons_of_length_eq_add_one hx
    obtain ⟨p', q', g', h1, h2⟩ := flatT1aBody_eq cfg n pre post pd ps qd qs p q (xd ++ y :: xs) y g hn hqd
      (rd_mid xd xs y _ (by rw [hxd]))
    rw [List.length_cons, forLoop, bind_of h1, h2 xs]
    have := ih qs xs (pd ++ [p']) (qd ++ [q']) (xd ++ [y]) g' (by simpa using hq) (by simpa using hx) (by simp [hqd])
      (by simp [hxd]) (by rw [← hn]; simp)
    simp only [List.append_assoc, List.cons_append, List.nil_append, List.length_append, List.length_cons, List.length_nil,
      Nat.zero_add] at this
    exact this

theorem flatT1b_loop (cfg : Cfg) (n : Nat) (pre post : List Int) :
    ∀ (ps qs : List Int) (pd qd : List Int) (g : Rng), qs.length = ps.length →
      qd.length = pd.length → (pd ++ ps).length = n →
      forLoop (flatT1bBody cfg n pre.length) ps.length pd.length (mem pre post (pd ++ ps) (qd ++ qs), g) =
        some (mem pre post (pd ++ (t1b cfg ps qs g).1) (qd ++ (t1b cfg ps qs g).2.1), (t1b cfg ps qs g).2.2) := by
  intro ps
  induction ps with
  | nil =>
    intro qs pd qd g hq _ _
    have : qs = [] := by simpa using hq
    subst_vars
    simp [forLoop, t1b]
  | cons p ps ih =>
    intro qs pd qd g hq hqd hn
    obtain ⟨q, qs, rfl⟩ := List.exists_cons_of_length_eq_add_one hq
    obtain ⟨p', q', g', h1, h2⟩ := flatT1bBody_eq cfg n pre post pd ps qd qs p q g hn hqd
    rw [List.length_cons, forLoop, bind_of h1, h2]
    have := ih qs (pd ++ [p']) (qd ++ [q']) g' (by simpa using hq) (by simp [hqd]) (by rw [← hn]; simp)
    simp only [List.append_assoc, List.cons_append, List.nil_append, List.length_append, List.length_cons, List.length_nil,
      Nat.zero_add] at this
    exact this

theorem flatT2_loop (n : Nat) (pre post : List Int) :
    ∀ (ps qs : List Int) (xs : List Nat) (pd qd : List Int) (xd : List Nat), qs.length = ps.length →
      xs.length = ps.length → qd.length = pd.length → xd.length = pd.length → (pd ++ ps).length = n →
      forLoop (flatT2Body n pre.length (xd ++ xs)) ps.length pd.length (mem pre post (pd ++ ps) (qd ++ qs)) =
        some (mem pre post (pd ++ (t2 ps qs xs).1) (qd ++ (t2 ps qs xs).2)) := by
  intro ps
  induction ps with
  | nil =>
    intro qs xs pd qd xd hq hx _ _ _
    have : qs = [] := by simpa using hq
    have : xs = [] := by simpa using hx
    subst_vars
    simp [forLoop, t2]
  | cons p ps ih =>
    intro qs xs pd qd xd hq hx hqd hxd hn
    obtain ⟨q, qs, rfl⟩ := List.exists_cons_of_length_eq_add_one hq
    obtain ⟨y, xs, rfl⟩ := List.exists_cons_of_length_eq_add_one hx
    obtain ⟨p', q', h1, h2⟩ := flatT2Body_eq n pre post pd ps qd qs p q (xd ++ y :: xs) y hn hqd
      (rd_mid xd xs y _ (by rw [hxd]))
    rw [List.length_cons, forLoop, bind_of h1, h2 xs]
    have := ih qs xs (pd ++ [p']) (qd ++ [q']) (xd ++ [y]) (by simpa using hq) (by simpa using hx) (by simp [hqd])
      (by simp [hxd]) (by rw [← hn]; simp)
    simp only [List.append_assoc, List.cons_append, List.nil_append, List.length_append, List.length_cons, List.length_nil,
      Nat.zero_add] at this
    exact this

theorem flatT1a_eq (cfg : Cfg) (n : Nat) (pre post ps qs : List Int) (x : List Nat) (g : Rng) (hp : ps.length = n)
    (hq : qs.length = n) (hx : x.length = n) :
    flatT1a cfg n (mem pre post ps qs) pre.length x g =
      some (mem pre post (t1a cfg ps qs x g).1 (t1a cfg ps qs x g).2.1, (t1a cfg ps qs x g).2.2) := by
  have := flatT1a_loop cfg n pre post ps qs x [] [] [] g (by omega) (by omega) rfl rfl (by simpa using hp)
  simp only [List.nil_append, List.length_nil, hp] at this
  exact this

theorem flatT1b_eq (cfg : Cfg) (n : Nat) (pre post ps qs : List Int) (g : Rng) (hp : ps.length = n)
    (hq : qs.length = n) :
    flatT1b cfg n (mem pre post ps qs) pre.length g =
      some (mem pre post (t1b cfg ps qs g).1 (t1b cfg ps qs g).2.1, (t1b cfg ps qs g).2.2) := by
  have := flatT1b_loop cfg n pre post ps qs [] [] g (by omega) rfl (by simpa using hp)
  simp only [List.nil_append, List.length_nil, hp] at this
  exact this

theorem flatT2_eq (n : Nat) (pre post ps qs : List Int) (x : List Nat) (hp : ps.length = n)
    (hq : qs.length = n) (hx : x.length = n) :
    flatT2 n (mem pre post ps qs) pre.length x = some (mem pre post (t2 ps qs x).1 (t2 ps qs x).2) := by
  have := flatT2_loop n pre post ps qs x [] [] [] (by omega) (by omega) rfl rfl (by simpa using hp)
  simp only [List.nil_append, List.length_nil, hp] at this
  exact this

theorem rd_row (pre post ws : List Int) (j : Nat) (hj : j < ws.length) (i : Int) (hi : i = (pre.length + j : Nat)) :
    rd (pre ++ ws ++ post) i = some (ws.getD j 0) := by
  subst hi
  have h1 : pre.length + j < (pre ++ ws ++ post).length := by simp; omega
  rw [rd_getElem _ _ h1]
  congr 1
  rw [List.getElem_append_left (by simp; omega), List.getElem_append_right (by omega)]
  simp only [Nat.add_sub_cancel_left, List.getD, List.getElem?_eq_getElem hj, Option.getD_some]

theorem wr_row (pre post ws : List Int) (j : Nat) (hj : j < ws.length) (v : Int) (i : Int) (hi : i = (pre.length + j : Nat)) :
    wr (pre ++ ws ++ post) i v = some (pre ++ ws.set j v ++ post) := by
  subst hi
  unfold wr
  rw [if_pos ⟨by omega, by simp; omega⟩]
  congr 1
  rw [Int.toNat_natCast, List.append_assoc, List.set_append_right _ _ (by omega), Nat.add_sub_cancel_left,
    List.set_append_left _ _ hj, List.append_assoc]

/-- A block whose clauses are split at the clause at hand. -/
def at_ (b : DBlock) (done rest : List Clause) (c : Clause) (f g : Rng) : DBlock :=
  { b with clauses := done ++ c :: rest, fast := f, rng := g }

theorem flatClauseUpdate_eq (b : DBlock) (done rest : List Clause) (c : Clause) (f g : Rng) (x : List Nat) (j : Nat) (target : Int)
    (hx : c.out = 1 → x.length = b.nLits) (hd : RowsOk b done) (hc : Shaped b.nLits c ∧ c.w.length = b.nClasses) (hj : j < b.nClasses) :
    (flatten (at_ b done rest c f g)).clauseUpdate x ((done.length * (b.nLits * 2) : Nat) : Int)
        (((done.length * b.nClasses : Nat) : Int) + (j : Int)) target c.out =
      some (flatten (at_ b done rest (clauseUpdate b.cfg x j target c g).1 f (clauseUpdate b.cfg x j target c g).2)) := by
  have hw : (flatten (at_ b done rest c f g)).weights = done.flatMap (·.w) ++ c.w ++ rest.flatMap (·.w) := by
    simp [flatten, at_]
  have hcl : (flatten (at_ b done rest c f g)).clauses =
      mem (done.flatMap fun c => c.pos ++ c.neg) (rest.flatMap fun c => c.pos ++ c.neg) c.pos c.neg := by
    simp [flatten, at_, mem]
  have hg : (flatten (at_ b done rest c f g)).rng = g := rfl
  have hcfg : (flatten (at_ b done rest c f g)).cfg = b.cfg := rfl
  have hn : (flatten (at_ b done rest c f g)).nLits = b.nLits := rfl
  have hidx : (((done.length * b.nClasses : Nat) : Int) + (j : Int)) = (((done.flatMap (·.w)).length + j : Nat) : Int) := by
    rw [hd.wlength]; push_cast; rfl
  have hrow : ((done.length * (b.nLits * 2) : Nat) : Int) = ((done.flatMap fun c => c.pos ++ c.neg).length : Int) := by
    rw [hd.length]
  unfold FlatTM.clauseUpdate
  rw [hw, hcl, hg, hcfg, hn, hrow]
  rw [bind_of (rd_row _ _ c.w j (by rw [hc.2]; exact hj) _ hidx)]
  unfold clauseUpdate
  simp only
  generalize (if c.w.getD j 0 ≥ 0 then (1 : Int) else -1) = sg
  split
  · split
    · rename_i ho
      rw [bind_of (wr_row _ _ c.w j (by rw [hc.2]; exact hj) _ _ hidx),
        bind_of (flatT1a_eq b.cfg b.nLits _ _ c.pos c.neg x g hc.1.1 hc.1.2 (hx ho))]
      simp [flatten, at_, mem]
    · rw [bind_of (flatT1b_eq b.cfg b.nLits _ _ c.pos c.neg g hc.1.1 hc.1.2)]
      simp [flatten, at_, mem]
  · split
    · rename_i ho
      rw [bind_of (wr_row _ _ c.w j (by rw [hc.2]; exact hj) _ _ hidx),
        bind_of (flatT2_eq b.nLits _ _ c.pos c.neg x hc.1.1 hc.1.2 (hx ho.2))]
      simp [flatten, at_, mem]
    · rfl

theorem t1a_length (cfg : Cfg) : ∀ (ps qs : List Int) (xs : List Nat) (g : Rng),
    (t1a cfg ps qs xs g).1.length = ps.length ∧ (t1a cfg ps qs xs g).2.1.length = qs.length := by
  intro ps
  induction ps with
  | nil => intro qs xs g; simp [t1a]
  | cons p ps ih =>
    intro qs xs g
    cases qs with
    | nil => simp [t1a]
    | cons q qs => cases xs with
      | nil => simp [t1a]
      | cons y xs =>
        rw [t1a]
        split <;> simp [ih]

theorem t1b_length (cfg : Cfg) : ∀ (ps qs : List Int) (g : Rng),
    (t1b cfg ps qs g).1.length = ps.length ∧ (t1b cfg ps qs g).2.1.length = qs.length := by
  intro ps
  induction ps with
  | nil => intro qs g; simp [t1b]
  | cons p ps ih =>
    intro qs g
    cases qs with
    | nil => simp [t1b]
    | cons q qs => rw [t1b]; simp [ih]

theorem t2_length : ∀ (ps qs : List Int) (xs : List Nat),
    (t2 ps qs xs).1.length = ps.length ∧ (t2 ps qs xs).2.length = qs.length := by
  intro ps
  induction ps with
  | nil => intro qs xs; simp [t2]
  | cons p ps ih =>
    intro qs xs
    cases qs with
    | nil => simp [t2]
    | cons q qs => cases xs with
      | nil => simp [t2]
      | cons y xs =>
        rw [t2]
        split <;> simp [ih]

theorem clauseUpdate_shape (b : DBlock) (x : List Nat) (j : Nat) (target : Int) (c : Clause) (g : Rng)
    (hc : Shaped b.nLits c ∧ c.w.length = b.nClasses) :
    Shaped b.nLits (clauseUpdate b.cfg x j target c g).1 ∧ (clauseUpdate b.cfg x j target c g).1.w.length = b.nClasses := by
  unfold clauseUpdate
  simp only
  generalize (if c.w.getD j 0 ≥ 0 then (1 : Int) else -1) = sg
  split
  · split
    · exact ⟨⟨(t1a_length _ _ _ _ _).1.trans hc.1.1, (t1a_length _ _ _ _ _).2.trans hc.1.2⟩, by simpa using hc.2⟩
    · exact ⟨⟨(t1b_length _ _ _ _).1.trans hc.1.1, (t1b_length _ _ _ _).2.trans hc.1.2⟩, by simpa using hc.2⟩
  · split
    · exact ⟨⟨(t2_length _ _ _).1.trans hc.1.1, (t2_length _ _ _).2.trans hc.1.2⟩, by simpa using hc.2⟩
    · exact hc

theorem budgetGate_shape (b : DBlock) (c : Clause) (hc : Shaped b.nLits c ∧ c.w.length = b.nClasses) :
    Shaped b.nLits (budgetGate b.cfg c) ∧ (budgetGate b.cfg c).w.length = b.nClasses := by
  unfold budgetGate
  split
  · split
    · exact hc
    · exact hc
  · exact hc

theorem trainClause_shape (b : DBlock) (x : List Nat) (fb : Feedback) (c : Clause) (f g : Rng)
    (hc : Shaped b.nLits c ∧ c.w.length = b.nClasses) :
    Shaped b.nLits (trainClause b.cfg x fb c f g).1 ∧ (trainClause b.cfg x fb c f g).1.w.length = b.nClasses := by
  unfold trainClause
  simp only
  have h0 := budgetGate_shape b c hc
  split
  · split
    · exact clauseUpdate_shape b x _ _ _ _ (clauseUpdate_shape b x _ _ _ _ h0)
    · exact clauseUpdate_shape b x _ _ _ _ h0
  · split
    · exact clauseUpdate_shape b x _ _ _ _ h0
    · exact h0

theorem gate_on (cfg : Cfg) (c : Clause) (h : (budgetGate cfg c).out = 1) : c.out = 1 := by
  unfold budgetGate at h
  split at h
  · split at h
    · simp at h
    · exact h
  · exact h

theorem update_out (cfg : Cfg) (x : List Nat) (j : Nat) (target : Int) (c : Clause) (g : Rng) :
    (clauseUpdate cfg x j target c g).1.out = c.out := by
  unfold clauseUpdate
  simp only
  generalize (if c.w.getD j 0 ≥ 0 then (1 : Int) else -1) = sg
  split
  · split <;> rfl
  · split <;> rfl

theorem flatTrainBody_eq (b : DBlock) (done rest : List Clause) (c : Clause) (f g : Rng) (x : List Nat) (fb : Feedback)
    (hx : c.out = 1 → x.length = b.nLits) (hok : RowsOk b (done ++ c :: rest)) (hs : Small b.nLits (done ++ c :: rest).length b.nClasses)
    (hp : fb.posClass < b.nClasses) (hn : fb.negClass < b.nClasses) :
    FlatTM.trainBody x fb done.length (flatten (at_ b done rest c f g)) =
      some (flatten (at_ b done rest (trainClause b.cfg x fb c f g).1 (trainClause b.cfg x fb c f g).2.1
        (trainClause b.cfg x fb c f g).2.2)) := by
  have hc := hok c (by simp)
  have hd : RowsOk b done := fun c' hc' => hok c' (by simp [hc'])
  have hlt : done.length < (done ++ c :: rest).length := by simp
  have h1 : done.length * (b.nLits * 2) + b.nLits * 2 < 2147483648 := row_lt hlt hs.clauses
  have h2 : done.length * b.nClasses < 2147483648 := by
    have : done.length * b.nClasses ≤ (done ++ c :: rest).length * b.nClasses := Nat.mul_le_mul_right _ (Nat.le_of_lt hlt)
    have := hs.weights
    omega
  unfold FlatTM.trainBody
  have e1 : i32 (((flatten (at_ b done rest c f g)).nLits : Int) * 2) = some ((b.nLits * 2 : Nat) : Int) :=
    i32_nat _ (by push_cast; rfl) hs.row
  have e2 : i32 ((done.length : Int) * ((b.nLits * 2 : Nat) : Int)) = some ((done.length * (b.nLits * 2) : Nat) : Int) :=
    i32_nat _ (by push_cast; rfl) (by omega)
  have e3 : i32 ((done.length : Int) * ((flatten (at_ b done rest c f g)).nClasses : Int)) =
      some ((done.length * b.nClasses : Nat) : Int) := i32_nat _ (by push_cast; rfl) h2
  rw [bind_of e1, bind_of e2, bind_of e3]
  have hgate : (flatten (at_ b done rest c f g)).gate done.length = some (flatten (at_ b done rest (budgetGate b.cfg c) f g)) := by
    unfold FlatTM.gate
    have hb : (flatten (at_ b done rest c f g)).cfg.budget = b.cfg.budget := rfl
    rw [hb]
    unfold budgetGate
    cases hbud : b.cfg.budget with
    | none => rfl
    | some bud =>
      simp only
      have hrc : rd (flatten (at_ b done rest c f g)).counts ((done.length : Nat) : Int) = some c.cnt := by
        refine rd_eq_mid (done.map (·.cnt)) (rest.map (·.cnt)) c.cnt ?_ (by simp)
        simp [flatten, at_]
      have hwo : wr (flatten (at_ b done rest c f g)).outputs ((done.length : Nat) : Int) 0 =
          some (done.map (·.out) ++ 0 :: rest.map (·.out)) :=
        wr_eq_mid (done.map (·.out)) (rest.map (·.out)) c.out 0 (by simp [flatten, at_]) (by simp)
      rw [bind_of hrc]
      split
      · rw [bind_of hwo]
        simp [flatten, at_]
      · rfl
  rw [bind_of hgate]
  have hgs := budgetGate_shape b c hc
  unfold trainClause
  simp only
  have hgx : (budgetGate b.cfg c).out = 1 → x.length = b.nLits := fun h => hx (gate_on b.cfg c h)
  generalize budgetGate b.cfg c = c0 at hgs hgx
  have key : ∀ (c : Clause) (f g : Rng), Shaped b.nLits c ∧ c.w.length = b.nClasses → (c.out = 1 → x.length = b.nLits) → ∀ (j : Nat) (t : Int) (pr : Rat), j < b.nClasses →
      (flatten (at_ b done rest c f g)).maybeUpdate x done.length ((done.length * (b.nLits * 2) : Nat) : Int)
        ((done.length * b.nClasses : Nat) : Int) j t pr =
      some (flatten (at_ b done rest (if f.next.1 < pr then clauseUpdate b.cfg x j t c g else (c, g)).1 f.next.2
        (if f.next.1 < pr then clauseUpdate b.cfg x j t c g else (c, g)).2)) := by
    intro c f g hc hx j t pr hj
    have hro : rd (flatten (at_ b done rest c f g)).outputs ((done.length : Nat) : Int) = some c.out := by
      refine rd_eq_mid (done.map (·.out)) (rest.map (·.out)) c.out ?_ (by simp)
      simp [flatten, at_]
    have hf : (flatten (at_ b done rest c f g)).fast = f := rfl
    unfold FlatTM.maybeUpdate
    rw [hf]
    split
    · rw [bind_of hro, bind_of (flatClauseUpdate_eq b done rest c f g x j t hx hd hc hj)]
      rfl
    · rfl
  rw [bind_of (key c0 f g hgs hgx fb.posClass 1 fb.posProb hp)]
  have hsh : Shaped b.nLits (if f.next.1 < fb.posProb then clauseUpdate b.cfg x fb.posClass 1 c0 g else (c0, g)).1 ∧
      (if f.next.1 < fb.posProb then clauseUpdate b.cfg x fb.posClass 1 c0 g else (c0, g)).1.w.length = b.nClasses := by
    split
    · exact clauseUpdate_shape b x _ _ _ _ hgs
    · exact hgs
  have hox : (if f.next.1 < fb.posProb then clauseUpdate b.cfg x fb.posClass 1 c0 g else (c0, g)).1.out = 1 → x.length = b.nLits := by
    split
    · intro h
      rw [update_out] at h
      exact hgx h
    · exact hgx
  exact key _ f.next.2 _ hsh hox fb.negClass (-1) fb.negProb hn

theorem flat_trainLoop (b : DBlock) (x : List Nat) (fb : Feedback) (total : Nat) (hx : x.length = b.nLits)
    (hs : Small b.nLits total b.nClasses) (hp : fb.posClass < b.nClasses) (hn : fb.negClass < b.nClasses) :
    ∀ (rest done : List Clause) (f g : Rng), (done ++ rest).length = total → RowsOk b (done ++ rest) →
      forLoop (FlatTM.trainBody x fb) rest.length done.length (flatten { b with clauses := done ++ rest, fast := f, rng := g }) =
        some (flatten { b with clauses := done ++ (trainClauses b.cfg x fb rest f g).1,
                               fast := (trainClauses b.cfg x fb rest f g).2.1,
                               rng := (trainClauses b.cfg x fb rest f g).2.2 }) := by
  intro rest
  induction rest with
  | nil => intro done f g _ _; simp [forLoop, trainClauses]
  | cons c rest ih =>
    intro done f g ht hok
    have h1 := flatTrainBody_eq b done rest c f g x fb (fun _ => hx) hok (ht ▸ hs) hp hn
    unfold at_ at h1
    rw [List.length_cons, forLoop, bind_of h1]
    have hok' : RowsOk b ((done ++ [(trainClause b.cfg x fb c f g).1]) ++ rest) := by
      intro c' hc'
      simp only [List.append_assoc, List.mem_append, List.mem_cons, List.not_mem_nil, or_false] at hc'
      rcases hc' with hc' | rfl | hc'
      · exact hok c' (by simp [hc'])
      · exact trainClause_shape b x fb c f g (hok c (by simp))
      · exact hok c' (by simp [hc'])
    have := ih (done ++ [(trainClause b.cfg x fb c f g).1]) (trainClause b.cfg x fb c f g).2.1
      (trainClause b.cfg x fb c f g).2.2 (by simpa using ht) hok'
    simp only [List.append_assoc, List.cons_append, List.nil_append, List.length_append, List.length_cons, List.length_nil,
      Nat.zero_add] at this
    rw [this]
    rfl

theorem flat_trainUpdate (b : DBlock) (x : List Nat) (fb : Feedback) (hb : BlockShaped b)
    (hs : Small b.nLits b.clauses.length b.nClasses) (hx : x.length = b.nLits)
    (hp : fb.posClass < b.nClasses) (hn : fb.negClass < b.nClasses) :
    (flatten b).trainUpdate x fb = some (flatten (b.trainUpdate x fb)) :=
  flat_trainLoop b x fb b.clauses.length hx hs hp hn b.clauses [] b.fast b.rng rfl hb.rows

theorem trainClauses_shape (b : DBlock) (x : List Nat) (fb : Feedback) : ∀ (cs : List Clause) (f g : Rng), RowsOk b cs →
    RowsOk b (trainClauses b.cfg x fb cs f g).1 ∧ (trainClauses b.cfg x fb cs f g).1.length = cs.length := by
  intro cs
  induction cs with
  | nil => intro f g h; exact ⟨h, rfl⟩
  | cons c cs ih =>
    intro f g h
    obtain ⟨h1, h2⟩ := ih (trainClause b.cfg x fb c f g).2.1 (trainClause b.cfg x fb c f g).2.2
      (fun c' hc' => h c' (List.mem_cons_of_mem _ hc'))
    rw [trainClauses]
    refine ⟨?_, by simp [h2]⟩
    intro c' hc'
    rcases List.mem_cons.mp hc' with rfl | hc'
    · exact trainClause_shape b x fb c f g (h c List.mem_cons_self)
    · exact h1 c' hc'

theorem countVotes_length (n : Nat) : ∀ (cs : List Clause) (v : List Int), v.length = n → (∀ c ∈ cs, c.w.length = n) →
    (cs.foldl (fun v c => if c.out = 1 then addVotes v c.w else v) v).length = n := by
  intro cs
  induction cs with
  | nil => intro v hv _; exact hv
  | cons c cs ih =>
    intro v hv h
    rw [List.foldl_cons]
    refine ih _ ?_ fun c' hc' => h c' (List.mem_cons_of_mem _ hc')
    split
    · simp [addVotes, hv, h c List.mem_cons_self]
    · exact hv

/-- One call keeps the shape and does on the arrays what it does on the block. -/
theorem flat_apply (b : DBlock) (op : BlockOp) (hb : BlockShaped b) (hs : Small b.nLits b.clauses.length b.nClasses)
    (ho : OpOk b.nLits b.nClasses op) :
    (flatten b).apply op = some (flatten (b.apply op)) ∧ BlockShaped (b.apply op) ∧ (b.apply op).nLits = b.nLits ∧
      (b.apply op).nClasses = b.nClasses ∧ (b.apply op).clauses.length = b.clauses.length := by
  cases op with
  | trainExample x =>
    have hr : BlockShaped (b.trainSetOutput x) := ⟨by
      intro c hc
      obtain ⟨c', hc', rfl⟩ := List.mem_map.mp hc
      exact hb.rows c' hc', hb.votes⟩
    refine ⟨?_, ⟨hr.rows, ?_⟩, rfl, rfl, by simp [DBlock.apply, DBlock.countVotes, DBlock.trainSetOutput]⟩
    · refine (bind_of (flat_setOut b x hb hs ho) _).trans ?_
      exact flat_countVotes _ hr (by simpa [DBlock.trainSetOutput] using hs.weights)
    · exact countVotes_length b.nClasses _ _ List.length_replicate fun c hc => (hr.rows c hc).2
  | evalExample x =>
    have hr : BlockShaped (b.evalSetOutput x) := ⟨by
      intro c hc
      obtain ⟨c', hc', rfl⟩ := List.mem_map.mp hc
      exact hb.rows c' hc', hb.votes⟩
    refine ⟨?_, ⟨hr.rows, ?_⟩, rfl, rfl, by simp [DBlock.apply, DBlock.countVotes, DBlock.evalSetOutput]⟩
    · refine (bind_of (flat_evalOut b x hb hs ho) _).trans ?_
      exact flat_countVotes _ hr (by simpa [DBlock.evalSetOutput] using hs.weights)
    · exact countVotes_length b.nClasses _ _ List.length_replicate fun c hc => (hr.rows c hc).2
  | trainUpdate x fb =>
    obtain ⟨h1, h2⟩ := trainClauses_shape b x fb b.clauses b.fast b.rng hb.rows
    exact ⟨flat_trainUpdate b x fb hb hs ho.1 ho.2.1 ho.2.2, ⟨h1, hb.votes⟩, rfl, rfl, h2⟩

theorem flat_run (ops : List BlockOp) : ∀ (b : DBlock), BlockShaped b → Small b.nLits b.clauses.length b.nClasses →
    (∀ op ∈ ops, OpOk b.nLits b.nClasses op) → (flatten b).run ops = some (flatten (b.run ops)) := by
  induction ops with
  | nil => intro b _ _ _; rfl
  | cons op ops ih =>
    intro b hb hs ho
    obtain ⟨h1, h2, h3, h4, h5⟩ := flat_apply b op hb hs (ho op List.mem_cons_self)
    rw [FlatTM.run, bind_of h1]
    exact ih (b.apply op) h2 (by rw [h3, h4, h5]; exact hs) fun op' ho' => by
      rw [h3, h4]; exact ho op' (List.mem_cons_of_mem _ ho')

/-! ### Initialisation -/

theorem initLit_loop : ∀ (l d : List Int) (g : Rng),
    forLoop initLitBody l.length d.length (d ++ l, g) = some (d ++ (initHalf l.length g).1, (initHalf l.length g).2) := by
  intro l
  induction l with
  | nil => intro d g; simp [forLoop, initHalf]
  | cons a l ih =>
    intro d g
    rw [List.length_cons, forLoop]
    have hb : initLitBody d.length (d ++ a :: l, g) = some (d ++ (if g.next.1 < 1 / 2 then -1 else 0) :: l, g.next.2) := by
      unfold initLitBody
      rw [bind_of (wr_mid d l a _ _ rfl)]
      rfl
    rw [bind_of hb]
    have := ih (d ++ [if g.next.1 < 1 / 2 then -1 else 0]) g.next.2
    simp only [List.append_assoc, List.cons_append, List.nil_append, List.length_append, List.length_cons, List.length_nil,
      Nat.zero_add] at this
    rw [this, initHalf]

theorem initWeight_loop : ∀ (l d : List Int) (g : Rng),
    forLoop initWeightBody l.length d.length (d ++ l, g) =
      some (d ++ (initWeights l.length g).1, (initWeights l.length g).2) := by
  intro l
  induction l with
  | nil => intro d g; simp [forLoop, initWeights]
  | cons a l ih =>
    intro d g
    rw [List.length_cons, forLoop]
    have hb : initWeightBody d.length (d ++ a :: l, g) = some (d ++ (if g.next.1 > 1 / 2 then 1 else -1) :: l, g.next.2) := by
      unfold initWeightBody
      rw [bind_of (wr_mid d l a _ _ rfl)]
      rfl
    rw [bind_of hb]
    have := ih (d ++ [if g.next.1 > 1 / 2 then 1 else -1]) g.next.2
    simp only [List.append_assoc, List.cons_append, List.nil_append, List.length_append, List.length_cons, List.length_nil,
      Nat.zero_add] at this
    rw [this, initWeights]

theorem initHalf_add (m n : Nat) : ∀ g : Rng, initHalf (m + n) g =
    ((initHalf m g).1 ++ (initHalf n (initHalf m g).2).1, (initHalf n (initHalf m g).2).2) := by
  induction m with
  | zero => intro g; simp [initHalf]
  | succ m ih => intro g; rw [Nat.succ_add, initHalf, ih, initHalf]; simp

theorem initWeights_add (m n : Nat) : ∀ g : Rng, initWeights (m + n) g =
    ((initWeights m g).1 ++ (initWeights n (initWeights m g).2).1, (initWeights n (initWeights m g).2).2) := by
  induction m with
  | zero => intro g; simp [initWeights]
  | succ m ih => intro g; rw [Nat.succ_add, initWeights, ih, initWeights]; simp

theorem initHalf_length (n : Nat) : ∀ g, (initHalf n g).1.length = n := by
  induction n with
  | zero => intro g; rfl
  | succ n ih => intro g; simp [initHalf, ih]

theorem initWeights_length (n : Nat) : ∀ g, (initWeights n g).1.length = n := by
  induction n with
  | zero => intro g; rfl
  | succ n ih => intro g; simp [initWeights, ih]

theorem initRows_flat (n : Nat) : ∀ (k : Nat) (g : Rng),
    (initRows n k g).1.flatMap (fun r => r.1 ++ r.2) = (initHalf (k * (n * 2)) g).1 ∧
      (initRows n k g).2 = (initHalf (k * (n * 2)) g).2 ∧ (initRows n k g).1.length = k ∧
      ∀ r ∈ (initRows n k g).1, r.1.length = n ∧ r.2.length = n := by
  intro k
  induction k with
  | zero => intro g; simp [initRows, initHalf]
  | succ k ih =>
    intro g
    obtain ⟨h1, h2, h3, h4⟩ := ih (initHalf n (initHalf n g).2).2
    rw [initRows, Nat.succ_mul, show k * (n * 2) + n * 2 = n + (n + k * (n * 2)) by omega, initHalf_add, initHalf_add]
    simp only [List.flatMap_cons, h1, h2, List.length_cons, h3]
    refine ⟨by simp, trivial, trivial, ?_⟩
    intro r hr
    rcases List.mem_cons.mp hr with rfl | hr
    · exact ⟨initHalf_length _ _, initHalf_length _ _⟩
    · exact h4 r hr

theorem initAllWeights_flat (n : Nat) : ∀ (k : Nat) (g : Rng),
    (initAllWeights n k g).1.flatten = (initWeights (k * n) g).1 ∧ (initAllWeights n k g).2 = (initWeights (k * n) g).2 ∧
      (initAllWeights n k g).1.length = k ∧ ∀ r ∈ (initAllWeights n k g).1, r.length = n := by
  intro k
  induction k with
  | zero => intro g; simp [initAllWeights, initWeights]
  | succ k ih =>
    intro g
    obtain ⟨h1, h2, h3, h4⟩ := ih (initWeights n g).2
    rw [initAllWeights, Nat.succ_mul, Nat.add_comm (k * n) n, initWeights_add]
    simp only [List.flatten_cons, h1, h2, List.length_cons, h3]
    refine ⟨trivial, trivial, trivial, ?_⟩
    intro r hr
    rcases List.mem_cons.mp hr with rfl | hr
    · exact initWeights_length _ _
    · exact h4 r hr


theorem zip_flatMap_left : ∀ (rows : List (List Int × List Int)) (ws : List (List Int)), ws.length = rows.length →
    ∀ (f : Nat → (List Int × List Int) × List Int → Clause), (∀ i rw, (f i rw).pos = rw.1.1 ∧ (f i rw).neg = rw.1.2) →
    ((rows.zip ws).mapIdx f).flatMap (fun c => c.pos ++ c.neg) = rows.flatMap fun r => r.1 ++ r.2 := by
  intro rows
  induction rows with
  | nil => intro ws _ f _; simp
  | cons r rows ih =>
    intro ws hw f hf
    obtain ⟨w, ws, rfl⟩ := List.exists_cons_of_length_eq_add_one hw
    rw [List.zip_cons_cons, List.mapIdx_cons, List.flatMap_cons, List.flatMap_cons, (hf _ _).1, (hf _ _).2]
    rw [ih ws (by simpa using hw) (fun i => f (i + 1)) fun i rw => hf (i + 1) rw]

theorem zip_flatMap_right : ∀ (rows : List (List Int × List Int)) (ws : List (List Int)), ws.length = rows.length →
    ∀ (f : Nat → (List Int × List Int) × List Int → Clause), (∀ i rw, (f i rw).w = rw.2) →
    ((rows.zip ws).mapIdx f).flatMap (·.w) = ws.flatten := by
  intro rows
  induction rows with
  | nil =>
    intro ws hw f _
    have : ws = [] := by simpa using hw
    simp [this]
  | cons r rows ih =>
    intro ws hw f hf
    obtain ⟨w, ws, rfl⟩ := List.exists_cons_of_length_eq_add_one hw
    rw [List.zip_cons_cons, List.mapIdx_cons, List.flatMap_cons, hf, List.flatten_cons]
    rw [ih ws (by simpa using hw) (fun i => f (i + 1)) fun i rw => hf (i + 1) rw]

theorem i32_inv {z w : Int} (h : i32 z = some w) : w = z ∧ -2147483648 ≤ z ∧ z < 2147483648 := by
  unfold i32 at h
  split at h
  · next hh => exact ⟨(Option.some.inj h).symm, hh⟩
  · simp at h

theorem bind_none' {α β : Type} (f : α → Option β) : ((none : Option α) >>= f) = none := rfl

theorem bind_inv {α β : Type} {x : Option α} {f : α → Option β} {r : β} (h : (x >>= f) = some r) :
    ∃ a, x = some a ∧ f a = some r := by
  cases x with
  | none => simp at h
  | some a => exact ⟨a, rfl, h⟩

theorem flat_init (nLits nClauses nClasses : Nat) (cfg : Cfg) (fastOf rngOf : Nat → Rng) (junk : Nat → Int) (junkC : Nat → Nat)
    (seed : Nat) (hs : Small nLits nClauses nClasses) :
    flatInit nLits nClauses nClasses cfg fastOf rngOf junk junkC seed =
      some ((initTM nLits nClauses nClasses cfg fastOf rngOf junkC seed).map flatten) := by
  unfold flatInit initTM
  by_cases hseed : seed = 0
  · rw [if_pos hseed, if_pos hseed]; rfl
  rw [if_neg hseed, if_neg hseed]
  have hcl : nClauses * (nLits * 2) < 2147483648 := hs.clauses
  have e0 : nClauses * nLits * 2 = nClauses * (nLits * 2) := Nat.mul_assoc _ _ _
  have e1 : i32 ((nClauses : Int) * (nLits : Int)) = some ((nClauses * nLits : Nat) : Int) :=
    i32_nat _ (by push_cast; rfl) (by omega)
  have e2 : i32 (((nClauses * nLits : Nat) : Int) * 2) = some ((nClauses * nLits * 2 : Nat) : Int) :=
    i32_nat _ (by push_cast; rfl) (by omega)
  have e3 : i32 ((nClauses : Int) * (nClasses : Int)) = some ((nClauses * nClasses : Nat) : Int) :=
    i32_nat _ (by push_cast; rfl) hs.weights
  have e4 : i32 ((nLits : Int) * 2) = some ((nLits * 2 : Nat) : Int) := i32_nat _ (by push_cast; rfl) hs.row
  have e5 : i32 ((nClauses : Int) * ((nLits * 2 : Nat) : Int)) = some ((nClauses * (nLits * 2) : Nat) : Int) :=
    i32_nat _ (by push_cast; rfl) hs.clauses
  rw [bind_of e1, bind_of e2, bind_of e3, bind_of e4, bind_of e5]
  simp only [Int.toNat_natCast]
  have l1 := initLit_loop ((List.range (nClauses * nLits * 2)).map junk) [] (rngOf seed)
  have l2 := initWeight_loop ((List.range (nClauses * nClasses)).map junk) [] (fastOf seed)
  simp only [List.nil_append, List.length_nil, List.length_map, List.length_range, e0] at l1 l2
  rw [e0, bind_of l1, bind_of l2]
  obtain ⟨r1, r2, r3, r4⟩ := initRows_flat nLits nClauses (rngOf seed)
  obtain ⟨w1, w2, w3, w4⟩ := initAllWeights_flat nClasses nClauses (fastOf seed)
  simp only [Option.map_some, flatten, Option.pure_def, List.length_mapIdx, List.length_zip, r3, w3, Nat.min_self]
  rw [zip_flatMap_left _ _ (by rw [r3, w3]) _ (fun _ _ => ⟨rfl, rfl⟩), zip_flatMap_right _ _ (by rw [r3, w3]) _ (fun _ _ => rfl),
    r1, w1, r2, w2]
  have hout : List.map (·.out) (((initRows nLits nClauses (rngOf seed)).1.zip (initAllWeights nClasses nClauses (fastOf seed)).1).mapIdx
      (fun i rw => (⟨rw.1.1, rw.1.2, rw.2, 0, junkC i⟩ : Clause))) = List.replicate nClauses 0 := by
    apply List.ext_getElem
    · simp [r3, w3]
    · intro i h1 h2; simp
  have hcnt : List.map (·.cnt) (((initRows nLits nClauses (rngOf seed)).1.zip (initAllWeights nClasses nClauses (fastOf seed)).1).mapIdx
      (fun i rw => (⟨rw.1.1, rw.1.2, rw.2, 0, junkC i⟩ : Clause))) = (List.range nClauses).map junkC := by
    apply List.ext_getElem
    · simp [r3, w3]
    · intro i h1 h2; simp
  rw [hout, hcnt]

theorem init_wellShaped (nLits nClauses nClasses : Nat) (cfg : Cfg) (fastOf rngOf : Nat → Rng) (junkC : Nat → Nat)
    (seed : Nat) (b : DBlock) (hb : initTM nLits nClauses nClasses cfg fastOf rngOf junkC seed = some b) :
    BlockShaped b ∧ b.nLits = nLits ∧ b.nClasses = nClasses ∧ b.clauses.length = nClauses := by
  unfold initTM at hb
  split at hb
  · simp at hb
  · obtain rfl := Option.some.inj hb
    obtain ⟨r1, r2, r3, r4⟩ := initRows_flat nLits nClauses (rngOf seed)
    obtain ⟨w1, w2, w3, w4⟩ := initAllWeights_flat nClasses nClauses (fastOf seed)
    refine ⟨⟨?_, by simp⟩, rfl, rfl, by simp [r3, w3]⟩
    intro c hc
    obtain ⟨i, hi, rfl⟩ := List.getElem_of_mem hc
    simp only [List.getElem_mapIdx, List.getElem_zip]
    simp only [List.length_mapIdx, List.length_zip] at hi
    exact ⟨r4 _ (List.getElem_mem _), w4 _ (List.getElem_mem _)⟩

/-! ### A label that is no class -/

theorem wr_length {α : Type} {a a' : List α} {i : Int} {v : α} (h : wr a i v = some a') : a'.length = a.length := by
  unfold wr at h
  split at h
  · rw [← Option.some.inj h]; simp
  · simp at h

theorem rd_out {α : Type} (a : List α) (i : Nat) (h : a.length ≤ i) : rd a (i : Int) = none := by
  simp [rd, h]

/-- What the argument needs to know of the state. -/
structure Sizes (m : FlatTM) (n k W : Nat) (d : Nat → Rat) : Prop where
  nLits : m.nLits = n
  nClasses : m.nClasses = k
  weights : m.weights.length = W
  draw : m.fast.draw = d

theorem Sizes.clauseUpdate {m m' : FlatTM} {n k W : Nat} {d : Nat → Rat} (h : Sizes m n k W d) {x : List Nat} {row wi t : Int} {out : Nat}
    (hu : m.clauseUpdate x row wi t out = some m') : Sizes m' n k W d ∧ m'.fast = m.fast := by
  unfold FlatTM.clauseUpdate at hu
  obtain ⟨w, -, hu⟩ := bind_inv hu
  simp only at hu
  generalize (if w ≥ 0 then (1 : Int) else -1) = sg at hu
  split at hu
  · split at hu
    · obtain ⟨ws, h1, hu⟩ := bind_inv hu
      obtain ⟨r, -, hu⟩ := bind_inv hu
      obtain rfl := Option.some.inj hu
      exact ⟨⟨h.nLits, h.nClasses, (wr_length h1).trans h.weights, h.draw⟩, rfl⟩
    · obtain ⟨r, -, hu⟩ := bind_inv hu
      obtain rfl := Option.some.inj hu
      exact ⟨⟨h.nLits, h.nClasses, h.weights, h.draw⟩, rfl⟩
  · split at hu
    · obtain ⟨ws, h1, hu⟩ := bind_inv hu
      obtain ⟨r, -, hu⟩ := bind_inv hu
      obtain rfl := Option.some.inj hu
      exact ⟨⟨h.nLits, h.nClasses, (wr_length h1).trans h.weights, h.draw⟩, rfl⟩
    · obtain rfl := Option.some.inj hu
      exact ⟨h, rfl⟩

theorem Sizes.maybeUpdate {m m' : FlatTM} {n k W : Nat} {d : Nat → Rat} (h : Sizes m n k W d) {x : List Nat} {ck : Nat} {row wrow : Int}
    {cls : Nat} {t : Int} {pr : Rat} (hu : m.maybeUpdate x ck row wrow cls t pr = some m') : Sizes m' n k W d := by
  unfold FlatTM.maybeUpdate at hu
  split at hu
  · obtain ⟨out, -, hu⟩ := bind_inv hu
    obtain ⟨m1, h1, hu⟩ := bind_inv hu
    obtain rfl := Option.some.inj hu
    obtain ⟨s, -⟩ := h.clauseUpdate h1
    exact ⟨s.nLits, s.nClasses, s.weights, h.draw⟩
  · obtain rfl := Option.some.inj hu
    exact ⟨h.nLits, h.nClasses, h.weights, h.draw⟩

theorem Sizes.gate {m m' : FlatTM} {n k W : Nat} {d : Nat → Rat} (h : Sizes m n k W d) {ck : Nat} (hu : m.gate ck = some m') :
    Sizes m' n k W d := by
  unfold FlatTM.gate at hu
  split at hu
  · obtain ⟨c, -, hu⟩ := bind_inv hu
    split at hu
    · obtain ⟨outs, -, hu⟩ := bind_inv hu
      obtain rfl := Option.some.inj hu
      exact ⟨h.nLits, h.nClasses, h.weights, h.draw⟩
    · obtain rfl := Option.some.inj hu
      exact h
  · obtain rfl := Option.some.inj hu
    exact h

theorem Sizes.trainBody {m m' : FlatTM} {n k W : Nat} {d : Nat → Rat} (h : Sizes m n k W d) {x : List Nat} {fb : Feedback} {ck : Nat}
    (hu : FlatTM.trainBody x fb ck m = some m') : Sizes m' n k W d := by
  unfold FlatTM.trainBody at hu
  obtain ⟨_, -, hu⟩ := bind_inv hu
  obtain ⟨_, -, hu⟩ := bind_inv hu
  obtain ⟨_, -, hu⟩ := bind_inv hu
  obtain ⟨m1, h1, hu⟩ := bind_inv hu
  obtain ⟨m2, h2, hu⟩ := bind_inv hu
  exact ((h.gate h1).maybeUpdate h2).maybeUpdate hu

/-- The last clause's update of a class that does not exist is outside the weights. -/
theorem trainBody_outside {m : FlatTM} {n k W : Nat} {d : Nat → Rat} (h : Sizes m n k W d) (x : List Nat) (fb : Feedback) (ck : Nat)
    (hW : W ≤ ck * k + fb.posClass) (hd : ∀ i, d i < fb.posProb) : FlatTM.trainBody x fb ck m = none := by
  cases hr : FlatTM.trainBody x fb ck m with
  | none => rfl
  | some m' =>
    exfalso
    unfold FlatTM.trainBody at hr
    obtain ⟨_, -, hr⟩ := bind_inv hr
    obtain ⟨row, -, hr⟩ := bind_inv hr
    obtain ⟨wrow, h3, hr⟩ := bind_inv hr
    obtain ⟨m1, h4, hr⟩ := bind_inv hr
    obtain ⟨m2, h5, -⟩ := bind_inv hr
    have hs := h.gate h4
    unfold FlatTM.maybeUpdate at h5
    have hdraw : m1.fast.next.1 < fb.posProb := by
      have : m1.fast.next.1 = m1.fast.draw m1.fast.pos := rfl
      rw [this, hs.draw]
      exact hd _
    rw [if_pos hdraw] at h5
    obtain ⟨out, -, h5⟩ := bind_inv h5
    obtain ⟨m3, h6, -⟩ := bind_inv h5
    unfold FlatTM.clauseUpdate at h6
    obtain ⟨w, h7, -⟩ := bind_inv h6
    have hw := (i32_inv h3).1
    rw [hw, h.nClasses, show ((ck : Int) * (k : Int) + (fb.posClass : Int)) = ((ck * k + fb.posClass : Nat) : Int) by push_cast; rfl,
      rd_out _ _ (by rw [hs.weights]; exact hW)] at h7
    simp at h7

theorem trainLoop_outside {n k W : Nat} {d : Nat → Rat} (x : List Nat) (fb : Feedback) (hd : ∀ i, d i < fb.posProb) :
    ∀ (rem i : Nat) (m : FlatTM), Sizes m n k W d → W ≤ (i + rem) * k + fb.posClass →
      forLoop (FlatTM.trainBody x fb) (rem + 1) i m = none := by
  intro rem
  induction rem with
  | zero =>
    intro i m h hW
    rw [forLoop, trainBody_outside h x fb i hW hd]
    exact bind_none' _
  | succ rem ih =>
    intro i m h hW
    rw [forLoop]
    cases hb : FlatTM.trainBody x fb i m with
    | none => exact bind_none' _
    | some m' =>
      refine (bind_of rfl _).trans (ih (i + 1) m' (h.trainBody hb) ?_)
      rw [show i + 1 + rem = i + (rem + 1) by omega]
      exact hW

end GT.FlatMem
