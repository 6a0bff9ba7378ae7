import Verif.Spec.ConvFlat
import Verif.Lemmas.AvxFlat
import Verif.Lemmas.ConvExec

namespace GT.CF
open Spec FlatMem AvxMem

/-! ### Loads that succeed -/

/-- All loads of literals of a patch at `base` succeed. -/
def Good (m : Nat) (x : List Byte) (base : Nat) : Prop :=
  ∀ i : Nat, i * 32 + 32 ≤ avxMem m → ldLits x base i = some (load avxL (shiftMem (memOf x) base) (i * 32))

theorem good_of {m base : Nat} {x : List Byte} (hb : base % 32 = 0) (hl : base + avxMem m ≤ x.length)
    (hs : avxMem m * 2 < 2147483648) : Good m x base := by
  intro i hi
  unfold ldLits
  rw [bind_of (posOff_nat (by omega)), ldv_buf x (base + i * 32) (by push_cast; rfl) (by omega) (by omega)]
  congr 1
  funext l
  show (memOf x) (base + i * 32 + l.val) = (memOf x) (base + (i * 32 + l.val))
  rw [Nat.add_assoc]

theorem setLoop_eq {m base : Nat} {x : List Byte} (hg : Good m x base) (bud : Bool) (row : Mem) : ∀ (n i cnt : Nat), (i + n) * 32 ≤ avxMem m →
    ckSetLoop bud (avxMem m) row x base n i cnt = some (avxSetLoop bud (avxMem m) row (shiftMem (memOf x) base) i n cnt) := by
  intro n
  induction n with
  | zero => intro i cnt _; rfl
  | succ n ih =>
    intro i cnt hi
    rw [ckSetLoop, avxSetLoop]
    simp only [hg i (by omega), Option.bind_eq_bind, Option.bind_some, Option.pure_def]
    split
    · rfl
    · split
      · rfl
      · exact ih (i + 1) _ (by omega)

theorem evalLoop_eq {m base : Nat} {x : List Byte} (hg : Good m x base) (row : Mem) : ∀ (n i : Nat) (act : Bool), (i + n) * 32 ≤ avxMem m →
    ckEvalLoop (avxMem m) row x base n i act = some (avxEvalLoop (avxMem m) row (shiftMem (memOf x) base) i n act) := by
  intro n
  induction n with
  | zero => intro i cnt _; rfl
  | succ n ih =>
    intro i cnt hi
    rw [ckEvalLoop, avxEvalLoop]
    simp only [hg i (by omega), Option.bind_eq_bind, Option.bind_some, Option.pure_def]
    split
    · rfl
    · split
      · rfl
      · exact ih (i + 1) _ (by omega)

theorem setPatch_eq (cfg : VCfg) (hn : 0 < cfg.nLits) (row : Mem) (x : List Byte) (k : Nat) (hk : k * cfg.nLits < 2147483648)
    (hg : Good cfg.nLits x (k * cfg.nLits)) :
    ckSetPatch cfg row x k = some (avxConvSetPatch cfg row (shiftMem (memOf x) (k * cfg.nLits))) := by
  have hm := avxMem_pos hn
  have hm32 := avxMem_mod cfg.nLits
  unfold ckSetPatch
  simp only [nc_eq hn, Int.toNat_natCast]
  rw [bind_of (i32_nat (k * cfg.nLits) (by push_cast; rfl) hk), bind_of (setLoop_eq hg _ row _ 0 0 (by omega))]
  obtain ⟨ok, cnt, hr⟩ : ∃ ok cnt, avxSetLoop cfg.budget.isSome (avxMem cfg.nLits) row (shiftMem (memOf x) (k * cfg.nLits)) 0
      (avxMem cfg.nLits / 32 - 1) 0 = (ok, cnt) := ⟨_, _, rfl⟩
  simp only [avxConvSetPatch, hr]
  cases ok with
  | false => rfl
  | true =>
    simp only [if_true, Bool.true_eq_false, if_false]
    unfold ckSetLast
    dsimp only
    rw [bind_of (hg (avxMem cfg.nLits / 32 - 1) (by omega))]
    simp only [Int.toNat_natCast, Option.pure_def]
    split
    · rfl
    · split
      · rfl
      · rfl

theorem evalPatch_eq (cfg : VCfg) (hn : 0 < cfg.nLits) (row : Mem) (x : List Byte) (k : Nat) (hk : k * cfg.nLits < 2147483648)
    (hg : Good cfg.nLits x (k * cfg.nLits)) :
    ckEvalPatch cfg row x k = some (avxConvEvalPatch cfg row (shiftMem (memOf x) (k * cfg.nLits))) := by
  have hm := avxMem_pos hn
  have hm32 := avxMem_mod cfg.nLits
  unfold ckEvalPatch
  simp only [nc_eq hn, Int.toNat_natCast]
  rw [bind_of (i32_nat (k * cfg.nLits) (by push_cast; rfl) hk), bind_of (evalLoop_eq hg row _ 0 _ (by omega))]
  obtain ⟨ok, act, hr⟩ : ∃ ok act, avxEvalLoop (avxMem cfg.nLits) row (shiftMem (memOf x) (k * cfg.nLits)) 0
      (avxMem cfg.nLits / 32 - 1) false = (ok, act) := ⟨_, _, rfl⟩
  simp only [avxConvEvalPatch, hr]
  cases ok with
  | false => rfl
  | true =>
    simp only [if_true, Bool.true_eq_false, if_false]
    unfold ckEvalLast
    dsimp only
    rw [bind_of (hg (avxMem cfg.nLits / 32 - 1) (by omega))]
    simp only [Int.toNat_natCast, Option.pure_def]
    split
    · rfl
    · split
      · rfl
      · rfl

theorem step_const (test : Nat → Bool × Nat) (s : Scan) (k : Nat) : s.step (fun _ => test k) k = s.step test k := rfl

theorem scan_eq (ck : Nat → Option (Bool × Nat)) (test : Nat → Bool × Nat) : ∀ (r k : Nat) (s : Scan),
    (∀ j, k ≤ j → j < k + r → ck j = some (test j)) →
    ckScan ck k r s = some ((List.range' k r).foldl (Scan.step test) s) := by
  intro r
  induction r with
  | zero => intro k s _; rfl
  | succ r ih =>
    intro k s h
    rw [ckScan, bind_of (h k (by omega) (by omega)), step_const, ih (k + 1) _ fun j h1 h2 => h j (by omega) (by omega),
      List.range'_succ]
    rfl

theorem any_eq (ck : Nat → Option Bool) (test : Nat → Bool) : ∀ (r k : Nat),
    (∀ j, k ≤ j → j < k + r → ck j = some (test j)) → ckAny ck k r = some (anyPatch test k r) := by
  intro r
  induction r with
  | zero => intro k _; rfl
  | succ r ih =>
    intro k h
    rw [ckAny, anyPatch, bind_of (h k (by omega) (by omega))]
    split
    · rfl
    · exact ih (k + 1) fun j h1 h2 => h j (by omega) (by omega)

/-- What is known of the example buffer of a block whose loads all succeed. -/
structure Fine (m np : Nat) (x : List Byte) : Prop where
  pos : 0 < m
  small : ∀ k, k < np → k * m < 2147483648
  good : ∀ k, k < np → Good m x (k * m)

section
variable {cfg : VCfg} {np : Nat} {x : List Byte} (h : Fine cfg.nLits np x)
include h

theorem setClause_eq (c : VConvClause) (counts : Nat → Nat) (g : Rng) :
    ckSetClause cfg np x c counts g = some (avxConvSetClause cfg np (memOf x) c counts g) := by
  unfold ckSetClause
  rw [bind_of (scan_eq _ (fun k => avxConvSetPatch cfg c.base.row (shiftMem (memOf x) (k * cfg.nLits))) np 0 _ fun j _ hj =>
    setPatch_eq cfg h.pos c.base.row x j (h.small j (by omega)) (h.good j (by omega))), ← List.range_eq_range']
  rfl

theorem setClauses_eq : ∀ (cs : List VConvClause) (counts : Nat → Nat) (g : Rng),
    ckSetClauses cfg np x cs counts g = some (avxConvSetClauses cfg np (memOf x) cs counts g) := by
  intro cs
  induction cs with
  | nil => intros; rfl
  | cons c cs ih =>
    intro counts g
    rw [ckSetClauses, bind_of (setClause_eq h c counts g), bind_of (ih _ _), avxConvSetClauses]
    rfl

theorem evalClauses_eq : ∀ cs : List VConvClause, ckEvalClauses cfg np x cs = some (cs.map (avxConvEvalClause cfg np (memOf x))) := by
  intro cs
  induction cs with
  | nil => rfl
  | cons c cs ih =>
    have : ckEvalClause cfg np x c = some (avxConvEvalClause cfg np (memOf x) c) := by
      unfold ckEvalClause
      rw [bind_of (any_eq _ (fun k => avxConvEvalPatch cfg c.base.row (shiftMem (memOf x) (k * cfg.nLits))) np 0 fun j _ hj =>
        evalPatch_eq cfg h.pos c.base.row x j (h.small j (by omega)) (h.good j (by omega)))]
      rfl
    rw [ckEvalClauses, bind_of this, bind_of ih]
    rfl
end

theorem chunks_eq {m base : Nat} {x : List Byte} (hg : Good m x base) (f : Nat → Mem → VRng → Mem × VRng) : ∀ (n i : Nat) (row : Mem) (g : VRng),
    (i + n) * 32 ≤ avxMem m → ckChunks x base f i n row g = some (chunkLoop f i n row g) := by
  intro n
  induction n with
  | zero => intros; rfl
  | succ n ih =>
    intro i row g hi
    rw [ckChunks, bind_of (hg i (by omega)), chunkLoop]
    exact ih (i + 1) _ _ (by omega)

theorem clauseUpdate_eq (cfg : VCfg) (x : List Byte) (base j : Nat) (target : Int) (c : VClause) (g : VRng)
    (hg : c.out = 1 → Good cfg.nLits x base) :
    ckClauseUpdate cfg x base j target c g = some (avxClauseUpdate cfg (shiftMem (memOf x) base) j target c g) := by
  have hl : (0 + avxMem cfg.nLits / 32) * 32 ≤ avxMem cfg.nLits := by omega
  unfold ckClauseUpdate avxClauseUpdate
  dsimp only
  generalize (if c.w.getD j 0 ≥ 0 then (1 : Int) else -1) = sign
  by_cases h1 : target * sign > 0
  · rw [if_pos h1, if_pos h1]
    by_cases ho : c.out = 1
    · rw [if_pos ho, if_pos ho, bind_of (chunks_eq (hg ho) _ _ 0 c.row g hl)]
      rfl
    · rw [if_neg ho, if_neg ho]
      rfl
  · rw [if_neg h1, if_neg h1]
    by_cases h2 : target * sign < 0 ∧ c.out = 1
    · rw [if_pos h2, if_pos h2, bind_of (chunks_eq (hg h2.2) _ _ 0 c.row g hl)]
      rfl
    · rw [if_neg h2, if_neg h2]
      rfl

theorem update_out (cfg : VCfg) (lits : Mem) (j : Nat) (target : Int) (c : VClause) (g : VRng) :
    (avxClauseUpdate cfg lits j target c g).1.out = c.out := by
  unfold avxClauseUpdate
  dsimp only
  generalize (if c.w.getD j 0 ≥ 0 then (1 : Int) else -1) = sign
  split
  · split <;> rfl
  · split <;> rfl

/-- Where the feedback of a clause reads, and its active patch. -/
theorem trainClause_eq (cfg : VCfg) (x : List Byte) (fb : Feedback) (c : VConvClause) (f : Rng) (g : VRng)
    (hg : c.base.out = 1 → c.patch * cfg.nLits < 2147483648 ∧ Good cfg.nLits x (c.patch * cfg.nLits)) :
    ckTrainClause cfg x fb c f g = some (avxConvTrainClause cfg (memOf x) fb c f g) := by
  have hgate : (avxBudgetGate cfg c.base).out = 1 → c.base.out = 1 := by
    unfold avxBudgetGate
    split
    · split
      · intro h; simp at h
      · exact id
    · exact id
  by_cases ho : c.base.out = 1
  · obtain ⟨hs, hg⟩ := hg ho
    have hb : c.patch * cfg.nLits % 4294967296 = c.patch * cfg.nLits := Nat.mod_eq_of_lt (by omega)
    unfold ckTrainClause
    simp only [hb, clauseUpdate_eq cfg x _ _ _ _ _ (fun _ => hg)]
    unfold avxConvTrainClause avxTrainClause
    dsimp only
    split <;> split <;> rfl
  · have hd : ¬ (avxBudgetGate cfg c.base).out = 1 := fun h => ho (hgate h)
    have hsil : ∀ (lits lits' : Mem) (j : Nat) (t : Int) (d : VClause) (g : VRng), ¬ d.out = 1 →
        avxClauseUpdate cfg lits j t d g = avxClauseUpdate cfg lits' j t d g := by
      intro lits lits' j t d g hd
      unfold avxClauseUpdate
      simp only [hd, if_false, and_false]
    have e : ckTrainClause cfg x fb c f g =
        some (({ c with base := (avxTrainClause cfg (shiftMem (memOf x) (c.patch * cfg.nLits % 4294967296)) fb c.base f g).1 } : VConvClause),
          (avxTrainClause cfg (shiftMem (memOf x) (c.patch * cfg.nLits % 4294967296)) fb c.base f g).2) := by
      unfold ckTrainClause avxTrainClause
      dsimp only
      by_cases h1 : f.next.1 < fb.posProb
      · rw [if_pos h1, if_pos h1, bind_of (clauseUpdate_eq cfg x _ _ _ _ _ fun h => absurd h hd)]
        have h3 : ¬ (avxClauseUpdate cfg (shiftMem (memOf x) (c.patch * cfg.nLits % 4294967296)) fb.posClass 1 (avxBudgetGate cfg c.base) g).1.out = 1 := by
          rw [update_out]; exact hd
        split
        · rw [bind_of (clauseUpdate_eq cfg x _ _ _ _ _ fun h => absurd h h3)]
          rfl
        · rfl
      · rw [if_neg h1, if_neg h1]
        split
        · simp only [Option.bind_eq_bind, Option.bind_some]
          rw [clauseUpdate_eq cfg x _ _ _ _ _ fun h => absurd h hd]
          rfl
        · rfl
    rw [e]
    have h2 : avxTrainClause cfg (shiftMem (memOf x) (c.patch * cfg.nLits % 4294967296)) fb c.base f g =
        avxTrainClause cfg (shiftMem (memOf x) (c.patch * cfg.nLits)) fb c.base f g := by
      unfold avxTrainClause
      dsimp only
      rw [hsil _ (shiftMem (memOf x) (c.patch * cfg.nLits)) fb.posClass 1 _ g hd]
      split
      · rw [hsil _ (shiftMem (memOf x) (c.patch * cfg.nLits)) fb.negClass (-1) _ _ (by
          split
          · rw [update_out]; exact hd
          · exact hd)]
      · rfl
    rw [h2]
    rfl

theorem trainClauses_eq (cfg : VCfg) (x : List Byte) (fb : Feedback) : ∀ (cs : List VConvClause) (f : Rng) (g : VRng),
    (∀ c ∈ cs, c.base.out = 1 → c.patch * cfg.nLits < 2147483648 ∧ Good cfg.nLits x (c.patch * cfg.nLits)) →
    ckTrainClauses cfg x fb cs f g = some (avxConvTrainClauses cfg (memOf x) fb cs f g) := by
  intro cs
  induction cs with
  | nil => intros; rfl
  | cons c cs ih =>
    intro f g h
    rw [ckTrainClauses, bind_of (trainClause_eq cfg x fb c f g (h c (by simp))), bind_of (ih _ _ fun d hd => h d (by simp [hd])),
      avxConvTrainClauses]
    rfl

theorem set_patch_lt (cfg : VCfg) (np : Nat) (lits : Mem) : ∀ (cs : List VConvClause) (counts : Nat → Nat) (g : Rng),
    ∀ c ∈ (avxConvSetClauses cfg np lits cs counts g).1, c.base.out = 1 → c.patch < np := by
  intro cs
  induction cs with
  | nil => intro counts g c hc; simp [avxConvSetClauses] at hc
  | cons d cs ih =>
    intro counts g c hc ho
    simp only [avxConvSetClauses, List.mem_cons] at hc
    rcases hc with rfl | hc
    · exact (convSelect_patch _ np _ _ _ _ g ho).1
    · exact ih _ _ c hc ho

theorem step_eq {b : VConvBlock} {s : BufStep} (h : Fine b.cfg.nLits b.nPatches s.buf) : convStepOn b s = some (convStep b s) := by
  cases s with
  | eval x =>
    show (ckEvalClauses b.cfg b.nPatches x b.clauses >>= _) = _
    rw [bind_of (evalClauses_eq (x := x) h b.clauses)]
    rfl
  | train x fb =>
    have h1 : b.applyOn (.trainExample x) = some (b.apply (.trainExample (memOf x))) := by
      show (ckSetClauses b.cfg b.nPatches x b.clauses b.counts b.rng >>= _) = _
      rw [bind_of (setClauses_eq (x := x) h b.clauses b.counts b.rng)]
      rfl
    show (b.applyOn (.trainExample x)).bind _ = _
    rw [h1, Option.bind_some]
    have h2 := trainClauses_eq b.cfg x fb (b.apply (.trainExample (memOf x))).clauses b.fast b.vrng fun c hc ho => by
      have := set_patch_lt b.cfg b.nPatches (memOf x) b.clauses b.counts b.rng c hc ho
      exact ⟨h.small _ this, h.good _ this⟩
    show (ckTrainClauses b.cfg x fb (b.apply (.trainExample (memOf x))).clauses b.fast b.vrng >>= _) = _
    rw [bind_of h2]
    rfl

theorem step_shape (b : VConvBlock) (s : BufStep) : (convStep b s).cfg = b.cfg ∧ (convStep b s).nPatches = b.nPatches := by
  cases s <;> exact ⟨rfl, rfl⟩

/-! ### Loads that fault -/

theorem ldLits_misaligned (x : List Byte) {base : Int} (h : base % 32 ≠ 0) (i : Int) : ldLits x base i = none := by
  unfold ldLits posOff
  by_cases hp : i32 (i * 32) = none
  · rw [hp]; rfl
  · obtain ⟨o, ho⟩ := Option.ne_none_iff_exists'.mp hp
    rw [bind_of ho]
    have := (i32_inv ho).1
    unfold ldv
    rw [if_neg]
    rintro ⟨_, h2, _⟩
    omega

theorem setPatch_none (cfg : VCfg) (row : Mem) (x : List Byte) (k : Nat) (h : (k * cfg.nLits) % 32 ≠ 0) : ckSetPatch cfg row x k = none := by
  unfold ckSetPatch
  dsimp only
  by_cases hp : i32 ((k : Int) * cfg.nLits) = none
  · rw [hp]; rfl
  · obtain ⟨base, ho⟩ := Option.ne_none_iff_exists'.mp hp
    have hb : base % 32 ≠ 0 := by
      have := (i32_inv ho).1
      rw [this]
      omega
    rw [bind_of ho]
    cases hn : ((avxMem cfg.nLits : Int) / 32 - 1).toNat with
    | zero =>
      rw [ckSetLoop]
      show ckSetLast cfg row x base _ 0 = none
      unfold ckSetLast
      dsimp only
      rw [ldLits_misaligned x hb]
      rfl
    | succ r =>
      rw [ckSetLoop]
      dsimp only
      rw [ldLits_misaligned x hb]
      rfl

theorem evalPatch_none (cfg : VCfg) (row : Mem) (x : List Byte) (k : Nat) (h : (k * cfg.nLits) % 32 ≠ 0) : ckEvalPatch cfg row x k = none := by
  unfold ckEvalPatch
  dsimp only
  by_cases hp : i32 ((k : Int) * cfg.nLits) = none
  · rw [hp]; rfl
  · obtain ⟨base, ho⟩ := Option.ne_none_iff_exists'.mp hp
    have hb : base % 32 ≠ 0 := by
      have := (i32_inv ho).1
      rw [this]
      omega
    rw [bind_of ho]
    cases hn : ((avxMem cfg.nLits : Int) / 32 - 1).toNat with
    | zero =>
      rw [ckEvalLoop]
      show ckEvalLast cfg row x base _ false = none
      unfold ckEvalLast
      dsimp only
      rw [ldLits_misaligned x hb]
      rfl
    | succ r =>
      rw [ckEvalLoop]
      dsimp only
      rw [ldLits_misaligned x hb]
      rfl

theorem scan_none (ck : Nat → Option (Bool × Nat)) (j : Nat) (hj : ck j = none) : ∀ (r k : Nat) (s : Scan), k ≤ j → j < k + r →
    ckScan ck k r s = none := by
  intro r
  induction r with
  | zero => intro k s _ _; omega
  | succ r ih =>
    intro k s h1 h2
    rw [ckScan]
    cases ht : ck k with
    | none => rfl
    | some t =>
      have : k ≠ j := by rintro rfl; rw [hj] at ht; cases ht
      exact ih (k + 1) _ (by omega) (by omega)

theorem setClauses_none (cfg : VCfg) (np : Nat) (x : List Byte) (hnp : 2 ≤ np) (hm : cfg.nLits % 32 ≠ 0) (c : VConvClause)
    (cs : List VConvClause) (counts : Nat → Nat) (g : Rng) : ckSetClauses cfg np x (c :: cs) counts g = none := by
  have : ckSetClause cfg np x c counts g = none := by
    unfold ckSetClause
    rw [scan_none _ 1 (setPatch_none cfg c.base.row x 1 (by omega)) np 0 _ (by omega) (by omega)]
    rfl
  rw [ckSetClauses, this]
  rfl

theorem i32_zero (n : Nat) : i32 (((0 : Nat) : Int) * n) = some 0 := by
  rw [show (((0 : Nat) : Int) * (n : Int)) = 0 by simp]
  rfl

/-- With patches of a size that is not a multiple of 32, evaluation gets through exactly when every clause holds in the first patch. -/
theorem evalClauses_iff (cfg : VCfg) (np : Nat) (x : List Byte) (hnp : 2 ≤ np) (hm : cfg.nLits % 32 ≠ 0) (hg : Good cfg.nLits x 0) :
    ∀ cs : List VConvClause, ckEvalClauses cfg np x cs ≠ none ↔ ∀ c ∈ cs, avxConvEvalPatch cfg c.base.row (memOf x) = true := by
  intro cs
  induction cs with
  | nil => simp [ckEvalClauses]
  | cons c cs ih =>
    have h0 := evalPatch_eq cfg (by omega) c.base.row x 0 (by omega) (by simpa using hg)
    have hsh : shiftMem (memOf x) (0 * cfg.nLits) = memOf x := by
      funext a
      simp [shiftMem]
    rw [hsh] at h0
    obtain ⟨r, rfl⟩ : ∃ r, np = r + 2 := ⟨np - 2, by omega⟩
    by_cases hc : avxConvEvalPatch cfg c.base.row (memOf x) = true
    · have : ckEvalClause cfg (r + 2) x c = some { c with base := { c.base with out := 1 } } := by
        unfold ckEvalClause
        rw [ckAny, bind_of h0, hc]
        rfl
      rw [ckEvalClauses, bind_of this]
      simp only [List.mem_cons, forall_eq_or_imp, hc, true_and, ← ih]
      cases ckEvalClauses cfg (r + 2) x cs with
      | none => exact Iff.rfl
      | some _ => simp
    · have : ckEvalClause cfg (r + 2) x c = none := by
        unfold ckEvalClause
        rw [ckAny, bind_of h0, if_neg hc, ckAny, evalPatch_none cfg c.base.row x (0 + 1) (by omega)]
        rfl
      rw [ckEvalClauses, this]
      simp [hc]

/-- The test of a single patch, in terms of the clause. -/
theorem evalPatch_fires (cfg : VCfg) (hn : 0 < cfg.nLits) (x : Mem) (hx : Binary (unpadExample cfg.nLits x)) (c : VConvClause) :
    avxConvEvalPatch cfg c.base.row x = true ↔ Fires (unpadExample cfg.nLits x) (learned (unpad cfg.nLits c.base)) := by
  have h := C41_avx2_eval cfg 1 x hn (by simpa using hx) c
  have h2 := CE.convEval_out cfg.nLits 1 (unpadExample (1 * cfg.nLits) x) (by simpa using hx) (by simp [unpadExample]) (unpadConv cfg.nLits c)
    (by simp [Shaped, unpadConv, unpad])
  rw [← h] at h2
  have h3 : (unpadConv cfg.nLits (avxConvEvalClause cfg 1 x c)).base.out =
      if avxConvEvalPatch cfg c.base.row x = true then 1 else 0 := by
    show anyPatch (fun k => avxConvEvalPatch cfg c.base.row (shiftMem x (k * cfg.nLits))) 0 1 = _
    have : shiftMem x (0 * cfg.nLits) = x := by funext a; simp [shiftMem]
    simp only [anyPatch, this]
  rw [h3] at h2
  have h4 : patchLits cfg.nLits (unpadExample (1 * cfg.nLits) x) 0 = unpadExample cfg.nLits x := by
    apply List.ext_getElem
    · simp [patchLits, unpadExample]
    · intro i h1 h2
      have : i < cfg.nLits := by simpa [patchLits] using h1
      simp [patchLits, unpadExample, this]
  have h5 : (if avxConvEvalPatch cfg c.base.row x = true then 1 else 0) = 1 ↔ avxConvEvalPatch cfg c.base.row x = true := by
    split <;> simp [*]
  rw [← h5, h2]
  unfold FiresSomewhere Fires
  constructor
  · rintro ⟨a, k, hk, hs⟩
    obtain rfl : k = 0 := by omega
    rw [h4] at hs
    exact ⟨a, hs⟩
  · rintro ⟨a, hs⟩
    exact ⟨a, 0, by omega, by rw [h4]; exact hs⟩

end GT.CF
