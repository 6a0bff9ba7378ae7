import Verif.Lemmas.Pace
import Verif.Lemmas.SparseStep

/-! # Lemmas: how far training moves the states of literals of sparse blocks (C106) -/

namespace GT.Pace
open GT GT.Spec

/-! ### Uses whose examples have a property -/

/-- `Paced` for examples with the property `Q`. -/
structure PacedOn {B E : Type} (be : Backend B E) (Q : E → Prop) (R : Nat → B → B → Prop) : Prop where
  refl : ∀ n b, R n b b
  trans : ∀ m n b c d, R m b c → R n c d → R (m + n) b d
  train : ∀ b x fb, Q x → R 1 b (be.trainUpdate (be.trainExample b x) x fb)
  eval : ∀ b x, R 0 b (be.evalExample b x)
  trainable : ∀ b, be.trainable b = true

section
variable {B E : Type} {be : Backend B E} {Q : E → Prop} {R : Nat → B → B → Prop}

theorem on_refl (h : PacedOn be Q R) (n : Nat) (bs : List B) : List.Forall₂ (R n) bs bs := List.forall₂_same.2 fun b _ => h.refl n b

theorem on_trans (h : PacedOn be Q R) {m n : Nat} {a b c : List B} (h1 : List.Forall₂ (R m) a b) (h2 : List.Forall₂ (R n) b c) :
    List.Forall₂ (R (m + n)) a c :=
  forall₂_comp (R := R m) (S := R n) (T := R (m + n)) (fun _ _ _ p q => h.trans m n _ _ _ p q) h1 h2

theorem on_indices (h : PacedOn be Q R) (smp : List Rat → Rat → Nat) (data : List (E × Nat)) (hq : ∀ d ∈ data, Q d.1) :
    ∀ (is : List Nat) (e : Exec B), List.Forall₂ (R is.length) e.blocks (Exec.trainIndices be smp data is e).blocks := by
  intro is
  induction is with
  | nil => intro e; exact on_refl h 0 _
  | cons i is ih =>
    intro e
    simp only [Exec.trainIndices]
    rw [List.length_cons, Nat.add_comm]
    cases hd : data[i]? with
    | none => exact on_trans h (on_refl h 1 _) (ih e)
    | some d =>
      refine on_trans h (b := (e.trainOne be smp d.1 d.2).blocks) ?_ (ih _)
      rw [OnePatch.trainOne_blocks be smp e d.1 d.2 h.trainable, List.forall₂_map_right_iff]
      exact List.forall₂_same.2 fun b _ => h.train b _ _ (hq d (List.mem_of_getElem? hd))

theorem on_evalLoop (h : PacedOn be Q R) : ∀ (xs : List E) (e : Exec B), List.Forall₂ (R 0) e.blocks (Exec.evalLoop be xs e).1.blocks := by
  intro xs
  induction xs with
  | nil => intro e; exact on_refl h 0 _
  | cons x xs ih =>
    intro e
    refine on_trans h (m := 0) (n := 0) (b := (e.evalOne be x).1.blocks) ?_ (ih _)
    rw [OnePatch.evalOne_blocks, List.forall₂_map_right_iff]
    exact List.forall₂_same.2 fun b _ => h.eval b _

theorem on_use (h : PacedOn be Q R) (smp : List Rat → Rat → Nat) (u : TMUse E) (hu : u.All Q) (e : Exec B) :
    List.Forall₂ (R u.size) e.blocks (useOnce be smp e u).1.blocks := by
  cases u with
  | epoch shuffle data =>
    have h1 := on_indices h smp data hu (((shuffle (List.range data.length)).take data.length).drop 0)
      { e with fb := e.fb.resetCounter, index := shuffle (List.range data.length) }
    have hl : (((shuffle (List.range data.length)).take data.length).drop 0).length ≤ data.length := by
      simp only [List.drop_zero, List.length_take]
      omega
    have h2 := on_trans h h1 (on_refl h (data.length - (((shuffle (List.range data.length)).take data.length).drop 0).length) _)
    rw [Nat.add_sub_cancel' hl] at h2
    exact h2
  | predict data =>
    simp only [useOnce, Exec.evalPredict, ne_eq, not_true_eq_false, if_false]
    exact on_evalLoop h data e

theorem on_uses (h : PacedOn be Q R) (smp : List Rat → Rat → Nat) : ∀ (us : List (TMUse E)), (∀ u ∈ us, u.All Q) → ∀ e : Exec B,
    List.Forall₂ (R (examplesShown us)) e.blocks (afterUses be smp us e).blocks := by
  intro us
  induction us with
  | nil => intro _ e; exact on_refl h 0 _
  | cons u us ih =>
    intro hu e
    have := on_trans h (on_use h smp u (hu u (List.mem_cons_self ..)) e)
      (ih (fun v hv => hu v (List.mem_cons_of_mem _ hv)) (useOnce be smp e u).1)
    simpa only [examplesShown, List.map_cons, List.sum_cons, afterUses, List.foldl_cons] using this

end

/-! ### One half of a clause -/

/-- Entry by entry, the same literals, states moved by at most 1 and only for literals in `p`. -/
def Eased (p : Nat → Prop) (h h' : Half) : Prop :=
  List.Forall₂ (fun e e' : Nat × Int => e'.1 = e.1 ∧ (¬ p e.1 → e'.2 = e.2) ∧ Step e.2 e'.2) h h'

theorem eased_refl (p : Nat → Prop) (h : Half) : Eased p h h := List.forall₂_same.2 fun _ _ => ⟨rfl, fun _ => rfl, step_refl _⟩

theorem eased_or {p q : Nat → Prop} (hpq : ∀ l, p l → ¬ q l) {a b c : Half} (h : Eased p a b) (h' : Eased q b c) :
    Eased (fun l => p l ∨ q l) a c := by
  refine forall₂_comp (fun x y z hx hy => ?_) h h'
  obtain ⟨a1, a2, a3⟩ := hx
  obtain ⟨b1, b2, b3⟩ := hy
  refine ⟨b1.trans a1, fun hn => ?_, ?_⟩
  · rw [b2 (by rw [a1]; exact fun h => hn (.inr h)), a2 fun h => hn (.inl h)]
  · by_cases hp : p x.1
    · rw [b2 (by rw [a1]; exact hpq _ hp)]; exact a3
    · rw [a2 hp] at b3; exact b3

theorem eased_mono {p q : Nat → Prop} (hpq : ∀ l, p l → q l) {a b : Half} (h : Eased p a b) : Eased q a b :=
  List.Forall₂.imp (fun _ _ ⟨h1, h2, h3⟩ => ⟨h1, fun hn => h2 fun hp => hn (hpq _ hp), h3⟩) h

theorem updFirst_eased (f : Int → Rng → Int × Rng) (hf : ∀ v g, Step v (f v g).1) (l : Nat) : ∀ (h : Half) (g : Rng),
    Eased (· = l) h (updFirst f l h g).1 := by
  intro h
  induction h with
  | nil => intro g; exact .nil
  | cons e h ih =>
    intro g
    simp only [updFirst]
    split
    · rename_i he
      exact .cons ⟨rfl, fun hn => absurd he hn, hf _ _⟩ (eased_refl (· = l) h)
    · exact .cons ⟨rfl, fun _ => rfl, step_refl _⟩ (ih g)

theorem updAll_eased (p : Nat → Bool) (f : Int → Rng → Int × Rng) (hf : ∀ v g, Step v (f v g).1) : ∀ (h : Half) (g : Rng),
    Eased (fun l => p l = true) h (updAll p f h g).1 := by
  intro h
  induction h with
  | nil => intro g; exact .nil
  | cons e h ih =>
    intro g
    simp only [updAll]
    split
    · rename_i he
      exact .cons ⟨rfl, fun hn => absurd he hn, hf _ _⟩ (ih _)
    · exact .cons ⟨rfl, fun _ => rfl, step_refl _⟩ (ih g)

theorem step_plus (v : Int) (h : v < 127) : Step v (wrap8 (v + 1)) := by intro h1 h2; unfold wrap8; omega

theorem step_minus (v : Int) (h : v > -127) : Step v (wrap8 (v - 1)) := by intro h1 h2; unfold wrap8; omega

theorem stepUp_step (cfg : SCfg) (v : Int) (g : Rng) : Step v (stepUp cfg v g).1 := by
  unfold stepUp
  split
  · rename_i h
    split
    · exact step_plus v h
    · dsimp only
      split
      · exact step_plus v h
      · exact step_refl v
  · exact step_refl v

theorem stepDown_step (cfg : SCfg) (v : Int) (g : Rng) : Step v (stepDown cfg v g).1 := by
  unfold stepDown
  split
  · rename_i h
    dsimp only
    split
    · exact step_minus v h
    · exact step_refl v
  · exact step_refl v

theorem stepForget_step (cfg : SCfg) (v : Int) (g : Rng) : Step v (stepForget cfg v g).1 := by
  unfold stepForget
  dsimp only
  split
  · rename_i h; exact step_minus v h.2
  · exact step_refl v

theorem stepReject_step (v : Int) (g : Rng) : Step v (stepReject v g).1 := step_t2 v

theorem t1aLits_eased (cfg : SCfg) : ∀ (x : List Nat), x.Nodup → ∀ (pos neg : Half) (al : List Nat × Nat) (g : Rng),
    Eased (· ∈ x) pos (t1aLits cfg x pos neg al g).1 ∧ Eased (· ∈ x) neg (t1aLits cfg x pos neg al g).2.1 := by
  intro x
  induction x with
  | nil => intro _ pos neg al g; exact ⟨eased_refl _ _, eased_refl _ _⟩
  | cons l x ih =>
    intro hn pos neg al g
    obtain ⟨hl, hx⟩ := List.nodup_cons.1 hn
    have h := ih hx (updFirst (stepUp cfg) l pos g).1 (updFirst (stepDown cfg) l neg (updFirst (stepUp cfg) l pos g).2.1).1
      (if (updFirst (stepUp cfg) l pos g).2.2 then al else updateAL cfg al l)
      (updFirst (stepDown cfg) l neg (updFirst (stepUp cfg) l pos g).2.1).2.1
    have hd : ∀ k, k = l → ¬ k ∈ x := by rintro k rfl; exact hl
    have hm : ∀ k, k = l ∨ k ∈ x → k ∈ l :: x := fun k => List.mem_cons.2
    simp only [t1aLits]
    exact ⟨eased_mono hm (eased_or hd (updFirst_eased _ (stepUp_step cfg) l pos g) h.1),
      eased_mono hm (eased_or hd (updFirst_eased _ (stepDown_step cfg) l neg _) h.2)⟩

/-- The literals that can be taken up get this state. -/
def freshState (cfg : SCfg) : Int := wrap8 (cfg.lowerTA + 5)

theorem entries_refl (n : Nat) (f : Int) (h : Half) : EntriesMovedAtMost n f h h :=
  fun hh e he => ⟨hh e he, .inl ⟨e, he, rfl, by omega⟩⟩

theorem entries_trans {m n : Nat} {f : Int} {a b c : Half} (h : EntriesMovedAtMost m f a b) (h' : EntriesMovedAtMost n f b c) :
    EntriesMovedAtMost (m + n) f a c := by
  intro ha e he
  have hb := h ha
  obtain ⟨h1, h2⟩ := h' (fun e he => (hb e he).1) e he
  refine ⟨h1, ?_⟩
  rcases h2 with ⟨d, hd, h3, h4⟩ | h2
  · rcases (hb d hd).2 with ⟨d', hd', h5, h6⟩ | h5
    · exact .inl ⟨d', hd', h5.trans h3, by omega⟩
    · exact .inr (by omega)
  · exact .inr (by omega)

theorem entries_of_eased {p : Nat → Prop} {f : Int} : ∀ {h h' : Half}, Eased p h h' → EntriesMovedAtMost 1 f h h' := by
  intro h h' hh
  induction hh with
  | nil => intro _ e he; cases he
  | cons h1 _ ih =>
    intro hb e he
    rcases List.mem_cons.1 he with rfl | he
    · obtain ⟨a, b⟩ := hb _ (List.mem_cons_self ..)
      obtain ⟨c1, c2, c3⟩ := h1.2.2 a b
      exact ⟨⟨c2, c3⟩, .inl ⟨_, List.mem_cons_self .., h1.1.symm, c1⟩⟩
    · obtain ⟨h3, h4⟩ := ih (fun e he => hb e (List.mem_cons_of_mem _ he)) e he
      refine ⟨h3, h4.imp_left ?_⟩
      rintro ⟨d, hd, h5⟩
      exact ⟨d, List.mem_cons_of_mem _ hd, h5⟩

theorem entries_sub {n : Nat} {f : Int} {a b c : Half} (h : EntriesMovedAtMost n f a b) (hc : ∀ e ∈ c, e ∈ b) : EntriesMovedAtMost n f a c :=
  fun ha e he => h ha e (hc e he)

theorem entries_track (cfg : SCfg) (l : Nat) {n : Nat} {a b : Half} (h : EntriesMovedAtMost n (freshState cfg) a b) :
    EntriesMovedAtMost n (freshState cfg) a (track cfg l b) := by
  unfold track
  split
  · exact h
  · split
    · intro ha e he
      rcases List.mem_append.1 he with he | he
      · exact h ha e he
      · rw [List.mem_singleton.1 he]
        refine ⟨?_, .inr ?_⟩
        · show -128 ≤ wrap8 _ ∧ wrap8 _ ≤ 127
          unfold wrap8; omega
        · show (freshState cfg - freshState cfg).natAbs ≤ n
          omega
    · exact h

theorem entries_active (cfg : SCfg) (x : List Nat) {n : Nat} : ∀ (as : List Nat) {a b p q : Half},
    EntriesMovedAtMost n (freshState cfg) a p → EntriesMovedAtMost n (freshState cfg) b q →
    EntriesMovedAtMost n (freshState cfg) a (t2Active cfg x as p q).1 ∧ EntriesMovedAtMost n (freshState cfg) b (t2Active cfg x as p q).2 := by
  intro as
  induction as with
  | nil => intro a b p q h h'; exact ⟨h, h'⟩
  | cons k as ih =>
    intro a b p q h h'
    simp only [t2Active]
    split
    · exact ih h (entries_track cfg k h')
    · exact ih (entries_track cfg k h) h'

/-! ### One clause -/

/-- Both halves of a sparse clause moved by at most `n`. -/
def SHalves (cfg : SCfg) (n : Nat) (c d : SClause) : Prop :=
  EntriesMovedAtMost n (freshState cfg) c.pos d.pos ∧ EntriesMovedAtMost n (freshState cfg) c.neg d.neg

theorem sHalves_refl (cfg : SCfg) (n : Nat) (c : SClause) : SHalves cfg n c c := ⟨entries_refl _ _ _, entries_refl _ _ _⟩

theorem sHalves_trans {cfg : SCfg} {m n : Nat} {a b c : SClause} (h : SHalves cfg m a b) (h' : SHalves cfg n b c) : SHalves cfg (m + n) a c :=
  ⟨entries_trans h.1 h'.1, entries_trans h.2 h'.2⟩

theorem sUpdate_entries (cfg : SCfg) (x : List Nat) (hx : x.Nodup) (j : Nat) (t : Int) (c : SClause) (al : AL) (g : Rng) :
    SHalves cfg 1 c (sUpdateWith cfg x j t c al g).1 := by
  simp only [sUpdateWith, sClauseUpdate]
  generalize al.getD j ([], 0) = a
  generalize (if c.w.getD j 0 ≥ 0 then (1 : Int) else -1) = s
  split
  · split
    · have h := t1aLits_eased cfg x hx c.pos c.neg a g
      have hd : ∀ k, k ∈ x → ¬ (!decide (k ∈ x)) = true := by intro k hk; simp [hk]
      exact ⟨entries_sub (entries_of_eased (eased_or hd h.1 (updAll_eased _ _ (stepDown_step cfg) _ _))) fun e he => (prune_sublist _ _).subset he,
        entries_sub (entries_of_eased (eased_or hd h.2 (updAll_eased _ _ (stepUp_step cfg) _ _))) fun e he => (prune_sublist _ _).subset he⟩
    · split
      · exact ⟨entries_sub (entries_of_eased (updAll_eased _ _ (stepForget_step cfg) _ _)) fun e he => (prune_sublist _ _).subset he,
          entries_sub (entries_of_eased (updAll_eased _ _ (stepForget_step cfg) _ _)) fun e he => (prune_sublist _ _).subset he⟩
      · exact sHalves_refl cfg 1 c
  · split
    · have h := entries_active cfg x a.1 (n := 1)
        (entries_of_eased (updAll_eased (fun l => !decide (l ∈ x)) stepReject stepReject_step c.pos g))
        (entries_of_eased (updAll_eased (fun l => decide (l ∈ x)) stepReject stepReject_step c.neg g))
      exact ⟨entries_sub h.1 fun e he => (sortHalf_spec _).1.subset he, entries_sub h.2 fun e he => (sortHalf_spec _).1.subset he⟩
    · exact sHalves_refl cfg 1 c

theorem sTrain_entries (cfg : SCfg) (x : List Nat) (hx : x.Nodup) (fb : Feedback) (c : SClause) (al : AL) (g : Rng) :
    SHalves cfg 2 c (sTrainClause cfg x fb c al g).1 := by
  have hg : SHalves cfg 0 c (sBudgetGate cfg c) := by
    simp only [sBudgetGate]; split
    · split <;> exact sHalves_refl cfg 0 _
    · exact sHalves_refl cfg 0 _
  simp only [sTrainClause]
  refine sHalves_trans (m := 1) (n := 1) (b := (if g.next.1 < fb.posProb then sUpdateWith cfg x fb.posClass 1 (sBudgetGate cfg c) al g.next.2
    else (sBudgetGate cfg c, al, g.next.2)).1) (sHalves_trans (m := 0) (n := 1) hg ?_) ?_
  · split
    · exact sUpdate_entries cfg x hx _ _ _ _ _
    · exact sHalves_refl cfg 1 _
  · generalize (if g.next.1 < fb.posProb then sUpdateWith cfg x fb.posClass 1 (sBudgetGate cfg c) al g.next.2
    else (sBudgetGate cfg c, al, g.next.2)) = a
    split
    · exact sUpdate_entries cfg x hx _ _ _ _ _
    · exact sHalves_refl cfg 1 _

/-! ### One block -/

theorem sSet_halves (cfg : SCfg) (x : List Nat) (c : SClause) : (sSetClause cfg x c).pos = c.pos ∧ (sSetClause cfg x c).neg = c.neg := by
  simp only [sSetClause]; split <;> exact ⟨rfl, rfl⟩

theorem sEval_halves (x : List Nat) (c : SClause) : (sEvalClause x c).pos = c.pos ∧ (sEvalClause x c).neg = c.neg := by
  simp only [sEvalClause]; split <;> exact ⟨rfl, rfl⟩

theorem sClauses_entries (cfg : SCfg) (x : List Nat) (hx : x.Nodup) (fb : Feedback) : ∀ (cs : List SClause) (al : AL) (g : Rng),
    List.Forall₂ (SHalves cfg 2) cs (sTrainClauses cfg x fb cs al g).1 := by
  intro cs
  induction cs with
  | nil => intro al g; exact .nil
  | cons c cs ih => intro al g; exact .cons (sTrain_entries cfg x hx fb c al g) (ih _ _)

/-- The settings stayed and the states of all clauses moved by at most `2 * n`. -/
def SMoved (n : Nat) (b d : SBlock) : Prop := d.cfg = b.cfg ∧ List.Forall₂ (SHalves b.cfg (2 * n)) b.clauses d.clauses

theorem sMoved_refl (n : Nat) (b : SBlock) : SMoved n b b := ⟨rfl, List.forall₂_same.2 fun c _ => sHalves_refl _ _ c⟩

theorem sMoved_trans {m n : Nat} {b c d : SBlock} (h : SMoved m b c) (h' : SMoved n c d) : SMoved (m + n) b d := by
  refine ⟨h'.1.trans h.1, ?_⟩
  have h2 := h'.2
  rw [h.1] at h2
  exact forall₂_comp (R := SHalves b.cfg (2 * m)) (S := SHalves b.cfg (2 * n)) (T := SHalves b.cfg (2 * (m + n))) (fun _ _ _ p q => by
    have := sHalves_trans p q
    rwa [← Nat.mul_add] at this) h.2 h2

theorem sparse_entries : PacedOn sparseBackend List.Nodup SMoved where
  refl := sMoved_refl
  trans m n b c d h h' := sMoved_trans h h'
  train b x fb hx := by
    refine sMoved_trans (m := 0) (n := 1) (c := b.apply (.trainExample x)) ⟨rfl, ?_⟩ ⟨rfl, sClauses_entries _ x hx fb _ _ _⟩
    simp only [SBlock.apply]
    rw [List.forall₂_map_right_iff]
    exact List.forall₂_same.2 fun c _ => by
      unfold SHalves
      rw [(sSet_halves b.cfg x c).1, (sSet_halves b.cfg x c).2]
      exact sHalves_refl _ _ c
  eval b x := by
    refine ⟨rfl, ?_⟩
    simp only [sparseBackend, SBlock.apply]
    rw [List.forall₂_map_right_iff]
    exact List.forall₂_same.2 fun c _ => by
      unfold SHalves
      rw [(sEval_halves x c).1, (sEval_halves x c).2]
      exact sHalves_refl _ _ c
  trainable _ := rfl

end GT.Pace
