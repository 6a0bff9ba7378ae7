import Verif.Spec.Recode
import Verif.Lemmas.OnePatch
import Verif.Props.Dense

/-! # Lemmas: the coding of the features does not matter (C100) -/

namespace GT.Recode
open GT GT.Spec GT.OnePatch

/-! ## A dense machine built backwards from the end of a history -/

theorem like_trans {a b c : DBlock} (h : Like a b) (h' : Like b c) : Like a c :=
  ⟨h'.nLits.trans h.nLits, h'.nClasses.trans h.nClasses, h'.cfg.trans h.cfg, h'.faces.trans h.faces, h'.votes.trans h.votes,
    h'.fast.trans h.fast, fun i => (h'.rng i).trans (h.rng i)⟩

theorem backward {B E : Type} {be : Backend B E} (T : B → Rng → Prop) (mk : B → Rng → DBlock) (φ : E → List Nat) (ok : B → E → Prop)
    (left : ∀ b, be.trainable b = true)
    (okT : ∀ b x fb y, ok b x → ok b y → ok (be.trainUpdate (be.trainExample b x) x fb) y)
    (okE : ∀ b x y, ok b x → ok b y → ok (be.evalExample b x) y)
    (hId : ∀ b, ∃ g, T b g)
    (vE : ∀ b x g, ok b x → be.votes (be.evalExample b x) = ((mk b g).apply (.evalExample (φ x))).votes)
    (vT : ∀ b x g, ok b x → be.votes (be.trainExample b x) = ((mk b g).apply (.trainExample (φ x))).votes)
    (sE : ∀ b x g', ok b x → T (be.evalExample b x) g' →
      ∃ g, T b g ∧ Like (mk (be.evalExample b x) g') ((mk b g).apply (.evalExample (φ x))))
    (sT : ∀ b x fb g', ok b x → T (be.trainUpdate (be.trainExample b x) x fb) g' →
      ∃ g, T b g ∧ Like (mk (be.trainUpdate (be.trainExample b x) x fb) g') ((mk b g).trainStep (φ x) fb))
    (smp : List Rat → Rat → Nat) (calls : List (E × Option Nat)) (e : Exec B) (hok : ∀ b ∈ e.blocks, ∀ c ∈ calls, ok b c.1) :
    ∃ gs : List Rng, List.Forall₂ T e.blocks gs ∧ ∀ k,
      let d : Exec DBlock := ⟨e.fb, List.zipWith mk e.blocks gs, e.index⟩
      let dc := (calls.take k).map fun c => (φ c.1, c.2)
      (runCalls denseBackend smp dc d).2 = (runCalls be smp (calls.take k) e).2 ∧
      (runCalls denseBackend smp dc d).1.fb = (runCalls be smp (calls.take k) e).1.fb ∧
      List.Forall₂ (fun b d => ∃ g, Like (mk b g) d) (runCalls be smp (calls.take k) e).1.blocks (runCalls denseBackend smp dc d).1.blocks := by
  induction calls generalizing e with
  | nil =>
    choose f hf using hId
    refine ⟨e.blocks.map f, ?_, fun k => ?_⟩
    · rw [List.forall₂_map_right_iff]
      exact List.forall₂_same.2 fun b _ => hf b
    · rw [List.take_nil]
      refine ⟨rfl, rfl, ?_⟩
      have : ∀ bs : List B, List.Forall₂ (fun b d => ∃ g, Like (mk b g) d) bs (List.zipWith mk bs (bs.map f)) := by
        intro bs
        induction bs with
        | nil => exact .nil
        | cons b bs ih => exact .cons ⟨f b, like_refl _⟩ ih
      exact this _
  | cons c calls ih =>
    obtain ⟨x, l⟩ := c
    have hx : ∀ b ∈ e.blocks, ok b x := fun b hb => hok b hb _ (List.mem_cons_self ..)
    have hr : ∀ b ∈ e.blocks, ∀ c ∈ calls, ok b c.1 := fun b hb c hc => hok b hb c (List.mem_cons_of_mem _ hc)
    have base : ∀ gs : List Rng, List.Forall₂ T e.blocks gs →
        List.Forall₂ (fun b d => ∃ g, Like (mk b g) d) e.blocks (List.zipWith mk e.blocks gs) := fun gs h =>
      zipWith_rel mk h (P := fun _ => True) (fun _ _ => trivial) fun b g _ => ⟨g, like_refl _⟩
    cases l with
    | none =>
      obtain ⟨gs', hgs', hrun⟩ := ih (e.evalOne be x).1 (by
        intro b hb c hc
        rw [evalOne_blocks] at hb
        obtain ⟨b', hb', rfl⟩ := List.mem_map.1 hb
        exact okE b' x c.1 (hx b' hb') (hr b' hb' c hc))
      rw [evalOne_blocks] at hgs'
      obtain ⟨gs, hgs, hS⟩ := forall₂_choose (S := fun b g g' =>
        Like (mk (be.evalExample b x) g') ((mk b g).apply (.evalExample (φ x))))
        (fun b => be.evalExample b x) (fun b => ok b x) hx hgs' (fun b g' hb ht => sE b x g' hb ht)
      refine ⟨gs, hgs, fun k => ?_⟩
      cases k with
      | zero => exact ⟨rfl, rfl, base gs hgs⟩
      | succ k =>
        have hl : gs.length = e.blocks.length := hgs.length_eq.symm
        have hl' : gs'.length = e.blocks.length := by simpa using hgs'.length_eq.symm
        have hv := exampleLoop_fb (be.evalExample · x) be.votes (denseBackend.evalExample · (φ x)) denseBackend.votes e.blocks
          (List.zipWith mk e.blocks gs) (zipWith_rel mk hgs hx fun b g hb => vE b x g hb) e.fb.reset
        have hfb : (Exec.evalOne denseBackend (⟨e.fb, List.zipWith mk e.blocks gs, e.index⟩ : Exec DBlock) (φ x)).1.fb =
            (e.evalOne be x).1.fb := hv.symm
        have hpr : (Exec.evalOne denseBackend (⟨e.fb, List.zipWith mk e.blocks gs, e.index⟩ : Exec DBlock) (φ x)).2 =
            (e.evalOne be x).2 := by
          show FB.predict _ = FB.predict _
          rw [hv]
        have hlike : List.Forall₂ Like (List.zipWith mk (e.evalOne be x).1.blocks gs')
            (Exec.evalOne denseBackend (⟨e.fb, List.zipWith mk e.blocks gs, e.index⟩ : Exec DBlock) (φ x)).1.blocks := by
          rw [evalOne_blocks, evalOne_blocks]
          simp only [List.map_zipWith, List.zipWith_map_left]
          exact zip_like (fun b g => (mk b g).apply (.evalExample (φ x))) (fun b g => mk (be.evalExample b x) g) hS hl hl'
        obtain ⟨s1, s2, s3⟩ := run_sim like_sim smp ((calls.take k).map fun c => (φ c.1, c.2))
          ⟨(e.evalOne be x).1.fb, List.zipWith mk (e.evalOne be x).1.blocks gs', (e.evalOne be x).1.index⟩ _ hfb hlike
          (fun _ _ _ _ => trivial)
        obtain ⟨r1, r2, r3⟩ := hrun k
        simp only [List.take_succ_cons, List.map_cons, runCalls]
        refine ⟨by rw [hpr, s1, r1], by rw [s2, r2], ?_⟩
        exact forall₂_trans (R := fun b d => ∃ g, Like (mk b g) d) (S := Like) (T := fun b d => ∃ g, Like (mk b g) d)
          (fun _ _ _ h h' => ⟨h.choose, like_trans h.choose_spec h'⟩) r3 s3
    | some y =>
      obtain ⟨gs', hgs', hrun⟩ := ih (e.trainOne be smp x y) (by
        intro b hb c hc
        rw [trainOne_blocks be smp e x y left] at hb
        obtain ⟨b', hb', rfl⟩ := List.mem_map.1 hb
        exact okT b' x _ c.1 (hx b' hb') (hr b' hb' c hc))
      rw [trainOne_blocks be smp e x y left] at hgs'
      obtain ⟨fb, hfbk⟩ : ∃ fb, fb = (e.trainOne be smp x y).fb.feedback := ⟨_, rfl⟩
      rw [← hfbk] at hgs'
      obtain ⟨gs, hgs, hS⟩ := forall₂_choose (S := fun b g g' =>
        Like (mk (be.trainUpdate (be.trainExample b x) x fb) g') ((mk b g).trainStep (φ x) fb))
        (fun b => be.trainUpdate (be.trainExample b x) x fb) (fun b => ok b x) hx hgs' (fun b g' hb ht => sT b x fb g' hb ht)
      refine ⟨gs, hgs, fun k => ?_⟩
      cases k with
      | zero => exact ⟨rfl, rfl, base gs hgs⟩
      | succ k =>
        have hl : gs.length = e.blocks.length := hgs.length_eq.symm
        have hl' : gs'.length = e.blocks.length := by simpa using hgs'.length_eq.symm
        have hv := exampleLoop_fb (be.trainExample · x) be.votes (denseBackend.trainExample · (φ x)) denseBackend.votes e.blocks
          (List.zipWith mk e.blocks gs) (zipWith_rel mk hgs hx fun b g hb => vT b x g hb) e.fb.reset
        have hfb : (Exec.trainOne denseBackend smp (⟨e.fb, List.zipWith mk e.blocks gs, e.index⟩ : Exec DBlock) (φ x) y).fb =
            (e.trainOne be smp x y).fb := by
          simp only [Exec.trainOne]
          rw [hv]
        have hlike : List.Forall₂ Like (List.zipWith mk (e.trainOne be smp x y).blocks gs')
            (Exec.trainOne denseBackend smp (⟨e.fb, List.zipWith mk e.blocks gs, e.index⟩ : Exec DBlock) (φ x) y).blocks := by
          rw [trainOne_blocks denseBackend smp _ _ _ fun _ => rfl, hfb, trainOne_blocks be smp e x y left, ← hfbk]
          simp only [List.map_zipWith, List.zipWith_map_left]
          exact zip_like (fun b g => (mk b g).trainStep (φ x) fb)
            (fun b g => mk (be.trainUpdate (be.trainExample b x) x fb) g) hS hl hl'
        obtain ⟨s1, s2, s3⟩ := run_sim like_sim smp ((calls.take k).map fun c => (φ c.1, c.2))
          ⟨(e.trainOne be smp x y).fb, List.zipWith mk (e.trainOne be smp x y).blocks gs', (e.trainOne be smp x y).index⟩ _ hfb hlike
          (fun _ _ _ _ => trivial)
        obtain ⟨r1, r2, r3⟩ := hrun k
        simp only [List.take_succ_cons, List.map_cons, runCalls]
        refine ⟨by rw [s1, r1], by rw [s2, r2], ?_⟩
        exact forall₂_trans (R := fun b d => ∃ g, Like (mk b g) d) (S := Like) (T := fun b d => ∃ g, Like (mk b g) d)
          (fun _ _ _ h h' => ⟨h.choose, like_trans h.choose_spec h'⟩) r3 s3

/-! ## The numbers a computation reads -/

/-- The next numbers of the stream. -/
def Reads : Rng → List Rat → Prop
  | _, [] => True
  | g, a :: L => g.next.1 = a ∧ Reads g.next.2 L

/-- The stream after `k` numbers. -/
def adv (g : Rng) (k : Nat) : Rng := ⟨g.draw, g.pos + k⟩

theorem adv_add (g : Rng) (k m : Nat) : adv (adv g k) m = adv g (k + m) := by simp [adv, Nat.add_assoc]

theorem adv_next (g : Rng) (k : Nat) : adv g.next.2 k = adv g (k + 1) := by
  simp only [adv, Rng.next]; congr 1; omega

theorem reads_append (g : Rng) (L M : List Rat) : Reads g (L ++ M) ↔ Reads g L ∧ Reads (adv g L.length) M := by
  induction L generalizing g with
  | nil => simp [Reads, adv]
  | cons a L ih =>
    simp only [List.cons_append, Reads, ih, List.length_cons, adv_next, and_assoc]

theorem reads_iff (g : Rng) (L : List Rat) : Reads g L ↔ numbers g L.length = L := by
  induction L generalizing g with
  | nil => simp [Reads, numbers]
  | cons a L ih =>
    have : numbers g (L.length + 1) = g.next.1 :: numbers g.next.2 L.length := by
      simp only [numbers, List.range_succ_eq_map, List.map_cons, List.map_map, Rng.next]
      refine congrArg₂ _ rfl (List.map_congr_left fun i _ => ?_)
      simp only [Function.comp_apply, Nat.succ_eq_add_one]
      congr 1; omega
    simp only [Reads, ih, List.length_cons, this, List.cons.injEq]

/-- Two computations with related results, the second reading the numbers of the first in another order. -/
def Twin {α β : Type} (R : α → β → Prop) (f : Rng → α × Rng) (f' : Rng → β × Rng) : Prop :=
  ∀ g, ∃ L L' b, Reads g L ∧ L'.Perm L ∧ (f g).2 = adv g L.length ∧ R (f g).1 b ∧
    ∀ g', Reads g' L' → f' g' = (b, adv g' L'.length)

theorem twin_ret {α β : Type} {R : α → β → Prop} {a : α} {b : β} (h : R a b) : Twin R (fun g => (a, g)) (fun g => (b, g)) :=
  fun _ => ⟨[], [], b, trivial, .nil, rfl, h, fun _ _ => rfl⟩

theorem twin_bind {α β γ δ : Type} {R : α → β → Prop} {S : γ → δ → Prop} {f : Rng → α × Rng} {f' : Rng → β × Rng}
    {h : α → Rng → γ × Rng} {h' : β → Rng → δ × Rng} (hf : Twin R f f') (hh : ∀ a b, R a b → Twin S (h a) (h' b)) :
    Twin S (fun g => h (f g).1 (f g).2) (fun g => h' (f' g).1 (f' g).2) := by
  intro g
  obtain ⟨L, L', b, r1, p1, e1, q1, k1⟩ := hf g
  obtain ⟨M, M', d, r2, p2, e2, q2, k2⟩ := hh (f g).1 b q1 (f g).2
  rw [e1] at r2 e2 q2
  refine ⟨L ++ M, L' ++ M', d, (reads_append ..).2 ⟨r1, r2⟩, p1.append p2, ?_, ?_, ?_⟩
  · show (h (f g).1 (f g).2).2 = _
    rw [e1, e2, adv_add, List.length_append]
  · show S (h (f g).1 (f g).2).1 d
    rw [e1]; exact q2
  · intro g' hg'
    obtain ⟨a1, a2⟩ := (reads_append ..).1 hg'
    show h' (f' g').1 (f' g').2 = _
    rw [k1 g' a1, k2 _ a2, adv_add, List.length_append]

theorem twin_map {α β γ δ : Type} {R : α → β → Prop} {S : γ → δ → Prop} {f : Rng → α × Rng} {f' : Rng → β × Rng}
    (hf : Twin R f f') (t : α → γ) (t' : β → δ) (h : ∀ a b, R a b → S (t a) (t' b)) :
    Twin S (fun g => (t (f g).1, (f g).2)) (fun g => (t' (f' g).1, (f' g).2)) :=
  twin_bind (h := fun a g => (t a, g)) (h' := fun b g => (t' b, g)) hf fun a b hab => twin_ret (h a b hab)

/-! ## The literal loops, literal by literal -/

/-- The numbers given to each literal. -/
abbrev Given := Nat → Rat × Rat

/-- The numbers the rewarding feedback reads for literal `i`. -/
def num1a (boost : Bool) (X : Nat → Nat) (u : Given) (i : Nat) : List Rat :=
  if boost = true ∧ X i = 1 then [(u i).2] else [(u i).1, (u i).2]

/-- The new state of literal `i`. -/
def new1aP (cfg : Cfg) (P : Nat → Int) (X : Nat → Nat) (u : Given) (i : Nat) : Int :=
  if X i = 1 then
    if cfg.boost then incState (P i) else if (u i).1 ≤ cfg.sMin1Inv then incState (P i) else P i
  else if (u i).1 ≤ cfg.sInv then decState (P i) else P i

/-- The new state of the negation of literal `i`. -/
def new1aQ (cfg : Cfg) (Q : Nat → Int) (X : Nat → Nat) (u : Given) (i : Nat) : Int :=
  if X i = 1 then if (u i).2 ≤ cfg.sInv then decState (Q i) else Q i
  else if (u i).2 ≤ cfg.sMin1Inv then incState (Q i) else Q i

theorem t1a_given (cfg : Cfg) (P Q : Nat → Int) (X : Nat → Nat) (u : Given) (is : List Nat) (g : Rng)
    (h : Reads g (is.flatMap (num1a cfg.boost X u))) :
    t1a cfg (is.map P) (is.map Q) (is.map X) g =
      (is.map (new1aP cfg P X u), is.map (new1aQ cfg Q X u), adv g (is.flatMap (num1a cfg.boost X u)).length) := by
  induction is generalizing g with
  | nil => simp [t1a, adv]
  | cons i is ih =>
    rw [List.flatMap_cons, reads_append] at h
    obtain ⟨h1, h2⟩ := h
    by_cases hX : X i = 1
    · by_cases hb : cfg.boost = true
      · have hn : num1a cfg.boost X u i = [(u i).2] := by simp [num1a, hX, hb]
        rw [hn] at h1 h2
        simp only [List.flatMap_cons, List.map_cons, t1a, hX, hb, if_true, List.length_append]
        rw [hb] at h2
        simp only [Reads] at h1
        have := ih g.next.2 (by rw [hb]; exact h2)
        rw [hb] at this
        rw [this, h1.1]
        simp [new1aP, new1aQ, num1a, hX, hb, adv, Rng.next, Nat.add_assoc]
      · have hn : num1a cfg.boost X u i = [(u i).1, (u i).2] := by simp [num1a, hb]
        rw [hn] at h1 h2
        simp only [List.flatMap_cons, List.map_cons, t1a, hX, hb, if_true, List.length_append]
        simp only [Reads] at h1
        have := ih g.next.2.next.2 h2
        rw [if_neg (by simp), this, h1.1, h1.2.1]
        simp [new1aP, new1aQ, num1a, hX, hb, adv, Rng.next, Nat.add_assoc]
    · have hn : num1a cfg.boost X u i = [(u i).1, (u i).2] := by simp [num1a, hX]
      rw [hn] at h1 h2
      simp only [List.flatMap_cons, List.map_cons, t1a, hX, if_false, hn, List.length_append]
      simp only [Reads] at h1
      have := ih g.next.2.next.2 h2
      rw [this, h1.1, h1.2.1]
      simp [new1aP, new1aQ, hX, adv, Rng.next, Nat.add_assoc]

/-- Every stream gives its numbers to the literals, one after the other. -/
theorem given_exists (one : Nat → Bool) (is : List Nat) (hn : is.Nodup) (g : Rng) :
    ∃ u : Given, Reads g (is.flatMap fun i => if one i = true then [(u i).2] else [(u i).1, (u i).2]) := by
  induction is generalizing g with
  | nil => exact ⟨fun _ => (0, 0), trivial⟩
  | cons i is ih =>
    obtain ⟨hi, hn⟩ := List.nodup_cons.1 hn
    have hcong : ∀ (u : Given) (v : Rat × Rat), (is.flatMap fun j => if one j = true then [((fun j => if j = i then v else u j) j).2] else
        [((fun j => if j = i then v else u j) j).1, ((fun j => if j = i then v else u j) j).2]) =
        is.flatMap fun j => if one j = true then [(u j).2] else [(u j).1, (u j).2] := by
      intro u v
      simp only [List.flatMap_def]
      congr 1
      refine List.map_congr_left fun j hj => ?_
      have : j ≠ i := fun e => hi (e ▸ hj)
      simp [this]
    by_cases ho : one i = true
    · obtain ⟨u, hu⟩ := ih hn g.next.2
      refine ⟨fun j => if j = i then (0, g.next.1) else u j, ?_⟩
      rw [List.flatMap_cons, reads_append, hcong]
      simp only [ho, if_true, Reads]
      exact ⟨by simp, hu⟩
    · obtain ⟨u, hu⟩ := ih hn g.next.2.next.2
      refine ⟨fun j => if j = i then (g.next.1, g.next.2.next.1) else u j, ?_⟩
      rw [List.flatMap_cons, reads_append, hcong]
      simp only [ho]
      exact ⟨by simp [Reads], hu⟩

/-- The new state of a literal the clause should forget. -/
def new1b (cfg : Cfg) (v : Int) (a : Rat) : Int := if a ≤ cfg.sInv then decState v else v

theorem t1b_given (cfg : Cfg) (P Q : Nat → Int) (u : Given) (is : List Nat) (g : Rng)
    (h : Reads g (is.flatMap fun i => [(u i).1, (u i).2])) :
    t1b cfg (is.map P) (is.map Q) g =
      (is.map (fun i => new1b cfg (P i) (u i).1), is.map (fun i => new1b cfg (Q i) (u i).2),
        adv g (is.flatMap fun i => [(u i).1, (u i).2]).length) := by
  induction is generalizing g with
  | nil => simp [t1b, adv]
  | cons i is ih =>
    rw [List.flatMap_cons, reads_append] at h
    obtain ⟨h1, h2⟩ := h
    simp only [Reads] at h1
    simp only [List.flatMap_cons, List.map_cons, t1b, List.length_append]
    rw [ih g.next.2.next.2 h2, h1.1, h1.2.1]
    simp [new1b, adv, Rng.next, Nat.add_assoc]

theorem t2_given (P Q : Nat → Int) (X : Nat → Nat) (is : List Nat) :
    t2 (is.map P) (is.map Q) (is.map X) =
      (is.map (fun i => if X i = 0 ∧ P i < 0 then wrap8 (P i + 1) else P i),
       is.map (fun i => if X i ≠ 0 ∧ Q i < 0 then wrap8 (Q i + 1) else Q i)) := by
  induction is with
  | nil => simp [t2]
  | cons i is ih =>
    simp only [List.map_cons, t2, ih]
    by_cases h : X i = 0 <;> simp [h]

/-! ## The same feedback in two codings -/

variable (r : Recoding)

/-- Which of two functions of a literal counts in the new coding. -/
def pick {α : Type} (a b : Nat → α) (i : Nat) : α := if r.flip i then b i else a i

/-- The example in the new coding, literal by literal. -/
def pickX (X : Nat → Nat) (i : Nat) : Nat := if r.flip i then 1 - X i else X i

/-- The rows in the two codings. -/
def RowsR (n : Nat) (a a' : List Int × List Int) : Prop :=
  ∃ A B : Nat → Int, a = ((List.range n).map A, (List.range n).map B) ∧
    a' = (r.order.map (pick r A B), r.order.map (pick r B A))

theorem flatMap_perm {α β : Type} {as bs : List α} (h : as.Perm bs) (f f' : α → List β) (hf : ∀ a, (f' a).Perm (f a)) :
    (as.flatMap f').Perm (bs.flatMap f) := by
  refine List.Perm.trans (List.Perm.flatMap_left _ fun a _ => hf a) ?_
  exact h.flatMap_right f

theorem t1a_twin (cfg : Cfg) (hb : cfg.boost = true → ∀ i, r.flip i = false) (n : Nat) (hr : r.Of n) (P Q : Nat → Int) (X : Nat → Nat)
    (hX : ∀ i, X i = 0 ∨ X i = 1) :
    Twin (RowsR r n)
      (fun g => let t := t1a cfg ((List.range n).map P) ((List.range n).map Q) ((List.range n).map X) g; ((t.1, t.2.1), t.2.2))
      (fun g => let t := t1a cfg (r.order.map (pick r P Q)) (r.order.map (pick r Q P)) (r.order.map (pickX r X)) g; ((t.1, t.2.1), t.2.2)) := by
  intro g
  obtain ⟨u, hu⟩ := given_exists (fun i => decide (cfg.boost = true ∧ X i = 1)) (List.range n) List.nodup_range g
  simp only [decide_eq_true_eq] at hu
  -- a flipped literal gets its two numbers in the opposite order
  obtain ⟨u', hu'⟩ : ∃ u' : Given, u' = fun i => if r.flip i then ((u i).2, (u i).1) else u i := ⟨_, rfl⟩
  have hperm : (r.order.flatMap (num1a cfg.boost (pickX r X) u')).Perm ((List.range n).flatMap (num1a cfg.boost X u)) := by
    refine flatMap_perm hr _ _ fun i => ?_
    subst hu'
    by_cases hf : r.flip i = true
    · have hb' : cfg.boost = false := by
        cases h : cfg.boost
        · rfl
        · have := hb h i; rw [hf] at this; cases this
      simp only [num1a, hb', hf, if_true]
      simpa using List.Perm.swap _ _ _
    · simp [num1a, pickX, hf]
  refine ⟨_, _, (r.order.map (new1aP cfg (pick r P Q) (pickX r X) u'), r.order.map (new1aQ cfg (pick r Q P) (pickX r X) u')), hu, hperm,
    ?_, ?_, ?_⟩
  · simp only []
    rw [t1a_given cfg P Q X u _ g hu]
    rfl
  · simp only []
    rw [t1a_given cfg P Q X u _ g hu]
    refine ⟨new1aP cfg P X u, new1aQ cfg Q X u, rfl, ?_⟩
    subst hu'
    refine congrArg₂ _ (List.map_congr_left fun i _ => ?_) (List.map_congr_left fun i _ => ?_)
    · by_cases hf : r.flip i = true
      · have hb' : cfg.boost = false := by
          cases h : cfg.boost
          · rfl
          · have := hb h i; rw [hf] at this; cases this
        rcases hX i with h | h <;> simp [new1aP, new1aQ, pick, pickX, hf, h, hb']
      · simp [new1aP, pick, pickX, hf]
    · by_cases hf : r.flip i = true
      · have hb' : cfg.boost = false := by
          cases h : cfg.boost
          · rfl
          · have := hb h i; rw [hf] at this; cases this
        rcases hX i with h | h <;> simp [new1aP, new1aQ, pick, pickX, hf, h, hb']
      · simp [new1aQ, pick, pickX, hf]
  · intro g' hg'
    simp only []
    rw [t1a_given cfg _ _ _ u' _ g' hg']

theorem t1b_twin (cfg : Cfg) (n : Nat) (hr : r.Of n) (P Q : Nat → Int) :
    Twin (RowsR r n)
      (fun g => let t := t1b cfg ((List.range n).map P) ((List.range n).map Q) g; ((t.1, t.2.1), t.2.2))
      (fun g => let t := t1b cfg (r.order.map (pick r P Q)) (r.order.map (pick r Q P)) g; ((t.1, t.2.1), t.2.2)) := by
  intro g
  obtain ⟨u, hu⟩ := given_exists (fun _ => false) (List.range n) List.nodup_range g
  simp only [Bool.false_eq_true, if_false] at hu
  obtain ⟨u', hu'⟩ : ∃ u' : Given, u' = fun i => if r.flip i then ((u i).2, (u i).1) else u i := ⟨_, rfl⟩
  have hperm : (r.order.flatMap fun i => [(u' i).1, (u' i).2]).Perm ((List.range n).flatMap fun i => [(u i).1, (u i).2]) := by
    refine flatMap_perm hr _ _ fun i => ?_
    subst hu'
    by_cases hf : r.flip i = true
    · simp only [hf, if_true]
      exact List.Perm.swap _ _ _
    · simp [hf]
  refine ⟨_, _, (r.order.map (fun i => new1b cfg (pick r P Q i) (u' i).1), r.order.map (fun i => new1b cfg (pick r Q P i) (u' i).2)), hu, hperm,
    ?_, ?_, ?_⟩
  · simp only []
    rw [t1b_given cfg P Q u _ g hu]
  · simp only []
    rw [t1b_given cfg P Q u _ g hu]
    refine ⟨fun i => new1b cfg (P i) (u i).1, fun i => new1b cfg (Q i) (u i).2, rfl, ?_⟩
    subst hu'
    refine congrArg₂ _ (List.map_congr_left fun i _ => ?_) (List.map_congr_left fun i _ => ?_) <;>
      by_cases hf : r.flip i = true <;> simp [pick, hf]
  · intro g' hg'
    simp only []
    rw [t1b_given cfg _ _ u' _ g' hg']

theorem t2_twin (n : Nat) (P Q : Nat → Int) (X : Nat → Nat) (hX : ∀ i, X i = 0 ∨ X i = 1) :
    RowsR r n (t2 ((List.range n).map P) ((List.range n).map Q) ((List.range n).map X))
      (t2 (r.order.map (pick r P Q)) (r.order.map (pick r Q P)) (r.order.map (pickX r X))) := by
  rw [t2_given, t2_given]
  refine ⟨_, _, rfl, ?_⟩
  refine congrArg₂ _ (List.map_congr_left fun i _ => ?_) (List.map_congr_left fun i _ => ?_) <;>
    by_cases hf : r.flip i = true <;> rcases hX i with h | h <;> simp [pick, pickX, hf, h]

/-! ## Clauses in two codings -/

theorem shaped_map {n : Nat} {l : List Int} (h : l.length = n) : l = (List.range n).map fun i => l.getD i 0 := by
  apply List.ext_getElem
  · simp [h]
  · intro i h1 h2; simp [h1]

theorem lits_map {n : Nat} {l : List Nat} (h : l.length = n) : l = (List.range n).map fun i => l.getD i 0 := by
  apply List.ext_getElem
  · simp [h]
  · intro i h1 h2; simp [h1]

/-- The clause `d` is the clause `c` in the new coding. -/
def CR (n : Nat) (c d : Clause) : Prop := Shaped n c ∧ face d = face (r.clause c)

theorem cr_iff {n : Nat} {c d : Clause} : CR r n c d ↔
    Shaped n c ∧ d.pos = r.pos c ∧ d.neg = r.neg c ∧ d.w = c.w ∧ d.out = c.out := by
  simp [CR, face_iff, Recoding.clause]

/-- The clause with other rows. -/
def withRows (c : Clause) (a : List Int × List Int) (w : List Int) : Clause := { c with pos := a.1, neg := a.2, w := w }

theorem order_lt {n : Nat} (hr : r.Of n) {i : Nat} (h : i ∈ r.order) : i < n := by
  simpa using hr.mem_iff.1 h

theorem cr_rows {n : Nat} (hr : r.Of n) {c d : Clause} (h : CR r n c d) {a a' : List Int × List Int} (ha : RowsR r n a a')
    (w : List Int) : CR r n (withRows c a w) (withRows d a' w) := by
  obtain ⟨A, B, rfl, rfl⟩ := ha
  obtain ⟨-, -, -, hw, ho⟩ := (cr_iff r).1 h
  refine (cr_iff r).2 ⟨⟨by simp [withRows], by simp [withRows]⟩, ?_, ?_, rfl, ho⟩
  · refine List.map_congr_left fun i hi => ?_
    have := order_lt r hr hi
    simp [withRows, pick, this]
  · refine List.map_congr_left fun i hi => ?_
    have := order_lt r hr hi
    simp [withRows, pick, this]

theorem cr_pos {n : Nat} {c d : Clause} (h : CR r n c d) :
    c.pos = (List.range n).map (c.pos.getD · 0) ∧ c.neg = (List.range n).map (c.neg.getD · 0) ∧
    d.pos = r.order.map (pick r (c.pos.getD · 0) (c.neg.getD · 0)) ∧ d.neg = r.order.map (pick r (c.neg.getD · 0) (c.pos.getD · 0)) := by
  obtain ⟨hs, h1, h2, -, -⟩ := (cr_iff r).1 h
  exact ⟨shaped_map hs.1, shaped_map hs.2, h1, h2⟩

theorem getD_bin {x : List Nat} (hx : Binary x) (i : Nat) : x.getD i 0 = 0 ∨ x.getD i 0 = 1 := by
  rw [List.getD_eq_getElem?_getD]
  cases h : x[i]? with
  | none => exact .inl rfl
  | some v => exact hx v (List.mem_of_getElem? h)

theorem clauseUpdate_twin (cfg : Cfg) (hb : cfg.boost = true → ∀ i, r.flip i = false) (n : Nat) (hr : r.Of n) (x : List Nat) (hx : Binary x)
    (hl : x.length = n) (j : Nat) (t : Int) (c d : Clause) (h : CR r n c d) :
    Twin (CR r n) (clauseUpdate cfg x j t c) (clauseUpdate cfg (r.lits x) j t d) := by
  obtain ⟨p1, p2, p3, p4⟩ := cr_pos r h
  obtain ⟨hs, -, -, hw, ho⟩ := (cr_iff r).1 h
  have e1 := t1a_twin r cfg hb n hr (c.pos.getD · 0) (c.neg.getD · 0) (x.getD · 0) (getD_bin hx)
  have e2 := t1b_twin r cfg n hr (c.pos.getD · 0) (c.neg.getD · 0)
  have e3 := t2_twin r n (c.pos.getD · 0) (c.neg.getD · 0) (x.getD · 0) (getD_bin hx)
  have px : r.order.map (pickX r (x.getD · 0)) = r.lits x := rfl
  rw [← p1, ← p2, ← p3, ← p4, ← lits_map hl, px] at e1 e3
  rw [← p1, ← p2, ← p3, ← p4] at e2
  unfold clauseUpdate
  simp only [hw, ho]
  generalize (if c.w.getD j 0 ≥ 0 then (1 : Int) else -1) = sign
  by_cases h1 : t * sign > 0
  · by_cases h2 : c.out = 1
    · simp only [h1, h2, if_true]
      refine twin_map e1 (fun a => { c with w := c.w.set j (wrap16 (c.w.getD j 0 + sign)), pos := a.1, neg := a.2, out := 1 })
        (fun a => { d with w := c.w.set j (wrap16 (c.w.getD j 0 + sign)), pos := a.1, neg := a.2, out := 1 }) fun a b hab => ?_
      have := cr_rows r hr h hab (c.w.set j (wrap16 (c.w.getD j 0 + sign)))
      obtain ⟨q1, q2, q3, q4, q5⟩ := (cr_iff r).1 this
      exact (cr_iff r).2 ⟨q1, q2, q3, rfl, rfl⟩
    · simp only [h1, h2, if_true, if_false]
      refine twin_map e2 (fun a => { c with pos := a.1, neg := a.2 }) (fun a => { d with pos := a.1, neg := a.2, out := c.out, w := c.w }) fun a b hab => ?_
      have := cr_rows r hr h hab c.w
      obtain ⟨q1, q2, q3, q4, q5⟩ := (cr_iff r).1 this
      exact (cr_iff r).2 ⟨q1, q2, q3, rfl, rfl⟩
  · simp only [h1, if_false]
    by_cases h2 : t * sign < 0 ∧ c.out = 1
    · simp only [if_pos h2]
      refine twin_ret ?_
      have := cr_rows r hr h e3 (c.w.set j (wrap16 (c.w.getD j 0 - sign)))
      obtain ⟨q1, q2, q3, q4, q5⟩ := (cr_iff r).1 this
      exact (cr_iff r).2 ⟨q1, q2, q3, rfl, rfl⟩
    · simp only [if_neg h2]
      exact twin_ret ((cr_iff r).2 ⟨hs, ((cr_iff r).1 h).2.1, ((cr_iff r).1 h).2.2.1, hw, ho⟩)

/-! ## Outputs in two codings -/

theorem included_iff {P : Nat → Int} {is : List Nat} (j : Nat) :
    Included (is.map P) j ↔ ∃ i, is[j]? = some i ∧ 0 ≤ P i := by
  simp only [Included, List.getElem?_map]
  constructor
  · rintro ⟨v, hv, h0⟩
    cases hi : is[j]? with
    | none => simp [hi] at hv
    | some i => simp only [hi, Option.map_some, Option.some.injEq] at hv; exact ⟨i, rfl, hv ▸ h0⟩
  · rintro ⟨i, hi, h0⟩
    exact ⟨P i, by simp [hi], h0⟩

theorem satisfied_map (P Q : Nat → Int) (X : Nat → Nat) (is : List Nat) :
    Satisfied (is.map P) (is.map Q) (is.map X) ↔ ∀ i ∈ is, (0 ≤ P i → X i = 1) ∧ (0 ≤ Q i → X i = 0) := by
  simp only [Satisfied, included_iff]
  constructor
  · rintro ⟨h1, h2⟩ i hi
    obtain ⟨j, hj⟩ := List.mem_iff_getElem?.1 hi
    refine ⟨fun hp => ?_, fun hq => ?_⟩
    · have := h1 j ⟨i, hj, hp⟩
      simpa [hj] using this
    · have := h2 j ⟨i, hj, hq⟩
      simpa [hj] using this
  · intro h
    refine ⟨?_, ?_⟩
    · rintro j ⟨i, hi, hp⟩
      simp [hi, (h i (List.mem_of_getElem? hi)).1 hp]
    · rintro j ⟨i, hi, hq⟩
      simp [hi, (h i (List.mem_of_getElem? hi)).2 hq]

theorem empty_map (P Q : Nat → Int) (is : List Nat) :
    EmptyClause (is.map P) (is.map Q) ↔ ∀ i ∈ is, ¬ 0 ≤ P i ∧ ¬ 0 ≤ Q i := by
  simp only [EmptyClause, included_iff]
  constructor
  · rintro ⟨h1, h2⟩ i hi
    obtain ⟨j, hj⟩ := List.mem_iff_getElem?.1 hi
    exact ⟨fun hp => h1 j ⟨i, hj, hp⟩, fun hq => h2 j ⟨i, hj, hq⟩⟩
  · intro h
    refine ⟨?_, ?_⟩
    · rintro j ⟨i, hi, hp⟩
      exact (h i (List.mem_of_getElem? hi)).1 hp
    · rintro j ⟨i, hi, hq⟩
      exact (h i (List.mem_of_getElem? hi)).2 hq

theorem satisfied_recode {n : Nat} (hr : r.Of n) {c d : Clause} (h : CR r n c d) {x : List Nat} (hx : Binary x) (hl : x.length = n) :
    Satisfied d.pos d.neg (r.lits x) ↔ Satisfied c.pos c.neg x := by
  obtain ⟨p1, p2, p3, p4⟩ := cr_pos r h
  have px : r.order.map (pickX r (x.getD · 0)) = r.lits x := rfl
  rw [p3, p4, ← px, satisfied_map]
  have e : Satisfied c.pos c.neg x ↔ Satisfied ((List.range n).map (c.pos.getD · 0)) ((List.range n).map (c.neg.getD · 0))
    ((List.range n).map (x.getD · 0)) := by rw [← p1, ← p2, ← lits_map hl]
  rw [e, satisfied_map]
  have hi : ∀ i, ((0 ≤ pick r (c.pos.getD · 0) (c.neg.getD · 0) i → pickX r (x.getD · 0) i = 1) ∧
      (0 ≤ pick r (c.neg.getD · 0) (c.pos.getD · 0) i → pickX r (x.getD · 0) i = 0)) ↔
      ((0 ≤ c.pos.getD i 0 → x.getD i 0 = 1) ∧ (0 ≤ c.neg.getD i 0 → x.getD i 0 = 0)) := by
    intro i
    by_cases hf : r.flip i = true
    · simp only [pick, pickX, hf, if_true]
      rcases getD_bin hx i with h0 | h0 <;> simp only [h0] <;> simp [and_comm]
    · simp [pick, pickX, hf]
  constructor
  · intro hh i hi'
    exact (hi i).1 (hh i (hr.mem_iff.2 hi'))
  · intro hh i hi'
    exact (hi i).2 (hh i (hr.mem_iff.1 hi'))

theorem empty_recode {n : Nat} (hr : r.Of n) {c d : Clause} (h : CR r n c d) :
    EmptyClause d.pos d.neg ↔ EmptyClause c.pos c.neg := by
  obtain ⟨p1, p2, p3, p4⟩ := cr_pos r h
  rw [p3, p4, empty_map]
  have e : EmptyClause c.pos c.neg ↔ EmptyClause ((List.range n).map (c.pos.getD · 0)) ((List.range n).map (c.neg.getD · 0)) := by
    rw [← p1, ← p2]
  rw [e, empty_map]
  have hi : ∀ i, (¬ 0 ≤ pick r (c.pos.getD · 0) (c.neg.getD · 0) i ∧ ¬ 0 ≤ pick r (c.neg.getD · 0) (c.pos.getD · 0) i) ↔
      (¬ 0 ≤ c.pos.getD i 0 ∧ ¬ 0 ≤ c.neg.getD i 0) := by
    intro i
    by_cases hf : r.flip i = true
    · simp [pick, hf, and_comm]
    · simp [pick, hf]
  constructor
  · intro hh i hi'
    exact (hi i).1 (hh i (hr.mem_iff.2 hi'))
  · intro hh i hi'
    exact (hi i).2 (hh i (hr.mem_iff.1 hi'))

theorem numIncluded_map (P : Nat → Int) (is : List Nat) :
    numIncluded (is.map P) = (is.map fun i => if 0 ≤ P i then 1 else 0).sum := by
  induction is with
  | nil => rfl
  | cons i is ih =>
    simp only [numIncluded, List.map_cons, List.sum_cons] at ih ⊢
    by_cases h : 0 ≤ P i
    · rw [List.filter_cons_of_pos (by simpa using h), List.length_cons, ih, if_pos h, Nat.add_comm]
    · rw [List.filter_cons_of_neg (by simpa using h), ih, if_neg h, Nat.zero_add]

theorem sum_add (f g : Nat → Nat) (is : List Nat) : (is.map f).sum + (is.map g).sum = (is.map fun i => f i + g i).sum := by
  induction is with
  | nil => rfl
  | cons i is ih => simp only [List.map_cons, List.sum_cons, ← ih]; omega

theorem numIncluded_recode {n : Nat} (hr : r.Of n) {c d : Clause} (h : CR r n c d) :
    numIncluded d.pos + numIncluded d.neg = numIncluded c.pos + numIncluded c.neg := by
  obtain ⟨p1, p2, p3, p4⟩ := cr_pos r h
  have e : numIncluded c.pos + numIncluded c.neg =
      numIncluded ((List.range n).map (c.pos.getD · 0)) + numIncluded ((List.range n).map (c.neg.getD · 0)) := by rw [← p1, ← p2]
  rw [e, p3, p4, numIncluded_map, numIncluded_map, numIncluded_map, numIncluded_map, sum_add, sum_add]
  rw [← (hr.map _).sum_eq]
  congr 1
  refine List.map_congr_left fun i _ => ?_
  by_cases hf : r.flip i = true
  · simp [pick, hf, Nat.add_comm]
  · simp [pick, hf]

theorem lits_binary {x : List Nat} (hx : Binary x) : Binary (r.lits x) := by
  intro v hv
  obtain ⟨i, -, rfl⟩ := List.mem_map.1 hv
  show (if r.flip i then 1 - x.getD i 0 else x.getD i 0) = 0 ∨ (if r.flip i then 1 - x.getD i 0 else x.getD i 0) = 1
  by_cases hf : r.flip i = true
  · simp only [if_pos hf]
    rcases getD_bin hx i with h | h <;> simp only [h] <;> simp
  · simp only [if_neg hf]
    exact getD_bin hx i

theorem lits_length {n : Nat} (hr : r.Of n) (x : List Nat) : (r.lits x).length = n := by
  simp [Recoding.lits, hr.length_eq]

theorem cr_shaped {n : Nat} (hr : r.Of n) {c d : Clause} (h : CR r n c d) : Shaped n d := by
  obtain ⟨-, h1, h2, -⟩ := (cr_iff r).1 h
  exact ⟨by rw [h1]; simp [Recoding.pos, hr.length_eq], by rw [h2]; simp [Recoding.neg, hr.length_eq]⟩

theorem bit_eq {a b : Nat} (ha : a = 0 ∨ a = 1) (hb : b = 0 ∨ b = 1) (h : a = 1 ↔ b = 1) : a = b := by omega

theorem setOut_recode (cfg : Cfg) {n : Nat} (hr : r.Of n) {c d : Clause} (h : CR r n c d) {x : List Nat} (hx : Binary x) (hl : x.length = n) :
    CR r n (setOutClause cfg x c) (setOutClause cfg (r.lits x) d) ∧
    ((setOutClause cfg x c).out = 1 → cfg.budget.isSome = true → (setOutClause cfg (r.lits x) d).cnt = (setOutClause cfg x c).cnt) := by
  obtain ⟨hs, h1, h2, hw, ho⟩ := (cr_iff r).1 h
  obtain ⟨a1, a2, a3⟩ := C06_train_output cfg x c hx (by rw [hl]; exact hs)
  obtain ⟨b1, b2, b3⟩ := C06_train_output cfg (r.lits x) d (lits_binary r hx) (by rw [lits_length r hr]; exact cr_shaped r hr h)
  have e : (setOutClause cfg (r.lits x) d).out = (setOutClause cfg x c).out :=
    bit_eq b2 a2 (by rw [a1, b1]; exact satisfied_recode r hr h hx hl)
  refine ⟨(cr_iff r).2 ⟨hs, h1, h2, hw, e⟩, fun ho hb => ?_⟩
  have hne : cfg.budget ≠ none := by
    intro hn; rw [hn] at hb; cases hb
  rw [a3 hne ho, b3 hne (e.trans ho)]
  exact numIncluded_recode r hr h

theorem evalOut_recode {n : Nat} (hr : r.Of n) {c d : Clause} (h : CR r n c d) {x : List Nat} (hx : Binary x) (hl : x.length = n) :
    CR r n (evalOutClause x c) (evalOutClause (r.lits x) d) := by
  obtain ⟨hs, h1, h2, hw, ho⟩ := (cr_iff r).1 h
  obtain ⟨a1, a2⟩ := C05_eval_output x c hx (by rw [hl]; exact hs)
  obtain ⟨b1, b2⟩ := C05_eval_output (r.lits x) d (lits_binary r hx) (by rw [lits_length r hr]; exact cr_shaped r hr h)
  refine (cr_iff r).2 ⟨hs, h1, h2, hw, bit_eq b2 a2 ?_⟩
  rw [a1, b1, satisfied_recode r hr h hx hl, empty_recode r hr h]

/-! ## Blocks in two codings -/

theorem budgetGate_recode (cfg : Cfg) {n : Nat} {c d : Clause} (h : CR r n c d) (h01 : c.out = 0 ∨ c.out = 1)
    (hc : c.out = 1 → cfg.budget.isSome = true → d.cnt = c.cnt) : CR r n (budgetGate cfg c) (budgetGate cfg d) := by
  obtain ⟨hs, h1, h2, hw, ho⟩ := (cr_iff r).1 h
  unfold budgetGate
  cases hb : cfg.budget with
  | none => exact h
  | some b =>
    simp only []
    rcases h01 with h0 | h0
    · have : ∀ c : Clause, c.out = 0 → (if c.cnt > b then { c with out := 0 } else c) = { c with out := 0 } := by
        intro c hc
        split
        · rfl
        · cases c; simp only at hc; rw [hc]
      rw [this c h0, this d (ho.trans h0)]
      exact (cr_iff r).2 ⟨hs, h1, h2, hw, rfl⟩
    · rw [hc h0 (by rw [hb]; rfl)]
      split
      · exact (cr_iff r).2 ⟨hs, h1, h2, hw, rfl⟩
      · exact h

theorem trainClause_twin (cfg : Cfg) (hb : cfg.boost = true → ∀ i, r.flip i = false) (n : Nat) (hr : r.Of n) (x : List Nat) (hx : Binary x)
    (hl : x.length = n) (fb : Feedback) (f : Rng) (c d : Clause) (h : CR r n (budgetGate cfg c) (budgetGate cfg d)) :
    Twin (fun a b => CR r n a.1 b.1 ∧ b.2 = a.2)
      (fun g => ((((trainClause cfg x fb c f g).1, (trainClause cfg x fb c f g).2.1) : Clause × Rng), (trainClause cfg x fb c f g).2.2))
      (fun g => ((((trainClause cfg (r.lits x) fb d f g).1, (trainClause cfg (r.lits x) fb d f g).2.1) : Clause × Rng),
        (trainClause cfg (r.lits x) fb d f g).2.2)) := by
  have t1 : Twin (CR r n)
      (fun g => if f.next.1 < fb.posProb then clauseUpdate cfg x fb.posClass 1 (budgetGate cfg c) g else (budgetGate cfg c, g))
      (fun g => if f.next.1 < fb.posProb then clauseUpdate cfg (r.lits x) fb.posClass 1 (budgetGate cfg d) g else (budgetGate cfg d, g)) := by
    split
    · exact clauseUpdate_twin r cfg hb n hr x hx hl _ _ _ _ h
    · exact twin_ret h
  have t2 : ∀ a b, CR r n a b → Twin (CR r n)
      (fun g => if f.next.2.next.1 < fb.negProb then clauseUpdate cfg x fb.negClass (-1) a g else (a, g))
      (fun g => if f.next.2.next.1 < fb.negProb then clauseUpdate cfg (r.lits x) fb.negClass (-1) b g else (b, g)) := by
    intro a b hab
    split
    · exact clauseUpdate_twin r cfg hb n hr x hx hl _ _ _ _ hab
    · exact twin_ret hab
  exact twin_map (twin_bind t1 t2) (fun c' => (c', f.next.2.next.2)) (fun c' => (c', f.next.2.next.2)) fun a b hab => ⟨hab, rfl⟩

theorem trainClauses_twin (cfg : Cfg) (hb : cfg.boost = true → ∀ i, r.flip i = false) (n : Nat) (hr : r.Of n) (x : List Nat) (hx : Binary x)
    (hl : x.length = n) (fb : Feedback) (f : Rng) (cs ds : List Clause)
    (h : List.Forall₂ (fun c d => CR r n (budgetGate cfg c) (budgetGate cfg d)) cs ds) :
    Twin (fun a b => List.Forall₂ (CR r n) a.1 b.1 ∧ b.2 = a.2)
      (fun g => ((((trainClauses cfg x fb cs f g).1, (trainClauses cfg x fb cs f g).2.1) : List Clause × Rng), (trainClauses cfg x fb cs f g).2.2))
      (fun g => ((((trainClauses cfg (r.lits x) fb ds f g).1, (trainClauses cfg (r.lits x) fb ds f g).2.1) : List Clause × Rng),
        (trainClauses cfg (r.lits x) fb ds f g).2.2)) := by
  induction h generalizing f with
  | nil => simp only [trainClauses]; exact twin_ret ⟨.nil, rfl⟩
  | @cons c d cs ds h _ ih =>
    refine twin_bind
      (h := fun a g => ((((a.1 :: (trainClauses cfg x fb cs a.2 g).1), (trainClauses cfg x fb cs a.2 g).2.1) : List Clause × Rng),
        (trainClauses cfg x fb cs a.2 g).2.2))
      (h' := fun a g => ((((a.1 :: (trainClauses cfg (r.lits x) fb ds a.2 g).1), (trainClauses cfg (r.lits x) fb ds a.2 g).2.1) : List Clause × Rng),
        (trainClauses cfg (r.lits x) fb ds a.2 g).2.2))
      (trainClause_twin r cfg hb n hr x hx hl fb f c d h) fun a b hab => ?_
    rw [hab.2]
    exact twin_map (ih a.2) (fun t => (a.1 :: t.1, t.2)) (fun t => (b.1 :: t.1, t.2)) fun t t' ht => ⟨.cons hab.1 ht.1, ht.2⟩

/-- A block fit for the recoding and the example. -/
def BlockFit (n : Nat) (b : DBlock) (x : List Nat) : Prop :=
  (b.cfg.boost = true → ∀ i, r.flip i = false) ∧ (∀ c ∈ b.clauses, Shaped n c) ∧ Binary x ∧ x.length = n

theorem block_cr {n : Nat} {cs : List Clause} (h : ∀ c ∈ cs, Shaped n c) : List.Forall₂ (CR r n) cs (cs.map r.clause) := by
  rw [List.forall₂_map_right_iff]
  exact List.forall₂_same.2 fun c hc => ⟨h c hc, rfl⟩

theorem cr_faces {n : Nat} {cs ds : List Clause} (h : List.Forall₂ (CR r n) cs ds) : ds.map face = (cs.map r.clause).map face := by
  induction h with
  | nil => rfl
  | cons h _ ih => simp only [List.map_cons, ih, h.2]

theorem countVotes_recode (m : Nat) {n : Nat} {cs ds : List Clause} (h : List.Forall₂ (CR r n) cs ds) : countVotes m ds = countVotes m cs := by
  rw [countVotes_face m ds (cs.map r.clause) (cr_faces r h)]
  simp only [countVotes, List.foldl_map]
  rfl

theorem recode_setOut {n : Nat} (hr : r.Of n) (b : DBlock) (x : List Nat) (h : BlockFit r n b x) :
    List.Forall₂ (fun c d => CR r n c d ∧ (c.out = 1 → b.cfg.budget.isSome = true → d.cnt = c.cnt) ∧ (c.out = 0 ∨ c.out = 1))
      (b.clauses.map (setOutClause b.cfg x)) ((b.clauses.map r.clause).map (setOutClause b.cfg (r.lits x))) := by
  rw [List.forall₂_map_left_iff, List.forall₂_map_right_iff]
  exact (block_cr r h.2.1).imp fun c d hcd =>
    ⟨(setOut_recode r b.cfg hr hcd h.2.2.1 h.2.2.2).1, (setOut_recode r b.cfg hr hcd h.2.2.1 h.2.2.2).2, setOut_01 ..⟩

theorem recode_trainVotes {n : Nat} (hr : r.Of n) (b : DBlock) (x : List Nat) (g : Rng) (h : BlockFit r n b x) :
    (b.apply (.trainExample x)).votes = ((r.block b g).apply (.trainExample (r.lits x))).votes :=
  (countVotes_recode r b.nClasses ((recode_setOut r hr b x h).imp fun _ _ h => h.1)).symm

theorem recode_eval {n : Nat} (hr : r.Of n) (b : DBlock) (x : List Nat) (g : Rng) (h : BlockFit r n b x) :
    Like (r.block (b.apply (.evalExample x)) g) ((r.block b g).apply (.evalExample (r.lits x))) := by
  have hf : List.Forall₂ (CR r n) (b.clauses.map (evalOutClause x)) ((b.clauses.map r.clause).map (evalOutClause (r.lits x))) := by
    rw [List.forall₂_map_left_iff, List.forall₂_map_right_iff]
    exact (block_cr r h.2.1).imp fun c d hcd => evalOut_recode r hr hcd h.2.2.1 h.2.2.2
  exact ⟨rfl, rfl, rfl, cr_faces r hf, countVotes_recode r b.nClasses hf, rfl, fun _ => rfl⟩

/-- The literal generator of a recoded block. -/
theorem numbers_add (g : Rng) (k m : Nat) : numbers g (k + m) = numbers g k ++ numbers (adv g k) m := by
  simp only [numbers, List.range_add, List.map_append, List.map_map, adv]
  congr 1
  refine List.map_congr_left fun i _ => ?_
  simp only [Function.comp_apply, Nat.add_assoc]

theorem reshuffled_step {g g'' : Rng} {L L' : List Rat} (h1 : Reads g L) (hp : L'.Perm L) (ht : Reshuffled (adv g L.length) g'') :
    ∃ g', Reshuffled g g' ∧ Reads g' L' ∧ Stream g'' (adv g' L'.length) := by
  obtain ⟨g', hg'⟩ : ∃ g' : Rng, g' = ⟨fun i => if i < L'.length then L'.getD i 0 else g''.draw (g''.pos + (i - L'.length)), 0⟩ := ⟨_, rfl⟩
  have hr : Reads g' L' := by
    rw [reads_iff]
    subst hg'
    apply List.ext_getElem
    · simp [numbers]
    · intro i h1 h2; simp [numbers, h2]
  have hs : Stream g'' (adv g' L'.length) := by
    intro i
    subst hg'
    simp [adv]
  clear hg'
  refine ⟨g', fun k => ?_, hr, hs⟩
  obtain ⟨m, hm, hmp⟩ := ht k
  refine ⟨L.length + m, by omega, ?_⟩
  rw [numbers_add g, (reads_iff ..).1 h1]
  have : numbers g' (L.length + m) = L' ++ numbers g'' m := by
    rw [← hp.length_eq, numbers_add, (reads_iff ..).1 hr]
    congr 1
    exact List.map_congr_left fun i _ => hs i
  rw [this]
  exact hp.append hmp

theorem recode_train {n : Nat} (hr : r.Of n) (b : DBlock) (x : List Nat) (fb : Feedback) (g' : Rng) (h : BlockFit r n b x)
    (ht : Reshuffled (b.trainStep x fb).rng g') :
    ∃ g, Reshuffled b.rng g ∧ Like (r.block (b.trainStep x fb) g') ((r.block b g).trainStep (r.lits x) fb) := by
  have hs := (recode_setOut r hr b x h).imp fun c d hcd => budgetGate_recode r b.cfg hcd.1 hcd.2.2 hcd.2.1
  obtain ⟨L, L', d, r1, p1, e1, q1, k1⟩ := trainClauses_twin r b.cfg h.1 n hr x h.2.2.1 h.2.2.2 fb b.fast _ _ hs b.rng
  have er : (b.trainStep x fb).rng = adv b.rng L.length := e1
  rw [er] at ht
  obtain ⟨g, g1, g2, g3⟩ := reshuffled_step r1 p1 ht
  refine ⟨g, g1, ?_⟩
  have k2 := k1 g g2
  simp only [Prod.ext_iff] at k2
  obtain ⟨⟨k3, k4⟩, k5⟩ := k2
  refine ⟨rfl, rfl, rfl, ?_, (recode_trainVotes r hr b x g h).symm, ?_, ?_⟩
  · show (trainClauses b.cfg (r.lits x) fb ((b.clauses.map r.clause).map (setOutClause b.cfg (r.lits x))) b.fast g).1.map face = _
    rw [k3]
    exact cr_faces r q1.1
  · show (trainClauses b.cfg (r.lits x) fb ((b.clauses.map r.clause).map (setOutClause b.cfg (r.lits x))) b.fast g).2.1 = _
    rw [k4]
    exact q1.2
  · show Stream g' (trainClauses b.cfg (r.lits x) fb ((b.clauses.map r.clause).map (setOutClause b.cfg (r.lits x))) b.fast g).2.2
    rw [k5]
    exact g3

theorem reshuffled_refl (g : Rng) : Reshuffled g g := fun k => ⟨k, Nat.le_refl _, .refl _⟩

theorem fit_train {n : Nat} (hr : r.Of n) (b : DBlock) (x y : List Nat) (fb : Feedback) (h : BlockFit r n b x) (hy : BlockFit r n b y) :
    BlockFit r n (b.trainStep x fb) y := by
  have hs := (recode_setOut r hr b x h).imp fun c d hcd => budgetGate_recode r b.cfg hcd.1 hcd.2.2 hcd.2.1
  obtain ⟨L, L', d, r1, p1, e1, q1, k1⟩ := trainClauses_twin r b.cfg h.1 n hr x h.2.2.1 h.2.2.2 fb b.fast _ _ hs b.rng
  refine ⟨h.1, ?_, hy.2.2⟩
  have : ∀ {cs ds : List Clause}, List.Forall₂ (CR r n) cs ds → ∀ c ∈ cs, Shaped n c := by
    intro cs ds hh
    induction hh with
    | nil => intro c hc; cases hc
    | cons h1 _ ih =>
      intro c hc
      rcases List.mem_cons.1 hc with rfl | hc
      · exact h1.1
      · exact ih c hc
  exact this q1.1

theorem fit_eval {n : Nat} (b : DBlock) (x y : List Nat) (hy : BlockFit r n b y) : BlockFit r n (b.apply (.evalExample x)) y := by
  refine ⟨hy.1, ?_, hy.2.2⟩
  intro c hc
  obtain ⟨c', hc', rfl⟩ := List.mem_map.1 hc
  exact hy.2.1 c' hc'

theorem sameRecoded_of {b d : DBlock} {g : Rng} (h : Like (r.block b g) d) : SameRecoded r b d := by
  refine ⟨?_, h.votes⟩
  rw [h.faces]
  simp [Recoding.block]

theorem recoded {n : Nat} (hr : r.Of n) (smp : List Rat → Rat → Nat) (calls : List (List Nat × Option Nat)) (e : Exec DBlock)
    (hok : ∀ b ∈ e.blocks, ∀ c ∈ calls, BlockFit r n b c.1) :
    ∃ gs : List Rng, List.Forall₂ (fun (b : DBlock) g => Reshuffled b.rng g) e.blocks gs ∧ ∀ k,
      (runCalls denseBackend smp (r.calls (calls.take k)) (r.exec e gs)).2 = (runCalls denseBackend smp (calls.take k) e).2 ∧
      (runCalls denseBackend smp (r.calls (calls.take k)) (r.exec e gs)).1.fb = (runCalls denseBackend smp (calls.take k) e).1.fb ∧
      List.Forall₂ (SameRecoded r) (runCalls denseBackend smp (calls.take k) e).1.blocks
        (runCalls denseBackend smp (r.calls (calls.take k)) (r.exec e gs)).1.blocks := by
  obtain ⟨gs, h1, h2⟩ := backward (be := denseBackend) (fun b g => Reshuffled b.rng g) r.block r.lits (BlockFit r n)
    (fun _ => rfl)
    (fun b x fb y h hy => fit_train r hr b x y fb h hy)
    (fun b x y _ hy => fit_eval r b x y hy)
    (fun b => ⟨b.rng, reshuffled_refl _⟩)
    (fun b x g h => (recode_eval r hr b x g h).votes.symm)
    (fun b x g h => recode_trainVotes r hr b x g h)
    (fun b x g' h ht => ⟨g', ht, recode_eval r hr b x g' h⟩)
    (fun b x fb g' h ht => recode_train r hr b x fb g' h ht)
    smp calls e hok
  refine ⟨gs, h1, fun k => ?_⟩
  obtain ⟨q1, q2, q3⟩ := h2 k
  exact ⟨q1, q2, q3.imp fun b d ⟨g, hg⟩ => sameRecoded_of r hg⟩

/-- The block fed with the examples in the new coding. -/
def recBackend : Backend DBlock (List Nat) where
  trainExample b x := b.apply (.trainExample (r.lits x))
  evalExample b x := b.apply (.evalExample (r.lits x))
  trainUpdate b x fb := b.apply (.trainUpdate (r.lits x) fb)
  votes b := b.votes
  trainable _ := true

theorem eval_step {n : Nat} (hr : r.Of n) (b d : DBlock) (x : List Nat) (hx : Binary x) (hl : x.length = n) (hn : d.nClasses = b.nClasses)
    (h : List.Forall₂ (CR r n) b.clauses d.clauses) :
    (b.apply (.evalExample x)).votes = (d.apply (.evalExample (r.lits x))).votes ∧
    List.Forall₂ (CR r n) (b.apply (.evalExample x)).clauses (d.apply (.evalExample (r.lits x))).clauses := by
  have hf : List.Forall₂ (CR r n) (b.clauses.map (evalOutClause x)) (d.clauses.map (evalOutClause (r.lits x))) := by
    rw [List.forall₂_map_left_iff, List.forall₂_map_right_iff]
    exact h.imp fun c d hcd => evalOut_recode r hr hcd hx hl
  refine ⟨?_, hf⟩
  show countVotes b.nClasses _ = countVotes d.nClasses _
  rw [hn]
  exact (countVotes_recode r b.nClasses hf).symm

theorem predictions {n : Nat} (hr : r.Of n) (smp : List Rat → Rat → Nat) (xs : List (List Nat)) (e d : Exec DBlock) (hf : d.fb = e.fb)
    (hR : List.Forall₂ (fun b d => d.nClasses = b.nClasses ∧ List.Forall₂ (CR r n) b.clauses d.clauses) e.blocks d.blocks)
    (hxs : ∀ x ∈ xs, Binary x ∧ x.length = n) :
    (runCalls denseBackend smp (xs.map fun x => (r.lits x, none)) d).2 = (runCalls denseBackend smp (xs.map fun x => (x, none)) e).2 := by
  induction xs generalizing e d with
  | nil => rfl
  | cons x xs ih =>
    obtain ⟨hx, hl⟩ := hxs x (List.mem_cons_self ..)
    obtain ⟨h1, h2⟩ := evalOne_fb denseBackend (recBackend r) e d x hf
      (hR.imp fun b d h => (eval_step r hr b d x hx hl h.1 h.2).1)
    have h1' : (d.evalOne denseBackend (r.lits x)).1.fb = _ := h1
    have h2' : (d.evalOne denseBackend (r.lits x)).2 = _ := h2
    have h3 := ih (e.evalOne denseBackend x).1 (d.evalOne denseBackend (r.lits x)).1 h1' (by
      rw [evalOne_blocks, evalOne_blocks, List.forall₂_map_left_iff, List.forall₂_map_right_iff]
      exact hR.imp fun b d h => ⟨h.1, (eval_step r hr b d x hx hl h.1 h.2).2⟩)
      (fun y hy => hxs y (List.mem_cons_of_mem _ hy))
    simp only [List.map_cons, runCalls]
    rw [h2', h3]

/-! ## The first states -/

/-- The first state a number gives. -/
def first (a : Rat) : Int := if a < 1 / 2 then -1 else 0

theorem half_given (L : List Rat) (g : Rng) (h : Reads g L) : initHalf L.length g = (L.map first, adv g L.length) := by
  induction L generalizing g with
  | nil => simp [initHalf, adv]
  | cons a L ih =>
    obtain ⟨h1, h2⟩ := h
    simp only [List.length_cons, initHalf, ih _ h2, List.map_cons, h1, adv_next]
    rfl

theorem reads_numbers (g : Rng) (k : Nat) : Reads g (numbers g k) := by
  rw [reads_iff]; simp [numbers]

theorem row_twin (n : Nat) (hr : r.Of n) :
    Twin (RowsR r n) (fun g => (((initHalf n g).1, (initHalf n (initHalf n g).2).1), (initHalf n (initHalf n g).2).2))
      (fun g => (((initHalf n g).1, (initHalf n (initHalf n g).2).1), (initHalf n (initHalf n g).2).2)) := by
  intro g
  obtain ⟨U, hU⟩ : ∃ U : Nat → Rat, U = fun i => (numbers g n).getD i 0 := ⟨_, rfl⟩
  obtain ⟨V, hV⟩ : ∃ V : Nat → Rat, V = fun i => (numbers (adv g n) n).getD i 0 := ⟨_, rfl⟩
  have two : ∀ (M N : List Rat) (g : Rng), M.length = n → N.length = n → Reads g (M ++ N) →
      (((initHalf n g).1, (initHalf n (initHalf n g).2).1), (initHalf n (initHalf n g).2).2) =
        ((M.map first, N.map first), adv g (M ++ N).length) := by
    intro M N g hM hN hh
    obtain ⟨m1, m2⟩ := (reads_append ..).1 hh
    have e1 : initHalf n g = (M.map first, adv g M.length) := by rw [← half_given M g m1, hM]
    have e2 : initHalf n (adv g M.length) = (N.map first, adv (adv g M.length) N.length) := by rw [← half_given N _ m2, hN]
    rw [e1]
    simp only []
    rw [e2, adv_add, List.length_append]
  have eU : numbers g n = (List.range n).map U := by
    subst hU
    apply List.ext_getElem
    · simp [numbers]
    · intro i h1 h2; simp [h1]
  have eV : numbers (adv g n) n = (List.range n).map V := by
    subst hV
    apply List.ext_getElem
    · simp [numbers]
    · intro i h1 h2; simp [h1]
  have hg : Reads g ((List.range n).map U ++ (List.range n).map V) := by
    rw [reads_append, List.length_map, List.length_range, ← eU, ← eV]
    exact ⟨reads_numbers .., reads_numbers ..⟩
  have ln : r.order.length = n := by simpa using hr.length_eq
  have hp : (r.order.map (pick r U V) ++ r.order.map (pick r V U)).Perm ((List.range n).map U ++ (List.range n).map V) := by
    have : ∀ is : List Nat, (is.map (pick r U V) ++ is.map (pick r V U)).Perm (is.map U ++ is.map V) := by
      intro is
      induction is with
      | nil => exact .nil
      | cons i is ih =>
        simp only [List.map_cons, List.cons_append]
        refine (List.perm_middle.cons _).trans (List.Perm.trans ?_ (List.perm_middle.cons _).symm)
        by_cases hf : r.flip i = true
        · simp only [pick, hf, if_true]
          exact (List.Perm.swap _ _ _).trans ((ih.cons _).cons _)
        · simp only [pick, hf]
          exact (ih.cons _).cons _
    exact (this r.order).trans ((hr.map U).append (hr.map V))
  refine ⟨_, _, ((r.order.map (pick r U V)).map first, (r.order.map (pick r V U)).map first), hg, hp, ?_, ?_, ?_⟩
  · beta_reduce
    rw [two _ _ g (by simp) (by simp) hg]
  · beta_reduce
    rw [two _ _ g (by simp) (by simp) hg]
    refine ⟨fun i => first (U i), fun i => first (V i), by simp only [List.map_map]; rfl, ?_⟩
    simp only [List.map_map]
    refine congrArg₂ _ (List.map_congr_left fun i _ => ?_) (List.map_congr_left fun i _ => ?_) <;>
      by_cases hf : r.flip i = true <;> simp [pick, hf]
  · intro g' hg'
    exact two _ _ g' (by simpa using ln) (by simpa using ln) hg'

theorem rows_twin (n : Nat) (hr : r.Of n) (k : Nat) :
    Twin (List.Forall₂ (RowsR r n)) (initRows n k) (initRows n k) := by
  induction k with
  | zero => exact twin_ret .nil
  | succ k ih =>
    exact twin_bind (h := fun a g => (a :: (initRows n k g).1, (initRows n k g).2))
      (h' := fun a g => (a :: (initRows n k g).1, (initRows n k g).2)) (row_twin r n hr) fun a b hab =>
      twin_map ih (fun t => a :: t) (fun t => b :: t) fun t t' ht => .cons hab ht

theorem rowsR_clause {n : Nat} (hr : r.Of n) {a a' : List Int × List Int} (h : RowsR r n a a') (w : List Int) (k : Nat) :
    (⟨a'.1, a'.2, w, 0, k⟩ : Clause) = r.clause ⟨a.1, a.2, w, 0, k⟩ := by
  obtain ⟨A, B, rfl, rfl⟩ := h
  have hm : ∀ i ∈ r.order, i < n := fun i hi => by simpa using hr.mem_iff.1 hi
  simp only [Recoding.clause, Recoding.pos, Recoding.neg]
  congr 1
  · refine List.map_congr_left fun i hi => ?_
    simp [pick, hm i hi]
  · refine List.map_congr_left fun i hi => ?_
    simp [pick, hm i hi]

theorem start {n : Nat} (hr : r.Of n) (nClauses nClasses : Nat) (cfg : Cfg) (fastOf rngOf : Nat → Rng) (junk : Nat → Nat) (seed : Nat)
    (b : DBlock) (h : initTM n nClauses nClasses cfg fastOf rngOf junk seed = some b) (g : Rng) (hg : Reshuffled b.rng g) :
    ∃ rng, Reshuffled (rngOf seed) rng ∧ ∃ d, initTM n nClauses nClasses cfg fastOf (fun _ => rng) junk seed = some d ∧
      { d with rng := g } = r.block b g ∧ ∀ k, numbers d.rng k = numbers g k := by
  unfold initTM at h
  by_cases hs : seed = 0
  · rw [if_pos hs] at h; cases h
  rw [if_neg hs] at h
  obtain rfl := Option.some.inj h
  obtain ⟨L, L', rows, r1, p1, e1, q1, k1⟩ := rows_twin r n hr nClauses (rngOf seed)
  simp only [] at hg
  rw [e1] at hg
  obtain ⟨g', g1, g2, g3⟩ := reshuffled_step r1 p1 hg
  refine ⟨g', g1, ?_⟩
  simp only [initTM, if_neg hs, k1 g' g2]
  refine ⟨_, rfl, ?_, fun k => List.map_congr_left fun i _ => g3 i⟩
  simp only [Recoding.block, DBlock.mk.injEq, true_and, and_true]
  generalize (initRows n nClauses (rngOf seed)).1 = rows0 at q1
  generalize (initAllWeights nClasses nClauses (fastOf seed)).1 = ws
  apply List.ext_getElem
  · simp [q1.length_eq]
  · intro i h1 h2
    simp only [List.length_mapIdx, List.length_zip] at h1
    simp only [List.getElem_mapIdx, List.getElem_zip, List.getElem_map]
    exact rowsR_clause r hr ((List.forall₂_iff_get.1 q1).2 i (by have := q1.length_eq; omega) (by omega)) _ _

/-! ## Streams of one number -/

theorem constant_of {g h : Rng} (a : Rat) (hg : ∀ i, g.draw (g.pos + i) = a) (hs : Reshuffled g h) : Stream g h := by
  intro i
  obtain ⟨m, hm, hp⟩ := hs (i + 1)
  have hi : h.draw (h.pos + i) ∈ numbers h m := List.mem_map.2 ⟨i, List.mem_range.2 (by omega), rfl⟩
  obtain ⟨j, -, hj⟩ := List.mem_map.1 (hp.mem_iff.1 hi)
  rw [← hj]
  exact (hg j).trans (hg i).symm

end GT.Recode
