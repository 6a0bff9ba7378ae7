import Verif.Lemmas.SparseStep

/-!
# Lemmas about sparse feedback: how the states move
-/

namespace GT
open Spec

/-! ## Generators -/

/-- `g'` is a later position of the same stream. -/
def Later (g g' : Rng) : Prop := g'.draw = g.draw ∧ g.pos ≤ g'.pos

theorem Later.refl (g : Rng) : Later g g := ⟨rfl, Nat.le_refl _⟩
theorem Later.trans {a b c : Rng} (h : Later a b) (h' : Later b c) : Later a c :=
  ⟨h'.1.trans h.1, Nat.le_trans h.2 h'.2⟩
theorem later_next (g : Rng) : Later g g.next.2 := ⟨rfl, by simp [Rng.next]⟩

/-- A state update that only moves on in the stream. -/
def Fwd (f : Int → Rng → Int × Rng) : Prop := ∀ v g, Later g (f v g).2

theorem fwd_up (cfg : SCfg) : Fwd (stepUp cfg) := by
  intro v g
  unfold stepUp
  split
  · split
    · exact Later.refl g
    · exact later_next g
  · exact Later.refl g

theorem fwd_down (cfg : SCfg) : Fwd (stepDown cfg) := by
  intro v g
  unfold stepDown
  split
  · exact later_next g
  · exact Later.refl g

theorem fwd_forget (cfg : SCfg) : Fwd (stepForget cfg) := fun _ g => later_next g

theorem fwd_reject : Fwd stepReject := fun _ g => Later.refl g

/-! ## Lookups -/

theorem lookup_cons' (e : Nat × Int) (h : Half) (t : Nat) :
    List.lookup t (e :: h) = if t = e.1 then some e.2 else List.lookup t h := by
  obtain ⟨a, b⟩ := e
  rw [List.lookup_cons]
  by_cases hi : t = a
  · subst hi; simp
  · rw [beq_false_of_ne hi]; simp [hi]

theorem lookup_none (h : Half) (t : Nat) : h.lookup t = none ↔ t ∉ h.map (·.1) := by
  induction h with
  | nil => simp
  | cons e h ih =>
    rw [lookup_cons']
    split
    · rename_i he; simp [he]
    · rename_i he; rw [ih]; simp [he]

theorem updFirst_lookup (f : Int → Rng → Int × Rng) (l t : Nat) (h : Half) (g : Rng) :
    (updFirst f l h g).1.lookup t =
      if t = l then (h.lookup l).map (fun v => (f v g).1) else h.lookup t := by
  induction h with
  | nil => simp [updFirst]
  | cons e h ih =>
    unfold updFirst
    split
    · rename_i he
      rw [lookup_cons', lookup_cons', lookup_cons']
      subst he
      by_cases ht : t = e.1 <;> simp [ht]
    · rename_i he
      dsimp only
      rw [lookup_cons', lookup_cons', lookup_cons', ih]
      by_cases ht : t = e.1
      · subst ht; simp [he]
      · have : ¬ l = e.1 := fun h => he h.symm
        simp [ht, this]

theorem updFirst_gen (f : Int → Rng → Int × Rng) (l : Nat) (h : Half) (g : Rng) :
    (updFirst f l h g).2.1 = match h.lookup l with | none => g | some v => (f v g).2 := by
  induction h with
  | nil => rfl
  | cons e h ih =>
    unfold updFirst
    rw [lookup_cons']
    split
    · rename_i he; subst he; simp
    · rename_i he
      have : ¬ l = e.1 := fun h => he h.symm
      simp [ih, this]

theorem updFirst_later (f : Int → Rng → Int × Rng) (hf : Fwd f) (l : Nat) (h : Half) (g : Rng) :
    Later g (updFirst f l h g).2.1 := by
  rw [updFirst_gen]
  split
  · exact Later.refl g
  · exact hf _ _

theorem updAll_later (p : Nat → Bool) (f : Int → Rng → Int × Rng) (hf : Fwd f) (h : Half) (g : Rng) :
    Later g (updAll p f h g).2 := by
  induction h generalizing g with
  | nil => exact Later.refl g
  | cons e h ih =>
    unfold updAll
    split
    · exact (hf e.2 g).trans (ih _)
    · exact ih g

theorem updAll_lookup (p : Nat → Bool) (f : Int → Rng → Int × Rng) (hf : Fwd f) (h : Half) (g : Rng) (t : Nat)
    (v : Int) (hl : h.lookup t = some v) :
    (p t = false → (updAll p f h g).1.lookup t = some v) ∧
    (p t = true → ∃ g', Later g g' ∧ (updAll p f h g).1.lookup t = some (f v g').1) := by
  induction h generalizing g with
  | nil => simp at hl
  | cons e h ih =>
    rw [lookup_cons'] at hl
    unfold updAll
    by_cases ht : t = e.1
    · subst ht
      simp at hl
      subst hl
      split
      · rename_i hp
        refine ⟨fun h => by simp [hp] at h, fun _ => ⟨g, Later.refl g, ?_⟩⟩
        dsimp only
        rw [lookup_cons']; simp
      · rename_i hp
        refine ⟨fun _ => ?_, fun h => absurd h hp⟩
        dsimp only
        rw [lookup_cons']; simp
    · rw [if_neg ht] at hl
      split
      · obtain ⟨h1, h2⟩ := ih (f e.2 g).2 hl
        dsimp only
        rw [lookup_cons', if_neg ht]
        refine ⟨h1, fun h => ?_⟩
        obtain ⟨g', hg, he⟩ := h2 h
        exact ⟨g', (hf _ _).trans hg, he⟩
      · obtain ⟨h1, h2⟩ := ih g hl
        dsimp only
        rw [lookup_cons', if_neg ht]
        exact ⟨h1, h2⟩

theorem t1aLits_lookup (cfg : SCfg) (x : List Nat) (hx : x.Nodup) (pos neg : Half) (al : List Nat × Nat) (g : Rng) :
    Later g (t1aLits cfg x pos neg al g).2.2.2 ∧
    (∀ t, t ∉ x → (t1aLits cfg x pos neg al g).1.lookup t = pos.lookup t ∧
      (t1aLits cfg x pos neg al g).2.1.lookup t = neg.lookup t) ∧
    (∀ t v, t ∈ x → pos.lookup t = some v →
      ∃ g', Later g g' ∧ (t1aLits cfg x pos neg al g).1.lookup t = some (stepUp cfg v g').1) ∧
    (∀ t v, t ∈ x → neg.lookup t = some v →
      ∃ g', Later g g' ∧ (t1aLits cfg x pos neg al g).2.1.lookup t = some (stepDown cfg v g').1) := by
  induction x generalizing pos neg al g with
  | nil => exact ⟨Later.refl g, fun t _ => ⟨rfl, rfl⟩, by simp, by simp⟩
  | cons l ls ih =>
    have hn := List.nodup_cons.mp hx
    unfold t1aLits
    dsimp only
    have l1 := updFirst_later (stepUp cfg) (fwd_up cfg) l pos g
    have l2 := updFirst_later (stepDown cfg) (fwd_down cfg) l neg (updFirst (stepUp cfg) l pos g).2.1
    obtain ⟨i1, i2, i3, i4⟩ := ih hn.2 (updFirst (stepUp cfg) l pos g).1
      (updFirst (stepDown cfg) l neg (updFirst (stepUp cfg) l pos g).2.1).1
      (if (updFirst (stepUp cfg) l pos g).2.2 then al else updateAL cfg al l)
      (updFirst (stepDown cfg) l neg (updFirst (stepUp cfg) l pos g).2.1).2.1
    refine ⟨(l1.trans l2).trans i1, ?_, ?_, ?_⟩
    · intro t ht
      rw [List.mem_cons, not_or] at ht
      have := i2 t ht.2
      rw [this.1, this.2, updFirst_lookup, updFirst_lookup, if_neg ht.1, if_neg ht.1]
      exact ⟨rfl, rfl⟩
    · intro t v ht hv
      by_cases htl : t = l
      · subst htl
        have := (i2 t hn.1).1
        rw [updFirst_lookup, if_pos rfl, hv] at this
        exact ⟨g, Later.refl g, this⟩
      · have htls : t ∈ ls := (List.mem_cons.mp ht).resolve_left htl
        obtain ⟨g', hg, he⟩ := i3 t v htls (by rw [updFirst_lookup, if_neg htl]; exact hv)
        exact ⟨g', (l1.trans l2).trans hg, he⟩
    · intro t v ht hv
      by_cases htl : t = l
      · subst htl
        have := (i2 t hn.1).2
        rw [updFirst_lookup, if_pos rfl, hv] at this
        exact ⟨_, l1, this⟩
      · have htls : t ∈ ls := (List.mem_cons.mp ht).resolve_left htl
        obtain ⟨g', hg, he⟩ := i4 t v htls (by rw [updFirst_lookup, if_neg htl]; exact hv)
        exact ⟨g', (l1.trans l2).trans hg, he⟩

/-! ## Steps -/

theorem wrap8_self (v : Int) (h : -128 ≤ v) (h' : v ≤ 127) : wrap8 v = v := by unfold wrap8; omega

theorem stepUp_eq (cfg : SCfg) (v : Int) (g : Rng) (h : -128 ≤ v) :
    (stepUp cfg v g).1 = climb cfg.boost cfg.sMin1Inv g.next.1 v := by
  unfold stepUp climb
  by_cases h1 : v < 127
  · have := wrap8_self (v + 1) (by omega) (by omega)
    rw [if_pos h1]
    by_cases hb : cfg.boost = true
    · simp [hb, h1, this]
    · by_cases hu : g.next.1 ≤ cfg.sMin1Inv <;> simp [hb, h1, hu, this]
  · simp [h1]

theorem stepDown_eq (cfg : SCfg) (v : Int) (g : Rng) (h' : v ≤ 127) :
    (stepDown cfg v g).1 = sink cfg.sInv g.next.1 v := by
  unfold stepDown sink
  by_cases h1 : -127 < v
  · have := wrap8_self (v - 1) (by omega) (by omega)
    rw [if_pos h1]
    by_cases hu : g.next.1 ≤ cfg.sInv <;> simp [h1, hu, this]
  · rw [if_neg h1]; simp [h1]

theorem stepForget_eq (cfg : SCfg) (v : Int) (g : Rng) (h' : v ≤ 127) :
    (stepForget cfg v g).1 = sink cfg.sInv g.next.1 v := by
  unfold stepForget sink
  by_cases h1 : -127 < v
  · have := wrap8_self (v - 1) (by omega) (by omega)
    by_cases hu : g.next.1 ≤ cfg.sInv <;> simp [h1, hu, this]
  · simp [h1]

theorem stepReject_eq (v : Int) (g : Rng) (h : -128 ≤ v) :
    (stepReject v g).1 = if v < 0 then v + 1 else v := by
  unfold stepReject
  split
  · exact wrap8_self (v + 1) (by omega) (by omega)
  · rfl

/-- The rewarding feedback before pruning, literal by literal. -/
theorem sT1a_lookup (cfg : SCfg) (x : List Nat) (hx : x.Nodup) (pos neg : Half) (al : List Nat × Nat) (g : Rng)
    (t : Nat) (v : Int) (hb : -128 ≤ v) (hb' : v ≤ 127) :
    (pos.lookup t = some v → ∃ i, g.pos ≤ i ∧ (sT1a cfg x pos neg al g).1.lookup t =
      some (if t ∈ x then climb cfg.boost cfg.sMin1Inv (g.draw i) v else sink cfg.sInv (g.draw i) v)) ∧
    (neg.lookup t = some v → ∃ i, g.pos ≤ i ∧ (sT1a cfg x pos neg al g).2.1.lookup t =
      some (if t ∈ x then sink cfg.sInv (g.draw i) v else climb cfg.boost cfg.sMin1Inv (g.draw i) v)) := by
  obtain ⟨h1, h2, h3, h4⟩ := t1aLits_lookup cfg x hx pos neg al g
  unfold sT1a
  dsimp only
  have l1 := updAll_later (fun l => !decide (l ∈ x)) (stepDown cfg) (fwd_down cfg) (t1aLits cfg x pos neg al g).1
    (t1aLits cfg x pos neg al g).2.2.2
  constructor
  · intro hv
    by_cases ht : t ∈ x
    · obtain ⟨g', hg, he⟩ := h3 t v ht hv
      refine ⟨g'.pos, hg.2, ?_⟩
      have := (updAll_lookup (fun l => !decide (l ∈ x)) (stepDown cfg) (fwd_down cfg) _
        (t1aLits cfg x pos neg al g).2.2.2 t _ he).1 (by simp [ht])
      rw [this, if_pos ht, stepUp_eq cfg v g' hb, ← hg.1]
      rfl
    · have he := (h2 t ht).1
      rw [hv] at he
      obtain ⟨g', hg, he⟩ := (updAll_lookup (fun l => !decide (l ∈ x)) (stepDown cfg) (fwd_down cfg) _
        (t1aLits cfg x pos neg al g).2.2.2 t _ he).2 (by simp [ht])
      have hg := h1.trans hg
      refine ⟨g'.pos, hg.2, ?_⟩
      rw [he, if_neg ht, stepDown_eq cfg v g' hb', ← hg.1]
      rfl
  · intro hv
    by_cases ht : t ∈ x
    · obtain ⟨g', hg, he⟩ := h4 t v ht hv
      refine ⟨g'.pos, hg.2, ?_⟩
      have := (updAll_lookup (fun l => !decide (l ∈ x)) (stepUp cfg) (fwd_up cfg) _
        (updAll (fun l => !decide (l ∈ x)) (stepDown cfg) (t1aLits cfg x pos neg al g).1
          (t1aLits cfg x pos neg al g).2.2.2).2 t _ he).1 (by simp [ht])
      rw [this, if_pos ht, stepDown_eq cfg v g' hb', ← hg.1]
      rfl
    · have he := (h2 t ht).2
      rw [hv] at he
      obtain ⟨g', hg, he⟩ := (updAll_lookup (fun l => !decide (l ∈ x)) (stepUp cfg) (fwd_up cfg) _
        (updAll (fun l => !decide (l ∈ x)) (stepDown cfg) (t1aLits cfg x pos neg al g).1
          (t1aLits cfg x pos neg al g).2.2.2).2 t _ he).2 (by simp [ht])
      have hg := (h1.trans l1).trans hg
      refine ⟨g'.pos, hg.2, ?_⟩
      rw [he, if_neg ht, stepUp_eq cfg v g' hb, ← hg.1]
      rfl

/-! ## Draw counts -/

theorem stepUp_pos (cfg : SCfg) (v : Int) (g : Rng) :
    (stepUp cfg v g).2.pos = g.pos + if decide (v < 127) && !cfg.boost then 1 else 0 := by
  unfold stepUp
  by_cases h : v < 127
  · by_cases hb : cfg.boost = true <;> simp [h, hb, Rng.next]
  · simp [h]

theorem stepDown_pos (cfg : SCfg) (v : Int) (g : Rng) :
    (stepDown cfg v g).2.pos = g.pos + if decide (-127 < v) then 1 else 0 := by
  unfold stepDown
  by_cases h : -127 < v
  · simp [h, Rng.next]
  · rw [if_neg h]; simp [h]

theorem updFirst_pos (f : Int → Rng → Int × Rng) (n : Int → Bool)
    (hf : ∀ v g, (f v g).2.pos = g.pos + if n v then 1 else 0) (l : Nat) (h : Half) (g : Rng) :
    (updFirst f l h g).2.1.pos = g.pos + if (h.lookup l).any n then 1 else 0 := by
  rw [updFirst_gen]
  cases h.lookup l with
  | none => simp
  | some v => simp [hf]

theorem updAll_pos (p : Nat → Bool) (f : Int → Rng → Int × Rng) (n : Int → Bool)
    (hf : ∀ v g, (f v g).2.pos = g.pos + if n v then 1 else 0) (h : Half) (g : Rng) :
    (updAll p f h g).2.pos = g.pos + h.countP (fun e => p e.1 && n e.2) := by
  induction h generalizing g with
  | nil => rfl
  | cons e h ih =>
    unfold updAll
    rw [List.countP_cons]
    split
    · rename_i hp
      simp only [ih, hf, hp, Bool.true_and]
      omega
    · rename_i hp
      have hp : p e.1 = false := by simpa using hp
      simp [ih, hp]

theorem t1aLits_pos (cfg : SCfg) (x : List Nat) (hx : x.Nodup) (pos neg : Half) (al : List Nat × Nat) (g : Rng) :
    (t1aLits cfg x pos neg al g).2.2.2.pos = g.pos +
      x.countP (fun l => (pos.lookup l).any (fun v => decide (v < 127) && !cfg.boost)) +
      x.countP (fun l => (neg.lookup l).any (fun v => decide (-127 < v))) := by
  induction x generalizing pos neg al g with
  | nil => rfl
  | cons l ls ih =>
    have hn := List.nodup_cons.mp hx
    unfold t1aLits
    dsimp only
    rw [ih hn.2, updFirst_pos (stepDown cfg) _ (stepDown_pos cfg), updFirst_pos (stepUp cfg) _ (stepUp_pos cfg),
      List.countP_cons, List.countP_cons]
    have e1 : ∀ (n : Int → Bool) (f : Int → Rng → Int × Rng) (h : Half) (g : Rng),
        ls.countP (fun a => ((updFirst f l h g).1.lookup a).any n) = ls.countP (fun a => (h.lookup a).any n) := by
      intro n f h g
      apply List.countP_congr
      intro a ha
      have : a ≠ l := fun h => hn.1 (h ▸ ha)
      rw [updFirst_lookup, if_neg this]
    rw [e1, e1]
    omega

theorem updFirst_filter (q : Nat → Bool) (f : Int → Rng → Int × Rng) (l : Nat) (hl : q l = false) (h : Half)
    (g : Rng) : (updFirst f l h g).1.filter (fun e => q e.1) = h.filter (fun e => q e.1) := by
  induction h with
  | nil => rfl
  | cons e h ih =>
    unfold updFirst
    split
    · rename_i he
      subst he
      rw [List.filter_cons, List.filter_cons]
      simp [hl]
    · dsimp only
      rw [List.filter_cons, List.filter_cons, ih]

theorem t1aLits_filter (cfg : SCfg) (q : Nat → Bool) (x : List Nat) (hx : ∀ l ∈ x, q l = false) (pos neg : Half)
    (al : List Nat × Nat) (g : Rng) :
    (t1aLits cfg x pos neg al g).1.filter (fun e => q e.1) = pos.filter (fun e => q e.1) ∧
    (t1aLits cfg x pos neg al g).2.1.filter (fun e => q e.1) = neg.filter (fun e => q e.1) := by
  induction x generalizing pos neg al g with
  | nil => exact ⟨rfl, rfl⟩
  | cons l ls ih =>
    unfold t1aLits
    dsimp only
    have := ih (fun a ha => hx a (List.mem_cons_of_mem _ ha)) (updFirst (stepUp cfg) l pos g).1
      (updFirst (stepDown cfg) l neg (updFirst (stepUp cfg) l pos g).2.1).1
      (if (updFirst (stepUp cfg) l pos g).2.2 then al else updateAL cfg al l)
      (updFirst (stepDown cfg) l neg (updFirst (stepUp cfg) l pos g).2.1).2.1
    rw [this.1, this.2, updFirst_filter q _ l (hx l (by simp)), updFirst_filter q _ l (hx l (by simp))]
    exact ⟨rfl, rfl⟩

theorem countP_and (q : Nat → Bool) (n : Int → Bool) (h : Half) :
    h.countP (fun e => q e.1 && n e.2) = (h.filter (fun e => q e.1)).countP (fun e => n e.2) := by
  rw [List.countP_filter]
  apply List.countP_congr
  intro e _
  rw [Bool.and_comm]

theorem sT1a_pos (cfg : SCfg) (x : List Nat) (hx : x.Nodup) (c : SClause) (al : List Nat × Nat) (g : Rng) :
    (sT1a cfg x c.pos c.neg al g).2.2.2.pos = g.pos + rewardDraws cfg x c := by
  unfold sT1a rewardDraws
  dsimp only
  have hf := t1aLits_filter cfg (fun l => !decide (l ∈ x)) x (by simp) c.pos c.neg al g
  rw [updAll_pos _ _ _ (stepUp_pos cfg), updAll_pos _ _ _ (stepDown_pos cfg), t1aLits_pos cfg x hx]
  have k : ∀ (n : Int → Bool) (h h' : Half),
      h'.filter (fun e => !decide (e.1 ∈ x)) = h.filter (fun e => !decide (e.1 ∈ x)) →
      h'.countP (fun e => !decide (e.1 ∈ x) && n e.2) = h.countP (fun e => !decide (e.1 ∈ x) && n e.2) := by
    intro n h h' he
    have := countP_and (fun l => !decide (l ∈ x)) n h
    have := countP_and (fun l => !decide (l ∈ x)) n h'
    simp_all
  have k1 := k (fun v => decide (-127 < v)) _ _ hf.1
  have k2 := k (fun v => decide (v < 127) && !cfg.boost) _ _ hf.2
  rw [k1, k2]
  omega

/-! ## Forgetting and rejecting -/

theorem sT1b_get (cfg : SCfg) (pos neg : Half) (g : Rng) (i t : Nat) (v : Int) (hb : v ≤ 127) :
    (pos[i]? = some (t, v) → (sT1b cfg pos neg g).1[i]? = some (t, sink cfg.sInv (g.draw (g.pos + i)) v)) ∧
    (neg[i]? = some (t, v) →
      (sT1b cfg pos neg g).2.1[i]? = some (t, sink cfg.sInv (g.draw (g.pos + pos.length + i)) v)) ∧
    (sT1b cfg pos neg g).2.2 = ⟨g.draw, g.pos + pos.length + neg.length⟩ := by
  have key : ∀ (h : Half) (g : Rng), (updAll (fun _ => true) (stepForget cfg) h g).2 = ⟨g.draw, g.pos + h.length⟩ ∧
      ∀ i, h[i]? = some (t, v) → (updAll (fun _ => true) (stepForget cfg) h g).1[i]? =
        some (t, sink cfg.sInv (g.draw (g.pos + i)) v) := by
    intro h
    induction h with
    | nil => intro g; exact ⟨rfl, by simp⟩
    | cons e h ih =>
      intro g
      unfold updAll
      obtain ⟨h1, h2⟩ := ih (stepForget cfg e.2 g).2
      simp only [if_true]
      constructor
      · rw [h1]
        simp only [stepForget, Rng.next, List.length_cons, Rng.mk.injEq, true_and]
        omega
      · intro i hi
        cases i with
        | zero =>
          simp at hi
          subst hi
          simp only [List.getElem?_cons_zero]
          rw [stepForget_eq cfg _ g hb]
          rfl
        | succ i =>
          simp only [List.getElem?_cons_succ] at hi ⊢
          rw [h2 i hi]
          simp only [stepForget, Rng.next, Nat.add_assoc, Nat.add_comm 1 i]
  unfold sT1b
  dsimp only
  have k1 := key pos g
  have k2 := key neg (updAll (fun _ => true) (stepForget cfg) pos g).2
  refine ⟨k1.2 i, fun h => ?_, ?_⟩
  · rw [k2.2 i h, k1.1]
  · rw [k2.1, k1.1]

theorem mem_updAll_reject (q : Nat → Bool) (h : Half) (g : Rng) (hb : ∀ e ∈ h, -128 ≤ e.2) :
    (updAll q stepReject h g).1 = h.map (fun e => (e.1, if q e.1 ∧ e.2 < 0 then e.2 + 1 else e.2)) := by
  induction h generalizing g with
  | nil => rfl
  | cons e h ih =>
    have ih := ih g (fun e he => hb e (List.mem_cons_of_mem _ he))
    unfold updAll
    split
    · rename_i hq
      have : (stepReject e.2 g).2 = g := rfl
      simp only [this, ih, List.map_cons, stepReject_eq e.2 g (hb e (by simp)), hq, true_and]
    · rename_i hq
      simp only [ih, List.map_cons, hq]
      simp

theorem mem_t2Active_tracked (cfg : SCfg) (x as : List Nat) (pos neg : Half) :
    (∀ e ∈ (t2Active cfg x as pos neg).1, e ∈ pos ∨ e.1 ∉ pos.map (·.1)) ∧
    (∀ e ∈ (t2Active cfg x as pos neg).2, e ∈ neg ∨ e.1 ∉ neg.map (·.1)) := by
  have tr : ∀ (a : Nat) (h : Half), ∀ e ∈ track cfg a h, e ∈ h ∨ e.1 ∉ h.map (·.1) := by
    intro a h e he
    unfold track at he
    split at he
    · exact Or.inl he
    · rename_i hm
      split at he
      · rcases List.mem_append.mp he with he | he
        · exact Or.inl he
        · simp at he; subst he; exact Or.inr hm
      · exact Or.inl he
  induction as generalizing pos neg with
  | nil => exact ⟨fun e he => Or.inl he, fun e he => Or.inl he⟩
  | cons a as ih =>
    unfold t2Active
    split
    · obtain ⟨i1, i2⟩ := ih pos (track cfg a neg)
      refine ⟨i1, fun e he => ?_⟩
      rcases i2 e he with h | h
      · exact tr a neg e h
      · exact Or.inr fun hm => h (((track_lits cfg a neg).2.2.2.map _).subset hm)
    · obtain ⟨i1, i2⟩ := ih (track cfg a pos) neg
      refine ⟨fun e he => ?_, i2⟩
      rcases i1 e he with h | h
      · exact tr a pos e h
      · exact Or.inr fun hm => h (((track_lits cfg a pos).2.2.2.map _).subset hm)

/-- Membership after the rejecting feedback and sorting. -/
theorem mem_sT2 (cfg : SCfg) (x : List Nat) (pos neg : Half) (al : List Nat) (g : Rng)
    (hb : ∀ e ∈ pos, -128 ≤ e.2) (hb' : ∀ e ∈ neg, -128 ≤ e.2) :
    (∀ t v, (t, v) ∈ pos → (t, if t ∉ x ∧ v < 0 then v + 1 else v) ∈ sortHalf (sT2 cfg x pos neg al g).1) ∧
    (∀ t v, (t, v) ∈ neg → (t, if t ∈ x ∧ v < 0 then v + 1 else v) ∈ sortHalf (sT2 cfg x pos neg al g).2) ∧
    (∀ t v, (t, v) ∈ sortHalf (sT2 cfg x pos neg al g).1 →
      (∃ w, (t, w) ∈ pos ∧ v = if t ∉ x ∧ w < 0 then w + 1 else w) ∨
      (t ∉ pos.map (·.1) ∧ t ∈ al ∧ t ∉ x ∧ v = wrap8 (cfg.lowerTA + 5))) ∧
    (∀ t v, (t, v) ∈ sortHalf (sT2 cfg x pos neg al g).2 →
      (∃ w, (t, w) ∈ neg ∧ v = if t ∈ x ∧ w < 0 then w + 1 else w) ∨
      (t ∉ neg.map (·.1) ∧ t ∈ al ∧ t ∈ x ∧ v = wrap8 (cfg.lowerTA + 5))) := by
  have e1 := mem_updAll_reject (fun l => !decide (l ∈ x)) pos g hb
  have e2 := mem_updAll_reject (fun l => decide (l ∈ x)) neg g hb'
  have p1 := (sortHalf_spec (sT2 cfg x pos neg al g).1).1
  have p2 := (sortHalf_spec (sT2 cfg x pos neg al g).2).1
  simp only [p1.mem_iff, p2.mem_iff]
  unfold sT2
  dsimp only
  obtain ⟨_, _, ⟨m1, m2⟩, s1, s2⟩ := t2Active_spec cfg x al
    (updAll (fun l => !decide (l ∈ x)) stepReject pos g).1 (updAll (fun l => decide (l ∈ x)) stepReject neg g).1
  obtain ⟨k1, k2⟩ := mem_t2Active_tracked cfg x al
    (updAll (fun l => !decide (l ∈ x)) stepReject pos g).1 (updAll (fun l => decide (l ∈ x)) stepReject neg g).1
  have l1 := updAll_lits (fun l => !decide (l ∈ x)) stepReject pos g
  have l2 := updAll_lits (fun l => decide (l ∈ x)) stepReject neg g
  rw [l1] at k1
  rw [l2] at k2
  rw [e1, e2] at m1 m2 k1 k2 s1 s2 ⊢
  refine ⟨?_, ?_, ?_, ?_⟩
  · intro t v h
    apply s1.subset
    rw [List.mem_map]
    exact ⟨(t, v), h, by simp⟩
  · intro t v h
    apply s2.subset
    rw [List.mem_map]
    exact ⟨(t, v), h, by simp⟩
  · intro t v h
    rcases m1 _ h with h' | h'
    · left
      obtain ⟨⟨t', w⟩, hm, he⟩ := List.mem_map.mp h'
      simp at he
      obtain ⟨rfl, rfl⟩ := he
      exact ⟨w, hm, by simp⟩
    · rcases k1 _ h with h'' | h''
      · left
        obtain ⟨⟨t', w⟩, hm, he⟩ := List.mem_map.mp h''
        simp at he
        obtain ⟨rfl, rfl⟩ := he
        exact ⟨w, hm, by simp⟩
      · exact Or.inr ⟨h'', h'⟩
  · intro t v h
    rcases m2 _ h with h' | h'
    · left
      obtain ⟨⟨t', w⟩, hm, he⟩ := List.mem_map.mp h'
      simp at he
      obtain ⟨rfl, rfl⟩ := he
      exact ⟨w, hm, by simp⟩
    · rcases k2 _ h with h'' | h''
      · left
        obtain ⟨⟨t', w⟩, hm, he⟩ := List.mem_map.mp h''
        simp at he
        obtain ⟨rfl, rfl⟩ := he
        exact ⟨w, hm, by simp⟩
      · exact Or.inr ⟨h'', h'⟩

end GT
