import Verif.Spec.Matching
import Verif.Lemmas.Dense
import Verif.Lemmas.Avx2
import Verif.Lemmas.Neon
import Verif.Lemmas.Conv

/-! Helper lemmas about what clauses match. -/

namespace GT
namespace Match
open Spec

/-- Included literals that are true in the example stay included. -/
def Keeps (x : List Nat) (c c' : Clause) : Prop :=
  ∀ i, (Included c.pos i → x[i]? = some 1 → Included c'.pos i) ∧ (Included c.neg i → x[i]? = some 0 → Included c'.neg i)

theorem Keeps.refl (x : List Nat) (c : Clause) : Keeps x c c := fun _ => ⟨fun h _ => h, fun h _ => h⟩

theorem Keeps.trans {x : List Nat} {a b c : Clause} (h1 : Keeps x a b) (h2 : Keeps x b c) : Keeps x a c :=
  fun i => ⟨fun h hx => (h2 i).1 ((h1 i).1 h hx) hx, fun h hx => (h2 i).2 ((h1 i).2 h hx) hx⟩

theorem Keeps.within {x : List Nat} {c c' : Clause} (h : Keeps x c c') (hs : Satisfied c.pos c.neg x) (n : Nat) :
    Within n c' c :=
  fun _ _ _ hz => ⟨fun i hi => hz.1 i ((h i).1 hi (hs.1 i hi)), fun i hi => hz.2 i ((h i).2 hi (hs.2 i hi))⟩

/-- A row in which nothing rises leaves the clause matching at least as much. -/
theorem within_of_less {c c' : Clause} (hp : ∀ i, Included c'.pos i → Included c.pos i)
    (hq : ∀ i, Included c'.neg i → Included c.neg i) (n : Nat) : Within n c c' :=
  fun _ _ _ hz => ⟨fun i hi => hz.1 i (hp i hi), fun i hi => hz.2 i (hq i hi)⟩

/-! ### The portable backend -/

theorem update_keeps (cfg : Cfg) (x : List Nat) (j : Nat) (t : Int) (c : Clause) (g : Rng) (ho : c.out = 1)
    (hc : Shaped x.length c) (hp : InRange c.pos) (hq : InRange c.neg) :
    Keeps x c (clauseUpdate cfg x j t c g).1 := by
  have ha : Keeps x c { c with pos := (t1a cfg c.pos c.neg x g).1, neg := (t1a cfg c.pos c.neg x g).2.1 } := by
    intro i
    have hi : ∀ v : Nat, x[i]? = some v → ∃ p q, c.pos[i]? = some p ∧ c.neg[i]? = some q := by
      intro v hv
      have hl : i < x.length := (List.getElem?_eq_some_iff.mp hv).1
      exact ⟨_, _, List.getElem?_eq_getElem (by rw [hc.1]; exact hl), List.getElem?_eq_getElem (by rw [hc.2]; exact hl)⟩
    constructor
    · rintro ⟨v, hv, h0⟩ hx
      obtain ⟨p, q, h1, h2⟩ := hi _ hx
      obtain ⟨p', q', e1, e2, hP, hQ⟩ := t1a_get cfg c.pos c.neg x g hc.1 hc.2 i h1 h2 hx
      obtain rfl : p = v := Option.some.inj (h1.symm.trans hv)
      refine ⟨p', e1, ?_⟩
      have := hp p (List.mem_of_getElem? h1)
      have hr := incState_range this
      unfold T1aPos at hP
      rw [if_pos rfl] at hP
      rcases hP with rfl | ⟨_, rfl⟩
      · unfold incState wrap8; split <;> omega
      · exact h0
    · rintro ⟨v, hv, h0⟩ hx
      obtain ⟨p, q, h1, h2⟩ := hi _ hx
      obtain ⟨p', q', e1, e2, hP, hQ⟩ := t1a_get cfg c.pos c.neg x g hc.1 hc.2 i h1 h2 hx
      obtain rfl : q = v := Option.some.inj (h2.symm.trans hv)
      refine ⟨q', e2, ?_⟩
      have := hq q (List.mem_of_getElem? h2)
      unfold T1aNeg at hQ
      rw [if_neg (by decide)] at hQ
      rcases hQ with rfl | rfl
      · unfold incState wrap8; split <;> omega
      · exact h0
  have h2 : Keeps x c { c with pos := (t2 c.pos c.neg x).1, neg := (t2 c.pos c.neg x).2 } := by
    intro i
    have hi : ∀ v : Nat, x[i]? = some v → ∃ p q, c.pos[i]? = some p ∧ c.neg[i]? = some q := by
      intro v hv
      have hl : i < x.length := (List.getElem?_eq_some_iff.mp hv).1
      exact ⟨_, _, List.getElem?_eq_getElem (by rw [hc.1]; exact hl), List.getElem?_eq_getElem (by rw [hc.2]; exact hl)⟩
    constructor
    · rintro ⟨v, hv, h0⟩ hx
      obtain ⟨p, q, h1, h2⟩ := hi _ hx
      have e := (t2_get c.pos c.neg x hc.1 hc.2 i h1 h2 hx).1
      rw [if_neg (by simp)] at e
      obtain rfl : p = v := Option.some.inj (h1.symm.trans hv)
      exact ⟨p, e, h0⟩
    · rintro ⟨v, hv, h0⟩ hx
      obtain ⟨p, q, h1, h2⟩ := hi _ hx
      have e := (t2_get c.pos c.neg x hc.1 hc.2 i h1 h2 hx).2
      rw [if_neg (by simp)] at e
      obtain rfl : q = v := Option.some.inj (h2.symm.trans hv)
      exact ⟨q, e, h0⟩
  unfold clauseUpdate
  dsimp only
  generalize (if c.w.getD j 0 ≥ 0 then (1 : Int) else -1) = sign
  rw [if_pos ho]
  split
  · exact ha
  · split
    · exact h2
    · exact Keeps.refl _ _

theorem trainClause_keeps (cfg : Cfg) (x : List Nat) (fb : Feedback) (c : Clause) (f g : Rng)
    (ho : (budgetGate cfg c).out = 1) (hc : Shaped x.length c) (hp : InRange c.pos) (hq : InRange c.neg) :
    Keeps x c (trainClause cfg x fb c f g).1 := by
  have h0 : Keeps x c (budgetGate cfg c) := by intro i; simp only [budgetGate_pos, budgetGate_neg]; exact Keeps.refl x c i
  have sh0 : Shaped x.length (budgetGate cfg c) := ⟨by simpa using hc.1, by simpa using hc.2⟩
  have hp0 : InRange (budgetGate cfg c).pos := by simpa using hp
  have hq0 : InRange (budgetGate cfg c).neg := by simpa using hq
  have k1 := fun j t g => update_keeps cfg x j t _ g ho sh0 hp0 hq0
  have s1 : ∀ j t g, Shaped x.length (clauseUpdate cfg x j t (budgetGate cfg c) g).1 := by
    intro j t g
    have := clauseUpdate_length cfg x j t (budgetGate cfg c) g
    exact ⟨this.1.trans sh0.1, this.2.trans sh0.2⟩
  have r1 := fun j t g => clauseUpdate_inRange cfg x j t (budgetGate cfg c) g hp0 hq0
  have o1 := fun j t g => (clauseUpdate_out cfg x j t (budgetGate cfg c) g).1.trans ho
  unfold trainClause
  dsimp only
  by_cases hP : f.next.1 < fb.posProb <;> by_cases hN : f.next.2.next.1 < fb.negProb <;>
    simp only [hP, hN, if_true, if_false]
  · exact h0.trans ((k1 _ _ _).trans (update_keeps _ _ _ _ _ _ (o1 _ _ _) (s1 _ _ _) (r1 _ _ _).1 (r1 _ _ _).2))
  · exact h0.trans (k1 _ _ _)
  · exact h0.trans (k1 _ _ _)
  · exact h0

theorem trainClause_wider (cfg : Cfg) (x : List Nat) (fb : Feedback) (c : Clause) (f g : Rng)
    (ho : (budgetGate cfg c).out ≠ 1) (hl : c.pos.length = c.neg.length) (hp : InRange c.pos) (hq : InRange c.neg)
    (n : Nat) : Within n c (trainClause cfg x fb c f g).1 := by
  have := trainClause_silent_noRise cfg x fb c f g ho hl hp hq
  exact within_of_less (fun i => this.2.1.included i) (fun i => this.2.2.included i) n

/-- Rewarding feedback includes only literals that are true in the example. -/
theorem t1a_keeps_match (cfg : Cfg) (x : List Nat) (hx : Binary x) (c c' : Clause) (g : Rng) (hc : Shaped x.length c)
    (hp : InRange c.pos) (hq : InRange c.neg) (hs : Satisfied c.pos c.neg x)
    (h1 : c'.pos = (t1a cfg c.pos c.neg x g).1) (h2 : c'.neg = (t1a cfg c.pos c.neg x g).2.1) :
    Satisfied c'.pos c'.neg x := by
  have hl := t1a_length cfg c.pos c.neg x g
  have hi : ∀ i, i < x.length → ∃ p q v, c.pos[i]? = some p ∧ c.neg[i]? = some q ∧ x[i]? = some v := by
    intro i hi
    exact ⟨_, _, _, List.getElem?_eq_getElem (by rw [hc.1]; exact hi), List.getElem?_eq_getElem (by rw [hc.2]; exact hi),
      List.getElem?_eq_getElem hi⟩
  constructor
  · rintro i ⟨v, hv, h0⟩
    rw [h1] at hv
    have hlt : i < x.length := by
      have := (List.getElem?_eq_some_iff.mp hv).1
      rw [hl.1, hc.1] at this
      exact this
    obtain ⟨p, q, y, e1, e2, e3⟩ := hi i hlt
    obtain ⟨p', q', f1, f2, hP, hQ⟩ := t1a_get cfg c.pos c.neg x g hc.1 hc.2 i e1 e2 e3
    obtain rfl : p' = v := Option.some.inj (f1.symm.trans hv)
    rcases hx y (List.mem_of_getElem? e3) with rfl | rfl
    · have hr := hp p (List.mem_of_getElem? e1)
      unfold T1aPos at hP
      rw [if_neg (by decide)] at hP
      have : 0 ≤ p := by
        rcases hP with rfl | rfl
        · unfold decState wrap8 at h0
          split at h0 <;> omega
        · exact h0
      have := hs.1 i ⟨p, e1, this⟩
      rw [e3] at this
      exact absurd this (by decide)
    · exact e3
  · rintro i ⟨v, hv, h0⟩
    rw [h2] at hv
    have hlt : i < x.length := by
      have := (List.getElem?_eq_some_iff.mp hv).1
      rw [hl.2, hc.2] at this
      exact this
    obtain ⟨p, q, y, e1, e2, e3⟩ := hi i hlt
    obtain ⟨p', q', f1, f2, hP, hQ⟩ := t1a_get cfg c.pos c.neg x g hc.1 hc.2 i e1 e2 e3
    obtain rfl : q' = v := Option.some.inj (f2.symm.trans hv)
    rcases hx y (List.mem_of_getElem? e3) with rfl | rfl
    · exact e3
    · have hr := hq q (List.mem_of_getElem? e2)
      unfold T1aNeg at hQ
      rw [if_pos rfl] at hQ
      have : 0 ≤ q := by
        rcases hQ with rfl | rfl
        · unfold decState wrap8 at h0
          split at h0 <;> omega
        · exact h0
      have := hs.2 i ⟨q, e2, this⟩
      rw [e3] at this
      exact absurd this (by decide)

theorem satisfied_wider {n : Nat} {c c' : Clause} {x : List Nat} (h : Within n c c') (hx : Binary x) (hl : x.length = n)
    (hs : Satisfied c.pos c.neg x) : Satisfied c'.pos c'.neg x := h x hx hl hs

theorem update_rewarded (cfg : Cfg) (x : List Nat) (hx : Binary x) (j : Nat) (t : Int) (c : Clause) (g : Rng)
    (hc : Shaped x.length c) (hp : InRange c.pos) (hq : InRange c.neg) (hs : Satisfied c.pos c.neg x)
    (ht : (t = 1 ∧ 0 ≤ c.w.getD j 0) ∨ (t = -1 ∧ c.w.getD j 0 < 0)) :
    Satisfied (clauseUpdate cfg x j t c g).1.pos (clauseUpdate cfg x j t c g).1.neg x := by
  by_cases ho : c.out = 1
  · have := clauseUpdate_t1a cfg x j t c g ⟨ho, ht⟩
    exact t1a_keeps_match cfg x hx c _ g hc hp hq hs this.1 this.2
  · have := clauseUpdate_silent_noRise cfg x j t c g ho (hc.1.trans hc.2.symm) hp hq
    exact within_of_less (c := c) (fun i => this.2.1.included i) (fun i => this.2.2.included i) x.length x hx rfl hs

theorem trainClause_rewarded (cfg : Cfg) (x : List Nat) (fb : Feedback) (c : Clause) (f g : Rng) (hx : Binary x)
    (hc : Shaped x.length c) (hp : InRange c.pos) (hq : InRange c.neg) (hs : Satisfied c.pos c.neg x)
    (hcl : fb.posClass ≠ fb.negClass) (h1 : 0 ≤ c.w.getD fb.posClass 0) (h2 : c.w.getD fb.negClass 0 < 0) :
    Satisfied (trainClause cfg x fb c f g).1.pos (trainClause cfg x fb c f g).1.neg x := by
  have sh0 : Shaped x.length (budgetGate cfg c) := ⟨by simpa using hc.1, by simpa using hc.2⟩
  have hp0 : InRange (budgetGate cfg c).pos := by simpa using hp
  have hq0 : InRange (budgetGate cfg c).neg := by simpa using hq
  have hs0 : Satisfied (budgetGate cfg c).pos (budgetGate cfg c).neg x := by simpa using hs
  have a1 := fun g => update_rewarded cfg x hx fb.posClass 1 (budgetGate cfg c) g sh0 hp0 hq0 hs0
    (Or.inl ⟨rfl, by simpa using h1⟩)
  have a2 := fun g => update_rewarded cfg x hx fb.negClass (-1) (budgetGate cfg c) g sh0 hp0 hq0 hs0
    (Or.inr ⟨rfl, by simpa using h2⟩)
  have s1 : ∀ g, Shaped x.length (clauseUpdate cfg x fb.posClass 1 (budgetGate cfg c) g).1 := by
    intro g
    have := clauseUpdate_length cfg x fb.posClass 1 (budgetGate cfg c) g
    exact ⟨this.1.trans sh0.1, this.2.trans sh0.2⟩
  have r1 := fun g => clauseUpdate_inRange cfg x fb.posClass 1 (budgetGate cfg c) g hp0 hq0
  have w1 : ∀ g, (clauseUpdate cfg x fb.posClass 1 (budgetGate cfg c) g).1.w.getD fb.negClass 0 < 0 := by
    intro g
    rw [(clauseUpdate_w cfg x fb.posClass 1 (budgetGate cfg c) g (Or.inl rfl))]
    rw [budgetGate_w]
    split
    · rw [List.getD_eq_getElem?_getD, List.getElem?_set_ne hcl, ← List.getD_eq_getElem?_getD]
      exact h2
    · exact h2
  unfold trainClause
  dsimp only
  by_cases hP : f.next.1 < fb.posProb <;> by_cases hN : f.next.2.next.1 < fb.negProb <;>
    simp only [hP, hN, if_true, if_false]
  · exact update_rewarded cfg x hx fb.negClass (-1) _ _ (s1 _) (r1 _).1 (r1 _).2 (a1 _) (Or.inr ⟨rfl, w1 _⟩)
  · exact a1 _
  · exact a2 _
  · exact hs0

/-! ### Rows of bytes -/

/-- Bytes of the two halves that are true in the example and non-negative stay non-negative. -/
theorem included_map (n : Nat) (f : Nat → Int) (i : Nat) :
    Included ((List.range n).map f) i ↔ i < n ∧ 0 ≤ f i := by
  unfold Included
  by_cases h : i < n
  · simp [h]
  · simp [h]

theorem example_get (n : Nat) (lits : Mem) (i v : Nat) :
    (unpadExample n lits)[i]? = some v ↔ i < n ∧ (lits i).toNat = v := by
  unfold unpadExample
  by_cases h : i < n
  · simp [h]
  · simp [h]

theorem byte_one {b : Byte} (h : b.toNat = 1) : b = 1#8 := BitVec.eq_of_toNat_eq (by simpa using h)
theorem byte_zero {b : Byte} (h : b.toNat = 0) : b = 0#8 := BitVec.eq_of_toNat_eq (by simpa using h)

theorem lane_up (boost : Bool) (cmp rnd v : Byte) (h : 0 ≤ v.toInt) : 0 ≤ (t1aLane boost cmp true rnd v).toInt := by
  rw [t1aLane_toInt, if_pos rfl]
  split <;> omega

theorem lane_t2 (b : Bool) (v : Byte) (h : 0 ≤ v.toInt) : 0 ≤ (t2Lane b v).toInt := by
  rw [t2Lane_toInt, if_neg (by omega)]
  exact h

theorem avx_update_keeps (cfg : VCfg) (lits : Mem) (j : Nat) (t : Int) (c : VClause) (g : VRng) (ho : c.out = 1) :
    Keeps (unpadExample cfg.nLits lits) (unpad cfg.nLits c) (unpad cfg.nLits (avxClauseUpdate cfg lits j t c g).1) := by
  have hm := (avxMem_div cfg.nLits).2
  intro i
  simp only [unpad, included_map, example_get]
  have key : (avxClauseUpdate cfg lits j t c g).1.row = c.row ∨
      (avxClauseUpdate cfg lits j t c g).1.row = (avxT1a cfg c.row lits g).1 ∨
      (avxClauseUpdate cfg lits j t c g).1.row = (avxT2 cfg c.row lits g).1 := by
    unfold avxClauseUpdate
    dsimp only
    generalize (if c.w.getD j 0 ≥ 0 then (1 : Int) else -1) = sign
    rw [if_pos ho]
    split
    · right; left; rfl
    · split
      · right; right; rfl
      · left; rfl
  rcases key with e | e | e <;> rw [e]
  · exact ⟨fun h _ => h, fun h _ => h⟩
  · rw [avxT1a_eq]
    dsimp only
    constructor
    · rintro ⟨hi, h0⟩ ⟨_, hx⟩
      rw [if_pos (by omega), byte_one hx]
      exact ⟨hi, lane_up _ _ _ _ h0⟩
    · rintro ⟨hi, h0⟩ ⟨_, hx⟩
      rw [if_neg (by omega), if_pos (by omega), Nat.add_sub_cancel_left, byte_zero hx]
      exact ⟨hi, lane_up _ _ _ _ h0⟩
  · rw [avxT2_eq]
    dsimp only
    constructor
    · rintro ⟨hi, h0⟩ _
      rw [if_pos (by omega)]
      exact ⟨hi, lane_t2 _ _ h0⟩
    · rintro ⟨hi, h0⟩ _
      rw [if_neg (by omega), if_pos (by omega)]
      exact ⟨hi, lane_t2 _ _ h0⟩

theorem avx_train_keeps (cfg : VCfg) (lits : Mem) (fb : Feedback) (c : VClause) (f : Rng) (g : VRng)
    (ho : (avxBudgetGate cfg c).out = 1) :
    Keeps (unpadExample cfg.nLits lits) (unpad cfg.nLits c) (unpad cfg.nLits (avxTrainClause cfg lits fb c f g).1) := by
  have h0 : Keeps (unpadExample cfg.nLits lits) (unpad cfg.nLits c) (unpad cfg.nLits (avxBudgetGate cfg c)) := by
    intro i
    simp only [unpad, (avxBudgetGate_facts cfg c).2.2]
    exact ⟨fun h _ => h, fun h _ => h⟩
  have k1 := fun j t g => avx_update_keeps cfg lits j t _ g ho
  have o1 := fun j t g ht => (avxClauseUpdate_w cfg lits j t (avxBudgetGate cfg c) g ht).2.trans ho
  unfold avxTrainClause
  dsimp only
  by_cases hP : f.next.1 < fb.posProb <;> by_cases hN : f.next.2.next.1 < fb.negProb <;>
    simp only [hP, hN, if_true, if_false]
  · exact h0.trans ((k1 _ _ _).trans (avx_update_keeps _ _ _ _ _ _ (o1 _ _ _ (Or.inl rfl))))
  · exact h0.trans (k1 _ _ _)
  · exact h0.trans (k1 _ _ _)
  · exact h0

theorem avx_train_wider (cfg : VCfg) (lits : Mem) (fb : Feedback) (c : VClause) (f : Rng) (g : VRng)
    (ho : (avxBudgetGate cfg c).out ≠ 1) (n : Nat) :
    Within n (unpad cfg.nLits c) (unpad cfg.nLits (avxTrainClause cfg lits fb c f g).1) := by
  have := (avxTrainClause_silent cfg lits fb c f g ho).2
  refine within_of_less ?_ ?_ n <;> intro i <;> simp only [unpad, included_map] <;> rintro ⟨hi, h0⟩
  · exact ⟨hi, Int.le_trans h0 (this _)⟩
  · exact ⟨hi, Int.le_trans h0 (this _)⟩

theorem neon_update_keeps (cfg : VCfg) (lits : Mem) (j : Nat) (t : Int) (c : VClause) (g : VRng) (ho : c.out = 1) :
    Keeps (unpadExample cfg.nLits lits) (neonUnpad cfg.nLits c) (neonUnpad cfg.nLits (neonClauseUpdate cfg lits j t c g).1) := by
  have hm := (Neon.neonMem_div cfg.nLits).2
  intro i
  simp only [neonUnpad, included_map, example_get]
  have key : (neonClauseUpdate cfg lits j t c g).1.row = c.row ∨
      (neonClauseUpdate cfg lits j t c g).1.row = (neonT1a cfg c.row lits g).1 ∨
      (neonClauseUpdate cfg lits j t c g).1.row = (neonT2 cfg c.row lits g).1 := by
    unfold neonClauseUpdate
    dsimp only
    generalize (if c.w.getD j 0 ≥ 0 then (1 : Int) else -1) = sign
    rw [if_pos ho]
    split
    · right; left; rfl
    · split
      · right; right; rfl
      · left; rfl
  rcases key with e | e | e <;> rw [e]
  · exact ⟨fun h _ => h, fun h _ => h⟩
  · rw [Neon.neonT1a_eq]
    dsimp only
    constructor
    · rintro ⟨hi, h0⟩ ⟨_, hx⟩
      rw [if_pos (by omega), byte_one hx]
      exact ⟨hi, lane_up _ _ _ _ h0⟩
    · rintro ⟨hi, h0⟩ ⟨_, hx⟩
      rw [if_neg (by omega), if_pos (by omega), Nat.add_sub_cancel_left, byte_zero hx]
      exact ⟨hi, lane_up _ _ _ _ h0⟩
  · rw [Neon.neonT2_eq]
    dsimp only
    constructor
    · rintro ⟨hi, h0⟩ _
      rw [if_pos (by omega)]
      exact ⟨hi, lane_t2 _ _ h0⟩
    · rintro ⟨hi, h0⟩ _
      rw [if_neg (by omega), if_pos (by omega)]
      exact ⟨hi, lane_t2 _ _ h0⟩

theorem neon_train_keeps (cfg : VCfg) (lits : Mem) (fb : Feedback) (c : VClause) (f : Rng) (g : VRng)
    (ho : (neonBudgetGate cfg c).out = 1) :
    Keeps (unpadExample cfg.nLits lits) (neonUnpad cfg.nLits c) (neonUnpad cfg.nLits (neonTrainClause cfg lits fb c f g).1) := by
  have h0 : Keeps (unpadExample cfg.nLits lits) (neonUnpad cfg.nLits c) (neonUnpad cfg.nLits (neonBudgetGate cfg c)) := by
    intro i
    simp only [neonUnpad, (Neon.neonBudgetGate_facts cfg c).2.2]
    exact ⟨fun h _ => h, fun h _ => h⟩
  have k1 := fun j t g => neon_update_keeps cfg lits j t _ g ho
  have o1 := fun j t g ht => (Neon.neonClauseUpdate_w cfg lits j t (neonBudgetGate cfg c) g ht).2.trans ho
  unfold neonTrainClause
  dsimp only
  by_cases hP : f.next.1 < fb.posProb <;> by_cases hN : f.next.2.next.1 < fb.negProb <;>
    simp only [hP, hN, if_true, if_false]
  · exact h0.trans ((k1 _ _ _).trans (neon_update_keeps _ _ _ _ _ _ (o1 _ _ _ (Or.inl rfl))))
  · exact h0.trans (k1 _ _ _)
  · exact h0.trans (k1 _ _ _)
  · exact h0

theorem neon_train_wider (cfg : VCfg) (lits : Mem) (fb : Feedback) (c : VClause) (f : Rng) (g : VRng)
    (ho : (neonBudgetGate cfg c).out ≠ 1) (n : Nat) :
    Within n (neonUnpad cfg.nLits c) (neonUnpad cfg.nLits (neonTrainClause cfg lits fb c f g).1) := by
  have := (Neon.neonTrainClause_silent cfg lits fb c f g ho).2
  refine within_of_less ?_ ?_ n <;> intro i <;> simp only [neonUnpad, included_map] <;> rintro ⟨hi, h0⟩
  · exact ⟨hi, Int.le_trans h0 (this _)⟩
  · exact ⟨hi, Int.le_trans h0 (this _)⟩

/-! ### How often a clause can be rejected -/

/-- How far a row is from having all its literals included. -/
def lack (l : List Int) : Int := (l.map fun v => max 0 (-v)).sum

theorem lack_nonneg (l : List Int) : 0 ≤ lack l := by
  unfold lack
  induction l with
  | nil => simp
  | cons a l ih => simp only [List.map_cons, List.sum_cons]; omega

theorem lack_le (l : List Int) (h : InRange l) : lack l ≤ 127 * l.length := by
  unfold lack
  induction l with
  | nil => simp
  | cons a l ih =>
    rw [inRange_cons] at h
    have := ih h.2
    simp only [List.map_cons, List.sum_cons, List.length_cons]
    omega

/-- A rejection of a clause that matches the example uses up one unit for every literal pair. -/
theorem lack_t2 (ps qs : List Int) (xs : List Nat) (hp : ps.length = xs.length) (hq : qs.length = xs.length)
    (hb : Binary xs) (hrp : InRange ps) (hrq : InRange qs) (hs : Satisfied ps qs xs) :
    lack (t2 ps qs xs).1 + lack (t2 ps qs xs).2 = lack ps + lack qs - xs.length := by
  induction xs generalizing ps qs with
  | nil =>
    have h1 := List.length_eq_zero_iff.mp hp
    have h2 := List.length_eq_zero_iff.mp hq
    subst h1 h2
    simp [t2]
  | cons x xs ih =>
    match ps, qs, hp, hq with
    | p :: ps, q :: qs, hp, hq =>
      rw [inRange_cons] at hrp hrq
      rw [binary_cons] at hb
      have hs' := satisfied_cons.mp hs
      have := ih ps qs (by simpa using hp) (by simpa using hq) hb.2 hrp.2 hrq.2 hs'.2.2
      have a1 := hs'.1
      have a2 := hs'.2.1
      rw [t2_cons]
      unfold lack at this ⊢
      simp only [List.map_cons, List.sum_cons, List.length_cons]
      rcases hb.1 with rfl | rfl
      · have hpn : p < 0 := by
          rcases Int.lt_or_le p 0 with h | h
          · exact h
          · exact absurd (a1 h) (by decide)
        rw [if_pos ⟨rfl, hpn⟩, if_neg (by simp)]
        unfold wrap8
        omega
      · have hqn : q < 0 := by
          rcases Int.lt_or_le q 0 with h | h
          · exact h
          · exact absurd (a2 h) (by decide)
        rw [if_neg (by simp), if_pos ⟨by decide, hqn⟩]
        unfold wrap8
        omega

theorem rejected_bound (n : Nat) (xs : List (List Nat)) (ps qs : List Int)
    (hx : ∀ x ∈ xs, Binary x ∧ x.length = n) (hp : ps.length = n) (hq : qs.length = n)
    (hrp : InRange ps) (hrq : InRange qs) (h : RejectedFor xs (ps, qs)) :
    (xs.length : Int) * n ≤ lack ps + lack qs := by
  induction xs generalizing ps qs with
  | nil =>
    have h1 := lack_nonneg ps
    have h2 := lack_nonneg qs
    simp; omega
  | cons x xs ih =>
    obtain ⟨hs, hr⟩ := h
    have hx0 := hx x (by simp)
    have hl := t2_length ps qs x
    have hr2 := t2_inRange ps qs x hrp hrq
    have := ih (t2 ps qs x).1 (t2 ps qs x).2 (fun y hy => hx y (by simp [hy])) (hl.1.trans hp) (hl.2.trans hq)
      hr2.1 hr2.2 hr
    rw [lack_t2 ps qs x (hp.trans hx0.2.symm) (hq.trans hx0.2.symm) hx0.1 hrp hrq hs, hx0.2] at this
    rw [List.length_cons, Int.natCast_add, Int.add_mul]
    omega

end Match
end GT
