import Verif.Lemmas.SparseState
import Verif.Lemmas.SparseExec

/-! # Helper lemmas about rule sets compiled from sparse states -/

namespace GT
open Spec

/-! ## Rows out of the arrays -/

theorem pySlice_map {α β : Type} (f : α → β) (l : List α) (lo hi : Nat) :
    pySlice (l.map f) lo hi = (pySlice l lo hi).map f := by
  simp [pySlice, List.map_take, List.map_drop]

theorem slice_rows (rows : List Half) (i : Nat) (r : Half) (h : rows[i]? = some r) :
    pySlice (rows.flatMap id) ((rows.take i).map (·.length)).sum ((rows.take (i + 1)).map (·.length)).sum = r := by
  induction rows generalizing i with
  | nil => simp at h
  | cons r0 rs ih =>
    cases i with
    | zero =>
      simp at h
      subst h
      simp [pySlice]
    | succ i =>
      simp only [List.getElem?_cons_succ] at h
      have := ih i h
      simp only [pySlice, List.take_succ_cons, List.map_cons, List.sum_cons, List.flatMap_cons, id] at this ⊢
      rw [List.take_length_add_append, List.drop_length_add_append]
      exact this

theorem zip_fst_snd (r : Half) : (r.map (·.1)).zip (r.map (·.2)) = r := by
  induction r with
  | nil => rfl
  | cons e r ih => simp [ih]

theorem ruleLits_row (rows : List Half) (i : Nat) (r : Half) (h : rows[i]? = some r) :
    ruleLits (csrLoop rows 0) ((csrLoop rows 0).indptr.getD i 0) ((csrLoop rows 0).indptr.getD (i + 1) 0) =
      (r.filter fun e => decide (e.2 > 0)).map (·.1) := by
  have hi : i < rows.length := (List.getElem?_eq_some_iff.mp h).1
  unfold ruleLits
  rw [List.getD_eq_getElem?_getD, List.getD_eq_getElem?_getD, csrLoop_indptr rows 0 i (by omega),
    csrLoop_indptr rows 0 (i + 1) (by omega)]
  simp only [Option.getD_some, Nat.zero_add]
  rw [csrLoop_data, csrLoop_indices, pySlice_map, pySlice_map, slice_rows rows i r h, zip_fst_snd]

/-- The literals above 0 of a half, in order. -/
def aboveHalf (h : Half) : Half := h.filter fun e => decide (e.2 > 0)

/-- The rule of a sparse clause. -/
def sRule (n : Nat) (c : SClause) : List Nat :=
  (aboveHalf c.pos).map (·.1) ++ ((aboveHalf c.neg).map (·.1)).map (· + n)

theorem stateRules_block (n : Nat) (b : SBlock) : stateRules n [b.getCsr] = b.clauses.map (sRule n) := by
  have hnc : (b.getCsr.indptr.length - 1) / 2 = b.clauses.length := by
    rw [SBlock.getCsr, csrLoop_indptr_length, rows_length]; omega
  simp only [stateRules, List.flatMap_cons, List.flatMap_nil, List.append_nil, hnc]
  apply List.ext_getElem (by simp)
  intro i h1 h2
  simp only [List.length_map] at h2
  simp only [List.getElem_map, List.getElem_range]
  unfold ruleOf sRule aboveHalf SBlock.getCsr
  rw [ruleLits_row b.rows i b.clauses[i].pos (by
      unfold SBlock.rows
      rw [List.getElem?_append_left (by simpa using h2)]
      simp [h2]),
    ruleLits_row b.rows (i + b.clauses.length) b.clauses[i].neg (by
      unfold SBlock.rows
      rw [List.getElem?_append_right (by simp)]
      simp [h2])]

theorem stateRules_blocks (n : Nat) (bs : List SBlock) :
    stateRules n (bs.map (·.getCsr)) = (bs.flatMap (·.clauses)).map (sRule n) := by
  induction bs with
  | nil => rfl
  | cons b bs ih =>
    have h1 := stateRules_block n b
    simp only [stateRules, List.flatMap_cons, List.flatMap_nil, List.append_nil, List.map_cons,
      List.map_append] at h1 ih ⊢
    rw [ih, h1]

/-! ## The dense state with the same rules -/

theorem above_on (h : Half) (t : Nat) : On (aboveHalf h) t ↔ Above h t := by
  unfold On Above aboveHalf
  constructor
  · rintro ⟨v, hm, h0⟩
    simp at hm
    exact ⟨v, hm.1, by omega⟩
  · rintro ⟨v, hm, h0⟩
    exact ⟨v, by simp [hm, h0], by omega⟩

theorem aboveHalf_sorted {h : Half} (hs : SortedHalf h) : SortedHalf (aboveHalf h) :=
  List.Pairwise.filter _ hs

theorem aboveHalf_below {n : Nat} {h : Half} (hn : ∀ e ∈ h, e.1 < n) : ∀ e ∈ aboveHalf h, e.1 < n :=
  fun e he => hn e (List.mem_of_mem_filter he)

/-- The dense row of literal states. -/
def aboveRow (n : Nat) (c : SClause) : List Int := denseRow n (aboveHalf c.pos) ++ denseRow n (aboveHalf c.neg)

theorem aboveRow_take (n : Nat) (c : SClause) : (aboveRow n c).take n = denseRow n (aboveHalf c.pos) := by
  unfold aboveRow
  rw [List.take_left' (by simp [denseRow])]

theorem aboveRow_drop (n : Nat) (c : SClause) : (aboveRow n c).drop n = denseRow n (aboveHalf c.neg) := by
  unfold aboveRow
  rw [List.drop_left' (by simp [denseRow])]

theorem included_above (n : Nat) (h : Half) (hs : SortedHalf h) (hn : ∀ e ∈ h, e.1 < n) (i : Nat) :
    Included (denseRow n (aboveHalf h)) i ↔ Above h i := by
  rw [included_denseRow n _ (aboveHalf_sorted hs) (aboveHalf_below hn), above_on]

theorem above_mem (h : Half) (i : Nat) : i ∈ (aboveHalf h).map (·.1) ↔ Above h i := by
  rw [← above_on]
  unfold On
  constructor
  · intro hi
    obtain ⟨e, he, rfl⟩ := List.mem_map.mp hi
    have : e.2 > 0 := by
      have := List.mem_filter.mp he
      simpa using this.2
    exact ⟨e.2, he, by omega⟩
  · rintro ⟨v, hm, -⟩
    exact List.mem_map.mpr ⟨(i, v), hm, rfl⟩

theorem sRule_eq (m n : Nat) (c : SClause) (h : SClauseOK m n c) : sRule m c = onLiterals (aboveRow m c) 0 := by
  obtain ⟨hp, hq, hb, -⟩ := h
  apply sorted_ext ?_ (onLiterals_sorted _ 0)
  · intro i
    rw [onLiterals_exact m (aboveRow m c) [] i, aboveRow_take, aboveRow_drop]
    simp only
    rw [included_above m _ hp hb.1, included_above m _ hq hb.2]
    unfold sRule
    rw [List.mem_append, above_mem]
    constructor
    · rintro (h1 | h1)
      · left
        obtain ⟨v, hv, h0⟩ := h1
        exact ⟨hb.1 _ hv, v, hv, h0⟩
      · obtain ⟨j, hj, rfl⟩ := List.mem_map.mp h1
        right
        exact ⟨by omega, by rw [Nat.add_sub_cancel]; exact (above_mem _ _).mp hj⟩
    · rintro (h1 | ⟨h1, h2⟩)
      · exact Or.inl h1.2
      · exact Or.inr (List.mem_map.mpr ⟨i - m, (above_mem _ _).mpr h2, by omega⟩)
  · unfold sRule
    rw [List.pairwise_append]
    refine ⟨?_, ?_, ?_⟩
    · rw [List.pairwise_map]; exact aboveHalf_sorted hp
    · rw [List.map_map, List.pairwise_map]
      exact (aboveHalf_sorted hq).imp (fun {a b} h => by simp only [Function.comp]; omega)
    · intro a ha b hb'
      obtain ⟨e, he, rfl⟩ := List.mem_map.mp ha
      obtain ⟨j, -, rfl⟩ := List.mem_map.mp hb'
      have := aboveHalf_below hb.1 e he
      omega

/-- The dense state with the same rules. -/
def aboveState (m n : Nat) (cs : List SClause) : DState := ⟨m, n, cs.map (aboveRow m), cs.map (·.w)⟩

theorem aboveState_shaped (m n : Nat) (cs : List SClause) (h : ∀ c ∈ cs, SClauseOK m n c) :
    WellShaped (aboveState m n cs) := by
  refine ⟨by simp [aboveState], ?_, ?_⟩
  · intro row hr
    obtain ⟨c, -, rfl⟩ := List.mem_map.mp hr
    simp [aboveRow, denseRow, aboveState]
    omega
  · intro w hw
    obtain ⟨c, hc, rfl⟩ := List.mem_map.mp hw
    exact (h c hc).2.2.2

theorem aboveState_clauses (m n : Nat) (cs : List SClause) :
    stateClauses (aboveState m n cs) =
      cs.map fun c => (denseRow m (aboveHalf c.pos), denseRow m (aboveHalf c.neg), c.w) := by
  unfold stateClauses aboveState
  simp only
  induction cs with
  | nil => rfl
  | cons c cs ih => simp only [List.map_cons, List.zipWith_cons_cons, aboveRow_take, aboveRow_drop, ih]

/-! ## The two compilations -/

theorem ruleSet_same (m : RMap) (r : List Nat) (u : List Int) (h : ruleGet m r = some u) : ruleSet m r u = m := by
  induction m with
  | nil => rfl
  | cons e m ih =>
    obtain ⟨a, b⟩ := e
    rw [ruleGet] at h
    rw [ruleSet]
    by_cases he : a = r
    · simp only [he, if_true, Option.some.injEq] at h ⊢
      rw [h]
    · simp only [he, if_false] at h ⊢
      rw [ih h]

theorem zipWith_zero (u w : List Int) (hl : u.length = w.length) (hz : w.all (· == 0) = true) :
    List.zipWith (· + ·) u w = u := by
  induction u generalizing w with
  | nil => rfl
  | cons a u ih =>
    cases w with
    | nil => simp at hl
    | cons b w =>
      simp only [List.all_cons, Bool.and_eq_true, beq_iff_eq] at hz
      simp only [List.zipWith_cons_cons, hz.1, Int.add_zero]
      rw [ih w (by simpa using hl) hz.2]

theorem stepZ_len (n : Nat) (m : RMap) (row w : List Int) (hm : ∀ e ∈ m, e.2.length = n) (hw : w.length = n) :
    ∀ e ∈ stepZ n m row w, e.2.length = n := by
  intro e he
  unfold stepZ at he
  dsimp only at he
  split at he
  · exact hm e he
  · split at he
    · next u hu =>
      rcases ruleSet_mem m _ _ e he with h | ⟨h, -⟩
      · exact hm e h
      · subst h
        have := hm _ (ruleGet_mem m _ u hu)
        simp only at this
        simp [this, hw]
    · split at he
      · exact hm e he
      · rcases List.mem_append.mp he with h | h
        · exact hm e h
        · simp at h
          subst h
          simp [hw]

theorem sCompileStep_wrap (n : Nat) (m : RMap) (row w : List Int) (hm : ∀ e ∈ m, e.2.length = n)
    (hw : w.length = n) :
    sCompileStep n (wrapMap m) (onLiterals row 0) w = wrapMap (stepZ n m row w) := by
  rw [← compileStep_wrap]
  unfold sCompileStep compileStep
  dsimp only
  by_cases hz : w.all (· == 0) = true
  · simp only [hz, if_true]
    by_cases hl : (onLiterals row 0).length < 1
    · simp only [hl, if_true]
    · simp only [hl, if_false]
      cases hg : ruleGet (wrapMap m) (onLiterals row 0) with
      | none => rfl
      | some u =>
        simp only
        rw [ruleGet_wrap] at hg
        cases hg' : ruleGet m (onLiterals row 0) with
        | none => rw [hg'] at hg; simp at hg
        | some v =>
          rw [hg'] at hg
          simp only [Option.map_some, Option.some.injEq] at hg
          have hlen := hm _ (ruleGet_mem m _ v hg')
          simp only at hlen
          rw [← hg, addWeights_wrap, zipWith_zero v w (by omega) hz, ruleSet_wrap, ruleSet_same m _ v hg']
  · simp only [hz]
    cases ruleGet (wrapMap m) (onLiterals row 0) <;> simp

theorem sCompileLoop_wrap (n : Nat) (ws rows : List (List Int)) (k : Nat) (m : RMap)
    (h : rows.length + k = ws.length) (hm : ∀ e ∈ m, e.2.length = n) (hw : ∀ w ∈ ws, w.length = n) :
    sCompileLoop n ws (rows.map (onLiterals · 0)) k (wrapMap m) =
      .ok (wrapMap (loopZ n m (rows.zip (ws.drop k)))) := by
  induction rows generalizing k m with
  | nil => rfl
  | cons row rows ih =>
    simp only [List.length_cons] at h
    have hk : k < ws.length := by omega
    have hwk := hw _ (List.getElem_mem hk)
    rw [List.map_cons, sCompileLoop, List.getElem?_eq_getElem hk]
    simp only
    rw [sCompileStep_wrap n m row _ hm hwk, ih (k + 1) _ (by omega) (stepZ_len n m row _ hm hwk),
      List.drop_eq_getElem_cons hk]
    rfl

theorem compileSparse_eq (ml : Bool) (m n : Nat) (bs : List SBlock) (h : ∀ c ∈ bs.flatMap (·.clauses), SClauseOK m n c)
    (s : SparseSt) (hn : s.nLits = some m) (hc : s.csr = bs.map (·.getCsr))
    (hw : s.w = (bs.flatMap (·.clauses)).map (·.w)) :
    ∃ rs, compileSparse ml n s = .ok rs ∧ compileDense ml (aboveState m n (bs.flatMap (·.clauses))) = .ok rs := by
  generalize hcs : bs.flatMap (·.clauses) = cs at *
  have hrules : (cs.map (sRule m)) = (cs.map (aboveRow m)).map (onLiterals · 0) := by
    rw [List.map_map]
    exact List.map_congr_left (fun c hc => sRule_eq m n c (h c hc))
  have h1 := sCompileLoop_wrap n (cs.map (·.w)) (cs.map (aboveRow m)) 0 [] (by simp) (by simp) (by
    intro w hw'
    obtain ⟨c, hc', rfl⟩ := List.mem_map.mp hw'
    exact (h c hc').2.2.2)
  have h2 := compileLoop_wrap n (cs.map (·.w)) (cs.map (aboveRow m)) 0 [] (by simp)
  simp only [wrapMap, List.map_nil] at h1 h2
  generalize List.map (fun e : List Nat × List Int => (e.1, List.map wrap16 e.2)) (loopZ n [] _) = M at h1 h2
  refine ⟨⟨m, n, ml, M.map (·.1), M.map (·.2)⟩, ?_, ?_⟩
  · unfold compileSparse ruleLiterals
    rw [hn]
    simp only
    rw [hc, stateRules_blocks, hcs, hw, hrules, h1]
  · unfold compileDense aboveState
    simp only
    rw [h2]

/-! ## Sums -/

theorem fires_above (m : Nat) (x : List Nat) (n : Nat) (c : SClause) (h : SClauseOK m n c) :
    Fires x (denseRow m (aboveHalf c.pos), denseRow m (aboveHalf c.neg), c.w) ↔ AboveFires x (sLearned c) := by
  obtain ⟨hp, hq, hb, -⟩ := h
  unfold Fires EmptyClause Satisfied AboveFires sLearned
  simp only [included_above m _ hp hb.1, included_above m _ hq hb.2]
  constructor
  · rintro ⟨h1, h2, h3⟩
    refine ⟨?_, h2, h3⟩
    apply Classical.byContradiction
    intro hn
    exact h1 ⟨fun i hi => hn ⟨i, Or.inl hi⟩, fun i hi => hn ⟨i, Or.inr hi⟩⟩
  · rintro ⟨⟨t, ht⟩, h2, h3⟩
    refine ⟨?_, h2, h3⟩
    rintro ⟨a, b⟩
    rcases ht with ht | ht
    · exact a t ht
    · exact b t ht

open Classical in
theorem aboveSum_cons (c : Half × Half × List Int) (cs : List (Half × Half × List Int)) (x : List Nat) (k : Nat) :
    aboveSum (c :: cs) x k = (if AboveFires x c then c.2.2.getD k 0 else 0) + aboveSum cs x k := by
  unfold aboveSum
  by_cases h : AboveFires x c <;> simp [h]

theorem firingSum_above (m n : Nat) (cs : List SClause) (h : ∀ c ∈ cs, SClauseOK m n c) (x : List Nat) (k : Nat) :
    firingSum (stateClauses (aboveState m n cs)) x k = aboveSum (cs.map sLearned) x k := by
  rw [aboveState_clauses]
  induction cs with
  | nil => rfl
  | cons c cs ih =>
    classical
    rw [List.map_cons, List.map_cons, firingSum_cons, aboveSum_cons, ih (fun c hc => h c (by simp [hc]))]
    congr 1
    simp only [fires_above m x n c (h c (by simp))]
    rfl

theorem lists_above (m n : Nat) (c : SClause) (h : SClauseOK m n c) (r : List Nat) :
    IncludesExactly m (denseRow m (aboveHalf c.pos), denseRow m (aboveHalf c.neg), c.w) r ↔
      ListsAbove m (sLearned c) r := by
  obtain ⟨hp, hq, hb, -⟩ := h
  unfold IncludesExactly ListsAbove sLearned
  simp only [included_above m _ hp hb.1, included_above m _ hq hb.2]

theorem sameClauseSum_above (m n : Nat) (cs : List SClause) (h : ∀ c ∈ cs, SClauseOK m n c) (r : List Nat) (k : Nat) :
    sameClauseSum m (stateClauses (aboveState m n cs)) r k = aboveSame m (cs.map sLearned) r k := by
  rw [aboveState_clauses]
  unfold sameClauseSum aboveSame
  rw [List.filter_map, List.filter_map, List.map_map, List.map_map]
  congr 1
  rw [List.filter_congr (q := (fun c => open Classical in decide (ListsAbove m c r)) ∘ sLearned)]
  · rfl
  · intro c hc
    simp only [Function.comp, decide_eq_decide]
    exact lists_above m n c (h c hc) r

/-- For clauses without zero states that track literals on both sides, include at least one and whose last tracked positive
literal is included or not beyond the example, the literals above 0 hold exactly when the backend's clause fires. -/
theorem firingSum_above_sparse (m n : Nat) (cl : List SClause) (x : List Nat)
    (hc : ∀ c ∈ cl, SClauseOK m n c ∧ c.pos ≠ [] ∧ c.neg ≠ [] ∧
      (∃ t, On c.pos t ∨ On c.neg t) ∧ (∀ p ∈ c.pos, p.2 ≠ 0) ∧ (∀ p ∈ c.neg, p.2 ≠ 0) ∧
      ∀ t, IsLast c.pos t → On c.pos t ∨ ∃ l ∈ x, t ≤ l) :
    ∀ j, firingSum (stateClauses (aboveState m n cl)) (denseEx m x) j = sFiringSum (cl.map sLearned) x j := by
  have h' : ∀ c ∈ cl, SClauseOK m n c := fun c h => (hc c h).1
  have habove : ∀ (l : Half) (t : Nat), (∀ p ∈ l, p.2 ≠ 0) → (Above l t ↔ On l t) := by
    intro l t hz
    constructor
    · rintro ⟨v, hv, h0⟩; exact ⟨v, hv, by omega⟩
    · rintro ⟨v, hv, h0⟩
      have := hz _ hv
      simp only at this
      exact ⟨v, hv, by omega⟩
  intro j
  rw [firingSum_above m n _ h']
  have hall : ∀ c ∈ cl, AboveFires (denseEx m x) (sLearned c) ↔ SFires x (sLearned c) := by
    intro c hcm
    obtain ⟨⟨q1, q2, q3, -⟩, q5, q6, q7, q8, q9, q10⟩ := hc c hcm
    unfold AboveFires SFires sLearned
    simp only [habove _ _ q8, habove _ _ q9, denseEx_one, denseEx_zero]
    constructor
    · rintro ⟨-, z1, z2⟩
      exact ⟨q5, q6, fun t ht => Or.inl (z1 t ht).2, fun t ht => (z2 t ht).2⟩
    · rintro ⟨-, -, z1, z2⟩
      refine ⟨q7, ?_, ?_⟩
      · intro t ht
        obtain ⟨v, hv', h0⟩ := ht
        refine ⟨q3.1 _ hv', ?_⟩
        rcases z1 t ⟨v, hv', h0⟩ with z | ⟨z, zl⟩
        · exact z
        · exfalso
          obtain ⟨u, hu⟩ : ∃ u, IsLast c.pos u := by
            unfold IsLast
            cases hg : c.pos.getLast? with
            | none => exact absurd (List.getLast?_eq_none_iff.mp hg) q5
            | some w => exact ⟨w.1, rfl⟩
          have htu : t ≤ u := by
            unfold IsLast at hu
            cases hg : c.pos.getLast? with
            | none => rw [hg] at hu; simp at hu
            | some w =>
              rw [hg] at hu
              simp at hu
              have := List.getLast?_eq_some_iff.mp hg
              obtain ⟨ys, hys⟩ := this
              rw [hys] at hv' q1
              rcases List.mem_append.mp hv' with hm | hm
              · have := (List.pairwise_append.mp q1).2.2 _ hm w (by simp)
                simp only at this
                omega
              · have := congrArg Prod.fst (List.mem_singleton.mp hm)
                simp only at this
                omega
          rcases q10 u hu with hon | ⟨l, hl, hul⟩
          · rcases z1 u hon with zz | ⟨zz, -⟩
            · have := zl u zz; omega
            · exact zz hu
          · have := zl l hl; omega
      · intro t ht
        obtain ⟨v, hv', h0⟩ := ht
        exact ⟨q3.2 _ hv', z2 t ⟨v, hv', h0⟩⟩
  clear hc h'
  induction cl with
  | nil => rfl
  | cons c cl ih =>
    classical
    rw [List.map_cons, aboveSum_cons, sFiringSum_cons, ih (fun c hc => hall c (List.mem_cons_of_mem _ hc))]
    congr 1
    simp only [hall c (by simp)]

end GT
