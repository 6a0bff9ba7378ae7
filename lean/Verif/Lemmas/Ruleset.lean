import Verif.Spec.Ruleset
import Verif.Lemmas.ExecutorDense

/-! # Helper lemmas about rule sets -/

namespace GT
open Spec

/-! ### The included literals of a row -/

theorem mem_onLiterals (row : List Int) (k i : Nat) :
    i ∈ onLiterals row k ↔ k ≤ i ∧ Included row (i - k) := by
  induction row generalizing k with
  | nil => simp [onLiterals, not_included_nil]
  | cons v vs ih =>
    rw [onLiterals]
    have key : (k ≤ i ∧ Included (v :: vs) (i - k)) ↔
        ((i = k ∧ 0 ≤ v) ∨ (k + 1 ≤ i ∧ Included vs (i - (k + 1)))) := by
      constructor
      · rintro ⟨h1, h2⟩
        by_cases e : i = k
        · subst e; simp only [Nat.sub_self] at h2
          exact Or.inl ⟨rfl, included_cons_zero.mp h2⟩
        · obtain ⟨j, hj⟩ : ∃ j, i - k = j + 1 := ⟨i - k - 1, by omega⟩
          rw [hj] at h2
          refine Or.inr ⟨by omega, ?_⟩
          rw [show i - (k + 1) = j by omega]
          exact included_cons_succ.mp h2
      · rintro (⟨rfl, h⟩ | ⟨h1, h2⟩)
        · simp [included_cons_zero, h]
        · refine ⟨by omega, ?_⟩
          rw [show i - k = (i - (k + 1)) + 1 by omega]
          exact included_cons_succ.mpr h2
    rw [key]
    by_cases h : v ≥ 0
    · simp only [h, if_true, List.mem_cons, ih, and_true]
    · have h' : ¬ (0 ≤ v) := h
      simp only [h, if_false, ih, and_false, false_or]

theorem onLiterals_sorted (row : List Int) (k : Nat) : (onLiterals row k).Pairwise (· < ·) := by
  induction row generalizing k with
  | nil => simp [onLiterals]
  | cons v vs ih =>
    rw [onLiterals]
    split
    · rw [List.pairwise_cons]
      refine ⟨?_, ih _⟩
      intro j hj
      have := (mem_onLiterals vs (k + 1) j).mp hj
      omega
    · exact ih _

theorem included_lt {l : List Int} {i : Nat} (h : Included l i) : i < l.length := by
  obtain ⟨v, hv, -⟩ := h
  exact (List.getElem?_eq_some_iff.mp hv).1

theorem included_take (l : List Int) (n i : Nat) : Included (l.take n) i ↔ i < n ∧ Included l i := by
  unfold Included
  rw [List.getElem?_take]
  split <;> rename_i h <;> simp [h]

theorem included_drop (l : List Int) (n i : Nat) : Included (l.drop n) i ↔ Included l (n + i) := by
  unfold Included
  rw [List.getElem?_drop]

theorem onLiterals_exact (n : Nat) (row w : List Int) :
    IncludesExactly n (row.take n, row.drop n, w) (onLiterals row 0) := by
  intro i
  rw [mem_onLiterals]
  simp only [Nat.zero_le, true_and, Nat.sub_zero, included_take, included_drop]
  by_cases h : i < n
  · simp [h]
  · have : n + (i - n) = i := by omega
    simp [h, this, show n ≤ i by omega]

theorem sorted_ext {a b : List Nat} (ha : a.Pairwise (· < ·)) (hb : b.Pairwise (· < ·))
    (h : ∀ i, i ∈ a ↔ i ∈ b) : a = b := by
  induction a generalizing b with
  | nil =>
    cases b with
    | nil => rfl
    | cons y b => have := (h y).mpr (by simp); simp at this
  | cons x a ih =>
    cases b with
    | nil => have := (h x).mp (by simp); simp at this
    | cons y b =>
      rw [List.pairwise_cons] at ha hb
      have hxy : x = y := by
        have h1 := (h x).mp (by simp)
        have h2 := (h y).mpr (by simp)
        simp only [List.mem_cons] at h1 h2
        rcases h1 with h1 | h1
        · exact h1
        · rcases h2 with h2 | h2
          · exact h2.symm
          · have := ha.1 y h2; have := hb.1 x h1; omega
      subst hxy
      congr 1
      apply ih ha.2 hb.2
      intro i
      have := h i
      simp only [List.mem_cons] at this
      constructor
      · intro hi
        rcases this.mp (Or.inr hi) with e | e
        · subst e; have := ha.1 i hi; omega
        · exact e
      · intro hi
        rcases this.mpr (Or.inr hi) with e | e
        · subst e; have := hb.1 i hi; omega
        · exact e

theorem includesExactly_iff (n : Nat) (row w : List Int) (r : List Nat) (hr : r.Pairwise (· < ·)) :
    IncludesExactly n (row.take n, row.drop n, w) r ↔ onLiterals row 0 = r := by
  constructor
  · intro h
    apply sorted_ext (onLiterals_sorted row 0) hr
    intro i
    rw [h i, onLiterals_exact n row w i]
  · rintro rfl
    exact onLiterals_exact n row w

theorem matches_iff (n : Nat) (row w : List Int) (x : List Nat) :
    Matches n x (onLiterals row 0) ↔ Satisfied (row.take n) (row.drop n) x := by
  have h := onLiterals_exact n row w
  unfold Matches Satisfied
  constructor
  · intro hm
    constructor
    · intro i hi
      have hlt := ((included_take row n i).mp hi).1
      rcases hm i ((h i).mpr (Or.inl ⟨hlt, hi⟩)) with h1 | h1
      · exact h1.2
      · omega
    · intro i hi
      have := hm (n + i) ((h (n + i)).mpr (Or.inr ⟨by omega, by simpa using hi⟩))
      rcases this with h1 | h1
      · omega
      · simpa using h1.2
  · rintro ⟨h1, h2⟩ i hi
    rcases (h i).mp hi with ⟨a, b⟩ | ⟨a, b⟩
    · exact Or.inl ⟨a, h1 i b⟩
    · exact Or.inr ⟨a, h2 _ b⟩

theorem empty_iff (n : Nat) (row : List Int) (w : List Int) :
    onLiterals row 0 = [] ↔ EmptyClause (row.take n) (row.drop n) := by
  have h := onLiterals_exact n row w
  rw [List.eq_nil_iff_forall_not_mem]
  unfold EmptyClause
  constructor
  · intro hm
    refine ⟨fun i hi => hm i ((h i).mpr (Or.inl ⟨((included_take row n i).mp hi).1, hi⟩)),
      fun i hi => hm (n + i) ((h (n + i)).mpr (Or.inr ⟨by omega, by simpa using hi⟩))⟩
  · rintro ⟨h1, h2⟩ i hi
    rcases (h i).mp hi with ⟨a, b⟩ | ⟨a, b⟩
    · exact h1 i b
    · exact h2 _ b

/-! ### Compilation with unbounded weights -/

abbrev RMap := List (List Nat × List Int)

/-- `compileStep` without the 16-bit wrap. -/
def stepZ (nClasses : Nat) (m : RMap) (row w : List Int) : RMap :=
  let on := onLiterals row 0
  if on.length < 1 then m
  else
    match ruleGet m on with
    | some u => ruleSet m on (List.zipWith (· + ·) u w)
    | none =>
      if w.all (· == 0) then m
      else m ++ [(on, List.zipWith (· + ·) (List.replicate nClasses 0) w)]

def wrapMap (m : RMap) : RMap := m.map fun e => (e.1, e.2.map wrap16)

theorem ruleGet_wrap (m : RMap) (key : List Nat) :
    ruleGet (wrapMap m) key = (ruleGet m key).map (·.map wrap16) := by
  induction m with
  | nil => rfl
  | cons e m ih =>
    simp only [wrapMap, List.map_cons, ruleGet] at ih ⊢
    by_cases h : e.1 = key
    · simp [h]
    · simp [h, ih]

theorem ruleSet_wrap (m : RMap) (key : List Nat) (v : List Int) :
    ruleSet (wrapMap m) key (v.map wrap16) = wrapMap (ruleSet m key v) := by
  induction m with
  | nil => rfl
  | cons e m ih =>
    simp only [wrapMap, List.map_cons, ruleSet] at ih ⊢
    by_cases h : e.1 = key
    · simp [h]
    · simp [h, ih]

theorem addWeights_wrap (u w : List Int) :
    addWeights (u.map wrap16) w = (List.zipWith (· + ·) u w).map wrap16 := by
  induction u generalizing w with
  | nil => rfl
  | cons a u ih =>
    cases w with
    | nil => rfl
    | cons b w =>
      simp only [addWeights, List.map_cons, List.zipWith_cons_cons, wrap16_add_wrap16] at ih ⊢
      rw [ih]

theorem compileStep_wrap (n : Nat) (m : RMap) (row w : List Int) :
    compileStep n (wrapMap m) row w = wrapMap (stepZ n m row w) := by
  unfold compileStep stepZ
  dsimp only
  split
  · rfl
  · rw [ruleGet_wrap]
    cases ruleGet m (onLiterals row 0) with
    | some u => simp only [Option.map_some]; rw [addWeights_wrap, ruleSet_wrap]
    | none =>
      simp only [Option.map_none]
      split
      · rfl
      · have : addWeights (List.replicate n 0) w =
            (List.zipWith (· + ·) (List.replicate n 0) w).map wrap16 := by
          rw [← addWeights_wrap]; simp [wrap16_zero]
        rw [this]
        simp [wrapMap]

def loopZ (n : Nat) (m : RMap) (rows : List (List Int × List Int)) : RMap :=
  rows.foldl (fun m r => stepZ n m r.1 r.2) m

theorem compileLoop_wrap (n : Nat) (ws rows : List (List Int)) (k : Nat) (m : RMap)
    (h : rows.length + k = ws.length) :
    compileLoop n ws rows k (wrapMap m) = .ok (wrapMap (loopZ n m (rows.zip (ws.drop k)))) := by
  induction rows generalizing k m with
  | nil => rfl
  | cons row rows ih =>
    simp only [List.length_cons] at h
    have hk : k < ws.length := by omega
    rw [compileLoop, List.getElem?_eq_getElem hk]
    simp only
    rw [compileStep_wrap, ih (k + 1) _ (by omega), List.drop_eq_getElem_cons hk]
    rfl

/-! ### Invariants of the compiled map -/

/-- Weight sum of the processed rows with these literals. -/
def patSum (rows : List (List Int × List Int)) (r : List Nat) (k : Nat) : Int :=
  ((rows.filter fun p => decide (onLiterals p.1 0 = r)).map fun p => p.2.getD k 0).sum

structure RInv (n : Nat) (rows : List (List Int × List Int)) (m : RMap) : Prop where
  nodup : (m.map (·.1)).Nodup
  keys : ∀ e ∈ m, e.1 ≠ [] ∧ ∃ p ∈ rows, onLiterals p.1 0 = e.1
  len : ∀ e ∈ m, e.2.length = n
  some : ∀ r u, ruleGet m r = some u → ∀ k, k < n → u.getD k 0 = patSum rows r k
  none : ∀ r, r ≠ [] → ruleGet m r = none → ∀ k, patSum rows r k = 0

theorem ruleGet_mem (m : RMap) (r : List Nat) (u : List Int) (h : ruleGet m r = some u) : (r, u) ∈ m := by
  induction m with
  | nil => simp [ruleGet] at h
  | cons e m ih =>
    rw [ruleGet] at h
    by_cases he : e.1 = r
    · simp [he] at h; subst h; subst he; simp
    · simp [he] at h; simp [ih h]

theorem ruleGet_of_mem (m : RMap) (hn : (m.map (·.1)).Nodup) (r : List Nat) (u : List Int)
    (h : (r, u) ∈ m) : ruleGet m r = some u := by
  induction m with
  | nil => simp at h
  | cons e m ih =>
    rw [List.map_cons, List.nodup_cons] at hn
    rw [ruleGet]
    rcases List.mem_cons.mp h with h | h
    · subst h; simp
    · have : e.1 ≠ r := by
        rintro rfl
        exact hn.1 (List.mem_map.mpr ⟨_, h, rfl⟩)
      simp [this, ih hn.2 h]

theorem ruleGet_none (m : RMap) (r : List Nat) : ruleGet m r = Option.none ↔ r ∉ m.map (·.1) := by
  induction m with
  | nil => simp [ruleGet]
  | cons e m ih =>
    rw [ruleGet]
    by_cases he : e.1 = r
    · simp [he]
    · have he' : ¬ r = e.1 := fun h => he h.symm
      simp only [he, if_false, ih, List.map_cons, List.mem_cons, he', false_or]

theorem ruleSet_keys (m : RMap) (r : List Nat) (v : List Int) :
    (ruleSet m r v).map (·.1) = m.map (·.1) := by
  induction m with
  | nil => rfl
  | cons e m ih =>
    rw [ruleSet]
    by_cases he : e.1 = r
    · simp [he]
    · simp [he, ih]

theorem ruleGet_set (m : RMap) (r r' : List Nat) (v : List Int) :
    ruleGet (ruleSet m r v) r' = if r' = r then (ruleGet m r').map (fun _ => v) else ruleGet m r' := by
  induction m with
  | nil => simp [ruleSet, ruleGet]
  | cons e m ih =>
    rw [ruleSet]
    by_cases he : e.1 = r
    · by_cases hr : r' = r
      · simp [he, hr, ruleGet]
      · have hr' : ¬ r = r' := fun h => hr h.symm
        simp [he, hr, ruleGet, hr']
    · simp only [he, if_false, ruleGet]
      by_cases he' : e.1 = r'
      · have : ¬ r' = r := by rintro rfl; exact he he'
        simp [he', this]
      · simp only [he', if_false, ih]

theorem ruleSet_mem (m : RMap) (r : List Nat) (v : List Int) (e : List Nat × List Int)
    (h : e ∈ ruleSet m r v) : e ∈ m ∨ (e = (r, v) ∧ ∃ u, (r, u) ∈ m) := by
  induction m with
  | nil => simp [ruleSet] at h
  | cons d m ih =>
    rw [ruleSet] at h
    by_cases hd : d.1 = r
    · simp only [hd, if_true, List.mem_cons] at h
      rcases h with h | h
      · exact Or.inr ⟨h, d.2, by rw [← hd]; simp⟩
      · exact Or.inl (by simp [h])
    · simp only [hd, if_false, List.mem_cons] at h
      rcases h with h | h
      · exact Or.inl (by simp [h])
      · rcases ih h with h | ⟨h, u, hu⟩
        · exact Or.inl (by simp [h])
        · exact Or.inr ⟨h, u, by simp [hu]⟩

theorem ruleGet_append (m : RMap) (r r' : List Nat) (v : List Int) (hn : ruleGet m r = Option.none) :
    ruleGet (m ++ [(r, v)]) r' = if r' = r then some v else ruleGet m r' := by
  induction m with
  | nil =>
    simp only [List.nil_append, ruleGet]
    by_cases h : r' = r
    · simp [h]
    · have h2 : ¬ r = r' := fun h' => h h'.symm
      simp [h, h2]
  | cons e m ih =>
    rw [ruleGet] at hn
    by_cases he : e.1 = r
    · simp [he] at hn
    · simp only [he, if_false] at hn
      simp only [List.cons_append, ruleGet, ih hn]
      by_cases he' : e.1 = r'
      · have : ¬ r' = r := by rintro rfl; exact he he'
        simp [he', this]
      · simp [he']

theorem patSum_snoc (rows : List (List Int × List Int)) (row w : List Int) (r : List Nat) (k : Nat) :
    patSum (rows ++ [(row, w)]) r k =
      patSum rows r k + (if onLiterals row 0 = r then w.getD k 0 else 0) := by
  unfold patSum
  by_cases h : onLiterals row 0 = r
  · simp [h]
  · simp [h]

theorem getD_zipWith_add (u w : List Int) (k n : Nat) (hu : u.length = n) (hw : w.length = n) :
    (List.zipWith (· + ·) u w).getD k 0 = u.getD k 0 + w.getD k 0 := by
  by_cases h : k < n
  · simp [List.getD, show k < u.length by omega, show k < w.length by omega]
  · simp [List.getD, show u.length ≤ k by omega, show w.length ≤ k by omega]

theorem all_zero_getD (w : List Int) (h : w.all (· == 0) = true) (k : Nat) : w.getD k 0 = 0 := by
  simp only [List.all_eq_true, beq_iff_eq] at h
  by_cases hk : k < w.length
  · simp [List.getD, hk, h _ (List.getElem_mem hk)]
  · simp [List.getD, show w.length ≤ k by omega]

theorem rinv_step (n : Nat) (rows : List (List Int × List Int)) (m : RMap) (row w : List Int)
    (hw : w.length = n) (hi : RInv n rows m) : RInv n (rows ++ [(row, w)]) (stepZ n m row w) := by
  unfold stepZ
  dsimp only
  by_cases hon : (onLiterals row 0).length < 1
  · simp only [hon, if_true]
    have he : onLiterals row 0 = [] := List.eq_nil_of_length_eq_zero (by omega)
    constructor
    · exact hi.nodup
    · intro e h
      obtain ⟨a, p, hp, hp2⟩ := hi.keys e h
      exact ⟨a, p, by simp [hp], hp2⟩
    · exact hi.len
    · intro r u hr k hk
      have hne := (hi.keys (r, u) (ruleGet_mem m r u hr)).1
      rw [patSum_snoc, he, if_neg (fun h => hne h.symm), Int.add_zero]
      exact hi.some r u hr k hk
    · intro r hr hg k
      rw [patSum_snoc, he, if_neg (fun h => hr h.symm), Int.add_zero]
      exact hi.none r hr hg k
  · simp only [hon, if_false]
    have hne : onLiterals row 0 ≠ [] := by
      intro h; rw [h] at hon; simp at hon
    cases hg : ruleGet m (onLiterals row 0) with
    | some u =>
      simp only
      have hu := hi.len _ (ruleGet_mem m _ u hg)
      simp only at hu
      constructor
      · rw [ruleSet_keys]; exact hi.nodup
      · intro e h
        rcases ruleSet_mem _ _ _ _ h with h | ⟨h, -⟩
        · obtain ⟨a, p, hp, hp2⟩ := hi.keys e h
          exact ⟨a, p, by simp [hp], hp2⟩
        · subst h
          exact ⟨hne, (row, w), by simp, rfl⟩
      · intro e h
        rcases ruleSet_mem _ _ _ _ h with h | ⟨h, -⟩
        · exact hi.len e h
        · subst h; simp [hu, hw]
      · intro r v hr k hk
        rw [ruleGet_set] at hr
        rw [patSum_snoc]
        by_cases h : r = onLiterals row 0
        · subst h
          simp only [if_true, hg, Option.map_some, Option.some.injEq] at hr
          subst hr
          rw [getD_zipWith_add u w k n hu hw, hi.some _ u hg k hk, if_pos rfl]
        · rw [if_neg h] at hr
          rw [if_neg (fun h' => h h'.symm), Int.add_zero]
          exact hi.some r v hr k hk
      · intro r hr hn k
        rw [ruleGet_set] at hn
        rw [patSum_snoc]
        by_cases h : r = onLiterals row 0
        · subst h; simp [hg] at hn
        · rw [if_neg h] at hn
          rw [if_neg (fun h' => h h'.symm), Int.add_zero]
          exact hi.none r hr hn k
    | none =>
      simp only
      by_cases hz : w.all (· == 0) = true
      · simp only [hz, if_true]
        have hz' := all_zero_getD w hz
        have hps : ∀ r k, patSum (rows ++ [(row, w)]) r k = patSum rows r k := by
          intro r k
          rw [patSum_snoc, hz' k]; simp
        constructor
        · exact hi.nodup
        · intro e h
          obtain ⟨a, p, hp, hp2⟩ := hi.keys e h
          exact ⟨a, p, by simp [hp], hp2⟩
        · exact hi.len
        · intro r u hr k hk; rw [hps]; exact hi.some r u hr k hk
        · intro r hr hn k; rw [hps]; exact hi.none r hr hn k
      · simp only [hz, if_false, Bool.false_eq_true]
        constructor
        · rw [List.map_append, List.nodup_append]
          refine ⟨hi.nodup, by simp, ?_⟩
          intro a ha b hb
          simp at hb
          subst hb
          rintro rfl
          exact (ruleGet_none m _).mp hg ha
        · intro e h
          rw [List.mem_append] at h
          rcases h with h | h
          · obtain ⟨a, p, hp, hp2⟩ := hi.keys e h
            exact ⟨a, p, by simp [hp], hp2⟩
          · simp at h; subst h
            exact ⟨hne, (row, w), by simp, rfl⟩
        · intro e h
          rw [List.mem_append] at h
          rcases h with h | h
          · exact hi.len e h
          · simp at h; subst h; simp [hw]
        · intro r v hr k hk
          rw [ruleGet_append _ _ _ _ hg] at hr
          rw [patSum_snoc]
          by_cases h : r = onLiterals row 0
          · subst h
            simp only [if_true, Option.some.injEq] at hr
            subst hr
            rw [getD_zipWith_add _ w k n (by simp) hw, hi.none _ hne hg k, if_pos rfl]
            simp [hk]
          · rw [if_neg h] at hr
            rw [if_neg (fun h' => h h'.symm), Int.add_zero]
            exact hi.some r v hr k hk
        · intro r hr hn k
          rw [ruleGet_append _ _ _ _ hg] at hn
          rw [patSum_snoc]
          by_cases h : r = onLiterals row 0
          · subst h; simp at hn
          · rw [if_neg h] at hn
            rw [if_neg (fun h' => h h'.symm), Int.add_zero]
            exact hi.none r hr hn k

theorem rinv_loop (n : Nat) (rows done : List (List Int × List Int)) (m : RMap)
    (hw : ∀ p ∈ rows, p.2.length = n) (hi : RInv n done m) : RInv n (done ++ rows) (loopZ n m rows) := by
  induction rows generalizing done m with
  | nil => simpa [loopZ] using hi
  | cons p rows ih =>
    have := ih (done ++ [(p.1, p.2)]) (stepZ n m p.1 p.2) (fun q hq => hw q (by simp [hq]))
      (rinv_step n done m p.1 p.2 (hw p (by simp)) hi)
    simpa [loopZ] using this

theorem rinv_nil (n : Nat) : RInv n [] [] :=
  ⟨by simp, by simp, by simp, by simp [ruleGet], by simp [patSum]⟩

/-! ### Votes -/

/-- Sum over the matching entries of a map. -/
noncomputable def matchSum (n : Nat) (x : List Nat) (m : RMap) (k : Nat) : Int :=
  open Classical in
  ((m.filter fun e => decide (Matches n x e.1)).map fun e => e.2.getD k 0).sum

theorem matchSum_cons (n : Nat) (x : List Nat) (e : List Nat × List Int) (m : RMap) (k : Nat)
    [Decidable (Matches n x e.1)] :
    matchSum n x (e :: m) k = (if Matches n x e.1 then e.2.getD k 0 else 0) + matchSum n x m k := by
  unfold matchSum
  by_cases h : Matches n x e.1 <;> simp [h]

theorem matchSum_set (n : Nat) (x : List Nat) (m : RMap) (r : List Nat) (u v : List Int) (k : Nat)
    (h : ruleGet m r = some u) [Decidable (Matches n x r)] :
    matchSum n x (ruleSet m r v) k =
      matchSum n x m k + (if Matches n x r then v.getD k 0 - u.getD k 0 else 0) := by
  classical
  induction m with
  | nil => simp [ruleGet] at h
  | cons e m ih =>
    rw [ruleGet] at h
    rw [ruleSet]
    by_cases he : e.1 = r
    · simp only [he, if_true, Option.some.injEq] at h ⊢
      rw [matchSum_cons, matchSum_cons]
      simp only [he, h]
      by_cases hm : Matches n x r
      · simp only [hm, if_true]; omega
      · simp only [hm, if_false]; omega
    · simp only [he, if_false] at h ⊢
      rw [matchSum_cons, matchSum_cons, ih h]
      simp only; omega

theorem matchSum_append (n : Nat) (x : List Nat) (a b : RMap) (k : Nat) :
    matchSum n x (a ++ b) k = matchSum n x a k + matchSum n x b k := by
  unfold matchSum
  simp

theorem matchSum_step (nC nL : Nat) (x : List Nat) (m : RMap) (row w : List Int) (k : Nat) (hk : k < nC)
    (hw : w.length = nC) (hm : ∀ e ∈ m, e.2.length = nC)
    [Decidable (Fires x (row.take nL, row.drop nL, w))] :
    matchSum nL x (stepZ nC m row w) k =
      matchSum nL x m k + (if Fires x (row.take nL, row.drop nL, w) then w.getD k 0 else 0) := by
  classical
  have hF : Fires x (row.take nL, row.drop nL, w) ↔
      onLiterals row 0 ≠ [] ∧ Matches nL x (onLiterals row 0) := by
    unfold Fires
    rw [matches_iff nL row w x, Ne, empty_iff nL row w]
  unfold stepZ
  dsimp only
  by_cases hon : (onLiterals row 0).length < 1
  · have he : onLiterals row 0 = [] := List.eq_nil_of_length_eq_zero (by omega)
    rw [if_pos hon, if_neg (by rw [hF]; exact fun h => h.1 he), Int.add_zero]
  · have hne : onLiterals row 0 ≠ [] := by intro h; rw [h] at hon; simp at hon
    rw [if_neg hon]
    have hFM : (if Fires x (row.take nL, row.drop nL, w) then w.getD k 0 else 0) =
        (if Matches nL x (onLiterals row 0) then w.getD k 0 else 0) := by
      by_cases h : Matches nL x (onLiterals row 0)
      · rw [if_pos h, if_pos (hF.mpr ⟨hne, h⟩)]
      · rw [if_neg h, if_neg (fun h' => h (hF.mp h').2)]
    rw [hFM]
    cases hg : ruleGet m (onLiterals row 0) with
    | some u =>
      simp only
      have hu := hm _ (ruleGet_mem m _ u hg)
      rw [matchSum_set nL x m _ u _ k hg, getD_zipWith_add u w k nC hu hw]
      by_cases h : Matches nL x (onLiterals row 0)
      · simp only [h, if_true]; omega
      · simp only [h, if_false]
    | none =>
      simp only
      by_cases hz : w.all (· == 0) = true
      · rw [if_pos hz, all_zero_getD w hz k]; simp
      · rw [if_neg hz, matchSum_append, matchSum_cons, getD_zipWith_add _ w k nC (by simp) hw]
        simp [matchSum, hk]

theorem matchSum_loop (nC nL : Nat) (x : List Nat) (rows done : List (List Int × List Int)) (m : RMap)
    (k : Nat) (hk : k < nC) (hw : ∀ p ∈ rows, p.2.length = nC) (hi : RInv nC done m) :
    matchSum nL x (loopZ nC m rows) k = matchSum nL x m k +
      firingSum (rows.map fun p => (p.1.take nL, p.1.drop nL, p.2)) x k := by
  classical
  induction rows generalizing done m with
  | nil => simp [loopZ, firingSum]
  | cons p rows ih =>
    have := ih (done ++ [(p.1, p.2)]) (stepZ nC m p.1 p.2) (fun q hq => hw q (by simp [hq]))
      (rinv_step nC done m p.1 p.2 (hw p (by simp)) hi)
    rw [List.map_cons, firingSum_cons]
    have hs := matchSum_step nC nL x m p.1 p.2 k hk (hw p (by simp)) hi.len
    have e : loopZ nC m (p :: rows) = loopZ nC (stepZ nC m p.1 p.2) rows := rfl
    rw [e, this, hs]
    simp only
    omega

theorem stateClauses_eq (s : DState) :
    stateClauses s = (s.c.zip s.w).map fun p => (p.1.take s.nLits, p.1.drop s.nLits, p.2) := by
  unfold stateClauses
  rw [List.zip_eq_zipWith, List.map_zipWith]

theorem sameClauseSum_eq (n : Nat) (rows : List (List Int × List Int)) (r : List Nat) (k : Nat)
    (hr : r.Pairwise (· < ·)) :
    sameClauseSum n (rows.map fun p => (p.1.take n, p.1.drop n, p.2)) r k = patSum rows r k := by
  unfold sameClauseSum patSum
  rw [List.filter_map, List.map_map]
  congr 1
  congr 1
  apply List.filter_congr
  intro p _
  simp only [Function.comp, decide_eq_decide]
  exact includesExactly_iff n p.1 p.2 r hr

/-- What compilation gives, in one statement. -/
theorem compileDense_spec (ml : Bool) (s : DState) (h : WellShaped s) :
    ∃ m : RMap, RInv s.nClasses (s.c.zip s.w) m ∧
      (∀ x k, k < s.nClasses → matchSum s.nLits x m k = firingSum (stateClauses s) x k) ∧
      compileDense ml s = .ok ⟨s.nLits, s.nClasses, ml, m.map (·.1), m.map (fun e => e.2.map wrap16)⟩ := by
  have hw : ∀ p ∈ s.c.zip s.w, p.2.length = s.nClasses := by
    intro p hp
    exact h.weights p.2 (List.of_mem_zip hp).2
  refine ⟨loopZ s.nClasses [] (s.c.zip s.w), ?_, ?_, ?_⟩
  · have := rinv_loop s.nClasses (s.c.zip s.w) [] [] hw (rinv_nil _)
    simpa using this
  · intro x k hk
    rw [matchSum_loop s.nClasses s.nLits x (s.c.zip s.w) [] [] k hk hw (rinv_nil _), stateClauses_eq]
    simp [matchSum]
  · unfold compileDense
    have := compileLoop_wrap s.nClasses s.w s.c 0 [] (by simpa using h.rows)
    simp only [wrapMap, List.map_nil] at this
    rw [this]
    simp only [List.drop_zero, List.map_map]
    rfl

end GT

namespace GT
open Spec

theorem stepZ_keeps (n : Nat) (m : RMap) (row w : List Int) (r : List Nat) (h : r ∈ m.map (·.1)) :
    r ∈ (stepZ n m row w).map (·.1) := by
  unfold stepZ
  dsimp only
  split
  · exact h
  · split
    · rw [ruleSet_keys]; exact h
    · split
      · exact h
      · simp only [List.map_append, List.mem_append]; exact Or.inl h

theorem loopZ_keeps (n : Nat) (rows : List (List Int × List Int)) (m : RMap) (r : List Nat)
    (h : r ∈ m.map (·.1)) : r ∈ (loopZ n m rows).map (·.1) := by
  induction rows generalizing m with
  | nil => exact h
  | cons p rows ih => exact ih _ (stepZ_keeps n m p.1 p.2 r h)

theorem loopZ_has (n : Nat) (rows : List (List Int × List Int)) (m : RMap) (p : List Int × List Int)
    (hp : p ∈ rows) (hne : onLiterals p.1 0 ≠ []) (hnz : ∃ v ∈ p.2, v ≠ 0) :
    onLiterals p.1 0 ∈ (loopZ n m rows).map (·.1) := by
  induction rows generalizing m with
  | nil => simp at hp
  | cons q rows ih =>
    have e : loopZ n m (q :: rows) = loopZ n (stepZ n m q.1 q.2) rows := rfl
    rw [e]
    rcases List.mem_cons.mp hp with rfl | hp
    · apply loopZ_keeps
      unfold stepZ
      have hl : ¬ (onLiterals p.1 0).length < 1 := by
        intro h; exact hne (List.eq_nil_of_length_eq_zero (by omega))
      simp only [hl, if_false]
      cases hg : ruleGet m (onLiterals p.1 0) with
      | some u =>
        simp only
        rw [ruleSet_keys]
        exact List.mem_map.mpr ⟨_, ruleGet_mem m _ u hg, rfl⟩
      | none =>
        simp only
        have : ¬ (p.2.all (· == 0) = true) := by
          obtain ⟨v, hv, hv0⟩ := hnz
          intro h
          simp only [List.all_eq_true, beq_iff_eq] at h
          exact hv0 (h v hv)
        rw [if_neg this]
        simp
    · exact ih _ hp

theorem ruleSum_map (n : Nat) (x : List Nat) (m : RMap) (k : Nat) :
    ruleSum n (m.map (·.1)) (m.map (·.2)) x k = matchSum n x m k := by
  unfold ruleSum matchSum
  have : (m.map (·.1)).zip (m.map (·.2)) = m := by
    induction m with
    | nil => rfl
    | cons e m ih => simp [ih]
  rw [this]

theorem ruleSum_cons (n : Nat) (r : List Nat) (rs : List (List Nat)) (w : List Int) (ws : List (List Int))
    (x : List Nat) (k : Nat) [Decidable (Matches n x r)] :
    ruleSum n (r :: rs) (w :: ws) x k = (if Matches n x r then w.getD k 0 else 0) + ruleSum n rs ws x k := by
  unfold ruleSum
  by_cases h : Matches n x r <;> simp [h]

theorem ruleSum_wrap (n : Nat) (x : List Nat) (m : RMap) (k : Nat) :
    wrap16 (ruleSum n (m.map (·.1)) (m.map fun e => e.2.map wrap16) x k) = wrap16 (matchSum n x m k) := by
  classical
  induction m with
  | nil => simp [ruleSum, matchSum]
  | cons e m ih =>
    simp only [List.map_cons]
    rw [ruleSum_cons, matchSum_cons]
    have hg : (e.2.map wrap16).getD k 0 = wrap16 (e.2.getD k 0) := by
      by_cases hk : k < e.2.length
      · simp [List.getD, hk]
      · simp [List.getD, show e.2.length ≤ k by omega, wrap16_zero]
    rw [hg]
    split
    · unfold wrap16 at ih ⊢; omega
    · simpa using ih

end GT

namespace GT
open Spec

/-- Weight sums fit as soon as the absolute values of each class's weights add up to at most 32767. -/
theorem mergesFit_of_bound (s : DState)
    (h : ∀ k, k < s.nClasses → ((stateClauses s).map fun c => (c.2.2.getD k 0).natAbs).sum ≤ 32767) :
    MergesFit s := by
  intro r k hk
  have := h k hk
  suffices hs : ∀ cs : List (List Int × List Int × List Int),
      (sameClauseSum s.nLits cs r k).natAbs ≤ (cs.map fun c => (c.2.2.getD k 0).natAbs).sum by
    have := hs (stateClauses s)
    omega
  intro cs
  unfold sameClauseSum
  induction cs with
  | nil => simp
  | cons c cs ih =>
    rw [List.filter_cons]
    split
    · simp only [List.map_cons, List.sum_cons]
      omega
    · simp only [List.map_cons, List.sum_cons]
      omega

instance (n : Nat) (x r : List Nat) : Decidable (Matches n x r) := by
  unfold Matches; infer_instance

end GT
