import Verif.Spec.SparseFlat
import Verif.Lemmas.Flat
import Verif.Lemmas.InferFlat
import Verif.Lemmas.SparseStep
import Verif.Lemmas.SparseState

namespace GT.SparseMem
open Spec FlatMem

/-! ### One row: literals and states as two vectors -/

/-- The literals of a half. -/
abbrev lits (h : Half) : List Nat := h.map (·.1)
/-- The states of a half. -/
abbrev sts (h : Half) : List Int := h.map (·.2)

theorem rd_lits (pre h : Half) (e : Nat × Int) : rd (lits (pre ++ e :: h)) ((pre.length : Nat) : Int) = some e.1 :=
  rd_eq_mid (lits pre) (lits h) e.1 (by simp [lits]) (by simp [lits])

theorem rd_sts (pre h : Half) (e : Nat × Int) : rd (sts (pre ++ e :: h)) ((pre.length : Nat) : Int) = some e.2 :=
  rd_eq_mid (sts pre) (sts h) e.2 (by simp [sts]) (by simp [sts])

theorem wr_sts (pre h : Half) (e : Nat × Int) (v : Int) :
    wr (sts (pre ++ e :: h)) ((pre.length : Nat) : Int) v = some (sts (pre ++ (e.1, v) :: h)) :=
  (wr_eq_mid (sts pre) (sts h) e.2 v (by simp [sts]) (by simp [sts])).trans (by simp [sts])

theorem snoc_eq {α : Type} (pre h : List α) (e : α) : pre ++ e :: h = (pre ++ [e]) ++ h := by simp

theorem back_eq (h : Half) (hne : h ≠ []) : (lits h).getLast? = some (backLit h) := by
  unfold backLit lits
  rw [List.getLast?_map]
  cases hl : h.getLast? with
  | none => exact absurd (List.getLast?_eq_none_iff.mp hl) hne
  | some e => rfl

theorem posTrainC_eq (x : List Nat) : ∀ (h pre : Half),
    posTrainC x (lits (pre ++ h)) (sts (pre ++ h)) h.length pre.length = some (posTrain (backLit (pre ++ h)) x h) := by
  intro h
  induction h with
  | nil => intro pre; rfl
  | cons e h ih =>
    intro pre
    have hi := ih (pre ++ [e])
    rw [← snoc_eq, List.length_append, List.length_singleton] at hi
    rw [List.length_cons, posTrainC, bind_of (rd_sts pre h e), posTrain]
    by_cases hv : e.2 < 0
    · rw [if_pos hv, if_pos hv]; exact hi
    · rw [if_neg hv, if_neg hv, bind_of (rd_lits pre h e)]
      cases hs : scanTrain x e.1 with
      | some b => cases b with
        | true => exact hi
        | false => rfl
      | none =>
        simp only
        rw [bind_of (back_eq (pre ++ e :: h) (by simp))]
        by_cases ht : e.1 = backLit (pre ++ e :: h)
        · rw [if_pos ht, if_pos ht]
        · rw [if_neg ht, if_neg ht]; exact hi

theorem posEvalC_eq (x : List Nat) : ∀ (h pre : Half),
    posEvalC x (lits (pre ++ h)) (sts (pre ++ h)) h.length pre.length = some (posEval (backLit (pre ++ h)) x h) := by
  intro h
  induction h with
  | nil => intro pre; rfl
  | cons e h ih =>
    intro pre
    have hi := ih (pre ++ [e])
    rw [← snoc_eq, List.length_append, List.length_singleton] at hi
    rw [List.length_cons, posEvalC, bind_of (rd_sts pre h e), posEval]
    by_cases hv : e.2 < 0
    · rw [if_pos hv, if_pos hv]; exact hi
    · rw [if_neg hv, if_neg hv, bind_of (rd_lits pre h e)]
      cases hs : scanEval x e.1 with
      | some b => cases b with
        | true => exact hi
        | false => rfl
      | none =>
        simp only
        rw [bind_of (back_eq (pre ++ e :: h) (by simp))]
        by_cases ht : e.1 = backLit (pre ++ e :: h)
        · rw [if_pos ht, if_pos ht]
        · rw [if_neg ht, if_neg ht]; exact hi

theorem negLoopC_eq (x : List Nat) : ∀ (h pre : Half),
    negLoopC x (lits (pre ++ h)) (sts (pre ++ h)) h.length pre.length = some (negLoop x h) := by
  intro h
  induction h with
  | nil => intro pre; rfl
  | cons e h ih =>
    intro pre
    have hi := ih (pre ++ [e])
    rw [← snoc_eq, List.length_append, List.length_singleton] at hi
    rw [List.length_cons, negLoopC, bind_of (rd_sts pre h e), negLoop]
    by_cases hv : e.2 < 0
    · rw [if_pos hv, if_pos hv]; exact hi
    · rw [if_neg hv, if_neg hv, bind_of (rd_lits pre h e)]
      by_cases hs : scanNeg x e.1 = true
      · rw [if_pos hs, if_pos hs]
      · rw [if_neg hs, if_neg hs]; exact hi

theorem countOnC_eq : ∀ (h pre : Half), countOnC (sts (pre ++ h)) h.length pre.length = some (countOn h) := by
  intro h
  induction h with
  | nil => intro pre; rfl
  | cons e h ih =>
    intro pre
    have hi := ih (pre ++ [e])
    rw [← snoc_eq, List.length_append, List.length_singleton] at hi
    rw [List.length_cons, countOnC, bind_of (rd_sts pre h e), bind_of hi, countOn]
    split <;> rfl

theorem updFirstC_eq (f : Int → Rng → Int × Rng) (lit : Nat) : ∀ (h pre : Half) (g : Rng),
    updFirstC f lit (lits (pre ++ h)) h.length pre.length (sts (pre ++ h)) g =
      some (sts (pre ++ (updFirst f lit h g).1), (updFirst f lit h g).2.1, (updFirst f lit h g).2.2) := by
  intro h
  induction h with
  | nil => intro pre g; rfl
  | cons e h ih =>
    intro pre g
    have hi := ih (pre ++ [e]) g
    rw [← snoc_eq, List.length_append, List.length_singleton] at hi
    rw [List.length_cons, updFirstC, bind_of (rd_lits pre h e), updFirst]
    by_cases ht : e.1 = lit
    · rw [if_pos ht, if_pos ht, bind_of (rd_sts pre h e), bind_of (wr_sts pre h e _)]
      rfl
    · rw [if_neg ht, if_neg ht, hi]
      simp

theorem updAllC_eq (p : Nat → Bool) (f : Int → Rng → Int × Rng) : ∀ (h pre : Half) (g : Rng),
    updAllC p f (lits (pre ++ h)) h.length pre.length (sts (pre ++ h)) g =
      some (sts (pre ++ (updAll p f h g).1), (updAll p f h g).2) := by
  intro h
  induction h with
  | nil => intro pre g; rfl
  | cons e h ih =>
    intro pre g
    rw [List.length_cons, updAllC, bind_of (rd_lits pre h e), updAll]
    by_cases ht : p e.1 = true
    · rw [if_pos ht, if_pos ht, bind_of (rd_sts pre h e), bind_of (wr_sts pre h e _)]
      have hi := ih (pre ++ [(e.1, (f e.2 g).1)]) (f e.2 g).2
      rw [← snoc_eq, List.length_append, List.length_singleton] at hi
      have hl : lits (pre ++ e :: h) = lits (pre ++ (e.1, (f e.2 g).1) :: h) := by simp [lits]
      rw [hl, hi]
      simp
    · rw [if_neg ht, if_neg ht]
      have hi := ih (pre ++ [e]) g
      rw [← snoc_eq, List.length_append, List.length_singleton] at hi
      rw [hi]
      simp

theorem pruneC_eq (lower : Int) : ∀ (n : Nat) (h pre : Half) (fuel : Nat), h.length ≤ n → h.length ≤ fuel →
    pruneC lower fuel pre.length (lits (pre ++ h)) (sts (pre ++ h)) =
      some (lits (pre ++ prune lower h), sts (pre ++ prune lower h)) := by
  intro n
  induction n with
  | zero =>
    intro h pre fuel hn _
    have : h = [] := List.length_eq_zero_iff.mp (by omega)
    subst this
    cases fuel with
    | zero => rfl
    | succ fuel => rw [pruneC, if_neg (by simp)]; rfl
  | succ n ih =>
    intro h pre fuel hn hf
    cases h with
    | nil =>
      cases fuel with
      | zero => rfl
      | succ fuel => rw [pruneC, if_neg (by simp)]; rfl
    | cons e h =>
      rw [List.length_cons] at hn hf
      obtain ⟨fuel, rfl⟩ : ∃ k, fuel = k + 1 := ⟨fuel - 1, by omega⟩
      rw [pruneC, if_pos (by simp), bind_of (rd_sts pre h e)]
      by_cases hv : e.2 < lower
      · rw [if_pos hv]
        have e1 : (lits (pre ++ e :: h)).eraseIdx pre.length = lits (pre ++ h) := by
          simp [lits, List.eraseIdx_append_of_length_le]
        have e2 : (sts (pre ++ e :: h)).eraseIdx pre.length = sts (pre ++ h) := by
          simp [sts, List.eraseIdx_append_of_length_le]
        rw [e1, e2]
        cases h with
        | nil =>
          have : prune lower [e] = [] := by rw [prune.eq_def]; simp [hv]
          rw [this]
          cases fuel with
          | zero => rfl
          | succ fuel => rw [pruneC, if_neg (by simp)]
        | cons e' h' =>
          have hp : prune lower (e :: e' :: h') = e' :: prune lower h' := by rw [prune.eq_def]; simp [hv]
          rw [hp]
          rw [List.length_cons] at hn hf
          have hi := ih h' (pre ++ [e']) fuel (by omega) (by omega)
          rw [← snoc_eq, ← snoc_eq, List.length_append, List.length_singleton] at hi
          exact hi
      · rw [if_neg hv]
        have hp : prune lower (e :: h) = e :: prune lower h := by rw [prune.eq_def]; simp [hv]
        rw [hp]
        have hi := ih h (pre ++ [e]) fuel (by omega) (by omega)
        rw [← snoc_eq, ← snoc_eq, List.length_append, List.length_singleton] at hi
        exact hi

theorem swapC_eq {α : Type} (pre h : List α) (a b : α) {l : List α} (hl : l = pre ++ a :: b :: h) {j : Nat} (hj : j = pre.length) :
    swapC l j = some (pre ++ b :: a :: h) := by
  subst hl hj
  unfold swapC
  rw [bind_of (rd_mid pre (b :: h) a _ rfl), bind_of (rd_eq_mid (pre ++ [a]) h b (by simp) (by simp)),
    bind_of (wr_mid pre (b :: h) a b _ rfl)]
  exact (wr_eq_mid (pre ++ [b]) h b a (by simp) (by simp)).trans (by simp)

theorem bubblePassC_eq : ∀ (m : Nat) (h pre : Half) (sw : Bool), m + 1 ≤ h.length →
    bubblePassC m pre.length (lits (pre ++ h)) (sts (pre ++ h)) sw =
      some (lits (pre ++ (bubblePass m h sw).1), sts (pre ++ (bubblePass m h sw).1), (bubblePass m h sw).2) := by
  intro m
  induction m with
  | zero => intro h pre sw _; rw [bubblePassC, bubblePass.eq_def]
  | succ m ih =>
    intro h pre sw hm
    match h, hm with
    | a :: b :: h, hm =>
      simp only [List.length_cons] at hm
      have h1 : rd (lits (pre ++ a :: b :: h)) ((pre.length : Nat) : Int) = some a.1 := rd_lits pre (b :: h) a
      have h2 : rd (lits (pre ++ a :: b :: h)) ((pre.length + 1 : Nat) : Int) = some b.1 :=
        rd_eq_mid (lits (pre ++ [a])) (lits h) b.1 (by simp [lits]) (by simp [lits])
      rw [bubblePassC, bind_of h1, bind_of h2, bubblePass]
      by_cases hab : a.1 > b.1
      · rw [if_pos hab, if_pos hab]
        have s1 : swapC (lits (pre ++ a :: b :: h)) pre.length = some (lits (pre ++ b :: a :: h)) :=
          (swapC_eq (lits pre) (lits h) a.1 b.1 (by simp [lits]) (by simp [lits])).trans (by simp [lits])
        have s2 : swapC (sts (pre ++ a :: b :: h)) pre.length = some (sts (pre ++ b :: a :: h)) :=
          (swapC_eq (sts pre) (sts h) a.2 b.2 (by simp [sts]) (by simp [sts])).trans (by simp [sts])
        rw [bind_of s1, bind_of s2]
        have hi := ih (a :: h) (pre ++ [b]) true (by simp only [List.length_cons]; omega)
        rw [← snoc_eq, ← snoc_eq, List.length_append, List.length_singleton] at hi
        exact hi
      · rw [if_neg hab, if_neg hab]
        have hi := ih (b :: h) (pre ++ [a]) sw (by simp only [List.length_cons]; omega)
        rw [← snoc_eq, ← snoc_eq, List.length_append, List.length_singleton] at hi
        exact hi

theorem bubblePass_length : ∀ (m : Nat) (h : Half) (sw : Bool), (bubblePass m h sw).1.length = h.length := by
  intro m
  induction m with
  | zero => intro h sw; rw [bubblePass.eq_def]
  | succ m ih =>
    intro h sw
    match h with
    | [] => rw [bubblePass.eq_def]
    | [a] => rw [bubblePass.eq_def]
    | a :: b :: h =>
      rw [bubblePass]
      split <;> simp [ih]

theorem bubbleLoopC_eq : ∀ (r : Nat) (h : Half) (sw : Bool), r ≤ h.length →
    bubbleLoopC r (lits h) (sts h) sw = some (lits (bubbleLoop r h sw), sts (bubbleLoop r h sw)) := by
  intro r
  induction r with
  | zero => intro h sw _; rfl
  | succ r ih =>
    intro h sw hr
    have hb := bubblePassC_eq r h [] sw hr
    simp only [List.nil_append, List.length_nil] at hb
    rw [bubbleLoopC, bind_of hb, bubbleLoop]
    simp only
    by_cases hp : (bubblePass r h sw).2 = false
    · rw [if_pos hp, if_pos hp]; rfl
    · rw [if_neg hp, if_neg hp]
      exact ih _ _ (by rw [bubblePass_length]; omega)

theorem sortC_eq (h : Half) : sortC (lits h) (sts h) = some (lits (sortHalf h), sts (sortHalf h)) := by
  match h with
  | [] => rfl
  | [a] => rfl
  | [a, b] =>
    unfold sortC
    rw [if_neg (by simp), if_pos (by simp)]
    have h1 : rd (lits [a, b]) 0 = some a.1 := rfl
    have h2 : rd (lits [a, b]) 1 = some b.1 := rfl
    rw [bind_of h1, bind_of h2, sortHalf]
    by_cases hab : a.1 > b.1
    · rw [if_pos hab, if_pos hab]
      rw [bind_of (swapC_eq [] [] a.1 b.1 (l := lits [a, b]) (j := 0) (by simp [lits]) rfl),
        bind_of (swapC_eq [] [] a.2 b.2 (l := sts [a, b]) (j := 0) (by simp [sts]) rfl)]
      rfl
    · rw [if_neg hab, if_neg hab]; rfl
  | a :: b :: c :: h =>
    have hb := bubbleLoopC_eq (a :: b :: c :: h).length (a :: b :: c :: h) false (Nat.le_refl _)
    unfold sortC
    rw [if_neg (by simp), if_neg (by simp)]
    rw [show (lits (a :: b :: c :: h)).length = (a :: b :: c :: h).length by simp]
    exact hb

theorem trackC_eq (cfg : SCfg) (lit : Nat) (h : Half) :
    trackC cfg lit (lits h) (sts h) = (lits (track cfg lit h), sts (track cfg lit h)) := by
  unfold trackC track
  by_cases h1 : lit ∈ lits h
  · rw [if_pos h1, if_pos h1]
  · rw [if_neg h1, if_neg h1]
    rw [show (lits h).length = h.length by simp]
    split <;> simp

theorem t2ActiveC_eq (cfg : SCfg) (x : List Nat) : ∀ (al : List Nat) (pos neg : Half),
    t2ActiveC cfg x al (lits pos, sts pos) (lits neg, sts neg) =
      ((lits (t2Active cfg x al pos neg).1, sts (t2Active cfg x al pos neg).1),
       (lits (t2Active cfg x al pos neg).2, sts (t2Active cfg x al pos neg).2)) := by
  intro al
  induction al with
  | nil => intro pos neg; rfl
  | cons a al ih =>
    intro pos neg
    rw [t2ActiveC, t2Active]
    by_cases h : a ∈ x
    · rw [if_pos h, if_pos h, trackC_eq]; exact ih _ _
    · rw [if_neg h, if_neg h, trackC_eq]; exact ih _ _

theorem updAllC_row (p : Nat → Bool) (f : Int → Rng → Int × Rng) (h : Half) (g : Rng) (row : List Nat) (hr : row = lits h) :
    updAllC p f row row.length 0 (sts h) g = some (sts (updAll p f h g).1, (updAll p f h g).2) := by
  subst hr
  have := updAllC_eq p f h [] g
  rw [show (lits h).length = h.length by simp]
  exact this

theorem updFirstC_row (f : Int → Rng → Int × Rng) (l : Nat) (h : Half) (g : Rng) (row : List Nat) (hr : row = lits h) :
    updFirstC f l row row.length 0 (sts h) g =
      some (sts (updFirst f l h g).1, (updFirst f l h g).2.1, (updFirst f l h g).2.2) := by
  subst hr
  have := updFirstC_eq f l h [] g
  rw [show (lits h).length = h.length by simp]
  exact this

theorem pruneC_row (lower : Int) (h : Half) (row : List Nat) (hr : row = lits h) :
    pruneC lower row.length 0 row (sts h) = some (lits (prune lower h), sts (prune lower h)) := by
  subst hr
  have := pruneC_eq lower h.length h [] h.length (Nat.le_refl _) (Nat.le_refl _)
  rw [show (lits h).length = h.length by simp]
  exact this

theorem t2C_eq (cfg : SCfg) (x : List Nat) (pos neg : Half) (al : List Nat) (g : Rng) :
    t2C cfg x (lits pos) (lits neg) (sts pos) (sts neg) al g =
      some ((lits (sT2 cfg x pos neg al g).1, sts (sT2 cfg x pos neg al g).1),
        (lits (sT2 cfg x pos neg al g).2, sts (sT2 cfg x pos neg al g).2)) := by
  unfold t2C sT2
  rw [bind_of (updAllC_row _ _ pos g _ rfl)]
  simp only
  rw [bind_of (updAllC_row _ _ neg g _ rfl)]
  simp only
  have e1 := (updAll_lits (fun l => !decide (l ∈ x)) stepReject pos g)
  have e2 := (updAll_lits (fun l => decide (l ∈ x)) stepReject neg g)
  rw [show lits pos = lits (updAll (fun l => !decide (l ∈ x)) stepReject pos g).1 from e1.symm,
    show lits neg = lits (updAll (fun l => decide (l ∈ x)) stepReject neg g).1 from e2.symm, t2ActiveC_eq]
  rfl

theorem t1bC_eq (cfg : SCfg) (pos neg : Half) (g : Rng) :
    t1bC cfg (lits pos) (lits neg) (sts pos) (sts neg) g =
      some (sts (sT1b cfg pos neg g).1, sts (sT1b cfg pos neg g).2.1, (sT1b cfg pos neg g).2.2) := by
  unfold t1bC sT1b
  rw [bind_of (updAllC_row _ _ pos g _ rfl)]
  simp only
  rw [bind_of (updAllC_row _ _ neg _ _ rfl)]
  rfl

/-- The replace indices with entry `j` set. -/
theorem updateALC_eq (cfg : SCfg) (al : List Nat × Nat) (pre post : List Nat) (lit : Nat)
    (h : cfg.dynamicAL = true → al.2 < cfg.alSize) :
    updateALC cfg al.1 (pre ++ al.2 :: post) lit pre.length =
      some ((updateAL cfg al lit).1, pre ++ (updateAL cfg al lit).2 :: post) := by
  unfold updateALC updateAL
  by_cases h1 : al.1.length < cfg.alSize
  · rw [if_pos h1, if_pos h1]
    split <;> rfl
  · rw [if_neg h1, if_neg h1]
    by_cases h2 : cfg.dynamicAL = true
    · rw [if_pos h2, if_pos h2]
      by_cases h3 : lit ∈ al.1
      · rw [if_pos h3, if_pos h3]
      · rw [if_neg h3, if_neg h3]
        have hlt := h h2
        have hw : wr al.1 ((al.2 : Nat) : Int) lit = some (al.1.set al.2 lit) := by
          unfold wr
          rw [if_pos ⟨by omega, by simp; omega⟩]
          simp
        rw [bind_of (rd_mid pre post al.2 _ rfl), bind_of hw, bind_of (wr_mid pre post al.2 _ _ rfl),
          bind_of (rd_mid pre post (al.2 + 1) _ rfl)]
        by_cases h4 : al.2 + 1 = cfg.alSize
        · rw [if_pos h4, if_pos h4, bind_of (wr_mid pre post _ _ _ rfl)]
          rfl
        · rw [if_neg h4, if_neg h4]; rfl
    · rw [if_neg h2, if_neg h2]

theorem updateAL_idx (cfg : SCfg) (al : List Nat × Nat) (lit : Nat) (h : cfg.dynamicAL = true → al.2 < cfg.alSize) :
    cfg.dynamicAL = true → (updateAL cfg al lit).2 < cfg.alSize := by
  intro hd
  have := h hd
  unfold updateAL
  split
  · split <;> exact this
  · split
    · exact this
    · dsimp only
      split <;> omega

theorem t1aLitsC_eq (cfg : SCfg) (pre post : List Nat) : ∀ (x : List Nat) (pos neg : Half) (al : List Nat × Nat) (g : Rng)
    (row nrow : List Nat), row = lits pos → nrow = lits neg → (cfg.dynamicAL = true → al.2 < cfg.alSize) →
    t1aLitsC cfg pre.length row nrow x (sts pos) (sts neg) al.1 (pre ++ al.2 :: post) g =
      some (sts (t1aLits cfg x pos neg al g).1, sts (t1aLits cfg x pos neg al g).2.1, (t1aLits cfg x pos neg al g).2.2.1.1,
        pre ++ (t1aLits cfg x pos neg al g).2.2.1.2 :: post, (t1aLits cfg x pos neg al g).2.2.2) ∧
      (cfg.dynamicAL = true → (t1aLits cfg x pos neg al g).2.2.1.2 < cfg.alSize) := by
  intro x
  induction x with
  | nil => intro pos neg al g row nrow _ _ h; exact ⟨rfl, h⟩
  | cons l ls ih =>
    intro pos neg al g row nrow hp hn h
    rw [t1aLitsC, bind_of (updFirstC_row _ l pos g row hp), t1aLits]
    simp only
    have e1 := updFirst_lits (stepUp cfg) l pos g
    have e2 := updFirst_lits (stepDown cfg) l neg (updFirst (stepUp cfg) l pos g).2.1
    by_cases hf : (updFirst (stepUp cfg) l pos g).2.2 = true
    · have hm : missingC cfg al.1 (pre ++ al.2 :: post) l pre.length (updFirst (stepUp cfg) l pos g).2.2 =
          some (al.1, pre ++ al.2 :: post) := if_pos hf
      rw [if_pos hf, bind_of hm]
      simp only
      rw [bind_of (updFirstC_row _ l neg _ nrow hn)]
      simp only
      exact ih _ _ al _ row nrow (hp.trans e1.symm) (hn.trans e2.symm) h
    · have hm : missingC cfg al.1 (pre ++ al.2 :: post) l pre.length (updFirst (stepUp cfg) l pos g).2.2 =
          some ((updateAL cfg al l).1, pre ++ (updateAL cfg al l).2 :: post) :=
        (if_neg hf).trans (updateALC_eq cfg al pre post l h)
      rw [if_neg hf, bind_of hm]
      simp only
      rw [bind_of (updFirstC_row _ l neg _ nrow hn)]
      simp only
      exact ih _ _ _ _ row nrow (hp.trans e1.symm) (hn.trans e2.symm) (updateAL_idx cfg al l h)

theorem t1aC_eq (cfg : SCfg) (pre post : List Nat) (x : List Nat) (pos neg : Half) (al : List Nat × Nat) (g : Rng)
    (h : cfg.dynamicAL = true → al.2 < cfg.alSize) :
    t1aC cfg x pre.length (lits pos) (lits neg) (sts pos) (sts neg) al.1 (pre ++ al.2 :: post) g =
      some (sts (sT1a cfg x pos neg al g).1, sts (sT1a cfg x pos neg al g).2.1, (sT1a cfg x pos neg al g).2.2.1.1,
        pre ++ (sT1a cfg x pos neg al g).2.2.1.2 :: post, (sT1a cfg x pos neg al g).2.2.2) ∧
      (cfg.dynamicAL = true → (sT1a cfg x pos neg al g).2.2.1.2 < cfg.alSize) := by
  obtain ⟨h1, h2⟩ := t1aLitsC_eq cfg pre post x pos neg al g _ _ rfl rfl h
  refine ⟨?_, h2⟩
  have e := t1aLits_lits cfg x pos neg al g
  unfold t1aC sT1a
  rw [bind_of h1]
  simp only
  rw [bind_of (updAllC_row _ _ _ _ (lits pos) e.1.symm)]
  simp only
  rw [bind_of (updAllC_row _ _ _ _ (lits neg) e.2.symm)]
  rfl

/-! ### The block -/

section
variable {α β : Type} (f fn : SClause → α) (done rest : List SClause) (c c' : SClause)

theorem rd_pos : rd ((done ++ c :: rest).map f ++ (done ++ c :: rest).map fn) ((done.length : Nat) : Int) = some (f c) :=
  rd_eq_mid (done.map f) (rest.map f ++ (done ++ c :: rest).map fn) (f c) (by simp) (by simp)

theorem rd_neg : rd ((done ++ c :: rest).map f ++ (done ++ c :: rest).map fn)
    ((done.length + (done ++ c :: rest).length : Nat) : Int) = some (fn c) :=
  rd_eq_mid ((done ++ c :: rest).map f ++ done.map fn) (rest.map fn) (fn c) (by simp) (by simp; omega)

theorem wr_pos : wr ((done ++ c :: rest).map f ++ (done ++ c :: rest).map fn) ((done.length : Nat) : Int) (f c') =
    some ((done ++ c' :: rest).map f ++ (done ++ c :: rest).map fn) :=
  (wr_eq_mid (done.map f) (rest.map f ++ (done ++ c :: rest).map fn) (f c) (f c') (by simp) (by simp)).trans (by simp)

theorem wr_neg : wr ((done ++ c' :: rest).map f ++ (done ++ c :: rest).map fn)
    ((done.length + (done ++ c :: rest).length : Nat) : Int) (fn c') =
    some ((done ++ c' :: rest).map f ++ (done ++ c' :: rest).map fn) :=
  (wr_eq_mid ((done ++ c' :: rest).map f ++ done.map fn) (rest.map fn) (fn c) (fn c') (by simp) (by simp; omega)).trans (by simp)
end

theorem rd_one {α : Type} (f : SClause → α) (done rest : List SClause) (c : SClause) :
    rd ((done ++ c :: rest).map f) ((done.length : Nat) : Int) = some (f c) :=
  rd_eq_mid (done.map f) (rest.map f) (f c) (by simp) (by simp)

theorem wr_one {α : Type} (f : SClause → α) (done rest : List SClause) (c c' : SClause) {v : α} (hv : v = f c') :
    wr ((done ++ c :: rest).map f) ((done.length : Nat) : Int) v = some ((done ++ c' :: rest).map f) :=
  (wr_eq_mid (done.map f) (rest.map f) (f c) v (by simp) (by simp)).trans (by simp [hv])

/-- The number of the negated row. -/
theorem kn_eq (done rest : List SClause) (c : SClause) (h : 2 * (done ++ c :: rest).length < 2147483648) :
    i32 ((done.length : Int) + ((done ++ c :: rest).length : Int)) = some ((done.length + (done ++ c :: rest).length : Nat) : Int) :=
  i32_nat _ (by push_cast; rfl) (by simp at *; omega)

theorem trainOkC_eq (x : List Nat) (pos neg : Half) :
    trainOkC x (lits pos) (lits neg) (sts pos) (sts neg) = some (posTrain (backLit pos) x pos && negLoop x neg) := by
  have h1 := posTrainC_eq x pos []
  have h2 := negLoopC_eq x neg []
  simp only [List.nil_append, List.length_nil] at h1 h2
  unfold trainOkC
  rw [List.length_map, List.length_map, bind_of h1]
  cases posTrain (backLit pos) x pos
  · rfl
  · exact h2

theorem evalOkC_eq (x : List Nat) (pos neg : Half) :
    evalOkC x (lits pos) (lits neg) (sts pos) (sts neg) = some (posEval (backLit pos) x pos && negLoop x neg) := by
  have h1 := posEvalC_eq x pos []
  have h2 := negLoopC_eq x neg []
  simp only [List.nil_append, List.length_nil] at h1 h2
  unfold evalOkC
  rw [List.length_map, List.length_map, bind_of h1]
  cases posEval (backLit pos) x pos
  · rfl
  · exact h2

theorem putCountC_eq (cfg : SCfg) (done rest : List SClause) (c : SClause) :
    putCountC cfg (if cfg.budget.isSome = true then (done ++ c :: rest).map (·.cnt) else []) done.length
      (lits c.pos) (lits c.neg) (sts c.pos) (sts c.neg) =
    some (if cfg.budget.isSome = true then
      (done ++ { c with cnt := if cfg.budget.isSome then countOn c.pos + countOn c.neg else c.cnt } :: rest).map (·.cnt) else []) := by
  unfold putCountC
  have h3 := countOnC_eq c.pos []
  have h4 := countOnC_eq c.neg []
  simp only [List.nil_append, List.length_nil] at h3 h4
  rw [List.length_map, List.length_map]
  by_cases hb : cfg.budget.isSome = true
  · simp only [hb, if_true]
    rw [bind_of h3, bind_of h4]
    exact wr_one (·.cnt) done rest c _ rfl
  · simp only [if_neg hb]

theorem putOutC_eq (done rest : List SClause) (c c' : SClause) (ok : Bool) (h : c.out = 1) (h' : c'.out = if ok then 1 else 0) :
    putOutC ((done ++ c :: rest).map (·.out)) done.length ok = some ((done ++ c' :: rest).map (·.out)) := by
  unfold putOutC
  cases ok
  · exact wr_one (·.out) done rest _ _ h'.symm
  · simp [h, h']

theorem setOutBody_eq (b : SBlock) (x : List Nat) (done rest : List SClause) (c : SClause)
    (hs : 2 * (done ++ c :: rest).length < 2147483648) :
    FlatS.setOutBody x done.length (flattenS { b with clauses := done ++ c :: rest }) =
      some (flattenS { b with clauses := done ++ sSetClause b.cfg x c :: rest }) := by
  unfold FlatS.setOutBody
  simp only [flattenS]
  rw [bind_of (kn_eq done rest c hs), bind_of (rd_pos _ _ done rest c), bind_of (rd_neg _ _ done rest c),
    bind_of (rd_pos _ _ done rest c), bind_of (rd_neg _ _ done rest c),
    bind_of (wr_one (·.out) done rest c { c with out := 1 } rfl)]
  unfold sSetClause
  simp only [List.length_map]
  by_cases h0 : c.pos.length = 0 ∧ c.neg.length = 0
  · rw [if_pos h0, if_pos h0, bind_of (putCountC_eq b.cfg done rest c)]
    have e1 := List.length_eq_zero_iff.mp h0.1
    have e2 := List.length_eq_zero_iff.mp h0.2
    simp [e1, e2, countOn]
  · rw [if_neg h0, if_neg h0, bind_of (trainOkC_eq x c.pos c.neg)]
    generalize (posTrain (backLit c.pos) x c.pos && negLoop x c.neg) = ok
    rw [bind_of (putOutC_eq done rest { c with out := 1 } { c with out := if ok then 1 else 0 } ok rfl rfl),
      bind_of (putCountC_eq b.cfg done rest c)]
    simp

theorem evalBody_eq (b : SBlock) (x : List Nat) (done rest : List SClause) (c : SClause)
    (hs : 2 * (done ++ c :: rest).length < 2147483648) :
    FlatS.evalBody x done.length (flattenS { b with clauses := done ++ c :: rest }) =
      some (flattenS { b with clauses := done ++ sEvalClause x c :: rest }) := by
  unfold FlatS.evalBody
  simp only [flattenS]
  rw [bind_of (kn_eq done rest c hs), bind_of (rd_pos _ _ done rest c), bind_of (rd_neg _ _ done rest c),
    bind_of (rd_pos _ _ done rest c), bind_of (rd_neg _ _ done rest c),
    bind_of (wr_one (·.out) done rest c { c with out := 1 } rfl)]
  unfold sEvalClause
  simp only [List.length_map]
  by_cases h0 : c.pos.length = 0 ∨ c.neg.length = 0
  · rw [if_pos h0, if_pos h0, bind_of (wr_one (·.out) done rest _ { c with out := 0 } rfl)]
    simp
  · rw [if_neg h0, if_neg h0, bind_of (evalOkC_eq x c.pos c.neg)]
    generalize (posEval (backLit c.pos) x c.pos && negLoop x c.neg) = ok
    rw [bind_of (putOutC_eq done rest { c with out := 1 } { c with out := if ok then 1 else 0 } ok rfl rfl)]
    simp

/-- A loop over the clauses that changes one clause at a time. -/
theorem forLoop_map (b : SBlock) (body : Nat → FlatS → Option FlatS) (f : SClause → SClause) (total : Nat)
    (h : ∀ (done rest : List SClause) (c : SClause), (done ++ c :: rest).length = total →
      body done.length (flattenS { b with clauses := done ++ c :: rest }) =
        some (flattenS { b with clauses := done ++ f c :: rest })) :
    ∀ (rest done : List SClause), (done ++ rest).length = total →
      forLoop body rest.length done.length (flattenS { b with clauses := done ++ rest }) =
        some (flattenS { b with clauses := done ++ rest.map f }) := by
  intro rest
  induction rest with
  | nil => intro done _; simp [forLoop]
  | cons c rest ih =>
    intro done ht
    rw [List.length_cons, forLoop, bind_of (h done rest c ht)]
    have := ih (done ++ [f c]) (by simpa using ht)
    simp only [List.append_assoc, List.cons_append, List.nil_append, List.length_append, List.length_cons, List.length_nil,
      Nat.zero_add] at this
    rw [this, List.map_cons]

theorem flat_setOut (b : SBlock) (x : List Nat) (hs : 2 * b.clauses.length < 2147483648) :
    (flattenS b).setOut x = some (flattenS { b with clauses := b.clauses.map (sSetClause b.cfg x) }) :=
  forLoop_map b (FlatS.setOutBody x) (sSetClause b.cfg x) b.clauses.length
    (fun done rest c ht => setOutBody_eq b x done rest c (ht ▸ hs)) b.clauses [] rfl

theorem flat_evalOut (b : SBlock) (x : List Nat) (hs : 2 * b.clauses.length < 2147483648) :
    (flattenS b).evalOut x = some (flattenS { b with clauses := b.clauses.map (sEvalClause x) }) :=
  forLoop_map b (FlatS.evalBody x) (sEvalClause x) b.clauses.length
    (fun done rest c ht => evalBody_eq b x done rest c (ht ▸ hs)) b.clauses [] rfl

/-! ### Votes -/

theorem wlength {n : Nat} {cs : List SClause} (h : ∀ c ∈ cs, c.w.length = n) : (cs.flatMap (·.w)).length = cs.length * n := by
  induction cs with
  | nil => simp
  | cons c cs ih =>
    have h1 := h c List.mem_cons_self
    have h2 := ih fun c' hc' => h c' (List.mem_cons_of_mem _ hc')
    rw [List.flatMap_cons, List.length_append, h2, h1, List.length_cons, Nat.succ_mul]
    omega

theorem offset_lt {k m n : Nat} (hk : k < m) (h : m * n < 2147483648) : k * n + n < 2147483648 := by
  have : (k + 1) * n ≤ m * n := Nat.mul_le_mul_right _ hk
  rw [Nat.succ_mul] at this
  omega

theorem countLoop_eq (b : SBlock) (hb : ∀ c ∈ b.clauses, c.w.length = b.nClasses) (hs : b.clauses.length * b.nClasses < 2147483648) :
    ∀ (rest done : List SClause) (v : List Int), done ++ rest = b.clauses → v.length = b.nClasses →
      forLoop FlatS.countBody rest.length done.length { flattenS b with votes := v } =
        some { flattenS b with votes := rest.foldl (fun v c => if c.out = 1 then addVotes v c.w else v) v } := by
  intro rest
  induction rest with
  | nil => intro done v _ _; simp [forLoop]
  | cons c rest ih =>
    intro done v hdr hv
    have hc := hb c (by rw [← hdr]; simp)
    have hd : ∀ c ∈ done, c.w.length = b.nClasses := fun c' hc' => hb c' (by rw [← hdr]; simp [hc'])
    have hsm := offset_lt (k := done.length) (by rw [← hdr]; simp) hs
    rw [List.length_cons, forLoop]
    have hbody : FlatS.countBody done.length { flattenS b with votes := v } =
        some { flattenS b with votes := if c.out = 1 then addVotes v c.w else v } := by
      unfold FlatS.countBody
      have hro : rd (flattenS b).outputs ((done.length : Nat) : Int) = some c.out := by
        have := rd_one (·.out) done rest c
        rw [hdr] at this
        exact this
      rw [bind_of hro]
      by_cases ho : c.out = 1
      · rw [if_pos ho, if_pos ho]
        have hl := voteLoop_eq b.nClasses done.length (done.flatMap (·.w)) (rest.flatMap (·.w)) (wlength hd) hsm c.w v [] []
          (by rw [hv, hc]) rfl (by simp [hc])
        simp only [List.nil_append, List.length_nil, hc] at hl
        have hw : (flattenS b).weights = done.flatMap (·.w) ++ c.w ++ rest.flatMap (·.w) := by simp [flattenS, ← hdr]
        have hn : (flattenS b).nClasses = b.nClasses := rfl
        have hl' : forLoop (voteBody (flattenS b).nClasses (flattenS b).weights done.length) (flattenS b).nClasses 0 v =
            some (addVotes v c.w) := by rw [hw, hn]; exact hl
        exact (bind_of hl' _).trans rfl
      · rw [if_neg ho, if_neg ho]
        rfl
    rw [bind_of hbody]
    have := ih (done ++ [c]) (if c.out = 1 then addVotes v c.w else v) (by rw [← hdr]; simp) (by
      split
      · simp [addVotes, hv, hc]
      · exact hv)
    simp only [List.length_append, List.length_cons, List.length_nil, Nat.zero_add] at this
    rw [this, List.foldl_cons]

theorem flat_countVotes (b : SBlock) (hb : SBlockShaped b) (hs : b.clauses.length * b.nClasses < 2147483648) :
    (flattenS b).countVotes = some (flattenS { b with votes := sCountVotes b.nClasses b.clauses }) := by
  unfold FlatS.countVotes
  have hz := zeroLoop_eq b.votes []
  simp only [List.nil_append, List.length_nil, hb.votes] at hz
  have hv : (flattenS b).votes = b.votes := rfl
  have hn : (flattenS b).nClasses = b.nClasses := rfl
  rw [hv, hn, bind_of hz]
  exact countLoop_eq b hb.weights hs b.clauses [] (List.replicate b.nClasses 0) rfl (by simp)

/-! ### Training -/

theorem store_eq (b : SBlock) (done rest : List SClause) (c c' : SClause) :
    (flattenS { b with clauses := done ++ c :: rest }).store done.length ((done.length + (done ++ c :: rest).length : Nat) : Int)
      (lits c'.pos, sts c'.pos) (lits c'.neg, sts c'.neg) =
    some { flattenS { b with clauses := done ++ c :: rest } with
      rows := (done ++ c' :: rest).map (fun c => c.pos.map (·.1)) ++ (done ++ c' :: rest).map (fun c => c.neg.map (·.1))
      states := (done ++ c' :: rest).map (fun c => c.pos.map (·.2)) ++ (done ++ c' :: rest).map (fun c => c.neg.map (·.2)) } := by
  unfold FlatS.store
  simp only [flattenS]
  rw [bind_of (wr_pos (fun c => c.pos.map (·.1)) (fun c => c.neg.map (·.1)) done rest c c'),
    bind_of (wr_neg (fun c => c.pos.map (·.1)) (fun c => c.neg.map (·.1)) done rest c c'),
    bind_of (wr_pos (fun c => c.pos.map (·.2)) (fun c => c.neg.map (·.2)) done rest c c'),
    bind_of (wr_neg (fun c => c.pos.map (·.2)) (fun c => c.neg.map (·.2)) done rest c c')]
  rfl

theorem clauseUpdate_eq (b : SBlock) (x : List Nat) (done rest : List SClause) (c : SClause) (apre apost : AL) (a : List Nat × Nat)
    (g : Rng) (target : Int) (hw : ∀ c' ∈ done ++ c :: rest, c'.w.length = b.nClasses) (hcls : apre.length < b.nClasses)
    (hi : b.cfg.dynamicAL = true → a.2 < b.cfg.alSize) :
    (flattenS { b with clauses := done ++ c :: rest, al := apre ++ a :: apost, fast := g }).clauseUpdate x done.length
        ((done.length + (done ++ c :: rest).length : Nat) : Int) (((done.length * b.nClasses : Nat) : Int) + (apre.length : Int))
        apre.length target c.out =
      some (flattenS { b with
        clauses := done ++ (sClauseUpdate b.cfg x apre.length target c a g).1 :: rest
        al := apre ++ (sClauseUpdate b.cfg x apre.length target c a g).2.1 :: apost
        fast := (sClauseUpdate b.cfg x apre.length target c a g).2.2 }) ∧
    (sClauseUpdate b.cfg x apre.length target c a g).1.w.length = b.nClasses ∧
    (b.cfg.dynamicAL = true → (sClauseUpdate b.cfg x apre.length target c a g).2.1.2 < b.cfg.alSize) := by
  have hc := hw c (by simp)
  have hd : (done.flatMap (·.w)).length = done.length * b.nClasses := wlength fun c' hc' => hw c' (by simp [hc'])
  have hlt : apre.length < c.w.length := by omega
  have hsplit : c.w = c.w.take apre.length ++ c.w.getD apre.length 0 :: c.w.drop (apre.length + 1) := by
    rw [show c.w.getD apre.length 0 = c.w[apre.length] by simp [List.getD, hlt], ← List.drop_eq_getElem_cons hlt, List.take_append_drop]
  have hset : ∀ v, c.w.set apre.length v = c.w.take apre.length ++ v :: c.w.drop (apre.length + 1) := fun v =>
    List.set_eq_take_append_cons_drop .. |>.trans (by rw [if_pos hlt])
  have hrw : rd ((done ++ c :: rest).flatMap (·.w)) (((done.length * b.nClasses : Nat) : Int) + (apre.length : Int)) =
      some (c.w.getD apre.length 0) := by
    refine rd_eq_mid (done.flatMap (·.w) ++ c.w.take apre.length) (c.w.drop (apre.length + 1) ++ rest.flatMap (·.w)) _ ?_ ?_
    · rw [List.flatMap_append, List.flatMap_cons]
      conv_lhs => rw [hsplit]
      simp
    · rw [List.length_append, hd, List.length_take]; push_cast; omega
  have hww : ∀ v, wr ((done ++ c :: rest).flatMap (·.w)) (((done.length * b.nClasses : Nat) : Int) + (apre.length : Int)) v =
      some ((done ++ { c with w := c.w.set apre.length v } :: rest).flatMap (·.w)) := by
    intro v
    refine (wr_eq_mid (done.flatMap (·.w) ++ c.w.take apre.length) (c.w.drop (apre.length + 1) ++ rest.flatMap (·.w))
      (c.w.getD apre.length 0) v ?_ ?_).trans ?_
    · rw [List.flatMap_append, List.flatMap_cons]
      conv_lhs => rw [hsplit]
      simp
    · rw [List.length_append, hd, List.length_take]; push_cast; omega
    · rw [List.flatMap_append, List.flatMap_cons, hset]
      simp
  have hal : rd ((apre ++ a :: apost).map (·.1)) ((apre.length : Nat) : Int) = some a.1 :=
    rd_eq_mid (apre.map (·.1)) (apost.map (·.1)) a.1 (by simp) (by simp)
  have hwal : ∀ a' : List Nat × Nat, wr ((apre ++ a :: apost).map (·.1)) ((apre.length : Nat) : Int) a'.1 =
      some ((apre ++ a' :: apost).map (·.1)) := fun a' =>
    (wr_eq_mid (apre.map (·.1)) (apost.map (·.1)) a.1 a'.1 (by simp) (by simp)).trans (by simp)
  have hst := store_eq { b with al := apre ++ a :: apost, fast := g } done rest c
  unfold FlatS.clauseUpdate sClauseUpdate
  simp only [flattenS] at hst ⊢
  rw [bind_of hrw, bind_of (rd_pos _ _ done rest c), bind_of (rd_neg _ _ done rest c), bind_of (rd_pos _ _ done rest c),
    bind_of (rd_neg _ _ done rest c), bind_of hal]
  generalize (if c.w.getD apre.length 0 ≥ 0 then (1 : Int) else -1) = sign
  by_cases h1 : target * sign > 0
  · simp only [h1, if_true]
    by_cases h2 : c.out = 1
    · simp only [h2, if_true]
      have ht := t1aC_eq b.cfg (apre.map (·.2)) (apost.map (·.2)) x c.pos c.neg a g hi
      have e := sT1a_lits b.cfg x c.pos c.neg a g
      refine ⟨?_, by simp [hc], ht.2⟩
      have h1 := ht.1
      rw [List.length_map, show apre.map (·.2) ++ a.2 :: apost.map (·.2) = (apre ++ a :: apost).map (·.2) by simp] at h1
      rw [bind_of (hww _), bind_of h1]
      simp only
      rw [bind_of (pruneC_row _ _ _ e.1.symm), bind_of (pruneC_row _ _ _ e.2.symm),
        bind_of (hst { c with pos := prune b.cfg.lowerTA (sT1a b.cfg x c.pos c.neg a g).1,
                              neg := prune b.cfg.lowerTA (sT1a b.cfg x c.pos c.neg a g).2.1 }),
        bind_of (hwal _)]
      simp [h2]
    · simp only [h2, if_false]
      by_cases h3 : c.out = 0
      · simp only [h3, if_true]
        refine ⟨?_, hc, hi⟩
        have e := sT1b_lits b.cfg c.pos c.neg g
        rw [bind_of (t1bC_eq b.cfg c.pos c.neg g)]
        simp only
        rw [bind_of (pruneC_row _ _ _ e.1.symm), bind_of (pruneC_row _ _ _ e.2.symm),
          bind_of (hst { c with pos := prune b.cfg.lowerTA (sT1b b.cfg c.pos c.neg g).1,
                                neg := prune b.cfg.lowerTA (sT1b b.cfg c.pos c.neg g).2.1 })]
        simp [h3]
      · simp only [h3, if_false]
        exact ⟨rfl, hc, hi⟩
  · simp only [h1, if_false]
    by_cases h2 : target * sign < 0 ∧ c.out = 1
    · rw [if_pos h2, if_pos h2]
      refine ⟨?_, by simp [hc], hi⟩
      rw [bind_of (hww _), bind_of (t2C_eq b.cfg x c.pos c.neg a.1 g)]
      simp only
      rw [bind_of (sortC_eq _), bind_of (sortC_eq _),
        bind_of (hst { c with pos := sortHalf (sT2 b.cfg x c.pos c.neg a.1 g).1,
                              neg := sortHalf (sT2 b.cfg x c.pos c.neg a.1 g).2 })]
      simp
    · rw [if_neg h2, if_neg h2]
      exact ⟨rfl, hc, hi⟩

/-- One draw and the update it decides. -/
def step (cfg : SCfg) (x : List Nat) (j : Nat) (target : Int) (prob : Rat) (c : SClause) (al : AL) (g : Rng) : SClause × AL × Rng :=
  if g.next.1 < prob then sUpdateWith cfg x j target c al g.next.2 else (c, al, g.next.2)

theorem maybeUpdate_eq (b : SBlock) (x : List Nat) (done rest : List SClause) (c : SClause) (al : AL) (g : Rng) (j : Nat)
    (target : Int) (prob : Rat) (hw : ∀ c' ∈ done ++ c :: rest, c'.w.length = b.nClasses) (hal : al.length = b.nClasses)
    (hj : j < b.nClasses) (hi : ∀ a ∈ al, b.cfg.dynamicAL = true → a.2 < b.cfg.alSize) :
    (flattenS { b with clauses := done ++ c :: rest, al := al, fast := g }).maybeUpdate x done.length
        ((done.length + (done ++ c :: rest).length : Nat) : Int) ((done.length * b.nClasses : Nat) : Int) j target prob =
      some (flattenS { b with
        clauses := done ++ (step b.cfg x j target prob c al g).1 :: rest
        al := (step b.cfg x j target prob c al g).2.1
        fast := (step b.cfg x j target prob c al g).2.2 }) ∧
    (step b.cfg x j target prob c al g).1.w.length = b.nClasses ∧
    (step b.cfg x j target prob c al g).2.1.length = b.nClasses ∧
    (∀ a ∈ (step b.cfg x j target prob c al g).2.1, b.cfg.dynamicAL = true → a.2 < b.cfg.alSize) := by
  unfold FlatS.maybeUpdate step
  by_cases hp : g.next.1 < prob
  · have hp' : (flattenS { b with clauses := done ++ c :: rest, al := al, fast := g }).fast.next.1 < prob := hp
    simp only [if_pos hp]
    rw [if_pos hp']
    have hlt : j < al.length := by omega
    obtain ⟨apre, a, apost, rfl, hlen⟩ : ∃ apre a apost, al = apre ++ a :: apost ∧ apre.length = j :=
      ⟨al.take j, al[j], al.drop (j + 1), by rw [← List.drop_eq_getElem_cons hlt, List.take_append_drop],
        by rw [List.length_take]; omega⟩
    subst hlen
    have h := clauseUpdate_eq b x done rest c apre apost a g.next.2 target hw hj (hi a (by simp))
    have hg : (apre ++ a :: apost).getD apre.length ([], 0) = a := by simp [List.getD]
    have hs : ∀ a', (apre ++ a :: apost).set apre.length a' = apre ++ a' :: apost := by intro a'; simp
    have ho : rd (flattenS { b with clauses := done ++ c :: rest, al := apre ++ a :: apost, fast := g }).outputs
      ((done.length : Nat) : Int) = some c.out := rd_one (·.out) done rest c
    unfold sUpdateWith
    simp only [hg, hs]
    rw [bind_of ho]
    refine ⟨h.1, h.2.1, by simpa using hal, ?_⟩
    intro a' ha'
    rw [List.mem_append, List.mem_cons] at ha'
    rcases ha' with ha' | rfl | ha'
    · exact hi a' (by simp [ha'])
    · exact h.2.2
    · exact hi a' (by simp [ha'])
  · have hp' : ¬ (flattenS { b with clauses := done ++ c :: rest, al := al, fast := g }).fast.next.1 < prob := hp
    simp only [if_neg hp]
    rw [if_neg hp']
    exact ⟨rfl, hw c (by simp), hal, hi⟩

theorem gate_eq (b : SBlock) (done rest : List SClause) (c : SClause) :
    (flattenS { b with clauses := done ++ c :: rest }).gate done.length =
      some (flattenS { b with clauses := done ++ sBudgetGate b.cfg c :: rest }) := by
  unfold FlatS.gate sBudgetGate
  have hc : (flattenS { b with clauses := done ++ c :: rest }).cfg = b.cfg := rfl
  rw [hc]
  cases hb : b.cfg.budget with
  | none => rfl
  | some n =>
    have hr : rd (flattenS { b with clauses := done ++ c :: rest }).counts ((done.length : Nat) : Int) = some c.cnt := by
      simp only [flattenS, hb, Option.isSome_some, if_true]
      exact rd_one (·.cnt) done rest c
    have hww : wr (flattenS { b with clauses := done ++ c :: rest }).outputs ((done.length : Nat) : Int) 0 =
        some ((done ++ { c with out := 0 } :: rest).map (·.out)) := wr_one (·.out) done rest c _ rfl
    simp only
    rw [bind_of hr]
    by_cases hg : c.cnt > n
    · rw [if_pos hg, if_pos hg, bind_of hww]
      simp [flattenS]
    · rw [if_neg hg, if_neg hg]
      rfl

theorem sBudgetGate_w (cfg : SCfg) (c : SClause) : (sBudgetGate cfg c).w = c.w := by
  unfold sBudgetGate
  split
  · split <;> rfl
  · rfl

theorem sTrainClause_step (cfg : SCfg) (x : List Nat) (fb : Feedback) (c : SClause) (al : AL) (g : Rng) :
    sTrainClause cfg x fb c al g =
      step cfg x fb.negClass (-1) fb.negProb (step cfg x fb.posClass 1 fb.posProb (sBudgetGate cfg c) al g).1
        (step cfg x fb.posClass 1 fb.posProb (sBudgetGate cfg c) al g).2.1
        (step cfg x fb.posClass 1 fb.posProb (sBudgetGate cfg c) al g).2.2 := rfl

theorem trainBody_eq (b : SBlock) (x : List Nat) (fb : Feedback) (done rest : List SClause) (c : SClause) (al : AL) (g : Rng)
    (hs : SSmall (done ++ c :: rest).length b.nClasses) (hw : ∀ c' ∈ done ++ c :: rest, c'.w.length = b.nClasses)
    (hal : al.length = b.nClasses) (hp : fb.posClass < b.nClasses) (hn : fb.negClass < b.nClasses)
    (hi : ∀ a ∈ al, b.cfg.dynamicAL = true → a.2 < b.cfg.alSize) :
    FlatS.trainBody x fb done.length (flattenS { b with clauses := done ++ c :: rest, al := al, fast := g }) =
      some (flattenS { b with
        clauses := done ++ (sTrainClause b.cfg x fb c al g).1 :: rest
        al := (sTrainClause b.cfg x fb c al g).2.1
        fast := (sTrainClause b.cfg x fb c al g).2.2 }) ∧
    (sTrainClause b.cfg x fb c al g).1.w.length = b.nClasses ∧
    (sTrainClause b.cfg x fb c al g).2.1.length = b.nClasses ∧
    (∀ a ∈ (sTrainClause b.cfg x fb c al g).2.1, b.cfg.dynamicAL = true → a.2 < b.cfg.alSize) := by
  have hoff := offset_lt (k := done.length) (by simp) hs.weights
  have hwr : i32 ((done.length : Int) * (b.nClasses : Int)) = some ((done.length * b.nClasses : Nat) : Int) :=
    i32_nat _ (by push_cast; rfl) (by omega)
  have hra : ∀ j, j < b.nClasses → ∃ a, rd (al.map (·.1)) ((j : Nat) : Int) = some a := fun j hj =>
    ⟨_, rd_getElem _ j (by simp; omega)⟩
  obtain ⟨a1, ha1⟩ := hra _ hp
  obtain ⟨a2, ha2⟩ := hra _ hn
  have hw1 : ∀ c' ∈ done ++ sBudgetGate b.cfg c :: rest, c'.w.length = b.nClasses := by
    intro c' hc'
    rw [List.mem_append, List.mem_cons] at hc'
    rcases hc' with h | rfl | h
    · exact hw c' (by simp [h])
    · rw [sBudgetGate_w]; exact hw c (by simp)
    · exact hw c' (by simp [h])
  have m1 := maybeUpdate_eq b x done rest (sBudgetGate b.cfg c) al g fb.posClass 1 fb.posProb hw1 hal hp hi
  have hw2 : ∀ c' ∈ done ++ (step b.cfg x fb.posClass 1 fb.posProb (sBudgetGate b.cfg c) al g).1 :: rest, c'.w.length = b.nClasses := by
    intro c' hc'
    rw [List.mem_append, List.mem_cons] at hc'
    rcases hc' with h | rfl | h
    · exact hw c' (by simp [h])
    · exact m1.2.1
    · exact hw c' (by simp [h])
  have m2 := maybeUpdate_eq b x done rest _ _ (step b.cfg x fb.posClass 1 fb.posProb (sBudgetGate b.cfg c) al g).2.2
    fb.negClass (-1) fb.negProb hw2 m1.2.2.1 hn m1.2.2.2
  rw [sTrainClause_step]
  refine ⟨?_, m2.2⟩
  unfold FlatS.trainBody
  have hl : ∀ c' : SClause, (done ++ c' :: rest).length = (done ++ c :: rest).length := by intro c'; simp
  rw [hl] at m1 m2
  have e1 : (flattenS { b with clauses := done ++ c :: rest, al := al, fast := g }).nClauses = (done ++ c :: rest).length := rfl
  have e2 : (flattenS { b with clauses := done ++ c :: rest, al := al, fast := g }).nClasses = b.nClasses := rfl
  have e3 : (flattenS { b with clauses := done ++ c :: rest, al := al, fast := g }).al = al.map (·.1) := rfl
  rw [e1, e2, e3, bind_of (kn_eq done rest c hs.rows)]
  have r1 := rd_pos (fun c => c.pos.map (·.1)) (fun c => c.neg.map (·.1)) done rest c
  have r2 := rd_neg (fun c => c.pos.map (·.1)) (fun c => c.neg.map (·.1)) done rest c
  have r3 := rd_pos (fun c => c.pos.map (·.2)) (fun c => c.neg.map (·.2)) done rest c
  have r4 := rd_neg (fun c => c.pos.map (·.2)) (fun c => c.neg.map (·.2)) done rest c
  have e4 : (flattenS { b with clauses := done ++ c :: rest, al := al, fast := g }).rows =
    (done ++ c :: rest).map (fun c => c.pos.map (·.1)) ++ (done ++ c :: rest).map (fun c => c.neg.map (·.1)) := rfl
  have e5 : (flattenS { b with clauses := done ++ c :: rest, al := al, fast := g }).states =
    (done ++ c :: rest).map (fun c => c.pos.map (·.2)) ++ (done ++ c :: rest).map (fun c => c.neg.map (·.2)) := rfl
  rw [e4, e5, bind_of r1, bind_of r2, bind_of r3, bind_of r4, bind_of ha1, bind_of ha2, bind_of hwr,
    bind_of (gate_eq { b with al := al, fast := g } done rest c)]
  exact (bind_of m1.1 _).trans m2.1

theorem trainLoop_eq (b : SBlock) (x : List Nat) (fb : Feedback) (hp : fb.posClass < b.nClasses) (hn : fb.negClass < b.nClasses) :
    ∀ (rest done : List SClause) (al : AL) (g : Rng), SSmall (done ++ rest).length b.nClasses →
      (∀ c' ∈ done ++ rest, c'.w.length = b.nClasses) → al.length = b.nClasses →
      (∀ a ∈ al, b.cfg.dynamicAL = true → a.2 < b.cfg.alSize) →
      forLoop (FlatS.trainBody x fb) rest.length done.length (flattenS { b with clauses := done ++ rest, al := al, fast := g }) =
        some (flattenS { b with
          clauses := done ++ (sTrainClauses b.cfg x fb rest al g).1
          al := (sTrainClauses b.cfg x fb rest al g).2.1
          fast := (sTrainClauses b.cfg x fb rest al g).2.2 }) ∧
      (∀ c' ∈ done ++ (sTrainClauses b.cfg x fb rest al g).1, c'.w.length = b.nClasses) ∧
      (sTrainClauses b.cfg x fb rest al g).1.length = rest.length ∧
      (sTrainClauses b.cfg x fb rest al g).2.1.length = b.nClasses ∧
      (∀ a ∈ (sTrainClauses b.cfg x fb rest al g).2.1, b.cfg.dynamicAL = true → a.2 < b.cfg.alSize) := by
  intro rest
  induction rest with
  | nil => intro done al g _ hw hal hi; exact ⟨by simp [forLoop, sTrainClauses], by simpa [sTrainClauses] using hw, rfl, hal, hi⟩
  | cons c rest ih =>
    intro done al g hs hw hal hi
    obtain ⟨t1, t2, t3, t4⟩ := trainBody_eq b x fb done rest c al g hs hw hal hp hn hi
    have hw' : ∀ c' ∈ (done ++ [(sTrainClause b.cfg x fb c al g).1]) ++ rest, c'.w.length = b.nClasses := by
      intro c' hc'
      rw [← snoc_eq, List.mem_append, List.mem_cons] at hc'
      rcases hc' with h | rfl | h
      · exact hw c' (by simp [h])
      · exact t2
      · exact hw c' (by simp [h])
    have h := ih (done ++ [(sTrainClause b.cfg x fb c al g).1]) (sTrainClause b.cfg x fb c al g).2.1
      (sTrainClause b.cfg x fb c al g).2.2 (by simpa using hs) hw' t3 t4
    rw [← snoc_eq, ← snoc_eq, List.length_append, List.length_singleton] at h
    rw [List.length_cons, forLoop, bind_of t1, sTrainClauses]
    exact ⟨h.1, h.2.1, by simp [h.2.2.1], h.2.2.2⟩

theorem sCountVotes_length (n : Nat) (cs : List SClause) (h : ∀ c ∈ cs, c.w.length = n) : (sCountVotes n cs).length = n := by
  unfold sCountVotes
  suffices hh : ∀ (cs : List SClause) (v : List Int), (∀ c ∈ cs, c.w.length = n) → v.length = n →
      (cs.foldl (fun v c => if c.out = 1 then addVotes v c.w else v) v).length = n from hh cs _ h (by simp)
  intro cs
  induction cs with
  | nil => intro v _ hv; exact hv
  | cons c cs ih =>
    intro v hc hv
    rw [List.foldl_cons]
    refine ih _ (fun c' hc' => hc c' (List.mem_cons_of_mem _ hc')) ?_
    split
    · simp [addVotes, hv, hc c List.mem_cons_self]
    · exact hv

theorem sSetClause_w (cfg : SCfg) (x : List Nat) (c : SClause) : (sSetClause cfg x c).w = c.w := by
  unfold sSetClause; split <;> rfl

theorem sEvalClause_w (x : List Nat) (c : SClause) : (sEvalClause x c).w = c.w := by
  unfold sEvalClause; split <;> rfl

/-- One call: the vectors hold the block the clause-by-clause description gives, and it has the same shape. -/
theorem flat_apply (b : SBlock) (hb : SBlockShaped b) (hs : SSmall b.clauses.length b.nClasses) (op : BlockOp)
    (ho : SOpOk b.nClasses op) :
    (flattenS b).apply op = some (flattenS (b.apply op)) ∧ SBlockShaped (b.apply op) ∧
      (b.apply op).clauses.length = b.clauses.length ∧ (b.apply op).nClasses = b.nClasses := by
  cases op with
  | trainExample x =>
    have hw : ∀ c ∈ b.clauses.map (sSetClause b.cfg x), c.w.length = b.nClasses := by
      intro c hc
      obtain ⟨c', hc', rfl⟩ := List.mem_map.mp hc
      rw [sSetClause_w]; exact hb.weights c' hc'
    refine ⟨?_, ⟨hw, hb.al, sCountVotes_length _ _ hw, hb.idx⟩, by simp [SBlock.apply], rfl⟩
    refine (bind_of (flat_setOut b x hs.rows) _).trans ?_
    exact flat_countVotes { b with clauses := b.clauses.map (sSetClause b.cfg x) } ⟨hw, hb.al, hb.votes, hb.idx⟩
      (by simpa using hs.weights)
  | evalExample x =>
    have hw : ∀ c ∈ b.clauses.map (sEvalClause x), c.w.length = b.nClasses := by
      intro c hc
      obtain ⟨c', hc', rfl⟩ := List.mem_map.mp hc
      rw [sEvalClause_w]; exact hb.weights c' hc'
    refine ⟨?_, ⟨hw, hb.al, sCountVotes_length _ _ hw, hb.idx⟩, by simp [SBlock.apply], rfl⟩
    refine (bind_of (flat_evalOut b x hs.rows) _).trans ?_
    exact flat_countVotes { b with clauses := b.clauses.map (sEvalClause x) } ⟨hw, hb.al, hb.votes, hb.idx⟩
      (by simpa using hs.weights)
  | trainUpdate x fb =>
    obtain ⟨h1, h2, h3, h4, h5⟩ := trainLoop_eq b x fb ho.1 ho.2 b.clauses [] b.al b.fast hs hb.weights hb.al hb.idx
    exact ⟨h1, ⟨h2, h4, hb.votes, h5⟩, h3, rfl⟩

theorem flat_run : ∀ (ops : List BlockOp) (b : SBlock), SBlockShaped b → SSmall b.clauses.length b.nClasses →
    (∀ op ∈ ops, SOpOk b.nClasses op) →
    (flattenS b).run ops = some (flattenS (sRun b ops)) ∧ SBlockShaped (sRun b ops) ∧
      (sRun b ops).clauses.length = b.clauses.length ∧ (sRun b ops).nClasses = b.nClasses := by
  intro ops
  induction ops with
  | nil => intro b hb _ _; exact ⟨rfl, hb, rfl, rfl⟩
  | cons op ops ih =>
    intro b hb hs ho
    obtain ⟨h1, h2, h3, h4⟩ := flat_apply b hb hs op (ho op List.mem_cons_self)
    have h := ih (b.apply op) h2 (by rw [h3, h4]; exact hs) (by rw [h4]; exact fun o h => ho o (List.mem_cons_of_mem _ h))
    refine ⟨(bind_of h1 _).trans h.1, h.2.1, h.2.2.1.trans h3, h.2.2.2.trans h4⟩


/-! ### Life cycle -/

theorem mapIdx_flatMap_w (f : Nat → List Int → SClause) (hf : ∀ i w, (f i w).w = w) (ws : List (List Int)) :
    (ws.mapIdx f).flatMap (·.w) = ws.flatten := by
  induction ws generalizing f with
  | nil => rfl
  | cons w ws ih =>
    rw [List.mapIdx_cons, List.flatMap_cons, hf, List.flatten_cons, ih (fun i => f (i + 1)) fun i w => hf (i + 1) w]

theorem flat_init (nLits : Nat) (m : FlatS) (hr : m.rows = []) (hst : m.states = []) (hcn : m.counts = [])
    (fastOf : Nat → Rng) (junk : Nat → Int) (junkC : Nat → Nat) (seed : Nat) (hs : SSmall m.nClauses m.nClasses) :
    m.initialize fastOf junk junkC seed =
      some ((initSparse nLits m.nClauses m.nClasses m.cfg fastOf junkC seed).map fun b =>
        { flattenS b with al := resizeC m.al m.nClasses }) := by
  unfold FlatS.initialize initSparse
  by_cases hseed : seed = 0
  · rw [if_pos hseed, if_pos hseed]; rfl
  rw [if_neg hseed, if_neg hseed]
  by_cases hb : m.cfg.budget = some 0
  · rw [if_pos hb, if_pos hb]; rfl
  rw [if_neg hb, if_neg hb]
  have e1 : i32 (2 * (m.nClauses : Int)) = some ((2 * m.nClauses : Nat) : Int) := i32_nat _ (by push_cast; rfl) hs.rows
  have e2 : i32 ((m.nClauses : Int) * (m.nClasses : Int)) = some ((m.nClauses * m.nClasses : Nat) : Int) :=
    i32_nat _ (by push_cast; rfl) hs.weights
  rw [bind_of e1, bind_of e2]
  simp only [Int.toNat_natCast]
  have l2 := initWeight_loop ((List.range (m.nClauses * m.nClasses)).map junk) [] (fastOf seed)
  simp only [List.nil_append, List.length_nil, List.length_map, List.length_range] at l2
  rw [bind_of l2]
  obtain ⟨w1, w2, w3, w4⟩ := initAllWeights_flat m.nClasses m.nClauses (fastOf seed)
  have hmap : ∀ {β : Type} (f : SClause → β) (v : Nat → β),
      (∀ i w, f ⟨[], [], w, 0, junkC i⟩ = v i) →
      ((initAllWeights m.nClasses m.nClauses (fastOf seed)).1.mapIdx (fun i w => (⟨[], [], w, 0, junkC i⟩ : SClause))).map f =
        (List.range m.nClauses).map v := by
    intro β f v hv
    apply List.ext_getElem
    · simp [w3]
    · intro i h1 h2; simp [hv]
  have hrep : ∀ {β : Type} (v : β), (List.range m.nClauses).map (fun _ => v) = List.replicate m.nClauses v := by
    intro β v; simp
  simp only [Option.map_some, flattenS, Option.pure_def, List.length_mapIdx, w3]
  rw [mapIdx_flatMap_w _ (fun _ _ => rfl), w1, w2, hmap (fun c => c.pos.map (·.1)) (fun _ => []) (fun _ _ => rfl),
    hmap (fun c => c.neg.map (·.1)) (fun _ => []) (fun _ _ => rfl), hmap (fun c => c.pos.map (·.2)) (fun _ => []) (fun _ _ => rfl),
    hmap (fun c => c.neg.map (·.2)) (fun _ => []) (fun _ _ => rfl), hmap (·.out) (fun _ => 0) (fun _ _ => rfl),
    hmap (·.cnt) junkC (fun _ _ => rfl), hr, hst, hcn]
  simp only [hrep, resizeC, List.take_nil, List.nil_append, List.length_nil, Nat.sub_zero, List.replicate_append_replicate,
    List.map_replicate, Nat.two_mul]

theorem init_shaped (nLits nClauses nClasses : Nat) (cfg : SCfg) (fastOf : Nat → Rng) (junkC : Nat → Nat) (seed : Nat) (b : SBlock)
    (hb : initSparse nLits nClauses nClasses cfg fastOf junkC seed = some b) (ha : cfg.dynamicAL = true → 0 < cfg.alSize) :
    SBlockShaped b ∧ b.nClasses = nClasses ∧ b.clauses.length = nClauses ∧ b.cfg = cfg := by
  unfold initSparse at hb
  split at hb
  · simp at hb
  · split at hb
    · simp at hb
    · obtain rfl := Option.some.inj hb
      obtain ⟨w1, w2, w3, w4⟩ := initAllWeights_flat nClasses nClauses (fastOf seed)
      refine ⟨⟨?_, by simp, by simp, ?_⟩, rfl, by simp [w3], rfl⟩
      · intro c hc
        obtain ⟨i, hi, rfl⟩ := List.mem_mapIdx.mp hc
        exact w4 _ (List.getElem_mem _)
      · intro a h hd
        rw [List.mem_replicate] at h
        rw [h.2]
        exact ha hd

/-! ### The clauses as arrays -/

theorem csrPushC_eq : ∀ (h pre : Half) (d : List Int) (i : List Nat),
    csrPushC (lits (pre ++ h)) (sts (pre ++ h)) h.length pre.length d i = some (d ++ sts h, i ++ lits h) := by
  intro h
  induction h with
  | nil => intro pre d i; simp [csrPushC]
  | cons e h ih =>
    intro pre d i
    have hi := ih (pre ++ [e]) (d ++ [e.2]) (i ++ [e.1])
    rw [← snoc_eq, List.length_append, List.length_singleton] at hi
    rw [List.length_cons, csrPushC, bind_of (rd_sts pre h e), bind_of (rd_lits pre h e), hi]
    simp

theorem getCsrLoop_eq (m : FlatS) : ∀ (rest pre : List Half), m.rows = (pre ++ rest).map lits → m.states = (pre ++ rest).map sts →
    ∀ (off : Nat) (a : CsrArr), off + (rest.map (·.length)).sum < 2147483648 →
    ∃ ix, m.getCsrLoop rest.length pre.length (off : Int) a =
      some (((off + (rest.map (·.length)).sum : Nat) : Int),
        ⟨a.data ++ (csrLoop rest off).data, a.indices ++ (csrLoop rest off).indices, a.indptr ++ ix⟩) ∧
      ix ++ [off + (rest.map (·.length)).sum] = (csrLoop rest off).indptr := by
  intro rest
  induction rest with
  | nil => intro pre _ _ off a _; exact ⟨[], by simp [FlatS.getCsrLoop, csrLoop], by simp [csrLoop]⟩
  | cons r rest ih =>
    intro pre h1 h2 off a hs
    rw [List.map_cons, List.sum_cons] at hs
    obtain ⟨ix, i1, i2⟩ := ih (pre ++ [r]) (by rw [h1]; simp) (by rw [h2]; simp) (off + r.length)
      ⟨a.data ++ sts r, a.indices ++ lits r, a.indptr ++ [off]⟩ (by omega)
    refine ⟨off :: ix, ?_, ?_⟩
    · have r1 : rd m.rows ((pre.length : Nat) : Int) = some (lits r) :=
        rd_eq_mid (pre.map lits) (rest.map lits) (lits r) (by rw [h1]; simp) (by simp)
      have r2 : rd m.states ((pre.length : Nat) : Int) = some (sts r) :=
        rd_eq_mid (pre.map sts) (rest.map sts) (sts r) (by rw [h2]; simp) (by simp)
      have hp := csrPushC_eq r [] a.data a.indices
      simp only [List.nil_append, List.length_nil] at hp
      rw [← List.length_map (f := (·.1))] at hp
      have ho : i32 ((off : Int) + ((lits r).length : Int)) = some ((off + r.length : Nat) : Int) :=
        i32_nat _ (by push_cast; simp) (by omega)
      rw [List.length_cons, FlatS.getCsrLoop, bind_of r1, bind_of r2, bind_of hp]
      simp only
      rw [bind_of ho, Int.toNat_natCast]
      rw [List.length_append, List.length_singleton] at i1
      rw [i1]
      simp [csrLoop, Nat.add_assoc]
    · rw [List.map_cons, List.sum_cons, List.cons_append, csrLoop, ← Nat.add_assoc, i2]

theorem getCsr_eq (b : SBlock) (hn : b.clauses.length * 2 < 2147483648)
    (hs : (b.clauses.map fun c => c.pos.length + c.neg.length).sum < 2147483648) :
    (flattenS b).getCsr = some b.getCsr := by
  have hsum : (b.rows.map (·.length)).sum = (b.clauses.map fun c => c.pos.length + c.neg.length).sum := by
    unfold SBlock.rows
    generalize b.clauses = cs
    induction cs with
    | nil => rfl
    | cons c cs ih =>
      simp only [List.map_append, List.map_map, List.sum_append, List.map_cons, List.sum_cons] at ih ⊢
      simp only [Function.comp_def] at ih ⊢
      omega
  have hlen : b.rows.length = b.clauses.length * 2 := by simp [SBlock.rows]; omega
  obtain ⟨ix, i1, i2⟩ := getCsrLoop_eq (flattenS b) b.rows []
    (by simp [flattenS, SBlock.rows, Function.comp_def]) (by simp [flattenS, SBlock.rows, Function.comp_def])
    0 ⟨[], [], []⟩ (by omega)
  unfold FlatS.getCsr
  have e1 : i32 (((flattenS b).nClauses : Int) * 2) = some ((b.clauses.length * 2 : Nat) : Int) := i32_nat _ (by rfl) hn
  rw [bind_of e1, Int.toNat_natCast, ← hlen]
  simp only [List.nil_append, List.length_nil] at i1
  have i1' : (flattenS b).getCsrLoop b.rows.length 0 0 ⟨[], [], []⟩ = _ := i1
  rw [bind_of i1']
  simp only [Int.toNat_natCast, i2]
  rfl

theorem setRows_flatten (b : SBlock) (rows : List Half) (h : rows.length = 2 * b.clauses.length) :
    b.setRows rows = some { b with clauses := b.clauses.mapIdx fun i c =>
      { c with pos := rows.getD i [], neg := rows.getD (i + b.clauses.length) [] } } ∧
    (b.clauses.mapIdx fun i c => { c with pos := rows.getD i [], neg := rows.getD (i + b.clauses.length) [] }).map (·.pos) ++
      (b.clauses.mapIdx fun i c => { c with pos := rows.getD i [], neg := rows.getD (i + b.clauses.length) [] }).map (·.neg) = rows := by
  refine ⟨by unfold SBlock.setRows; rw [if_neg (by omega)], ?_⟩
  apply List.ext_getElem
  · simp; omega
  · intro i h1 h2
    by_cases hi : i < b.clauses.length
    · rw [List.getElem_append_left (by simpa using hi)]
      simp [List.getD, h2]
    · rw [List.getElem_append_right (by simpa using hi)]
      simp only [List.length_map, List.length_mapIdx, List.getElem_map, List.getElem_mapIdx]
      rw [Nat.sub_add_cancel (by omega)]
      simp [List.getD, h2]

theorem setCsr_eq (b : SBlock) (a : CsrArr) (h : a.indptr.length = 2 * b.clauses.length + 1) :
    (flattenS b).setCsr a = (b.setCsr a).map flattenS := by
  unfold FlatS.setCsr SBlock.setCsr
  have hne : a.indptr ≠ [] := by intro h'; rw [h'] at h; simp at h
  rw [if_neg hne, if_neg hne]
  have hrl : ∀ (ps : List Nat) (rows : List Half), csrRows a ps = some rows → rows.length = ps.length - 1 := by
    intro ps
    induction ps with
    | nil => intro rows h; simp only [csrRows, Option.some.injEq] at h; simp [← h]
    | cons p ps ih =>
      intro rows h
      cases ps with
      | nil => simp only [csrRows, Option.some.injEq] at h; simp [← h]
      | cons q ps =>
        rw [csrRows] at h
        split at h
        · next r rs h1 h2 =>
          have := ih rs h2
          simp only [Option.some.injEq] at h
          rw [← h]
          simp only [List.length_cons] at this ⊢
          omega
        · simp at h
  cases hr : csrRows a a.indptr with
  | none => rfl
  | some rows =>
    have hl := hrl _ _ hr
    obtain ⟨s1, s2⟩ := setRows_flatten b rows (by omega)
    simp only [s1, Option.map_some]
    have g1 : ∀ {β : Type} (f : Half → β) (cs : List SClause), cs.map (fun c => f c.pos) ++ cs.map (fun c => f c.neg) =
        (cs.map (·.pos) ++ cs.map (·.neg)).map f := by intro β f cs; simp [Function.comp_def]
    have g2 : ∀ {β : Type} (f : SClause → β) (F : Nat → SClause → SClause), (∀ i c, f (F i c) = f c) → (b.clauses.mapIdx F).map f =
        b.clauses.map f := by
      intro β f F hF
      apply List.ext_getElem
      · simp
      · intro i h1 h2; simp [hF]
    have k1 := g2 (·.cnt) (fun i c => { c with pos := rows.getD i [], neg := rows.getD (i + b.clauses.length) [] }) (fun _ _ => rfl)
    have k2 := g2 (·.out) (fun i c => { c with pos := rows.getD i [], neg := rows.getD (i + b.clauses.length) [] }) (fun _ _ => rfl)
    have k3 := g2 (·.w) (fun i c => { c with pos := rows.getD i [], neg := rows.getD (i + b.clauses.length) [] }) (fun _ _ => rfl)
    simp only [flattenS, g1 (fun h : Half => h.map (·.1)), g1 (fun h : Half => h.map (·.2)), s2]
    rw [k1, k2, List.flatMap_def, List.flatMap_def, k3]
    simp

/-! ### Too few rows -/

theorem forLoop_none_inv {σ : Type} (body : Nat → σ → Option σ) (P : σ → Prop) (j : Nat)
    (hp : ∀ k s s', P s → body k s = some s' → P s') (hj : ∀ s, P s → body j s = none) :
    ∀ (rem k : Nat) (s : σ), P s → k ≤ j → j < k + rem → forLoop body rem k s = none := by
  intro rem
  induction rem with
  | zero => intro k s _ h1 h2; omega
  | succ rem ih =>
    intro k s hs h1 h2
    rw [forLoop]
    by_cases h : k = j
    · subst h; rw [hj s hs]; rfl
    · cases hb : body k s with
      | none => rfl
      | some s' => exact ih (k + 1) s' (hp k s s' hs hb) (by omega) (by omega)

theorem setOutBody_rows {x : List Nat} {k : Nat} {m m' : FlatS} (h : FlatS.setOutBody x k m = some m') :
    m'.rows = m.rows ∧ m'.nClauses = m.nClauses := by
  unfold FlatS.setOutBody at h
  obtain ⟨_, -, h⟩ := bind_inv h
  obtain ⟨_, -, h⟩ := bind_inv h
  obtain ⟨_, -, h⟩ := bind_inv h
  obtain ⟨_, -, h⟩ := bind_inv h
  obtain ⟨_, -, h⟩ := bind_inv h
  obtain ⟨_, -, h⟩ := bind_inv h
  split at h
  · obtain ⟨_, -, h⟩ := bind_inv h
    rw [← Option.some.inj h]; exact ⟨rfl, rfl⟩
  · obtain ⟨_, -, h⟩ := bind_inv h
    obtain ⟨_, -, h⟩ := bind_inv h
    obtain ⟨_, -, h⟩ := bind_inv h
    rw [← Option.some.inj h]; exact ⟨rfl, rfl⟩

theorem setOutBody_short {x : List Nat} {k : Nat} {m : FlatS} (h : m.rows.length ≤ k + m.nClauses) :
    FlatS.setOutBody x k m = none := by
  cases hh : FlatS.setOutBody x k m with
  | none => rfl
  | some m' =>
    unfold FlatS.setOutBody at hh
    obtain ⟨kn, h1, hh⟩ := bind_inv hh
    obtain ⟨_, -, hh⟩ := bind_inv hh
    obtain ⟨_, h3, hh⟩ := bind_inv hh
    rw [(i32_inv h1).1, ← Int.natCast_add, rd_out _ _ h] at h3
    simp at h3

theorem evalBody_rows {x : List Nat} {k : Nat} {m m' : FlatS} (h : FlatS.evalBody x k m = some m') :
    m'.rows = m.rows ∧ m'.nClauses = m.nClauses := by
  unfold FlatS.evalBody at h
  obtain ⟨_, -, h⟩ := bind_inv h
  obtain ⟨_, -, h⟩ := bind_inv h
  obtain ⟨_, -, h⟩ := bind_inv h
  obtain ⟨_, -, h⟩ := bind_inv h
  obtain ⟨_, -, h⟩ := bind_inv h
  obtain ⟨_, -, h⟩ := bind_inv h
  split at h
  · obtain ⟨_, -, h⟩ := bind_inv h
    rw [← Option.some.inj h]; exact ⟨rfl, rfl⟩
  · obtain ⟨_, -, h⟩ := bind_inv h
    obtain ⟨_, -, h⟩ := bind_inv h
    rw [← Option.some.inj h]; exact ⟨rfl, rfl⟩

theorem evalBody_short {x : List Nat} {k : Nat} {m : FlatS} (h : m.rows.length ≤ k + m.nClauses) :
    FlatS.evalBody x k m = none := by
  cases hh : FlatS.evalBody x k m with
  | none => rfl
  | some m' =>
    unfold FlatS.evalBody at hh
    obtain ⟨kn, h1, hh⟩ := bind_inv hh
    obtain ⟨_, -, hh⟩ := bind_inv hh
    obtain ⟨_, h3, hh⟩ := bind_inv hh
    rw [(i32_inv h1).1, ← Int.natCast_add, rd_out _ _ h] at h3
    simp at h3

theorem outputs_short (x : List Nat) (m : FlatS) (h : m.rows.length < 2 * m.nClauses) : m.setOut x = none ∧ m.evalOut x = none := by
  constructor
  · refine forLoop_none_inv _ (fun s => s.rows = m.rows ∧ s.nClauses = m.nClauses) (m.nClauses - 1) ?_ ?_ _ 0 m ⟨rfl, rfl⟩
      (by omega) (by omega)
    · intro k s s' hs hb
      have := setOutBody_rows hb
      exact ⟨this.1.trans hs.1, this.2.trans hs.2⟩
    · intro s hs
      exact setOutBody_short (by rw [hs.1, hs.2]; omega)
  · refine forLoop_none_inv _ (fun s => s.rows = m.rows ∧ s.nClauses = m.nClauses) (m.nClauses - 1) ?_ ?_ _ 0 m ⟨rfl, rfl⟩
      (by omega) (by omega)
    · intro k s s' hs hb
      have := evalBody_rows hb
      exact ⟨this.1.trans hs.1, this.2.trans hs.2⟩
    · intro s hs
      exact evalBody_short (by rw [hs.1, hs.2]; omega)

/-! ### A class that does not exist -/

theorem trainBody_class {x : List Nat} {fb : Feedback} {k : Nat} {m m' : FlatS} (h : FlatS.trainBody x fb k m = some m') :
    fb.posClass < m.al.length ∧ fb.negClass < m.al.length := by
  unfold FlatS.trainBody at h
  obtain ⟨_, -, h⟩ := bind_inv h
  obtain ⟨_, -, h⟩ := bind_inv h
  obtain ⟨_, -, h⟩ := bind_inv h
  obtain ⟨_, -, h⟩ := bind_inv h
  obtain ⟨_, -, h⟩ := bind_inv h
  obtain ⟨_, h1, h⟩ := bind_inv h
  obtain ⟨_, h2, h⟩ := bind_inv h
  constructor
  · apply Nat.lt_of_not_le
    intro hle
    rw [rd_out _ _ hle] at h1
    simp at h1
  · apply Nat.lt_of_not_le
    intro hle
    rw [rd_out _ _ hle] at h2
    simp at h2

/-- No call changes the configuration. -/
theorem run_cfg (b : SBlock) (ops : List BlockOp) : (sRun b ops).cfg = b.cfg := by
  unfold sRun
  induction ops generalizing b with
  | nil => rfl
  | cons op ops ih =>
    rw [List.foldl_cons, ih]
    cases op <;> rfl

end GT.SparseMem
