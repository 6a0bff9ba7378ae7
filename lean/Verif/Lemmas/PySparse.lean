import Verif.Spec.PySparse

/-! # Helper lemmas: the pure-Python sparse clause block -/

namespace GT.PyS
open Spec

theorem pyAt_lt {α : Type} (l : List α) (i : Nat) (h : i < l.length) : pyAt l i = .ok l[i] := by
  simp [pyAt, h]

theorem pyAt_ge {α : Type} (l : List α) (i : Nat) (h : l.length ≤ i) : pyAt l i = .error .indexError := by
  simp [pyAt, h]

theorem pyAt_ok {α : Type} {l : List α} {i : Nat} {a : α} (h : pyAt l i = .ok a) : l[i]? = some a := by
  unfold pyAt at h
  split at h
  · simp at h; simp [*]
  · simp at h

/-! ### Rows -/

theorem rowAt_pos (cs : List PSClause) (k : Nat) (h : k < cs.length) : rowAt cs k = .ok cs[k].pos := by
  unfold rowAt
  rw [pyAt_lt _ _ (by simp; omega), List.getElem_append_left (by simpa using h)]
  simp

theorem rowAt_neg (cs : List PSClause) (k : Nat) (h : k < cs.length) : rowAt cs (k + cs.length) = .ok cs[k].neg := by
  unfold rowAt
  rw [pyAt_lt _ _ (by simp; omega), List.getElem_append_right (by simp)]
  simp

theorem rowAt_ge (cs : List PSClause) (j : Nat) (h : 2 * cs.length ≤ j) : rowAt cs j = .error .indexError := by
  unfold rowAt
  exact pyAt_ge _ _ (by simp; omega)

theorem rowAt_mem {cs : List PSClause} {j : Nat} (h : j < 2 * cs.length) :
    ∃ r, rowAt cs j = .ok r ∧ ∃ c ∈ cs, r = c.pos ∨ r = c.neg := by
  by_cases hj : j < cs.length
  · exact ⟨_, rowAt_pos cs j hj, _, List.getElem_mem hj, .inl rfl⟩
  · obtain ⟨k, rfl⟩ : ∃ k, j = k + cs.length := ⟨j - cs.length, by omega⟩
    exact ⟨_, rowAt_neg cs k (by omega), _, List.getElem_mem (by omega), .inr rfl⟩

/-! ### Outputs -/

theorem pysScan_eq (bad : Nat → Bool) (st : List Int) (idx : List Nat) (i : Nat) (h : i + idx.length ≤ st.length) :
    pysScan bad st idx i = .ok ((idx.zip (st.drop i)).any fun p => decide (p.2 > 0) && bad p.1) := by
  induction idx generalizing i with
  | nil => simp [pysScan]
  | cons a idx ih =>
    simp only [List.length_cons] at h
    have hd : st.drop i = st[i]'(by omega) :: st.drop (i + 1) := List.drop_eq_getElem_cons (by omega)
    rw [pysScan, pyAt_lt st i (by omega), ih (i + 1) (by omega), hd]
    rw [List.zip_cons_cons, List.any_cons]

theorem pysScan_row (bad : Nat → Bool) (r : PRow) (h : RowSound r) :
    pysScan bad r.st r.idx 0 = .ok ((tracked r).any fun p => decide (p.2 > 0) && bad p.1) := by
  rw [pysScan_eq _ _ _ _ (by rw [h.1]; omega)]
  rfl

theorem pysConj_spec (cs : List PSClause) (x : List Nat) (k : Nat) (h : k < cs.length) (hp : RowSound cs[k].pos)
    (hn : RowSound cs[k].neg) :
    ∃ o, pysConj cs x k = .ok o ∧ (o = 0 ∨ o = 1) ∧ (o = 1 ↔ PSHolds cs[k] x) := by
  unfold pysConj
  rw [rowAt_pos cs k h, rowAt_neg cs k h]
  simp only [bind, Except.bind, pysScan_row _ _ hp, pysScan_row _ _ hn, pure, Except.pure]
  refine ⟨_, rfl, by split <;> simp, ?_⟩
  have e : ∀ (r : PRow) (bad : Nat → Bool), ((tracked r).any fun p => decide (p.2 > 0) && bad p.1) = true ↔
      ∃ l, RowOn r l ∧ bad l = true := by
    intro r bad
    simp only [List.any_eq_true, Bool.and_eq_true, decide_eq_true_eq, RowOn]
    constructor
    · rintro ⟨⟨l, v⟩, h1, h2, h3⟩; exact ⟨l, ⟨v, h1, h2⟩, h3⟩
    · rintro ⟨l, ⟨v, h1, h2⟩, h3⟩; exact ⟨(l, v), h1, h2, h3⟩
  have : ((tracked cs[k].pos).any (fun p => decide (p.2 > 0) && !x.contains p.1) ||
      (tracked cs[k].neg).any (fun p => decide (p.2 > 0) && x.contains p.1)) = true ↔ ¬ PSHolds cs[k] x := by
    rw [Bool.or_eq_true, e _ (fun l => !x.contains l), e _ (fun l => x.contains l)]
    unfold PSHolds
    simp only [Bool.not_eq_true', List.contains_eq_mem, decide_eq_false_iff_not, decide_eq_true_eq]
    constructor
    · rintro (⟨l, a, b⟩ | ⟨l, a, b⟩) ⟨h1, h2⟩
      · exact b (h1 l a)
      · exact h2 l a b
    · intro hh
      by_cases h1 : ∀ l, RowOn cs[k].pos l → l ∈ x
      · exact .inr (Classical.byContradiction fun hc => hh ⟨h1, fun l a b => hc ⟨l, a, b⟩⟩)
      · exact .inl (Classical.byContradiction fun hc => h1 fun l a => Classical.byContradiction fun hb => hc ⟨l, a, hb⟩)
  generalize ((tracked cs[k].pos).any (fun p => decide (p.2 > 0) && !x.contains p.1) ||
      (tracked cs[k].neg).any (fun p => decide (p.2 > 0) && x.contains p.1)) = B at this ⊢
  cases B
  · have h1 : PSHolds cs[k] x := Classical.byContradiction fun hc => by simpa using this.mpr hc
    simp [h1]
  · have h1 : ¬ PSHolds cs[k] x := this.mp rfl
    simp [h1]

theorem fillLoop_ok (f : Nat → Except PyErr Nat) (n k : Nat) (h : ∀ j, k ≤ j → j < k + n → ∃ o, f j = .ok o) :
    ∃ os, fillLoop f n k = .ok os ∧ os.length = n ∧ ∀ j, j < n → ∃ o, os[j]? = some o ∧ f (k + j) = .ok o := by
  induction n generalizing k with
  | zero => exact ⟨[], rfl, rfl, by simp⟩
  | succ n ih =>
    obtain ⟨a, ha⟩ := h k (by omega) (by omega)
    obtain ⟨os, h1, h2, h3⟩ := ih (k + 1) (fun j a b => h j (by omega) (by omega))
    refine ⟨a :: os, by simp [fillLoop, ha, h1], by simp [h2], ?_⟩
    intro j hj
    cases j with
    | zero => exact ⟨a, by simp, by simpa using ha⟩
    | succ j =>
      obtain ⟨o, e1, e2⟩ := h3 j (by omega)
      exact ⟨o, by simpa using e1, by rw [← e2]; congr 1; omega⟩

theorem fillLoop_error (f : Nat → Except PyErr Nat) (n k j : Nat) (hj : k ≤ j) (hj' : j < k + n) (he : ∀ i, k ≤ i → ∀ e, f i = .error e → e = .indexError)
    (h : f j = .error .indexError) : fillLoop f n k = .error .indexError := by
  induction n generalizing k with
  | zero => omega
  | succ n ih =>
    rw [fillLoop]
    cases hk : f k with
    | error e => simp [he k (by omega) e hk]
    | ok a =>
      have : k ≠ j := by rintro rfl; rw [h] at hk; simp at hk
      rw [ih (k + 1) (by omega) (by omega) (fun i hi => he i (by omega))]

theorem pyAt_err {α : Type} {l : List α} {i : Nat} {e : PyErr} (h : pyAt l i = .error e) : e = .indexError := by
  unfold pyAt at h
  split at h <;> simp at h
  exact h.symm

theorem pysScan_err (bad : Nat → Bool) (st : List Int) (idx : List Nat) (i : Nat) (e : PyErr) (h : pysScan bad st idx i = .error e) :
    e = .indexError := by
  induction idx generalizing i with
  | nil => simp [pysScan] at h
  | cons a idx ih =>
    rw [pysScan] at h
    cases h1 : pyAt st i with
    | error e1 => rw [h1] at h; simp at h; rw [← h]; exact pyAt_err h1
    | ok v =>
      cases h2 : pysScan bad st idx (i + 1) with
      | error e2 => rw [h1, h2] at h; simp at h; subst h; exact ih _ h2
      | ok r => rw [h1, h2] at h; simp at h

theorem pysConj_err (cs : List PSClause) (x : List Nat) (k : Nat) (e : PyErr) (h : pysConj cs x k = .error e) : e = .indexError := by
  unfold pysConj at h
  simp only [bind, Except.bind, pure, Except.pure] at h
  split at h
  · next e' he => simp at h; subst h; exact pyAt_err he
  · split at h
    · next e' he => simp at h; subst h; exact pysScan_err _ _ _ _ _ he
    · split at h
      · next e' he => simp at h; subst h; exact pyAt_err he
      · split at h
        · next e' he => simp at h; subst h; exact pysScan_err _ _ _ _ _ he
        · simp at h

/-! ### Rows under feedback -/

theorem _root_.GT.Spec.RowMoves.sound {d : Nat → Int} {n : Nat → Nat} {r r' : PRow} (h : RowMoves d n r r') (hs : RowSound r) : RowSound r' := by
  obtain ⟨h1, h2, _⟩ := h
  exact ⟨by rw [h1, h2]; exact hs.1, by rw [h1]; exact hs.2⟩

theorem _root_.GT.Spec.RowMoves.refl (d : Nat → Int) (n : Nat → Nat) (r : PRow) : RowMoves d n r r :=
  ⟨rfl, rfl, fun i l v _ hv => ⟨0, by omega, by rw [hv]; simp⟩⟩

theorem _root_.GT.Spec.RowMoves.mono {d : Nat → Int} {n m : Nat → Nat} {r r' : PRow} (h : RowMoves d n r r') (hm : ∀ l, n l ≤ m l) :
    RowMoves d m r r' := by
  obtain ⟨h1, h2, h3⟩ := h
  refine ⟨h1, h2, fun i l v a b => ?_⟩
  obtain ⟨k, hk, e⟩ := h3 i l v a b
  exact ⟨k, Nat.le_trans hk (hm l), e⟩

/-- Two rounds one after the other; a literal of which one of the rounds cannot move keeps the direction of the other. -/
theorem _root_.GT.Spec.RowMoves.trans {d e f : Nat → Int} {n m k : Nat → Nat} {r r' r'' : PRow} (h : RowMoves d n r r') (h' : RowMoves e m r' r'')
    (hk : ∀ l, n l + m l ≤ k l) (hd : ∀ l, (n l = 0 ∨ d l = f l) ∧ (m l = 0 ∨ e l = f l)) : RowMoves f k r r'' := by
  obtain ⟨h1, h2, h3⟩ := h
  obtain ⟨g1, g2, g3⟩ := h'
  refine ⟨g1.trans h1, g2.trans h2, fun i l v a b => ?_⟩
  obtain ⟨p, hp, ep⟩ := h3 i l v a b
  obtain ⟨q, hq, eq⟩ := g3 i l _ (by rw [h1]; exact a) ep
  refine ⟨p + q, by have := hk l; omega, ?_⟩
  rw [eq]
  congr 1
  obtain ⟨c1, c2⟩ := hd l
  have e1 : (p : Int) * d l = p * f l := by
    rcases c1 with c | c
    · have : p = 0 := by omega
      subst this; simp
    · rw [c]
  have e2 : (q : Int) * e l = q * f l := by
    rcases c2 with c | c
    · have : q = 0 := by omega
      subst this; simp
    · rw [c]
  rw [e1, e2]
  push_cast
  rw [Int.add_mul]
  omega

theorem whereIs_eq {idx : List Nat} {lit i : Nat} (hn : idx.Nodup) (hi : idx[i]? = some lit) : whereIs idx lit = [i] := by
  have hlt : i < idx.length := by
    rcases Nat.lt_or_ge i idx.length with h | h
    · exact h
    · rw [List.getElem?_eq_none h] at hi; simp at hi
  unfold whereIs
  have : (List.range idx.length).filter (fun j => idx[j]? == some lit) = (List.range idx.length).filter (· == i) := by
    apply List.filter_congr
    intro j hj
    have hj : j < idx.length := by simpa using hj
    by_cases e : j = i
    · subst e; simp [hi]
    · have hne : ¬ idx[j]? = some lit := fun h => e ((List.getElem?_inj hj hn).mp (h.trans hi.symm))
      rw [show (idx[j]? == some lit) = false by simpa using hne, show (j == i) = false by simpa using e]
  rw [this, List.filter_beq]
  have : List.count i (List.range idx.length) = 1 := by
    have h1 : 0 < List.count i (List.range idx.length) := List.count_pos_iff.mpr (by simpa using hlt)
    have h2 : List.count i (List.range idx.length) ≤ 1 := List.nodup_iff_count.mp List.nodup_range i
    omega
  rw [this]
  rfl

theorem bump_spec {r : PRow} {lit : Nat} (d : Int) (h : RowSound r) (hm : lit ∈ r.idx) :
    ∃ r', r.bump lit d = .ok r' ∧ RowBecomes (fun l v => if l = lit then v + d else v) r r' := by
  obtain ⟨i, hlt, hi⟩ := List.mem_iff_getElem.mp hm
  have hi : r.idx[i]? = some lit := by rw [List.getElem?_eq_getElem hlt, hi]
  have hs : i < r.st.length := by rw [← h.1]; exact hlt
  refine ⟨{ r with st := r.st.set i (r.st[i] + d) }, ?_, rfl, by simp, ?_⟩
  · unfold PRow.bump
    rw [whereIs_eq h.2 hi]
    simp only
    rw [pyAt_lt _ _ hs]
  · intro j l v a b
    by_cases e : j = i
    · subst e
      have : l = lit := by rw [a] at hi; exact Option.some.inj hi
      subst this
      rw [List.getElem?_eq_getElem hs] at b
      simp at b
      simp [hs, b]
    · have : l ≠ lit := by
        rintro rfl
        have hj : j < r.idx.length := by
          rcases Nat.lt_or_ge j r.idx.length with h | h
          · exact h
          · rw [List.getElem?_eq_none h] at a; simp at a
        exact e ((List.getElem?_inj hj h.2).mp (a.trans hi.symm))
      simp only [if_neg this]
      rw [List.getElem?_set_ne (fun h => e h.symm)]
      exact b

theorem updateAl_spec {al : List Nat} (lit : Nat) (h : AlSound al) :
    AlSound (updateAl al lit) ∧ ∀ m ∈ updateAl al lit, m ∈ al ∨ m = lit := by
  obtain ⟨h1, h2⟩ := h
  unfold updateAl
  split
  · split
    · exact ⟨⟨h1, h2⟩, fun m hm => .inl hm⟩
    · next hl hn =>
      refine ⟨⟨by simp; omega, ?_⟩, fun m hm => by simpa using hm⟩
      rw [List.nodup_append]
      refine ⟨h2, by simp, ?_⟩
      intro a ha b hb
      simp at hb
      rintro rfl
      exact hn (hb ▸ ha)
  · split
    · exact ⟨⟨h1, h2⟩, fun m hm => .inl hm⟩
    · next hl hn =>
      refine ⟨⟨by simp; omega, ?_⟩, ?_⟩
      · rw [List.nodup_append]
        refine ⟨h2.sublist (List.drop_sublist 1 al), by simp, ?_⟩
        intro a ha b hb
        simp at hb
        rintro rfl
        exact hn (hb ▸ List.mem_of_mem_drop ha)
      · intro m hm
        rcases List.mem_append.mp hm with h | h
        · exact .inl (List.mem_of_mem_drop h)
        · exact .inr (by simpa using h)

theorem touch_spec (prob : Rat) (d : Int) (lit : Nat) {r : PRow} {al : List Nat} (g : Rng) (h : RowSound r) (ha : AlSound al) :
    ∃ r' al' g', pysTouch prob d lit r al g = .ok (r', al', g') ∧ RowMoves (fun _ => d) (fun l => if l = lit then 1 else 0) r r' ∧
      AlSound al' ∧ ∀ m ∈ al', m ∈ al ∨ m = lit := by
  unfold pysTouch
  split
  · next hm =>
    split
    · obtain ⟨r', e, h1, h2, h3⟩ := bump_spec d h hm
      refine ⟨r', al, g.next.2, by rw [e], ⟨h1, h2, ?_⟩, ha, fun m hm => .inl hm⟩
      intro i l v a b
      have := h3 i l v a b
      simp only at this
      by_cases hl : l = lit
      · exact ⟨1, by simp [hl], by rw [this, if_pos hl]; simp⟩
      · exact ⟨0, by omega, by rw [this, if_neg hl]; simp⟩
    · exact ⟨r, al, g.next.2, rfl, RowMoves.refl _ _ _, ha, fun m hm => .inl hm⟩
  · exact ⟨r, _, g, rfl, RowMoves.refl _ _ _, (updateAl_spec lit ha).1, (updateAl_spec lit ha).2⟩

theorem t1aLits_spec (s : Rat) (ls : List Nat) (c : PSClause) (a : List Nat × List Nat) (g : Rng) (hp : RowSound c.pos)
    (hn : RowSound c.neg) (ha : AlSound a.1 ∧ AlSound a.2) :
    ∃ p q a' g', pysT1aLits s ls c a g = .ok ({ c with pos := p, neg := q }, a', g') ∧
      RowMoves (fun _ => 1) (fun l => ls.count l) c.pos p ∧ RowMoves (fun _ => -1) (fun l => ls.count l) c.neg q ∧
      (AlSound a'.1 ∧ AlSound a'.2) ∧ ∀ m, m ∈ a'.1 ∨ m ∈ a'.2 → (m ∈ a.1 ∨ m ∈ a.2) ∨ m ∈ ls := by
  induction ls generalizing c a g with
  | nil => exact ⟨c.pos, c.neg, a, g, rfl, RowMoves.refl _ _ _, RowMoves.refl _ _ _, ha, fun m hm => .inl hm⟩
  | cons l ls ih =>
    obtain ⟨p, a1, g1, e1, m1, s1, k1⟩ := touch_spec ((s - 1) / s) 1 l g hp ha.1
    obtain ⟨q, a2, g2, e2, m2, s2, k2⟩ := touch_spec (1 / s) (-1) l g1 hn ha.2
    obtain ⟨p', q', a', g', e, n1, n2, hs, hk⟩ := ih { c with pos := p, neg := q } (a1, a2) g2 (m1.sound hp) (m2.sound hn) ⟨s1, s2⟩
    refine ⟨p', q', a', g', by rw [pysT1aLits, e1]; simp only; rw [e2]; simp only; rw [e], ?_, ?_, hs, ?_⟩
    · refine m1.trans n1 (fun m => ?_) (fun m => ⟨.inr rfl, .inr rfl⟩)
      rw [List.count_cons]
      by_cases h : m = l
      · subst h; simp; omega
      · have : (l == m) = false := by simpa using fun e => h e.symm
        simp [h, this]
    · refine m2.trans n2 (fun m => ?_) (fun m => ⟨.inr rfl, .inr rfl⟩)
      rw [List.count_cons]
      by_cases h : m = l
      · subst h; simp; omega
      · have : (l == m) = false := by simpa using fun e => h e.symm
        simp [h, this]
    · intro m hm
      rcases hk m hm with (h | h) | h
      · rcases k1 m h with h | h
        · exact .inl (.inl h)
        · exact .inr (by simp [h])
      · rcases k2 m h with h | h
        · exact .inl (.inr h)
        · exact .inr (by simp [h])
      · exact .inr (by simp [h])

/-- One round of `pysDecay`: the draws are used one after the other by the selected literals. -/
theorem decay_spec (sel : Nat → Bool) (prob : Rat) (d : Int) (idx : List Nat) (i : Nat) (st : List Int) (g : Rng)
    (h : i + idx.length ≤ st.length) :
    ∃ st', pysDecay sel prob d idx i st g = .ok (st', { g with pos := g.pos + idx.countP sel }) ∧ st'.length = st.length ∧
      (∀ j, j < i → st'[j]? = st[j]?) ∧ (∀ j, i + idx.length ≤ j → st'[j]? = st[j]?) ∧
      ∀ (j l : Nat) (v : Int), idx[j]? = some l → st[i + j]? = some v → st'[i + j]? =
        some (if sel l = true ∧ g.draw (g.pos + (idx.take j).countP sel) ≤ prob then v + d else v) := by
  induction idx generalizing i st g with
  | nil => exact ⟨st, by simp [pysDecay], rfl, fun _ _ => rfl, fun _ _ => rfl, by simp⟩
  | cons a idx ih =>
    simp only [List.length_cons] at h
    have hi : i < st.length := by omega
    suffices hs : ∃ st1 g1, pysDecay sel prob d (a :: idx) i st g = pysDecay sel prob d idx (i + 1) st1 g1 ∧ st1.length = st.length ∧
        (∀ j, j ≠ i → st1[j]? = st[j]?) ∧ g1.draw = g.draw ∧ g1.pos = g.pos + (if sel a then 1 else 0) ∧
        st1[i]? = some (if sel a = true ∧ g.draw g.pos ≤ prob then st[i] + d else st[i]) by
      obtain ⟨st1, g1, e, hl, ho, hd, hpos, hst⟩ := hs
      obtain ⟨st', f1, f2, f3, f4, f5⟩ := ih (i + 1) st1 g1 (by omega)
      refine ⟨st', ?_, f2.trans hl, ?_, ?_, ?_⟩
      · rw [e, f1]
        obtain ⟨dr, ps⟩ := g1
        obtain ⟨dr', ps'⟩ := g
        simp only at hd hpos
        subst hd hpos
        simp only [List.countP_cons]
        congr 3
        omega
      · intro j hj; rw [f3 j (by omega), ho j (by omega)]
      · intro j hj
        simp only [List.length_cons] at hj
        rw [f4 j (by omega), ho j (by omega)]
      · intro j l v hl' hv
        cases j with
        | zero =>
          simp at hl' hv
          subst hl'
          rw [Nat.add_zero, f3 i (by omega), hst]
          simp [hi] at hv
          subst hv
          rfl
        | succ j =>
          rw [show i + (j + 1) = i + 1 + j by omega] at hv ⊢
          rw [f5 j l v (by simpa using hl') (by rw [ho _ (by omega)]; exact hv), hd, hpos]
          simp only [List.take_succ_cons, List.countP_cons]
          rw [show g.pos + (if sel a = true then 1 else 0) + (idx.take j).countP sel =
            g.pos + ((idx.take j).countP sel + if sel a = true then 1 else 0) by omega]
    rw [pysDecay]
    split
    · next hsel =>
      split
      · next hp =>
        rw [pyAt_lt st i hi]
        refine ⟨st.set i (st[i] + d), g.next.2, rfl, by simp, fun j hj => List.getElem?_set_ne (fun h => hj h.symm), rfl,
          by simp [hsel, Rng.next], ?_⟩
        have hp' : g.draw g.pos ≤ prob := hp
        simp [hsel, hp', hi]
      · next hp =>
        have hp' : ¬ g.draw g.pos ≤ prob := hp
        exact ⟨st, g.next.2, rfl, rfl, fun _ _ => rfl, rfl, by simp [hsel, Rng.next], by simp [hp', hi]⟩
    · next hsel =>
      exact ⟨st, g, rfl, rfl, fun _ _ => rfl, rfl, by simp [hsel], by simp [hsel, hi]⟩

theorem decay_row (sel : Nat → Bool) (prob : Rat) (d : Int) (r : PRow) (g : Rng) (h : RowSound r) :
    ∃ st', pysDecay sel prob d r.idx 0 r.st g = .ok (st', { g with pos := g.pos + r.idx.countP sel }) ∧
      RowMoves (fun _ => d) (fun l => if sel l then 1 else 0) r { r with st := st' } ∧
      ∀ (j l : Nat) (v : Int), r.idx[j]? = some l → r.st[j]? = some v → st'[j]? =
        some (if sel l = true ∧ g.draw (g.pos + (r.idx.take j).countP sel) ≤ prob then v + d else v) := by
  obtain ⟨st', e1, e2, _, _, e5⟩ := decay_spec sel prob d r.idx 0 r.st g (by rw [h.1]; omega)
  simp only [Nat.zero_add] at e5
  refine ⟨st', e1, ⟨rfl, e2, fun i l v a b => ?_⟩, e5⟩
  have := e5 i l v a b
  by_cases hs : sel l = true ∧ g.draw (g.pos + (r.idx.take i).countP sel) ≤ prob
  · exact ⟨1, by simp [hs.1], by simp only; rw [this, if_pos hs]; simp⟩
  · exact ⟨0, by omega, by simp only; rw [this, if_neg hs]; simp⟩

theorem raise_spec (sel : Nat → Bool) (idx : List Nat) (i : Nat) (st : List Int) (h : i + idx.length ≤ st.length) :
    ∃ st', pysRaise sel idx i st = .ok st' ∧ st'.length = st.length ∧ (∀ j, j < i → st'[j]? = st[j]?) ∧
      ∀ (j l : Nat) (v : Int), idx[j]? = some l → st[i + j]? = some v → st'[i + j]? =
        some (if sel l = true ∧ v ≤ 0 then v + 1 else v) := by
  induction idx generalizing i st with
  | nil => exact ⟨st, rfl, rfl, fun _ _ => rfl, by simp⟩
  | cons a idx ih =>
    simp only [List.length_cons] at h
    have hi : i < st.length := by omega
    suffices hs : ∃ st1, pysRaise sel (a :: idx) i st = pysRaise sel idx (i + 1) st1 ∧ st1.length = st.length ∧
        (∀ j, j ≠ i → st1[j]? = st[j]?) ∧ st1[i]? = some (if sel a = true ∧ st[i] ≤ 0 then st[i] + 1 else st[i]) by
      obtain ⟨st1, e, hl, ho, hst⟩ := hs
      obtain ⟨st', f1, f2, f3, f5⟩ := ih (i + 1) st1 (by omega)
      refine ⟨st', by rw [e, f1], f2.trans hl, fun j hj => by rw [f3 j (by omega), ho j (by omega)], ?_⟩
      intro j l v hl' hv
      cases j with
      | zero =>
        simp at hl' hv
        subst hl'
        rw [Nat.add_zero, f3 i (by omega), hst]
        simp [hi] at hv
        simp [hv]
      | succ j =>
        rw [show i + (j + 1) = i + 1 + j by omega] at hv ⊢
        exact f5 j l v (by simpa using hl') (by rw [ho _ (by omega)]; exact hv)
    rw [pysRaise]
    split
    · next hsel =>
      rw [pyAt_lt st i hi]
      by_cases hv : st[i] ≤ 0
      · exact ⟨st.set i (st[i] + 1), by simp [hv], by simp, fun j hj => List.getElem?_set_ne (fun h => hj h.symm), by simp [hsel, hv, hi]⟩
      · exact ⟨st, by simp [hv], rfl, fun _ _ => rfl, by simp [hv, hi]⟩
    · next hsel => exact ⟨st, rfl, rfl, fun _ _ => rfl, by simp [hsel, hi]⟩

theorem raise_row (sel : Nat → Bool) (r : PRow) (h : RowSound r) :
    ∃ st', pysRaise sel r.idx 0 r.st = .ok st' ∧
      RowBecomes (fun l v => if sel l = true ∧ v ≤ 0 then v + 1 else v) r { r with st := st' } := by
  obtain ⟨st', e1, e2, _, e5⟩ := raise_spec sel r.idx 0 r.st (by rw [h.1]; omega)
  simp only [Nat.zero_add] at e5
  exact ⟨st', e1, rfl, e2, e5⟩

theorem _root_.GT.Spec.RowBecomes.sound {f : Nat → Int → Int} {r r' : PRow} (h : RowBecomes f r r') (hs : RowSound r) : RowSound r' := by
  obtain ⟨h1, h2, _⟩ := h
  exact ⟨by rw [h1, h2]; exact hs.1, by rw [h1]; exact hs.2⟩

theorem adopt_spec (sel : Nat → Bool) (al : List Nat) (r : PRow) (ha : al.Nodup) : RowAdopts sel al r (pysAdopt sel al r) := by
  induction al generalizing r with
  | nil => simp [pysAdopt, RowAdopts]
  | cons l al ih =>
    obtain ⟨hl, hn⟩ := List.nodup_cons.mp ha
    rw [pysAdopt]
    by_cases hc : l ∉ r.idx ∧ sel l
    · rw [if_pos hc]
      obtain ⟨i1, i2⟩ := ih ⟨r.idx ++ [l], r.st ++ [0]⟩ hn
      have hf : al.filter (fun m => decide (m ∉ r.idx ++ [l]) && sel m) = al.filter (fun m => decide (m ∉ r.idx) && sel m) := by
        apply List.filter_congr
        intro m hm
        have : m ≠ l := fun e => hl (e ▸ hm)
        simp [this]
      simp only at i1 i2
      rw [hf] at i1 i2
      refine ⟨?_, ?_⟩
      · rw [i1, List.filter_cons_of_pos (by simp [hc])]; simp
      · rw [i2, List.filter_cons_of_pos (by simp [hc])]; simp
    · rw [if_neg hc]
      obtain ⟨i1, i2⟩ := ih r hn
      have hb : (decide (l ∉ r.idx) && sel l) = false := by
        rw [Bool.and_eq_false_iff]
        by_cases h : l ∉ r.idx
        · right; simpa [h] using hc
        · left; simpa using h
      refine ⟨?_, ?_⟩
      · rw [i1, List.filter_cons_of_neg (by rw [hb]; exact Bool.false_ne_true)]
      · rw [i2, List.filter_cons_of_neg (by rw [hb]; exact Bool.false_ne_true)]

theorem _root_.GT.Spec.RowAdopts.sound {sel : Nat → Bool} {al : List Nat} {r r' : PRow} (h : RowAdopts sel al r r') (hs : RowSound r) (ha : al.Nodup) :
    RowSound r' := by
  obtain ⟨h1, h2⟩ := h
  refine ⟨by rw [h1, h2]; simp [hs.1], ?_⟩
  rw [h1, List.nodup_append]
  refine ⟨hs.2, ha.sublist List.filter_sublist, ?_⟩
  intro a ha b hb
  have := (List.mem_filter.mp hb).2
  simp at this
  rintro rfl
  exact this.1 ha

theorem _root_.GT.Spec.RowAdopts.congr {sel sel' : Nat → Bool} {al : List Nat} {r r' : PRow} (h : RowAdopts sel al r r')
    (e : ∀ l, sel l = sel' l) : RowAdopts sel' al r r' := by
  have : sel = sel' := funext e
  exact this ▸ h

theorem _root_.GT.Spec.RowAdopts.mem {sel : Nat → Bool} {al : List Nat} {r r' : PRow} (h : RowAdopts sel al r r') {l : Nat}
    (hl : l ∈ r'.idx) : l ∈ r.idx ∨ l ∈ al := by
  rw [h.1] at hl
  rcases List.mem_append.mp hl with h | h
  · exact .inl h
  · exact .inr (List.mem_filter.mp h).1

/-! ### Dropping literals -/

theorem pruneLoop_eq (vs : List Int) (ki : List Nat) (ks : List Int) (ri : List Nat) (hk : ki.length = ks.length)
    (hr : ri.length = vs.length) (hf : ∀ v ∈ ks, -20 ≤ v) :
    pysPruneLoop vs ki.length ⟨ki ++ ri, ks ++ vs⟩ =
      .ok ⟨ki ++ ((ri.zip vs).filter fun p => decide (-20 ≤ p.2)).map (·.1), ks ++ vs.filter fun v => decide (-20 ≤ v)⟩ := by
  induction vs generalizing ki ks ri with
  | nil =>
    have : ri = [] := by simpa using hr
    subst this
    simp [pysPruneLoop]
  | cons v vs ih =>
    cases ri with
    | nil => simp at hr
    | cons l ri =>
      simp only [List.length_cons, Nat.add_right_cancel_iff] at hr
      rw [pysPruneLoop]
      by_cases hv : v < -20
      · have hn : v ∉ ks := fun h => by have := hf v h; omega
        have hd : decide (-20 ≤ v) = false := by simpa using hv
        rw [if_pos hv, if_neg (by simp), if_neg (by simp)]
        have e1 : (ki ++ l :: ri).eraseIdx ki.length = ki ++ ri := by
          rw [List.eraseIdx_append_of_length_le (Nat.le_refl _)]; simp
        have e2 : (ks ++ v :: vs).erase v = ks ++ vs := by
          rw [List.erase_append_right _ hn]; simp
        rw [e1, e2, ih ki ks ri hk hr hf]
        simp [hd]
      · rw [if_neg hv]
        have hd : decide (-20 ≤ v) = true := by simp; omega
        have := ih (ki ++ [l]) (ks ++ [v]) ri (by simp [hk]) hr (by
          intro u hu
          rcases List.mem_append.mp hu with h | h
          · exact hf u h
          · simp at h; omega)
        simp only [List.length_append, List.length_cons, List.length_nil, List.append_assoc, List.singleton_append] at this
        rw [this]
        simp [hd]

theorem prune_row (r : PRow) (h : RowSound r) :
    pysPruneLoop r.st 0 r = .ok ⟨((tracked r).filter fun p => decide (-20 ≤ p.2)).map (·.1), r.st.filter fun v => decide (-20 ≤ v)⟩ := by
  have := pruneLoop_eq r.st [] [] r.idx rfl h.1 (by simp)
  simpa [tracked] using this

theorem zip_filter_snd (idx : List Nat) (st : List Int) (h : idx.length = st.length) (p : Int → Bool) :
    ((idx.zip st).filter fun q => p q.2).map (·.2) = st.filter p := by
  induction idx generalizing st with
  | nil =>
    have : st = [] := by cases st <;> simp_all
    subst this; rfl
  | cons a idx ih =>
    cases st with
    | nil => simp at h
    | cons v st =>
      have := ih st (by simpa using h)
      simp only [List.zip_cons_cons, List.filter_cons]
      split <;> simp [this]

/-- The row after dropping: the tracked literals with a state of at least -20, in order. -/
theorem prune_spec (r : PRow) (h : RowSound r) :
    ∃ r', pysPruneLoop r.st 0 r = .ok r' ∧ RowSound r' ∧ tracked r' = (tracked r).filter (fun p => decide (-20 ≤ p.2)) ∧
      (∀ v ∈ r'.st, -20 ≤ v) ∧ ∀ l ∈ r'.idx, l ∈ r.idx := by
  refine ⟨_, prune_row r h, ⟨?_, ?_⟩, ?_, ?_, ?_⟩
  · simp only
    rw [← zip_filter_snd r.idx r.st h.1]
    simp [tracked]
  · have : (((tracked r).filter fun p => decide (-20 ≤ p.2)).map (·.1)).Sublist ((tracked r).map (·.1)) :=
      List.filter_sublist.map _
    refine List.Nodup.sublist this ?_
    rw [tracked, List.map_fst_zip (by rw [h.1]; omega)]
    exact h.2
  · show ((((tracked r).filter fun p => decide (-20 ≤ p.2)).map (·.1)).zip (r.st.filter fun v => decide (-20 ≤ v))) = _
    rw [← zip_filter_snd r.idx r.st h.1]
    show (List.map (·.1) ((tracked r).filter _)).zip (List.map (·.2) ((tracked r).filter _)) = _
    rw [List.zip_map', show (fun x : Nat × Int => (x.1, x.2)) = id from rfl, List.map_id]
  · intro v hv
    simpa using (List.mem_filter.mp hv).2
  · intro l hl
    obtain ⟨p, hp, rfl⟩ := List.mem_map.mp hl
    exact (List.of_mem_zip (List.mem_filter.mp hp).1).1

/-! ### One clause -/

/-- The literals of a clause. -/
def lits (c : PSClause) (l : Nat) : Prop := l ∈ c.pos.idx ∨ l ∈ c.neg.idx

/-- A clause between the two halves of an update: sound except that states may be below -20. -/
structure Mid (n : Nat) (c : PSClause) : Prop where
  pos : RowSound c.pos
  neg : RowSound c.neg
  weights : c.w.length = n
  count : c.cnt = 0

theorem Mid.of {n : Nat} {c : PSClause} (h : PSClauseSound n c) : Mid n c := ⟨h.pos, h.neg, h.weights, h.count⟩

theorem decayBoth_spec (sel : Nat → Bool) (pp : Rat) (dp : Int) (pn : Rat) (dn : Int) (c : PSClause) (g : Rng) (hp : RowSound c.pos)
    (hn : RowSound c.neg) :
    ∃ p q, pysDecayBoth sel pp dp pn dn c g = .ok ({ c with pos := { c.pos with st := p }, neg := { c.neg with st := q } },
        { g with pos := g.pos + c.pos.idx.countP sel + c.neg.idx.countP sel }) ∧
      RowMoves (fun _ => dp) (fun l => if sel l then 1 else 0) c.pos { c.pos with st := p } ∧
      RowMoves (fun _ => dn) (fun l => if sel l then 1 else 0) c.neg { c.neg with st := q } ∧
      (∀ (j l : Nat) (v : Int), c.pos.idx[j]? = some l → c.pos.st[j]? = some v → p[j]? =
        some (if sel l = true ∧ g.draw (g.pos + (c.pos.idx.take j).countP sel) ≤ pp then v + dp else v)) ∧
      (∀ (j l : Nat) (v : Int), c.neg.idx[j]? = some l → c.neg.st[j]? = some v → q[j]? =
        some (if sel l = true ∧ g.draw (g.pos + c.pos.idx.countP sel + (c.neg.idx.take j).countP sel) ≤ pn then v + dn else v)) := by
  obtain ⟨p, e1, m1, x1⟩ := decay_row sel pp dp c.pos g hp
  obtain ⟨q, e2, m2, x2⟩ := decay_row sel pn dn c.neg { g with pos := g.pos + c.pos.idx.countP sel } hn
  refine ⟨p, q, ?_, m1, m2, x1, x2⟩
  unfold pysDecayBoth
  rw [e1]
  simp only
  rw [e2]

theorem t1a_spec (s : Rat) (x : List Nat) (c : PSClause) (a : List Nat × List Nat) (g : Rng) (hp : RowSound c.pos) (hn : RowSound c.neg)
    (ha : AlSound a.1 ∧ AlSound a.2) :
    ∃ p q a' g', pysT1a s x c a g = .ok ({ c with pos := p, neg := q }, a', g') ∧
      RowMoves (fun l => if l ∈ x then 1 else -1) (fun l => if l ∈ x then x.count l else 1) c.pos p ∧
      RowMoves (fun l => if l ∈ x then -1 else 1) (fun l => if l ∈ x then x.count l else 1) c.neg q ∧
      (AlSound a'.1 ∧ AlSound a'.2) ∧ ∀ m, m ∈ a'.1 ∨ m ∈ a'.2 → (m ∈ a.1 ∨ m ∈ a.2) ∨ m ∈ x := by
  obtain ⟨p, q, a', g', e, m1, m2, hs, hk⟩ := t1aLits_spec s x c a g hp hn ha
  obtain ⟨p', q', e', n1, n2, _, _⟩ := decayBoth_spec (fun ta => !x.contains ta) (1 / s) (-1) ((s - 1) / s) 1
    { c with pos := p, neg := q } g' (m1.sound hp) (m2.sound hn)
  refine ⟨_, _, a', _, by unfold pysT1a; rw [e]; simp only; rw [e'], m1.trans n1 ?_ ?_, m2.trans n2 ?_ ?_, hs, hk⟩
  all_goals intro l
  all_goals by_cases h : l ∈ x
  all_goals simp [h, List.count_eq_zero]

theorem t2_spec (x : List Nat) (c : PSClause) (a : List Nat × List Nat) (hp : RowSound c.pos) (hn : RowSound c.neg)
    (ha : AlSound a.1 ∧ AlSound a.2) :
    ∃ p q p' q', pysT2 x c a = .ok { c with pos := p', neg := q' } ∧
      RowBecomes (fun l v => if l ∉ x ∧ v ≤ 0 then v + 1 else v) c.pos p ∧
      RowBecomes (fun l v => if l ∈ x ∧ v ≤ 0 then v + 1 else v) c.neg q ∧
      RowAdopts (fun l => decide (l ∉ x)) a.1 p p' ∧ RowAdopts (fun l => decide (l ∈ x)) a.2 q q' := by
  obtain ⟨p, e1, m1⟩ := raise_row (fun ta => !x.contains ta) c.pos hp
  obtain ⟨q, e2, m2⟩ := raise_row (fun ta => x.contains ta) c.neg hn
  refine ⟨_, _, _, _, by unfold pysT2; rw [e1]; simp only; rw [e2], ?_, ?_, adopt_spec _ _ _ ha.1.2 |>.congr ?_,
    adopt_spec _ _ _ ha.2.2 |>.congr ?_⟩
  · simpa using m1
  · simpa using m2
  · intro l; simp
  · intro l; simp

/-- Where a literal can be: in the clause or in the active literals. -/
def at_ (c : PSClause) (al : List (List Nat × List Nat)) (l : Nat) : Prop :=
  (l ∈ c.pos.idx ∨ l ∈ c.neg.idx) ∨ ∃ a ∈ al, l ∈ a.1 ∨ l ∈ a.2

theorem pyAt_lt' {α : Type} {l : List α} {i : Nat} (h : i < l.length) : ∃ a, pyAt l i = .ok a ∧ a ∈ l ∧ l[i]? = some a :=
  ⟨l[i], pyAt_lt l i h, List.getElem_mem h, List.getElem?_eq_getElem h⟩

theorem updateClause_spec (s : Rat) (x : List Nat) (j : Nat) (target : Int) (out : Nat) (c : PSClause) (al : List (List Nat × List Nat))
    (g : Rng) {n : Nat} (hc : Mid n c) (hj : j < n) (hal : al.length = n) (hs : ∀ a ∈ al, AlSound a.1 ∧ AlSound a.2) :
    ∃ c' al' g', pysUpdateClause s x j target out c al g = .ok (c', al', g') ∧ Mid n c' ∧ al'.length = n ∧
      (∀ a ∈ al', AlSound a.1 ∧ AlSound a.2) ∧ ∀ l, at_ c' al' l → at_ c al l ∨ l ∈ x := by
  obtain ⟨w, ew, _, _⟩ := pyAt_lt' (l := c.w) (i := j) (by rw [hc.weights]; exact hj)
  obtain ⟨a, ea, ma, _⟩ := pyAt_lt' (l := al) (i := j) (by rw [hal]; exact hj)
  unfold pysUpdateClause
  simp only [ew, ea, bind, Except.bind, pure, Except.pure]
  generalize (if w ≥ 0 then (1 : Int) else -1) = sign
  split
  · split
    · obtain ⟨p, q, a', g', e, m1, m2, hs', hk⟩ := t1a_spec s x { c with w := c.w.set j (wrap8 (w + sign)) } a g hc.pos hc.neg (hs a ma)
      rw [e]
      refine ⟨_, _, _, rfl, ⟨m1.sound hc.pos, m2.sound hc.neg, by simp [hc.weights], hc.count⟩, by simp [hal], ?_, ?_⟩
      · intro b hb
        rcases List.mem_or_eq_of_mem_set hb with h | h
        · exact hs b h
        · exact h ▸ hs'
      · intro l hl
        rcases hl with h | ⟨b, hb, h⟩
        · simp only [m1.1, m2.1] at h
          exact .inl (.inl h)
        · rcases List.mem_or_eq_of_mem_set hb with h' | h'
          · exact .inl (.inr ⟨b, h', h⟩)
          · subst h'
            rcases hk l h with h | h
            · exact .inl (.inr ⟨a, ma, h⟩)
            · exact .inr h
    · obtain ⟨p, q, e, m1, m2, _, _⟩ := decayBoth_spec (fun _ => true) (1 / s) (-1) (1 / s) (-1) c g hc.pos hc.neg
      unfold pysT1b
      rw [e]
      exact ⟨_, _, _, rfl, ⟨m1.sound hc.pos, m2.sound hc.neg, hc.weights, hc.count⟩, hal, hs, fun l hl => .inl hl⟩
  · split
    · obtain ⟨p, q, p', q', e, b1, b2, a1, a2⟩ := t2_spec x { c with w := c.w.set j (wrap8 (w - sign)) } a hc.pos hc.neg (hs a ma)
      rw [e]
      refine ⟨_, _, _, rfl, ⟨a1.sound (b1.sound hc.pos) (hs a ma).1.2, a2.sound (b2.sound hc.neg) (hs a ma).2.2, by simp [hc.weights],
        hc.count⟩, hal, hs, ?_⟩
      intro l hl
      rcases hl with (h | h) | h
      · rcases a1.mem h with h | h
        · rw [b1.1] at h; exact .inl (.inl (.inl h))
        · exact .inl (.inr ⟨a, ma, .inl h⟩)
      · rcases a2.mem h with h | h
        · rw [b2.1] at h; exact .inl (.inl (.inr h))
        · exact .inl (.inr ⟨a, ma, .inr h⟩)
      · exact .inl (.inr h)
    · exact ⟨_, _, _, rfl, hc, hal, hs, fun l hl => .inl hl⟩

theorem maybe_spec (s : Rat) (x : List Nat) (j : Nat) (target : Int) (p : Rat) (out : Nat) (c : PSClause)
    (al : List (List Nat × List Nat)) (g : Rng) {n : Nat} (hc : Mid n c) (hj : j < n) (hal : al.length = n)
    (hs : ∀ a ∈ al, AlSound a.1 ∧ AlSound a.2) :
    ∃ c' al' g', pysMaybe s x j target p out c al g = .ok (c', al', g') ∧ Mid n c' ∧ al'.length = n ∧
      (∀ a ∈ al', AlSound a.1 ∧ AlSound a.2) ∧ ∀ l, at_ c' al' l → at_ c al l ∨ l ∈ x := by
  unfold pysMaybe
  split
  · exact updateClause_spec s x j target out c al _ hc hj hal hs
  · exact ⟨_, _, _, rfl, hc, hal, hs, fun l hl => .inl hl⟩

theorem pysPrune_spec (c : PSClause) {n : Nat} (hc : Mid n c) :
    ∃ c', pysPrune c = .ok c' ∧ PSClauseSound n c' ∧ c'.w = c.w ∧
      tracked c'.pos = (tracked c.pos).filter (fun p => decide (-20 ≤ p.2)) ∧
      tracked c'.neg = (tracked c.neg).filter (fun p => decide (-20 ≤ p.2)) ∧
      ∀ l, l ∈ c'.pos.idx ∨ l ∈ c'.neg.idx → l ∈ c.pos.idx ∨ l ∈ c.neg.idx := by
  obtain ⟨p, e1, s1, t1, f1, k1⟩ := prune_spec c.pos hc.pos
  obtain ⟨q, e2, s2, t2, f2, k2⟩ := prune_spec c.neg hc.neg
  refine ⟨{ c with pos := p, neg := q }, by unfold pysPrune; rw [e1, e2], ⟨s1, s2, hc.weights, f1, f2, hc.count⟩, rfl, t1, t2, ?_⟩
  intro l hl
  exact hl.imp (k1 l) (k2 l)

theorem limit_zero (budget : Option Nat) {cnt : Nat} (out : Nat) (h : cnt = 0) : pysLimit budget cnt out = out := by
  cases budget with
  | none => rfl
  | some b => simp [pysLimit, h]

theorem trainClause_spec (budget : Option Nat) (s : Rat) (x : List Nat) (fb : Feedback) (out : Nat) (c : PSClause)
    (al : List (List Nat × List Nat)) (g : Rng) {n : Nat} (hc : Mid n c) (hp : fb.posClass < n) (hn : fb.negClass < n)
    (hal : al.length = n) (hs : ∀ a ∈ al, AlSound a.1 ∧ AlSound a.2) :
    ∃ c' al' g', pysTrainClause budget s x fb out c al g = .ok (out, c', al', g') ∧ PSClauseSound n c' ∧ al'.length = n ∧
      (∀ a ∈ al', AlSound a.1 ∧ AlSound a.2) ∧ ∀ l, at_ c' al' l → at_ c al l ∨ l ∈ x := by
  unfold pysTrainClause
  simp only [limit_zero budget out hc.count]
  obtain ⟨c1, al1, g1, e1, m1, l1, s1, k1⟩ := maybe_spec s x fb.posClass 1 fb.posProb out c al g hc hp hal hs
  obtain ⟨c2, al2, g2, e2, m2, l2, s2, k2⟩ := maybe_spec s x fb.negClass (-1) fb.negProb out c1 al1 g1 m1 hn l1 s1
  obtain ⟨c3, e3, m3, _, _, _, k3⟩ := pysPrune_spec c2 m2
  simp only [e1, e2, e3, bind, Except.bind, pure, Except.pure]
  refine ⟨c3, al2, g2, rfl, m3, l2, s2, fun l hl => ?_⟩
  have : at_ c2 al2 l := hl.imp (k3 l) id
  rcases k2 l this with h | h
  · exact k1 l h
  · exact .inr h

/-- The literals of a list of clauses and of the active literals. -/
def atAll (cs : List PSClause) (al : List (List Nat × List Nat)) (l : Nat) : Prop :=
  (∃ c ∈ cs, l ∈ c.pos.idx ∨ l ∈ c.neg.idx) ∨ ∃ a ∈ al, l ∈ a.1 ∨ l ∈ a.2

theorem trainClauses_spec (budget : Option Nat) (s : Rat) (x : List Nat) (fb : Feedback) (outs : List Nat) (cs : List PSClause)
    (al : List (List Nat × List Nat)) (g : Rng) {n : Nat} (hc : ∀ c ∈ cs, Mid n c) (ho : outs.length = cs.length)
    (hp : fb.posClass < n) (hn : fb.negClass < n) (hal : al.length = n) (hs : ∀ a ∈ al, AlSound a.1 ∧ AlSound a.2) :
    ∃ cs' al' g', pysTrainClauses budget s x fb outs cs al g = .ok (outs, cs', al', g') ∧ cs'.length = cs.length ∧
      (∀ c ∈ cs', PSClauseSound n c) ∧ al'.length = n ∧
      (∀ a ∈ al', AlSound a.1 ∧ AlSound a.2) ∧ ∀ l, atAll cs' al' l → atAll cs al l ∨ l ∈ x := by
  induction cs generalizing outs al g with
  | nil =>
    have : outs = [] := by simpa using ho
    subst this
    exact ⟨[], al, g, rfl, rfl, by simp, hal, hs, fun l hl => .inl hl⟩
  | cons c cs ih =>
    cases outs with
    | nil => simp at ho
    | cons o outs =>
      obtain ⟨c1, al1, g1, e1, m1, l1, s1, k1⟩ := trainClause_spec budget s x fb o c al g (hc c (by simp)) hp hn hal hs
      obtain ⟨cs2, al2, g2, e2, n2, m2, l2, s2, k2⟩ := ih outs al1 g1 (fun c hc' => hc c (by simp [hc'])) (by simpa using ho) l1 s1
      refine ⟨c1 :: cs2, al2, g2, ?_, by simp [n2], ?_, l2, s2, ?_⟩
      · rw [pysTrainClauses]
        simp only [e1, e2, bind, Except.bind, pure, Except.pure]
      · intro d hd
        rcases List.mem_cons.mp hd with h | h
        · exact h ▸ m1
        · exact m2 d h
      · intro l hl
        have step : at_ c1 al1 l → atAll (c :: cs) al l ∨ l ∈ x := by
          intro h
          rcases k1 l h with (h | h) | h
          · exact .inl (.inl ⟨c, by simp, h⟩)
          · exact .inl (.inr h)
          · exact .inr h
        have step2 : atAll cs2 al2 l → atAll (c :: cs) al l ∨ l ∈ x := by
          intro h
          rcases k2 l h with (⟨d, hd, h⟩ | h) | h
          · exact .inl (.inl ⟨d, by simp [hd], h⟩)
          · exact step (.inr h)
          · exact .inr h
        rcases hl with ⟨d, hd, h⟩ | h
        · rcases List.mem_cons.mp hd with h' | h'
          · subst h'; exact step (.inl h)
          · exact step2 (.inl ⟨d, h', h⟩)
        · exact step2 (.inr h)

/-! ### Feedback, exactly -/

theorem ite_iff {P Q : Prop} [Decidable P] [Decidable Q] {a b a' b' : Int} (h : P ↔ Q) (ha : a = a') (hb : b = b') :
    (if P then a else b) = if Q then a' else b' := by
  subst ha hb
  by_cases hp : P
  · rw [if_pos hp, if_pos (h.mp hp)]
  · rw [if_neg hp, if_neg (fun hq => hp (h.mpr hq))]

theorem updateAl_eq {al : List Nat} (h : al.length ≤ 7) (l : Nat) : updateAl al l = remember al l := by
  unfold updateAl remember
  by_cases hm : l ∈ al
  · simp [hm]
  · simp only [hm, if_false]
    split
    · rw [show al.length + 1 - 7 = 0 by omega]; rfl
    · have : al.length = 7 := by omega
      rw [show al.length + 1 - 7 = 1 by omega]
      cases al with
      | nil => simp at this
      | cons a al => simp

theorem touch_exact (prob : Rat) (d : Int) (lit : Nat) {r : PRow} {al : List Nat} (g : Rng) (h : RowSound r) (ha : AlSound al) :
    ∃ r', pysTouch prob d lit r al g = .ok (r', (if lit ∈ r.idx then al else remember al lit),
        { g with pos := g.pos + if lit ∈ r.idx then 1 else 0 }) ∧
      RowBecomes (fun l v => if l = lit ∧ g.draw g.pos ≤ prob then v + d else v) r r' := by
  unfold pysTouch
  split
  · next hm =>
    split
    · next hp =>
      have hp : g.draw g.pos ≤ prob := hp
      obtain ⟨r', e, h1, h2, h3⟩ := bump_spec d h hm
      refine ⟨r', by rw [e]; simp [Rng.next], h1, h2, fun i l v a b => ?_⟩
      rw [h3 i l v a b]
      simp [hp]
    · next hp =>
      have hp : ¬ g.draw g.pos ≤ prob := hp
      refine ⟨r, by simp [Rng.next], rfl, rfl, fun i l v a b => ?_⟩
      simp [hp, b]
  · next hm =>
    refine ⟨r, by simp [updateAl_eq ha.1], rfl, rfl, fun i l v a b => ?_⟩
    have : l ≠ lit := by
      rintro rfl
      exact hm (List.mem_of_getElem? a)
    simp [this, b]

theorem remember_sound {al : List Nat} (l : Nat) (h : AlSound al) : AlSound (remember al l) := by
  rw [← updateAl_eq h.1]
  exact (updateAl_spec l h).1

theorem t1aLits_exact (s : Rat) (ls : List Nat) (c : PSClause) (a : List Nat × List Nat) (g : Rng) (hp : RowSound c.pos)
    (hn : RowSound c.neg) (ha : AlSound a.1 ∧ AlSound a.2) :
    ∃ p q, pysT1aLits s ls c a g = .ok ({ c with pos := p, neg := q }, (rememberAll c.pos ls a.1, rememberAll c.neg ls a.2),
        { g with pos := g.pos + drawsFor c ls }) ∧
      (p.idx = c.pos.idx ∧ p.st.length = c.pos.st.length) ∧ (q.idx = c.neg.idx ∧ q.st.length = c.neg.st.length) ∧
      (∀ (j l : Nat) (v : Int), l ∉ ls → c.pos.idx[j]? = some l → c.pos.st[j]? = some v → p.st[j]? = some v) ∧
      (∀ (j l : Nat) (v : Int), l ∉ ls → c.neg.idx[j]? = some l → c.neg.st[j]? = some v → q.st[j]? = some v) ∧
      (ls.Nodup → ∀ (i j l : Nat) (v : Int), ls[i]? = some l → c.pos.idx[j]? = some l → c.pos.st[j]? = some v →
        p.st[j]? = some (if g.draw (g.pos + drawsFor c (ls.take i)) ≤ (s - 1) / s then v + 1 else v)) ∧
      (ls.Nodup → ∀ (i j l : Nat) (v : Int), ls[i]? = some l → c.neg.idx[j]? = some l → c.neg.st[j]? = some v →
        q.st[j]? = some (if g.draw (g.pos + (drawsFor c (ls.take i) + if l ∈ c.pos.idx then 1 else 0)) ≤ 1 / s then v - 1 else v)) := by
  induction ls generalizing c a g with
  | nil =>
    exact ⟨c.pos, c.neg, by simp [pysT1aLits, rememberAll, drawsFor], ⟨rfl, rfl⟩, ⟨rfl, rfl⟩, fun _ _ _ _ _ h => h, fun _ _ _ _ _ h => h,
      by simp, by simp⟩
  | cons y ls ih =>
    obtain ⟨p, e1, i1, n1, b1⟩ := touch_exact ((s - 1) / s) 1 y g hp ha.1
    obtain ⟨q, e2, i2, n2, b2⟩ := touch_exact (1 / s) (-1) y { g with pos := g.pos + if y ∈ c.pos.idx then 1 else 0 } hn ha.2
    have hp' : RowSound p := RowBecomes.sound ⟨i1, n1, b1⟩ hp
    have hn' : RowSound q := RowBecomes.sound ⟨i2, n2, b2⟩ hn
    simp only at b1 b2
    have hs1 : AlSound (if y ∈ c.pos.idx then a.1 else remember a.1 y) := by
      split
      · exact ha.1
      · exact remember_sound y ha.1
    have hs2 : AlSound (if y ∈ c.neg.idx then a.2 else remember a.2 y) := by
      split
      · exact ha.2
      · exact remember_sound y ha.2
    obtain ⟨p', q', e, ⟨j1, m1⟩, ⟨j2, m2⟩, k1, k2, x1, x2⟩ := ih { c with pos := p, neg := q }
      ((if y ∈ c.pos.idx then a.1 else remember a.1 y), (if y ∈ c.neg.idx then a.2 else remember a.2 y))
      { g with pos := g.pos + (if y ∈ c.pos.idx then 1 else 0) + if y ∈ c.neg.idx then 1 else 0 } hp' hn' ⟨hs1, hs2⟩
    have hdr : ∀ zs, drawsFor { c with pos := p, neg := q } zs = drawsFor c zs := by
      intro zs; simp [drawsFor, i1, i2]
    have hcons : ∀ zs, drawsFor c (y :: zs) = (if y ∈ c.pos.idx then 1 else 0) + (if y ∈ c.neg.idx then 1 else 0) + drawsFor c zs := by
      intro zs
      simp only [drawsFor, List.countP_cons, decide_eq_true_eq]
      omega
    simp only [i1, i2, n1, n2, hdr] at j1 j2 m1 m2 k1 k2 x1 x2 e
    refine ⟨p', q', ?_, ⟨j1, m1⟩, ⟨j2, m2⟩, ?_, ?_, ?_, ?_⟩
    · rw [pysT1aLits, e1]
      simp only
      rw [e2]
      simp only
      rw [e]
      have r1 : rememberAll p ls (if y ∈ c.pos.idx then a.1 else remember a.1 y) = rememberAll c.pos (y :: ls) a.1 := by
        unfold rememberAll
        rw [i1, List.filter_cons]
        by_cases h : y ∈ c.pos.idx <;> simp [h]
      have r2 : rememberAll q ls (if y ∈ c.neg.idx then a.2 else remember a.2 y) = rememberAll c.neg (y :: ls) a.2 := by
        unfold rememberAll
        rw [i2, List.filter_cons]
        by_cases h : y ∈ c.neg.idx <;> simp [h]
      rw [r1, r2, hcons]
      simp only [Nat.add_assoc]
    · intro j l v hl hi hv
      refine k1 j l v (fun h => hl (by simp [h])) hi ?_
      rw [b1 j l v hi hv, if_neg (fun h => hl (by simp [h.1]))]
    · intro j l v hl hi hv
      refine k2 j l v (fun h => hl (by simp [h])) hi ?_
      rw [b2 j l v hi hv, if_neg (fun h => hl (by simp [h.1]))]
    · intro hnd i j l v hx hi hv
      obtain ⟨hy, hnd'⟩ := List.nodup_cons.mp hnd
      cases i with
      | zero =>
        simp at hx
        subst hx
        have e0 : drawsFor c ((y :: ls).take 0) = 0 := by simp [drawsFor]
        rw [k1 j y _ hy hi (b1 j y v hi hv), e0]
        simp only [true_and, Nat.add_zero]
      | succ i =>
        simp only [List.getElem?_cons_succ] at hx
        have hne : l ≠ y := by
          rintro rfl
          exact hy (List.mem_of_getElem? hx)
        have hv' := b1 j l v hi hv
        rw [if_neg (fun h => hne h.1)] at hv'
        rw [x1 hnd' i j l v hx hi hv', List.take_succ_cons, hcons]
        simp only [Nat.add_assoc]
    · intro hnd i j l v hx hi hv
      obtain ⟨hy, hnd'⟩ := List.nodup_cons.mp hnd
      cases i with
      | zero =>
        simp at hx
        subst hx
        have e0 : drawsFor c ((y :: ls).take 0) = 0 := by simp [drawsFor]
        rw [k2 j y _ hy hi (b2 j y v hi hv), e0]
        simp only [true_and, Nat.zero_add, Int.sub_eq_add_neg]
      | succ i =>
        simp only [List.getElem?_cons_succ] at hx
        have hne : l ≠ y := by
          rintro rfl
          exact hy (List.mem_of_getElem? hx)
        have hv' := b2 j l v hi hv
        rw [if_neg (fun h => hne h.1)] at hv'
        rw [x2 hnd' i j l v hx hi hv', List.take_succ_cons, hcons]
        simp only [Nat.add_assoc]

theorem countP_absent (x idx : List Nat) : idx.countP (fun ta => !x.contains ta) = absent x idx := by
  unfold absent
  congr 1
  funext l
  simp

theorem t1a_exact (s : Rat) (x : List Nat) (c : PSClause) (a : List Nat × List Nat) (g : Rng) (hp : RowSound c.pos) (hn : RowSound c.neg)
    (ha : AlSound a.1 ∧ AlSound a.2) :
    ∃ p q, pysT1a s x c a g = .ok ({ c with pos := p, neg := q }, (rememberAll c.pos x a.1, rememberAll c.neg x a.2),
        { g with pos := g.pos + (drawsFor c x + absent x c.pos.idx + absent x c.neg.idx) }) ∧
      (x.Nodup → Reward s x (Rng.ahead g) c { c with pos := p, neg := q }) := by
  obtain ⟨p, q, e, ⟨j1, m1⟩, ⟨j2, m2⟩, k1, k2, x1, x2⟩ := t1aLits_exact s x c a g hp hn ha
  obtain ⟨p', q', e', n1, n2, y1, y2⟩ := decayBoth_spec (fun ta => !x.contains ta) (1 / s) (-1) ((s - 1) / s) 1
    { c with pos := p, neg := q } { g with pos := g.pos + drawsFor c x }
    ⟨by rw [j1, m1]; exact hp.1, by rw [j1]; exact hp.2⟩ ⟨by rw [j2, m2]; exact hn.1, by rw [j2]; exact hn.2⟩
  simp only [countP_absent, j1, j2] at e' y1 y2
  refine ⟨⟨c.pos.idx, p'⟩, ⟨c.neg.idx, q'⟩, ?_, fun hx => ?_⟩
  · unfold pysT1a
    rw [e]
    simp only
    rw [e']
    simp only [Nat.add_assoc]
  · have l1 : p'.length = p.st.length := n1.2.1
    have l2 : q'.length = q.st.length := n2.2.1
    refine ⟨rfl, rfl, l1.trans m1, l2.trans m2, ?_, ?_, ?_, ?_⟩
    · intro i j l v hx' hi hv
      have hl : l ∈ x := List.mem_of_getElem? hx'
      have := y1 j l _ hi (x1 hx i j l v hx' hi hv)
      rw [if_neg (fun h => by simp [hl] at h)] at this
      exact this
    · intro i j l v hx' hi hv
      have hl : l ∈ x := List.mem_of_getElem? hx'
      have := y2 j l _ hi (x2 hx i j l v hx' hi hv)
      rw [if_neg (fun h => by simp [hl] at h)] at this
      exact this
    · intro j l v hl hi hv
      have := y1 j l v hi (k1 j l v hl hi hv)
      rw [this]
      exact congrArg some (ite_iff (by simp [hl, Rng.ahead, Nat.add_assoc]) (by omega) rfl)
    · intro j l v hl hi hv
      have := y2 j l v hi (k2 j l v hl hi hv)
      rw [this]
      exact congrArg some (ite_iff (by simp [hl, Rng.ahead, Nat.add_assoc]) rfl rfl)

theorem countP_true (l : List Nat) : l.countP (fun _ => true) = l.length := by
  induction l with
  | nil => rfl
  | cons a l ih => simp

theorem t1b_exact (s : Rat) (c : PSClause) (g : Rng) (hp : RowSound c.pos) (hn : RowSound c.neg) :
    ∃ p q n, pysT1b s c g = .ok ({ c with pos := p, neg := q }, { g with pos := g.pos + n }) ∧
      Forget s (Rng.ahead g) c { c with pos := p, neg := q } := by
  obtain ⟨p, q, e, n1, n2, y1, y2⟩ := decayBoth_spec (fun _ => true) (1 / s) (-1) (1 / s) (-1) c g hp hn
  simp only [countP_true, Nat.add_assoc] at e y1 y2
  refine ⟨_, _, _, e, rfl, rfl, n1.2.1, n2.2.1, ?_, ?_⟩
  · intro j v hv
    have hj : j < c.pos.idx.length := by
      rw [hp.1]
      rcases Nat.lt_or_ge j c.pos.st.length with h | h
      · exact h
      · rw [List.getElem?_eq_none h] at hv; simp at hv
    have := y1 j _ v (List.getElem?_eq_getElem hj) hv
    have e0 : (c.pos.idx.take j).length = j := by simp; omega
    rw [e0] at this
    rw [this]
    exact congrArg some (ite_iff (by simp [Rng.ahead]) (by omega) rfl)
  · intro j v hv
    have hj : j < c.neg.idx.length := by
      rw [hn.1]
      rcases Nat.lt_or_ge j c.neg.st.length with h | h
      · exact h
      · rw [List.getElem?_eq_none h] at hv; simp at hv
    have := y2 j _ v (List.getElem?_eq_getElem hj) hv
    have e0 : (c.neg.idx.take j).length = j := by simp; omega
    rw [e0, hp.1] at this
    rw [this]
    exact congrArg some (ite_iff (by simp [Rng.ahead]) (by omega) rfl)

theorem updateClause_exact (s : Rat) (x : List Nat) (j : Nat) (target : Int) (out : Nat) (c : PSClause) (al : List (List Nat × List Nat))
    (g : Rng) {n : Nat} (hc : Mid n c) (hj : j < n) (hal : al.length = n) (hs : ∀ a ∈ al, AlSound a.1 ∧ AlSound a.2)
    (ht : target = 1 ∨ target = -1) :
    ∃ c' al' g', pysUpdateClause s x j target out c al g = .ok (c', al', g') ∧ Fed s x j target out c al g c' al' g' := by
  obtain ⟨w, ew, _, gw⟩ := pyAt_lt' (l := c.w) (i := j) (by rw [hc.weights]; exact hj)
  obtain ⟨a, ea, ma, ga⟩ := pyAt_lt' (l := al) (i := j) (by rw [hal]; exact hj)
  unfold pysUpdateClause
  simp only [ew, ea, bind, Except.bind, pure, Except.pure]
  have hsg : (0 ≤ w ∧ (if w ≥ 0 then (1 : Int) else -1) = 1) ∨ (¬ 0 ≤ w ∧ (if w ≥ 0 then (1 : Int) else -1) = -1) := by
    by_cases hw : 0 ≤ w <;> simp [hw]
  generalize (if w ≥ 0 then (1 : Int) else -1) = sg at hsg ⊢
  split
  · next h =>
    have hsame : 0 ≤ w ↔ 0 < target := by
      rcases ht with rfl | rfl <;> rcases hsg with ⟨hw, rfl⟩ | ⟨hw, rfl⟩ <;> simp [hw] at h ⊢
    split
    · next ho =>
      obtain ⟨p, q, e, hr⟩ := t1a_exact s x { c with w := c.w.set j (wrap8 (w + sg)) } a g hc.pos hc.neg (hs a ma)
      rw [e]
      refine ⟨_, _, _, rfl, Fed.reward w a _ _ gw ga hsame ho (fun hx => ?_) rfl ?_⟩
      · obtain ⟨h1, h2, h3, h4, h5, h6, h7, h8⟩ := hr hx
        exact ⟨h1, h2, h3, h4, h5, h6, h7, h8⟩
      · simp only
        congr 2
        split <;> omega
    · next ho =>
      obtain ⟨p, q, n, e, hf⟩ := t1b_exact s c g hc.pos hc.neg
      rw [e]
      exact ⟨_, _, _, rfl, Fed.forget w _ n gw hsame ho hf rfl rfl⟩
  · next h =>
    have hdiff : ¬ (0 ≤ w ↔ 0 < target) := by
      rcases ht with rfl | rfl <;> rcases hsg with ⟨hw, rfl⟩ | ⟨hw, rfl⟩ <;> simp [hw] at h ⊢
    split
    · next ho =>
      obtain ⟨p, q, p', q', e, b1, b2, a1, a2⟩ := t2_spec x { c with w := c.w.set j (wrap8 (w - sg)) } a hc.pos hc.neg
        (hs a ma)
      rw [e]
      refine ⟨_, _, _, rfl, Fed.reject w a _ gw ga hdiff ho.2 ⟨p, q, b1, b2, a1, a2⟩ rfl ?_⟩
      simp only
      congr 2
      split <;> omega
    · next ho =>
      have ho' : out ≠ 1 := by
        intro e
        apply ho
        refine ⟨?_, e⟩
        rcases ht with rfl | rfl <;> rcases hsg with ⟨hw, rfl⟩ | ⟨hw, rfl⟩ <;> simp [hw] at h ⊢
      exact ⟨_, _, _, rfl, Fed.none w gw hdiff ho'⟩

theorem maybe_exact (s : Rat) (x : List Nat) (j : Nat) (target : Int) (p : Rat) (out : Nat) (c : PSClause)
    (al : List (List Nat × List Nat)) (g : Rng) {n : Nat} (hc : Mid n c) (hj : j < n) (hal : al.length = n)
    (hs : ∀ a ∈ al, AlSound a.1 ∧ AlSound a.2) (ht : target = 1 ∨ target = -1) :
    ∃ c' al' g', pysMaybe s x j target p out c al g = .ok (c', al', g') ∧ MaybeFed s x j target p out c al g c' al' g' := by
  unfold pysMaybe MaybeFed
  split
  · next h =>
    obtain ⟨c', al', g', e, f⟩ := updateClause_exact s x j target out c al g.next.2 hc hj hal hs ht
    have h : g.draw g.pos < p := h
    exact ⟨c', al', g', e, by rw [if_pos h]; exact f⟩
  · next h =>
    have h : ¬ g.draw g.pos < p := h
    exact ⟨_, _, _, rfl, by rw [if_neg h]; exact ⟨rfl, rfl, rfl⟩⟩

theorem pysPrune_cnt {c c' : PSClause} (h : pysPrune c = .ok c') : c'.cnt = c.cnt ∧ c'.w = c.w := by
  unfold pysPrune at h
  split at h <;> simp at h
  subst h
  exact ⟨rfl, rfl⟩

theorem trainClause_exact (budget : Option Nat) (s : Rat) (x : List Nat) (fb : Feedback) (out : Nat) (c : PSClause)
    (al : List (List Nat × List Nat)) (g : Rng) {n : Nat} (hc : Mid n c) (hp : fb.posClass < n) (hn : fb.negClass < n)
    (hal : al.length = n) (hs : ∀ a ∈ al, AlSound a.1 ∧ AlSound a.2) :
    ∃ c' al' g', pysTrainClause budget s x fb out c al g = .ok (out, c', al', g') ∧ ClauseTrained s x fb out c al g c' al' g' := by
  unfold pysTrainClause
  simp only [limit_zero budget out hc.count]
  obtain ⟨c1, al1, g1, e1, m1, l1, s1, k1⟩ := maybe_spec s x fb.posClass 1 fb.posProb out c al g hc hp hal hs
  obtain ⟨_, _, _, f1, h1⟩ := maybe_exact s x fb.posClass 1 fb.posProb out c al g hc hp hal hs (.inl rfl)
  rw [e1] at f1
  cases f1
  obtain ⟨c2, al2, g2, e2, m2, l2, s2, k2⟩ := maybe_spec s x fb.negClass (-1) fb.negProb out c1 al1 g1 m1 hn l1 s1
  obtain ⟨_, _, _, f2, h2⟩ := maybe_exact s x fb.negClass (-1) fb.negProb out c1 al1 g1 m1 hn l1 s1 (.inr rfl)
  rw [e2] at f2
  cases f2
  obtain ⟨c3, e3, m3, w3, t3, t3', k3⟩ := pysPrune_spec c2 m2
  simp only [e1, e2, e3, bind, Except.bind, pure, Except.pure]
  exact ⟨c3, al2, g2, rfl, c1, al1, g1, c2, h1, h2, t3, t3', w3, (pysPrune_cnt e3).1⟩

theorem trainClauses_exact (budget : Option Nat) (s : Rat) (x : List Nat) (fb : Feedback) (outs : List Nat) (cs : List PSClause)
    (al : List (List Nat × List Nat)) (g : Rng) {n : Nat} (hc : ∀ c ∈ cs, Mid n c) (ho : outs.length = cs.length)
    (hp : fb.posClass < n) (hn : fb.negClass < n) (hal : al.length = n) (hs : ∀ a ∈ al, AlSound a.1 ∧ AlSound a.2) :
    ∃ cs' al' g', pysTrainClauses budget s x fb outs cs al g = .ok (outs, cs', al', g') ∧
      ClausesTrained s x fb outs cs al g cs' al' g' := by
  induction cs generalizing outs al g with
  | nil =>
    have : outs = [] := by simpa using ho
    subst this
    exact ⟨[], al, g, rfl, .nil al g⟩
  | cons c cs ih =>
    cases outs with
    | nil => simp at ho
    | cons o outs =>
      obtain ⟨c1, al1, g1, e1, m1, l1, s1, k1⟩ := trainClause_spec budget s x fb o c al g (hc c (by simp)) hp hn hal hs
      obtain ⟨_, _, _, f1, h1⟩ := trainClause_exact budget s x fb o c al g (hc c (by simp)) hp hn hal hs
      rw [e1] at f1
      cases f1
      obtain ⟨cs2, al2, g2, e2, h2⟩ := ih outs al1 g1 (fun c hc' => hc c (by simp [hc'])) (by simpa using ho) l1 s1
      refine ⟨c1 :: cs2, al2, g2, ?_, .cons h1 h2⟩
      rw [pysTrainClauses]
      simp only [e1, e2, bind, Except.bind, pure, Except.pure]

/-! ### Outputs -/

theorem skip_spec (n : Nat) (cs : List PSClause) (k : Nat) (h : k < cs.length) (hn : n ≤ cs.length)
    (hs : ∀ c ∈ cs, RowSound c.pos ∧ RowSound c.neg) : ∃ b, pysSkip n cs k = .ok b ∧ (b = true ↔ Shortcut n cs k) := by
  obtain ⟨q, eq, d, hd, hq⟩ := rowAt_mem (cs := cs) (j := k + n) (by omega)
  have gp : (rows cs)[k]? = some cs[k].pos := pyAt_ok (rowAt_pos cs k h)
  have gq : (rows cs)[k + n]? = some q := pyAt_ok eq
  have sp : cs[k].pos.st.length = 0 ↔ cs[k].pos.idx = [] := by
    rw [← (hs _ (List.getElem_mem h)).1.1]; exact List.length_eq_zero_iff
  have sq : q.st.length = 0 ↔ q.idx = [] := by
    have : RowSound q := by
      rcases hq with rfl | rfl
      · exact (hs d hd).1
      · exact (hs d hd).2
    rw [← this.1]; exact List.length_eq_zero_iff
  unfold pysSkip
  simp only [rowAt_pos cs k h, eq, bind, Except.bind, pure, Except.pure]
  split
  · next hz =>
    refine ⟨_, rfl, ?_⟩
    constructor
    · intro hb
      exact ⟨_, _, gp, sp.mp hz, gq, sq.mp (by simpa using hb)⟩
    · rintro ⟨p', q', h1, h2, h3, h4⟩
      rw [gq] at h3
      cases h3
      simpa using sq.mpr h4
  · next hz =>
    refine ⟨false, rfl, ?_⟩
    constructor
    · intro hb; simp at hb
    · rintro ⟨p', q', h1, h2, h3, h4⟩
      rw [gp] at h1
      cases h1
      exact absurd (sp.mpr h2) hz

theorem trainOut_spec (n : Nat) (cs : List PSClause) (x : List Nat) (k : Nat) (h : k < cs.length) (hn : n ≤ cs.length)
    (hs : ∀ c ∈ cs, RowSound c.pos ∧ RowSound c.neg) :
    ∃ o, pysTrainOut n cs x k = .ok o ∧ (o = 0 ∨ o = 1) ∧ (o = 1 ↔ Shortcut n cs k ∨ PSHolds cs[k] x) := by
  obtain ⟨b, eb, hb⟩ := skip_spec n cs k h hn hs
  obtain ⟨o, eo, h01, ho⟩ := pysConj_spec cs x k h (hs _ (List.getElem_mem h)).1 (hs _ (List.getElem_mem h)).2
  unfold pysTrainOut
  simp only [eb, bind, Except.bind, pure, Except.pure]
  cases b with
  | true => exact ⟨1, rfl, .inr rfl, by simp [hb.mp rfl]⟩
  | false =>
    refine ⟨o, by simpa using eo, h01, ?_⟩
    rw [ho]
    have : ¬ Shortcut n cs k := fun h => by simpa using hb.mpr h
    simp [this]

theorem trainOuts_spec (n : Nat) (cs : List PSClause) (x : List Nat) (hn : n ≤ cs.length)
    (hs : ∀ c ∈ cs, RowSound c.pos ∧ RowSound c.neg) :
    ∃ os, pysTrainOuts n cs x = .ok os ∧ os.length = cs.length ∧ ∀ (k : Nat) (c : PSClause), cs[k]? = some c →
      ∃ o, os[k]? = some o ∧ (o = 0 ∨ o = 1) ∧ (o = 1 ↔ Shortcut n cs k ∨ PSHolds c x) := by
  obtain ⟨os, e, hl, hk⟩ := fillLoop_ok (pysTrainOut n cs x) cs.length 0 (fun j _ hj => by
    obtain ⟨o, e, _⟩ := trainOut_spec n cs x j (by omega) hn hs
    exact ⟨o, e⟩)
  refine ⟨os, e, hl, fun k c hc => ?_⟩
  obtain ⟨hlt, rfl⟩ := List.getElem?_eq_some_iff.mp hc
  obtain ⟨o, h1, h2⟩ := hk k hlt
  obtain ⟨o', e', h01, ho⟩ := trainOut_spec n cs x k hlt hn hs
  rw [Nat.zero_add, e'] at h2
  cases h2
  exact ⟨_, h1, h01, ho⟩

theorem evalOuts_spec (n : Nat) (cs : List PSClause) (x : List Nat) (hn : n ≤ cs.length)
    (hs : ∀ c ∈ cs, RowSound c.pos ∧ RowSound c.neg) :
    ∃ os, pysEvalOuts n cs x = .ok os ∧ os.length = cs.length ∧ ∀ (k : Nat) (c : PSClause), cs[k]? = some c →
      ∃ o, os[k]? = some o ∧ (o = 0 ∨ o = 1) ∧ (o = 1 ↔ n ≤ k ∨ PSHolds c x) := by
  have hc : ∀ j (h : j < cs.length), ∃ o, pysConj cs x j = .ok o ∧ (o = 0 ∨ o = 1) ∧ (o = 1 ↔ PSHolds cs[j] x) := fun j h =>
    pysConj_spec cs x j h (hs _ (List.getElem_mem h)).1 (hs _ (List.getElem_mem h)).2
  obtain ⟨os, e, hl, hk⟩ := fillLoop_ok (pysConj cs x) n 0 (fun j _ hj => by
    obtain ⟨o, e, _⟩ := hc j (by omega)
    exact ⟨o, e⟩)
  refine ⟨os ++ List.replicate (cs.length - n) 1, by unfold pysEvalOuts; rw [e], by simp [hl]; omega, fun k c hc' => ?_⟩
  obtain ⟨hlt, rfl⟩ := List.getElem?_eq_some_iff.mp hc'
  by_cases hkn : k < n
  · obtain ⟨o, h1, h2⟩ := hk k hkn
    obtain ⟨o', e', h01, ho⟩ := hc k hlt
    rw [Nat.zero_add, e'] at h2
    cases h2
    refine ⟨_, by rw [List.getElem?_append_left (by omega)]; exact h1, h01, ?_⟩
    rw [ho]
    have : ¬ n ≤ k := by omega
    simp [this]
  · refine ⟨1, ?_, .inr rfl, by simp; exact .inl (by omega)⟩
    rw [List.getElem?_append_right (by omega), List.getElem?_replicate, if_pos (by omega)]

theorem zip_sum_range (os : List Nat) (cs : List PSClause) (j : Nat) (h : os.length = cs.length) :
    ((os.zip cs).map fun c => (c.1 : Int) * c.2.w.getD j 0).sum = voteOf os cs j := by
  unfold voteOf
  induction cs generalizing os with
  | nil => simp
  | cons c cs ih =>
    cases os with
    | nil => simp at h
    | cons o os =>
      have := ih os (by simpa using h)
      rw [List.length_cons, List.range_succ_eq_map]
      simp only [List.zip_cons_cons, List.map_cons, List.sum_cons, List.map_map]
      rw [this]
      simp [Function.comp_def]

theorem votes_spec (n : Nat) (os : List Nat) (cs : List PSClause) (h : os.length = cs.length) (j : Nat) (hj : j < n) :
    (pysVotes n os cs)[j]? = some (wrap32 (voteOf os cs j)) := by
  unfold pysVotes
  rw [List.getElem?_map, List.getElem?_range hj]
  simp only [Option.map_some]
  rw [zip_sum_range os cs j h]

/-! ### Histories -/

theorem apply_spec (b : PSBlock) (op : BlockOp) (h : PSSound b) (hn : b.nClasses ≤ b.clauses.length)
    (hl : ∀ x fb, op = .trainUpdate x fb → fb.posClass < b.nClasses ∧ fb.negClass < b.nClasses)
    (ho : ∀ x fb, op = .trainUpdate x fb → b.outs ≠ none) :
    ∃ b', b.apply op = .ok b' ∧ PSSound b' ∧ b'.nClasses = b.nClasses ∧ b'.clauses.length = b.clauses.length ∧ b'.outs ≠ none ∧
      ∀ l, Known b' l → Known b l ∨ l ∈ exampleOf op := by
  have hr : ∀ c ∈ b.clauses, RowSound c.pos ∧ RowSound c.neg := fun c hc => ⟨(h.clauses c hc).pos, (h.clauses c hc).neg⟩
  cases op with
  | trainExample x =>
    obtain ⟨os, e, hl, _⟩ := trainOuts_spec b.nClasses b.clauses x hn hr
    refine ⟨{ b with outs := some os, votes := pysVotes b.nClasses os b.clauses }, by unfold PSBlock.apply; simp only [e],
      ⟨h.clauses, h.classes, h.active, ?_⟩, rfl, rfl, by simp, fun l hl => .inl hl⟩
    intro os' h'
    simp at h'
    exact h' ▸ hl
  | evalExample x =>
    obtain ⟨os, e, hl, _⟩ := evalOuts_spec b.nClasses b.clauses x hn hr
    refine ⟨{ b with outs := some os, votes := pysVotes b.nClasses os b.clauses }, by unfold PSBlock.apply; simp only [e],
      ⟨h.clauses, h.classes, h.active, ?_⟩, rfl, rfl, by simp, fun l hl => .inl hl⟩
    intro os' h'
    simp at h'
    exact h' ▸ hl
  | trainUpdate x fb =>
    obtain ⟨hp, hq⟩ := hl x fb rfl
    cases hos : b.outs with
    | none => exact absurd hos (ho x fb rfl)
    | some os =>
      have hlen := h.outs os hos
      obtain ⟨cs', al', g', e, n1, m1, l1, s1, k1⟩ := trainClauses_spec b.budget b.s x fb os b.clauses b.al b.rng
        (fun c hc => Mid.of (h.clauses c hc)) hlen hp hq h.classes h.active
      refine ⟨{ b with outs := some os, clauses := cs', al := al', rng := g' }, by unfold PSBlock.apply; simp only [hos, e], ⟨m1, l1, s1, ?_⟩, rfl, n1, by simp, fun l hl => k1 l hl⟩
      intro os' h'
      simp at h'
      simp only
      rw [n1, ← h', hlen]

theorem run_spec (b : PSBlock) (ops : List BlockOp) (h : PSSound b) (hn : b.nClasses ≤ b.clauses.length)
    (hl : LabelsBelow b.nClasses ops) (hst : Started b ops) :
    ∃ b', b.run ops = .ok b' ∧ PSSound b' ∧ b'.nClasses = b.nClasses ∧ b'.clauses.length = b.clauses.length ∧
      ∀ l, Known b' l → Known b l ∨ ∃ op ∈ ops, l ∈ exampleOf op := by
  induction ops generalizing b with
  | nil => exact ⟨b, rfl, h, rfl, rfl, fun l hl => .inl hl⟩
  | cons op ops ih =>
    obtain ⟨b1, e1, h1, n1, l1, o1, k1⟩ := apply_spec b op h hn (fun x fb e => hl op (by simp) x fb e) (fun x fb e => by
      rcases hst with h | h
      · exact h
      · exact absurd (by simp [e]) (h x fb))
    obtain ⟨b2, e2, h2, n2, l2, k2⟩ := ih b1 h1 (by rw [n1, l1]; exact hn) (by
      intro op' ho x fb e
      rw [n1]
      exact hl op' (by simp [ho]) x fb e) (.inl o1)
    refine ⟨b2, by rw [PSBlock.run, e1]; exact e2, h2, n2.trans n1, l2.trans l1, fun l hl => ?_⟩
    rcases k2 l hl with h | ⟨op', ho, h⟩
    · rcases k1 l h with h | h
      · exact .inl h
      · exact .inr ⟨op, by simp, h⟩
    · exact .inr ⟨op', by simp [ho], h⟩

theorem init_sound (nClauses nClasses : Nat) (budget : Option Nat) (s : Rat) (up : Nat → Nat → Bool) (g : Rng) :
    PSSound (pysInit nClauses nClasses budget s up g) := by
  refine ⟨?_, by simp [pysInit], ?_, by simp [pysInit]⟩
  · intro c hc
    simp only [pysInit, List.mem_map] at hc
    obtain ⟨k, _, rfl⟩ := hc
    exact ⟨⟨rfl, by simp⟩, ⟨rfl, by simp⟩, by simp [pysInit], by simp, by simp, rfl⟩
  · intro a ha
    simp only [pysInit, List.mem_replicate] at ha
    rw [ha.2]
    exact ⟨⟨by simp, by simp⟩, ⟨by simp, by simp⟩⟩

/-! ### The budget -/

theorem trainClauses_budget (b d : Option Nat) (s : Rat) (x : List Nat) (fb : Feedback) (outs : List Nat) (cs : List PSClause)
    (al : List (List Nat × List Nat)) (g : Rng) (h : ∀ c ∈ cs, c.cnt = 0) :
    pysTrainClauses b s x fb outs cs al g = pysTrainClauses d s x fb outs cs al g := by
  induction cs generalizing outs al g with
  | nil => cases outs <;> rfl
  | cons c cs ih =>
    cases outs with
    | nil => rfl
    | cons o outs =>
      rw [pysTrainClauses, pysTrainClauses]
      have e : pysTrainClause b s x fb o c al g = pysTrainClause d s x fb o c al g := by
        unfold pysTrainClause
        simp only [limit_zero _ o (h c (by simp))]
      rw [e]
      simp only [fun o al g => ih o al g (fun c hc => h c (by simp [hc]))]

theorem apply_budget (b : PSBlock) (d : Option Nat) (op : BlockOp) (h : ∀ c ∈ b.clauses, c.cnt = 0) {b' : PSBlock}
    (e : b.apply op = .ok b') : PSBlock.apply { b with budget := d } op = .ok { b' with budget := d } := by
  cases op with
  | trainExample x =>
    unfold PSBlock.apply at e ⊢
    simp only at e ⊢
    split at e <;> simp at e
    subst e
    rfl
  | evalExample x =>
    unfold PSBlock.apply at e ⊢
    simp only at e ⊢
    split at e <;> simp at e
    subst e
    rfl
  | trainUpdate x fb =>
    unfold PSBlock.apply at e ⊢
    simp only at e ⊢
    cases ho : b.outs with
    | none => rw [ho] at e; simp at e
    | some os =>
      rw [ho] at e
      simp only at e ⊢
      rw [trainClauses_budget d b.budget _ _ _ _ _ _ _ h]
      split at e <;> simp at e
      subst e
      rfl

theorem run_budget (b : PSBlock) (d : Option Nat) (ops : List BlockOp) (h : PSSound b) (hn : b.nClasses ≤ b.clauses.length)
    (hl : LabelsBelow b.nClasses ops) (hst : Started b ops) :
    ∃ b', b.run ops = .ok b' ∧ PSBlock.run { b with budget := d } ops = .ok { b' with budget := d } := by
  induction ops generalizing b with
  | nil => exact ⟨b, rfl, rfl⟩
  | cons op ops ih =>
    obtain ⟨b1, e1, h1, n1, l1, o1, k1⟩ := apply_spec b op h hn (fun x fb e => hl op (by simp) x fb e) (fun x fb e => by
      rcases hst with h | h
      · exact h
      · exact absurd (by simp [e]) (h x fb))
    obtain ⟨b2, e2, f2⟩ := ih b1 h1 (by rw [n1, l1]; exact hn) (by
      intro op' ho x fb e
      rw [n1]
      exact hl op' (by simp [ho]) x fb e) (.inl o1)
    refine ⟨b2, by rw [PSBlock.run, e1]; exact e2, ?_⟩
    rw [PSBlock.run, apply_budget b d op (fun c hc => (h.clauses c hc).count) e1]
    exact f2

/-! ### More classes than clauses -/

theorem conj_past (cs : List PSClause) (x : List Nat) : pysConj cs x cs.length = .error .indexError := by
  cases h : pysConj cs x cs.length with
  | error e => rw [pysConj_err cs x _ e h]
  | ok o =>
    exfalso
    unfold pysConj at h
    rw [rowAt_ge cs (cs.length + cs.length) (by omega)] at h
    simp only [bind, Except.bind, pure, Except.pure] at h
    split at h
    · simp at h
    · split at h <;> simp at h

theorem evalOuts_fail (n : Nat) (cs : List PSClause) (x : List Nat) (h : cs.length < n) : pysEvalOuts n cs x = .error .indexError := by
  unfold pysEvalOuts
  rw [fillLoop_error (pysConj cs x) n 0 cs.length (by omega) (by omega) (fun i _ e he => pysConj_err cs x i e he) (conj_past cs x)]

theorem skip_err {n : Nat} {cs : List PSClause} {k : Nat} {e : PyErr} (h : pysSkip n cs k = .error e) : e = .indexError := by
  unfold pysSkip at h
  simp only [bind, Except.bind, pure, Except.pure] at h
  split at h
  · next e' he => simp at h; subst h; exact pyAt_err he
  · split at h
    · split at h
      · next e' he => simp at h; subst h; exact pyAt_err he
      · simp at h
    · simp at h

theorem trainOut_err {n : Nat} {cs : List PSClause} {x : List Nat} {k : Nat} {e : PyErr} (h : pysTrainOut n cs x k = .error e) :
    e = .indexError := by
  unfold pysTrainOut at h
  simp only [bind, Except.bind, pure, Except.pure] at h
  split at h
  · next e' he => simp at h; subst h; exact skip_err he
  · split at h
    · simp at h
    · exact pysConj_err _ _ _ _ h

theorem trainOuts_fail (n : Nat) (cs : List PSClause) (x : List Nat) (h : cs.length < n) (h0 : cs ≠ [])
    (he : ∀ c ∈ cs, c.pos.st = []) : pysTrainOuts n cs x = .error .indexError := by
  have hpos : 0 < cs.length := List.length_pos_iff.mpr h0
  unfold pysTrainOuts
  refine fillLoop_error _ cs.length 0 (cs.length - 1) (by omega) (by omega) (fun i _ e he => trainOut_err he) ?_
  unfold pysTrainOut pysSkip
  rw [rowAt_pos cs _ (by omega), rowAt_ge cs _ (by omega)]
  simp only [bind, Except.bind, he _ (List.getElem_mem (by omega : cs.length - 1 < cs.length))]
  simp

end GT.PyS
