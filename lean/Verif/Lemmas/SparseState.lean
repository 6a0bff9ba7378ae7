import Verif.Spec.SparseState
import Verif.Lemmas.SparseExec
import Verif.Lemmas.Ruleset

/-! # Helper lemmas about sparse states -/

namespace GT
open Spec

/-! ## CSR -/

theorem csrLoop_data (rows : List Half) (off : Nat) : (csrLoop rows off).data = (rows.flatMap id).map (·.2) := by
  induction rows generalizing off with
  | nil => rfl
  | cons r rs ih => simp only [csrLoop, ih, List.flatMap_cons, List.map_append, id]

theorem csrLoop_indices (rows : List Half) (off : Nat) :
    (csrLoop rows off).indices = (rows.flatMap id).map (·.1) := by
  induction rows generalizing off with
  | nil => rfl
  | cons r rs ih => simp only [csrLoop, ih, List.flatMap_cons, List.map_append, id]

theorem csrLoop_indptr_length (rows : List Half) (off : Nat) :
    (csrLoop rows off).indptr.length = rows.length + 1 := by
  induction rows generalizing off with
  | nil => rfl
  | cons r rs ih => simp only [csrLoop, List.length_cons, ih]

theorem csrLoop_indptr (rows : List Half) (off i : Nat) (h : i ≤ rows.length) :
    (csrLoop rows off).indptr[i]? = some (off + ((rows.take i).map (·.length)).sum) := by
  induction rows generalizing off i with
  | nil =>
    obtain rfl : i = 0 := by simpa using h
    simp [csrLoop]
  | cons r rs ih =>
    cases i with
    | zero => simp [csrLoop]
    | succ i =>
      simp only [csrLoop, List.getElem?_cons_succ]
      rw [ih (off + r.length) i (by simpa using h)]
      simp [Nat.add_assoc]

theorem csrLoop_denotes (rows : List Half) : Denotes (csrLoop rows 0) rows := by
  refine ⟨csrLoop_data rows 0, csrLoop_indices rows 0, csrLoop_indptr_length rows 0, ?_⟩
  intro i hi
  rw [csrLoop_indptr rows 0 i hi]
  simp

theorem denotes_eq (a : CsrArr) (rows : List Half) (h : Denotes a rows) : a = csrLoop rows 0 := by
  obtain ⟨h1, h2, h3, h4⟩ := h
  have : a.indptr = (csrLoop rows 0).indptr := by
    apply List.ext_getElem?
    intro i
    by_cases hi : i ≤ rows.length
    · rw [h4 i hi, csrLoop_indptr rows 0 i hi]; simp
    · rw [List.getElem?_eq_none (by omega),
        List.getElem?_eq_none (by rw [csrLoop_indptr_length]; omega)]
  cases a
  simp only at h1 h2 this
  rw [h1, h2, this]
  generalize hc : csrLoop rows 0 = c
  have e1 := csrLoop_data rows 0
  have e2 := csrLoop_indices rows 0
  rw [hc] at e1 e2
  rw [← e1, ← e2]

theorem csrRow_of (a : CsrArr) (r : Half) (lo : Nat) (d : List Int) (i : List Nat)
    (hd : a.data.drop lo = r.map (·.2) ++ d) (hi : a.indices.drop lo = r.map (·.1) ++ i) :
    csrRow a lo r.length = some r := by
  induction r generalizing lo with
  | nil => rfl
  | cons e r ih =>
    have hd0 : a.data[lo]? = some e.2 := by
      have := congrArg (·[0]?) hd
      simpa using this
    have hi0 : a.indices[lo]? = some e.1 := by
      have := congrArg (·[0]?) hi
      simpa using this
    have hd1 : a.data.drop (lo + 1) = r.map (·.2) ++ d := by
      have := congrArg (List.drop 1) hd
      simpa [List.drop_drop] using this
    have hi1 : a.indices.drop (lo + 1) = r.map (·.1) ++ i := by
      have := congrArg (List.drop 1) hi
      simpa [List.drop_drop] using this
    rw [List.length_cons, csrRow, hd0, hi0, ih (lo + 1) hd1 hi1]

theorem csrRows_of (a : CsrArr) (rows : List Half) (off : Nat)
    (hd : a.data.drop off = (csrLoop rows off).data) (hi : a.indices.drop off = (csrLoop rows off).indices) :
    csrRows a (csrLoop rows off).indptr = some rows := by
  induction rows generalizing off with
  | nil => rfl
  | cons r rs ih =>
    simp only [csrLoop] at hd hi ⊢
    have hd1 : a.data.drop (off + r.length) = (csrLoop rs (off + r.length)).data := by
      have := congrArg (List.drop r.length) hd
      rw [List.drop_drop, List.drop_left' (by simp)] at this
      exact this
    have hi1 : a.indices.drop (off + r.length) = (csrLoop rs (off + r.length)).indices := by
      have := congrArg (List.drop r.length) hi
      rw [List.drop_drop, List.drop_left' (by simp)] at this
      exact this
    have ih' := ih (off + r.length) hd1 hi1
    obtain ⟨t, ht⟩ : ∃ t, (csrLoop rs (off + r.length)).indptr = (off + r.length) :: t := by
      cases rs with
      | nil => exact ⟨[], rfl⟩
      | cons r' rs => exact ⟨_, rfl⟩
    rw [ht] at ih' ⊢
    rw [csrRows, ih', Nat.add_sub_cancel_left, csrRow_of a r off _ _ hd hi]

theorem valid_rows (a : CsrArr) (hs : a.indices.length = a.data.length) (ps : List Nat) (off : Nat)
    (hm : (off :: ps).Pairwise (· ≤ ·)) (hl : (off :: ps).getLast? = some a.data.length) :
    ∃ rows, rows.length = ps.length ∧ csrLoop rows off = ⟨a.data.drop off, a.indices.drop off, off :: ps⟩ := by
  induction ps generalizing off with
  | nil =>
    simp at hl
    refine ⟨[], rfl, ?_⟩
    subst hl
    simp [csrLoop, ← hs]
  | cons p ps ih =>
    have hp := List.pairwise_cons.mp hm
    have hop : off ≤ p := hp.1 p (by simp)
    have hl' : (p :: ps).getLast? = some a.data.length := by
      rw [← hl, List.getLast?_cons_cons]
    have hle : ∀ q ∈ p :: ps, p ≤ q := by
      intro q hq
      rcases List.mem_cons.mp hq with h | h
      · omega
      · exact (List.pairwise_cons.mp hp.2).1 q h
    have hpl : p ≤ a.data.length := hle _ (List.mem_of_getLast? hl')
    obtain ⟨rs, h1, h2⟩ := ih p hp.2 hl'
    refine ⟨(((a.indices.drop off).take (p - off)).zip ((a.data.drop off).take (p - off))) :: rs,
      by simp [h1], ?_⟩
    have hlen : (((a.indices.drop off).take (p - off)).zip ((a.data.drop off).take (p - off))).length = p - off := by
      simp; omega
    have hl2 : ((a.indices.drop off).take (p - off)).length = ((a.data.drop off).take (p - off)).length := by
      simp; omega
    simp only [csrLoop, hlen, show off + (p - off) = p by omega, h2]
    rw [show (fun x : Nat × Int => x.2) = Prod.snd from rfl, show (fun x : Nat × Int => x.1) = Prod.fst from rfl,
      List.map_snd_zip (by omega), List.map_fst_zip (by omega)]
    have e : p = off + (p - off) := by omega
    congr 1
    · conv => lhs; rhs; rw [e, ← List.drop_drop]
      rw [List.take_append_drop]
    · conv => lhs; rhs; rw [e, ← List.drop_drop]
      rw [List.take_append_drop]

theorem valid_denotes (a : CsrArr) (h : ValidCsr a) : ∃ rows, Denotes a rows ∧ a.indptr.length = rows.length + 1 := by
  obtain ⟨ps, hps⟩ : ∃ ps, a.indptr = 0 :: ps := by
    have := h.first
    cases hc : a.indptr with
    | nil => simp [hc] at this
    | cons q ps => simp [hc] at this; exact ⟨ps, by rw [this]⟩
  obtain ⟨rows, h1, h2⟩ := valid_rows a h.same ps 0 (hps ▸ h.mono) (hps ▸ h.last)
  have : csrLoop rows 0 = a := by
    rw [h2]; cases a; simp only at hps; simp [hps]
  refine ⟨rows, this ▸ csrLoop_denotes rows, by rw [hps]; simp [h1]⟩

/-! ## Blocks -/

theorem setCsr_denotes (b : SBlock) (a : CsrArr) (rows : List Half) (h : Denotes a rows) :
    b.setCsr a = b.setRows rows := by
  have e := denotes_eq a rows h
  have hne : a.indptr ≠ [] := by
    intro hn
    have := h.2.2.1
    rw [hn] at this; simp at this
  unfold SBlock.setCsr
  rw [if_neg hne]
  have : csrRows a a.indptr = some rows := by
    have := csrRows_of a rows 0 (by rw [e]; rfl) (by rw [e]; rfl)
    rw [← e] at this; exact this
  rw [this]

theorem setCsr_length (b b1 : SBlock) (a : CsrArr) (h : b.setCsr a = some b1) :
    b1.clauses.length = b.clauses.length := by
  unfold SBlock.setCsr at h
  split at h
  · simp at h
  · split at h
    · unfold SBlock.setRows at h
      split at h
      · simp at h
      · simp at h; subst h; simp
    · simp at h

theorem setRows_rows (b : SBlock) (rows : List Half) (h : rows.length = 2 * b.clauses.length) :
    ∃ b', b.setRows rows = some b' ∧ b'.rows = rows ∧ b'.clauses.length = b.clauses.length ∧
      b'.clauses.map (fun c => (c.w, c.out, c.cnt)) = b.clauses.map (fun c => (c.w, c.out, c.cnt)) ∧
      b' = { b with clauses := b'.clauses } := by
  refine ⟨{ b with clauses := b.clauses.mapIdx fun i c =>
    { c with pos := rows.getD i [], neg := rows.getD (i + b.clauses.length) [] } },
    by rw [SBlock.setRows, if_neg (by omega)], ?_, by simp, ?_, rfl⟩
  · unfold SBlock.rows
    simp only
    apply List.ext_getElem (by simp; omega)
    intro i h1 h2
    have hlt : i < rows.length := h2
    by_cases hi : i < b.clauses.length
    · rw [List.getElem_append_left (by simpa using hi)]
      simp [hlt]
    · rw [List.getElem_append_right (by simpa using hi)]
      simp only [List.length_map, List.length_mapIdx, List.getElem_map, List.getElem_mapIdx]
      rw [show i - b.clauses.length + b.clauses.length = i by omega]
      simp [hlt]
  · apply List.ext_getElem (by simp)
    intro i h1 h2
    simp

theorem rows_length (b : SBlock) : b.rows.length = 2 * b.clauses.length := by simp [SBlock.rows]; omega

theorem getCsr_setCsr (b b0 : SBlock) (h : b.clauses.length = b0.clauses.length) :
    ∃ b', b0.setCsr b.getCsr = some b' ∧
      b'.clauses.map (fun c => (c.pos, c.neg)) = b.clauses.map (fun c => (c.pos, c.neg)) ∧
      b'.clauses.map (fun c => (c.w, c.out, c.cnt)) = b0.clauses.map (fun c => (c.w, c.out, c.cnt)) ∧
      b' = { b0 with clauses := b'.clauses } := by
  rw [setCsr_denotes b0 b.getCsr b.rows (csrLoop_denotes b.rows)]
  obtain ⟨b', h1, h2, h3, h4, h5⟩ := setRows_rows b0 b.rows (by rw [rows_length, h])
  refine ⟨b', h1, ?_, h4, h5⟩
  unfold SBlock.rows at h2
  obtain ⟨hp, hn⟩ := List.append_inj h2 (by simp [h3, h])
  apply List.ext_getElem (by simp [h3, h])
  intro i i1 i2
  have a1 := congrArg (·[i]?) hp
  have a2 := congrArg (·[i]?) hn
  simp only [List.length_map] at i1 i2
  simp only [List.getElem?_map, List.getElem?_eq_getElem i1, List.getElem?_eq_getElem i2, Option.map_some,
    Option.some.injEq] at a1 a2
  simp [a1, a2]

/-! ## The machine -/

theorem overwriteRows_end (w : List (List Int)) (pre rows : List (List Int)) (post : List (List Int))
    (off : Nat) (hw : w = pre ++ post) (hp : pre.length = off) :
    overwriteRows w off rows = (pre ++ rows) ++ post.drop rows.length := by
  subst hp hw
  unfold overwriteRows
  rw [List.take_left, List.drop_append, List.drop_eq_nil_of_le (by omega), Nat.add_sub_cancel_left, List.nil_append]

theorem sLoadLoop_eq (bs : List SBlock) (off : Nat) (s : SparseSt) (pre post : List (List Int))
    (hw : s.w = pre ++ post) (hp : pre.length = off) (hl : (bs.flatMap (·.clauses)).length = post.length) :
    sLoadLoop bs off s = { s with w := pre ++ (bs.flatMap (·.clauses)).map (·.w), csr := s.csr ++ bs.map (·.getCsr),
                                  al := s.al ++ bs.map (·.getAL) } := by
  induction bs generalizing off s pre post with
  | nil =>
    have : post = [] := by simpa using hl.symm
    subst this
    rw [List.append_nil] at hw
    simp [sLoadLoop, ← hw]
  | cons b bs ih =>
    simp only [List.flatMap_cons, List.length_append] at hl
    rw [sLoadLoop, ih (off + b.clauses.length) _ (pre ++ b.clauses.map (·.w)) (post.drop b.clauses.length)
      (by
        simp only
        rw [overwriteRows_end s.w pre (b.clauses.map (·.w)) post off hw hp]
        simp)
      (by simp [hp]) (by rw [List.length_drop]; omega)]
    simp

theorem sLoad_eq (nLits nClauses nClasses : Nat) (bs : List SBlock)
    (h : (bs.flatMap (·.clauses)).length = nClauses) :
    sLoad nLits nClauses nClasses bs =
      ⟨some nLits, (bs.flatMap (·.clauses)).map (·.w), bs.map (·.getCsr), bs.map (·.getAL)⟩ := by
  unfold sLoad
  rw [sLoadLoop_eq bs 0 _ [] (List.replicate nClauses (List.replicate nClasses 0)) rfl rfl (by simp [h])]
  simp

theorem setWeights_of (b : SBlock) (w : List (List Int)) (off : Nat) (rows rest : List (List Int))
    (hw : w.drop off = rows ++ rest) (hl : rows.length = b.clauses.length) (hn : b.clauses ≠ [] ∨ off ≤ w.length) :
    ∃ b', b.setWeights w off = some b' ∧ b'.clauses.map (·.w) = rows ∧
      b'.clauses.map (fun c => (c.pos, c.neg, c.out, c.cnt)) = b.clauses.map (fun c => (c.pos, c.neg, c.out, c.cnt)) ∧
      b' = { b with clauses := b'.clauses } := by
  have hle : off + b.clauses.length ≤ w.length := by
    have := congrArg List.length hw
    simp at this
    rcases hn with h | h
    · have : 0 < b.clauses.length := List.length_pos_iff.mpr h
      omega
    · omega
  refine ⟨{ b with clauses := b.clauses.mapIdx fun i c => { c with w := w.getD (off + i) [] } },
    by rw [SBlock.setWeights, if_neg (by omega)], ?_, ?_, rfl⟩
  · apply List.ext_getElem (by simp [hl])
    intro i h1 h2
    have := congrArg (·[i]?) hw
    simp only [List.getElem?_drop, List.getElem?_append_left h2, List.getElem?_eq_getElem h2] at this
    simp [this]
  · apply List.ext_getElem (by simp)
    intro i h1 h2
    simp

theorem setAL_of (b : SBlock) (rows : List (List Nat)) (hl : rows.length = b.nClasses) (ha : b.al.length = b.nClasses)
    (he : ∀ p ∈ rows, ∀ q ∈ rows, p.length = q.length) :
    ∃ b', b.setAL rows = .ok b' ∧ b'.al.map (·.1) = rows ∧ b'.al.map (·.2) = b.al.map (·.2) ∧
      b' = { b with al := b'.al } := by
  have h0 : ¬ rows.any (fun r => r.length != (rows.headD []).length) = true := by
    rw [Bool.not_eq_true, List.any_eq_false]
    intro r hr
    cases rows with
    | nil => simp at hr
    | cons a t => simpa using he r hr a (by simp)
  refine ⟨{ b with al := b.al.mapIdx fun i a => (rows.getD i [], a.2) },
    by rw [SBlock.setAL, if_neg h0, if_neg (by omega)], ?_, ?_, rfl⟩
  · apply List.ext_getElem (by simp [hl, ha])
    intro i h1 h2
    simp [h2]
  · apply List.ext_getElem (by simp)
    intro i h1 h2
    simp

/-- The state has the CSR arrays, active literals and weights of the blocks `bs` from block `k`, row `off` on. -/
structure HasBlocks (s : SparseSt) (bs : List SBlock) (k off : Nat) : Prop where
  csr : s.csr.drop k = bs.map (·.getCsr)
  al  : s.al.drop k = bs.map (·.getAL)
  w   : s.w.drop off = (bs.flatMap (·.clauses)).map (·.w)
  off : off ≤ s.w.length

theorem hasBlocks_tail {s : SparseSt} {b : SBlock} {bs : List SBlock} {k off : Nat}
    (h : HasBlocks s (b :: bs) k off) : HasBlocks s bs (k + 1) (off + b.clauses.length) := by
  refine ⟨?_, ?_, ?_, ?_⟩
  · have := congrArg (List.drop 1) h.csr
    simpa [List.drop_drop] using this
  · have := congrArg (List.drop 1) h.al
    simpa [List.drop_drop] using this
  · have := congrArg (List.drop b.clauses.length) h.w
    simp only [List.drop_drop, List.flatMap_cons, List.map_append] at this
    rw [List.drop_left' (by simp)] at this
    exact this
  · have h1 := congrArg List.length h.w
    have h2 := h.off
    simp at h1
    omega

/-- The two blocks have the same shape. -/
def SameShape (b b0 : SBlock) : Prop :=
  b.clauses.length = b0.clauses.length ∧ b.al.length = b0.nClasses ∧ b0.al.length = b0.nClasses

theorem saveOne (s : SparseSt) (b b0 : SBlock) (bs : List SBlock) (k off : Nat) (h : HasBlocks s (b :: bs) k off)
    (hs : SameShape b b0) (he : EvenAL b) :
    ∃ b1 b2 b3, s.csr[k]? = some b.getCsr ∧ s.al[k]? = some b.getAL ∧ b0.setCsr b.getCsr = some b1 ∧
      b1.setWeights s.w off = some b2 ∧ b2.setAL b.getAL = .ok b3 ∧ sBlockLearned b3 = sBlockLearned b ∧
      sBlockRest b3 = sBlockRest b0 ∧ b3.fast = b0.fast := by
  obtain ⟨b1, a1, a2, a3, a4⟩ := getCsr_setCsr b b0 hs.1
  have hw : s.w.drop off = b.clauses.map (·.w) ++ (bs.flatMap (·.clauses)).map (·.w) := by
    rw [h.w]; simp
  have l1 : b1.clauses.length = b.clauses.length := by
    have := congrArg List.length a2; simpa using this
  obtain ⟨b2, c1, c2, c3, c4⟩ := setWeights_of b1 s.w off _ _ hw (by simp [l1]) (Or.inr h.off)
  have n1 : b1.nClasses = b0.nClasses := by rw [a4]
  have n2 : b2.nClasses = b0.nClasses := by rw [c4]; exact n1
  have g1 : b1.al = b0.al := by rw [a4]
  have g2 : b2.al = b0.al := by rw [c4]; exact g1
  obtain ⟨b3, d1, d2, d3, d4⟩ := setAL_of b2 b.getAL (by simp [SBlock.getAL, n2, hs.2.1])
    (by rw [g2, n2, hs.2.2]) (by
      intro p hp q hq
      obtain ⟨p', hp', rfl⟩ := List.mem_map.mp hp
      obtain ⟨q', hq', rfl⟩ := List.mem_map.mp hq
      exact he p' hp' q' hq')
  have cl3 : b3.clauses = b2.clauses := by rw [d4]
  have l2 : b2.clauses.length = b.clauses.length := by
    have := congrArg List.length c2; simpa using this
  refine ⟨b1, b2, b3, ?_, ?_, a1, c1, d1, ?_, ?_, ?_⟩
  · have := congrArg (·[0]?) h.csr
    simpa using this
  · have := congrArg (·[0]?) h.al
    simpa using this
  · unfold sBlockLearned
    rw [d2, cl3]
    refine Prod.ext ?_ rfl
    simp only
    apply List.ext_getElem (by simp [l2])
    intro i i1 i2
    simp only [List.length_map] at i1 i2
    have j1 : i < b1.clauses.length := by omega
    have e1 := congrArg (·[i]?) c2
    have e2 := congrArg (·[i]?) c3
    have e3 := congrArg (·[i]?) a2
    simp only [List.getElem?_map, List.getElem?_eq_getElem i1, List.getElem?_eq_getElem i2,
      List.getElem?_eq_getElem j1, Option.map_some, Option.some.injEq, Prod.mk.injEq] at e1 e2 e3
    simp [sLearned, e1, e2, e3]
  · have e1 : b2.clauses.map (fun c => (c.out, c.cnt)) = b0.clauses.map (fun c => (c.out, c.cnt)) := by
      have x1 := congrArg (List.map (fun t : Half × Half × Nat × Nat => (t.2.2.1, t.2.2.2))) c3
      have x2 := congrArg (List.map (fun t : List Int × Nat × Nat => (t.2.1, t.2.2))) a3
      simp only [List.map_map, Function.comp_def] at x1 x2
      rw [x1, x2]
    unfold sBlockRest
    rw [d3, cl3, e1, g2, show b3.nLits = b0.nLits by rw [d4, c4, a4], show b3.nClasses = b0.nClasses by rw [d4]; exact n2,
      show b3.cfg = b0.cfg by rw [d4, c4, a4], show b3.votes = b0.votes by rw [d4, c4, a4]]
  · rw [d4, c4, a4]

theorem sSaveLoop_eq (s : SparseSt) (bs bs0 : List SBlock) (k off : Nat) (h : HasBlocks s bs k off)
    (hl : bs.length = bs0.length) (hs : ∀ p ∈ bs.zip bs0, SameShape p.1 p.2) (he : ∀ b ∈ bs, EvenAL b) :
    ∃ bs', sSaveLoop s bs0 k off = (bs', .ok ()) ∧ bs'.map sBlockLearned = bs.map sBlockLearned ∧
      bs'.map sBlockRest = bs0.map sBlockRest ∧ bs'.map (·.fast) = bs0.map (·.fast) := by
  induction bs generalizing bs0 k off with
  | nil =>
    have : bs0 = [] := by simpa using hl.symm
    subst this
    exact ⟨[], rfl, rfl, rfl, rfl⟩
  | cons b bs ih =>
    cases bs0 with
    | nil => simp at hl
    | cons b0 bs0 =>
      have hsh := hs (b, b0) (by simp)
      obtain ⟨b1, b2, b3, x1, x2, x3, x4, x5, x6, x7, x8⟩ := saveOne s b b0 bs k off h hsh (he b (by simp))
      obtain ⟨bs', y1, y2, y3, y4⟩ := ih bs0 (k + 1) (off + b.clauses.length) (hasBlocks_tail h)
        (by simpa using hl) (fun p hp => hs p (by simp [hp])) (fun b hb => he b (by simp [hb]))
      refine ⟨b3 :: bs', ?_, by simp [x6, y2], by simp [x7, y3], by simp [x8, y4]⟩
      rw [sSaveLoop, x1, x2]
      simp only [x3, x4, x5]
      rw [← hsh.1, y1]

end GT
