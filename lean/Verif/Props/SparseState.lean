import Verif.Lemmas.SparseRules
import Verif.Props.SparseExec
import Verif.Props.Predictor

/-!
# C29, C50, C52, C62: sparse states, their transfer, files and rule sets
-/

namespace GT
open Spec

/-! ## C29 -/

/-- C29: what is read from a block are CSR arrays of its rows, the positive halves of all clauses followed by the
negated halves. -/
theorem C29_get (b : SBlock) :
    Denotes b.getCsr (b.clauses.map (·.pos) ++ b.clauses.map (·.neg)) ∧ ValidCsr b.getCsr := by
  have hd := csrLoop_denotes b.rows
  refine ⟨hd, ?_⟩
  obtain ⟨h1, h2, h3, h4⟩ := hd
  have hz : (csrLoop b.rows 0).indptr[0]? = some 0 := by
    have := h4 0 (by omega); simpa using this
  refine ⟨?_, ?_, ?_, ?_⟩
  · show (csrLoop b.rows 0).indices.length = (csrLoop b.rows 0).data.length
    rw [h1, h2, List.length_map, List.length_map]
  · rw [List.head?_eq_getElem?]; exact hz
  · rw [List.pairwise_iff_getElem]
    intro i j (hi : i < (csrLoop b.rows 0).indptr.length) (hj : j < (csrLoop b.rows 0).indptr.length) hij
    have hj' : j < b.rows.length + 1 := by rw [← h3]; exact hj
    have e1 := h4 i (by omega)
    have e2 := h4 j (by omega)
    rw [List.getElem?_eq_getElem hi, Option.some.injEq] at e1
    rw [List.getElem?_eq_getElem hj, Option.some.injEq] at e2
    show (csrLoop b.rows 0).indptr[i] ≤ (csrLoop b.rows 0).indptr[j]
    rw [e1, e2]
    have hij' : i ≤ j := by omega
    rw [show b.rows.take i = (b.rows.take j).take i by rw [List.take_take, Nat.min_eq_left hij']]
    conv => rhs; rw [← List.take_append_drop i (b.rows.take j)]
    rw [List.map_append, List.sum_append]
    omega
  · rw [List.getLast?_eq_getElem?]
    show (csrLoop b.rows 0).indptr[(csrLoop b.rows 0).indptr.length - 1]? = some (csrLoop b.rows 0).data.length
    rw [h3, Nat.add_sub_cancel, h4 _ (Nat.le_refl _), h1, List.take_length, List.length_map]
    simp

/-- C29: setting a block from any valid CSR arrays with two rows per clause and reading them back gives the same
arrays; weights, outputs, counts, active literals, configuration and random stream are left alone. -/
theorem C29_set_then_get (b : SBlock) (a : CsrArr) (hv : ValidCsr a) (hr : a.indptr.length = 2 * b.clauses.length + 1) :
    ∃ b', b.setCsr a = some b' ∧ b'.getCsr = a ∧
      b'.clauses.map (fun c => (c.w, c.out, c.cnt)) = b.clauses.map (fun c => (c.w, c.out, c.cnt)) ∧
      b' = { b with clauses := b'.clauses } := by
  obtain ⟨rows, h1, h2⟩ := valid_denotes a hv
  obtain ⟨b', e1, e2, -, e4, e5⟩ := setRows_rows b rows (by omega)
  refine ⟨b', by rw [setCsr_denotes b a rows h1, e1], ?_, e4, e5⟩
  rw [SBlock.getCsr, e2, ← denotes_eq a rows h1]

/-- C29: reading a block and setting another block with as many clauses from the arrays gives it the same clauses. -/
theorem C29_get_then_set (b b0 : SBlock) (h : b.clauses.length = b0.clauses.length) :
    ∃ b', b0.setCsr b.getCsr = some b' ∧
      b'.clauses.map (fun c => (c.pos, c.neg)) = b.clauses.map (fun c => (c.pos, c.neg)) ∧
      b' = { b0 with clauses := b'.clauses } := by
  obtain ⟨b', h1, h2, -, h4⟩ := getCsr_setCsr b b0 h
  exact ⟨b', h1, h2, h4⟩

/-- A block with two clauses; the second clause has an empty positive half. -/
def exCsrBlock : SBlock :=
  ⟨6, 2, exSCfg, [⟨[(0, 3), (4, -2)], [(1, 5)], [1, -4], 0, 0⟩, ⟨[], [(3, 0)], [2, 2], 1, 0⟩],
    [([5], 0), ([0], 0)], [0, 0], exQuarter⟩

example : exCsrBlock.getCsr = ⟨[3, -2, 5, 0], [0, 4, 1, 3], [0, 2, 2, 3, 4]⟩ := by decide +kernel

example : ValidCsr ⟨[1, 2], [7, 3], [0, 0, 1, 1, 2]⟩ := ⟨rfl, rfl, by decide, rfl⟩

/-! ## C62 -/

/-- C62: the state read from blocks `bs` and written to blocks `bs0` with the same numbers of clauses and classes gives
every block the clauses, weights and active literals of the block it came from and changes nothing else - provided
the active-literal lists of each block all have the same length. Missing from the full claim: blocks whose lists
differ in length (`C62_uneven_active_literals_fail`), machines with another number of blocks
(`C62_more_blocks_fail`), the replace index of the active literals (`C62_replace_index_lost`). -/
theorem C62_transfer_partial (nLits nClauses nClasses : Nat) (bs bs0 : List SBlock)
    (hn : (bs.flatMap (·.clauses)).length = nClauses) (hl : bs.length = bs0.length)
    (hs : ∀ p ∈ bs.zip bs0, p.1.clauses.length = p.2.clauses.length ∧ p.1.al.length = p.2.nClasses ∧
      p.2.al.length = p.2.nClasses)
    (he : ∀ b ∈ bs, EvenAL b) :
    ∃ bs', sSave (sLoad nLits nClauses nClasses bs) bs0 = (bs', .ok ()) ∧
      bs'.map sBlockLearned = bs.map sBlockLearned ∧ bs'.map sBlockRest = bs0.map sBlockRest ∧
      bs'.map (·.fast) = bs0.map (·.fast) := by
  rw [sLoad_eq nLits nClauses nClasses bs hn]
  exact sSaveLoop_eq _ bs bs0 0 0 ⟨by simp, by simp, by simp, by simp⟩ hl hs he

example : EvenAL exCsrBlock := by unfold EvenAL; decide

/-- A fresh block with the shape of `exCsrBlock`. -/
def exCsrFresh : SBlock :=
  ⟨6, 2, exSCfg, [⟨[], [], [1, 1], 0, 0⟩, ⟨[], [], [-1, 1], 0, 0⟩], [([], 0), ([], 0)], [0, 0], exQuarter⟩

example : ∃ bs', sSave (sLoad 6 2 2 [exCsrBlock]) [exCsrFresh] = (bs', .ok ()) ∧
    bs'.map sBlockLearned = [exCsrBlock].map sBlockLearned := by
  obtain ⟨bs', h1, h2, -⟩ := C62_transfer_partial 6 2 2 [exCsrBlock] [exCsrFresh] rfl rfl
    (by simp [exCsrBlock, exCsrFresh]) (by
      intro b hb
      rw [List.mem_singleton.mp hb]
      unfold EvenAL; decide)
  exact ⟨bs', h1, h2⟩

/-- C62 fails for every state whose active-literal lists differ in length in the first block: the call ends with a
TypeError after the clauses and weights of that block have been replaced and before its active literals have. -/
theorem C62_uneven_active_literals_fail (nLits nClauses nClasses : Nat) (b b0 : SBlock) (bs bs0 : List SBlock)
    (hn : ((b :: bs).flatMap (·.clauses)).length = nClauses) (hs : b.clauses.length = b0.clauses.length)
    (he : ¬ EvenAL b) :
    ∃ b', sSave (sLoad nLits nClauses nClasses (b :: bs)) (b0 :: bs0) = (b' :: bs0, .error (.py .typeError)) ∧
      b'.clauses.map sLearned = b.clauses.map sLearned ∧ b'.al = b0.al := by
  rw [sLoad_eq nLits nClauses nClasses _ hn]
  obtain ⟨b1, a1, a2, a3, a4⟩ := getCsr_setCsr b b0 hs
  have l1 : b1.clauses.length = b.clauses.length := by
    have := congrArg List.length a2; simpa using this
  obtain ⟨b2, c1, c2, c3, c4⟩ := setWeights_of b1 (((b :: bs).flatMap (·.clauses)).map (·.w)) 0
    (b.clauses.map (·.w)) ((bs.flatMap (·.clauses)).map (·.w)) (by simp) (by simp [l1]) (Or.inr (by simp))
  have hbad : b2.setAL b.getAL = .error (.py .typeError) := by
    unfold SBlock.setAL
    rw [if_pos]
    apply Classical.byContradiction
    intro hne
    apply he
    rw [Bool.not_eq_true, List.any_eq_false] at hne
    intro p hp q hq
    have h1 := hne p.1 (List.mem_map.mpr ⟨p, hp, rfl⟩)
    have h2 := hne q.1 (List.mem_map.mpr ⟨q, hq, rfl⟩)
    simp only [bne_iff_ne, ne_eq, Decidable.not_not] at h1 h2
    rw [h1, h2]
  refine ⟨b2, ?_, ?_, by rw [c4]; show b1.al = _; rw [a4]⟩
  · unfold sSave
    rw [sSaveLoop]
    simp only [List.map_cons, List.getElem?_cons_zero, a1]
    rw [c1]
    simp only
    rw [hbad]
  · have l2 : b2.clauses.length = b.clauses.length := by
      have := congrArg List.length c2; simpa using this
    apply List.ext_getElem (by simp [l2])
    intro i i1 i2
    simp only [List.length_map] at i1 i2
    have j1 : i < b1.clauses.length := by omega
    have e1 := congrArg (·[i]?) c2
    have e2 := congrArg (·[i]?) c3
    have e3 := congrArg (·[i]?) a2
    simp only [List.getElem?_map, List.getElem?_eq_getElem i1, List.getElem?_eq_getElem i2,
      List.getElem?_eq_getElem j1, Option.map_some, Option.some.injEq, Prod.mk.injEq] at e1 e2 e3
    simp [sLearned, e1, e2, e3]

/-- Such a state is reached from a fresh block by training on one example. -/
theorem C62_uneven_reached : ∃ ops, ¬ EvenAL (sRun (exSBlock exSCfg) ops) := by
  refine ⟨exStep [0, 1] 0 1 1, ?_⟩
  have : (sRun (exSBlock exSCfg) (exStep [0, 1] 0 1 1)).al = [([], 0), ([0, 1], 0)] := by decide +kernel
  unfold EvenAL
  rw [this]
  decide

/-- A state with fewer blocks than the machine is never taken over: the call fails, whatever the state. -/
theorem C62_more_blocks_fail (s : SparseSt) (bs0 : List SBlock) (h : s.csr.length < bs0.length) :
    ∃ e, (sSave s bs0).2 = .error e := by
  suffices hs : ∀ (bs0 : List SBlock) (k off : Nat), s.csr.length < bs0.length + k →
      k ≤ s.csr.length → ∃ e, (sSaveLoop s bs0 k off).2 = .error e from hs bs0 0 0 (by simpa using h) (by omega)
  intro bs0
  induction bs0 with
  | nil => intro k off h1 h2; simp at h1; omega
  | cons b bs ih =>
    intro k off h1 h2
    rw [sSaveLoop]
    split
    · next a rows ha _ =>
      have hk := (List.getElem?_eq_some_iff.mp ha).1
      split
      · exact ⟨_, rfl⟩
      · split
        · exact ⟨_, rfl⟩
        · split
          · exact ⟨_, rfl⟩
          · exact ih (k + 1) _ (by simp at h1; omega) (by omega)
    · exact ⟨_, rfl⟩

/-- The state of a machine with one block, written to a machine with the same clauses in two blocks: an IndexError,
and the clause of the first block has got the positive half of the other clause as its negated half. -/
theorem C62_other_split_mixes_rows :
    ∃ b' b1, sSave (sLoad 6 2 2 [exCsrBlock]) [{ exCsrFresh with clauses := exCsrFresh.clauses.take 1 },
        { exCsrFresh with clauses := exCsrFresh.clauses.drop 1 }] = ([b', b1], .error (.py .indexError)) ∧
      b'.clauses.map sLearned = [([(0, 3), (4, -2)], [], [1, -4])] := by
  refine ⟨⟨6, 2, exSCfg, [⟨[(0, 3), (4, -2)], [], [1, -4], 0, 0⟩], [([5], 0), ([0], 0)], [0, 0], exQuarter⟩,
    { exCsrFresh with clauses := exCsrFresh.clauses.drop 1 }, ?_, rfl⟩
  rfl

/-- A state with too few rows for the block leaves the block in a state where the next call reads out of bounds. -/
theorem C62_too_few_rows_undefined (s : SparseSt) (b : SBlock) (bs : List SBlock) (a : CsrArr) (rows : List Half)
    (al : List (List Nat)) (ha : s.csr[0]? = some a) (hal : s.al[0]? = some al) (hd : Denotes a rows)
    (h : rows.length < 2 * b.clauses.length) : (sSave s (b :: bs)).2 = .error .undefined := by
  unfold sSave
  rw [sSaveLoop, ha, hal]
  simp only
  rw [setCsr_denotes b a rows hd, SBlock.setRows, if_pos h]

/-- A state with fewer rows of weights than the blocks have clauses together is never taken over: the call fails. -/
theorem C62_too_few_weights_fail (s : SparseSt) (bs0 : List SBlock) (h : s.w.length < (bs0.map (·.clauses.length)).sum) :
    ∃ e, (sSave s bs0).2 = .error e := by
  suffices hs : ∀ (bs0 : List SBlock) (k off : Nat), s.w.length < off + (bs0.map (·.clauses.length)).sum →
      off ≤ s.w.length → ∃ e, (sSaveLoop s bs0 k off).2 = .error e from hs bs0 0 0 (by omega) (by omega)
  intro bs0
  induction bs0 with
  | nil => intro k off h1 h2; simp at h1; omega
  | cons b bs ih =>
    intro k off h1 h2
    rw [sSaveLoop]
    split
    · split
      · exact ⟨_, rfl⟩
      · next b1 hb1 =>
        have hl : b1.clauses.length = b.clauses.length := setCsr_length b b1 _ hb1
        split
        · exact ⟨_, rfl⟩
        · next b2 hb2 =>
          have hw : off + b.clauses.length ≤ s.w.length := by
            unfold SBlock.setWeights at hb2
            split at hb2
            · simp at hb2
            · omega
          split
          · exact ⟨_, rfl⟩
          · exact ih (k + 1) _ (by simp at h1; omega) hw
    · exact ⟨_, rfl⟩

example : (sSave { sLoad 6 2 2 [exCsrBlock] with w := [[1, 2]] } [exCsrFresh]).2 = .error .undefined := rfl

/-- C62: the replace index of the active literals is not part of the state. Two blocks with the same clauses, weights,
active literals, random stream and configuration - one trained, one made from its state - have different active
literals after the same training step. -/
theorem C62_replace_index_lost :
    ∃ b b0 b' x fb, EvenAL b ∧ (sSave (sLoad 6 1 2 [b]) [b0]) = ([b'], .ok ()) ∧
      sBlockLearned b' = sBlockLearned b ∧ b'.cfg = b.cfg ∧
      (SBlock.apply { b' with fast := b.fast } (.trainUpdate x fb)).al.map (·.1) ≠
        (b.apply (.trainUpdate x fb)).al.map (·.1) := by
  let cfg : SCfg := { exSCfg with dynamicAL := true }
  let b : SBlock := ⟨6, 2, cfg, [⟨[], [], [1, 1], 1, 0⟩], [([3, 1], 1), ([0, 2], 0)], [0, 0], exQuarter⟩
  let b0 : SBlock := ⟨6, 2, cfg, [⟨[], [], [-1, 1], 0, 0⟩], [([], 0), ([], 0)], [0, 0], exQuarter⟩
  let b' : SBlock := ⟨6, 2, cfg, [⟨[], [], [1, 1], 0, 0⟩], [([3, 1], 0), ([0, 2], 0)], [0, 0], exQuarter⟩
  refine ⟨b, b0, { b' with clauses := [⟨[], [], [1, 1], 0, 0⟩] }, [5], ⟨0, 1, 1, 0⟩, ?_, rfl, rfl, rfl, ?_⟩
  · unfold EvenAL; decide
  · decide +kernel

/-! ## C50, sparse files -/

/-- C50 is false for sparse machines whose blocks all have the same number of clauses - every machine trained with one
job among them: a state saved to a file and loaded again can neither be written into the blocks (TypeError, nothing
changed) nor compiled to rules (AttributeError). -/
theorem C50_sparse_equal_blocks_file_unusable (nLits nClauses nClasses : Nat) (b : SBlock) (bs : List SBlock)
    (b0 : SBlock) (bs0 : List SBlock) (hn : ((b :: bs).flatMap (·.clauses)).length = nClauses)
    (he : ∀ d ∈ bs, d.clauses.length = b.clauses.length) (ml : Bool) :
    sSaveLoadedLoop ((sLoad nLits nClauses nClasses (b :: bs)).viaFile nLits) (b0 :: bs0) 0 0 =
      (b0 :: bs0, .error (.py .typeError)) ∧
    compileLoaded ml nClasses ((sLoad nLits nClauses nClasses (b :: bs)).viaFile nLits) = .error .attributeError := by
  rw [sLoad_eq nLits nClauses nClasses _ hn]
  have hp : (((b :: bs).map (·.getCsr)).map (·.indptr)).any
      (fun r' => r'.length != ((((b :: bs).map (·.getCsr)).map (·.indptr)).headD []).length) = false := by
    rw [List.any_eq_false]
    intro r hr
    rw [List.map_map] at hr
    obtain ⟨d, hd, rfl⟩ := List.mem_map.mp hr
    have hdl : d.clauses.length = b.clauses.length := by
      rcases List.mem_cons.mp hd with h | h
      · rw [h]
      · exact he d h
    simp only [List.map_cons, List.headD_cons, Function.comp, SBlock.getCsr, csrLoop_indptr_length, rows_length, hdl]
    simp
  constructor
  · rw [sSaveLoadedLoop]
    simp only [SparseSt.viaFile, viaFile, List.map_cons, List.getElem?_cons_zero]
    simp only [List.map_cons] at hp
    rw [hp]
    simp [SBlock.setLoaded]
  · unfold compileLoaded
    rw [if_neg]
    simp only [SparseSt.viaFile, viaFile]
    rw [hp]
    simp

example : compileLoaded false 2 ((sLoad 6 2 2 [exCsrBlock]).viaFile 6) = .error .attributeError :=
  (C50_sparse_equal_blocks_file_unusable 6 2 2 exCsrBlock [] exCsrFresh [] rfl (by simp) false).2

/-- The rows differ in length somewhere. -/
def Ragged {α : Type} (rows : List (List α)) : Prop := ∃ r ∈ rows, ∃ q ∈ rows, r.length ≠ q.length

theorem ragged_any {α : Type} (rows : List (List α)) (h : Ragged rows) :
    rows.any (fun r' => r'.length != (rows.headD []).length) = true := by
  apply Classical.byContradiction
  intro hne
  rw [Bool.not_eq_true, List.any_eq_false] at hne
  obtain ⟨r, hr, q, hq, hd⟩ := h
  have h1 := hne r hr
  have h2 := hne q hq
  simp only [bne_iff_ne, ne_eq, Decidable.not_not] at h1 h2
  exact hd (h1.trans h2.symm)

/-- C50, sparse files: when the blocks differ in their numbers of clauses and of tracked literals, the loaded state
does exactly what the saved one would have done, both when written into blocks and when compiled. Missing from the full
claim: the states of `C50_sparse_equal_blocks_file_unusable`. -/
theorem C50_sparse_file_partial (s : SparseSt) (n : Nat) (hn : s.nLits = some n)
    (h1 : Ragged (s.csr.map (·.data))) (h2 : Ragged (s.csr.map (·.indices))) (h3 : Ragged (s.csr.map (·.indptr)))
    (bs0 : List SBlock) (ml : Bool) (nClasses : Nat) :
    sSaveLoadedLoop (s.viaFile n) bs0 0 0 = sSave s bs0 ∧
      compileLoaded ml nClasses (s.viaFile n) = compileSparse ml nClasses s := by
  have e1 := ragged_any _ h1
  have e2 := ragged_any _ h2
  have e3 := ragged_any _ h3
  have f1 : (s.viaFile n).data = s.csr.map (fun a => ⟨true, a.data⟩) := by
    simp only [SparseSt.viaFile, viaFile, e1, List.map_map]; rfl
  have f2 : (s.viaFile n).indices = s.csr.map (fun a => ⟨true, a.indices⟩) := by
    simp only [SparseSt.viaFile, viaFile, e2, List.map_map]; rfl
  have f3 : (s.viaFile n).indptr = s.csr.map (fun a => ⟨true, a.indptr⟩) := by
    simp only [SparseSt.viaFile, viaFile, e3, List.map_map]; rfl
  constructor
  · unfold sSave
    suffices hs : ∀ k off, sSaveLoadedLoop (s.viaFile n) bs0 k off = sSaveLoop s bs0 k off from hs 0 0
    induction bs0 with
    | nil => intro k off; rfl
    | cons b bs ih =>
      intro k off
      rw [sSaveLoadedLoop, sSaveLoop, f1, f2, f3]
      simp only [List.getElem?_map]
      cases ha : s.csr[k]? with
      | none => rfl
      | some a =>
        simp only [Option.map_some]
        have : (s.viaFile n).al = s.al := rfl
        rw [this]
        cases s.al[k]? with
        | none => rfl
        | some rows =>
          simp only [SBlock.setLoaded, Bool.and_self, if_true]
          cases hb : b.setCsr a with
          | none => rfl
          | some b1 =>
            simp only
            have : (s.viaFile n).w = s.w := rfl
            rw [this]
            cases b1.setWeights s.w off with
            | none => rfl
            | some b2 =>
              simp only
              cases b2.setAL rows with
              | error e => rfl
              | ok b3 => simp only [ih]
  · unfold compileLoaded
    rw [if_pos (by rw [f3]; simp)]
    have : (s.viaFile n).values = s := by
      unfold LoadedSt.values
      rw [f1, f2, f3]
      have hz : ∀ l : List CsrArr, ((l.map (fun a => (⟨true, a.data⟩ : PyRow Int))).zip
          ((l.map (fun a => (⟨true, a.indices⟩ : PyRow Nat))).zip (l.map (fun a => (⟨true, a.indptr⟩ : PyRow Nat))))).map
            (fun t => (⟨t.1.vals, t.2.1.vals, t.2.2.vals⟩ : CsrArr)) = l := by
        intro l
        induction l with
        | nil => rfl
        | cons a l ih => simp only [List.map_cons, List.zip_cons_cons, ih]
      rw [hz]
      cases s
      simp only at hn
      simp only [SparseSt.viaFile, hn]
    rw [this]

example : ∃ s : SparseSt, s.nLits = some 6 ∧ Ragged (s.csr.map (·.data)) ∧ Ragged (s.csr.map (·.indices)) ∧
    Ragged (s.csr.map (·.indptr)) :=
  ⟨sLoad 6 3 2 [exCsrBlock, ⟨6, 2, exSCfg, [⟨[(2, 1)], [], [3, 3], 0, 0⟩], [([], 0), ([], 0)], [0, 0], exQuarter⟩],
    rfl, ⟨_, List.mem_cons_self .., _, List.mem_cons_of_mem _ (List.mem_cons_self ..), by decide⟩,
    ⟨_, List.mem_cons_self .., _, List.mem_cons_of_mem _ (List.mem_cons_self ..), by decide⟩,
    ⟨_, List.mem_cons_self .., _, List.mem_cons_of_mem _ (List.mem_cons_self ..), by decide⟩⟩

/-! ## C52 -/

/-- C52: the rule set compiled from the state of any blocks with sorted halves: every rule lists, in increasing order,
the literals with a state above 0 of some clause; rules are distinct and not empty; every clause with such a literal
and a weight other than 0 has its rule. -/
theorem C52_rules (ml : Bool) (m nClauses n : Nat) (bs : List SBlock)
    (hn : (bs.flatMap (·.clauses)).length = nClauses) (h : ∀ b ∈ bs, ∀ c ∈ b.clauses, SClauseOK m n c) :
    ∃ rs, compileSparse ml n (sLoad m nClauses n bs) = .ok rs ∧ rs.nLits = m ∧ rs.nClasses = n ∧
      rs.rules.Nodup ∧ rs.weights.length = rs.rules.length ∧
      (∀ r ∈ rs.rules, r ≠ [] ∧ r.Pairwise (· < ·) ∧ ∃ b ∈ bs, ∃ c ∈ b.clauses, ListsAbove m (sLearned c) r) ∧
      (∀ b ∈ bs, ∀ c ∈ b.clauses, (∃ t, Above c.pos t ∨ Above c.neg t) → (∃ v ∈ c.w, v ≠ 0) →
        ∃ r ∈ rs.rules, ListsAbove m (sLearned c) r) := by
  have h' : ∀ c ∈ bs.flatMap (·.clauses), SClauseOK m n c := by
    intro c hc
    obtain ⟨b, hb, hcb⟩ := List.mem_flatMap.mp hc
    exact h b hb c hcb
  rw [sLoad_eq m nClauses n bs hn]
  obtain ⟨rs, h1, h2⟩ := compileSparse_eq ml m n bs h' ⟨some m, (bs.flatMap (·.clauses)).map (·.w),
    bs.map (·.getCsr), bs.map (·.getAL)⟩ rfl rfl rfl
  have hw := aboveState_shaped m n _ h'
  obtain ⟨rs', e1, e2, e3, -⟩ := C23_compiles ml _ hw
  rw [h2] at e1
  obtain rfl := Except.ok.inj e1
  obtain ⟨g1, g2, g3, -⟩ := C23_well_formed ml _ hw rs h2
  obtain ⟨k1, k2⟩ := C23_rules_are_clauses ml _ hw rs h2
  refine ⟨rs, h1, e2, e3, g1, g2, ?_, ?_⟩
  · intro r hr
    refine ⟨(g3 r hr).1, (g3 r hr).2.1, ?_⟩
    obtain ⟨d, hd, hi⟩ := k1 r hr
    rw [aboveState_clauses] at hd
    obtain ⟨c, hc, rfl⟩ := List.mem_map.mp hd
    obtain ⟨b, hb, hcb⟩ := List.mem_flatMap.mp hc
    exact ⟨b, hb, c, hcb, (lists_above m n c (h' c hc) r).mp hi⟩
  · intro b hb c hcb hab hnz
    have hc : c ∈ bs.flatMap (·.clauses) := List.mem_flatMap.mpr ⟨b, hb, hcb⟩
    obtain ⟨hp, hq, hlb, -⟩ := h' c hc
    obtain ⟨r, hr, hi⟩ := k2 (denseRow m (aboveHalf c.pos), denseRow m (aboveHalf c.neg), c.w)
      (by rw [aboveState_clauses]; exact List.mem_map.mpr ⟨c, hc, rfl⟩)
      (by
        rintro ⟨z1, z2⟩
        obtain ⟨t, ht | ht⟩ := hab
        · exact z1 t ((included_above m _ hp hlb.1 t).mpr ht)
        · exact z2 t ((included_above m _ hq hlb.2 t).mpr ht)) hnz
    exact ⟨r, hr, (lists_above m n c (h' c hc) r).mp hi⟩

/-- C52: the votes of the compiled rules are, in 16-bit arithmetic, those of the clauses whose literals above 0 hold
(at least one) - and exactly those when no group of clauses with the same such literals has weights that add up to
something outside 16 bits. -/
theorem C52_votes (ml : Bool) (m nClauses n : Nat) (bs : List SBlock)
    (hn : (bs.flatMap (·.clauses)).length = nClauses) (h : ∀ b ∈ bs, ∀ c ∈ b.clauses, SClauseOK m n c)
    (rs : Rules) (hc : compileSparse ml n (sLoad m nClauses n bs) = .ok rs) (x : List Nat) (k : Nat) (hk : k < n) :
    wrap16 (ruleSum rs.nLits rs.rules rs.weights x k) =
      wrap16 (aboveSum ((bs.flatMap (·.clauses)).map sLearned) x k) ∧
    ((∀ r j, j < n → -32768 ≤ aboveSame m ((bs.flatMap (·.clauses)).map sLearned) r j ∧
        aboveSame m ((bs.flatMap (·.clauses)).map sLearned) r j ≤ 32767) →
      ruleSum rs.nLits rs.rules rs.weights x k = aboveSum ((bs.flatMap (·.clauses)).map sLearned) x k) := by
  have h' : ∀ c ∈ bs.flatMap (·.clauses), SClauseOK m n c := by
    intro c hc
    obtain ⟨b, hb, hcb⟩ := List.mem_flatMap.mp hc
    exact h b hb c hcb
  rw [sLoad_eq m nClauses n bs hn] at hc
  obtain ⟨rs', h1, h2⟩ := compileSparse_eq ml m n bs h' ⟨some m, (bs.flatMap (·.clauses)).map (·.w),
    bs.map (·.getCsr), bs.map (·.getAL)⟩ rfl rfl rfl
  rw [h1] at hc
  obtain rfl := Except.ok.inj hc
  have hw := aboveState_shaped m n _ h'
  constructor
  · rw [C22_votes_mod ml _ hw _ h2 x k hk, firingSum_above m n _ h']
  · intro hf
    rw [C22_votes_exact ml _ hw ?_ _ h2 x k hk, firingSum_above m n _ h']
    intro r j hj
    show -32768 ≤ sameClauseSum m _ r j ∧ sameClauseSum m _ r j ≤ 32767
    rw [sameClauseSum_above m n _ h']
    exact hf r j hj

example : ∀ b ∈ [exCsrBlock], ∀ c ∈ b.clauses, SClauseOK 6 2 c := by
  intro b hb c hc
  rw [List.mem_singleton.mp hb] at hc
  simp only [exCsrBlock, List.mem_cons, List.not_mem_nil, or_false] at hc
  rcases hc with rfl | rfl <;> exact ⟨by decide, by decide, by decide, rfl⟩

example : compileSparse false 2 (sLoad 6 2 2 [exCsrBlock]) = .ok ⟨6, 2, false, [[0, 7]], [[1, -4]]⟩ := by
  decide +kernel

/-- C52: the predictor compiled from the state of a sparse machine predicts what the machine predicts, provided that no
tracked state is exactly 0 and the clauses meet the conditions of C37 on the examples (literals tracked on both sides,
at least one included, the last tracked positive literal included or not beyond the example), and no sum leaves 16
bits. Missing from the full claim: the clauses of the three counterexamples that follow, all reached by training. -/
theorem C52_predictor_agrees_partial (m nClauses n : Nat) (e : Exec SBlock) (hs : SSetUp n e)
    (hn : (e.blocks.flatMap (·.clauses)).length = nClauses) (data : List (List Nat))
    (hx : ∀ x ∈ data, SortedEx x)
    (hc : ∀ b ∈ e.blocks, ∀ c ∈ b.clauses, SClauseOK m n c ∧ c.pos ≠ [] ∧ c.neg ≠ [] ∧
      (∃ t, On c.pos t ∨ On c.neg t) ∧ (∀ p ∈ c.pos, p.2 ≠ 0) ∧ (∀ p ∈ c.neg, p.2 ≠ 0) ∧
      ∀ x ∈ data, ∀ t, IsLast c.pos t → On c.pos t ∨ ∃ l ∈ x, t ≤ l)
    (hf : ∀ r j, j < n → -32768 ≤ aboveSame m (sModel e) r j ∧ aboveSame m (sModel e) r j ≤ 32767)
    (hv : ∀ x ∈ data, ∀ k, k < n → -32768 ≤ sFiringSum (sModel e) x k ∧ sFiringSum (sModel e) x k ≤ 32767)
    (ml : Bool) (rs : Rules) (hcomp : compileSparse ml n (sLoad m nClauses n e.blocks) = .ok rs)
    (s : String) (excl : Bool) (p : Predictor) (hpr : Predictor.fromRuleset rs s excl = .ok p)
    (cs : List Call) (hnames : (afterCalls p cs).names = none) :
    ∃ ks, (Exec.evalPredict sparseBackend data data.length e).2 = some ks ∧ ks.length = data.length ∧
      ∀ (i : Nat) (x : List Nat) (k : Nat), data[i]? = some x → ks[i]? = some k →
        ((afterCalls p cs).predict (denseEx m x)).2 = .ok (.idx k) := by
  obtain ⟨ks, a1, a2, a3⟩ := C17_sparse_batch_predictions n e data hs hx
  refine ⟨ks, a1, a2, ?_⟩
  intro i x k hi hk
  have hd : x ∈ data := List.mem_of_getElem? hi
  have h' : ∀ c ∈ e.blocks.flatMap (·.clauses), SClauseOK m n c := by
    intro c hc'
    obtain ⟨b, hb, hcb⟩ := List.mem_flatMap.mp hc'
    exact (hc b hb c hcb).1
  rw [sLoad_eq m nClauses n e.blocks hn] at hcomp
  obtain ⟨rs', h1, h2⟩ := compileSparse_eq ml m n e.blocks h' ⟨some m, (e.blocks.flatMap (·.clauses)).map (·.w),
    e.blocks.map (·.getCsr), e.blocks.map (·.getAL)⟩ rfl rfl rfl
  rw [h1] at hcomp
  obtain rfl := Except.ok.inj hcomp
  have hw := aboveState_shaped m n _ h'
  have hsum : ∀ j, firingSum (stateClauses (aboveState m n (e.blocks.flatMap (·.clauses)))) (denseEx m x) j =
      sFiringSum (sModel e) x j :=
    firingSum_above_sparse m n _ x (fun c hcm => by
      obtain ⟨b, hb, hcb⟩ := List.mem_flatMap.mp hcm
      obtain ⟨q1, q5, q6, q7, q8, q9, q10⟩ := hc b hb c hcb
      exact ⟨q1, q5, q6, q7, q8, q9, q10 x hd⟩)
  obtain ⟨k', hk', hl'⟩ := predictor_lowestMax m n (stateClauses (aboveState m n (e.blocks.flatMap (·.clauses))))
    (aboveState m n (e.blocks.flatMap (·.clauses))) hw rfl rfl hs.classes (List.Perm.refl _) (by
      intro r j hj
      show -32768 ≤ sameClauseSum m _ r j ∧ sameClauseSum m _ r j ≤ 32767
      rw [sameClauseSum_above m n _ h']
      exact hf r j hj) ml _ h2 s excl p hpr cs hnames (denseEx m x) ⟨denseEx_binary m x, denseEx_length m x⟩ (by
      intro j hj
      rw [hsum j]
      exact hv x hd j hj)
  have hvotes : modelVotes n (stateClauses (aboveState m n (e.blocks.flatMap (·.clauses)))) (denseEx m x) =
      sModelVotes n (sModel e) x := by
    unfold modelVotes sModelVotes
    exact List.map_congr_left (fun j _ => by rw [hsum j])
  rw [hvotes] at hl'
  rw [hk', lowestMax_unique (a3 i x k hi hk) hl']

/-- A machine with one two-sided clause without zero states meets the conditions, and it votes. -/
example : (Exec.evalPredict sparseBackend [[0, 3]] 1
    ⟨FB.new 2 5 exQuarter, [⟨6, 2, exSCfg, [⟨[(0, 3)], [(1, 5)], [1, 4], 0, 0⟩], [([], 0), ([], 0)], [0, 0],
      exQuarter⟩], []⟩).2 = some [1] ∧
    (∀ c ∈ [(⟨[(0, 3)], [(1, 5)], [1, 4], 0, 0⟩ : SClause)], SClauseOK 6 2 c ∧ c.pos ≠ [] ∧ c.neg ≠ [] ∧
      (∃ t, On c.pos t ∨ On c.neg t) ∧ (∀ p ∈ c.pos, p.2 ≠ 0) ∧ (∀ p ∈ c.neg, p.2 ≠ 0) ∧
      ∀ x ∈ [[0, 3]], ∀ t, IsLast c.pos t → On c.pos t ∨ ∃ l ∈ x, t ≤ l) := by
  refine ⟨by decide +kernel, ?_⟩
  intro c hc
  rw [List.mem_singleton.mp hc]
  refine ⟨⟨by decide, by decide, by decide, rfl⟩, by simp, by simp, ⟨0, Or.inl ⟨3, by simp, by decide⟩⟩, by decide,
    by decide, ?_⟩
  intro x _ t ht
  simp [IsLast] at ht
  subst ht
  exact Or.inl ⟨3, by simp, by decide⟩

/-- An executor with one block with this history. -/
def exRun (ops : List BlockOp) : Exec SBlock := ⟨FB.new 2 5 exQuarter, [sRun (exSBlock exSCfg) ops], []⟩

/-- What the machine and the predictor compiled from it say about one example. -/
def exBoth (ops : List BlockOp) (x : List Nat) : Option (List Nat) × Option Target :=
  ((Exec.evalPredict sparseBackend [x] 1 (exRun ops)).2,
    match compileSparse false 2 (sLoad 6 1 2 (exRun ops).blocks) with
    | .ok rs =>
      match Predictor.fromRuleset rs "none" false with
      | .ok p => match (p.predict (denseEx 6 x)).2 with
        | .ok r => some r
        | .error _ => none
      | .error _ => none
    | .error _ => none)

/-- C52 fails when a state is exactly 0: the backend includes the literal, the rule does not. Three training steps from
a fresh block lead to a machine that predicts class 1 where its predictor predicts class 0. -/
theorem C52_state_zero_disagrees :
    ∃ ops x, (exRun ops).blocks.map (·.clauses.map sLearned) = [[([(1, 0)], [(0, 0)], [-1, 0])]] ∧
      exBoth ops x = (some [1], some (.idx 0)) :=
  ⟨exStep [0, 1] 0 1 1 ++ exStep [0] 1 0 1 ++ exStep [1] 1 0 0, [1], by decide +kernel, by decide +kernel⟩

/-- C52 fails for a clause that tracks literals on one side only: it never fires in the backend, its rule does. -/
theorem C52_one_sided_disagrees :
    ∃ ops x, (exRun ops).blocks.map (·.clauses.map sLearned) = [[([(0, 1)], [], [-2, 0])]] ∧
      exBoth ops x = (some [0], some (.idx 1)) :=
  ⟨exStep [0, 4] 1 0 1 ++ exStep [3] 0 1 1 ++ exStep [0] 1 0 1, [0], by decide +kernel, by decide +kernel⟩

/-- C52 fails for a clause that tracks only excluded literals: it always fires in the backend and has no rule. -/
theorem C52_all_excluded_disagrees :
    ∃ ops x, (exRun ops).blocks.map (·.clauses.map sLearned) = [[([(1, -1)], [(0, -1)], [-1, 0])]] ∧
      exBoth ops x = (some [1], some (.idx 0)) :=
  ⟨exStep [0, 1] 0 1 1 ++ exStep [0] 1 0 1 ++ exStep [1] 1 0 0 ++ exStep [] 1 0 0, [1], by decide +kernel,
    by decide +kernel⟩

/-- C52: a copy of a state has lost the number of literals. The rules compiled from the copy take it from the greatest
literal of the first block, so the literals of the other blocks may turn into negated ones. -/
theorem C52_copy_changes_rules :
    ∃ s, compileSparse false 2 s = .ok ⟨6, 2, false, [[1], [4]], [[1, 2], [3, 4]]⟩ ∧
      compileSparse false 2 s.copy = .ok ⟨2, 2, false, [[1], [4]], [[1, 2], [3, 4]]⟩ :=
  ⟨sLoad 6 2 2 [⟨6, 2, exSCfg, [⟨[(1, 3)], [], [1, 2], 0, 0⟩], [([], 0), ([], 0)], [0, 0], exQuarter⟩,
    ⟨6, 2, exSCfg, [⟨[(4, 3)], [], [3, 4], 0, 0⟩], [([], 0), ([], 0)], [0, 0], exQuarter⟩],
    by decide +kernel, by decide +kernel⟩

end GT
