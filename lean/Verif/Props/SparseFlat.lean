import Verif.Lemmas.SparseFlat
import Verif.Props.Sparse

/-!
# C82: the sparse backend stays inside its vectors

The functions of src/func_sparse.hpp are modelled twice: clause by clause on lists of pairs in `Verif.Model.Sparse`, where all properties
of the sparse machine are proved, and on the separate vectors of literals and states in `Verif.Model.SparseFlat`, where an access outside a
container, an overflow of `int` and an exception of `at` are `none`. The two agree if the row numbers and the positions of the weights are
`int`s, there is room for an active literal, and labels are classes of the block.
-/

namespace GT
open Spec FlatMem SparseMem

/-- Initialisation is defined and sets up the vectors of the block `initSparse` describes. -/
theorem C82_initialize (nLits nClauses nClasses : Nat) (cfg : SCfg) (g : Rng) (fastOf : Nat → Rng) (junk : Nat → Int)
    (junkC : Nat → Nat) (seed : Nat) (hs : SSmall nClauses nClasses) :
    (FlatS.constructed nClauses nClasses cfg g).initialize fastOf junk junkC seed =
      some ((initSparse nLits nClauses nClasses cfg fastOf junkC seed).map flattenS) := by
  rw [flat_init nLits (FlatS.constructed nClauses nClasses cfg g) rfl rfl rfl fastOf junk junkC seed hs]
  show some ((initSparse nLits nClauses nClasses cfg fastOf junkC seed).map _) = _
  congr 1
  unfold initSparse
  split
  · rfl
  · split
    · rfl
    · simp [flattenS, resizeC, FlatS.constructed]

/-- Initialisation is defined exactly if the row numbers and the positions of the weights are `int`s. -/
theorem C82_initialize_defined_iff (nClauses nClasses : Nat) (cfg : SCfg) (g : Rng) (fastOf : Nat → Rng) (junk : Nat → Int)
    (junkC : Nat → Nat) (seed : Nat) (hseed : seed ≠ 0) (hb : cfg.budget ≠ some 0) :
    (∃ r, (FlatS.constructed nClauses nClasses cfg g).initialize fastOf junk junkC seed = some r) ↔ SSmall nClauses nClasses := by
  constructor
  · rintro ⟨r, hr⟩
    unfold FlatS.initialize at hr
    rw [if_neg hseed, if_neg (by exact hb)] at hr
    obtain ⟨_, h1, hr⟩ := bind_inv hr
    obtain ⟨_, h2, hr⟩ := bind_inv hr
    have g1 := (i32_inv h1).2.2
    have g2 := (i32_inv h2).2.2
    simp only [FlatS.constructed] at g1 g2
    refine ⟨by omega, ?_⟩
    have : (((nClauses * nClasses : Nat)) : Int) < 2147483648 := by push_cast; exact g2
    omega
  · intro hs
    exact ⟨_, C82_initialize 0 nClauses nClasses cfg g fastOf junk junkC seed hs⟩

/-- Any history of training and evaluation is defined on the vectors and leaves them as the clause-by-clause description says. Missing from
the full claim: labels that are no classes (`C82_update_defined_iff`) and an active-literal list without room
(`C82_no_room_for_active_literals_throws`). -/
theorem C82_history_partial (b : SBlock) (hb : SBlockShaped b) (hs : SSmall b.clauses.length b.nClasses) (ops : List BlockOp)
    (ho : ∀ op ∈ ops, SOpOk b.nClasses op) : (flattenS b).run ops = some (flattenS (sRun b ops)) :=
  (flat_run ops b hb hs ho).1

/-- From the constructor and `initialize(seed)` on: no call ever leaves the vectors or throws, whatever the seed, the random draws, the
examples, the feedback and the order of the calls. The two vectors of vectors stay in step: `2 * nClauses` rows, in each of them one state
per literal, the literals strictly increasing and at most `clause_size` of them. -/
theorem C82_from_initialize_partial (nClauses nClasses : Nat) (cfg : SCfg) (g : Rng) (fastOf : Nat → Rng) (junk : Nat → Int)
    (junkC : Nat → Nat) (seed : Nat) (hseed : seed ≠ 0) (hbud : cfg.budget ≠ some 0) (hs : SSmall nClauses nClasses)
    (ha : cfg.dynamicAL = true → 0 < cfg.alSize) (ops : List BlockOp) (ho : ∀ op ∈ ops, SOpOk nClasses op) :
    ∃ m m' : FlatS, (FlatS.constructed nClauses nClasses cfg g).initialize fastOf junk junkC seed = some (some m) ∧ m.run ops = some m' ∧
      m'.rows.length = 2 * nClauses ∧ m'.states.length = 2 * nClauses ∧
      (∀ (i : Nat) (r : List Nat) (s : List Int), m'.rows[i]? = some r → m'.states[i]? = some s →
        s.length = r.length ∧ r.Pairwise (· < ·) ∧ r.length ≤ cfg.clauseSize) := by
  have hi : ∃ b, initSparse 0 nClauses nClasses cfg fastOf junkC seed = some b := by
    unfold initSparse
    rw [if_neg hseed, if_neg hbud]
    exact ⟨_, rfl⟩
  obtain ⟨b, hb⟩ := hi
  obtain ⟨s1, s2, s3, s4⟩ := init_shaped 0 nClauses nClasses cfg fastOf junkC seed b hb ha
  obtain ⟨r1, r2, r3, r4⟩ := flat_run ops b s1 (by rw [s2, s3]; exact hs) (by rw [s2]; exact ho)
  have ht := C36_every_history_partial 0 nClauses nClasses cfg fastOf junkC seed b hb ops
  refine ⟨flattenS b, flattenS (sRun b ops), ?_, r1, by simp [flattenS, r3, s3]; omega, by simp [flattenS, r3, s3]; omega, ?_⟩
  · rw [C82_initialize 0 _ _ _ _ _ _ _ _ hs, hb]; rfl
  · intro i r s hr hst
    simp only [flattenS] at hr hst
    have key : ∀ h : Half, SortedHalf h → h.length ≤ cfg.clauseSize → r = h.map (·.1) → s = h.map (·.2) →
        s.length = r.length ∧ r.Pairwise (· < ·) ∧ r.length ≤ cfg.clauseSize := by
      intro h h1 h2 e1 e2
      subst e1 e2
      exact ⟨by simp, (sortedHalf_lits h).mp h1, by simpa using h2⟩
    by_cases hlt : i < (sRun b ops).clauses.length
    · rw [List.getElem?_append_left (by simpa using hlt), List.getElem?_map, List.getElem?_eq_getElem hlt] at hr hst
      have hc := ht _ (List.getElem_mem hlt)
      exact key _ hc.1 hc.2.2.1 (Option.some.inj hr).symm (Option.some.inj hst).symm
    · rw [List.getElem?_append_right (by simpa using hlt), List.getElem?_map, List.length_map] at hr hst
      cases hc : (sRun b ops).clauses[i - (sRun b ops).clauses.length]? with
      | none => rw [hc] at hr; simp at hr
      | some c =>
        rw [hc] at hr hst
        have hc' := ht c (List.mem_of_getElem? hc)
        exact key _ hc'.2.1 hc'.2.2.2.1 (Option.some.inj hr).symm (Option.some.inj hst).symm

/-- A training update is defined exactly if both classes are classes of the block: the lists of active literals of both are addressed for
every clause, whether or not the clause is updated. -/
theorem C82_update_defined_iff (b : SBlock) (hb : SBlockShaped b) (hs : SSmall b.clauses.length b.nClasses) (hne : b.clauses ≠ [])
    (x : List Nat) (fb : Feedback) :
    (∃ m, (flattenS b).trainUpdate x fb = some m) ↔ fb.posClass < b.nClasses ∧ fb.negClass < b.nClasses := by
  constructor
  · rintro ⟨m, hm⟩
    obtain ⟨c, cs, hcs⟩ := List.exists_cons_of_ne_nil hne
    have hn : (flattenS b).nClauses = cs.length + 1 := by simp [flattenS, hcs]
    unfold FlatS.trainUpdate at hm
    rw [hn, forLoop] at hm
    obtain ⟨m1, h1, -⟩ := bind_inv hm
    have := trainBody_class h1
    have hal : (flattenS b).al.length = b.nClasses := by simp [flattenS, hb.al]
    rw [hal] at this
    exact this
  · intro h
    exact ⟨_, (flat_apply b hb hs (.trainUpdate x fb) h).1⟩

/-- A block of two clauses and two classes, for the examples below. -/
def twoSparse (cfg : SCfg) (al : AL) : SBlock where
  nLits := 4
  nClasses := 2
  cfg := cfg
  clauses := [⟨[(0, 3), (2, -1)], [(1, -2)], [1, -1], 0, 0⟩, ⟨[(3, 2)], [], [2, 1], 0, 0⟩]
  al := al
  votes := [0, 0]
  fast := ⟨fun _ => 1 / 4, 0⟩

/-- With a list of active literals that may hold none and is replaced dynamically, training throws: `at(0)` of an empty vector. (A
`SparseTsetlinMachine` refuses such a size, a clause block does not.) -/
theorem C82_no_room_for_active_literals_throws :
    (flattenS (twoSparse ⟨some 9, true, true, 1/2, 1/2, 3, 0, -20⟩ [([], 0), ([], 0)])).run
      [.trainExample [0, 1, 3], .trainUpdate [0, 1, 3] ⟨0, 1/2, 1, 1/2⟩] = none := by
  decide +kernel

/-- Non-vacuity: a block that meets the hypotheses of `C82_history_partial`; the same calls are defined and change rows, states, weights and
active literals. -/
example : SBlockShaped (twoSparse ⟨some 9, true, true, 1/2, 1/2, 3, 2, -20⟩ [([2], 0), ([], 1)]) ∧ SSmall 2 2 ∧
    (((flattenS (twoSparse ⟨some 9, true, true, 1/2, 1/2, 3, 2, -20⟩ [([2], 0), ([], 1)])).run
      [.trainExample [0, 1, 3], .trainUpdate [0, 1, 3] ⟨0, 1/2, 1, 1/2⟩]).map fun m : FlatS => ((m.rows, m.states), m.weights, m.al)) =
      some (([[0, 2], [3], [1], [1, 3]], [[5, -3], [3], [-4], [-15, -15]]), [2, -2, 3, 0], [[1, 0], [1, 3]]) := by
  refine ⟨⟨?_, rfl, rfl, ?_⟩, ⟨by decide, by decide⟩, ?_⟩
  · intro c hc
    simp only [twoSparse, List.mem_cons, List.not_mem_nil, or_false] at hc
    rcases hc with rfl | rfl <;> rfl
  · intro a ha _
    simp only [twoSparse, List.mem_cons, List.not_mem_nil, or_false] at ha
    rcases ha with rfl | rfl <;> simp [twoSparse]
  · decide +kernel

/-! ## Cleaning up and starting again -/

/-- A block that was cleaned up and is initialised again is a fresh block, except that it keeps the active literals it had. -/
theorem C82_reinitialize (nLits : Nat) (b : SBlock) (hb : SBlockShaped b) (hs : SSmall b.clauses.length b.nClasses)
    (fastOf : Nat → Rng) (junk : Nat → Int) (junkC : Nat → Nat) (seed : Nat) :
    (flattenS b).cleanup.initialize fastOf junk junkC seed =
      some ((initSparse nLits b.clauses.length b.nClasses b.cfg fastOf junkC seed).map fun b' =>
        flattenS { b' with al := b.al.map fun a => (a.1, 0) }) := by
  have hc : (flattenS b).cleanup.counts = [] := by
    simp only [FlatS.cleanup, flattenS]
    split
    · rfl
    · rfl
  rw [flat_init nLits (flattenS b).cleanup rfl rfl hc fastOf junk junkC seed hs]
  show some ((initSparse nLits b.clauses.length b.nClasses b.cfg fastOf junkC seed).map _) = _
  have hal : resizeC (flattenS b).cleanup.al (flattenS b).cleanup.nClasses = b.al.map (·.1) := by
    have : (flattenS b).cleanup.al = b.al.map (·.1) := rfl
    rw [this]
    have : (flattenS b).cleanup.nClasses = b.al.length := hb.al.symm
    rw [this]
    unfold resizeC
    rw [List.take_of_length_le (by simp)]
    simp
  rw [hal]
  congr 1
  unfold initSparse
  split
  · rfl
  · split
    · rfl
    · simp [flattenS, Function.comp_def, ← hb.al]

/-- Training goes on inside the vectors after a cleanup and a new initialisation, whatever happened before: every history, cleanup,
initialisation and further history is defined. -/
theorem C82_second_run_partial (nClauses nClasses : Nat) (cfg : SCfg) (g : Rng) (fastOf : Nat → Rng) (junk junk' : Nat → Int)
    (junkC junkC' : Nat → Nat) (seed seed' : Nat) (hseed : seed ≠ 0) (hseed' : seed' ≠ 0) (hbud : cfg.budget ≠ some 0)
    (hs : SSmall nClauses nClasses) (ha : cfg.dynamicAL = true → 0 < cfg.alSize) (ops ops' : List BlockOp)
    (ho : ∀ op ∈ ops, SOpOk nClasses op) (ho' : ∀ op ∈ ops', SOpOk nClasses op) :
    ∃ m m' m2 m2' : FlatS, (FlatS.constructed nClauses nClasses cfg g).initialize fastOf junk junkC seed = some (some m) ∧
      m.run ops = some m' ∧ m'.cleanup.initialize fastOf junk' junkC' seed' = some (some m2) ∧ m2.run ops' = some m2' ∧
      m2'.rows.length = 2 * nClauses ∧ m2'.states.length = 2 * nClauses := by
  have hi : ∀ (jc : Nat → Nat) (sd : Nat), sd ≠ 0 → ∃ b, initSparse 0 nClauses nClasses cfg fastOf jc sd = some b := by
    intro jc sd hsd
    unfold initSparse
    rw [if_neg hsd, if_neg hbud]
    exact ⟨_, rfl⟩
  obtain ⟨b, hb⟩ := hi junkC seed hseed
  obtain ⟨s1, s2, s3, s4⟩ := init_shaped 0 nClauses nClasses cfg fastOf junkC seed b hb ha
  obtain ⟨r1, r2, r3, r4⟩ := flat_run ops b s1 (by rw [s2, s3]; exact hs) (by rw [s2]; exact ho)
  obtain ⟨c, hc⟩ := hi junkC' seed' hseed'
  obtain ⟨t1, t2, t3, t4⟩ := init_shaped 0 nClauses nClasses cfg fastOf junkC' seed' c hc ha
  have hcfg : (sRun b ops).cfg = cfg := by rw [run_cfg, s4]
  have hre := C82_reinitialize 0 (sRun b ops) r2 (by rw [r3, s3, r4, s2]; exact hs) fastOf junk' junkC' seed'
  rw [r3, s3, r4, s2, hcfg, hc] at hre
  have hsh : SBlockShaped { c with al := (sRun b ops).al.map fun a => (a.1, 0) } :=
    ⟨t1.weights, by show (List.map _ _).length = c.nClasses; rw [List.length_map, r2.al, r4, s2, t2], t1.votes, by
      intro a h hd
      obtain ⟨a', -, rfl⟩ := List.mem_map.mp h
      show 0 < c.cfg.alSize
      rw [t4]
      exact ha (by rw [← t4]; exact hd)⟩
  obtain ⟨u1, u2, u3, u4⟩ := flat_run ops' _ hsh (by show SSmall c.clauses.length c.nClasses; rw [t2, t3]; exact hs)
    (by show ∀ op ∈ ops', SOpOk c.nClasses op; rw [t2]; exact ho')
  refine ⟨flattenS b, _, _, _, ?_, r1, hre, u1, ?_, ?_⟩
  · rw [C82_initialize 0 _ _ _ _ _ _ _ _ hs, hb]; rfl
  · simp only [flattenS, List.length_append, List.length_map, u3, t3]; omega
  · simp only [flattenS, List.length_append, List.length_map, u3, t3]; omega

/-- So it is not a fresh block: after one training step and a cleanup, a block initialised with the same seed starts with active literals,
which a fresh one does not. -/
theorem C82_stale_active_literals :
    ((((flattenS (exSBlock exSCfg3)).run (exStep [0, 1] 0 1 1)).bind fun m =>
      m.cleanup.initialize (fun _ => exQuarter) (fun _ => 0) (fun _ => 0) 1).map fun r => r.map (·.al)) = some (some [[], [0, 1]]) ∧
    (((FlatS.constructed 1 2 exSCfg3 exQuarter).initialize (fun _ => exQuarter) (fun _ => 0) (fun _ => 0) 1).map fun r =>
      r.map (·.al)) = some (some [[], []]) := by
  constructor <;> decide +kernel

/-! ## Taking the clauses out and putting them back -/

/-- Taking the clauses out reads inside the vectors and gives the arrays `getCsr` describes, if all tracked literals together can be counted
by an `int`. -/
theorem C82_get_state (b : SBlock) (hn : b.clauses.length * 2 < 2147483648)
    (hs : (b.clauses.map fun c => c.pos.length + c.neg.length).sum < 2147483648) :
    (flattenS b).getCsr = some b.getCsr := getCsr_eq b hn hs

/-- Arrays with as many rows as the block has are put back as `setCsr` describes. -/
theorem C82_set_state (b : SBlock) (a : CsrArr) (h : a.indptr.length = 2 * b.clauses.length + 1) :
    (flattenS b).setCsr a = (b.setCsr a).map flattenS := setCsr_eq b a h

/-- Putting back fewer rows than the block has, such as the state of a smaller machine, is accepted, but the next evaluation or training
call reads outside the vectors. -/
theorem C82_fewer_rows_outside (b : SBlock) (a : CsrArr) (m : FlatS) (hm : (flattenS b).setCsr a = some m)
    (h : a.indptr.length < 2 * b.clauses.length + 1) (x : List Nat) :
    m.apply (.trainExample x) = none ∧ m.apply (.evalExample x) = none := by
  unfold FlatS.setCsr at hm
  split at hm
  · simp at hm
  · next hne =>
    obtain ⟨rows, hr, hm⟩ := bind_inv hm
    have hrl : ∀ (ps : List Nat) (rows : List Half), csrRows a ps = some rows → rows.length = ps.length - 1 := by
      intro ps
      induction ps with
      | nil => intro rows h; simp only [csrRows, Option.some.injEq] at h; simp [← h]
      | cons p ps ih =>
        intro rows h
        cases ps with
        | nil => simp only [csrRows, Option.some.injEq] at h; simp [← h]
        | cons q ps =>
          rw [csrRows] at h
          split at h
          · next r rs h1 h2 =>
            have := ih rs h2
            simp only [Option.some.injEq] at h
            rw [← h]
            simp only [List.length_cons] at this ⊢
            omega
          · simp at h
    have hl := hrl _ _ hr
    have hpos : 0 < a.indptr.length := List.length_pos_iff.mpr hne
    obtain rfl := (Option.some.inj hm).symm
    have := outputs_short x { flattenS b with rows := rows.map (·.map (·.1)), states := rows.map (·.map (·.2)) }
      (by simp [flattenS]; omega)
    exact ⟨by show (_ >>= _) = none; rw [this.1]; rfl, by show (_ >>= _) = none; rw [this.2]; rfl⟩

/-- Non-vacuity: the state of a machine with one clause, put into a block with two. -/
example : ((flattenS (twoSparse exSCfg3 [([], 0), ([], 0)])).setCsr ⟨[5, -1], [1, 2], [0, 1, 2]⟩).map (fun m => (m.rows, m.states)) =
    some ([[1], [2]], [[5], [-1]]) := by decide +kernel

end GT
