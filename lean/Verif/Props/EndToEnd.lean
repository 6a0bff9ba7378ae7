import Verif.Lemmas.EndToEnd
import Verif.Spec.EndToEnd

/-! # From training to the delivered predictor and program (C69) -/

namespace GT
open Spec

section Portable
variable (m n : Nat) (init : Option (List (List Int × List Int × List Int)) → Exec DBlock)
  (smp : List Rat → Rat → Nat) (shuffle : Nat → List Nat → List Nat) (metric : List Nat → List Nat → Rat)
  (tr ev : List (List Nat × Nat)) (t : Trainer (List (List Int × List Int × List Int)))
  (tm : Option (List (List Int × List Int × List Int)))

/-- C69, portable backend, for trainings with a score above -1: with `load_best_state`, the predictor made from the
machine after `train()` and the C program exported from it reproduce the reported best score on the evaluation data.
Missing: trainings without such a score, after which the machine has no state (`C31_low_scores_no_state`), and weight
sums beyond 16 bits (`C69_overflow_not_reproduced`). -/
theorem C69_best_score_partial (hi : SetUp m n (init tm)) (hx : ∀ d ∈ ev, Binary d.1 ∧ d.1.length = m)
    (hn : 1 ≤ t.nEpochs) (hl : t.loadBest = true) (r : Results)
    (hr : (t.trainInner (execEnv init smp shuffle metric tr ev) tm).1.results = some r)
    (hs : ∃ v ∈ r.evalLog, -1 < v) (cls : List (List Int × List Int × List Int))
    (hcls : (t.trainInner (execEnv init smp shuffle metric tr ev) tm).2 = some cls)
    (rs : Rules) (p : Predictor) (hd : DeliveredFrom m n cls (ev.map (·.1)) rs p) :
    Reproduces n metric ev p (simpleC rs) r.bestScore := by
  obtain ⟨k, h1, h2⟩ := reported_epoch _ (C31_portable_read_only init smp shuffle metric tr ev) t tm hn hl r hr hs
  rw [h1, Option.some.injEq] at hcls
  rw [h2]
  exact portable_reproduces m n init smp shuffle metric tr ev tm hi hx k cls hcls rs p hd

/-- C69, portable backend, without `load_best_state`: predictor and program reproduce the last score of the
evaluation log. -/
theorem C69_last_score (hi : SetUp m n (init tm)) (hx : ∀ d ∈ ev, Binary d.1 ∧ d.1.length = m)
    (hn : 1 ≤ t.nEpochs) (hl : t.loadBest = false) (r : Results)
    (hr : (t.trainInner (execEnv init smp shuffle metric tr ev) tm).1.results = some r)
    (cls : List (List Int × List Int × List Int))
    (hcls : (t.trainInner (execEnv init smp shuffle metric tr ev) tm).2 = some cls)
    (rs : Rules) (p : Predictor) (hd : DeliveredFrom m n cls (ev.map (·.1)) rs p) :
    ∃ score, r.evalLog.getLast? = some score ∧ Reproduces n metric ev p (simpleC rs) score := by
  obtain ⟨k, h1, h2⟩ := last_epoch _ (C31_portable_read_only init smp shuffle metric tr ev) t tm hn hl r hr
  rw [h1, Option.some.injEq] at hcls
  exact ⟨_, h2, portable_reproduces m n init smp shuffle metric tr ev tm hi hx k cls hcls rs p hd⟩

end Portable

section Avx2
variable (m n : Nat) (init : Option (List (List Int × List Int × List Int)) → Exec VBlock)
  (smp : List Rat → Rat → Nat) (shuffle : Nat → List Nat → List Nat) (metric : List Nat → List Nat → Rat)
  (tr ev : List (Mem × Nat)) (t : Trainer (List (List Int × List Int × List Int)))
  (tm : Option (List (List Int × List Int × List Int)))

/-- C69, AVX2 backend, for trainings with a score above -1: as `C69_best_score_partial`. -/
theorem C69_avx2_best_score_partial (hi : AvxSetUp m n (init tm)) (hx : ∀ d ∈ ev, Binary (unpadExample m d.1))
    (hn : 1 ≤ t.nEpochs) (hl : t.loadBest = true) (r : Results)
    (hr : (t.trainInner (avxEnv init smp shuffle metric tr ev) tm).1.results = some r)
    (hs : ∃ v ∈ r.evalLog, -1 < v) (cls : List (List Int × List Int × List Int))
    (hcls : (t.trainInner (avxEnv init smp shuffle metric tr ev) tm).2 = some cls)
    (rs : Rules) (p : Predictor) (hd : DeliveredFrom m n cls (ev.map fun d => unpadExample m d.1) rs p) :
    Reproduces n metric (ev.map fun d => (unpadExample m d.1, d.2)) p (simpleC rs) r.bestScore := by
  obtain ⟨r', b, h1, -, h3, -, h5⟩ := trainInner_spec (avxEnv init smp shuffle metric tr ev) t tm hn
  rw [h1] at hr hcls
  obtain rfl : r' = r := Option.some.inj hr
  obtain ⟨v, hv, hv1⟩ := hs
  rcases h5 with ⟨-, -, hlow, -⟩ | ⟨k, -, e2, e3, -, e4⟩
  · rw [h3] at hv
    obtain ⟨j, hj, rfl⟩ := List.mem_map.mp hv
    exact absurd hv1 (not_lt.mpr (hlow j (List.mem_range.mp hj)))
  · rw [hl] at e4 hcls
    simp only [if_true] at e4 hcls
    rw [e4, avx_afterEval_snap m n init smp shuffle metric tr ev tm hi, Option.some.injEq] at hcls
    rw [e3]
    exact avx_reproduces m n init smp shuffle metric tr ev tm hi hx k cls hcls rs p hd

/-- C69, AVX2 backend, without `load_best_state`: as `C69_last_score`. -/
theorem C69_avx2_last_score (hi : AvxSetUp m n (init tm)) (hx : ∀ d ∈ ev, Binary (unpadExample m d.1))
    (hn : 1 ≤ t.nEpochs) (hl : t.loadBest = false) (r : Results)
    (hr : (t.trainInner (avxEnv init smp shuffle metric tr ev) tm).1.results = some r)
    (cls : List (List Int × List Int × List Int))
    (hcls : (t.trainInner (avxEnv init smp shuffle metric tr ev) tm).2 = some cls)
    (rs : Rules) (p : Predictor) (hd : DeliveredFrom m n cls (ev.map fun d => unpadExample m d.1) rs p) :
    ∃ score, r.evalLog.getLast? = some score ∧
      Reproduces n metric (ev.map fun d => (unpadExample m d.1, d.2)) p (simpleC rs) score := by
  obtain ⟨r', b, h1, -, h3, h4, -⟩ := trainInner_spec (avxEnv init smp shuffle metric tr ev) t tm hn
  rw [h1] at hr hcls
  obtain rfl : r' = r := Option.some.inj hr
  obtain ⟨j, hj⟩ : ∃ j, r'.nEpochs = j + 1 := ⟨r'.nEpochs - 1, by rcases h4 with h4 | h4 <;> omega⟩
  rw [hl, hj] at hcls
  simp only [Bool.false_eq_true, if_false, Option.some.injEq] at hcls
  rw [avx_afterEval_snap m n init smp shuffle metric tr ev tm hi] at hcls
  refine ⟨scoreOf (avxEnv init smp shuffle metric tr ev) ((avxEnv init smp shuffle metric tr ev).start tm) j, ?_,
    avx_reproduces m n init smp shuffle metric tr ev tm hi hx j cls hcls rs p hd⟩
  rw [h3, hj, List.range_succ]
  simp

end Avx2

/-! ### The tree-shaped program -/

/-- C69: whatever score the plain program reproduces, the tree-shaped program reproduces too. -/
theorem C69_tree_program (m n : Nat) (cls : List (List Int × List Int × List Int)) (examples : List (List Nat))
    (metric : List Nat → List Nat → Rat) (ev : List (List Nat × Nat)) (hx : ∀ d ∈ ev, Binary d.1 ∧ d.1.length = m)
    (rs : Rules) (p : Predictor) (hd : DeliveredFrom m n cls examples rs p) (score : Rat)
    (h : Reproduces n metric ev p (simpleC rs) score)
    (pick : List Nat → List Nat → List (Nat × List Nat) → Nat × List Nat) (hpick : ChoosesEntry pick) :
    ∃ bound, ∀ fuel, bound < fuel → ∃ prog tree, topoC pick rs fuel [] = some (prog, tree) ∧
      Reproduces n metric ev p prog score := by
  obtain ⟨⟨st, ml, s, excl, p0, calls, hw, hm, hn, hcl, hf, hc, hp, rfl⟩, -, -⟩ := hd
  obtain ⟨h1, h2, h3⟩ := C25_compiled_rules_exportable ml st hw rs hc
  obtain ⟨-, h5, h6⟩ := compiled_ok ml st hw rs hc
  obtain ⟨b, hb⟩ := C26_tree_c pick hpick rs h1 h2 h3
  refine ⟨b, fun fuel hfuel => ?_⟩
  obtain ⟨prog, tree, h4, h7⟩ := hb fuel hfuel
  refine ⟨prog, tree, h4, ?_⟩
  obtain ⟨ks, k1, k2, k3⟩ := h
  refine ⟨ks, k1, ?_, k3⟩
  intro i d hi
  obtain ⟨k, e1, e2, e3⟩ := k2 i d hi
  have hd' := hx d (List.mem_of_getElem? hi)
  refine ⟨k, e1, e2, fun prev hprev => ?_⟩
  rw [h7 prev d.1 (by omega) hd'.1 (by omega)]
  exact e3 prev hprev

/-! ### The start of a training -/

/-- C69: the executor `train()` starts from, with fresh blocks, is one the theorems above apply to, and so it is when
the machine's earlier state is put back, which then is exactly what the executor holds. -/
theorem C69_start (m n : Nat) (h0 : 0 < n) (thr : Int) (g : Rng) (fastOf rngOf : Nat → Rng) (junk : Nat → Nat)
    (ls : List (Nat × Cfg)) (seed : Nat) (bs : List DBlock)
    (h : allocBlocks m n fastOf rngOf junk ls seed = some bs) :
    SetUp m n (startExec (FB.new n thr g) bs none) ∧
    ∀ st : List (List Int × List Int × List Int), (∀ t ∈ st, t.1.length = m ∧ t.2.1.length = m ∧ t.2.2.length = n) →
      st.length = (ls.map (·.1)).sum →
      SetUp m n (startExec (FB.new n thr g) bs (some st)) ∧ model (startExec (FB.new n thr g) bs (some st)) = st := by
  obtain ⟨h1, h2⟩ := allocBlocks_shape m n fastOf rngOf junk ls seed bs h
  refine ⟨⟨h0, rfl, by simp [startExec, FB.new], h1⟩, fun st hst hlen => ⟨⟨h0, rfl, by simp [startExec, FB.new],
    putState_shape m n bs h1 st hst⟩, ?_⟩⟩
  rw [← h2] at hlen
  exact putState_model bs st hlen

/-- C35, C69: the k-th block a training starts with is the one made from its own numbers and the seed `seed + k`. -/
theorem C35_trainer_seeds (m n : Nat) (fastOf rngOf : Nat → Rng) (junk : Nat → Nat) (ls : List (Nat × Cfg)) (seed : Nat)
    (bs : List DBlock) (h : allocBlocks m n fastOf rngOf junk ls seed = some bs) :
    bs.length = ls.length ∧
    ∀ k l, ls[k]? = some l → bs[k]? = initTM m l.1 n l.2 fastOf rngOf junk (seed + k) := by
  induction ls generalizing seed bs with
  | nil => simp only [allocBlocks, Option.some.injEq] at h; subst h; simp
  | cons a ls ih =>
    rw [allocBlocks] at h
    split at h
    · rename_i b bs' hb hbs
      simp only [Option.some.injEq] at h
      subst h
      obtain ⟨i1, i2⟩ := ih _ _ hbs
      refine ⟨by simp [i1], fun k l hk => ?_⟩
      cases k with
      | zero => simp at hk; subst hk; simpa using hb.symm
      | succ k =>
        simp at hk
        rw [List.getElem?_cons_succ, i2 k l hk]
        congr 1; omega
    · cases h

example : ∃ bs, allocBlocks 2 2 (fun k => ⟨fun _ => k, 0⟩) (fun k => ⟨fun _ => k, 0⟩) (fun _ => 0)
    [(2, exBlock1.cfg), (1, exBlock2.cfg)] 7 = some bs ∧ bs.map (·.rng.draw 0) = [7, 8] := ⟨_, rfl, rfl⟩

/-! ### A case that meets the hypotheses, and what the 16-bit condition excludes -/

/-- Two blocks whose random draws make every clause take part in every update. -/
def busyExec : Exec DBlock :=
  ⟨FB.new 2 50 ⟨fun _ => 0, 0⟩, [{ exBlock1 with rng := ⟨fun _ => 0, 0⟩, fast := ⟨fun _ => 0, 0⟩ },
    { exBlock2 with rng := ⟨fun _ => 0, 0⟩, fast := ⟨fun _ => 0, 0⟩ }], []⟩

/-- The share of right answers among two. -/
def halves (ys ks : List Nat) : Rat := (((ys.zip ks).filter fun p => p.1 == p.2).length : Rat) / 2

def busyEval : List (List Nat × Nat) := [([1, 0], 0), ([0, 1], 0)]

def busyEnv : Env (ExecS DBlock (List Nat)) (List (List Int × List Int × List Int)) :=
  execEnv (fun _ => busyExec) (fun _ _ => 1) (fun _ l => l) halves [([1, 0], 0), ([0, 1], 1)] busyEval

def busyTrainer : Trainer (List (List Int × List Int × List Int)) := ⟨2, 2, true, none, none⟩

def busyClauses : List (List Int × List Int × List Int) :=
  [([3, -5], [-4, -2], [4, -1]), ([-5, -2], [-1, -7], [5, 9]), ([-1, -1], [-1, -2], [-1, 2])]

/-- A training of two epochs of which the first is the better one, the second having spoilt the clauses: the
hypotheses of `C69_best_score_partial` are met. -/
example : SetUp 2 2 busyExec ∧ (∀ d ∈ busyEval, Binary d.1 ∧ d.1.length = 2) ∧
    (∃ r, (busyTrainer.trainInner busyEnv none).1.results = some r ∧ r.bestScore = 1 ∧ r.evalLog = [1, 1 / 2]) ∧
    (busyTrainer.trainInner busyEnv none).2 = some busyClauses ∧
    ∃ rs p, DeliveredFrom 2 2 busyClauses (busyEval.map (·.1)) rs p := by
  refine ⟨⟨by decide, rfl, rfl, ?_⟩, by decide, ⟨_, rfl, by decide +kernel, by decide +kernel⟩, by decide +kernel,
    ⟨2, 2, false, [[0]], [[4, -1]]⟩, ?_⟩
  · simp [busyExec, exBlock1, exBlock2, Shaped]
  · refine ⟨_, ⟨⟨2, 2, [[3, -5, -4, -2], [-5, -2, -1, -7], [-1, -1, -1, -2]], [[4, -1], [5, 9], [-1, 2]]⟩, false, "none",
      false, _, [], ⟨rfl, by decide, by decide⟩, rfl, rfl, rfl, mergesFit_of_bound _ (by decide), by decide +kernel, rfl,
      rfl⟩, rfl, ?_⟩
    intro x hx k hk
    have := firingSum_natAbs busyClauses x k
    have h2 : ∀ k < 2, ((busyClauses.map fun c => (c.2.2.getD k 0).natAbs).sum) ≤ 32767 := by decide
    have h3 := h2 k hk
    omega

/-- C69 is false without the 16-bit condition: this training reports a perfect score on an example that the delivered
predictor gets wrong. -/
theorem C69_overflow_not_reproduced :
    ∃ (init : Option (List (List Int × List Int × List Int)) → Exec DBlock) (st : DState) (rs : Rules) (p : Predictor)
      (r : Results) (t : Trainer (List (List Int × List Int × List Int))),
      SetUp 2 2 (init none) ∧
      (t.trainInner (execEnv init (fun _ _ => 0) (fun _ l => l) (fun ys ks => if ys = ks then 1 else 0) []
        [([1, 1], 1)]) none).1.results = some r ∧
      (t.trainInner (execEnv init (fun _ _ => 0) (fun _ l => l) (fun ys ks => if ys = ks then 1 else 0) []
        [([1, 1], 1)]) none).2 = some (stateClauses st) ∧
      r.bestScore = 1 ∧ WellShaped st ∧ compileDense false st = .ok rs ∧
      Predictor.fromRuleset rs "none" false = .ok p ∧ (p.predict [1, 1]).2 = .ok (.idx 0) ∧
      ¬ Reproduces 2 (fun ys ks => if ys = ks then 1 else 0) [([1, 1], 1)] p (simpleC rs) r.bestScore := by
  refine ⟨fun _ => wideExec, wideState, ⟨2, 2, false, [[0], [1]], [[30000, 0], [30000, 0]]⟩, _, _,
    ⟨1, 2, true, none, none⟩, ?_, rfl, by decide +kernel, by decide +kernel, ⟨rfl, by decide, by decide⟩,
    by decide +kernel, rfl, rfl, ?_⟩
  · refine ⟨by decide, rfl, rfl, ?_⟩
    simp [wideExec, Shaped]
  · rintro ⟨ks, h1, h2, h3⟩
    obtain ⟨k, e1, e2, -⟩ := h2 0 _ rfl
    have hk : k = 0 := by
      have := (Except.ok.inj e2)
      cases this
      rfl
    subst hk
    obtain ⟨k', rfl⟩ := List.length_eq_one_iff.mp h1
    obtain rfl : k' = 0 := by simpa using e1
    revert h3
    decide +kernel

end GT
