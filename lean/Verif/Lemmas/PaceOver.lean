import Verif.Lemmas.Pace

/-! # Lemmas: a training run in which a weight leaves its 16 bits (C106) -/

namespace GT.Pace
open GT GT.Spec

/-- `s = 10`, no budget. -/
def overCfg : Cfg := ⟨none, false, 1 / 10, 9 / 10⟩

/-- The generator of updates: the first weight is 1, the second -1, and all updates but the first of the negative class take place. -/
def overFast (k : Nat) : Rat := if k = 0 ∨ k = 3 then 99 / 100 else 0

/-- The generator of literals: the literal is included, its negation is not, and no state moves. -/
def overRng (k : Nat) : Rat := if k = 1 then 0 else 99 / 100

/-- A machine with one literal and two classes, whose weights are `w0` and `w1`. -/
def Over (w0 w1 : Int) (e : Exec DBlock) : Prop :=
  ∃ nl v0 v1 up pc nc pp np co tt hp idx o c vs fp rp, 4 ≤ fp ∧ 2 ≤ rp ∧
    e = ⟨⟨2, 40000, [v0, v1], up, pc, nc, pp, np, co, tt, ⟨fun _ => 1 / 2, hp⟩⟩,
      [⟨nl, 2, overCfg, [⟨[0], [-1], [w0, w1], o, c⟩], vs, ⟨overFast, fp⟩, ⟨overRng, rp⟩⟩], idx⟩

theorem wrap16_small {v : Int} (h1 : -32768 ≤ v) (h2 : v ≤ 32767) : wrap16 v = v := by unfold wrap16; omega

theorem clamp_bounds (v : Int) (h1 : -32768 ≤ v) (h2 : v ≤ 32767) : clampT 40000 v = v := by
  have h3 : ((-32768 : Int) : Rat) ≤ (v : Rat) := by exact_mod_cast h1
  have h4 : (v : Rat) ≤ ((32767 : Int) : Rat) := by exact_mod_cast h2
  unfold clampT
  rw [min_eq_right (le_trans h4 (by norm_num)), max_eq_right (le_trans (by norm_num) h3)]

theorem posProb_pos (v : Int) (h1 : -32768 ≤ v) (h2 : v ≤ 32767) : (0 : Rat) < (40000 - clampT 40000 v) / (2 * 40000) := by
  rw [clamp_bounds v h1 h2]
  have h4 : (v : Rat) ≤ ((32767 : Int) : Rat) := by exact_mod_cast h2
  have : ((32767 : Int) : Rat) < 40000 := by norm_num
  apply div_pos <;> [skip; norm_num]
  linarith

theorem negWeight_pos (v : Int) (h1 : -32768 ≤ v) (h2 : v ≤ 32767) : (0 : Rat) < negWeight 40000 v := by
  unfold negWeight
  rw [clamp_bounds v h1 h2]
  have h3 : ((-32768 : Int) : Rat) ≤ (v : Rat) := by exact_mod_cast h1
  have : (-40000 : Rat) < ((-32768 : Int) : Rat) := by norm_num
  have : (0 : Rat) < (40000 + (v : Rat)) / (2 * 40000) := by
    apply div_pos <;> [skip; norm_num]
    linarith
  have : (0 : Rat) < 1 / 10 ^ 16 := by norm_num
  linarith

theorem sample_second (w : Rat) (h : 0 < w) : discreteSample [0, w] (1 / 2) = 1 := by
  have h0 : ([0, w] : List Rat).sum = w := by simp
  have h1 : ¬ (1 / 2 * ([0, w] : List Rat).sum ≤ 0) := by
    rw [h0]; intro h'
    linarith
  have h2 : 1 / 2 * ([0, w] : List Rat).sum - 0 ≤ w := by rw [h0]; linarith
  simp only [discreteSample, discreteLoop]
  rw [if_neg h1, if_pos h2]

theorem overFast_late {k : Nat} (h : 4 ≤ k) : overFast k = 0 := by
  unfold overFast; rw [if_neg]; omega

theorem overRng_late {k : Nat} (h : 2 ≤ k) : overRng k = 99 / 100 := by
  unfold overRng; rw [if_neg]; omega

theorem over_t1a (rp : Nat) (h : 2 ≤ rp) : t1a overCfg [0] [-1] [1] ⟨overRng, rp⟩ = ([0], [-1], ⟨overRng, rp + 2⟩) := by
  have h1 : overRng rp = 99 / 100 := overRng_late h
  have h2 : overRng (rp + 1) = 99 / 100 := overRng_late (by omega)
  have h3 : ¬ ((99 / 100 : Rat) ≤ 9 / 10) := by norm_num
  have h4 : ¬ ((99 / 100 : Rat) ≤ 10⁻¹) := by norm_num
  simp [t1a, overCfg, Rng.next, h1, h2, h3, h4]

theorem over_update (w0 w1 : Int) (hw0 : 0 ≤ w0) (hw1 : w1 < 0) (o c rp : Nat) (ho : o = 1) (h : 2 ≤ rp) :
    clauseUpdate overCfg [1] 0 1 ⟨[0], [-1], [w0, w1], o, c⟩ ⟨overRng, rp⟩ = (⟨[0], [-1], [wrap16 (w0 + 1), w1], 1, c⟩, ⟨overRng, rp + 2⟩) ∧
    ∀ w, clauseUpdate overCfg [1] 1 (-1) ⟨[0], [-1], [w, w1], o, c⟩ ⟨overRng, rp⟩ =
      (⟨[0], [-1], [w, wrap16 (w1 - 1)], 1, c⟩, ⟨overRng, rp + 2⟩) := by
  subst ho
  have hn : ¬ (0 ≤ w1) := by omega
  constructor
  · simp [clauseUpdate, over_t1a rp h, hw0]
  · intro w
    simp [clauseUpdate, over_t1a rp h, hn, Int.sub_eq_add_neg]

theorem over_step {w0 w1 : Int} (h0 : 0 ≤ w0) (h0' : w0 ≤ 32767) (h1 : w1 < 0) (h1' : -32768 ≤ w1) {e : Exec DBlock} (h : Over w0 w1 e) :
    Over (wrap16 (w0 + 1)) (wrap16 (w1 - 1)) (e.trainOne denseBackend discreteSample [1] 0) := by
  obtain ⟨nl, v0, v1, up, pc, nc, pp, np, co, tt, hp, idx, o, c, vs, fp, rp, hf, hr, rfl⟩ := h
  have e0 : wrap16 w0 = w0 := wrap16_small (by omega) (by omega)
  have e1 : wrap16 w1 = w1 := wrap16_small (by omega) (by omega)
  have hs := sample_second _ (negWeight_pos w1 h1' (by omega))
  have p0 := posProb_pos w0 (by omega) h0'
  have p1 := negWeight_pos w1 h1' (by omega)
  have f0 : overFast fp = 0 := overFast_late hf
  have f1 : overFast (fp + 1) = 0 := overFast_late (by omega)
  obtain ⟨u0, -⟩ := over_update w0 w1 h0 h1 1 c rp rfl hr
  have u1 := fun w => (over_update w0 w1 h0 h1 1 c (rp + 2) rfl (by omega)).2 w
  have hset : setOutClause overCfg [1] ⟨[0], [-1], [w0, w1], o, c⟩ = ⟨[0], [-1], [w0, w1], 1, c⟩ := by
    simp [setOutClause, setOutLoop, overCfg]
  have hv : countVotes 2 [⟨[0], [-1], [w0, w1], 1, c⟩] = [w0, w1] := by
    simp [countVotes, addVotes, e0, e1, List.replicate]
  have hreg : ∀ f : FB, f.votes = [v0, v1] → f.nClasses = 2 → (f.reset.register [w0, w1]) = { f with votes := [w0, w1] } := by
    intro f hf1 hf2
    simp [FB.reset, FB.register, hf1, hf2, List.replicate, e0, e1]
  simp only [Exec.trainOne, exampleLoop, denseBackend, DBlock.apply, DBlock.trainSetOutput, DBlock.countVotes, List.map_cons, List.map_nil, hset, hv]
  rw [hreg _ rfl rfl]
  simp only [FB.process, Rng.next, List.map_cons, List.map_nil, List.set_cons_zero, hs, FB.feedback, if_true, DBlock.trainUpdate,
    trainClauses, trainClause, budgetGate, overCfg, List.getD_cons_zero, List.getD_cons_succ, f0, f1]
  rw [if_pos p0, if_pos p1]
  rw [show (⟨none, false, 1 / 10, 9 / 10⟩ : Cfg) = overCfg from rfl, u0, u1]
  exact ⟨nl, w0, w1, _, _, _, _, _, _, _, hp + 1, idx, 1, c, [w0, w1], fp + 2, rp + 4, by omega, by omega, rfl⟩

/-- The fresh machine. -/
def overStart : Exec DBlock :=
  ⟨FB.new 2 40000 ⟨fun _ => 1 / 2, 0⟩,
    [⟨1, 2, overCfg, [⟨[0], [-1], [1, -1], 0, 0⟩], [0, 0], ⟨overFast, 2⟩, ⟨overRng, 2⟩⟩], []⟩

theorem over_first : Over 2 (-1) (useOnce denseBackend discreteSample overStart (.epoch id [([1], 0)])).1 := by
  have e0 : wrap16 1 = 1 := by decide
  have e1 : wrap16 (-1) = -1 := by decide
  have hs := sample_second _ (negWeight_pos (-1) (by omega) (by omega))
  have p0 := posProb_pos 1 (by omega) (by omega)
  have p1 : ¬ ((99 / 100 : Rat) < negWeight 40000 (-1)) := by
    unfold negWeight
    rw [clamp_bounds (-1) (by omega) (by omega)]
    norm_num
  have f0 : overFast 2 = 0 := by decide +kernel
  have f1 : overFast (2 + 1) = 99 / 100 := by decide +kernel
  obtain ⟨u0, -⟩ := over_update 1 (-1) (by omega) (by omega) 1 0 2 rfl (by omega)
  have hset : setOutClause overCfg [1] ⟨[0], [-1], [1, -1], 0, 0⟩ = ⟨[0], [-1], [1, -1], 1, 0⟩ := by
    simp [setOutClause, setOutLoop, overCfg]
  have hv : countVotes 2 [⟨[0], [-1], [1, -1], 1, 0⟩] = [1, -1] := by decide
  have hreg : ∀ f : FB, f.votes = [0, 0] → f.nClasses = 2 → (f.reset.register [1, -1]) = { f with votes := [1, -1] } := by
    intro f hf1 hf2
    simp [FB.reset, FB.register, hf1, hf2, List.replicate, e0, e1]
  have hone : Over 2 (-1) (Exec.trainOne denseBackend discreteSample { overStart with fb := overStart.fb.resetCounter, index := [0] } [1] 0) := by
    simp only [overStart, Exec.trainOne, exampleLoop, denseBackend, DBlock.apply, DBlock.trainSetOutput, DBlock.countVotes, List.map_cons,
      List.map_nil, hset, hv]
    rw [hreg _ rfl rfl]
    simp only [FB.process, FB.resetCounter, FB.new, Rng.next, List.map_cons, List.map_nil, List.set_cons_zero, hs, FB.feedback, if_true,
      DBlock.trainUpdate, trainClauses, trainClause, budgetGate, overCfg, List.getD_cons_zero, List.getD_cons_succ, f0, f1]
    rw [if_pos p0, if_neg p1]
    rw [show (⟨none, false, 1 / 10, 9 / 10⟩ : Cfg) = overCfg from rfl, u0]
    exact ⟨1, 1, -1, _, _, _, _, _, _, _, 1, [0], 1, 0, [1, -1], 4, 4, by omega, by omega, rfl⟩
  exact hone

theorem over_use {w0 w1 : Int} (h0 : 0 ≤ w0) (h0' : w0 ≤ 32767) (h1 : w1 < 0) (h1' : -32768 ≤ w1) {e : Exec DBlock} (h : Over w0 w1 e) :
    Over (wrap16 (w0 + 1)) (wrap16 (w1 - 1)) (useOnce denseBackend discreteSample e (.epoch id [([1], 0)])).1 := by
  have h' : Over w0 w1 { e with fb := e.fb.resetCounter, index := [0] } := by
    obtain ⟨nl, v0, v1, up, pc, nc, pp, np, co, tt, hp, idx, o, c, vs, fp, rp, hf, hr, rfl⟩ := h
    exact ⟨nl, v0, v1, up, pc, nc, pp, np, 0, 0, hp, [0], o, c, vs, fp, rp, hf, hr, rfl⟩
  exact over_step h0 h0' h1 h1' h'

theorem over_uses (n : Nat) (hn : n + 2 ≤ 32767) {e : Exec DBlock} (h : Over 2 (-1) e) :
    Over (n + 2) (-(n + 1)) (afterUses denseBackend discreteSample (List.replicate n (.epoch id [([1], 0)])) e) := by
  induction n with
  | zero => exact h
  | succ n ih =>
    have hu := over_use (by omega) (by omega) (by omega) (by omega) (ih (by omega))
    rw [wrap16_small (by omega) (by omega), wrap16_small (by omega) (by omega)] at hu
    rw [show List.replicate (n + 1) (TMUse.epoch id [(([1] : List Nat), 0)]) = List.replicate n (.epoch id [([1], 0)]) ++ [.epoch id [([1], 0)]] from
      List.replicate_succ', afterUses, List.foldl_append]
    have e1 : ((n + 1 : Nat) : Int) + 2 = n + 2 + 1 := by omega
    have e2 : -(((n + 1 : Nat) : Int) + 1) = -(n + 1) - 1 := by omega
    rw [e1, e2]
    exact hu

theorem over_predict {w0 w1 : Int} (h0 : -32768 ≤ w0) (h0' : w0 ≤ 32767) (h1 : -32768 ≤ w1) (h1' : w1 ≤ 32767) {e : Exec DBlock}
    (h : Over w0 w1 e) : (Exec.evalPredict denseBackend [[1]] 1 e).2 = some [if w1 > w0 then 1 else 0] := by
  obtain ⟨nl, v0, v1, up, pc, nc, pp, np, co, tt, hp, idx, o, c, vs, fp, rp, hf, hr, rfl⟩ := h
  have e0 : wrap16 w0 = w0 := wrap16_small (by omega) (by omega)
  have e1 : wrap16 w1 = w1 := wrap16_small (by omega) (by omega)
  have hset : evalOutClause [1] ⟨[0], [-1], [w0, w1], o, c⟩ = ⟨[0], [-1], [w0, w1], 1, c⟩ := by
    simp [evalOutClause, evalOutLoop]
  have hv : countVotes 2 [⟨[0], [-1], [w0, w1], 1, c⟩] = [w0, w1] := by
    simp [countVotes, addVotes, e0, e1, List.replicate]
  simp [Exec.evalPredict, Exec.evalLoop, Exec.evalOne, exampleLoop, denseBackend, DBlock.apply, DBlock.evalSetOutput, DBlock.countVotes, hset, hv,
    FB.reset, FB.register, FB.predict, argmaxLoop, e0, e1]

end GT.Pace
