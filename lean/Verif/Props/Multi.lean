import Verif.Lemmas.Multi

/-!
# C43, C57, C58: multi-label mode
-/

namespace GT

open Spec

/-! ## C43: votes -/

/-- C43 (partial): after a training or evaluation step the ON output of every label has the sum of the blocks'
votes for it.  Missing: the OFF outputs (`C43_off_votes_lost`). -/
theorem C43_on_votes_partial (fb : FB) (n : Nat) (h : MultiFB n fb) (bvs : List (List Int))
    (hb : ∀ v ∈ bvs, v.length = 2 * n) (i : Nat) (hi : i < n) :
    (fb.tally bvs).votes[i]? = some (blockSum bvs i) := (tally_spec fb n h bvs hb).1 i hi

/-- C43 is false: the OFF output of every label has 0 votes, whatever the blocks voted. -/
theorem C43_off_votes_lost (fb : FB) (n : Nat) (h : MultiFB n fb) (bvs : List (List Int))
    (hb : ∀ v ∈ bvs, v.length = 2 * n) (i : Nat) (hi : i < n) :
    (fb.tally bvs).votes[n + i]? = some 0 := (tally_spec fb n h bvs hb).2.1 i hi

/-- A concrete run with two labels and two blocks: the OFF votes 5 and 9 arrive as 0. -/
theorem C43_tally_wrong :
    ¬ ∀ (n : Nat) (fb : FB) (bvs : List (List Int)), MultiFB n fb → (∀ v ∈ bvs, v.length = 2 * n) →
      ∀ i, i < 2 * n → (fb.tally bvs).votes[i]? = some (blockSum bvs i) := by
  intro h
  have := h 2 (FB.newMulti 2 10 ⟨fun _ => 0, 0⟩) [[1, 2, 2, 3], [4, -1, 3, 6]] (newMulti_multiFB 2 10 _)
    (by decide) 2 (by decide)
  exact absurd this (by decide)

example : MultiFB 2 (FB.newMulti 2 10 ⟨fun _ => 0, 0⟩) ∧
    ((FB.newMulti 2 10 ⟨fun _ => 0, 0⟩).tally [[1, 2, 2, 3], [4, -1, 3, 6]]).votes = [5, 1, 0, 0] :=
  ⟨newMulti_multiFB 2 10 _, by decide⟩

/-! ## C57: feedback -/

theorem processMulti_some (draws : Nat → Nat) (fuel k : Nat) (fb fb' : FB) (labels : List Nat)
    (h : fb.processMulti draws fuel k labels = some fb') :
    ∃ r, rejectLoop draws (draws k) fuel (k + 1) = some r ∧
      fb'.posClass = (if labels.getD (draws k) 0 = 0 then draws k + fb.nClasses else draws k) ∧
      fb'.negClass = (if labels.getD r.1 0 = 1 then r.1 + fb.nClasses else r.1) ∧
      fb'.posProb = (fb.threshold - clampT fb.threshold (fb.votes.getD fb'.posClass 0)) /
        (2 * fb.threshold) ∧
      fb'.negProb = (fb.threshold + clampT fb.threshold (fb.votes.getD fb'.negClass 0)) /
        (2 * fb.threshold) ∧
      (fb'.correct, fb'.total) =
        multiAccLoop fb.votes fb.nClasses (labels.take fb.nClasses) 0 (fb.correct, fb.total) ∧
      fb'.votes = fb.votes := by
  unfold FB.processMulti at h
  cases hr : rejectLoop draws (draws k) fuel (k + 1) with
  | none => simp only [hr, Option.map_none] at h; cases h
  | some r =>
    simp only [hr, Option.map_some] at h
    cases h
    exact ⟨r, rfl, rfl, rfl, rfl, rfl, rfl, rfl⟩

/-- C57: for 0/1 labels the output that is pushed up says something true about the example, the output that is
pushed down something false, and they belong to two different labels. -/
theorem C57_targets (draws : Nat → Nat) (fuel k : Nat) (fb fb' : FB) (n : Nat) (labels : List Nat)
    (hf : MultiFB n fb) (hl : BinaryLabels n labels) (hd : ∀ i, draws i < n)
    (h : fb.processMulti draws fuel k labels = some fb') :
    TrueOutput n labels fb'.posClass ∧ FalseOutput n labels fb'.negClass ∧
    fb'.posClass % n ≠ fb'.negClass % n ∧ fb'.posClass < 2 * n ∧ fb'.negClass < 2 * n := by
  obtain ⟨r, hr, h1, h2, -⟩ := processMulti_some draws fuel k fb fb' labels h
  obtain ⟨hne, i, hi, he⟩ := rejectLoop_sound draws _ fuel _ r hr
  rw [h1, h2, hf.classes]
  have hp := hd k
  have hq : r.1 < n := by rw [← he]; exact hd i
  generalize draws k = p at *
  generalize r.1 = q at *
  have hlab : ∀ j, j < n → labels[j]? = some 0 ∨ labels[j]? = some 1 := by
    intro j hj
    have hjl : j < labels.length := by rw [hl.1]; exact hj
    rw [List.getElem?_eq_getElem hjl]
    rcases hl.2 _ (List.getElem_mem hjl) with e | e <;> simp [e]
  have m1 : (p + n) % n = p := by rw [Nat.add_mod_right, Nat.mod_eq_of_lt hp]
  have m2 : (q + n) % n = q := by rw [Nat.add_mod_right, Nat.mod_eq_of_lt hq]
  have m3 := Nat.mod_eq_of_lt hp
  have m4 := Nat.mod_eq_of_lt hq
  rcases hlab p hp with e | e <;> rcases hlab q hq with e' | e' <;>
    simp only [List.getD, e, e', Option.getD_some, if_true, Nat.zero_ne_one, Nat.one_ne_zero, if_false]
  · exact ⟨⟨p, hp, Or.inr ⟨by omega, e⟩⟩, ⟨q, hq, Or.inl ⟨rfl, e'⟩⟩, by rw [m1, m4]; exact hne.symm,
      by omega, by omega⟩
  · exact ⟨⟨p, hp, Or.inr ⟨by omega, e⟩⟩, ⟨q, hq, Or.inr ⟨by omega, e'⟩⟩, by rw [m1, m2]; exact hne.symm,
      by omega, by omega⟩
  · exact ⟨⟨p, hp, Or.inl ⟨rfl, e⟩⟩, ⟨q, hq, Or.inl ⟨rfl, e'⟩⟩, by rw [m3, m4]; exact hne.symm,
      by omega, by omega⟩
  · exact ⟨⟨p, hp, Or.inl ⟨rfl, e⟩⟩, ⟨q, hq, Or.inr ⟨by omega, e'⟩⟩, by rw [m3, m2]; exact hne.symm,
      by omega, by omega⟩

/-- C57: every ordered pair of different labels is chosen for some draws: the first label is drawn for the
output pushed up, the second for the output pushed down. -/
theorem C57_every_pair (fb : FB) (n p q : Nat) (labels : List Nat) (hf : MultiFB n fb) (hp : p < n) (hq : q < n)
    (hne : p ≠ q) :
    ∃ draws : Nat → Nat, (∀ i, draws i < n) ∧ ∃ fb', fb.processMulti draws 1 0 labels = some fb' ∧
      fb'.posClass % n = p ∧ fb'.negClass % n = q := by
  refine ⟨fun i => if i = 0 then p else q, by intro i; dsimp; split <;> assumption, ?_⟩
  simp only [FB.processMulti, rejectLoop, Option.map]
  simp only [if_true, Nat.zero_add, Nat.one_ne_zero, if_false, if_neg (Ne.symm hne)]
  refine ⟨_, rfl, ?_, ?_⟩
  · dsimp only
    rw [hf.classes]
    split
    · rw [Nat.add_mod_right, Nat.mod_eq_of_lt hp]
    · exact Nat.mod_eq_of_lt hp
  · dsimp only
    rw [hf.classes]
    split
    · rw [Nat.add_mod_right, Nat.mod_eq_of_lt hq]
    · exact Nat.mod_eq_of_lt hq

/-- C57: the choice of labels ends exactly when some later draw differs from the first. -/
theorem C57_terminates_iff (draws : Nat → Nat) (k : Nat) (fb : FB) (labels : List Nat) :
    (∃ fuel fb', fb.processMulti draws fuel k labels = some fb') ↔ ∃ i, k < i ∧ draws i ≠ draws k := by
  constructor
  · rintro ⟨fuel, fb', h⟩
    obtain ⟨r, hr, -⟩ := processMulti_some draws fuel k fb fb' labels h
    obtain ⟨hne, i, hi, he⟩ := rejectLoop_sound draws _ fuel _ r hr
    exact ⟨i, by omega, by rw [he]; exact hne⟩
  · rintro ⟨i, hi, hne⟩
    obtain ⟨fuel, r, hr⟩ := rejectLoop_stops draws (draws k) (k + 1) i (by omega) hne
    exact ⟨fuel, _, by unfold FB.processMulti; simp only [hr]; rfl⟩

/-- C57 fails for one label: the choice of labels never ends. -/
theorem C57_one_label_diverges (draws : Nat → Nat) (hd : ∀ i, draws i < 1) (k fuel : Nat) (fb : FB)
    (labels : List Nat) : fb.processMulti draws fuel k labels = none := by
  cases e : fb.processMulti draws fuel k labels with
  | none => rfl
  | some fb' =>
    obtain ⟨i, -, hi⟩ := (C57_terminates_iff draws k fb labels).1 ⟨fuel, fb', e⟩
    have := hd i; have := hd k
    omega

/-- C57: the update probabilities are `(T - c)/(2T)` for the output pushed up and `(T + d)/(2T)` for the output
pushed down, with the recorded votes clamped to [-T, T]; both are between 0 and 1. -/
theorem C57_probabilities (draws : Nat → Nat) (fuel k : Nat) (fb fb' : FB) (labels : List Nat)
    (hT : 1 ≤ fb.threshold) (h : fb.processMulti draws fuel k labels = some fb') (v w : Int)
    (hv : fb.votes[fb'.posClass]? = some v) (hw : fb.votes[fb'.negClass]? = some w) (c d : Rat)
    (hc : Clamped fb.threshold v c) (hd : Clamped fb.threshold w d) :
    fb'.posProb = (fb.threshold - c) / (2 * fb.threshold) ∧
    fb'.negProb = (fb.threshold + d) / (2 * fb.threshold) ∧
    0 ≤ fb'.posProb ∧ fb'.posProb ≤ 1 ∧ 0 ≤ fb'.negProb ∧ fb'.negProb ≤ 1 := by
  obtain ⟨r, -, -, -, h3, h4, -⟩ := processMulti_some draws fuel k fb fb' labels h
  rw [clamped_unique hc (clampT_clamped fb.threshold v (by linarith)) (by linarith),
    clamped_unique hd (clampT_clamped fb.threshold w (by linarith)) (by linarith)]
  simp only [List.getD, hv, hw, Option.getD_some] at h3 h4
  have h2 : 0 < 2 * fb.threshold := by linarith
  have b1 := clampT_bounds fb.threshold v (by linarith)
  have b2 := clampT_bounds fb.threshold w (by linarith)
  refine ⟨h3, h4, ?_, ?_, ?_, ?_⟩
  · rw [h3]; exact div_nonneg (by linarith [b1.2]) h2.le
  · rw [h3, div_le_one h2]; linarith [b1.1]
  · rw [h4]; exact div_nonneg (by linarith [b2.1]) h2.le
  · rw [h4, div_le_one h2]; linarith [b2.2]

/-- C57 is false for OFF outputs: they are pushed with probability 1/2 whatever the blocks voted, so training
never lets go of a clause that already votes right. -/
theorem C57_off_probability_constant (draws : Nat → Nat) (fuel k : Nat) (fb fb' : FB) (n : Nat)
    (labels : List Nat) (bvs : List (List Int)) (hf : MultiFB n fb) (hb : ∀ v ∈ bvs, v.length = 2 * n)
    (hl : BinaryLabels n labels) (hd : ∀ i, draws i < n) (hT : 1 ≤ fb.threshold)
    (h : (fb.tally bvs).processMulti draws fuel k labels = some fb') :
    (n ≤ fb'.posClass → fb'.posProb = 1 / 2) ∧ (n ≤ fb'.negClass → fb'.negProb = 1 / 2) := by
  obtain ⟨-, ho, hm, ht⟩ := tally_spec fb n hf bvs hb
  obtain ⟨-, -, -, p1, p2⟩ := C57_targets draws fuel k _ fb' n labels hm hl hd h
  obtain ⟨r, -, -, -, h3, h4, -⟩ := processMulti_some draws fuel k _ fb' labels h
  have key : ∀ o, n ≤ o → o < 2 * n → (fb.tally bvs).votes.getD o 0 = 0 := by
    intro o h1 h2
    have := ho (o - n) (by omega)
    rw [show n + (o - n) = o by omega] at this
    simp [List.getD, this]
  have h2 : 2 * fb.threshold ≠ 0 := by linarith
  rw [ht] at h3 h4
  constructor
  · intro hn
    rw [h3, key _ hn p1, clampT_zero _ (by linarith), sub_zero]
    rw [div_eq_div_iff h2 (by norm_num)]; ring
  · intro hn
    rw [h4, key _ hn p2, clampT_zero _ (by linarith), add_zero]
    rw [div_eq_div_iff h2 (by norm_num)]; ring

/-- C57 (partial): the train counter counts every label once, and as correct exactly the labels whose value
agrees with "the sum of the blocks' ON votes is not negative".  Missing: the OFF votes, which a prediction
should weigh against the ON votes. -/
theorem C57_accuracy_partial (draws : Nat → Nat) (fuel k : Nat) (fb fb' : FB) (n : Nat)
    (labels : List Nat) (bvs : List (List Int)) (hf : MultiFB n fb) (hb : ∀ v ∈ bvs, v.length = 2 * n)
    (hl : BinaryLabels n labels) (h : (fb.tally bvs).processMulti draws fuel k labels = some fb') :
    fb'.total = (fb.tally bvs).total + n ∧
    fb'.correct = (fb.tally bvs).correct + (List.range n).countP (fun i =>
      decide (labels[i]? = some 1 ↔ blockSum bvs i ≥ 0)) := by
  obtain ⟨h1, h0, hm, -⟩ := tally_spec fb n hf bvs hb
  obtain ⟨r, -, -, -, -, -, h5, -⟩ := processMulti_some draws fuel k _ fb' labels h
  obtain ⟨a1, a2⟩ := multiAccLoop_spec (fb.tally bvs).votes (fb.tally bvs).nClasses
    (labels.take (fb.tally bvs).nClasses) 0 ((fb.tally bvs).correct, (fb.tally bvs).total)
  rw [← h5] at a1 a2
  rw [hm.classes] at a1 a2
  rw [List.take_of_length_le (by rw [hl.1])] at a1 a2
  refine ⟨by simpa [hl.1] using a1, ?_⟩
  dsimp only at a2
  rw [a2]
  congr 1
  have e : labels.zipIdx = (List.range n).map fun i => (labels.getD i 0, i) := by
    apply List.ext_getElem?
    intro i
    rw [List.getElem?_zipIdx, List.getElem?_map, ← hl.1]
    by_cases hi : i < labels.length
    · rw [List.getElem?_range hi]; simp [List.getElem?_eq_getElem hi]
    · rw [List.getElem?_eq_none (by omega), List.getElem?_eq_none (by simp; omega)]; rfl
  rw [e, List.countP_map]
  apply List.countP_congr
  intro i hi
  have hi' : i < n := List.mem_range.1 hi
  have g1 : (fb.tally bvs).votes.getD i 0 = blockSum bvs i := by simp [List.getD, h1 i hi']
  have g2 : (fb.tally bvs).votes.getD (i + n) 0 = 0 := by
    rw [Nat.add_comm]; simp [List.getD, h0 i hi']
  have hil : i < labels.length := by rw [hl.1]; exact hi'
  have g3 : labels.getD i 0 = labels[i] := by simp [List.getD, List.getElem?_eq_getElem hil]
  simp only [Function.comp, g1, g2, g3, List.getElem?_eq_getElem hil, Option.some.injEq]

/-- Two labels, one on and one off; the blocks vote clearly for OFF on the second and the example counts as
half right, because the OFF votes are lost. -/
example :
    let fb := FB.newMulti 2 10 ⟨fun _ => 0, 0⟩
    BinaryLabels 2 [1, 0] ∧
    ((fb.tally [[3, 1, 0, 7]]).processMulti (fun i => i % 2) 1 0 [1, 0]).map
      (fun f => (f.posClass, f.negClass, f.correct, f.total)) = some (0, 1, 1, 2) ∧
    ¬ PredictedOn [3, 1, 0, 7] 2 1 := by
  refine ⟨by unfold BinaryLabels; decide, by decide +kernel, by unfold PredictedOn; decide⟩

/-! ## C58: prediction -/

/-- C58 is false: `train()` on a multi-label machine never returns; the process ends with exit code 1 at the
first evaluation, for every data set, configuration and number of epochs from one on. -/
theorem C58_training_ends_process {S St : Type} (env : Env S St) (t : Trainer St) (st : Option St) :
    t.trainProc true env st = if t.nEpochs < 1 then .returned (t, st) else .exited 1 := by
  unfold Trainer.trainProc
  split <;> rfl

/-- A single-label run is not affected.
Missing: multi-label machines, for which it is false. -/
theorem C58_single_label_returns_partial {S St : Type} (env : Env S St) (t : Trainer St) (st : Option St) :
    t.trainProc false env st = .returned (t.trainInner env st) := by
  unfold Trainer.trainProc Trainer.trainInner
  split <;> simp_all

/-- C58 is false for the prediction of the feedback block too: the output memory is left as it was, so it holds
the right prediction only if it did before, and the call answers false. -/
theorem C58_predict_multi_writes_nothing (fb : FB) (n : Nat) (out : List Nat) :
    (MultiPrediction fb.votes n (fb.predictMulti out).1 ↔ MultiPrediction fb.votes n out) ∧
    (fb.predictMulti out).2 = false := ⟨Iff.rfl, rfl⟩

/-- A prediction exists for every vote vector; it is never computed. -/
theorem C58_prediction_exists (votes : List Int) (n : Nat) : ∃ out, MultiPrediction votes n out := by
  refine ⟨(List.range n).map fun i => if votes.getD i 0 ≥ votes.getD (n + i) 0 then 1 else 0, by simp, ?_⟩
  intro i hi
  by_cases h : votes.getD i 0 ≥ votes.getD (n + i) 0
  · left; exact ⟨by simp [hi]; simpa using h, h⟩
  · right; exact ⟨by simp [hi]; simpa using h, h⟩

/-- A rule set for two labels: the first rule votes for label 0, the second for or against label 1. -/
def multiRules : Rules :=
  { nLits := 2, nClasses := 4, multiLabel := true, rules := [[0], [1], [3]],
    weights := [[2, 0, 0, 0], [0, 1, 0, 0], [0, -1, 0, 0]] }

/-- C58 is false for the predictor: it answers with one output number, so examples with different right label
sets (both labels on; only the first on) get the same answer. -/
theorem C58_predictor_cannot_tell :
    ∃ p x y, Predictor.fromRuleset multiRules "none" false = .ok p ∧
      (p.predict x).2 = (p.predict y).2 ∧
      PredictedOn (p.predict x).1.inf.votes 2 1 ∧ ¬ PredictedOn (p.predict y).1.inf.votes 2 1 :=
  ⟨_, [1, 1], [1, 0], rfl, rfl, by unfold PredictedOn; decide, by unfold PredictedOn; decide⟩

example : ∃ (fb : FB) (out : List Nat), MultiFB 2 fb ∧ out.length = 2 ∧
    ¬ MultiPrediction fb.votes 2 (fb.predictMulti out).1 := by
  refine ⟨(FB.newMulti 2 10 ⟨fun _ => 0, 0⟩).tally [[3, -1, 0, 7]], [0, 0],
    (tally_spec _ 2 (newMulti_multiFB 2 10 _) _ (by decide)).2.2.1, rfl, ?_⟩
  intro h
  have := h.2 0 (by decide)
  rcases this with ⟨e, -⟩ | ⟨-, e⟩
  · exact absurd e (by decide)
  · exact e (by unfold PredictedOn; decide)

end GT
