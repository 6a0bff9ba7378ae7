import Verif.Lemmas.Recode

/-! # C100: the order of the features, and which of two values is called 1, do not matter -/

namespace GT
open Spec Recode

/-- C100 (order). Put the columns of the examples in another order. For every history of training and prediction calls there are literal
number streams with the same numbers in another order, such that after every call the two machines have given the same predictions and
hold the same votes and feedback, and the clauses of the second are the clauses of the first with their columns in the new order. -/
theorem C100_order {n : Nat} (r : Recoding) (hr : r.Of n) (hf : ∀ i, r.flip i = false) (smp : List Rat → Rat → Nat)
    (calls : List (List Nat × Option Nat)) (e : Exec DBlock)
    (hb : ∀ b ∈ e.blocks, ∀ c ∈ b.clauses, Shaped n c) (hx : ∀ c ∈ calls, Binary c.1 ∧ c.1.length = n) :
    ∃ gs : List Rng, List.Forall₂ (fun (b : DBlock) g => Reshuffled b.rng g) e.blocks gs ∧ ∀ k,
      (runCalls denseBackend smp (r.calls (calls.take k)) (r.exec e gs)).2 = (runCalls denseBackend smp (calls.take k) e).2 ∧
      (runCalls denseBackend smp (r.calls (calls.take k)) (r.exec e gs)).1.fb = (runCalls denseBackend smp (calls.take k) e).1.fb ∧
      List.Forall₂ (SameRecoded r) (runCalls denseBackend smp (calls.take k) e).1.blocks
        (runCalls denseBackend smp (r.calls (calls.take k)) (r.exec e gs)).1.blocks :=
  recoded r hr smp calls e fun b hb' c hc => ⟨fun _ => hf, hb b hb', hx c hc⟩

/-- C100 (order and polarity). The same for every recoding, also one that writes some features as their opposites, for machines without
boosting of true positives. What is missing: with boosting it is false, `C100_boost_breaks_complement`. -/
theorem C100_complement_partial {n : Nat} (r : Recoding) (hr : r.Of n) (smp : List Rat → Rat → Nat)
    (calls : List (List Nat × Option Nat)) (e : Exec DBlock) (hboost : ∀ b ∈ e.blocks, b.cfg.boost = false)
    (hb : ∀ b ∈ e.blocks, ∀ c ∈ b.clauses, Shaped n c) (hx : ∀ c ∈ calls, Binary c.1 ∧ c.1.length = n) :
    ∃ gs : List Rng, List.Forall₂ (fun (b : DBlock) g => Reshuffled b.rng g) e.blocks gs ∧ ∀ k,
      (runCalls denseBackend smp (r.calls (calls.take k)) (r.exec e gs)).2 = (runCalls denseBackend smp (calls.take k) e).2 ∧
      (runCalls denseBackend smp (r.calls (calls.take k)) (r.exec e gs)).1.fb = (runCalls denseBackend smp (calls.take k) e).1.fb ∧
      List.Forall₂ (SameRecoded r) (runCalls denseBackend smp (calls.take k) e).1.blocks
        (runCalls denseBackend smp (r.calls (calls.take k)) (r.exec e gs)).1.blocks :=
  recoded r hr smp calls e fun b hb' c hc => ⟨fun h => absurd ((hboost b hb').symm.trans h) (by decide), hb b hb', hx c hc⟩

/-- C100 (predictions). A machine with its states recoded gives every recoded example the prediction the machine gives the example, boosted
or not, whatever the generators. -/
theorem C100_predictions {n : Nat} (r : Recoding) (hr : r.Of n) (xs : List (List Nat)) (e : Exec DBlock) (gs : List Rng)
    (hg : gs.length = e.blocks.length) (hb : ∀ b ∈ e.blocks, ∀ c ∈ b.clauses, Shaped n c)
    (hx : ∀ x ∈ xs, Binary x ∧ x.length = n) :
    (runCalls denseBackend (fun _ _ => 0) (r.calls (xs.map fun x => (x, none))) (r.exec e gs)).2 =
      (runCalls denseBackend (fun _ _ => 0) (xs.map fun x => (x, none)) e).2 := by
  have hc : r.calls (xs.map fun x => (x, none)) = xs.map fun x => (r.lits x, none) := by
    simp [Recoding.calls]
  rw [hc]
  refine predictions r hr _ xs e (r.exec e gs) rfl ?_ hx
  simp only [Recoding.exec]
  generalize e.blocks = bs at hg hb
  induction bs generalizing gs with
  | nil => simp
  | cons b bs ih =>
    cases gs with
    | nil => simp at hg
    | cons g gs =>
      exact .cons ⟨rfl, block_cr r (hb b (List.mem_cons_self ..))⟩
        (ih gs (by simpa using hg) fun b' h' => hb b' (List.mem_cons_of_mem _ h'))

/-- C100 (start). The recoded machine is as likely a start as the first one: allocating a block with the generator's numbers in another
order gives the first block recoded, with any reordering of the numbers left over. -/
theorem C100_start {n : Nat} (r : Recoding) (hr : r.Of n) (nClauses nClasses : Nat) (cfg : Cfg) (fastOf rngOf : Nat → Rng)
    (junk : Nat → Nat) (seed : Nat) (b : DBlock) (h : initTM n nClauses nClasses cfg fastOf rngOf junk seed = some b) (g : Rng)
    (hg : Reshuffled b.rng g) :
    ∃ rng, Reshuffled (rngOf seed) rng ∧ ∃ d, initTM n nClauses nClasses cfg fastOf (fun _ => rng) junk seed = some d ∧
      { d with rng := g } = r.block b g ∧ ∀ k, numbers d.rng k = numbers g k :=
  start r hr nClauses nClasses cfg fastOf rngOf junk seed b h g hg

/-- A machine with boosting over one feature, whose literal generator always gives 9/10. -/
def boostMachine : Exec DBlock :=
  ⟨FB.new 2 10 ⟨fun _ => 1 / 2, 0⟩,
    [⟨1, 2, ⟨none, true, 1 / 3, 2 / 3⟩, [⟨[0], [-1], [1, -1], 0, 0⟩], [0, 0], ⟨fun _ => 1 / 4, 0⟩, ⟨fun _ => 9 / 10, 0⟩⟩], []⟩

/-- The feature written as its opposite. -/
def recodeOpposite : Recoding := ⟨[0], fun _ => true⟩

/-- The code does not have the property with boosting: one training call on the example `[1]` raises the state of the included feature
whatever the number drawn, but when the feature is written as its opposite, the state of its negation rises only if the number is small. So
no reordering of the numbers makes the two machines the same (`src/func_tm.hpp:313-352` boosts positive literals only). -/
theorem C100_boost_breaks_complement :
    recodeOpposite.Of 1 ∧ ¬ ∃ gs : List Rng, List.Forall₂ (fun (b : DBlock) g => Reshuffled b.rng g) boostMachine.blocks gs ∧
      List.Forall₂ (SameRecoded recodeOpposite) (runCalls denseBackend (fun _ _ => 1) [([1], some 0)] boostMachine).1.blocks
        (runCalls denseBackend (fun _ _ => 1) (recodeOpposite.calls [([1], some 0)]) (recodeOpposite.exec boostMachine gs)).1.blocks := by
  refine ⟨.refl _, ?_⟩
  rintro ⟨gs, hgs, hsame⟩
  have hlike : List.Forall₂ OnePatch.Like (recodeOpposite.exec boostMachine [⟨fun _ => 9 / 10, 0⟩]).blocks
      (recodeOpposite.exec boostMachine gs).blocks := by
    cases hgs with
    | cons h1 h2 =>
      cases h2
      exact .cons ⟨rfl, rfl, rfl, rfl, rfl, rfl, constant_of (9 / 10) (fun _ => rfl) h1⟩ .nil
  obtain ⟨-, -, h3⟩ := OnePatch.run_sim OnePatch.like_sim (fun _ _ => 1) (recodeOpposite.calls [([1], some 0)])
    (recodeOpposite.exec boostMachine [⟨fun _ => 9 / 10, 0⟩]) (recodeOpposite.exec boostMachine gs) rfl hlike (fun _ _ _ _ => trivial)
  have h4 : List.Forall₂ (SameRecoded recodeOpposite) (runCalls denseBackend (fun _ _ => 1) [([1], some 0)] boostMachine).1.blocks
      (runCalls denseBackend (fun _ _ => 1) (recodeOpposite.calls [([1], some 0)])
        (recodeOpposite.exec boostMachine [⟨fun _ => 9 / 10, 0⟩])).1.blocks := by
    generalize (runCalls denseBackend (fun _ _ => 1) [([1], some 0)] boostMachine).1.blocks = bs at hsame
    generalize (runCalls denseBackend (fun _ _ => 1) (recodeOpposite.calls [([1], some 0)]) (recodeOpposite.exec boostMachine gs)).1.blocks = ds
      at hsame h3
    generalize (runCalls denseBackend (fun _ _ => 1) (recodeOpposite.calls [([1], some 0)])
      (recodeOpposite.exec boostMachine [⟨fun _ => 9 / 10, 0⟩])).1.blocks = ds' at h3
    induction hsame generalizing ds' with
    | nil => cases h3; exact .nil
    | cons a _ ih =>
      cases h3 with
      | cons l h3 => exact .cons ⟨l.faces.symm.trans a.1, l.votes.symm.trans a.2⟩ (ih _ h3)
  have h5 : (runCalls denseBackend (fun _ _ => 1) [([1], some 0)] boostMachine).1.blocks.map
        (fun b => b.clauses.map fun c => face (recodeOpposite.clause c)) =
      (runCalls denseBackend (fun _ _ => 1) (recodeOpposite.calls [([1], some 0)])
        (recodeOpposite.exec boostMachine [⟨fun _ => 9 / 10, 0⟩])).1.blocks.map fun b => b.clauses.map face := by
    generalize (runCalls denseBackend (fun _ _ => 1) [([1], some 0)] boostMachine).1.blocks = bs at h4
    generalize (runCalls denseBackend (fun _ _ => 1) (recodeOpposite.calls [([1], some 0)])
      (recodeOpposite.exec boostMachine [⟨fun _ => 9 / 10, 0⟩])).1.blocks = ds at h4
    induction h4 with
    | nil => rfl
    | cons a _ ih => simp only [List.map_cons, ih, a.1]
  revert h5
  decide +kernel

/-- A machine of one block over two features, with a clause that fires on `[1, 0]`. -/
def recodeMachine (boost : Bool) : Exec DBlock :=
  ⟨FB.new 2 10 ⟨fun _ => 1 / 2, 0⟩,
    [⟨2, 2, ⟨some 4, boost, 1 / 3, 2 / 3⟩, [⟨[1, -3], [-2, 0], [1, -1], 0, 0⟩], [0, 0],
      ⟨fun _ => 1 / 4, 0⟩, ⟨fun i => if i % 2 = 0 then 9 / 10 else 1 / 5, 0⟩⟩], []⟩

/-- The second feature first, written as its opposite. -/
def recodeSwap : Recoding := ⟨[1, 0], fun i => i == 1⟩

/-- The hypotheses are met, and training on the example changes the states. -/
example : recodeSwap.Of 2 ∧ recodeSwap.lits [1, 0] = [1, 1] ∧
    (∀ b ∈ (recodeMachine false).blocks, b.cfg.boost = false ∧ ∀ c ∈ b.clauses, c.pos.length = 2 ∧ c.neg.length = 2) ∧
    (runCalls denseBackend (fun _ _ => 1) [([1, 0], some 0), ([1, 0], none)] (recodeMachine false)).2 = [0] ∧
    ((runCalls denseBackend (fun _ _ => 1) [([1, 0], some 0)] (recodeMachine false)).1.blocks.map fun b => b.clauses.map face) ≠
      (recodeMachine false).blocks.map fun b => b.clauses.map face := by
  refine ⟨List.Perm.swap _ _ _, ?_⟩
  decide +kernel

/-- With the very same numbers the recoded machine learns something else, so they do have to be reordered. -/
example : ((runCalls denseBackend (fun _ _ => 1) (recodeSwap.calls [([1, 0], some 0)])
      (recodeSwap.exec (recodeMachine false) ((recodeMachine false).blocks.map (·.rng)))).1.blocks.map fun b => b.clauses.map face) ≠
    ((runCalls denseBackend (fun _ _ => 1) [([1, 0], some 0)] (recodeMachine false)).1.blocks.map fun b =>
      b.clauses.map fun c => face (recodeSwap.clause c)) := by
  decide +kernel

example : (initTM 2 1 2 ⟨none, true, 1 / 3, 2 / 3⟩ (fun _ => ⟨fun _ => 1 / 4, 0⟩) (fun _ => ⟨fun _ => 1 / 4, 0⟩) (fun _ => 3) 42).isSome
    = true := by
  decide +kernel

end GT
