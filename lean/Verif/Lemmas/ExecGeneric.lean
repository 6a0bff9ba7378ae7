import Verif.Lemmas.ExecutorDense

/-! # Helper lemmas: executors over any backend -/

namespace GT
open Spec

/-- The same backend with training left out. -/
def evalOnly {B E : Type} (be : Backend B E) : Backend B E :=
  { be with trainExample := be.evalExample, trainUpdate := fun b _ _ => b }

/-- Evaluation keeps `P` and fills a vote slot for each of `n` classes. -/
def KeepsEval {B E : Type} (be : Backend B E) (n : Nat) (P : B → Prop) : Prop :=
  ∀ b x, P b → P (be.evalExample b x) ∧ n ≤ (be.votes (be.evalExample b x)).length

theorem keeps_evalOnly {B E : Type} {be : Backend B E} {n : Nat} {P : B → Prop} (h : KeepsEval be n P) :
    Keeps (evalOnly be) n P := ⟨h, h, fun _ _ _ h => h⟩

theorem ready_evalOne {B E : Type} {be : Backend B E} {n : Nat} {P : B → Prop} (hk : KeepsEval be n P) (e : Exec B)
    (x : E) (h : Ready n P e) : Ready n P (e.evalOne be x).1 :=
  ready_eval (keeps_evalOnly hk) e x h

theorem evalLoop_evalOnly {B E : Type} (be : Backend B E) (xs : List E) (e : Exec B) :
    Exec.evalLoop (evalOnly be) xs e = Exec.evalLoop be xs e := by
  induction xs generalizing e with
  | nil => rfl
  | cons x xs ih => simp only [Exec.evalLoop, ih]; rfl

theorem evalMT_evalOnly {B E : Type} (be : Backend B E) (xs : List E) (e e' : Exec B) (ks : List Nat) :
    EvalMT (evalOnly be) xs e e' ks ↔ EvalMT be xs e e' ks := by
  constructor
  · intro h
    induction h with
    | nil e => exact .nil e
    | cons h _ ih => exact .cons h ih
  · intro h
    induction h with
    | nil e => exact .nil e
    | cons h _ ih => exact .cons h ih

theorem evalOne_blocks {B E : Type} (be : Backend B E) (e : Exec B) (x : E) :
    (e.evalOne be x).1.blocks = e.blocks.map (be.evalExample · x) := exampleLoop_blocks _ _ _ _

/-- What the votes registered for an example are, from what the votes of a block are. -/
theorem eval_votes_of {B E : Type} {be : Backend B E} {n : Nat} {P : B → Prop} (hk : KeepsEval be n P)
    (V : B → Nat → Int) (e : Exec B) (x : E)
    (hv : ∀ b ∈ e.blocks, ∀ k, k < n → (be.votes (be.evalExample b x)).getD k 0 = wrap16 (V b k)) (h : Ready n P e) :
    (e.evalOne be x).1.fb.votes = (List.range n).map fun k => wrap16 (e.blocks.map (V · k)).sum := by
  have hr := round_votes (be.evalExample · x) be.votes e.blocks e.fb
    (by rw [h.fbClasses, h.fbVotes]) (fun b hb => by
      rw [h.fbClasses]; exact (hk b x (h.blocks b hb)).2)
  apply List.ext_getElem?
  intro k
  show (exampleLoop (be.evalExample · x) be.votes e.blocks e.fb.reset).2.votes[k]? = _
  by_cases hk : k < n
  · rw [hr.2.1 k (by rw [h.fbClasses]; exact hk)]
    simp only [List.getElem?_map, List.getElem?_range hk, Option.map_some]
    congr 1
    have : (e.blocks.map fun b => (be.votes (be.evalExample b x)).getD k 0) = (e.blocks.map (V · k)).map wrap16 := by
      rw [List.map_map]
      apply List.map_congr_left
      intro b hb
      exact hv b hb k hk
    rw [this, wrap16_sum]
  · rw [List.getElem?_eq_none (by rw [hr.1, h.fbVotes]; omega),
      List.getElem?_eq_none (by simp; omega)]

/-- Predictions of a batch, from what the votes of a block are. -/
theorem predictions_of {B E : Type} {be : Backend B E} {n : Nat} {P : B → Prop} (hk : KeepsEval be n P)
    (D : E → Prop) (V : B → E → Nat → Int)
    (hv : ∀ b x k, P b → D x → k < n → (be.votes (be.evalExample b x)).getD k 0 = wrap16 (V b x k))
    (hs : ∀ b y, P b → V (be.evalExample b y) = V b)
    (data : List E) (hx : ∀ x ∈ data, D x) (e : Exec B) (h : Ready n P e) :
    ∃ ks, (Exec.evalPredict be data data.length e).2 = some ks ∧ ks.length = data.length ∧
      ∀ (i : Nat) (x : E) (k : Nat), data[i]? = some x → ks[i]? = some k →
        LowestMax ((List.range n).map fun k => wrap16 (e.blocks.map (V · x k)).sum) k := by
  suffices hs : (Exec.evalLoop be data e).2.length = data.length ∧
      ∀ (i : Nat) (x : E) (k : Nat), data[i]? = some x → (Exec.evalLoop be data e).2[i]? = some k →
        LowestMax ((List.range n).map fun k => wrap16 (e.blocks.map (V · x k)).sum) k by
    exact ⟨_, by simp [Exec.evalPredict], hs.1, hs.2⟩
  induction data generalizing e with
  | nil => exact ⟨rfl, by intro i x k h; simp at h⟩
  | cons y data ih =>
    obtain ⟨a, b⟩ := ih (fun x hx' => hx x (by simp [hx'])) (e.evalOne be y).1 (ready_evalOne hk e y h)
    have hV : ∀ x k, ((e.evalOne be y).1.blocks.map (V · x k)) = e.blocks.map (V · x k) := by
      intro x k
      rw [evalOne_blocks, List.map_map]
      apply List.map_congr_left
      intro b hb
      show V (be.evalExample b y) x k = V b x k
      rw [hs b y (h.blocks b hb)]
    simp only [hV] at b
    refine ⟨by simp [Exec.evalLoop, a], ?_⟩
    intro i x k hi hk'
    cases i with
    | zero =>
      simp [Exec.evalLoop] at hi hk'
      subst hi hk'
      have hv' := eval_votes_of hk (fun b k => V b y k) e y (fun b hb k hk => hv b y k (h.blocks b hb) (hx y (by simp)) hk) h
      rw [← hv']
      have : (e.evalOne be y).2 = (e.evalOne be y).1.fb.predict := rfl
      rw [this]
      apply predict_lowestMax
      intro h0
      rw [hv'] at h0
      have := h.classes
      simp at h0
      omega
    | succ i =>
      simp [Exec.evalLoop] at hi hk'
      exact b i x k hi hk'

/-- What evaluation leaves alone, and that training does not notice it. -/
theorem eval_invisible_of {B E α : Type} {be : Backend B E} {n : Nat} {P : B → Prop} (hk : Keeps be n P)
    (hs : EvalIsScratch be P) (F : B → α) (hF : ∀ b y, P b → F (be.evalExample b y) = F b)
    (smp : List Rat → Rat → Nat) (e : Exec B) (ys : List E) (outLen : Nat) (h : Ready n P e) :
    (Exec.evalPredict be ys outLen e).1.blocks.map F = e.blocks.map F ∧
    (Exec.evalPredict be ys outLen e).1.index = e.index ∧
    (∃ votes, (Exec.evalPredict be ys outLen e).1.fb = { e.fb with votes := votes }) ∧
    (∀ d ds, trainAll be smp (d :: ds) (Exec.evalPredict be ys outLen e).1 = trainAll be smp (d :: ds) e) ∧
    (outLen ≠ ys.length → Exec.evalPredict be ys outLen e = (e, none)) := by
  suffices hs : ∀ (ys : List E) (e : Exec B), Ready n P e →
      (Exec.evalLoop be ys e).1.blocks.map F = e.blocks.map F ∧
      (Exec.evalLoop be ys e).1.index = e.index ∧
      (∃ votes, (Exec.evalLoop be ys e).1.fb = { e.fb with votes := votes }) ∧
      (∀ d : E × Nat, (Exec.evalLoop be ys e).1.trainOne be smp d.1 d.2 = e.trainOne be smp d.1 d.2) by
    unfold Exec.evalPredict
    by_cases hl : outLen = ys.length
    · simp only [hl, ne_eq, not_true, if_false]
      obtain ⟨b, c, d, f⟩ := hs ys e h
      refine ⟨b, c, d, ?_, fun h => h.elim⟩
      intro d ds
      simp only [trainAll, List.foldl_cons]
      rw [f d]
    · simp only [hl, ne_eq, not_false_eq_true, if_true]
      exact ⟨trivial, trivial, ⟨e.fb.votes, rfl⟩, fun _ _ => trivial, fun _ => trivial⟩
  clear ys outLen h e
  intro ys
  induction ys with
  | nil => intro e _; exact ⟨rfl, rfl, ⟨e.fb.votes, rfl⟩, fun _ => rfl⟩
  | cons y ys ih =>
    intro e h
    obtain ⟨b, c, ⟨v, d⟩, f⟩ := ih (e.evalOne be y).1 (ready_eval hk e y h)
    refine ⟨b.trans ?_, c, ⟨v, ?_⟩, ?_⟩
    · rw [evalOne_blocks, List.map_map]
      exact List.map_congr_left fun b hb => hF b y (h.blocks b hb)
    · refine d.trans ?_
      have := exampleLoop_frame (be.evalExample · y) be.votes e.blocks e.fb.reset
      show { (exampleLoop (be.evalExample · y) be.votes e.blocks e.fb.reset).2 with votes := v } = _
      rw [this]
      rfl
    · intro d
      exact (f d).trans (train_after_eval hs hk smp e y d.1 d.2 h.blocks h)

/-- Two executors whose registered votes have the same meaning predict the same. -/
theorem same_predictions {α : Type} {ks ks' : List Nat} {data : List α} {v v' : α → List Int}
    (a2 : ks.length = data.length) (b2 : ks'.length = data.length)
    (a3 : ∀ (i : Nat) (x : α) (k : Nat), data[i]? = some x → ks[i]? = some k → LowestMax (v x) k)
    (b3 : ∀ (i : Nat) (x : α) (k : Nat), data[i]? = some x → ks'[i]? = some k → LowestMax (v' x) k)
    (hv : ∀ x ∈ data, v x = v' x) : ks = ks' := by
  apply List.ext_getElem (a2.trans b2.symm)
  intro i h1 h2
  have hi : i < data.length := by omega
  have hA := a3 i data[i] ks[i] (List.getElem?_eq_getElem hi) (List.getElem?_eq_getElem h1)
  have hB := b3 i data[i] ks'[i] (List.getElem?_eq_getElem hi) (List.getElem?_eq_getElem h2)
  rw [hv _ (List.getElem_mem hi)] at hA
  exact lowestMax_unique hA hB

end GT
