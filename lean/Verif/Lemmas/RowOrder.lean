import Verif.Lemmas.ExecGeneric
import Verif.Spec.RowOrder
import Verif.Model.Trainer
import Mathlib.Data.List.Basic
import Mathlib.Data.List.Perm.Basic

/-! # Helper lemmas: the order of the rows -/

namespace GT.Rows
open Spec

theorem rows_map {α β : Type} (p : RowOrder) (f : α → β) (data : List α) : p.rows (data.map f) = (p.rows data).map f := by
  simp only [RowOrder.rows, List.map_filterMap]
  congr 1
  funext i
  simp

theorem rows_eq {α : Type} {p : RowOrder} {data : List α} (hp : p.Of data.length) (i : Nat) :
    (p.rows data)[i]? = p.order[i]?.bind (data[·]?) := by
  have h : ∀ (l : List Nat), (∀ j ∈ l, j < data.length) → ∀ i : Nat, (l.filterMap (data[·]?))[i]? = l[i]?.bind (data[·]?) := by
    intro l hl
    induction l with
    | nil => simp
    | cons j l ih =>
      have hj := hl j (by simp)
      intro i
      rw [List.filterMap_cons, List.getElem?_eq_getElem hj]
      cases i with
      | zero => simp [hj]
      | succ i => simpa using ih (fun j hj => hl j (by simp [hj])) i
  exact h _ (fun j hj => by simpa using hp.mem_iff.1 hj) i

theorem rows_length {α : Type} {p : RowOrder} {data : List α} (hp : p.Of data.length) :
    (p.rows data).length = data.length := by
  have hl : p.order.length = data.length := by simpa using hp.length_eq
  apply Nat.le_antisymm
  · rw [← hl]; exact List.length_filterMap_le _ _
  · by_contra hc
    have h1 : (p.rows data).length < data.length := by omega
    have := rows_eq hp (p.rows data).length
    rw [List.getElem?_eq_none (by omega), List.getElem?_eq_getElem (by omega)] at this
    simp only [Option.bind_some] at this
    have hm : p.order[(p.rows data).length] < data.length := by
      simpa using hp.mem_iff.1 (List.getElem_mem (h := by omega))
    rw [List.getElem?_eq_getElem hm] at this
    cases this

theorem rows_perm {α : Type} {p : RowOrder} {data : List α} (hp : p.Of data.length) : (p.rows data).Perm data := by
  have h : (List.range data.length).filterMap (data[·]?) = data := by
    apply List.ext_getElem?
    intro i
    have := rows_eq (p := ⟨List.range data.length⟩) (data := data) (List.Perm.refl _) i
    simp only [RowOrder.rows] at this
    rw [this]
    by_cases hi : i < data.length
    · simp [hi]
    · simp [hi]
  have := List.Perm.filterMap (data[·]?) hp
  rw [h] at this
  exact this

theorem rows_place {α : Type} {p : RowOrder} {data : List α} (hp : p.Of data.length) (i : Nat) :
    (p.rows data)[p.place i]? = data[i]? := by
  rw [rows_eq hp]
  by_cases hi : i < data.length
  · have hm : i ∈ p.order := hp.mem_iff.2 (by simpa using hi)
    rw [RowOrder.place, List.getElem?_eq_getElem (List.idxOf_lt_length_of_mem hm), List.getElem_idxOf]
    rfl
  · have hm : i ∉ p.order := fun h => hi (by simpa using hp.mem_iff.1 h)
    rw [RowOrder.place, List.idxOf_eq_length_iff.2 hm]
    simp [hi]

theorem visit_perm {p : RowOrder} {n : Nat} (hp : p.Of n) {is : List Nat} (h : is.Perm (List.range n)) :
    (p.visit is).Perm (List.range n) := by
  have hl : p.order.length = n := by simpa using hp.length_eq
  have hnd : p.order.Nodup := hp.nodup_iff.2 List.nodup_range
  refine ((h.trans hp.symm).map p.place).trans ?_
  have : p.order.map p.place = List.range n := by
    apply List.ext_getElem (by simp [hl])
    intro i h1 h2
    simp only [List.getElem_map, List.getElem_range, RowOrder.place]
    exact hnd.idxOf_getElem i (by simpa using h1)
  rw [this]

/-! ### Executors that have learned the same -/

/-- Two blocks that answer every call in the same way and hold the same in the part `F`. -/
structure Like {B E α : Type} (be : Backend B E) (P : B → Prop) (F : B → α) (b b' : B) : Prop where
  left  : P b
  right : P b'
  train : ∀ x, be.trainExample b x = be.trainExample b' x
  eval  : ∀ x, be.evalExample b x = be.evalExample b' x
  held  : F b = F b'

/-- The same for executors, apart from the stored visiting order and the votes of the last example. -/
structure Twin {B E α : Type} (be : Backend B E) (n : Nat) (P : B → Prop) (F : B → α) (e e' : Exec B) : Prop where
  left   : Ready n P e
  right  : Ready n P e'
  fb     : { e.fb with votes := [] } = { e'.fb with votes := [] }
  blocks : List.Forall₂ (Like be P F) e.blocks e'.blocks

theorem Twin.refl {B E α : Type} {be : Backend B E} {n : Nat} {P : B → Prop} {F : B → α} {e : Exec B} (h : Ready n P e) :
    Twin be n P F e e :=
  ⟨h, h, rfl, List.forall₂_same.2 fun b hb => ⟨h.blocks b hb, h.blocks b hb, fun _ => rfl, fun _ => rfl, rfl⟩⟩

theorem Twin.reset {B E α : Type} {be : Backend B E} {n : Nat} {P : B → Prop} {F : B → α} {e e' : Exec B}
    (h : Twin be n P F e e') : e.fb.reset = e'.fb.reset := by
  have h1 := h.fb
  have h2 := h.left.fbVotes
  have h3 := h.right.fbVotes
  revert h1 h2 h3
  rcases e.fb with ⟨⟩
  rcases e'.fb with ⟨⟩
  simp only [FB.reset, FB.mk.injEq]
  intro h1 h2 h3
  simp_all

theorem loop_eq {B : Type} (f : B → B) (votes : B → List Int) {bs bs' : List B}
    (h : List.Forall₂ (fun b b' => f b = f b') bs bs') (fb : FB) : exampleLoop f votes bs fb = exampleLoop f votes bs' fb := by
  induction h generalizing fb with
  | nil => rfl
  | cons hb _ ih => simp only [exampleLoop, hb, ih]

theorem ready_index {B : Type} {n : Nat} {P : B → Prop} {e : Exec B} (h : Ready n P e) (ix : List Nat) :
    Ready n P { e with index := ix } := ⟨h.classes, h.fbClasses, h.fbVotes, h.blocks⟩

theorem twin_train {B E α : Type} {be : Backend B E} {n : Nat} {P : B → Prop} {F : B → α} (hk : Keeps be n P)
    (smp : List Rat → Rat → Nat) {e e' : Exec B} (h : Twin be n P F e e') (x : E) (y : Nat) :
    Twin be n P F (e.trainOne be smp x y) (e'.trainOne be smp x y) := by
  have hl := loop_eq (be.trainExample · x) be.votes (h.blocks.imp fun _ _ hb => hb.train x) e.fb.reset
  have he : e'.trainOne be smp x y = { e.trainOne be smp x y with index := e'.index } := by
    simp only [Exec.trainOne, ← h.reset, ← hl]
  have hr' := ready_train hk smp e x y h.left
  have ht := Twin.refl (be := be) (F := F) hr'
  rw [he]
  exact ⟨hr', ready_index hr' _, ht.fb, ht.blocks⟩

theorem twin_indices {B E α : Type} {be : Backend B E} {n : Nat} {P : B → Prop} {F : B → α} (hk : Keeps be n P)
    (smp : List Rat → Rat → Nat) {p : RowOrder} {data : List (E × Nat)} (hp : p.Of data.length) (is : List Nat)
    {e e' : Exec B} (h : Twin be n P F e e') :
    Twin be n P F (Exec.trainIndices be smp data is e) (Exec.trainIndices be smp (p.rows data) (p.visit is) e') := by
  induction is generalizing e e' with
  | nil => exact h
  | cons i is ih =>
    simp only [RowOrder.visit, List.map_cons, Exec.trainIndices, rows_place hp]
    cases data[i]? with
    | none => exact ih h
    | some d => exact ih (twin_train hk smp h d.1 d.2)

theorem twin_epoch {B E α : Type} {be : Backend B E} {n : Nat} {P : B → Prop} {F : B → α} (hk : Keeps be n P)
    (smp : List Rat → Rat → Nat) {p : RowOrder} {data : List (E × Nat)} (hp : p.Of data.length)
    (sh : List Nat → List Nat) {e e' : Exec B} (h : Twin be n P F e e') :
    Twin be n P F (Exec.trainEpoch be smp sh data e).1
      (Exec.trainEpoch be smp (fun l => p.visit (sh l)) (p.rows data) e').1 ∧
    (Exec.trainEpoch be smp sh data e).2 = (Exec.trainEpoch be smp (fun l => p.visit (sh l)) (p.rows data) e').2 := by
  have hc : { e.fb.resetCounter with votes := [] } = { e'.fb.resetCounter with votes := [] } := by
    have := h.fb
    revert this
    rcases e.fb with ⟨⟩
    rcases e'.fb with ⟨⟩
    simp only [FB.resetCounter, FB.mk.injEq]
    intro h
    simp_all
  have ht : Twin be n P F
      { fb := e.fb.resetCounter, blocks := e.blocks, index := sh (List.range data.length) }
      { fb := e'.fb.resetCounter, blocks := e'.blocks, index := p.visit (sh (List.range data.length)) } :=
    ⟨⟨h.left.classes, h.left.fbClasses, h.left.fbVotes, h.left.blocks⟩,
     ⟨h.right.classes, h.right.fbClasses, h.right.fbVotes, h.right.blocks⟩, hc, h.blocks⟩
  have hi := twin_indices hk smp hp (((sh (List.range data.length)).take data.length).drop 0) ht
  have hv : p.visit (((sh (List.range data.length)).take data.length).drop 0) =
      ((p.visit (sh (List.range data.length))).take data.length).drop 0 := by
    simp [RowOrder.visit, List.map_take]
  rw [hv] at hi
  simp only [Exec.trainEpoch, Exec.trainSlice, rows_length hp, if_true]
  refine ⟨hi, ?_⟩
  have := congrArg FB.accuracy hi.fb
  exact this

theorem twin_eval {B E α : Type} {be : Backend B E} {n : Nat} {P : B → Prop} {F : B → α} (hk : Keeps be n P)
    (hs : EvalIsScratch be P) (hF : ∀ b y, P b → F (be.evalExample b y) = F b) {e e' : Exec B}
    (h : Twin be n P F e e') (x : E) : Twin be n P F (e.evalOne be x).1 e' := by
  have hr := ready_eval hk e x h.left
  refine ⟨hr, h.right, ?_, ?_⟩
  · rw [← h.fb]
    have := exampleLoop_frame (be.evalExample · x) be.votes e.blocks e.fb.reset
    show { (exampleLoop (be.evalExample · x) be.votes e.blocks e.fb.reset).2 with votes := [] } = _
    rw [this]
    rfl
  · rw [evalOne_blocks, List.forall₂_map_left_iff]
    refine h.blocks.imp fun b b' hb => ?_
    obtain ⟨h1, h2, h3⟩ := hs b x hb.left
    exact ⟨h1, hb.right, fun y => (h2 y).trans (hb.train y), fun y => (h3 y).trans (hb.eval y),
      (hF b x hb.left).trans hb.held⟩

theorem twin_symm {B E α : Type} {be : Backend B E} {n : Nat} {P : B → Prop} {F : B → α} {e e' : Exec B}
    (h : Twin be n P F e e') : Twin be n P F e' e :=
  ⟨h.right, h.left, h.fb.symm, h.blocks.flip.imp fun _ _ hb =>
    ⟨hb.right, hb.left, fun x => (hb.train x).symm, fun x => (hb.eval x).symm, hb.held.symm⟩⟩

theorem twin_predict {B E α : Type} {be : Backend B E} {n : Nat} {P : B → Prop} {F : B → α} {e e' : Exec B}
    (h : Twin be n P F e e') (x : E) : (e.evalOne be x).2 = (e'.evalOne be x).2 := by
  have hl := loop_eq (be.evalExample · x) be.votes (h.blocks.imp fun _ _ hb => hb.eval x) e.fb.reset
  simp only [Exec.evalOne, ← h.reset, hl]

theorem evalLoop_map {B E α : Type} {be : Backend B E} {n : Nat} {P : B → Prop} {F : B → α} (hk : Keeps be n P)
    (hs : EvalIsScratch be P) (hF : ∀ b y, P b → F (be.evalExample b y) = F b) (xs : List E) {e e' : Exec B}
    (h : Twin be n P F e e') :
    Twin be n P F (Exec.evalLoop be xs e).1 e' ∧ (Exec.evalLoop be xs e).2 = xs.map fun x => (e'.evalOne be x).2 := by
  induction xs generalizing e with
  | nil => exact ⟨h, rfl⟩
  | cons x xs ih =>
    have ht := ih (twin_eval hk hs hF h x)
    exact ⟨ht.1, by simp only [Exec.evalLoop, List.map_cons, ht.2, twin_predict h x]⟩

theorem twin_evalPredict {B E α : Type} {be : Backend B E} {n : Nat} {P : B → Prop} {F : B → α} (hk : Keeps be n P)
    (hs : EvalIsScratch be P) (hF : ∀ b y, P b → F (be.evalExample b y) = F b) {q : RowOrder} {data : List E}
    (hq : q.Of data.length) {e e' : Exec B} (h : Twin be n P F e e') :
    Twin be n P F (Exec.evalPredict be data data.length e).1 (Exec.evalPredict be (q.rows data) data.length e').1 ∧
    (Exec.evalPredict be data data.length e).2 = some (data.map fun x => (e'.evalOne be x).2) ∧
    (Exec.evalPredict be (q.rows data) data.length e').2 = some (q.rows (data.map fun x => (e'.evalOne be x).2)) := by
  obtain ⟨a1, a2⟩ := evalLoop_map hk hs hF data h
  obtain ⟨b1, b2⟩ := evalLoop_map hk hs hF (q.rows data) (twin_symm a1)
  obtain ⟨_, b3⟩ := evalLoop_map hk hs hF (q.rows data) (Twin.refl (be := be) (F := F) h.right)
  simp only [Exec.evalPredict, rows_length hq, ne_eq, not_true_eq_false, if_false]
  exact ⟨twin_symm b1, by rw [a2], by rw [b3, rows_map]⟩

theorem predictions_eq {B E : Type} {be : Backend B E} {n : Nat} {P : B → Prop} (hk : Keeps be n P)
    (hs : EvalIsScratch be P) {q : RowOrder} {data : List E} (hq : q.Of data.length) {e : Exec B} (h : Ready n P e) (outLen : Nat) :
    (Exec.evalPredict be (q.rows data) outLen e).2 = (Exec.evalPredict be data outLen e).2.map q.rows := by
  by_cases ho : outLen = data.length
  · subst ho
    obtain ⟨_, h2, h3⟩ := twin_evalPredict hk hs (F := fun _ => ()) (fun _ _ _ => rfl) hq (Twin.refl (be := be) h)
    rw [h2, h3]
    rfl
  · simp [Exec.evalPredict, rows_length hq, ho]

/-! ### The training loop -/

/-- Everything in the loop but the hidden state. -/
def rest {S St : Type} (l : LoopVars S St) : Nat × Rat × Int × List Rat × List Rat × Bool × Option St :=
  (l.nTrained, l.best, l.bestEpoch, l.trainLog, l.evalLog, l.early, l.bestState)

/-- Two environments whose epochs give the same numbers run the same loop. -/
theorem loop_sim {S S' St : Type} {env : Env S St} {env' : Env S' St} (L R : S → S' → Prop)
    (ht : ∀ s s', L s s' → (env.train s).2 = (env'.train s').2 ∧
      (env.eval (env.load .eval (env.train s).1)).2 = (env'.eval (env'.load .eval (env'.train s').1)).2 ∧
      R (env.eval (env.load .eval (env.train s).1)).1 (env'.eval (env'.load .eval (env'.train s').1)).1)
    (hl : ∀ s s', R s s' → L (env.load .train s) (env'.load .train s'))
    (hs : ∀ s s', R s s' → env.snap s = env'.snap s') (hLR : ∀ s s', L s s' → R s s') (loadBest : Bool) (acc : Rat) (ep r : Nat)
    {l : LoopVars S St} {l' : LoopVars S' St} (h : L l.s l'.s) (hrest : rest l = rest l') :
    R (epochLoop env loadBest acc ep r l).s (epochLoop env' loadBest acc ep r l').s ∧
    rest (epochLoop env loadBest acc ep r l) = rest (epochLoop env' loadBest acc ep r l') := by
  induction r generalizing ep l l' with
  | zero => exact ⟨hLR _ _ h, hrest⟩
  | succ r ih =>
    obtain ⟨s, nT, best, be', tl, el, ea, bs⟩ := l
    obtain ⟨s', nT', best', be'', tl', el', ea', bs'⟩ := l'
    simp only [rest, Prod.mk.injEq] at hrest
    obtain ⟨rfl, rfl, rfl, rfl, rfl, rfl, rfl⟩ := hrest
    obtain ⟨h1, h2, h3⟩ := ht s s' h
    have h4 := hs _ _ h3
    have h5 := hl _ _ h3
    have h6 := hLR _ _ h5
    simp only [epochLoop, ← h1, ← h2]
    generalize (env.eval (env.load .eval (env.train s).1)).2 = sc at *
    by_cases hb : sc > best <;> by_cases hacc : sc ≥ acc <;> by_cases hr : r = 0
    all_goals
      simp only [hb, hacc, hr, if_true, if_false]
      first
        | (refine ⟨h3, ?_⟩; simp only [rest, h4]; done)
        | (refine ⟨h3, ?_⟩; simp only [rest, epochLoop, h4]; done)
        | (refine ih (ep + 1) h5 ?_; simp only [rest, h4])

theorem twin_held {B E α : Type} {be : Backend B E} {n : Nat} {P : B → Prop} {F : B → α} {e e' : Exec B}
    (h : Twin be n P F e e') : e.blocks.map F = e'.blocks.map F := by
  have := h.blocks
  generalize e.blocks = bs at *
  generalize e'.blocks = bs' at *
  clear h
  induction this with
  | nil => rfl
  | cons hb _ ih => simp only [List.map_cons, hb.held, ih]

theorem inner_eq {B E St α : Type} {be : Backend B E} {n : Nat} {P : B → Prop} {F : B → α} (hk : Keeps be n P)
    (hs : EvalIsScratch be P) (hF : ∀ b y, P b → F (be.evalExample b y) = F b) (snapOf : Exec B → St)
    (hG : ∀ e e' : Exec B, e.blocks.map F = e'.blocks.map F → snapOf e = snapOf e')
    (init : Option St → Exec B) (smp : List Rat → Rat → Nat) (shuffle : Nat → List Nat → List Nat)
    {metric : List Nat → List Nat → Rat} (hm : ScoresPairs metric) {tr ev : List (E × Nat)} {p q : RowOrder}
    (hp : p.Of tr.length) (hq : q.Of ev.length) (t : Trainer St) (tm : Option St) (hi : Ready n P (init tm)) :
    t.trainInner (backendEnv be snapOf init smp (p.shuffles shuffle) metric (p.rows tr) (q.rows ev)) tm =
    t.trainInner (backendEnv be snapOf init smp shuffle metric tr ev) tm := by
  by_cases h0 : t.nEpochs < 1
  · simp [Trainer.trainInner, h0]
  have h := loop_sim (env := backendEnv be snapOf init smp shuffle metric tr ev)
    (env' := backendEnv be snapOf init smp (p.shuffles shuffle) metric (p.rows tr) (q.rows ev))
    (fun s s' => (Twin be n P F s.e s'.e ∧ s.ep = s'.ep) ∧ s.data = tr ∧ s'.data = p.rows tr)
    (fun s s' => Twin be n P F s.e s'.e ∧ s.ep = s'.ep)
    (by
      rintro ⟨e, d, k⟩ ⟨e', d', k'⟩ ⟨⟨ht, hep⟩, hd, hd'⟩
      simp only at ht hep hd hd'
      subst hep hd hd'
      obtain ⟨h1, h2⟩ := twin_epoch hk smp hp (shuffle k) ht
      have hq' : q.Of (ev.map (·.1)).length := by simpa using hq
      obtain ⟨h3, h4, h5⟩ := twin_evalPredict hk hs hF hq' h1
      have hl1 : (ev.map (·.2)).length = (ev.map (·.1)).length := by simp
      have hl2 : ((q.rows ev).map (·.2)).length = (ev.map (·.1)).length := by simp [rows_length hq]
      simp only [backendEnv, hl1, hl2]
      refine ⟨h2, ?_, ?_, trivial⟩
      · rw [h4, ← rows_map q (fun d => d.1) ev, ← rows_map q (fun d => d.2) ev]
        refine Eq.trans ?_ (congrArg (fun r => metric (q.rows (ev.map (·.2))) (Option.getD r [])) h5.symm)
        exact (hm q _ _ (by simp) (by simpa using hq)).symm
      · rw [← rows_map q (fun d => d.1) ev]
        exact h3)
    (fun s s' h => ⟨h, rfl, rfl⟩) (fun s s' h => hG _ _ (twin_held h.1)) (fun s s' h => h.1)
    t.loadBest t.earlyAcc 0 t.nEpochs.toNat
    (l := ⟨⟨init tm, tr, 0⟩, 0, -1, -1, [], [], false, t.bestState⟩)
    (l' := ⟨⟨init tm, p.rows tr, 0⟩, 0, -1, -1, [], [], false, t.bestState⟩)
    ⟨⟨Twin.refl hi, rfl⟩, rfl, rfl⟩ rfl
  have hsn := hG _ _ (twin_held h.1.1)
  have hr := h.2
  simp only [rest, Prod.mk.injEq] at hr
  obtain ⟨r1, r2, r3, r4, r5, r6, r7⟩ := hr
  simp only [Trainer.trainInner, h0, if_false]
  simp only [backendEnv] at hsn r1 r2 r3 r4 r5 r6 r7 ⊢
  simp only [r1, r2, r3, r4, r5, r6, r7, hsn]

end GT.Rows
