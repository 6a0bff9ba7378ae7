import Verif.Spec.Executor
import Verif.Lemmas.Feedback
import Verif.Props.Dense
import Verif.Props.Avx2

/-! # Helper lemmas about the executor -/

namespace GT
open Spec

/-! ### Registering votes -/

theorem register_nClasses (fb : FB) (v : List Int) : (fb.register v).nClasses = fb.nClasses := rfl

theorem register_length (fb : FB) (v : List Int) (h1 : fb.nClasses ≤ fb.votes.length)
    (h2 : fb.nClasses ≤ v.length) : (fb.register v).votes.length = fb.votes.length := by
  simp [FB.register]; omega

theorem register_get (fb : FB) (v : List Int) (h1 : fb.nClasses ≤ fb.votes.length)
    (h2 : fb.nClasses ≤ v.length) (k : Nat) :
    (fb.register v).votes[k]? =
      if k < fb.nClasses then some (wrap16 (fb.votes.getD k 0 + v.getD k 0)) else fb.votes[k]? := by
  unfold FB.register
  have hl : (List.zipWith (fun a b => wrap16 (a + b)) (fb.votes.take fb.nClasses) v).length =
      fb.nClasses := by simp; omega
  rw [List.getElem?_append, hl]
  split
  · rename_i hk
    rw [List.getElem?_zipWith]
    have a : (fb.votes.take fb.nClasses)[k]? = some fb.votes[k] := by
      rw [List.getElem?_take, if_pos hk]; simp
    have b : v[k]? = some v[k] := by simp
    have a' : fb.votes.getD k 0 = fb.votes[k] := by simp [List.getD, show k < fb.votes.length by omega]
    have b' : v.getD k 0 = v[k] := by simp [List.getD, show k < v.length by omega]
    rw [a, b, a', b']
  · rename_i hk
    rw [List.getElem?_drop]
    congr 1
    omega

/-- Everything of a feedback block except the votes. -/
theorem exampleLoop_frame {B : Type} (f : B → B) (bv : B → List Int) (bs : List B) (fb : FB) :
    (exampleLoop f bv bs fb).2 = { fb with votes := (exampleLoop f bv bs fb).2.votes } := by
  induction bs generalizing fb with
  | nil => rfl
  | cons b bs ih =>
    rw [exampleLoop]
    dsimp only
    rw [ih]
    rfl

theorem exampleLoop_blocks {B : Type} (f : B → B) (bv : B → List Int) (bs : List B) (fb : FB) :
    (exampleLoop f bv bs fb).1 = bs.map f := by
  induction bs generalizing fb with
  | nil => rfl
  | cons b bs ih => rw [exampleLoop]; simp [ih]

/-- Votes after all blocks have registered, starting from votes `v` that are 16-bit sums `a`. -/
theorem exampleLoop_votes {B : Type} (f : B → B) (bv : B → List Int) (bs : List B) (fb : FB)
    (h1 : fb.nClasses ≤ fb.votes.length) (h2 : ∀ b ∈ bs, fb.nClasses ≤ (bv (f b)).length)
    (a : Nat → Int) (ha : ∀ k, k < fb.nClasses → fb.votes[k]? = some (wrap16 (a k))) :
    (exampleLoop f bv bs fb).2.votes.length = fb.votes.length ∧
    (∀ k, k < fb.nClasses → (exampleLoop f bv bs fb).2.votes[k]? =
      some (wrap16 (a k + (bs.map fun b => (bv (f b)).getD k 0).sum))) ∧
    (∀ k, fb.nClasses ≤ k → (exampleLoop f bv bs fb).2.votes[k]? = fb.votes[k]?) := by
  induction bs generalizing fb a with
  | nil => simp [exampleLoop]; exact ha
  | cons b bs ih =>
    rw [exampleLoop]
    dsimp only
    have hb := h2 b (by simp)
    have hr := register_length fb (bv (f b)) h1 hb
    have := ih (fb.register (bv (f b))) (by rw [hr]; exact h1)
      (fun c hc => h2 c (by simp [hc])) (fun k => a k + (bv (f b)).getD k 0) (by
        intro k hk
        have hk' : k < fb.nClasses := hk
        rw [register_get fb _ h1 hb, if_pos hk']
        have : fb.votes.getD k 0 = wrap16 (a k) := by simp [List.getD, ha k hk']
        rw [this, wrap16_add_wrap16])
    rw [register_nClasses, hr] at this
    refine ⟨this.1, ?_, ?_⟩
    · intro k hk
      rw [this.2.1 k hk]
      simp [Int.add_assoc]
    · intro k hk
      rw [this.2.2 k hk, register_get fb _ h1 hb, if_neg (by omega)]

theorem reset_facts (fb : FB) : fb.reset.nClasses = fb.nClasses ∧
    fb.reset.votes.length = fb.votes.length ∧
    (∀ k, k < fb.votes.length → fb.reset.votes[k]? = some 0) := by
  refine ⟨rfl, by simp [FB.reset], ?_⟩
  intro k hk
  simp [FB.reset, hk]

theorem wrap16_zero : wrap16 0 = 0 := by decide

/-- Votes after a round that starts with `reset`. -/
theorem round_votes {B : Type} (f : B → B) (bv : B → List Int) (bs : List B) (fb : FB)
    (h1 : fb.nClasses ≤ fb.votes.length) (h2 : ∀ b ∈ bs, fb.nClasses ≤ (bv (f b)).length) :
    (exampleLoop f bv bs fb.reset).2.votes.length = fb.votes.length ∧
    (∀ k, k < fb.nClasses → (exampleLoop f bv bs fb.reset).2.votes[k]? =
      some (wrap16 ((bs.map fun b => (bv (f b)).getD k 0).sum))) ∧
    (∀ k, fb.nClasses ≤ k → k < fb.votes.length →
      (exampleLoop f bv bs fb.reset).2.votes[k]? = some 0) := by
  obtain ⟨r1, r2, r3⟩ := reset_facts fb
  have := exampleLoop_votes f bv bs fb.reset (by rw [r1, r2]; exact h1) (by rw [r1]; exact h2)
    (fun _ => 0) (by intro k hk; rw [r1] at hk; rw [r3 k (by omega), wrap16_zero])
  rw [r1, r2] at this
  refine ⟨this.1, ?_, ?_⟩
  · intro k hk; rw [this.2.1 k hk]; simp
  · intro k hk hk2; rw [this.2.2 k hk, r3 k hk2]

/-! ### Interleavings -/

/-- What a task has already added to class `i`. -/
def contrib {B : Type} (bv : B → List Int) (i : Nat) (k : Task B) : Int :=
  match k.pc with
  | .start => 0
  | .computed => 0
  | .adding j => if i < j then (bv k.block).getD i 0 else 0
  | .loaded j _ => if i < j then (bv k.block).getD i 0 else 0
  | .done => (bv k.block).getD i 0

/-- The task is inside the critical section. -/
def Pc.inside : Pc → Prop
  | .adding _ => True
  | .loaded _ _ => True
  | _ => False

/-- Invariant of a phase. -/
structure PInv {B : Type} (f : B → B) (bv : B → List Int) (n L : Nat) (bs : List B) (p : Phase B) : Prop where
  len : p.tasks.length = bs.length
  block : ∀ (t : Nat) (k : Task B), p.tasks[t]? = some k → ∃ b, bs[t]? = some b ∧
    k.block = (match k.pc with | .start => b | _ => f b)
  vlen : p.votes.length = L
  sum : ∀ i, i < n → p.votes[i]? = some (wrap16 ((p.tasks.map (contrib bv i)).sum))
  rest : ∀ i, n ≤ i → i < L → p.votes[i]? = some 0
  owner : ∀ (t : Nat) (k : Task B), p.tasks[t]? = some k → k.pc.inside → p.lock = some t
  held : ∀ t, p.lock = some t → ∃ k, p.tasks[t]? = some k ∧ k.pc.inside
  reg : ∀ (t i : Nat) (v : Int) (k : Task B), p.tasks[t]? = some k → k.pc = .loaded i v →
    i < n ∧ v = p.votes.getD i 0
  idx : ∀ (t i : Nat) (k : Task B), p.tasks[t]? = some k → k.pc = .adding i → i ≤ n

theorem sum_map_set {α : Type} (g : α → Int) (l : List α) (t : Nat) (a b : α) (h : l[t]? = some a) :
    ((l.set t b).map g).sum = (l.map g).sum - g a + g b := by
  induction l generalizing t with
  | nil => simp at h
  | cons c l ih =>
    cases t with
    | zero => simp at h; subst h; simp; omega
    | succ t =>
      simp at h
      have := ih t h
      simp only [List.set_cons_succ, List.map_cons, List.sum_cons]
      omega

theorem pinv_init {B : Type} (f : B → B) (bv : B → List Int) (n L : Nat) (bs : List B) (hL : n ≤ L) :
    PInv f bv n L bs (Phase.init (List.replicate L 0) bs) := by
  have hz : ∀ i, ((bs.map fun b => (⟨b, .start⟩ : Task B)).map (contrib bv i)).sum = 0 := by
    intro i
    induction bs with
    | nil => rfl
    | cons b bs ih => simp [contrib] at ih ⊢; exact ih
  constructor
  · simp [Phase.init]
  · intro t k h
    simp [Phase.init] at h
    obtain ⟨b, hb, rfl⟩ := h
    exact ⟨b, hb, by simp⟩
  · simp [Phase.init]
  · intro i hi
    simp only [Phase.init]
    rw [hz i, wrap16_zero, List.getElem?_replicate, if_pos (by omega)]
  · intro i _ hi
    simp only [Phase.init]
    rw [List.getElem?_replicate, if_pos hi]
  · intro t k h
    simp [Phase.init] at h
    obtain ⟨b, hb, rfl⟩ := h
    intro h; exact h.elim
  · intro t h; simp [Phase.init] at h
  · intro t i v k h
    simp [Phase.init] at h
    obtain ⟨b, hb, rfl⟩ := h
    intro h; simp at h
  · intro t i k h
    simp [Phase.init] at h
    obtain ⟨b, hb, rfl⟩ := h
    intro h; simp at h

theorem getElem?_set_cases {α : Type} {l : List α} {t s : Nat} {a c : α}
    (h : (l.set t a)[s]? = some c) : (s = t ∧ c = a) ∨ (s ≠ t ∧ l[s]? = some c) := by
  rw [List.getElem?_set] at h
  by_cases e : t = s
  · subst e
    simp at h
    exact Or.inl ⟨rfl, h.2.symm⟩
  · simp [e] at h
    exact Or.inr ⟨fun h => e h.symm, h⟩

theorem pinv_step {B : Type} (f : B → B) (bv : B → List Int) (n L : Nat) (bs : List B) (hL : n ≤ L)
    (p p' : Phase B) (t : Nat) (hp : PInv f bv n L bs p) (hs : p.step f bv n t = some p') :
    PInv f bv n L bs p' := by
  unfold Phase.step at hs
  cases hk : p.tasks[t]? with
  | none => simp [hk] at hs
  | some k =>
    have htl : t < p.tasks.length := (List.getElem?_eq_some_iff.mp hk).1
    simp only [hk] at hs
    obtain ⟨b, hb, hblk⟩ := hp.block t k hk
    cases hpc : k.pc with
    | start =>
      simp only [hpc] at hs
      cases hs
      have hb' : k.block = b := by simpa [hpc] using hblk
      constructor
      · simp [hp.len]
      · intro s c hc
        rcases getElem?_set_cases hc with ⟨rfl, rfl⟩ | ⟨hne, hc⟩
        · exact ⟨b, hb, by simp [hb']⟩
        · exact hp.block s c hc
      · exact hp.vlen
      · intro i hi
        rw [hp.sum i hi]
        simp only
        rw [sum_map_set _ _ _ k _ hk]
        simp [contrib, hpc]
      · exact hp.rest
      · intro s c hc hin
        rcases getElem?_set_cases hc with ⟨rfl, rfl⟩ | ⟨hne, hc⟩
        · exact hin.elim
        · exact hp.owner s c hc hin
      · intro s hl
        obtain ⟨c, hc, hin⟩ := hp.held s hl
        have hne : t ≠ s := by
          rintro rfl
          rw [hk] at hc; cases hc
          simp [hpc, Pc.inside] at hin
        exact ⟨c, by simp [hne, hc], hin⟩
      · intro s i v c hc h
        rcases getElem?_set_cases hc with ⟨rfl, rfl⟩ | ⟨hne, hc⟩
        · simp at h
        · exact hp.reg s i v c hc h
      · intro s i c hc h
        rcases getElem?_set_cases hc with ⟨rfl, rfl⟩ | ⟨hne, hc⟩
        · simp at h
        · exact hp.idx s i c hc h
    | computed =>
      simp only [hpc] at hs
      cases hl : p.lock with
      | some o => simp [hl] at hs
      | none =>
        simp only [hl] at hs
        cases hs
        constructor
        · simp [hp.len]
        · intro s c hc
          rcases getElem?_set_cases hc with ⟨rfl, rfl⟩ | ⟨hne, hc⟩
          · exact ⟨b, hb, by simpa [hpc] using hblk⟩
          · exact hp.block s c hc
        · exact hp.vlen
        · intro i hi
          rw [hp.sum i hi]
          simp only
          rw [sum_map_set _ _ _ k _ hk]
          simp [contrib, hpc]
        · exact hp.rest
        · intro s c hc hin
          rcases getElem?_set_cases hc with ⟨rfl, rfl⟩ | ⟨hne, hc⟩
          · rfl
          · have := hp.owner s c hc hin
            rw [hl] at this; cases this
        · intro s h
          simp only [Option.some.injEq] at h
          subst h
          exact ⟨_, List.getElem?_set_self htl, trivial⟩
        · intro s i v c hc h
          rcases getElem?_set_cases hc with ⟨rfl, rfl⟩ | ⟨hne, hc⟩
          · simp at h
          · exact hp.reg s i v c hc h
        · intro s i c hc h
          rcases getElem?_set_cases hc with ⟨rfl, rfl⟩ | ⟨hne, hc⟩
          · simp at h; omega
          · exact hp.idx s i c hc h
    | adding j =>
      simp only [hpc] at hs
      have hlock := hp.owner t k hk (by simp [hpc, Pc.inside])
      have hj := hp.idx t j k hk hpc
      by_cases hjn : j < n
      · simp only [hjn, if_true] at hs
        cases hs
        constructor
        · simp [hp.len]
        · intro s c hc
          rcases getElem?_set_cases hc with ⟨rfl, rfl⟩ | ⟨hne, hc⟩
          · exact ⟨b, hb, by simpa [hpc] using hblk⟩
          · exact hp.block s c hc
        · exact hp.vlen
        · intro i hi
          rw [hp.sum i hi]
          simp only
          rw [sum_map_set _ _ _ k _ hk]
          simp [contrib, hpc]
        · exact hp.rest
        · intro s c hc hin
          rcases getElem?_set_cases hc with ⟨rfl, rfl⟩ | ⟨hne, hc⟩
          · exact hlock
          · exact hp.owner s c hc hin
        · intro s h
          simp only at h
          rw [hlock] at h
          simp only [Option.some.injEq] at h
          subst h
          exact ⟨_, List.getElem?_set_self htl, trivial⟩
        · intro s i v c hc h
          rcases getElem?_set_cases hc with ⟨rfl, rfl⟩ | ⟨hne, hc⟩
          · simp at h
            obtain ⟨rfl, rfl⟩ := h
            exact ⟨hjn, by simp [List.getD]⟩
          · exact hp.reg s i v c hc h
        · intro s i c hc h
          rcases getElem?_set_cases hc with ⟨rfl, rfl⟩ | ⟨hne, hc⟩
          · simp at h
          · exact hp.idx s i c hc h
      · simp only [hjn, if_false] at hs
        cases hs
        constructor
        · simp [hp.len]
        · intro s c hc
          rcases getElem?_set_cases hc with ⟨rfl, rfl⟩ | ⟨hne, hc⟩
          · exact ⟨b, hb, by simpa [hpc] using hblk⟩
          · exact hp.block s c hc
        · exact hp.vlen
        · intro i hi
          rw [hp.sum i hi]
          simp only
          rw [sum_map_set _ _ _ k _ hk]
          simp [contrib, hpc, show i < j by omega]
        · exact hp.rest
        · intro s c hc hin
          rcases getElem?_set_cases hc with ⟨rfl, rfl⟩ | ⟨hne, hc⟩
          · exact hin.elim
          · have := hp.owner s c hc hin
            rw [hlock] at this
            simp only [Option.some.injEq] at this
            exact absurd this.symm hne
        · intro s h; simp at h
        · intro s i v c hc h
          rcases getElem?_set_cases hc with ⟨rfl, rfl⟩ | ⟨hne, hc⟩
          · simp at h
          · exact hp.reg s i v c hc h
        · intro s i c hc h
          rcases getElem?_set_cases hc with ⟨rfl, rfl⟩ | ⟨hne, hc⟩
          · simp at h
          · exact hp.idx s i c hc h
    | loaded j v =>
      simp only [hpc] at hs
      cases hs
      have hlock := hp.owner t k hk (by simp [hpc, Pc.inside])
      obtain ⟨hjn, hv⟩ := hp.reg t j v k hk hpc
      have hjv : p.votes[j]? = some (wrap16 ((p.tasks.map (contrib bv j)).sum)) := hp.sum j hjn
      have hv' : v = wrap16 ((p.tasks.map (contrib bv j)).sum) := by
        rw [hv]; simp [List.getD, hjv]
      constructor
      · simp [hp.len]
      · intro s c hc
        rcases getElem?_set_cases hc with ⟨rfl, rfl⟩ | ⟨hne, hc⟩
        · exact ⟨b, hb, by simpa [hpc] using hblk⟩
        · exact hp.block s c hc
      · simp [hp.vlen]
      · intro i hi
        simp only
        rw [sum_map_set _ _ _ k _ hk]
        by_cases hij : i = j
        · subst hij
          rw [List.getElem?_set]
          have : i < p.votes.length := by rw [hp.vlen]; omega
          simp only [this, if_true]
          rw [hv', wrap16_add_wrap16]
          simp [contrib, hpc]
        · rw [List.getElem?_set_ne (by omega), hp.sum i hi]
          have e : contrib bv i ⟨k.block, .adding (j + 1)⟩ = contrib bv i k := by
            simp only [contrib, hpc]
            by_cases h : i < j
            · simp [h, show i < j + 1 by omega]
            · simp [h, show ¬ i < j + 1 by omega]
          simp only [e]
          congr 2
          omega
      · intro i hi hiL
        simp only
        rw [List.getElem?_set_ne (by omega)]
        exact hp.rest i hi hiL
      · intro s c hc hin
        rcases getElem?_set_cases hc with ⟨rfl, rfl⟩ | ⟨hne, hc⟩
        · exact hlock
        · exact hp.owner s c hc hin
      · intro s h
        simp only at h
        rw [hlock] at h
        simp only [Option.some.injEq] at h
        subst h
        exact ⟨_, List.getElem?_set_self htl, trivial⟩
      · intro s i w c hc h
        rcases getElem?_set_cases hc with ⟨rfl, rfl⟩ | ⟨hne, hc⟩
        · simp at h
        · have := hp.owner s c hc (by rw [h]; trivial)
          rw [hlock] at this
          simp only [Option.some.injEq] at this
          exact absurd this.symm hne
      · intro s i c hc h
        rcases getElem?_set_cases hc with ⟨rfl, rfl⟩ | ⟨hne, hc⟩
        · simp at h; omega
        · exact hp.idx s i c hc h
    | done => simp [hpc] at hs

theorem pinv_run {B : Type} (f : B → B) (bv : B → List Int) (n L : Nat) (bs : List B) (hL : n ≤ L)
    (sch : List Nat) (p p' : Phase B) (hp : PInv f bv n L bs p)
    (hs : Phase.run f bv n sch p = some p') : PInv f bv n L bs p' := by
  induction sch generalizing p with
  | nil => simp [Phase.run] at hs; subst hs; exact hp
  | cons t ts ih =>
    rw [Phase.run] at hs
    cases h : p.step f bv n t with
    | none => simp [h] at hs
    | some q => simp only [h] at hs; exact ih q (pinv_step f bv n L bs hL p q t hp h) hs

/-- A finished phase has computed every block and the votes are the 16-bit sums. -/
theorem pinv_finished {B : Type} (f : B → B) (bv : B → List Int) (n L : Nat) (bs : List B)
    (p : Phase B) (hp : PInv f bv n L bs p) (hf : p.finished) :
    p.tasks.map (·.block) = bs.map f ∧ p.lock = none ∧
    ∀ i, i < n → p.votes[i]? = some (wrap16 ((bs.map fun b => (bv (f b)).getD i 0).sum)) := by
  have hblk : p.tasks.map (·.block) = bs.map f := by
    apply List.ext_getElem?
    intro t
    simp only [List.getElem?_map]
    cases hk : p.tasks[t]? with
    | none =>
      have : bs[t]? = none := by
        rw [List.getElem?_eq_none_iff] at hk ⊢
        rw [← hp.len]; exact hk
      rw [this]; rfl
    | some k =>
      obtain ⟨b, hb, e⟩ := hp.block t k hk
      have hd := hf k (List.mem_of_getElem? hk)
      rw [hb]
      simp [e, hd]
  refine ⟨hblk, ?_, ?_⟩
  · cases hl : p.lock with
    | none => rfl
    | some t =>
      obtain ⟨k, hk, hin⟩ := hp.held t hl
      rw [hf k (List.mem_of_getElem? hk)] at hin
      exact hin.elim
  · intro i hi
    rw [hp.sum i hi]
    have : p.tasks.map (contrib bv i) = (p.tasks.map (·.block)).map fun b => (bv b).getD i 0 := by
      rw [List.map_map]
      apply List.map_congr_left
      intro k hk
      simp [contrib, hf k hk]
    rw [this, hblk, List.map_map]
    rfl

/-- Steps a task still has to make. -/
def remaining (n : Nat) : Pc → Nat
  | .start => 2 * n + 3
  | .computed => 2 * n + 2
  | .adding i => 2 * (n - i) + 1
  | .loaded i _ => 2 * (n - i)
  | .done => 0

def totalRemaining {B : Type} (n : Nat) (p : Phase B) : Nat := (p.tasks.map fun k => remaining n k.pc).sum

theorem sum_map_set_nat {α : Type} (g : α → Nat) (l : List α) (t : Nat) (a b : α) (h : l[t]? = some a) :
    ((l.set t b).map g).sum + g a = (l.map g).sum + g b := by
  induction l generalizing t with
  | nil => simp at h
  | cons c l ih =>
    cases t with
    | zero => simp at h; subst h; simp; omega
    | succ t =>
      simp at h
      have := ih t h
      simp only [List.set_cons_succ, List.map_cons, List.sum_cons]
      omega

theorem step_remaining {B : Type} (f : B → B) (bv : B → List Int) (n L : Nat) (bs : List B)
    (p p' : Phase B) (t : Nat) (hp : PInv f bv n L bs p) (hs : p.step f bv n t = some p') :
    totalRemaining n p' + 1 = totalRemaining n p := by
  unfold Phase.step at hs
  cases hk : p.tasks[t]? with
  | none => simp [hk] at hs
  | some k =>
    simp only [hk] at hs
    have key : ∀ k' : Task B, remaining n k'.pc + 1 = remaining n k.pc →
        ((p.tasks.set t k').map fun k => remaining n k.pc).sum + 1 =
          (p.tasks.map fun k => remaining n k.pc).sum := by
      intro k' h
      have := sum_map_set_nat (fun k : Task B => remaining n k.pc) p.tasks t k k' hk
      omega
    cases hpc : k.pc with
    | start => simp only [hpc] at hs; cases hs; exact key _ (by simp [hpc, remaining])
    | computed =>
      simp only [hpc] at hs
      cases hl : p.lock with
      | some o => simp [hl] at hs
      | none => simp only [hl] at hs; cases hs; exact key _ (by simp [hpc, remaining])
    | adding j =>
      simp only [hpc] at hs
      have hj := hp.idx t j k hk hpc
      by_cases hjn : j < n
      · simp only [hjn, if_true] at hs; cases hs; exact key _ (by simp [hpc, remaining])
      · simp only [hjn, if_false] at hs; cases hs
        exact key _ (by simp [hpc, remaining]; omega)
    | loaded j v =>
      simp only [hpc] at hs
      cases hs
      obtain ⟨hjn, -⟩ := hp.reg t j v k hk hpc
      exact key _ (by simp only [hpc, remaining]; omega)
    | done => simp [hpc] at hs

theorem step_enabled {B : Type} (f : B → B) (bv : B → List Int) (n L : Nat) (bs : List B)
    (p : Phase B) (hp : PInv f bv n L bs p) (hf : ¬ p.finished) : ∃ t p', p.step f bv n t = some p' := by
  cases hl : p.lock with
  | some t =>
    obtain ⟨k, hk, hin⟩ := hp.held t hl
    refine ⟨t, ?_⟩
    unfold Phase.step
    simp only [hk]
    cases hpc : k.pc with
    | adding j => dsimp only; split <;> exact ⟨_, rfl⟩
    | loaded j v => exact ⟨_, rfl⟩
    | start => simp [hpc, Pc.inside] at hin
    | computed => simp [hpc, Pc.inside] at hin
    | done => simp [hpc, Pc.inside] at hin
  | none =>
    unfold Phase.finished at hf
    push Not at hf
    obtain ⟨k, hmem, hnd⟩ := hf
    obtain ⟨t, hk⟩ := List.mem_iff_getElem?.mp hmem
    refine ⟨t, ?_⟩
    unfold Phase.step
    simp only [hk]
    cases hpc : k.pc with
    | adding j => dsimp only; split <;> exact ⟨_, rfl⟩
    | loaded j v => exact ⟨_, rfl⟩
    | start => exact ⟨_, rfl⟩
    | computed => simp [hl]
    | done => exact absurd hpc hnd

theorem can_finish {B : Type} (f : B → B) (bv : B → List Int) (n L : Nat) (bs : List B) (hL : n ≤ L)
    (p : Phase B) (hp : PInv f bv n L bs p) :
    ∃ sch p', Phase.run f bv n sch p = some p' ∧ p'.finished := by
  obtain ⟨m, hm⟩ : ∃ m, totalRemaining n p = m := ⟨_, rfl⟩
  induction m using Nat.strong_induction_on generalizing p with
  | _ m ih =>
    by_cases hf : p.finished
    · exact ⟨[], p, rfl, hf⟩
    · obtain ⟨t, q, hq⟩ := step_enabled f bv n L bs p hp hf
      have hr := step_remaining f bv n L bs p q t hp hq
      obtain ⟨sch, p', e, hf'⟩ := ih (totalRemaining n q) (by omega) q
        (pinv_step f bv n L bs hL p q t hp hq) rfl
      exact ⟨t :: sch, p', by rw [Phase.run, hq]; exact e, hf'⟩

theorem run_length {B : Type} (f : B → B) (bv : B → List Int) (n L : Nat) (bs : List B) (hL : n ≤ L)
    (sch : List Nat) (p p' : Phase B) (hp : PInv f bv n L bs p)
    (hs : Phase.run f bv n sch p = some p') : totalRemaining n p' + sch.length = totalRemaining n p := by
  induction sch generalizing p with
  | nil => simp [Phase.run] at hs; subst hs; simp
  | cons t ts ih =>
    rw [Phase.run] at hs
    cases h : p.step f bv n t with
    | none => simp [h] at hs
    | some q =>
      simp only [h] at hs
      have a := ih q (pinv_step f bv n L bs hL p q t hp h) hs
      have b := step_remaining f bv n L bs p q t hp h
      simp only [List.length_cons]
      omega

/-! ### The update phase -/

theorem updRun_spec {B : Type} (f : B → B) (sch : List Nat) (ts ts' : List (B × Bool))
    (h : updRun f sch ts = some ts') :
    ts'.length = ts.length ∧
    ∀ (t : Nat) (b : B) (d : Bool), ts[t]? = some (b, d) →
      ∃ d', (ts'[t]? = some (b, d') ∧ d' = d) ∨ (ts'[t]? = some (f b, d') ∧ d' = true ∧ d = false) := by
  induction sch generalizing ts with
  | nil => simp [updRun] at h; subst h; exact ⟨rfl, fun t b d h => ⟨d, Or.inl ⟨h, rfl⟩⟩⟩
  | cons t sch ih =>
    rw [updRun] at h
    cases hs : updStep f ts t with
    | none => simp [hs] at h
    | some us =>
      simp only [hs] at h
      obtain ⟨hl, hr⟩ := ih us h
      unfold updStep at hs
      cases hk : ts[t]? with
      | none => simp [hk] at hs
      | some bd =>
        obtain ⟨b0, d0⟩ := bd
        cases d0 with
        | true => simp [hk] at hs
        | false =>
          simp [hk] at hs
          subst hs
          refine ⟨by simpa using hl, ?_⟩
          intro s b d hs
          by_cases hts : t = s
          · subst hts
            rw [hk] at hs; cases hs
            have htl : t < ts.length := (List.getElem?_eq_some_iff.mp hk).1
            obtain ⟨d', h1⟩ := hr t (f b0) true (by simp [htl])
            rcases h1 with ⟨h1, rfl⟩ | ⟨h1, -, h2⟩
            · exact ⟨true, Or.inr ⟨h1, rfl, rfl⟩⟩
            · cases h2
          · exact hr s b d (by simp [hts, hs])

theorem updRun_all {B : Type} (f : B → B) (tr : B → Bool) (sch : List Nat) (bs : List B)
    (ts : List (B × Bool)) (h : updRun f sch (bs.map fun b => (b, !tr b)) = some ts)
    (hd : ∀ t ∈ ts, t.2 = true) : ts.map (·.1) = bs.map fun b => if tr b then f b else b := by
  obtain ⟨hl, hr⟩ := updRun_spec f sch _ ts h
  apply List.ext_getElem?
  intro t
  simp only [List.getElem?_map]
  cases hb : bs[t]? with
  | none =>
    have : ts[t]? = none := by
      rw [List.getElem?_eq_none_iff] at hb ⊢
      simp at hl; omega
    simp [this]
  | some b =>
    obtain ⟨d', h1⟩ := hr t b (!tr b) (by simp [hb])
    rcases h1 with ⟨h1, e⟩ | ⟨h1, -, e⟩
    · have := hd _ (List.mem_of_getElem? h1)
      simp only at this
      rw [h1]
      cases htr : tr b
      · simp [htr]
      · simp [htr] at e; simp [e] at this
    · rw [h1]
      have : tr b = true := by cases htr : tr b <;> simp [htr] at e ⊢
      simp [this]

theorem updRun_exists {B : Type} (f : B → B) (ts : List (B × Bool)) :
    ∃ sch ts', updRun f sch ts = some ts' ∧ ∀ t ∈ ts', t.2 = true := by
  obtain ⟨m, hm⟩ : ∃ m, (ts.filter (fun t => !t.2)).length = m := ⟨_, rfl⟩
  induction m generalizing ts with
  | zero =>
    refine ⟨[], ts, rfl, ?_⟩
    intro t ht
    have := List.eq_nil_of_length_eq_zero hm
    rw [List.filter_eq_nil_iff] at this
    have := this t ht
    cases h : t.2 <;> simp [h] at this ⊢
  | succ m ih =>
    obtain ⟨x, hx⟩ : ∃ x, x ∈ ts.filter (fun t => !t.2) := by
      apply List.exists_mem_of_length_pos; omega
    rw [List.mem_filter] at hx
    obtain ⟨t, ht⟩ := List.mem_iff_getElem?.mp hx.1
    obtain ⟨b, d⟩ := x
    have hd : d = false := by simpa using hx.2
    subst hd
    have hfil : ∀ (l : List (B × Bool)) (t : Nat), l[t]? = some (b, false) →
        ((l.set t (f b, true)).filter (fun t => !t.2)).length + 1 = (l.filter (fun t => !t.2)).length := by
      intro l
      induction l with
      | nil => intro t h; simp at h
      | cons a l ih2 =>
        intro t h
        cases t with
        | zero => simp at h; subst h; simp
        | succ t =>
          simp at h
          have := ih2 t h
          cases ha : a.2 <;> simp [ha] <;> omega
    obtain ⟨sch, ts', e, h2⟩ := ih (ts.set t (f b, true)) (by have := hfil ts t ht; omega)
    refine ⟨t :: sch, ts', ?_, h2⟩
    rw [updRun]
    simp only [updStep, ht]
    exact e

/-! ### Multi-threaded equals single-threaded -/

theorem phase_result {B : Type} (f : B → B) (bv : B → List Int) (fb : FB) (bs : List B) (sch : List Nat)
    (p : Phase B) (h1 : fb.nClasses ≤ fb.votes.length) (h2 : ∀ b ∈ bs, fb.nClasses ≤ (bv (f b)).length)
    (hr : Phase.run f bv fb.nClasses sch (Phase.init fb.reset.votes bs) = some p) (hf : p.finished) :
    p.tasks.map (·.block) = (exampleLoop f bv bs fb.reset).1 ∧
    p.votes = (exampleLoop f bv bs fb.reset).2.votes := by
  have hi := pinv_init f bv fb.nClasses fb.votes.length bs h1
  have hp := pinv_run f bv _ _ bs h1 sch _ p hi hr
  obtain ⟨e1, -, e3⟩ := pinv_finished f bv _ _ bs p hp hf
  obtain ⟨g1, g2, g3⟩ := round_votes f bv bs fb h1 h2
  refine ⟨by rw [e1, exampleLoop_blocks], ?_⟩
  apply List.ext_getElem?
  intro k
  by_cases hk : k < fb.nClasses
  · rw [e3 k hk, g2 k hk]
  · by_cases hk2 : k < fb.votes.length
    · rw [hp.rest k (by omega) hk2, g3 k (by omega) hk2]
    · rw [List.getElem?_eq_none (by rw [hp.vlen]; omega), List.getElem?_eq_none (by rw [g1]; omega)]

theorem trainOneMT_iff {B E : Type} (be : Backend B E) (smp : List Rat → Rat → Nat) (e e' : Exec B) (x : E)
    (label : Nat) (h1 : e.fb.nClasses ≤ e.fb.votes.length)
    (h2 : ∀ b ∈ e.blocks, e.fb.nClasses ≤ (be.votes (be.trainExample b x)).length) :
    TrainOneMT be smp e x label e' ↔ e' = e.trainOne be smp x label := by
  have hfr := exampleLoop_frame (be.trainExample · x) be.votes e.blocks e.fb.reset
  constructor
  · rintro ⟨sch, p, sch2, ts, hr, hf, hu, hd, rfl⟩
    obtain ⟨a, b⟩ := phase_result (be.trainExample · x) be.votes e.fb e.blocks sch p h1 h2 hr hf
    have hfb : ({ e.fb with votes := p.votes } : FB) =
        (exampleLoop (be.trainExample · x) be.votes e.blocks e.fb.reset).2 := by
      rw [hfr, b]; rfl
    have hts := updRun_all (be.trainUpdate · x _) be.trainable sch2 (p.tasks.map (·.block)) ts
      (by rw [List.map_map]; exact hu) hd
    unfold Exec.trainOne
    dsimp only
    rw [hts, ← hfb, a]
  · rintro rfl
    have hi := pinv_init (be.trainExample · x) be.votes e.fb.nClasses e.fb.votes.length e.blocks h1
    obtain ⟨sch, p, hr, hf⟩ := can_finish (be.trainExample · x) be.votes _ _ e.blocks h1 _ hi
    obtain ⟨a, b⟩ := phase_result (be.trainExample · x) be.votes e.fb e.blocks sch p h1 h2 hr hf
    have hfb : ({ e.fb with votes := p.votes } : FB) =
        (exampleLoop (be.trainExample · x) be.votes e.blocks e.fb.reset).2 := by
      rw [hfr, b]; rfl
    obtain ⟨sch2, ts, hu, hd⟩ := updRun_exists
      (be.trainUpdate · x (({ e.fb with votes := p.votes } : FB).process smp label).feedback)
      (p.tasks.map fun k => (k.block, !be.trainable k.block))
    refine ⟨sch, p, sch2, ts, hr, hf, hu, hd, ?_⟩
    have hts := updRun_all (be.trainUpdate · x _) be.trainable sch2 (p.tasks.map (·.block)) ts
      (by rw [List.map_map]; exact hu) hd
    unfold Exec.trainOne
    dsimp only
    rw [hts, ← hfb, a]

theorem evalOneMT_iff {B E : Type} (be : Backend B E) (e e' : Exec B) (x : E) (k : Nat)
    (h1 : e.fb.nClasses ≤ e.fb.votes.length)
    (h2 : ∀ b ∈ e.blocks, e.fb.nClasses ≤ (be.votes (be.evalExample b x)).length) :
    EvalOneMT be e x e' k ↔ (e', k) = e.evalOne be x := by
  have hfr := exampleLoop_frame (be.evalExample · x) be.votes e.blocks e.fb.reset
  have key : ∀ sch p, Phase.run (be.evalExample · x) be.votes e.fb.nClasses sch
      (Phase.init e.fb.reset.votes e.blocks) = some p → p.finished →
      (({ e with fb := { e.fb with votes := p.votes }, blocks := p.tasks.map (·.block) } : Exec B),
        ({ e.fb with votes := p.votes } : FB).predict) = e.evalOne be x := by
    intro sch p hr hf
    obtain ⟨a, b⟩ := phase_result (be.evalExample · x) be.votes e.fb e.blocks sch p h1 h2 hr hf
    have hfb : ({ e.fb with votes := p.votes } : FB) =
        (exampleLoop (be.evalExample · x) be.votes e.blocks e.fb.reset).2 := by
      rw [hfr, b]; rfl
    unfold Exec.evalOne
    dsimp only
    rw [hfb, a]
  constructor
  · rintro ⟨sch, p, hr, hf, rfl, rfl⟩
    exact key sch p hr hf
  · intro h
    have hi := pinv_init (be.evalExample · x) be.votes e.fb.nClasses e.fb.votes.length e.blocks h1
    obtain ⟨sch, p, hr, hf⟩ := can_finish (be.evalExample · x) be.votes _ _ e.blocks h1 _ hi
    rw [← key sch p hr hf] at h
    cases h
    exact ⟨sch, p, hr, hf, rfl, rfl⟩

end GT
