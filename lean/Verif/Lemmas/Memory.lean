import Verif.Model.Memory
import Mathlib.Data.List.Nodup

namespace GT

/-- Pointers point to live allocations, no two to the same. -/
structure Owned (p : CbHeap) : Prop where
  live : ∀ b f a, p.ptr b f = some a → a ∈ p.live
  inj : ∀ b f b' f' a, p.ptr b f = some a → p.ptr b' f' = some a → b = b' ∧ f = f'
  nodup : p.live.Nodup
  fresh : ∀ a ∈ p.live, a < p.next
  none_ : ∀ b, p.count ≤ b → p.isInit b = false ∧ ∀ f, p.ptr b f = none

/-- What `isInit` promises. -/
def InitOk (p : CbHeap) (b : Nat) : Prop :=
  p.isInit b = true → (∀ f ∈ (p.kind b).allocates, p.ptr b f ≠ none) ∧
    ((p.kind b).hasPatches = true → p.ptr b .patchCounts ≠ none)

theorem owned_start : Owned .start :=
  ⟨by simp [CbHeap.start], by simp [CbHeap.start], by simp [CbHeap.start], by simp [CbHeap.start], by simp [CbHeap.start]⟩

theorem Owned.alloc {p : CbHeap} (h : Owned p) (b : Nat) (hb : b < p.count) (f : Fld) : Owned (p.alloc b f) := by
  unfold CbHeap.alloc
  split
  · exact h
  · refine ⟨?_, ?_, ?_, ?_, ?_⟩
    · intro b' f' a
      simp only [CbHeap.setPtr]
      split
      · intro h'; cases h'; exact List.mem_cons_self
      · intro h'; exact List.mem_cons_of_mem _ (h.live b' f' a h')
    · intro b1 f1 b2 f2 a
      simp only [CbHeap.setPtr]
      have hne : ∀ b f, p.ptr b f ≠ some p.next := by
        intro b f hh
        have := h.fresh _ (h.live _ _ _ hh)
        omega
      split
      · next e1 =>
        split
        · next e2 => intro _ _; exact ⟨e1.1.trans e2.1.symm, e1.2.trans e2.2.symm⟩
        · intro h1 h2; cases h1; exact absurd h2 (hne _ _)
      · split
        · intro h1 h2; cases h2; exact absurd h1 (hne _ _)
        · intro h1 h2; exact h.inj _ _ _ _ _ h1 h2
    · refine List.nodup_cons.mpr ⟨?_, h.nodup⟩
      intro hm
      have := h.fresh _ hm
      omega
    · intro a ha
      rcases List.mem_cons.mp ha with rfl | ha
      · exact Nat.lt_succ_self _
      · have := h.fresh a ha
        simp only [CbHeap.setPtr]; omega
    · intro b' hb'
      refine ⟨(h.none_ b' hb').1, fun f' => ?_⟩
      have hb'' : p.count ≤ b' := hb'
      simp only [CbHeap.setPtr]
      rw [if_neg (by rintro ⟨rfl, -⟩; omega)]
      exact (h.none_ b' hb').2 f'

theorem alloc_frame (p : CbHeap) (b : Nat) (f : Fld) :
    (p.alloc b f).kind = p.kind ∧ (p.alloc b f).count = p.count ∧ (p.alloc b f).isInit = p.isInit ∧
      (p.alloc b f).nPatches = p.nPatches ∧ (p.alloc b f).ptr b f ≠ none ∧
      ∀ b' f', p.ptr b' f' ≠ none → (p.alloc b f).ptr b' f' ≠ none := by
  unfold CbHeap.alloc
  split
  · next h => exact ⟨rfl, rfl, rfl, rfl, h.2.2, fun _ _ h => h⟩
  · refine ⟨rfl, rfl, rfl, rfl, by simp [CbHeap.setPtr], ?_⟩
    intro b' f' hne
    simp only [CbHeap.setPtr]
    split
    · simp
    · exact hne

theorem Owned.alloc_other {p : CbHeap} (b : Nat) (f : Fld) (b' : Nat) (f' : Fld) (h : ¬ (b' = b ∧ f' = f)) :
    (p.alloc b f).ptr b' f' = p.ptr b' f' := by
  unfold CbHeap.alloc
  split
  · rfl
  · simp only [CbHeap.setPtr, if_neg h]

theorem Owned.allocs {p : CbHeap} (h : Owned p) (b : Nat) (hb : b < p.count) (fs : List Fld) :
    Owned (fs.foldl (fun p f => p.alloc b f) p) ∧
      (fs.foldl (fun p f => p.alloc b f) p).kind = p.kind ∧
      (fs.foldl (fun p f => p.alloc b f) p).count = p.count ∧
      (fs.foldl (fun p f => p.alloc b f) p).isInit = p.isInit ∧
      (fs.foldl (fun p f => p.alloc b f) p).nPatches = p.nPatches ∧
      (∀ f ∈ fs, (fs.foldl (fun p f => p.alloc b f) p).ptr b f ≠ none) ∧
      (∀ b' f', p.ptr b' f' ≠ none → (fs.foldl (fun p f => p.alloc b f) p).ptr b' f' ≠ none) ∧
      (∀ b' f', ¬ (b' = b ∧ f' ∈ fs) → (fs.foldl (fun p f => p.alloc b f) p).ptr b' f' = p.ptr b' f') := by
  induction fs generalizing p with
  | nil => exact ⟨h, rfl, rfl, rfl, rfl, by simp, fun _ _ h => h, fun _ _ _ => rfl⟩
  | cons f fs ih =>
    obtain ⟨a1, a2, a3, a4, a5, a6⟩ := alloc_frame p b f
    obtain ⟨h1, h2, h3, h4, h5, h6, h7, h8⟩ := ih (h.alloc b hb f) (by rw [a2]; exact hb)
    refine ⟨h1, h2.trans a1, h3.trans a2, h4.trans a3, h5.trans a4, ?_, fun b' f' hne => h7 b' f' (a6 b' f' hne), ?_⟩
    · intro g hg
      rcases List.mem_cons.mp hg with rfl | hg
      · exact h7 b g a5
      · exact h6 g hg
    · intro b' f' hn
      refine (h8 b' f' fun hh => hn ⟨hh.1, List.mem_cons_of_mem _ hh.2⟩).trans ?_
      exact Owned.alloc_other b f b' f' fun hh => hn ⟨hh.1, hh.2 ▸ List.mem_cons_self⟩

theorem Owned.release {p : CbHeap} (h : Owned p) (b : Nat) (f : Fld) :
    ∃ q, p.release b f = some q ∧ Owned q ∧ q.kind = p.kind ∧ q.count = p.count ∧ q.isInit = p.isInit ∧
      q.nPatches = p.nPatches ∧ q.next = p.next ∧ q.ptr b f = none ∧
      (∀ b' f', ¬ (b' = b ∧ f' = f) → q.ptr b' f' = p.ptr b' f') ∧
      (∀ a, a ∈ q.live ↔ a ∈ p.live ∧ p.ptr b f ≠ some a) := by
  unfold CbHeap.release
  cases hp : p.ptr b f with
  | none => exact ⟨p, rfl, h, rfl, rfl, rfl, rfl, rfl, hp, fun _ _ _ => rfl, by simp⟩
  | some a =>
    have ha := h.live b f a hp
    simp only [if_pos ha]
    refine ⟨_, rfl, ⟨?_, ?_, ?_, ?_, ?_⟩, rfl, rfl, rfl, rfl, rfl, by simp [CbHeap.setPtr], ?_, ?_⟩
    · intro b' f' a'
      simp only [CbHeap.setPtr]
      split
      · simp
      · next hn =>
        intro h'
        rw [h.nodup.mem_erase_iff]
        refine ⟨?_, h.live _ _ _ h'⟩
        rintro rfl
        exact hn (h.inj _ _ _ _ _ h' hp)
    · intro b1 f1 b2 f2 a'
      simp only [CbHeap.setPtr]
      split
      · simp
      · split
        · simp
        · exact fun h1 h2 => h.inj _ _ _ _ _ h1 h2
    · exact h.nodup.erase _
    · intro a' ha'
      exact h.fresh a' (List.mem_of_mem_erase ha')
    · intro b' hb'
      refine ⟨(h.none_ b' hb').1, fun f' => ?_⟩
      simp only [CbHeap.setPtr]
      split
      · rfl
      · exact (h.none_ b' hb').2 f'
    · intro b' f' hn
      simp only [CbHeap.setPtr, if_neg hn]
    · intro a'
      simp only [CbHeap.setPtr]
      rw [h.nodup.mem_erase_iff]
      constructor
      · rintro ⟨h1, h2⟩
        exact ⟨h2, fun hh => h1 (Option.some.inj hh).symm⟩
      · rintro ⟨h1, h2⟩
        exact ⟨fun hh => h2 (by rw [hh]), h1⟩

theorem Owned.releaseAll {p : CbHeap} (h : Owned p) (b : Nat) (fs : List Fld) (hfs : fs.Nodup) :
    ∃ q, p.releaseAll b fs = some q ∧ Owned q ∧ q.kind = p.kind ∧ q.count = p.count ∧ q.isInit = p.isInit ∧
      q.nPatches = p.nPatches ∧ q.next = p.next ∧ (∀ f ∈ fs, q.ptr b f = none) ∧
      (∀ b' f', ¬ (b' = b ∧ f' ∈ fs) → q.ptr b' f' = p.ptr b' f') ∧
      (∀ a, a ∈ q.live ↔ a ∈ p.live ∧ ∀ f ∈ fs, p.ptr b f ≠ some a) := by
  induction fs generalizing p with
  | nil => exact ⟨p, rfl, h, rfl, rfl, rfl, rfl, rfl, by simp, fun _ _ _ => rfl, by simp⟩
  | cons f fs ih =>
    obtain ⟨hnf, hfs⟩ := List.nodup_cons.mp hfs
    obtain ⟨q, r1, r2, r3, r4, r5, r6, r6', r7, r8, r9⟩ := h.release b f
    obtain ⟨q', s1, s2, s3, s4, s5, s6, s6', s7, s8, s9⟩ := ih r2 hfs
    refine ⟨q', by rw [CbHeap.releaseAll, r1]; exact s1, s2, s3.trans r3, s4.trans r4, s5.trans r5, s6.trans r6,
      s6'.trans r6', ?_, ?_, ?_⟩
    · intro g hg
      rcases List.mem_cons.mp hg with rfl | hg
      · rw [s8 b g (by rintro ⟨-, hm⟩; exact hnf hm), r7]
      · exact s7 g hg
    · intro b' f' hn
      rw [s8 b' f' fun hh => hn ⟨hh.1, List.mem_cons_of_mem _ hh.2⟩]
      exact r8 b' f' fun hh => hn ⟨hh.1, hh.2 ▸ List.mem_cons_self⟩
    · intro a
      rw [s9, r9]
      constructor
      · rintro ⟨⟨h1, h2⟩, h3⟩
        refine ⟨h1, fun g hg => ?_⟩
        rcases List.mem_cons.mp hg with rfl | hg
        · exact h2
        · have := h3 g hg
          rwa [r8 b g (by rintro ⟨-, hh⟩; exact hnf (hh ▸ hg))] at this
      · rintro ⟨h1, h2⟩
        refine ⟨⟨h1, h2 f List.mem_cons_self⟩, fun g hg => ?_⟩
        rw [r8 b g (by rintro ⟨-, hh⟩; exact hnf (hh ▸ hg))]
        exact h2 g (List.mem_cons_of_mem _ hg)

theorem releases_nodup (k : CbKind) : k.releases.Nodup := by
  obtain ⟨f, b⟩ := k
  cases f <;> cases b <;> decide

/-- The invariant of every process. -/
structure Sound (p : CbHeap) : Prop where
  owned : Owned p
  init : ∀ b, InitOk p b
  only : ∀ b f, p.ptr b f ≠ none → f ∈ (p.kind b).allocates ∨ ((p.kind b).hasPatches = true ∧ f = .patchCounts)

theorem Sound.initialize {p : CbHeap} (h : Sound p) (b : Nat) (hb : b < p.count) (s : Nat) (o : Bool) :
    Sound (p.initialize b s o) := by
  unfold CbHeap.initialize
  have keep : ∀ q : CbHeap, Owned q → q.kind = p.kind → q.count = p.count → q.isInit = p.isInit →
      (∀ b' f', b' ≠ b → q.ptr b' f' = p.ptr b' f') → ∀ v : Bool,
      (v = true → (∀ f ∈ (q.kind b).allocates, q.ptr b f ≠ none) ∧ ((q.kind b).hasPatches = true → q.ptr b .patchCounts ≠ none)) →
      (∀ f, q.ptr b f ≠ none → p.ptr b f ≠ none ∨ f ∈ (p.kind b).allocates ∨ ((p.kind b).hasPatches = true ∧ f = .patchCounts)) →
      Sound { q with isInit := fun b' => if b' = b then v else q.isInit b' } := by
    intro q hq hk hc hi hptr v hv ho
    refine ⟨⟨hq.live, hq.inj, hq.nodup, hq.fresh, ?_⟩, ?_, ?_⟩
    · intro b' hb'
      have hb'' : q.count ≤ b' := hb'
      refine ⟨?_, (hq.none_ b' hb'').2⟩
      simp only
      rw [if_neg (by omega)]
      exact (hq.none_ b' hb'').1
    · intro b'
      by_cases hbb : b' = b
      · subst hbb
        intro hin
        simp only [if_true] at hin
        exact hv hin
      · intro hin
        simp only [if_neg hbb] at hin
        have := h.init b' (by rw [← hi]; exact hin)
        simp only [hk, hptr b' _ hbb]
        exact this
    · intro b' f hne
      simp only [hk]
      by_cases hbb : b' = b
      · subst hbb
        rcases ho f hne with ho | ho
        · exact h.only b' f ho
        · exact ho
      · have hne' : q.ptr b' f ≠ none := hne
        rw [hptr b' f hbb] at hne'
        exact h.only b' f hne'
  simp only
  split
  · exact keep p h.owned rfl rfl rfl (fun _ _ _ => rfl) false (by simp) (fun _ h => .inl h)
  · obtain ⟨a1, a2, a3, a4, a5, a6, a7, a8⟩ := h.owned.allocs b hb (p.kind b).allocates
    have hoth : ∀ b' f', b' ≠ b → ((p.kind b).allocates.foldl (fun p f => p.alloc b f) p).ptr b' f' = p.ptr b' f' :=
      fun b' f' hn => a8 b' f' fun hh => hn hh.1
    have hnew : ∀ f, ((p.kind b).allocates.foldl (fun p f => p.alloc b f) p).ptr b f ≠ none →
        p.ptr b f ≠ none ∨ f ∈ (p.kind b).allocates ∨ ((p.kind b).hasPatches = true ∧ f = .patchCounts) := by
      intro f hne
      by_cases hf : f ∈ (p.kind b).allocates
      · exact .inr (.inl hf)
      · rw [a8 b f fun hh => hf hh.2] at hne
        exact .inl hne
    split
    · next hpat =>
      split
      · obtain ⟨c1, c2, c3, c4, c5, c6⟩ := alloc_frame ((p.kind b).allocates.foldl (fun p f => p.alloc b f) p) b .patchCounts
        refine keep _ (a1.alloc b (by rw [a3]; exact hb) _) (c1.trans a2) (c2.trans a3) (c3.trans a4) ?_ true ?_ ?_
        · intro b' f' hn
          rw [Owned.alloc_other b _ b' f' fun hh => hn hh.1]
          exact hoth b' f' hn
        · intro _
          refine ⟨fun f hf => c6 b f (a6 f ?_), fun _ => c5⟩
          rw [c1, a2] at hf
          exact hf
        · intro f hne
          by_cases hf : f = .patchCounts
          · exact .inr (.inr ⟨hpat, hf⟩)
          · rw [Owned.alloc_other b _ b f fun hh => hf hh.2] at hne
            exact hnew f hne
      · exact keep _ a1 a2 a3 a4 hoth false (by simp) hnew
    · next hpat =>
      refine keep _ a1 a2 a3 a4 hoth true (fun _ => ⟨fun f hf => a6 f ?_, fun hp => ?_⟩) hnew
      · rw [a2] at hf; exact hf
      · rw [a2] at hp; exact absurd hp (by simpa using hpat)

theorem Sound.cleanup {p : CbHeap} (h : Sound p) (b : Nat) : ∃ q, p.cleanup b = some q ∧ Sound q ∧
    (∀ f ∈ (p.kind b).releases, q.ptr b f = none) ∧
    (∀ b' f', ¬ (b' = b ∧ f' ∈ (p.kind b).releases) → q.ptr b' f' = p.ptr b' f') ∧
    (∀ a, a ∈ q.live ↔ a ∈ p.live ∧ ∀ f ∈ (p.kind b).releases, p.ptr b f ≠ some a) ∧
    q.kind = p.kind ∧ q.count = p.count ∧ q.nPatches = p.nPatches := by
  obtain ⟨q, r1, r2, r3, r4, r5, r6, r6', r7, r8, r9⟩ := h.owned.releaseAll b _ (releases_nodup (p.kind b))
  refine ⟨{ q with isInit := fun b' => if b' = b then false else q.isInit b' }, by rw [CbHeap.cleanup, r1],
    ⟨⟨r2.live, r2.inj, r2.nodup, r2.fresh, ?_⟩, ?_, ?_⟩, r7, r8, r9, r3, r4, r6⟩
  · intro b' hb'
    refine ⟨?_, (r2.none_ b' hb').2⟩
    simp only
    split
    · rfl
    · exact (r2.none_ b' hb').1
  · intro b' hin
    simp only at hin
    split at hin
    · simp at hin
    · next hn =>
      have := h.init b' (by rw [← r5]; exact hin)
      simp only [r3, r8 b' _ fun hh => hn hh.1]
      exact this
  · intro b' f hne
    simp only [r3]
    refine h.only b' f fun hh => hne ?_
    by_cases hx : b' = b ∧ f ∈ (p.kind b).releases
    · rw [hx.1]; exact r7 f hx.2
    · exact (r8 b' f hx).trans hh

theorem Sound.drop {p : CbHeap} (h : Sound p) (b : Nat) : ∃ q, p.drop b = some q ∧ Sound q ∧ q.count = p.count ∧
    ((∀ f, (p.kind b).fam = .sparse → f = .clauses → p.ptr b f = none) → q.live = p.live) := by
  have keep : ∀ q : CbHeap, Owned q → q.kind = p.kind → q.count = p.count → q.isInit = p.isInit →
      (∀ b' f', b' ≠ b → q.ptr b' f' = p.ptr b' f') →
      Sound { q with ptr := fun b' f => if b' = b then none else q.ptr b' f,
                     isInit := fun b' => if b' = b then false else q.isInit b' } := by
    intro q hq hk hc hi hptr
    refine ⟨⟨?_, ?_, hq.nodup, hq.fresh, ?_⟩, ?_, ?_⟩
    · intro b' f' a
      simp only
      split
      · simp
      · exact hq.live b' f' a
    · intro b1 f1 b2 f2 a
      simp only
      split
      · simp
      · split
        · simp
        · exact hq.inj b1 f1 b2 f2 a
    · intro b' hb'
      have := hq.none_ b' hb'
      simp only
      split
      · exact ⟨rfl, fun _ => rfl⟩
      · exact this
    · intro b' hin
      simp only at hin ⊢
      split at hin
      · simp at hin
      · next hn =>
        have := h.init b' (by rw [← hi]; exact hin)
        simp only [hk, if_neg hn, hptr b' _ hn]
        exact this
    · intro b' f hne
      simp only at hne
      split at hne
      · exact absurd rfl hne
      · next hn =>
        rw [hptr b' f hn] at hne
        simp only [hk]
        exact h.only b' f hne
  unfold CbHeap.drop
  by_cases hs : (p.kind b).fam = .sparse
  · rw [if_pos hs]
    obtain ⟨q, r1, r2, r3, r4, r5, r6, r6', r7, r8, r9⟩ := h.owned.release b .clauses
    rw [r1]
    refine ⟨_, rfl, keep q r2 r3 r4 r5 (fun b' f' hn => r8 b' f' fun hh => hn hh.1), r4, ?_⟩
    intro hc
    have := hc .clauses hs rfl
    simp only [CbHeap.release, this] at r1
    obtain rfl := Option.some.inj r1
    rfl
  · rw [if_neg hs]
    exact ⟨_, rfl, keep p h.owned rfl rfl rfl (fun _ _ _ => rfl), rfl, fun _ => rfl⟩

theorem touches_allocates (k : CbKind) (u : Use) :
    ∀ f ∈ k.touches u, f ∈ k.allocates ∨ (k.hasPatches = true ∧ f = .patchCounts) := by
  obtain ⟨f, b⟩ := k
  cases f <;> cases b <;> cases u <;> decide

theorem Sound.use {p : CbHeap} (h : Sound p) (b : Nat) (u : Use) (hi : p.isInit b = true) : p.useArrays b u = some p := by
  unfold CbHeap.useArrays
  rw [if_pos]
  intro f hf
  obtain ⟨h1, h2⟩ := h.init b hi
  have hne : p.ptr b f ≠ none := by
    rcases touches_allocates _ u f hf with hf | ⟨hp, rfl⟩
    · exact h1 f hf
    · exact h2 hp
  obtain ⟨a, ha⟩ := Option.ne_none_iff_exists'.mp hne
  exact ⟨a, h.owned.live b f a ha, ha⟩

theorem Sound.call {p : CbHeap} (h : Sound p) (c : CbCall) (hu : ∀ b u, c = .use b u → p.isInit b = true) :
    ∃ q, p.call c = some q ∧ Sound q := by
  cases c with
  | new k =>
    refine ⟨_, rfl, ⟨h.owned.live, h.owned.inj, h.owned.nodup, h.owned.fresh, ?_⟩, ?_, ?_⟩
    · intro b hb
      have hb' : p.count + 1 ≤ b := hb
      exact h.owned.none_ b (by omega)
    · intro b hin
      have hin' : p.isInit b = true := hin
      simp only
      split
      · next hb =>
        rw [(h.owned.none_ b (by omega)).1] at hin'
        simp at hin'
      · exact h.init b hin'
    · intro b f hne
      simp only
      split
      · next hb => exact absurd ((h.owned.none_ b (by omega)).2 f) hne
      · exact h.only b f hne
  | setPatches b n => exact ⟨_, rfl, ⟨h.owned.live, h.owned.inj, h.owned.nodup, h.owned.fresh, h.owned.none_⟩, h.init, h.only⟩
  | «initialize» b s o =>
    by_cases hb : b < p.count
    · exact ⟨_, if_pos hb, h.initialize b hb s o⟩
    · exact ⟨_, if_neg hb, h⟩
  | cleanup b =>
    by_cases hb : b < p.count
    · obtain ⟨q, h1, h2, -⟩ := h.cleanup b
      exact ⟨q, (if_pos hb).trans h1, h2⟩
    · exact ⟨_, if_neg hb, h⟩
  | use b u =>
    by_cases hb : b < p.count
    · exact ⟨p, (if_pos hb).trans (h.use b u (hu b u rfl)), h⟩
    · exact ⟨_, if_neg hb, h⟩
  | drop b =>
    by_cases hb : b < p.count
    · obtain ⟨q, h1, h2, -⟩ := h.drop b
      exact ⟨q, (if_pos hb).trans h1, h2⟩
    · exact ⟨_, if_neg hb, h⟩

theorem sound_start : Sound .start := ⟨owned_start, by intro b hb; simp [CbHeap.start] at hb, by intro b f hb; simp [CbHeap.start] at hb⟩

theorem Sound.calls {p : CbHeap} (h : Sound p) : ∀ (cs : List CbCall) (q : CbHeap), p.calls cs = some q → Sound q := by
  intro cs
  induction cs generalizing p with
  | nil => intro q hq; obtain rfl := Option.some.inj hq; exact h
  | cons c cs ih =>
    intro q hq
    rw [CbHeap.calls] at hq
    split at hq
    · simp at hq
    · next p' hc =>
      have : Sound p' := by
        by_cases hu : ∀ b u, c = .use b u → p.isInit b = true
        · obtain ⟨q', h1, h2⟩ := h.call c hu
          rw [hc] at h1
          exact Option.some.inj h1 ▸ h2
        · push Not at hu
          obtain ⟨b, u, rfl, -⟩ := hu
          simp only [CbHeap.call, CbHeap.useArrays] at hc
          split at hc
          · split at hc
            · exact Option.some.inj hc ▸ h
            · simp at hc
          · exact Option.some.inj hc ▸ h
      exact ih this q hq

theorem alloc_length {p : CbHeap} (b : Nat) (f : Fld) (h : (p.kind b).fam = .sparse → f = .clauses → p.ptr b f = none) :
    (p.alloc b f).live.length = p.live.length + 1 := by
  unfold CbHeap.alloc
  rw [if_neg]
  · rfl
  · rintro ⟨h1, h2, h3⟩; exact h3 (h h1 h2)

theorem allocs_length {p : CbHeap} (b : Nat) (fs : List Fld) (hfs : fs.Nodup)
    (h : (p.kind b).fam = .sparse → .clauses ∈ fs → p.ptr b .clauses = none) :
    (fs.foldl (fun p f => p.alloc b f) p).live.length = p.live.length + fs.length := by
  induction fs generalizing p with
  | nil => rfl
  | cons f fs ih =>
    obtain ⟨hnf, hfs⟩ := List.nodup_cons.mp hfs
    rw [List.foldl_cons, ih hfs, alloc_length b f, List.length_cons]
    · omega
    · rintro h1 rfl; exact h h1 List.mem_cons_self
    · intro h1 h2
      rw [Owned.alloc_other b f b .clauses (by rintro ⟨-, rfl⟩; exact hnf h2)]
      rw [(alloc_frame p b f).1] at h1
      exact h h1 (List.mem_cons_of_mem _ h2)

theorem releaseAll_length {p : CbHeap} (h : Owned p) (b : Nat) (fs : List Fld) (hfs : fs.Nodup) (q : CbHeap)
    (hq : p.releaseAll b fs = some q) :
    q.live.length + (fs.filter fun f => (p.ptr b f).isSome).length = p.live.length := by
  induction fs generalizing p with
  | nil => obtain rfl := Option.some.inj hq; rfl
  | cons f fs ih =>
    obtain ⟨hnf, hfs⟩ := List.nodup_cons.mp hfs
    obtain ⟨p', r1, r2, -, -, -, -, -, -, r8, -⟩ := h.release b f
    rw [CbHeap.releaseAll, r1] at hq
    have := ih r2 hfs hq
    have hfil : (fs.filter fun g => (p'.ptr b g).isSome) = fs.filter fun g => (p.ptr b g).isSome := by
      apply List.filter_congr
      intro g hg
      rw [r8 b g (by rintro ⟨-, hh⟩; exact hnf (hh ▸ hg))]
    rw [hfil] at this
    unfold CbHeap.release at r1
    cases hp : p.ptr b f with
    | none =>
      rw [hp] at r1
      obtain rfl := Option.some.inj r1
      simp [hp, this]
    | some a =>
      rw [hp] at r1
      have ha := h.live b f a hp
      simp only [if_pos ha] at r1
      obtain rfl := Option.some.inj r1
      have hl : (p.live.erase a).length + 1 = p.live.length := List.length_erase_add_one ha
      simp only [CbHeap.setPtr] at this
      simp only [List.filter_cons, hp, Option.isSome_some, if_true, List.length_cons]
      omega

theorem allocates_nodup (k : CbKind) : k.allocates.Nodup := by
  obtain ⟨f, b⟩ := k
  cases f <;> cases b <;> decide

theorem kind_counts (k : CbKind) :
    k.allocates.length + (if k.hasPatches then 1 else 0) = k.releases.length + 1 ∧
    (∀ f ∈ k.releases, f ∈ k.allocates ∨ (k.hasPatches = true ∧ f = .patchCounts)) ∧
    .clauses ∈ k.releases := by
  obtain ⟨f, b⟩ := k
  cases f <;> cases b <;> decide

/-- An accepted `initialize` of a block without arrays. -/
theorem Sound.initialize_ok {p : CbHeap} (h : Sound p) (b : Nat) (hb : b < p.count) (s : Nat) (o : Bool)
    (hs : s ≠ 0) (ho : (p.kind b).fam = .sparse → (p.kind b).budget = true → o = true)
    (hn : (p.kind b).hasPatches = true → 0 < p.nPatches b)
    (hclean : ∀ f ∈ (p.kind b).releases, p.ptr b f = none) :
    let q := p.initialize b s o
    Sound q ∧ q.isInit b = true ∧ (∀ b', b' ≠ b → q.isInit b' = p.isInit b' ∧ ∀ f, q.ptr b' f = p.ptr b' f) ∧
      q.kind = p.kind ∧ q.count = p.count ∧ q.nPatches = p.nPatches ∧
      (∀ f ∈ (p.kind b).releases, q.ptr b f ≠ none) ∧
      q.live.length = p.live.length + ((p.kind b).releases.length + 1) := by
  intro q
  refine ⟨h.initialize b hb s o, ?_⟩
  obtain ⟨a1, a2, a3, a4, a5, a6, a7, a8⟩ := h.owned.allocs b hb (p.kind b).allocates
  obtain ⟨k1, k2, k3⟩ := kind_counts (p.kind b)
  have hlen := allocs_length b (p.kind b).allocates (allocates_nodup _) (p := p) (fun _ _ => hclean _ k3)
  have hguard : ¬ (s = 0 ∨ ((p.kind b).fam = .sparse ∧ (p.kind b).budget = true ∧ o = false)) := by
    rintro (h1 | ⟨h1, h2, h3⟩)
    · exact hs h1
    · rw [ho h1 h2] at h3; simp at h3
  have hq : q = p.initialize b s o := rfl
  unfold CbHeap.initialize at hq
  simp only at hq
  rw [if_neg hguard] at hq
  cases hp : (p.kind b).hasPatches with
  | false =>
    rw [hp] at hq k1 k2
    simp only [Bool.false_eq_true, if_false] at hq k1
    clear_value q
    subst hq
    refine ⟨by simp, ?_, a2, a3, a5, ?_, by simp only; omega⟩
    · intro b' hne
      refine ⟨by simp only [if_neg hne, a4], fun f => a8 b' f fun hh => hne hh.1⟩
    · intro f hf
      rcases k2 f hf with hf | ⟨hf, -⟩
      · exact a6 f hf
      · simp at hf
  | true =>
    rw [hp] at hq k1 k2
    simp only [if_true] at hq k1
    rw [a5, if_pos (hn hp)] at hq
    obtain ⟨c1, c2, c3, c4, c5, c6⟩ := alloc_frame ((p.kind b).allocates.foldl (fun p f => p.alloc b f) p) b .patchCounts
    have hl2 := alloc_length (p := (p.kind b).allocates.foldl (fun p f => p.alloc b f) p) b .patchCounts (by simp)
    clear_value q
    subst hq
    refine ⟨by simp, ?_, c1.trans a2, c2.trans a3, c4.trans a5, ?_, by simp only; omega⟩
    · intro b' hne
      refine ⟨by simp only [if_neg hne, c3, a4], fun f => ?_⟩
      exact (Owned.alloc_other b _ b' f fun hh => hne hh.1).trans (a8 b' f fun hh => hne hh.1)
    · intro f hf
      rcases k2 f hf with hf | ⟨-, rfl⟩
      · exact c6 b f (a6 f hf)
      · exact c5

theorem Sound.cleanup_length {p : CbHeap} (h : Sound p) (b : Nat) (q : CbHeap) (hq : p.cleanup b = some q)
    (hne : ∀ f ∈ (p.kind b).releases, p.ptr b f ≠ none) :
    q.live.length + (p.kind b).releases.length = p.live.length := by
  unfold CbHeap.cleanup at hq
  cases hr : p.releaseAll b (p.kind b).releases with
  | none => rw [hr] at hq; simp at hq
  | some r =>
    rw [hr] at hq
    obtain rfl := Option.some.inj hq
    have := releaseAll_length h.owned b _ (releases_nodup _) r hr
    rw [List.filter_eq_self.mpr fun f hf => Option.isSome_iff_ne_none.mpr (hne f hf)] at this
    exact this

theorem calls_append (p : CbHeap) (cs ds : List CbCall) : p.calls (cs ++ ds) = (p.calls cs).bind fun q => q.calls ds := by
  induction cs generalizing p with
  | nil => rfl
  | cons c cs ih =>
    rw [List.cons_append, CbHeap.calls, CbHeap.calls]
    cases p.call c with
    | none => rfl
    | some q => exact ih q

theorem uses_defined {p : CbHeap} (h : Sound p) (us : List CbCall)
    (hu : ∀ c ∈ us, ∃ b u, c = .use b u ∧ p.isInit b = true) : p.calls us = some p := by
  induction us with
  | nil => rfl
  | cons c us ih =>
    obtain ⟨b, u, rfl, hi⟩ := hu c List.mem_cons_self
    rw [CbHeap.calls]
    have : p.call (.use b u) = some p := by
      simp only [CbHeap.call]
      split
      · exact h.use b u hi
      · rfl
    rw [this]
    exact ih fun c hc => hu c (List.mem_cons_of_mem _ hc)

/-- The arrays that `cleanup` releases, for a list of blocks. -/
def heldBy (kind : Nat → CbKind) (bs : List Nat) : Nat := (bs.map fun b => (kind b).releases.length).sum

theorem initAll {p : CbHeap} (h : Sound p) (bs : List Nat) (hnd : bs.Nodup) (sd : Nat → Nat) (o : Nat → Bool)
    (hb : ∀ b ∈ bs, b < p.count ∧ sd b ≠ 0 ∧ ((p.kind b).fam = .sparse → (p.kind b).budget = true → o b = true) ∧
      ((p.kind b).hasPatches = true → 0 < p.nPatches b) ∧ ∀ f ∈ (p.kind b).releases, p.ptr b f = none) :
    ∃ q, p.calls (bs.map fun b => .initialize b (sd b) (o b)) = some q ∧ Sound q ∧ q.kind = p.kind ∧ q.count = p.count ∧
      q.nPatches = p.nPatches ∧ (∀ b ∈ bs, q.isInit b = true ∧ ∀ f ∈ (p.kind b).releases, q.ptr b f ≠ none) ∧
      (∀ b, b ∉ bs → ∀ f, q.ptr b f = p.ptr b f) ∧ (∀ b, b ∉ bs → q.isInit b = p.isInit b) ∧
      q.live.length = p.live.length + (heldBy p.kind bs + bs.length) := by
  induction bs generalizing p with
  | nil => exact ⟨p, rfl, h, rfl, rfl, rfl, by simp, fun _ _ _ => rfl, fun _ _ => rfl, by simp [heldBy]⟩
  | cons b bs ih =>
    obtain ⟨hnb, hnd⟩ := List.nodup_cons.mp hnd
    obtain ⟨g1, g2, g3, g4, g5⟩ := hb b List.mem_cons_self
    obtain ⟨i1, i2, i3, i4, i5, i6, i7, i8⟩ := h.initialize_ok b g1 (sd b) (o b) g2 g3 g4 g5
    obtain ⟨q, c1, c2, c3, c4, c5, c6, c7, c7', c8⟩ := ih i1 hnd (by
      intro b' hb'
      have hne : b' ≠ b := fun hh => hnb (hh ▸ hb')
      rw [i4, i5, i6]
      obtain ⟨e1, e2, e3, e4, e5⟩ := hb b' (List.mem_cons_of_mem _ hb')
      exact ⟨e1, e2, e3, e4, fun f hf => ((i3 b' hne).2 f).trans (e5 f hf)⟩)
    refine ⟨q, ?_, c2, c3.trans i4, c4.trans i5, c5.trans i6, ?_, ?_, ?_, ?_⟩
    · rw [List.map_cons, CbHeap.calls, CbHeap.call, if_pos g1]
      exact c1
    · intro b' hb'
      rcases List.mem_cons.mp hb' with rfl | hb'
      · refine ⟨(c7' b' hnb).trans i2, fun f hf => ?_⟩
        rw [c7 b' hnb]
        exact i7 f hf
      · have := c6 b' hb'
        rw [i4] at this
        exact this
    · intro b' hb' f
      rw [List.mem_cons, not_or] at hb'
      rw [c7 b' hb'.2, (i3 b' hb'.1).2]
    · intro b' hb'
      rw [List.mem_cons, not_or] at hb'
      rw [c7' b' hb'.2, (i3 b' hb'.1).1]
    · rw [c8, i8, i4]
      simp only [heldBy, List.map_cons, List.sum_cons, List.length_cons]
      omega

theorem cleanAll {p : CbHeap} (h : Sound p) (bs : List Nat) (hnd : bs.Nodup)
    (hb : ∀ b ∈ bs, b < p.count ∧ ∀ f ∈ (p.kind b).releases, p.ptr b f ≠ none) :
    ∃ q, p.calls (bs.map .cleanup) = some q ∧ Sound q ∧ q.kind = p.kind ∧ q.count = p.count ∧
      q.nPatches = p.nPatches ∧ (∀ b ∈ bs, ∀ f ∈ (p.kind b).releases, q.ptr b f = none) ∧
      (∀ b, b ∉ bs → ∀ f, q.ptr b f = p.ptr b f) ∧ q.live.length + heldBy p.kind bs = p.live.length := by
  induction bs generalizing p with
  | nil => exact ⟨p, rfl, h, rfl, rfl, rfl, by simp, fun _ _ _ => rfl, by simp [heldBy]⟩
  | cons b bs ih =>
    obtain ⟨hnb, hnd⟩ := List.nodup_cons.mp hnd
    obtain ⟨g1, g2⟩ := hb b List.mem_cons_self
    obtain ⟨r, i1, i2, i3, i4, -, i6, i7, i8⟩ := h.cleanup b
    have hlen := h.cleanup_length b r i1 g2
    obtain ⟨q, c1, c2, c3, c4, c5, c6, c7, c8⟩ := ih i2 hnd (by
      intro b' hb'
      have hne : b' ≠ b := fun hh => hnb (hh ▸ hb')
      rw [i6, i7]
      obtain ⟨e1, e2⟩ := hb b' (List.mem_cons_of_mem _ hb')
      refine ⟨e1, fun f hf => ?_⟩
      rw [i4 b' f fun hh => hne hh.1]
      exact e2 f hf)
    refine ⟨q, ?_, c2, c3.trans i6, c4.trans i7, c5.trans i8, ?_, ?_, ?_⟩
    · rw [List.map_cons, CbHeap.calls, CbHeap.call, if_pos g1, i1]
      exact c1
    · intro b' hb'
      rcases List.mem_cons.mp hb' with rfl | hb'
      · intro f hf
        rw [c7 b' hnb]
        exact i3 f hf
      · rw [← i6]; exact c6 b' hb'
    · intro b' hb' f
      rw [List.mem_cons, not_or] at hb'
      rw [c7 b' hb'.2, i4 b' f fun hh => hb'.1 hh.1]
    · rw [i6] at c8
      simp only [heldBy, List.map_cons, List.sum_cons] at c8 ⊢
      omega

end GT
