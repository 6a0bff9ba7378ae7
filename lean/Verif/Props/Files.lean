import Verif.Spec.Files
import Verif.Lemmas.Layout

/-! # Saving and loading state files (C50) -/

namespace GT
open Spec

theorem isNpz_iff (path : String) : isNpz path = true ↔ NpzName path := by
  unfold isNpz NpzName
  rw [List.isSuffixOf_iff_suffix]
  constructor
  · rintro ⟨t, h⟩; exact ⟨t, h.symm⟩
  · rintro ⟨t, h⟩; exact ⟨t, h.symm⟩

/-- C50: a file is loaded exactly if it is named `.npz`, exists and has valid arrays `w` and `c`, and these are
what is loaded. -/
theorem C50_loads_iff (fs : FS) (path : String) (s : DenseArr) :
    DenseArr.loadFromFile fs path = .ok s ↔
      NpzName path ∧ ValidState s ∧
        ∃ d, fs path = some d ∧ d.lookup "w" = some s.w ∧ d.lookup "c" = some s.c := by
  rw [← isNpz_iff]
  obtain ⟨sw, sc⟩ := s
  unfold DenseArr.loadFromFile ValidState Npz.get
  cases isNpz path
  · simp
  rcases fs path with _ | d
  · simp
  rcases hw : d.lookup "w" with _ | w
  · simp [hw]
  rcases hws : w.shape with _ | ⟨nw, ws⟩
  · simp [hw, hws]; grind
  rcases hc : d.lookup "c" with _ | c
  · simp [hw, hws, hc]
  rcases hcs : c.shape with _ | ⟨nc, cs⟩
  · simp [hw, hws, hc, hcs]; grind
  simp [hw, hws, hc, hcs]
  constructor
  · intro h
    split at h <;> try cases h
    split at h <;> try cases h
    split at h <;> try cases h
    simp_all
  · rintro ⟨⟨h1, h2, n, h3, h4⟩, rfl, rfl⟩
    rw [hws] at h3
    rw [hcs] at h4
    simp at h3 h4
    simp [h1, h2, h3, h4]

/-- C50: saving a valid state and loading the file gives the same state, whatever was there before. -/
theorem C50_round_trip (fs : FS) (s : DenseArr) (hs : ValidState s) (path : String) (hp : NpzName path) :
    ∃ fs', s.saveToFile fs path = .ok fs' ∧ DenseArr.loadFromFile fs' path = .ok s ∧
      ∀ p, p ≠ path → fs' p = fs p := by
  have hp' := (isNpz_iff path).mpr hp
  refine ⟨fun p => if p = path then some [("w", s.w), ("c", s.c)] else fs p, ?_, ?_, ?_⟩
  · simp [DenseArr.saveToFile, hp']
  · rw [C50_loads_iff]
    exact ⟨hp, hs, [("w", s.w), ("c", s.c)], by simp, rfl, rfl⟩
  · intro p hne; simp [hne]

/-- C50: the same for machines: what `save_state` of one machine wrote, `load_state` gives another. -/
theorem C50_machines (fs : FS) (s : DenseArr) (hs : ValidState s) (blocks st2 : Option DenseArr) (path : String)
    (hp : NpzName path) :
    ∃ fs', saveState fs (some s) blocks path = (.ok (), some s, fs') ∧
      saveState fs none (some s) path = (.ok (), some s, fs') ∧
      loadState fs' st2 (.path path) = (.ok (), some s) := by
  obtain ⟨fs', h1, h2, -⟩ := C50_round_trip fs s hs path hp
  exact ⟨fs', by simp [saveState, h1], by simp [saveState, h1], by simp [loadState, h2]⟩

/-- C50: a name that does not end in `.npz` is a `ValueError` for both, and no file changes. -/
theorem C50_wrong_name (fs : FS) (path : String) (hp : ¬ NpzName path) (s : DenseArr) (st blocks : Option DenseArr) :
    DenseArr.loadFromFile fs path = .error .valueError ∧ s.saveToFile fs path = .error .valueError ∧
    (saveState fs st blocks path).1 = .error .valueError ∧ (saveState fs st blocks path).2.2 = fs ∧
    loadState fs st (.path path) = (.error .valueError, st) := by
  have hp' : isNpz path = false := by
    rw [← Bool.not_eq_true]; exact fun h => hp ((isNpz_iff path).mp h)
  refine ⟨by simp [DenseArr.loadFromFile, hp'], by simp [DenseArr.saveToFile, hp'], ?_, ?_, ?_⟩
  · unfold saveState DenseArr.saveToFile; grind
  · unfold saveState DenseArr.saveToFile; grind
  · simp [loadState, DenseArr.loadFromFile, hp']

/-- C50: arrays that disagree on the number of clauses are a `ValueError`. -/
theorem C50_clause_counts_differ (fs : FS) (path : String) (hp : NpzName path) (d : Npz) (hd : fs path = some d)
    (w c : Npy) (hw : d.lookup "w" = some w) (hc : d.lookup "c" = some c) (nw nc : Nat)
    (hnw : w.shape.head? = some nw) (hnc : c.shape.head? = some nc) (hne : nw ≠ nc) :
    DenseArr.loadFromFile fs path = .error .valueError := by
  have hp' := (isNpz_iff path).mpr hp
  unfold DenseArr.loadFromFile Npz.get
  rcases hws : w.shape with _ | ⟨a, ws⟩ <;> simp [hws] at hnw
  rcases hcs : c.shape with _ | ⟨b, cs⟩ <;> simp [hcs] at hnc
  simp [hp', hd, hw, hc, hws, hcs, hnw, hnc, hne]

/-- C50: whatever is in the file, a failed `load_state` leaves the machine's state alone. -/
theorem C50_failed_load_changes_nothing (fs : FS) (st : Option DenseArr) (a : PathOrState)
    (h : (loadState fs st a).1 ≠ .ok ()) : (loadState fs st a).2 = st := by
  unfold loadState at h ⊢
  grind

/-- C50, what holds for wrong dtypes: they are rejected. Missing: the error is a `TypeError`, not the `ValueError`
intended (`C50_wrong_dtype_is_type_error`). -/
theorem C50_wrong_dtype_partial (fs : FS) (path : String) (d : Npz) (hd : fs path = some d) (w c : Npy)
    (hw : d.lookup "w" = some w) (hc : d.lookup "c" = some c) (hne : w.dtype ≠ .int16 ∨ c.dtype ≠ .int8) :
    ∃ e, DenseArr.loadFromFile fs path = .error e := by
  rcases h : DenseArr.loadFromFile fs path with e | s
  · exact ⟨e, rfl⟩
  · obtain ⟨-, ⟨h1, h2, -⟩, d', h3, h4, h5⟩ := (C50_loads_iff fs path s).mp h
    rw [hd] at h3
    obtain rfl := Option.some.inj h3
    rw [hw] at h4
    rw [hc] at h5
    obtain rfl := Option.some.inj h4
    obtain rfl := Option.some.inj h5
    rcases hne with hne | hne
    · exact absurd h1 hne
    · exact absurd h2 hne

/-- C50 is false as to the error: 32-bit weights give a `TypeError`, since building the message fails. -/
theorem C50_wrong_dtype_is_type_error :
    ∃ (fs : FS) (path : String), NpzName path ∧ DenseArr.loadFromFile fs path = .error .typeError :=
  ⟨fun _ => some [("w", ⟨.int64, [1, 2], [3, -1]⟩), ("c", ⟨.int8, [1, 2], [5, -5]⟩)], "tm.npz",
    ⟨['t', 'm'], rfl⟩, by decide +kernel⟩

/-- C50, C28: the state of a machine's blocks survives a file: what is loaded holds the same clauses. -/
theorem C50_collected_state (a : Arrays) :
    ValidState a.toDenseArr ∧
    a.toDenseArr.w.shape = [a.rows, a.nClasses] ∧ a.toDenseArr.c.shape = [a.rows, 2 * a.nLits] ∧
    a.toDenseArr.w.data.length = a.rows * a.nClasses ∧ a.toDenseArr.c.data.length = a.rows * (2 * a.nLits) ∧
    arrayClauses a.nLits a.nClasses a.rows (a.toDenseArr.toArrays a.nLits a.nClasses) =
      arrayClauses a.nLits a.nClasses a.rows a := by
  refine ⟨⟨rfl, rfl, a.rows, rfl, rfl⟩, rfl, rfl, by simp [Arrays.toDenseArr], by simp [Arrays.toDenseArr], ?_⟩
  have hw : ∀ p, p < a.rows * a.nClasses → (a.toDenseArr.toArrays a.nLits a.nClasses).w p = a.w p := by
    intro p hp
    simp [DenseArr.toArrays, Arrays.toDenseArr, hp]
  have hc : ∀ p, p < a.rows * (2 * a.nLits) → (a.toDenseArr.toArrays a.nLits a.nClasses).c p = a.c p := by
    intro p hp
    simp [DenseArr.toArrays, Arrays.toDenseArr, hp]
  unfold arrayClauses
  apply List.map_congr_left
  intro i hi
  have hi := List.mem_range.mp hi
  have b1 : i * (2 * a.nLits) + 2 * a.nLits ≤ a.rows * (2 * a.nLits) := by
    rw [← Nat.succ_mul]; exact Nat.mul_le_mul_right _ hi
  have b2 : i * a.nClasses + a.nClasses ≤ a.rows * a.nClasses := by
    rw [← Nat.succ_mul]; exact Nat.mul_le_mul_right _ hi
  refine Prod.ext ?_ (Prod.ext ?_ ?_)
  · exact List.map_congr_left fun j hj => hc _ (by have := List.mem_range.mp hj; omega)
  · exact List.map_congr_left fun j hj => hc _ (by have := List.mem_range.mp hj; omega)
  · exact List.map_congr_left fun j hj => hw _ (by have := List.mem_range.mp hj; omega)

/-! A state of two clauses over one literal and two classes. -/
def exFileState : DenseArr := ⟨⟨.int16, [2, 2], [3, -1, 0, 4]⟩, ⟨.int8, [2, 2], [5, -5, 0, 127]⟩⟩

example : ValidState exFileState := ⟨rfl, rfl, 2, rfl, rfl⟩
example : NpzName "dir/tm.npz" := ⟨['d', 'i', 'r', '/', 't', 'm'], rfl⟩
example : ¬ NpzName "tm.npy" := by rw [← isNpz_iff]; decide +kernel

end GT
