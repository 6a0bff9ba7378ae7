import Verif.Spec.Dataset

/-!
# The XOR data set: C48
-/

namespace GT
open Spec

theorem literalsOf_table {x : List (List Int)} {rows cols : Int} (h1 : (x.length : Int) = rows)
    (h2 : ∀ r ∈ x, (r.length : Int) = cols ∧ ∀ v ∈ r, 0 ≤ v ∧ v < 2) : BinaryTable (literalsOf x) rows cols := by
  refine ⟨by simpa [literalsOf] using h1, ?_⟩
  intro r hr
  simp only [literalsOf, List.mem_map] at hr
  obtain ⟨r0, hr0, rfl⟩ := hr
  refine ⟨by simpa using (h2 r0 hr0).1, ?_⟩
  intro v hv
  simp only [List.mem_map] at hv
  obtain ⟨a, ha, rfl⟩ := hv
  have := (h2 r0 hr0).2 a ha
  omega

theorem xorColumns_label {x : List (List Int)} {cols : Int} (hc : 2 ≤ cols)
    (h : ∀ r ∈ x, (r.length : Int) = cols ∧ ∀ v ∈ r, 0 ≤ v ∧ v < 2) :
    labelsOf (xorColumns x) = (literalsOf x).map xorLabel := by
  unfold labelsOf xorColumns literalsOf
  rw [List.map_map, List.map_map]
  apply List.map_congr_left
  intro r hr
  obtain ⟨hl, hv⟩ := h r hr
  match r, hl, hv with
  | [], hl, _ => simp at hl; omega
  | [_], hl, _ => simp at hl; omega
  | a :: b :: r, _, hv =>
    have ha := hv a (by simp)
    have hb := hv b (by simp)
    have ea : a = 0 ∨ a = 1 := by omega
    have eb : b = 0 ∨ b = 1 := by omega
    rcases ea with rfl | rfl <;> rcases eb with rfl | rfl <;> simp [xorLabel]

theorem xorColumns_length (x : List (List Int)) : (xorColumns x).length = x.length := by simp [xorColumns]

/-- **C48**: whenever `xor_dataset` returns, the examples are binary tables of the sizes asked for, the test labels are the
exclusive or of the first two literals, and so are the training labels, except in the rows where noise flipped them. No row
is flipped without noise or with noise of zero or less, every row is with noise of at least one, and otherwise a row is
flipped exactly if its number, drawn from [0, 1), is below the noise. -/
theorem C48_xor_dataset {S : Type} (np : NpRandom S) (hnp : NumpyRandom np) (noise : Option Rat) (nTrain nTest nLits seed : Int)
    (tx sx : List (List Nat)) (ty sy : List Nat)
    (h : xorDataset np noise nTrain nTest nLits seed = .ok (tx, ty, sx, sy)) :
    BinaryTable tx nTrain nLits ∧ BinaryTable sx nTest nLits ∧ sy = sx.map xorLabel ∧
    ∃ flips : List Bool, (flips.length : Int) = nTrain ∧
      ty = List.zipWith (fun (f : Bool) (r : List Nat) => if f then 1 - xorLabel r else xorLabel r) flips tx ∧
      (noise = none → ∀ f ∈ flips, f = false) ∧
      (∀ p, noise = some p → ∃ u : List Rat, u.length = flips.length ∧ (∀ v ∈ u, 0 ≤ v ∧ v < 1) ∧
        flips = u.map fun v => decide (v < p)) := by
  unfold xorDataset at h
  cases hi : np.init seed with
  | error e => rw [hi] at h; simp at h
  | ok g =>
  rw [hi] at h
  dsimp only at h
  split at h
  · cases h
  rename_i hn
  cases h1 : np.randint 0 2 nTrain nLits g with
  | error e => rw [h1] at h; simp at h
  | ok r1 =>
  obtain ⟨x1, g1⟩ := r1
  rw [h1] at h
  dsimp only at h
  cases h2 : addNoise np noise nTrain (xorColumns x1) g1 with
  | error e => rw [h2] at h; simp at h
  | ok r2 =>
  obtain ⟨y1, g2⟩ := r2
  rw [h2] at h
  dsimp only at h
  cases h3 : np.randint 0 2 nTest nLits g2 with
  | error e => rw [h3] at h; simp at h
  | ok r3 =>
  obtain ⟨x2, g3⟩ := r3
  rw [h3] at h
  simp only [Except.ok.injEq, Prod.mk.injEq] at h
  obtain ⟨rfl, rfl, rfl, rfl⟩ := h
  obtain ⟨l1, w1⟩ := hnp.randint _ _ _ _ _ _ _ h1
  obtain ⟨l2, w2⟩ := hnp.randint _ _ _ _ _ _ _ h3
  refine ⟨literalsOf_table l1 w1, literalsOf_table l2 w2, xorColumns_label (by omega) w2, ?_⟩
  have hx := xorColumns_label (by omega) w1
  have hplain : ∀ m, m = x1.length → labelsOf (xorColumns x1) =
      List.zipWith (fun (f : Bool) (r : List Nat) => if f then 1 - xorLabel r else xorLabel r)
        (List.replicate m false) (literalsOf x1) := by
    intro m hm
    rw [hx]
    have : ∀ l : List (List Nat), l.map xorLabel =
        List.zipWith (fun (f : Bool) (r : List Nat) => if f then 1 - xorLabel r else xorLabel r)
          (List.replicate l.length false) l := by
      intro l
      induction l with
      | nil => rfl
      | cons a l ih => simp [List.replicate_succ, ih]
    rw [this]
    simp [literalsOf, hm]
  have hflip : ∀ flips : List Bool, labelsOf (flipLabels flips (xorColumns x1)) =
      List.zipWith (fun (f : Bool) (r : List Nat) => if f then 1 - xorLabel r else xorLabel r) flips (literalsOf x1) := by
    intro flips
    have gen : ∀ (ys : List Bool) (zs : List (List Nat)), labelsOf ys = zs.map xorLabel → ∀ flips : List Bool,
        labelsOf (flipLabels flips ys) =
          List.zipWith (fun (f : Bool) (r : List Nat) => if f then 1 - xorLabel r else xorLabel r) flips zs := by
      intro ys
      induction ys with
      | nil => intro zs hz flips; cases zs with
        | nil => simp [flipLabels, labelsOf]
        | cons a zs => simp [labelsOf] at hz
      | cons b ys ih => intro zs hz flips; cases zs with
        | nil => simp [labelsOf] at hz
        | cons a zs =>
          cases flips with
          | nil => simp [flipLabels, labelsOf]
          | cons f flips =>
            simp only [labelsOf, List.map_cons, List.cons.injEq] at hz
            have := ih zs hz.2 flips
            simp only [labelsOf, flipLabels, List.zipWith_cons_cons, List.map_cons, List.cons.injEq] at this ⊢
            refine ⟨?_, this⟩
            rw [← hz.1]
            cases f <;> cases b <;> rfl
    exact gen _ _ hx flips
  unfold addNoise at h2
  cases noise with
  | none =>
    simp only [Except.ok.injEq, Prod.mk.injEq] at h2
    refine ⟨List.replicate x1.length false, by simpa using l1, ?_, ?_, by simp⟩
    · rw [← h2.1]; exact hplain _ rfl
    · intro _ f hf; exact (List.mem_replicate.mp hf).2
  | some p =>
    dsimp only at h2
    split at h2
    · rename_i hp
      cases hu : np.random nTrain g1 with
      | error e => rw [hu] at h2; simp at h2
      | ok r =>
      obtain ⟨u, g'⟩ := r
      rw [hu] at h2
      simp only [Except.ok.injEq, Prod.mk.injEq] at h2
      obtain ⟨lu, wu⟩ := hnp.random _ _ _ _ hu
      refine ⟨u.map fun v => decide (v < p), by simpa using lu, ?_, by simp, ?_⟩
      · rw [← h2.1]; exact hflip _
      · intro p' hp'
        cases hp'
        exact ⟨u, by simp, wu, rfl⟩
    · rename_i hp
      simp only [Except.ok.injEq, Prod.mk.injEq] at h2
      refine ⟨List.replicate x1.length false, by simpa using l1, ?_, by simp, ?_⟩
      · rw [← h2.1]; exact hplain _ rfl
      · intro p' hp'
        cases hp'
        refine ⟨List.replicate x1.length 0, by simp, ?_, ?_⟩
        · intro v hv; rw [(List.mem_replicate.mp hv).2]; decide +kernel
        · simp [hp]

/-- **C48**: fewer than two literals are rejected with ValueError, whatever the other arguments (and whatever a valid
seed). -/
theorem C48_too_few_literals {S : Type} (np : NpRandom S) (noise : Option Rat) (nTrain nTest nLits seed : Int) (g : S)
    (hs : np.init seed = .ok g) (h : nLits < 2) : xorDataset np noise nTrain nTest nLits seed = .error .valueError := by
  unfold xorDataset
  rw [hs]
  simp [h]

/-- **C48**: all other sizes are accepted. -/
theorem C48_accepted {S : Type} (np : NpRandom S) (hnp : NumpyRandom np) (noise : Option Rat) (nTrain nTest nLits seed : Int)
    (g : S) (hs : np.init seed = .ok g) (h : 2 ≤ nLits) (h1 : 0 ≤ nTrain) (h2 : 0 ≤ nTest) :
    ∃ r, xorDataset np noise nTrain nTest nLits seed = .ok r := by
  unfold xorDataset
  rw [hs]
  obtain ⟨⟨x1, g1⟩, e1⟩ := hnp.randint_ok 0 2 nTrain nLits g (by decide) h1 (by omega)
  have e2 : ∃ r, addNoise np noise nTrain (xorColumns x1) g1 = .ok r := by
    unfold addNoise
    cases noise with
    | none => exact ⟨_, rfl⟩
    | some p =>
      dsimp only
      split
      · obtain ⟨⟨u, g'⟩, e⟩ := hnp.random_ok nTrain g1 h1
        rw [e]
        exact ⟨_, rfl⟩
      · exact ⟨_, rfl⟩
  obtain ⟨⟨y1, g2⟩, e2⟩ := e2
  obtain ⟨⟨x2, g3⟩, e3⟩ := hnp.randint_ok 0 2 nTest nLits g2 (by decide) h2 (by omega)
  dsimp only
  rw [if_neg (by omega)]
  simp only [e1, e2, e3]
  exact ⟨_, rfl⟩

/-- A generator that meets numpy's documentation. -/
def exNumpy : NpRandom Nat where
  init s := if s < 0 then .error .valueError else .ok s.toNat
  randint low high rows cols g :=
    if low < high ∧ 0 ≤ rows ∧ 0 ≤ cols then
      .ok ((List.range rows.toNat).map (fun i => (List.range cols.toNat).map fun (j : Nat) =>
        low + ((g + i * (j + 1) : Nat) : Int) % (high - low)), g + 1)
    else .error .valueError
  random n g :=
    if 0 ≤ n then .ok ((List.range n.toNat).map (fun i => (((g + i) % 4 : Nat) : Rat) / 4), g + 1) else .error .valueError

theorem exNumpy_ok : NumpyRandom exNumpy where
  randint := by
    intro low high rows cols g g' x h
    simp only [exNumpy] at h
    split at h
    · rename_i hc
      simp only [Except.ok.injEq, Prod.mk.injEq] at h
      obtain ⟨rfl, -⟩ := h
      refine ⟨by simp; omega, ?_⟩
      intro r hr
      simp only [List.mem_map] at hr
      obtain ⟨i, -, rfl⟩ := hr
      refine ⟨by simp; omega, ?_⟩
      intro v hv
      simp only [List.mem_map] at hv
      obtain ⟨j, -, rfl⟩ := hv
      have h1 := Int.emod_nonneg ((g + i * (j + 1) : Nat) : Int) (show high - low ≠ 0 by omega)
      have h2 := Int.emod_lt_of_pos ((g + i * (j + 1) : Nat) : Int) (show 0 < high - low by omega)
      omega
    · cases h
  randint_ok := by
    intro low high rows cols g h1 h2 h3
    simp only [exNumpy]
    rw [if_pos ⟨h1, h2, h3⟩]
    exact ⟨_, rfl⟩
  random := by
    intro n g g' u h
    simp only [exNumpy] at h
    split at h
    · simp only [Except.ok.injEq, Prod.mk.injEq] at h
      obtain ⟨rfl, -⟩ := h
      refine ⟨by simp; omega, ?_⟩
      intro v hv
      simp only [List.mem_map] at hv
      obtain ⟨i, -, rfl⟩ := hv
      have hk : (g + i) % 4 < 4 := Nat.mod_lt _ (by decide)
      generalize (g + i) % 4 = k at hk
      have : k = 0 ∨ k = 1 ∨ k = 2 ∨ k = 3 := by omega
      rcases this with rfl | rfl | rfl | rfl <;> decide +kernel
    · cases h
  random_ok := by
    intro n g h
    simp only [exNumpy]
    rw [if_pos h]
    exact ⟨_, rfl⟩

example : (xorDataset exNumpy (some (1 / 2)) 4 2 3 1).toOption =
    some ([[1, 1, 1], [0, 1, 0], [1, 1, 1], [0, 1, 0]], [0, 1, 1, 0], [[1, 1, 1], [0, 1, 0]], [0, 1]) := by
  decide +kernel

end GT
