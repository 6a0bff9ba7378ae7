import Verif.Lemmas.Layout
import Verif.Spec.Input

/-! # Lemmas about input blocks and patches -/

namespace GT
open Spec

/-! ### Input blocks -/

theorem setOnes_eq (p : CsrPtrs) (i : Nat) (buf : Nat → Int) (a : Nat) :
    setOnes p i buf a =
      if (∃ t, t < p.indptr (i + 1) - p.indptr i ∧ p.indices (p.indptr i + t) = a) then 1 else buf a := by
  unfold setOnes
  generalize p.indptr (i + 1) - p.indptr i = k
  induction k with
  | zero => simp
  | succ k ih =>
    rw [List.range_succ, List.foldl_append]
    simp only [List.foldl_cons, List.foldl_nil, ih]
    by_cases h : a = p.indices (p.indptr i + k)
    · rw [if_pos h, if_pos ⟨k, by omega, h.symm⟩]
    · rw [if_neg h]
      by_cases h2 : ∃ t, t < k ∧ p.indices (p.indptr i + t) = a
      · obtain ⟨t, ht, e⟩ := h2
        rw [if_pos ⟨t, ht, e⟩, if_pos ⟨t, by omega, e⟩]
      · rw [if_neg h2, if_neg]
        rintro ⟨t, ht, e⟩
        rcases Nat.lt_succ_iff_lt_or_eq.mp ht with h3 | rfl
        · exact h2 ⟨t, h3, e⟩
        · exact h e.symm

theorem pushLoop_eq (f : Nat → Nat) (k : Nat) :
    (List.range k).foldl (fun (v : List Nat) t => v ++ [f t]) [] = (List.range k).map f := by
  induction k with
  | zero => rfl
  | succ k ih => rw [List.range_succ, List.foldl_append, ih]; simp

theorem sum_zeros (l : List Int) (h : ∀ v ∈ l, v = 0) : l.sum = 0 := by
  induction l with
  | nil => rfl
  | cons a l ih => rw [List.sum_cons, ih (fun v hv => h v (by simp [hv])), h a (by simp)]; rfl

theorem sum_single (f : Nat → Int) (k t0 : Nat) (h0 : t0 < k) (hz : ∀ t, t < k → t ≠ t0 → f t = 0) :
    ((List.range k).map f).sum = f t0 := by
  induction k with
  | zero => omega
  | succ k ih =>
    rw [List.range_succ, List.map_append, List.sum_append]
    simp only [List.map_cons, List.map_nil, List.sum_cons, List.sum_nil, add_zero]
    by_cases h : t0 = k
    · subst h
      have : ((List.range t0).map f).sum = 0 := by
        apply sum_zeros
        intro v hv
        obtain ⟨t, ht, rfl⟩ := List.mem_map.mp hv
        have := List.mem_range.mp ht
        exact hz t (by omega) (by omega)
      omega
    · rw [ih (by omega) (fun t ht hne => hz t (by omega) hne), hz k (by omega) (by omega)]
      omega

theorem csrElem_canonical (x : Csr) (h : Canonical01 x) (i j : Nat) :
    csrElem x i j = if (∃ t, t < x.indptr (i + 1) - x.indptr i ∧ x.indices (x.indptr i + t) = j) then 1 else 0 := by
  unfold csrElem
  split
  · rename_i he
    obtain ⟨t0, h0, e0⟩ := he
    have hs : StoredAt x i j (x.indptr i + t0) := ⟨by omega, by omega, e0⟩
    rw [sum_single _ _ t0 h0]
    · rw [if_pos e0]; exact h.ones i j _ hs
    · intro t ht hne
      rw [if_neg]
      intro e
      have := h.once i j _ _ hs ⟨by omega, by omega, e⟩
      omega
  · rename_i he
    apply sum_zeros
    intro v hv
    obtain ⟨t, ht, rfl⟩ := List.mem_map.mp hv
    rw [if_neg]
    intro e
    exact he ⟨t, List.mem_range.mp ht, e⟩

/-! ### Patches -/

theorem foldl_cursor {M : Type} (f : M → Nat → Nat → M) (S k d : Nat) (m : M) :
    (List.range k).foldl (fun (s : M × Nat) i => (f s.1 s.2 i, s.2 + S)) (m, d) =
      ((List.range k).foldl (fun m i => f m (d + i * S) i) m, d + k * S) := by
  induction k with
  | zero => simp
  | succ k ih =>
    rw [List.range_succ, List.foldl_append, ih, List.foldl_append]
    simp only [List.foldl_cons, List.foldl_nil, Prod.mk.injEq, true_and]
    rw [Nat.succ_mul]; omega

theorem cumlative_eq (out : Nat → Int) (d number size : Nat) (hn : number ≤ size) (a : Nat) :
    cumlativeEncode out d number size a =
      if d ≤ a ∧ a < d + size then (if a - d < number then 1 else 0) else out a := by
  unfold cumlativeEncode
  induction number generalizing a with
  | zero => simp [memset]
  | succ k ih =>
    rw [List.range_succ, List.foldl_append]
    simp only [List.foldl_cons, List.foldl_nil, memset]
    rw [ih (by omega) a]
    by_cases h : d + k ≤ a ∧ a < d + k + 1
    · rw [if_pos h, if_pos (by omega), if_pos (by omega)]
    · rw [if_neg h]
      by_cases h2 : d ≤ a ∧ a < d + size
      · rw [if_pos h2, if_pos h2]
        by_cases h3 : a - d < k
        · rw [if_pos h3, if_pos (by omega)]
        · rw [if_neg h3, if_neg (by omega)]
      · rw [if_neg h2, if_neg h2]

namespace Im2col
variable (g : Im2col)

/-- Literal `j` of the patch at `(py, px)` of the image starting at `ex`. -/
def val (src : Nat → Int) (ex py px j : Nat) : Int :=
  if j < g.embY then (if j < py then 1 else 0)
  else if j < g.embY + g.embX then (if j - g.embY < px then 1 else 0)
  else
    let t := j - (g.embY + g.embX)
    src (ex + (py + t / (g.pw * g.channels)) * g.width * g.channels + px * g.channels + t % (g.pw * g.channels))

theorem lits_eq : g.lits = g.embY + g.embX + g.ph * (g.pw * g.channels) := by
  unfold lits
  have : g.pw * g.ph * g.channels = g.ph * (g.pw * g.channels) := by ring
  omega

/-- Source of a window row. -/
def rowStep (src : Nat → Int) (ex py px base : Nat) (m : Nat → Int) (y : Nat) : Nat → Int :=
  memcpy m (base + y * (g.pw * g.channels)) src (ex + (py + y) * g.width * g.channels + px * g.channels) (g.pw * g.channels)

/-- Value in a window row. -/
def rowVal (src : Nat → Int) (ex py px y j : Nat) : Int :=
  src (ex + (py + y) * g.width * g.channels + px * g.channels + j)

theorem rows_eq (src : Nat → Int) (ex py px base : Nat) (m : Nat → Int) (a : Nat) :
    (List.range g.ph).foldl (g.rowStep src ex py px base) m a =
      if base ≤ a ∧ a < base + g.ph * (g.pw * g.channels) then
        g.rowVal src ex py px ((a - base) / (g.pw * g.channels)) ((a - base) % (g.pw * g.channels)) else m a := by
  rw [rows_loop (g.rowStep src ex py px base) base (g.pw * g.channels) (fun _ => True) (g.rowVal src ex py px)]
  · simp only [and_true]
  · intro m i a
    unfold rowStep rowVal memcpy
    simp only [and_true]

theorem writePatch_eq (src : Nat → Int) (ex py px : Nat) (hy : py ≤ g.embY) (hx : px ≤ g.embX) (out : Nat → Int)
    (d a : Nat) :
    g.writePatch src ex py px out d a =
      if d ≤ a ∧ a < d + g.lits then g.val src ex py px (a - d) else out a := by
  unfold writePatch
  rw [foldl_cursor (fun m d y => memcpy m d src (ex + (py + y) * g.width * g.channels + px * g.channels)
    (g.pw * g.channels)) (g.pw * g.channels) g.ph]
  dsimp only
  have h := g.rows_eq src ex py px (d + g.embY + g.embX)
    (cumlativeEncode (cumlativeEncode out d py g.embY) (d + g.embY) px g.embX) a
  unfold rowStep at h
  rw [h, cumlative_eq _ _ _ _ hx, cumlative_eq _ _ _ _ hy, g.lits_eq]
  unfold val rowVal
  dsimp only
  generalize g.ph * (g.pw * g.channels) = R
  by_cases h1 : d + g.embY + g.embX ≤ a ∧ a < d + g.embY + g.embX + R
  · rw [if_pos h1, if_pos (by omega), if_neg (by omega), if_neg (by omega)]
    have : a - (d + g.embY + g.embX) = a - d - (g.embY + g.embX) := by omega
    rw [this]
  · rw [if_neg h1]
    by_cases h2 : d + g.embY ≤ a ∧ a < d + g.embY + g.embX
    · have e : a - (d + g.embY) = a - d - g.embY := by omega
      rw [if_pos h2, e, if_pos (show d ≤ a ∧ a < d + (g.embY + g.embX + R) by omega),
        if_neg (show ¬ a - d < g.embY by omega), if_pos (show a - d < g.embY + g.embX by omega)]
    · rw [if_neg h2]
      by_cases h3 : d ≤ a ∧ a < d + g.embY
      · rw [if_pos h3, if_pos (show d ≤ a ∧ a < d + (g.embY + g.embX + R) by omega),
          if_pos (show a - d < g.embY by omega)]
      · rw [if_neg h3, if_neg (show ¬ (d ≤ a ∧ a < d + (g.embY + g.embX + R)) by omega)]

/-- Writing only looks at `py ≤ embY`; outside, nothing is claimed. -/
def pxStep (src : Nat → Int) (ex py base : Nat) (m : Nat → Int) (px : Nat) : Nat → Int :=
  g.writePatch src ex py px m (base + px * g.lits)

theorem foldl_range_congr {M : Type} (f f' : M → Nat → M) (k : Nat) (h : ∀ m i, i < k → f m i = f' m i) (m : M) :
    (List.range k).foldl f m = (List.range k).foldl f' m := by
  induction k with
  | zero => rfl
  | succ k ih =>
    rw [List.range_succ, List.foldl_append, List.foldl_append, ih (fun m i hi => h m i (by omega))]
    exact h _ _ (by omega)

/-- A loop whose `i`-th pass (`i < k`) writes exactly the `i`-th row. -/
theorem rows_loop' (f : (Nat → Int) → Nat → (Nat → Int)) (base S : Nat) (v : Nat → Nat → Int) (k : Nat)
    (hf : ∀ (m : Nat → Int) (i : Nat), i < k → ∀ a, f m i a =
      if base + i * S ≤ a ∧ a < base + i * S + S then v i (a - (base + i * S)) else m a)
    (m : Nat → Int) (a : Nat) :
    (List.range k).foldl f m a =
      if base ≤ a ∧ a < base + k * S then v ((a - base) / S) ((a - base) % S) else m a := by
  rw [foldl_range_congr f (fun m i a => if base + i * S ≤ a ∧ a < base + i * S + S then v i (a - (base + i * S)) else m a)
    k (fun m i hi => funext (hf m i hi))]
  rw [rows_loop _ base S (fun _ => True) v]
  · simp only [and_true]
  · intro m i a; simp only [and_true]

theorem writeExample_eq (src : Nat → Int) (ex : Nat) (out : Nat → Int) (dst a : Nat) :
    g.writeExample src ex out dst a =
      if dst ≤ a ∧ a < dst + g.nY * (g.nX * g.lits) then
        g.val src ex ((a - dst) / (g.nX * g.lits)) ((a - dst) % (g.nX * g.lits) / g.lits)
          ((a - dst) % (g.nX * g.lits) % g.lits) else out a := by
  unfold writeExample
  have hin : ∀ py (s : (Nat → Int) × Nat),
      (List.range g.nX).foldl (fun (s : (Nat → Int) × Nat) px =>
        (g.writePatch src ex py px s.1 (dst + s.2 * g.lits), s.2 + 1)) s =
      ((List.range g.nX).foldl (fun m px => g.writePatch src ex py px m (dst + (s.2 + px * 1) * g.lits)) s.1,
        s.2 + g.nX * 1) := by
    intro py s
    exact foldl_cursor (fun m d px => g.writePatch src ex py px m (dst + d * g.lits)) 1 g.nX s.2 s.1
  simp only [hin, Nat.mul_one]
  have := foldl_cursor (fun m d py => (List.range g.nX).foldl
    (fun m px => g.writePatch src ex py px m (dst + (d + px) * g.lits)) m) g.nX g.nY 0 out
  rw [this]
  dsimp only
  simp only [Nat.zero_add]
  rw [rows_loop' _ dst (g.nX * g.lits)
    (fun py j => g.val src ex py (j / g.lits) (j % g.lits)) g.nY]
  intro m py hpy a
  have hb : dst + py * (g.nX * g.lits) = dst + py * g.nX * g.lits := by rw [Nat.mul_assoc]
  rw [rows_loop' _ (dst + py * (g.nX * g.lits)) g.lits (fun px j => g.val src ex py px j) g.nX]
  intro m px hpx a
  have : dst + (py * g.nX + px) * g.lits = dst + py * (g.nX * g.lits) + px * g.lits := by ring
  rw [this]
  exact g.writePatch_eq src ex py px (by unfold nY embY at *; omega) (by unfold nX embX at *; omega) m _ a

/-- Literal `j` of patch `(py, px)` of example `e` in the result. -/
theorem run_at (src out : Nat → Int) (e py px j : Nat) (he : e < g.nExamples) (hy : py < g.nY) (hx : px < g.nX)
    (hj : j < g.lits) :
    g.run src out ((e * g.nPatches + (py * g.nX + px)) * g.lits + j) =
      g.val src (e * (g.width * g.height * g.channels)) py px j := by
  unfold run
  rw [rows_loop' _ 0 (g.nPatches * g.lits) (fun e j => g.val src (e * (g.width * g.height * g.channels))
    (j / (g.nX * g.lits)) (j % (g.nX * g.lits) / g.lits) (j % (g.nX * g.lits) % g.lits)) g.nExamples]
  · have a1 : px * g.lits + j < g.nX * g.lits := row_lt _ _ _ _ hx hj
    have a2 : py * (g.nX * g.lits) + (px * g.lits + j) < g.nY * (g.nX * g.lits) := row_lt _ _ _ _ hy a1
    have a3 : g.nPatches * g.lits = g.nY * (g.nX * g.lits) := by unfold nPatches; ring
    have a4 : (e * g.nPatches + (py * g.nX + px)) * g.lits + j =
        e * (g.nPatches * g.lits) + (py * (g.nX * g.lits) + (px * g.lits + j)) := by ring
    rw [a4]
    have a5 : e * (g.nPatches * g.lits) + (py * (g.nX * g.lits) + (px * g.lits + j)) < g.nExamples * (g.nPatches * g.lits) :=
      row_lt _ _ _ _ he (by omega)
    rw [if_pos ⟨by omega, by omega⟩]
    obtain ⟨b1, b2⟩ := row_div_mod (g.nPatches * g.lits) e (py * (g.nX * g.lits) + (px * g.lits + j)) (by omega)
    obtain ⟨b3, b4⟩ := row_div_mod (g.nX * g.lits) py (px * g.lits + j) a1
    obtain ⟨b5, b6⟩ := row_div_mod g.lits px j hj
    rw [Nat.sub_zero, b1, b2, b3, b4, b5, b6]
  · intro m e he a
    rw [g.writeExample_eq]
    have a3 : g.nPatches * g.lits = g.nY * (g.nX * g.lits) := by unfold nPatches; ring
    rw [← a3]
    simp only [Nat.zero_add]

end Im2col
end GT
