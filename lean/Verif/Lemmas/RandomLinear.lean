import Verif.Model.Random

/-!
# Linear maps on 64-bit words, and the map of the AVX2 generator
-/

namespace GT

/-- `f` applied `n` times. -/
def iter (f : Nat → Nat) : Nat → Nat → Nat
  | 0, v => v
  | n + 1, v => iter f n (f v)

theorem iter_add (f : Nat → Nat) (m n v : Nat) : iter f (m + n) v = iter f n (iter f m v) := by
  induction m generalizing v with
  | zero => rw [Nat.zero_add]; rfl
  | succ m ih => rw [Nat.succ_add]; exact ih (f v)

theorem iter_succ (f : Nat → Nat) (n v : Nat) : iter f (n + 1) v = f (iter f n v) := iter_add f n 1 v

theorem iter_mul (f : Nat → Nat) (n k v : Nat) : iter f (n * k) v = iter (iter f n) k v := by
  induction k generalizing v with
  | zero => rfl
  | succ k ih => rw [Nat.mul_succ, Nat.add_comm, iter_add, ih]; rfl

/-- Linear over the field with two elements. -/
def LinearXor (f : Nat → Nat) : Prop := ∀ a b, f (a ^^^ b) = f a ^^^ f b

theorem LinearXor.zero {f : Nat → Nat} (h : LinearXor f) : f 0 = 0 := by
  have := h 0 0
  simp at this
  exact this

theorem LinearXor.comp {f g : Nat → Nat} (hf : LinearXor f) (hg : LinearXor g) : LinearXor (fun v => f (g v)) := by
  intro a b
  show f (g (a ^^^ b)) = _
  rw [hg, hf]

theorem LinearXor.iter {f : Nat → Nat} (hf : LinearXor f) (n : Nat) : LinearXor (GT.iter f n) := by
  intro a b
  induction n generalizing a b with
  | zero => rfl
  | succ n ih => exact (congrArg _ (hf a b)).trans (ih _ _)

/-- The map whose value at `2^i` is the `i`-th entry. -/
def matApply : List Nat → Nat → Nat
  | [], _ => 0
  | c :: cs, v => (if v % 2 = 1 then c else 0) ^^^ matApply cs (v / 2)

theorem xor_bit0 (a b : Nat) : (a ^^^ b) % 2 = (a % 2 + b % 2) % 2 := by
  have h := Nat.xor_mod_two_eq_one (a := a) (b := b)
  rcases Nat.mod_two_eq_zero_or_one a with ha | ha <;> rcases Nat.mod_two_eq_zero_or_one b with hb | hb <;>
    simp only [ha, hb] at h ⊢ <;> rcases Nat.mod_two_eq_zero_or_one (a ^^^ b) with hc | hc <;> simp [hc] at h ⊢

theorem xor_half (a b : Nat) : (a ^^^ b) / 2 = a / 2 ^^^ b / 2 := by
  have := Nat.shiftRight_xor_distrib (a := a) (b := b) (i := 1)
  simpa [Nat.shiftRight_succ] using this

theorem ite_xor (c a b : Nat) :
    (if (a ^^^ b) % 2 = 1 then c else 0) = (if a % 2 = 1 then c else 0) ^^^ (if b % 2 = 1 then c else 0) := by
  have h := xor_bit0 a b
  rcases Nat.mod_two_eq_zero_or_one a with ha | ha <;> rcases Nat.mod_two_eq_zero_or_one b with hb | hb <;>
    simp [h, ha, hb]

theorem matApply_linear (cs : List Nat) : LinearXor (matApply cs) := by
  induction cs with
  | nil => intro a b; simp [matApply]
  | cons c cs ih =>
    intro a b
    simp only [matApply]
    rw [ite_xor, xor_half, ih]
    generalize (if a % 2 = 1 then c else 0) = p
    generalize (if b % 2 = 1 then c else 0) = q
    generalize matApply cs (a / 2) = r
    generalize matApply cs (b / 2) = s
    rw [Nat.xor_assoc, Nat.xor_assoc]
    congr 1
    rw [← Nat.xor_assoc, Nat.xor_comm q r, Nat.xor_assoc]

theorem double_xor (a b : Nat) : 2 * (a ^^^ b) = 2 * a ^^^ 2 * b := by
  have := Nat.shiftLeft_xor_distrib (a := a) (b := b) (i := 1)
  simp only [Nat.shiftLeft_eq, Nat.pow_one, Nat.mul_comm _ 2] at this
  exact this

theorem split_bit (v : Nat) : v = (v % 2) ^^^ (2 * (v / 2)) := by
  apply Nat.eq_of_testBit_eq
  intro i
  rw [Nat.testBit_xor]
  cases i with
  | zero =>
    simp [Nat.testBit_zero]
  | succ i =>
    rw [Nat.testBit_succ, Nat.testBit_succ, Nat.testBit_succ]
    have h1 : v % 2 / 2 = 0 := by omega
    have h2 : 2 * (v / 2) / 2 = v / 2 := by omega
    rw [h1, h2]
    simp

theorem matApply_ext (n : Nat) (f : Nat → Nat) (hf : LinearXor f) (v : Nat) (hv : v < 2 ^ n) :
    matApply ((List.range n).map fun i => f (2 ^ i)) v = f v := by
  induction n generalizing f v with
  | zero =>
    have : v = 0 := by simpa using hv
    subst this
    simp [matApply, hf.zero]
  | succ n ih =>
    rw [List.range_succ_eq_map, List.map_cons, List.map_map, matApply]
    have hg : LinearXor (fun v => f (2 * v)) := by
      intro a b
      show f (2 * (a ^^^ b)) = _
      rw [double_xor, hf]
    have h := ih (fun v => f (2 * v)) hg (v / 2) (by rw [Nat.pow_succ] at hv; omega)
    have e : ((fun i => f (2 ^ i)) ∘ Nat.succ) = fun i => f (2 * 2 ^ i) := by
      funext i
      simp [Nat.pow_succ, Nat.mul_comm]
    rw [e, h]
    show _ = f v
    conv => rhs; rw [split_bit v]
    rw [hf]
    congr 1
    rcases Nat.mod_two_eq_zero_or_one v with h | h <;> simp [h, hf.zero]

/-- Product of two maps. -/
def matMul (a b : List Nat) : List Nat := b.map (matApply a)

theorem matApply_mul (a b : List Nat) (v : Nat) : matApply (matMul a b) v = matApply a (matApply b v) := by
  induction b generalizing v with
  | nil => simp [matMul, matApply, (matApply_linear a).zero]
  | cons c b ih =>
    simp only [matMul, List.map_cons, matApply]
    rw [(matApply_linear a)]
    have := ih (v / 2)
    simp only [matMul] at this
    rw [this]
    congr 1
    split
    · rfl
    · exact (matApply_linear a).zero.symm

/-! ### One lane of the AVX2 generator -/

/-- The new `part2` of a lane, on numbers. -/
def laneStep (s : Nat) : Nat :=
  (((s ^^^ (s <<< 23 % 2 ^ 64)) ^^^ s) ^^^ ((s ^^^ (s <<< 23 % 2 ^ 64)) >>> 18)) ^^^ (s >>> 5)

theorem xor_swap4 (a b c d : Nat) : (a ^^^ b) ^^^ (c ^^^ d) = (a ^^^ c) ^^^ (b ^^^ d) := by
  rw [Nat.xor_assoc, Nat.xor_assoc]
  congr 1
  rw [← Nat.xor_assoc, Nat.xor_comm b c, Nat.xor_assoc]

theorem LinearXor.xor {f g : Nat → Nat} (hf : LinearXor f) (hg : LinearXor g) : LinearXor (fun v => f v ^^^ g v) := by
  intro a b
  show f (a ^^^ b) ^^^ g (a ^^^ b) = _
  rw [hf, hg, xor_swap4]

theorem linear_id : LinearXor (fun v => v) := fun _ _ => rfl

theorem linear_shr (k : Nat) : LinearXor (fun v => v >>> k) := fun _ _ => Nat.shiftRight_xor_distrib

theorem linear_shl (k : Nat) : LinearXor (fun v => v <<< k % 2 ^ 64) := by
  intro a b
  show (a ^^^ b) <<< k % 2 ^ 64 = _
  rw [Nat.shiftLeft_xor_distrib, Nat.xor_mod_two_pow]

theorem laneStep_linear : LinearXor laneStep := by
  have h1 : LinearXor (fun s => s ^^^ (s <<< 23 % 2 ^ 64)) := linear_id.xor (linear_shl 23)
  exact ((h1.xor linear_id).xor ((linear_shr 18).comp h1)).xor (linear_shr 5)

theorem laneStep_lt {s : Nat} (h : s < 2 ^ 64) : laneStep s < 2 ^ 64 := by
  have h2 : s ^^^ (s <<< 23 % 2 ^ 64) < 2 ^ 64 := Nat.xor_lt_two_pow h (Nat.mod_lt _ (by decide))
  refine Nat.xor_lt_two_pow (Nat.xor_lt_two_pow (Nat.xor_lt_two_pow h2 h) ?_) ?_
  · exact Nat.lt_of_le_of_lt (Nat.shiftRight_le _ _) h2
  · exact Nat.lt_of_le_of_lt (Nat.shiftRight_le _ _) h

theorem iter_lt {s : Nat} (h : s < 2 ^ 64) (n : Nat) : iter laneStep n s < 2 ^ 64 := by
  induction n generalizing s with
  | zero => exact h
  | succ n ih => exact ih (laneStep_lt h)

/-- The matrix of `laneStep`. -/
def laneMat : List Nat := (List.range 64).map fun i => laneStep (2 ^ i)

/-- The identity. -/
def idMat : List Nat := (List.range 64).map fun i => 2 ^ i

/-- `r` is the matrix of `n` steps. -/
def IsPower (r : List Nat) (n : Nat) : Prop := ∀ v, v < 2 ^ 64 → matApply r v = iter laneStep n v

theorem isPower_mul {r s : List Nat} {m n : Nat} (hr : IsPower r m) (hs : IsPower s n) : IsPower (matMul r s) (n + m) := by
  intro v hv
  rw [matApply_mul, hs v hv, hr _ (iter_lt hv n), iter_add]

theorem isPower_one : IsPower laneMat 1 := fun v hv => matApply_ext 64 laneStep laneStep_linear v hv

theorem isPower_zero : IsPower idMat 0 := fun v hv => matApply_ext 64 (fun v => v) linear_id v hv

/-- Power given by the bits of the exponent, the highest first. -/
def powBits (r : List Nat) : List Bool → List Nat
  | [] => r
  | b :: bs => powBits (if b then matMul (matMul r r) laneMat else matMul r r) bs

/-- The number with these bits. -/
def bitsVal (n : Nat) : List Bool → Nat
  | [] => n
  | b :: bs => bitsVal (2 * n + (if b then 1 else 0)) bs

theorem isPower_bits (bs : List Bool) {r : List Nat} {n : Nat} (h : IsPower r n) : IsPower (powBits r bs) (bitsVal n bs) := by
  induction bs generalizing r n with
  | nil => exact h
  | cons b bs ih =>
    apply ih
    cases b with
    | false =>
      have := isPower_mul h h
      simpa [Nat.two_mul] using this
    | true =>
      have := isPower_mul (isPower_mul h h) isPower_one
      simpa [Nat.two_mul, Nat.add_comm] using this

/-- The bits of 51166430. -/
def periodBits : List Bool :=
  [true, true, false, false, false, false, true, true, false, false, true, false, true, true, true, true, false, false, true, true, false, true, true, true, true, false]

theorem period_mat : matMul (powBits idMat periodBits) (matMul laneMat laneMat) = matMul laneMat laneMat := by
  decide +kernel

/-- After two steps the lane repeats every 51166430 steps. -/
theorem lane_period (v : Nat) (hv : v < 2 ^ 64) : iter laneStep (2 + 51166430) v = iter laneStep 2 v := by
  have h2 : IsPower (matMul laneMat laneMat) 2 := isPower_mul isPower_one isPower_one
  have hP : IsPower (powBits idMat periodBits) 51166430 := by
    have := isPower_bits periodBits isPower_zero
    have e : bitsVal 0 periodBits = 51166430 := by decide
    rwa [e] at this
  have h := isPower_mul hP h2
  rw [period_mat] at h
  rw [← h v hv, h2 v hv]

theorem lane_period_mul (v : Nat) (hv : v < 2 ^ 64) (k : Nat) : iter laneStep (2 + 51166430 * k) v = iter laneStep 2 v := by
  induction k with
  | zero => rfl
  | succ k ih =>
    have e : 2 + 51166430 * (k + 1) = (2 + 51166430) + 51166430 * k := by omega
    rw [e, iter_add, lane_period v hv, ← iter_add, ih]

/-- Undoes two steps, up to the states that lead to zero. -/
def undoMat : List Nat :=
  [0x0, 0x0, 0x1ae4d7be04d79344, 0x2b20dd034c68835f, 0x353461012ed0d1b1,
   0x91d1905eba0746d, 0x31ee28373ed3b891, 0x1e40f9168e6103fa, 0x226880525905a223, 0x23a97e62451aa5da,
   0x3ace55bc79f3396c, 0xc0da7c141303693, 0x6f23dfdc7a7c8f1, 0x2e3061c766dcc1a9, 0x22870cad7eca1c1,
   0x450e195afd94382, 0x31910ea9b2f6440b, 0x39670bd63ea99c16, 0xb5f1b15cf857c67, 0x356a2c177699a885,
   0xdac26e81a22b096, 0x1b584dd03445612c, 0x1564819c81199213, 0x3420714647f481f1, 0x11d1ee353d3f47a9,
   0x1e9eb429d62a7ace, 0x1000000000, 0x2000000000, 0x1ae4d7fe04d79344, 0x2b20dd834c68835f,
   0x353460012ed0d1b1, 0x302dd68706e4b762, 0x723d3c8fad88f58, 0x10aed5eeb076bb67, 0x3fb4d9a2252ad319,
   0x3bc5d7be54d717e5, 0x14fe747b1faff8c5, 0xe25570b97dc9752, 0x2a3dc686a7e8b73, 0x1fa36f6ed02a85a2,
   0x3b4b7b1ce1453dd7, 0xf07fa80705c3fe5, 0x4eb22bee46fec8e, 0x34eb2d3e648b2c80, 0x104756c57bc01d4b,
   0x208ead8af7803a96, 0x388c57ac5dd63167, 0x889a3e1097a2685, 0xffa35bd5733e8dd, 0x3c20714647f481f1,
   0x1d1ee353d3f47a9, 0x3e9eb429d62a7ace, 0x3d9ca968f3c672d8, 0x3f95362bf90e5467, 0x256f7ad2a959bcce,
   0x37425cdda1750b44, 0x9fcc77db5fbf714, 0x2ac9437986b32d27, 0x36e75df4bb678d41, 0x145fb750c4195ec9,
   0x118fa32365767e9d, 0xcb5c7a237fad71, 0x196b8f446ff5ae2, 0x3e1019ab21aa4058]

/-- A word without its components along the two states that lead to zero. -/
def dropNil (v : Nat) : Nat :=
  (v ^^^ matApply ((List.range 64).map fun i => if i = 62 then 0x7d9ca978f3c672d8 else 0) v) ^^^
    matApply ((List.range 64).map fun i => if i = 63 then 0xbf95360bf90e5467 else 0) v

theorem dropNil_linear : LinearXor dropNil := (linear_id.xor (matApply_linear _)).xor (matApply_linear _)

theorem undo_mat : matMul undoMat (matMul laneMat laneMat) = (List.range 64).map fun i => dropNil (2 ^ i) := by
  decide +kernel

theorem undo_spec (v : Nat) (hv : v < 2 ^ 64) : matApply undoMat (iter laneStep 2 v) = dropNil v := by
  have h2 : IsPower (matMul laneMat laneMat) 2 := isPower_mul isPower_one isPower_one
  rw [← h2 v hv, ← matApply_mul, undo_mat]
  exact matApply_ext 64 dropNil dropNil_linear v hv

theorem matApply_single (n i c : Nat) (v : Nat) :
    matApply ((List.range n).map fun j => if j = i then c else 0) v = if i < n ∧ v.testBit i then c else 0 := by
  induction n generalizing i v with
  | zero => simp [matApply]
  | succ n ih =>
    rw [List.range_succ_eq_map, List.map_cons, List.map_map, matApply]
    cases i with
    | zero =>
      have e : (List.map ((fun j => if j = 0 then c else 0) ∘ Nat.succ) (List.range n)) =
          (List.range n).map fun j => if j = n then c else 0 := by
        apply List.map_congr_left
        intro j hj
        have := List.mem_range.mp hj
        simp only [Function.comp, Nat.succ_ne_zero, if_false]
        rw [if_neg (by omega)]
      rw [e, ih]
      simp [Nat.testBit_zero]
    | succ i =>
      have e : (List.map ((fun j => if j = i + 1 then c else 0) ∘ Nat.succ) (List.range n)) =
          (List.range n).map fun j => if j = i then c else 0 := by
        apply List.map_congr_left
        intro j _
        simp
      rw [e, ih, Nat.testBit_succ]
      simp

/-- Two steps lead to zero exactly from four states. -/
theorem two_steps_zero (v : Nat) (hv : v < 2 ^ 64) :
    iter laneStep 2 v = 0 ↔
      v = 0 ∨ v = 0xbf95360bf90e5467 ∨ v = 0x7d9ca978f3c672d8 ∨ v = 0xc2099f730ac826bf := by
  constructor
  · intro h
    have := undo_spec v hv
    rw [h, (matApply_linear undoMat).zero] at this
    unfold dropNil at this
    rw [matApply_single, matApply_single] at this
    have hx : ∀ a b c : Nat, 0 = (a ^^^ b) ^^^ c → a = b ^^^ c := by
      intro a b c h
      have : a ^^^ (b ^^^ c) = 0 := by rw [← Nat.xor_assoc]; exact h.symm
      have h2 : (a ^^^ (b ^^^ c)) ^^^ (b ^^^ c) = b ^^^ c := by rw [this, Nat.zero_xor]
      rwa [Nat.xor_assoc, Nat.xor_self, Nat.xor_zero] at h2
    have h3 := hx _ _ _ this
    rw [h3]
    cases v.testBit 62 <;> cases v.testBit 63 <;> simp
  · intro h
    rcases h with h | h | h | h <;> subst h <;> decide +kernel

theorem reaches_zero (v : Nat) (hv : v < 2 ^ 64) :
    (∃ k, iter laneStep k v = 0) ↔ iter laneStep 2 v = 0 := by
  constructor
  · rintro ⟨k, hk⟩
    have hz : ∀ n, iter laneStep n 0 = 0 := by
      intro n
      exact (laneStep_linear.iter n).zero
    have h := lane_period_mul v hv k
    have e : 2 + 51166430 * k = k + (2 + 51166429 * k) := by omega
    rw [e, iter_add, hk, hz] at h
    exact h.symm
  · intro h; exact ⟨2, h⟩

end GT
