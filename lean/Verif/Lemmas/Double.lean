import Verif.Model.Double
import Verif.Spec.Double
import Mathlib.Algebra.Order.Field.Rat
import Mathlib.Algebra.Order.Field.Power
import Mathlib.Tactic.Linarith
import Mathlib.Tactic.FieldSimp
import Mathlib.Tactic.Positivity
import Mathlib.Tactic.NormNum
import Mathlib.Tactic.Ring

/-! # Rounding to doubles: helper lemmas -/

namespace GT.Dbl
open Spec

theorem two_zpow_pos (e : Int) : (0 : Rat) < 2 ^ e := zpow_pos (by norm_num) e

theorem zpow_mono {a b : Int} (h : a ≤ b) : (2 : Rat) ^ a ≤ 2 ^ b := zpow_le_zpow_right₀ (by norm_num) h

theorem zpow_lt {a b : Int} (h : a < b) : (2 : Rat) ^ a < 2 ^ b := zpow_lt_zpow_right₀ (by norm_num) h

theorem ilog2_spec (x : Rat) (hx : 0 < x) : (2 : Rat) ^ ilog2 x ≤ x ∧ x < (2 : Rat) ^ (ilog2 x + 1) := by
  have hn : x.num.natAbs ≠ 0 := by
    have := Rat.num_pos.mpr hx
    omega
  have hd : x.den ≠ 0 := x.den_nz
  have hxe : x = (x.num.natAbs : Rat) / x.den := by
    have h1 : ((x.num.natAbs : Int) : Rat) = (x.num : Rat) := by
      congr 1
      have := Rat.num_pos.mpr hx
      omega
    have h2 : (x.num.natAbs : Rat) = ((x.num.natAbs : Int) : Rat) := (Int.cast_natCast _).symm
    rw [h2, h1, Rat.num_div_den]
  have a1 : (2 : Rat) ^ (x.num.natAbs.log2 : Int) ≤ x.num.natAbs := by
    rw [zpow_natCast]; exact_mod_cast Nat.log2_self_le hn
  have a2 : (x.num.natAbs : Rat) < (2 : Rat) ^ ((x.num.natAbs.log2 : Int) + 1) := by
    have := Nat.lt_log2_self (n := x.num.natAbs)
    have e : ((x.num.natAbs.log2 : Int) + 1) = ((x.num.natAbs.log2 + 1 : Nat) : Int) := by push_cast; rfl
    rw [e, zpow_natCast]; exact_mod_cast this
  have b1 : (2 : Rat) ^ (x.den.log2 : Int) ≤ x.den := by
    rw [zpow_natCast]; exact_mod_cast Nat.log2_self_le hd
  have b2 : (x.den : Rat) < (2 : Rat) ^ ((x.den.log2 : Int) + 1) := by
    have := Nat.lt_log2_self (n := x.den)
    have e : ((x.den.log2 : Int) + 1) = ((x.den.log2 + 1 : Nat) : Int) := by push_cast; rfl
    rw [e, zpow_natCast]; exact_mod_cast this
  have hdp : (0 : Rat) < x.den := by exact_mod_cast Nat.pos_of_ne_zero hd
  obtain ⟨p, hp⟩ : ∃ p : Int, p = (x.num.natAbs.log2 : Int) := ⟨_, rfl⟩
  rw [← hp] at a1 a2
  have up : x < (2 : Rat) ^ (p - (x.den.log2 : Int) + 1) := by
    rw [hxe, div_lt_iff₀ hdp]
    have e : (2 : Rat) ^ (p + 1) = 2 ^ (p - (x.den.log2 : Int) + 1) * 2 ^ (x.den.log2 : Int) := by
      rw [← zpow_add₀ (by norm_num)]; congr 1; omega
    rw [← hxe]
    calc (x.num.natAbs : Rat) < 2 ^ (p + 1) := a2
      _ = 2 ^ (p - (x.den.log2 : Int) + 1) * 2 ^ (x.den.log2 : Int) := e
      _ ≤ 2 ^ (p - (x.den.log2 : Int) + 1) * x.den := by
        apply mul_le_mul_of_nonneg_left b1 (two_zpow_pos _).le
  have lo : (2 : Rat) ^ (p - (x.den.log2 : Int) - 1) ≤ x := by
    rw [hxe, le_div_iff₀ hdp]
    rw [← hxe]
    have e : (2 : Rat) ^ p = 2 ^ (p - (x.den.log2 : Int) - 1) * 2 ^ ((x.den.log2 : Int) + 1) := by
      rw [← zpow_add₀ (by norm_num)]; congr 1; omega
    calc 2 ^ (p - (x.den.log2 : Int) - 1) * (x.den : Rat)
        ≤ 2 ^ (p - (x.den.log2 : Int) - 1) * 2 ^ ((x.den.log2 : Int) + 1) := by
          apply mul_le_mul_of_nonneg_left b2.le (two_zpow_pos _).le
      _ = 2 ^ p := e.symm
      _ ≤ _ := a1
  have hi : ilog2 x = if (2 : Rat) ^ (p - (x.den.log2 : Int)) ≤ x then p - (x.den.log2 : Int) else p - (x.den.log2 : Int) - 1 := by
    rw [hp]; rfl
  rw [hi]
  split
  · next h => exact ⟨h, up⟩
  · next h => exact ⟨lo, by rw [show p - (x.den.log2 : Int) - 1 + 1 = p - x.den.log2 by omega]; exact not_le.mp h⟩

theorem ilog2_unique (x : Rat) (e : Int) (h1 : (2 : Rat) ^ e ≤ x) (h2 : x < (2 : Rat) ^ (e + 1)) : ilog2 x = e := by
  obtain ⟨g1, g2⟩ := ilog2_spec x (lt_of_lt_of_le (two_zpow_pos e) h1)
  by_contra hne
  rcases lt_or_gt_of_ne hne with h | h
  · have := zpow_mono (show ilog2 x + 1 ≤ e by omega)
    linarith
  · have := zpow_mono (show e + 1 ≤ ilog2 x by omega)
    linarith

/-! ## Rounding to an integer -/

theorem roundEven_cases (y : Rat) :
    (roundEven y = y.floor ∧ y - y.floor ≤ 1 / 2) ∨ (roundEven y = y.floor + 1 ∧ 1 / 2 ≤ y - y.floor) := by
  unfold roundEven
  split
  · next h => exact .inl ⟨rfl, h.le⟩
  · next h =>
    split
    · next h' => exact .inr ⟨rfl, h'.le⟩
    · next h' =>
      split
      · exact .inl ⟨rfl, not_lt.mp h'⟩
      · exact .inr ⟨rfl, not_lt.mp h⟩

theorem floor_le' (y : Rat) : (y.floor : Rat) ≤ y := Rat.floor_le ..
theorem lt_floor' (y : Rat) : y < (y.floor : Rat) + 1 := by
  have := Rat.lt_floor (x := y)
  linarith

theorem roundEven_err (y : Rat) : |(roundEven y : Rat) - y| ≤ 1 / 2 := by
  have h1 := floor_le' y
  have h2 := lt_floor' y
  rw [abs_le]
  rcases roundEven_cases y with ⟨e, h⟩ | ⟨e, h⟩ <;> rw [e] <;> push_cast <;> constructor <;> linarith

theorem le_roundEven (y : Rat) (k : Int) (h : (k : Rat) ≤ y) : k ≤ roundEven y := by
  have : k ≤ y.floor := Rat.le_floor_iff.mpr h
  rcases roundEven_cases y with ⟨e, -⟩ | ⟨e, -⟩ <;> omega

theorem roundEven_le (y : Rat) (k : Int) (h : y ≤ k) : roundEven y ≤ k := by
  rcases lt_or_eq_of_le h with h | h
  · have h1 := floor_le' y
    have : (y.floor : Rat) < k := by linarith
    have : y.floor < k := by exact_mod_cast this
    rcases roundEven_cases y with ⟨e, -⟩ | ⟨e, -⟩ <;> omega
  · have hf : y.floor = k := by
      apply le_antisymm
      · have := floor_le' y
        rw [h] at this
        have : y.floor ≤ k := by rw [h]; exact_mod_cast this
        exact this
      · exact Rat.le_floor_iff.mpr h.ge
    rcases roundEven_cases y with ⟨e, -⟩ | ⟨e, h'⟩
    · omega
    · rw [hf, h] at h'
      norm_num at h'

theorem roundEven_int (k : Int) : roundEven k = k := le_antisymm (roundEven_le _ _ le_rfl) (le_roundEven _ _ le_rfl)

theorem roundEven_mono {y z : Rat} (h : y ≤ z) : roundEven y ≤ roundEven z := by
  have hf : y.floor ≤ z.floor := Rat.floor_monotone h
  rcases Int.lt_or_eq_of_le hf with hlt | heq
  · have h1 := lt_floor' y
    have : y ≤ ((y.floor + 1 : Int) : Rat) := by push_cast; linarith
    have a := roundEven_le y _ this
    have b := le_roundEven z z.floor (floor_le' z)
    omega
  · unfold roundEven
    rw [heq]
    split_ifs <;> first | omega | (exfalso; linarith)

/-! ## Rounding to a double -/

theorem rnd_nonneg_eq {x : Rat} (h : 0 ≤ x) : rnd x = rndPos x := if_neg (not_lt.mpr h)

theorem rnd_zero : rnd 0 = 0 := by rw [rnd_nonneg_eq le_rfl]; simp [rndPos]

theorem rnd_pos_eq {x : Rat} (h : 0 < x) :
    rnd x = roundEven (x / (2 : Rat) ^ (ilog2 x - 52)) * (2 : Rat) ^ (ilog2 x - 52) := by
  rw [rnd_nonneg_eq h.le, rndPos, if_neg h.ne']

theorem scaled (x : Rat) (hx : 0 < x) :
    ((2 ^ 52 : Int) : Rat) ≤ x / (2 : Rat) ^ (ilog2 x - 52) ∧ x / (2 : Rat) ^ (ilog2 x - 52) < ((2 ^ 53 : Int) : Rat) := by
  obtain ⟨h1, h2⟩ := ilog2_spec x hx
  have hu := two_zpow_pos (ilog2 x - 52)
  constructor
  · rw [le_div_iff₀ hu]
    calc ((2 ^ 52 : Int) : Rat) * 2 ^ (ilog2 x - 52) = (2 : Rat) ^ (52 : Int) * 2 ^ (ilog2 x - 52) := by norm_num
      _ = 2 ^ ilog2 x := by rw [← zpow_add₀ (by norm_num)]; congr 1; omega
      _ ≤ x := h1
  · rw [div_lt_iff₀ hu]
    calc x < 2 ^ (ilog2 x + 1) := h2
      _ = (2 : Rat) ^ (53 : Int) * 2 ^ (ilog2 x - 52) := by rw [← zpow_add₀ (by norm_num)]; congr 1; omega
      _ = ((2 ^ 53 : Int) : Rat) * 2 ^ (ilog2 x - 52) := by norm_num

/-- The rounded number stays between the powers of two around it. -/
theorem rnd_binade (x : Rat) (hx : 0 < x) : (2 : Rat) ^ ilog2 x ≤ rnd x ∧ rnd x ≤ (2 : Rat) ^ (ilog2 x + 1) := by
  obtain ⟨h1, h2⟩ := scaled x hx
  have hu := two_zpow_pos (ilog2 x - 52)
  rw [rnd_pos_eq hx]
  have a := le_roundEven _ _ h1
  have b := roundEven_le _ _ h2.le
  have a' : ((2 ^ 52 : Int) : Rat) ≤ (roundEven (x / (2 : Rat) ^ (ilog2 x - 52)) : Rat) := by exact_mod_cast a
  have b' : (roundEven (x / (2 : Rat) ^ (ilog2 x - 52)) : Rat) ≤ ((2 ^ 53 : Int) : Rat) := by exact_mod_cast b
  constructor
  · calc (2 : Rat) ^ ilog2 x = (2 : Rat) ^ (52 : Int) * 2 ^ (ilog2 x - 52) := by
          rw [← zpow_add₀ (by norm_num)]; congr 1; omega
      _ = ((2 ^ 52 : Int) : Rat) * 2 ^ (ilog2 x - 52) := by norm_num
      _ ≤ _ := mul_le_mul_of_nonneg_right a' hu.le
  · calc _ ≤ ((2 ^ 53 : Int) : Rat) * 2 ^ (ilog2 x - 52) := mul_le_mul_of_nonneg_right b' hu.le
      _ = (2 : Rat) ^ (53 : Int) * 2 ^ (ilog2 x - 52) := by norm_num
      _ = 2 ^ (ilog2 x + 1) := by rw [← zpow_add₀ (by norm_num)]; congr 1; omega

theorem rnd_pos {x : Rat} (hx : 0 < x) : 0 < rnd x := lt_of_lt_of_le (two_zpow_pos _) (rnd_binade x hx).1

theorem rnd_nonneg {x : Rat} (hx : 0 ≤ x) : 0 ≤ rnd x := by
  rcases lt_or_eq_of_le hx with h | h
  · exact (rnd_pos h).le
  · rw [← h, rnd_zero]

theorem rnd_eq_zero {x : Rat} (hx : 0 ≤ x) : rnd x = 0 ↔ x = 0 := by
  constructor
  · intro h
    by_contra hne
    exact (rnd_pos (lt_of_le_of_ne hx (Ne.symm hne))).ne' h
  · rintro rfl; exact rnd_zero

theorem rnd_mono {x y : Rat} (hx : 0 ≤ x) (h : x ≤ y) : rnd x ≤ rnd y := by
  rcases lt_or_eq_of_le hx with hx | hx
  swap
  · rw [← hx, rnd_zero]; exact rnd_nonneg (by linarith)
  have hy : 0 < y := by linarith
  obtain ⟨x1, x2⟩ := ilog2_spec x hx
  obtain ⟨y1, y2⟩ := ilog2_spec y hy
  have he : ilog2 x ≤ ilog2 y := by
    by_contra hc
    have := zpow_mono (show ilog2 y + 1 ≤ ilog2 x by omega)
    linarith
  rcases Int.lt_or_eq_of_le he with hlt | heq
  · have a := (rnd_binade x hx).2
    have b := (rnd_binade y hy).1
    have := zpow_mono (show ilog2 x + 1 ≤ ilog2 y by omega)
    linarith
  · rw [rnd_pos_eq hx, rnd_pos_eq hy, heq]
    have hu := two_zpow_pos (ilog2 y - 52)
    apply mul_le_mul_of_nonneg_right _ hu.le
    have := roundEven_mono (div_le_div_of_nonneg_right h hu.le)
    exact_mod_cast this

/-- The error is at most half a unit in the last place, `2^-53` of the number. -/
theorem rnd_err {x : Rat} (hx : 0 ≤ x) : |rnd x - x| ≤ x / 2 ^ 53 := by
  rcases lt_or_eq_of_le hx with hx | hx
  swap
  · rw [← hx, rnd_zero]; norm_num
  rw [rnd_pos_eq hx]
  have hu := two_zpow_pos (ilog2 x - 52)
  have e := roundEven_err (x / (2 : Rat) ^ (ilog2 x - 52))
  obtain ⟨h1, -⟩ := scaled x hx
  rw [le_div_iff₀ hu] at h1
  have e2 : (roundEven (x / (2 : Rat) ^ (ilog2 x - 52)) : Rat) * 2 ^ (ilog2 x - 52) - x =
      ((roundEven (x / (2 : Rat) ^ (ilog2 x - 52)) : Rat) - x / 2 ^ (ilog2 x - 52)) * 2 ^ (ilog2 x - 52) := by
    field_simp
  rw [e2, abs_mul, abs_of_pos hu]
  have := mul_le_mul_of_nonneg_right e hu.le
  have h3 : ((2 ^ 52 : Int) : Rat) = 2 ^ 52 := by norm_num
  rw [h3] at h1
  calc _ ≤ 1 / 2 * (2 : Rat) ^ (ilog2 x - 52) := this
    _ ≤ x / 2 ^ 53 := by
      rw [le_div_iff₀ (by norm_num)]
      calc 1 / 2 * (2 : Rat) ^ (ilog2 x - 52) * 2 ^ 53 = 2 ^ 52 * 2 ^ (ilog2 x - 52) := by ring
        _ ≤ x := h1

theorem isDouble_rnd (x : Rat) : IsDouble (rnd x) := by
  have key : ∀ y : Rat, 0 ≤ y → IsDouble (rndPos y) := by
    intro y hy
    rcases lt_or_eq_of_le hy with hy | hy
    swap
    · rw [← hy]; exact ⟨0, 0, by norm_num, by simp [rndPos]⟩
    rw [← rnd_nonneg_eq hy.le, rnd_pos_eq hy]
    obtain ⟨h1, h2⟩ := scaled y hy
    have a := le_roundEven _ _ h1
    have b := roundEven_le _ _ h2.le
    rcases Int.lt_or_eq_of_le b with b | b
    · exact ⟨_, _, by rw [abs_of_nonneg (by omega)]; exact b, rfl⟩
    · refine ⟨2 ^ 52, ilog2 y - 52 + 1, by norm_num, ?_⟩
      rw [b, zpow_add₀ (by norm_num)]
      push_cast
      ring
  unfold rnd
  split
  · obtain ⟨m, e, h1, h2⟩ := key (-x) (by linarith)
    exact ⟨-m, e, by rwa [abs_neg], by rw [h2]; push_cast; ring⟩
  · exact key x (by linarith)

/-- A multiple of the unit of the last place. -/
theorem isDouble_grid (x d : Rat) (hx : 0 < x) (hd : IsDouble d) :
    (∃ k : Int, d = k * (2 : Rat) ^ (ilog2 x - 52)) ∨ |d| < (2 : Rat) ^ ilog2 x := by
  obtain ⟨m, e, hm, rfl⟩ := hd
  by_cases he : ilog2 x - 52 ≤ e
  · left
    refine ⟨m * 2 ^ (e - (ilog2 x - 52)).toNat, ?_⟩
    have : (2 : Rat) ^ e = 2 ^ (e - (ilog2 x - 52)).toNat * 2 ^ (ilog2 x - 52) := by
      rw [← zpow_natCast, Int.toNat_of_nonneg (by omega), ← zpow_add₀ (by norm_num)]
      congr 1
      omega
    rw [this]
    push_cast
    ring
  · right
    rw [abs_mul, abs_of_pos (two_zpow_pos e)]
    have h1 : |(m : Rat)| < 2 ^ 53 := by exact_mod_cast hm
    calc |(m : Rat)| * 2 ^ e < 2 ^ 53 * 2 ^ e := mul_lt_mul_of_pos_right h1 (two_zpow_pos e)
      _ = 2 ^ (e + 53) := by rw [zpow_add₀ (by norm_num)]; norm_num; ring
      _ ≤ 2 ^ ilog2 x := zpow_mono (by omega)

theorem roundEven_nearest (y : Rat) (k : Int) : |y - roundEven y| ≤ |y - k| := by
  have h1 := floor_le' y
  have h2 := lt_floor' y
  rcases roundEven_cases y with ⟨e, h⟩ | ⟨e, h⟩ <;> rw [e]
  · rw [abs_of_nonneg (by linarith)]
    by_cases hk : k ≤ y.floor
    · have : (k : Rat) ≤ y.floor := by exact_mod_cast hk
      rw [abs_of_nonneg (by linarith)]; linarith
    · have : ((y.floor + 1 : Int) : Rat) ≤ k := by exact_mod_cast (show y.floor + 1 ≤ k by omega)
      push_cast at this
      rw [abs_of_nonpos (by linarith)]; linarith
  · push_cast
    rw [abs_of_nonpos (by linarith)]
    by_cases hk : k ≤ y.floor
    · have : (k : Rat) ≤ y.floor := by exact_mod_cast hk
      rw [abs_of_nonneg (by linarith)]; linarith
    · have : ((y.floor + 1 : Int) : Rat) ≤ k := by exact_mod_cast (show y.floor + 1 ≤ k by omega)
      push_cast at this
      rw [abs_of_nonpos (by linarith)]; linarith

theorem nearest_pos (x : Rat) (hx : 0 < x) : NearestDouble x (rnd x) := by
  refine ⟨isDouble_rnd x, fun d hd => ?_⟩
  have hu := two_zpow_pos (ilog2 x - 52)
  have hk : ∀ k : Int, |x - k * (2 : Rat) ^ (ilog2 x - 52)| = |x / (2 : Rat) ^ (ilog2 x - 52) - k| * 2 ^ (ilog2 x - 52) := by
    intro k
    rw [show x - k * (2 : Rat) ^ (ilog2 x - 52) = (x / (2 : Rat) ^ (ilog2 x - 52) - k) * 2 ^ (ilog2 x - 52) by field_simp,
      abs_mul, abs_of_pos hu]
  have hk2 : ∀ k : Int, |x - rnd x| ≤ |x - k * (2 : Rat) ^ (ilog2 x - 52)| := by
    intro k
    rw [rnd_pos_eq hx, hk, hk]
    exact mul_le_mul_of_nonneg_right (roundEven_nearest _ k) hu.le
  rcases isDouble_grid x d hx hd with ⟨k, rfl⟩ | h
  · exact hk2 k
  · have := hk2 (2 ^ 52)
    have e : ((2 ^ 52 : Int) : Rat) * (2 : Rat) ^ (ilog2 x - 52) = 2 ^ ilog2 x := by
      calc ((2 ^ 52 : Int) : Rat) * 2 ^ (ilog2 x - 52) = (2 : Rat) ^ (52 : Int) * 2 ^ (ilog2 x - 52) := by norm_num
        _ = 2 ^ ilog2 x := by rw [← zpow_add₀ (by norm_num)]; congr 1; omega
    rw [e] at this
    have h1 := (ilog2_spec x hx).1
    have h2 := (abs_lt.mp h).2
    rw [abs_of_nonneg (by linarith : (0 : Rat) ≤ x - 2 ^ ilog2 x)] at this
    rw [abs_of_nonneg (by linarith : (0 : Rat) ≤ x - d)]
    linarith

theorem rnd_neg (x : Rat) : rnd (-x) = -rnd x := by
  unfold rnd
  rcases lt_trichotomy x 0 with h | h | h
  · rw [if_pos h, if_neg (by linarith)]; ring
  · subst h; simp [rndPos]
  · rw [if_pos (by linarith), if_neg (by linarith), neg_neg]

theorem isDouble_neg {d : Rat} (h : IsDouble d) : IsDouble (-d) := by
  obtain ⟨m, e, h1, h2⟩ := h
  exact ⟨-m, e, by rwa [abs_neg], by rw [h2]; push_cast; ring⟩

theorem nearest (x : Rat) : NearestDouble x (rnd x) := by
  rcases lt_trichotomy x 0 with h | h | h
  · obtain ⟨h1, h2⟩ := nearest_pos (-x) (by linarith)
    rw [rnd_neg] at h1 h2
    refine ⟨isDouble_rnd x, fun d hd => ?_⟩
    have := h2 (-d) (isDouble_neg hd)
    rwa [show -x - -rnd x = -(x - rnd x) by ring, show -x - -d = -(x - d) by ring, abs_neg, abs_neg] at this
  · subst h
    refine ⟨isDouble_rnd 0, fun d _ => ?_⟩
    rw [rnd_zero]; simp
  · exact nearest_pos x h

theorem rnd_of_isDouble {d : Rat} (hd : IsDouble d) : rnd d = d := by
  have := (nearest d).2 d hd
  rw [sub_self, abs_zero] at this
  have := abs_nonpos_iff.mp this
  linarith

theorem isDouble_nat (n : Nat) (h : n ≤ 2 ^ 53) : IsDouble n := by
  rcases Nat.lt_or_eq_of_le h with h | h
  · exact ⟨n, 0, by rw [abs_of_nonneg (by omega)]; exact_mod_cast h, by simp⟩
  · exact ⟨2 ^ 52, 1, by norm_num, by rw [h]; norm_num⟩

theorem isDouble_double {d : Rat} (h : IsDouble d) : IsDouble (2 * d) := by
  obtain ⟨m, e, h1, h2⟩ := h
  exact ⟨m, e + 1, h1, by rw [h2, zpow_add₀ (by norm_num)]; ring⟩

theorem rnd_one : rnd 1 = 1 := rnd_of_isDouble (by simpa using isDouble_nat 1 (by norm_num))

/-- Rounding up to a double that is not exceeded. -/
theorem rnd_le_of {x d : Rat} (hx : 0 ≤ x) (hd : IsDouble d) (h : x ≤ d) : rnd x ≤ d := by
  rw [← rnd_of_isDouble hd]; exact rnd_mono hx h

theorem le_rnd_of {x d : Rat} (h0 : 0 ≤ d) (hd : IsDouble d) (h : d ≤ x) : d ≤ rnd x := by
  conv_lhs => rw [← rnd_of_isDouble hd]
  exact rnd_mono h0 h

end GT.Dbl
