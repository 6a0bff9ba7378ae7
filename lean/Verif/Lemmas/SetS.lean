import Verif.Model.Avx2
import Verif.Spec.Avx2
import Mathlib.Algebra.Order.Field.Rat
import Mathlib.Tactic.Linarith
import Mathlib.Tactic.FieldSimp
import Mathlib.Tactic.Positivity

/-! # Helper lemmas about the specificity threshold -/

namespace GT

theorem floor_bounds (s : Rat) (hs : 1 ≤ s) :
    0 ≤ (1 / s * 255).floor ∧ (1 / s * 255).floor ≤ 255 ∧
    ((1 / s * 255).floor : Rat) ≤ 255 / s ∧ 255 / s < (1 / s * 255).floor + 1 := by
  have h0 : 0 < s := by linarith
  have e : 1 / s * 255 = 255 / s := by field_simp
  rw [e]
  have h1 : (0 : Rat) ≤ 255 / s := by positivity
  have h2 : 255 / s ≤ 255 := by rw [div_le_iff₀ h0]; linarith
  refine ⟨Rat.le_floor_iff.mpr (by simpa using h1), ?_, Rat.floor_le .., by
    have := Rat.lt_floor (x := 255 / s); linarith⟩
  have := Rat.floor_monotone h2
  have e2 : ((255 : Rat)).floor = 255 := by decide +kernel
  rwa [e2] at this

theorem updatingBytes_eq (b : Byte) : (Spec.updatingBytes b.toInt : Int) = b.toInt + 128 := by
  revert b; decide +kernel

theorem toInt_gtcmp (s : Rat) : (BitVec.ofInt 8 (gtcmpForS s)).toInt = gtcmpForS s := by
  rw [BitVec.toInt_ofInt]
  unfold gtcmpForS
  rw [Int.bmod_eq_of_le] <;> omega

end GT
