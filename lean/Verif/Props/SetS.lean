import Verif.Lemmas.SetS

/-!
# C49: the specificity threshold of the vectorised backends

`updatingBytes t` (Spec.Avx2) counts the 256 byte values that are below the threshold `t`; the vector
backends update a literal when its random byte is one of them.
-/

namespace GT
open Spec

/-- C49: for `s ≥ 1` the threshold is in [-126, 126], so the signed byte stored by `set_s` is the
threshold itself. -/
theorem C49_threshold_in_range (cfg : VCfg) (s : Rat) (hs : 1 ≤ s) :
    -126 ≤ gtcmpForS s ∧ gtcmpForS s ≤ 126 ∧ (cfg.setS s).cmpS.toInt = gtcmpForS s := by
  obtain ⟨h1, h2, -, -⟩ := floor_bounds s hs
  refine ⟨?_, ?_, toInt_gtcmp s⟩ <;> unfold gtcmpForS <;> omega

/-- C49: a larger `s` never gives a larger threshold. -/
theorem C49_threshold_antitone (cfg : VCfg) (s s' : Rat) (hs : 1 ≤ s) (h : s ≤ s') :
    (cfg.setS s').cmpS.toInt ≤ (cfg.setS s).cmpS.toInt := by
  have h0 : 0 < s := by linarith
  have : (1 / s' * 255).floor ≤ (1 / s * 255).floor := by
    apply Rat.floor_monotone
    have : 1 / s' ≤ 1 / s := one_div_le_one_div_of_le h0 h
    linarith
  show (BitVec.ofInt 8 (gtcmpForS s')).toInt ≤ (BitVec.ofInt 8 (gtcmpForS s)).toInt
  rw [toInt_gtcmp, toInt_gtcmp]
  unfold gtcmpForS
  omega

/-- C49: between 2 and 254 of the 256 byte values trigger an update, and their number is within 2 of
`256/s`. -/
theorem C49_updating_bytes (cfg : VCfg) (s : Rat) (hs : 1 ≤ s) :
    2 ≤ updatingBytes (cfg.setS s).cmpS.toInt ∧ updatingBytes (cfg.setS s).cmpS.toInt ≤ 254 ∧
    256 / s - 2 ≤ (updatingBytes (cfg.setS s).cmpS.toInt : Rat) ∧
    (updatingBytes (cfg.setS s).cmpS.toInt : Rat) ≤ 256 / s + 2 := by
  obtain ⟨h1, h2, h3, h4⟩ := floor_bounds s hs
  have h0 : 0 < s := by linarith
  have e := updatingBytes_eq (cfg.setS s).cmpS
  have e2 : (cfg.setS s).cmpS.toInt = gtcmpForS s := toInt_gtcmp s
  have e3 : gtcmpForS s = min 126 ((1 / s * 255).floor - 126) := by unfold gtcmpForS; omega
  have e4 : (256 : Rat) / s = 255 / s + 1 / s := by field_simp; norm_num
  have e5 : 1 / s ≤ 1 := by rw [div_le_one h0]; exact hs
  have e6 : 0 < 1 / s := by positivity
  rw [e2] at e ⊢
  generalize updatingBytes (gtcmpForS s) = n at *
  generalize (1 / s * 255).floor = k at *
  refine ⟨by omega, by omega, ?_, ?_⟩
  · have hk : k ≤ (n : Int) + 1 := by omega
    have hk' : (k : Rat) ≤ (n : Rat) + 1 := by exact_mod_cast hk
    rcases (by omega : (n : Int) = k + 2 ∨ ((n : Int) = 254 ∧ 252 < k)) with h | ⟨h, -⟩
    · have : (n : Rat) = (k : Rat) + 2 := by exact_mod_cast h
      linarith
    · have : (n : Rat) = 254 := by exact_mod_cast h
      have : 255 / s ≤ 255 := by rw [div_le_iff₀ h0]; linarith
      linarith
  · have hk : (n : Int) ≤ k + 2 := by omega
    have hk' : (n : Rat) ≤ (k : Rat) + 2 := by exact_mod_cast hk
    linarith

/-- Consequence: on the vectorised backends every `s > 255` behaves like `s = 128`: exactly 2 of the 256
byte values trigger an update. -/
theorem C49_large_s_saturates (cfg : VCfg) (s : Rat) (hs : 255 < s) :
    updatingBytes (cfg.setS s).cmpS.toInt = 2 := by
  obtain ⟨h1, h2, h3, h4⟩ := floor_bounds s (by linarith)
  have h0 : 0 < s := by linarith
  have e := updatingBytes_eq (cfg.setS s).cmpS
  have e2 : (cfg.setS s).cmpS.toInt = gtcmpForS s := toInt_gtcmp s
  have : (1 / s * 255).floor < 1 := by
    have h5 : 255 / s < 1 := by rw [div_lt_one h0]; exact hs
    have : ((1 / s * 255).floor : Rat) < 1 := by linarith
    exact_mod_cast this
  rw [e2] at e ⊢
  unfold gtcmpForS at *
  omega

example : (1 : Rat) ≤ 7/2 ∧ gtcmpForS (7/2) = -54 := by constructor <;> decide +kernel

end GT
