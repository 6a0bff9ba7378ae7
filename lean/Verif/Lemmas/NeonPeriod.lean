import Verif.Lemmas.Random
import Mathlib.Dynamics.PeriodicPts.Defs
import Mathlib.NumberTheory.LucasPrimality
import Mathlib.Tactic.NormNum.Prime
import Mathlib.Data.Finset.Card

/-! # Helper lemmas: the period of one lane of the NEON generator

One call changes a lane by a map that is linear over the field with two elements. Polynomials in that map are numbers
(bit `i` is the coefficient of the `i`-th power); they are multiplied modulo the characteristic polynomial. -/

namespace GT.XS

/-- The two words of a lane. -/
abbrev V := BitVec 64 × BitVec 64

/-- What one call does to a lane. -/
def step (v : V) : V :=
  (v.2, (((v.1 <<< 23) ^^^ v.1) ^^^ v.2) ^^^ ((((v.1 <<< 23) ^^^ v.1) >>> 18) ^^^ (v.2 >>> 5)))

def vx (u v : V) : V := (u.1 ^^^ v.1, u.2 ^^^ v.2)

def vz : V := (0#64, 0#64)

theorem vx_zero (u : V) : vx u vz = u := by simp [vx, vz]

theorem zero_vx (u : V) : vx vz u = u := by simp [vx, vz]

theorem vx_self (u : V) : vx u u = vz := by simp [vx, vz]

theorem vx_comm (u v : V) : vx u v = vx v u := by simp [vx, BitVec.xor_comm]

theorem vx_assoc (u v w : V) : vx (vx u v) w = vx u (vx v w) := by simp [vx, BitVec.xor_assoc]

theorem vx_left_comm (u v w : V) : vx u (vx v w) = vx v (vx u w) := by
  rw [← vx_assoc, vx_comm u v, vx_assoc]

theorem step_vx (u v : V) : step (vx u v) = vx (step u) (step v) := by
  obtain ⟨a, b⟩ := u
  obtain ⟨c, d⟩ := v
  have h1 := BitVec.shiftLeft_xor_distrib a c 23
  have h2 := BitVec.ushiftRight_xor_distrib b d 5
  have h3 := BitVec.ushiftRight_xor_distrib ((a <<< 23) ^^^ a) ((c <<< 23) ^^^ c) 18
  unfold step vx
  refine Prod.ext rfl ?_
  dsimp only
  rw [h1, h2]
  generalize a <<< 23 = p at *
  generalize c <<< 23 = q at *
  rw [show p ^^^ q ^^^ (a ^^^ c) = (p ^^^ a) ^^^ (q ^^^ c) by ac_rfl, h3]
  generalize (p ^^^ a) >>> 18 = r
  generalize (q ^^^ c) >>> 18 = s
  generalize p ^^^ a = t
  generalize q ^^^ c = w
  ac_rfl

theorem step_zero : step vz = vz := by decide +kernel

/-! ### Polynomials in the step -/

/-- The polynomial with the lowest `n` coefficients of `f`, applied to `v`. -/
def ev : Nat → Nat → V → V
  | 0, _, _ => vz
  | n + 1, f, v => if f % 2 = 1 then vx v (ev n (f / 2) (step v)) else ev n (f / 2) (step v)

theorem ev_zero (n : Nat) (v : V) : ev n 0 v = vz := by
  induction n generalizing v with
  | zero => rfl
  | succ n ih => simp [ev, ih]

theorem ev_at_zero (n f : Nat) : ev n f vz = vz := by
  induction n generalizing f with
  | zero => rfl
  | succ n ih => simp [ev, ih, step_zero, vx_zero]

theorem ev_xor (n a b : Nat) (v : V) : ev n (a ^^^ b) v = vx (ev n a v) (ev n b v) := by
  induction n generalizing a b v with
  | zero => simp [ev, vx_zero]
  | succ n ih =>
    simp only [ev, Nat.xor_div_two, ih, Nat.xor_mod_two_eq_one]
    by_cases ha : a % 2 = 1 <;> by_cases hb : b % 2 = 1 <;> simp only [ha, hb, if_true, if_false, iff_true, true_iff,
      not_true, not_false_iff, iff_self]
    · rw [vx_assoc, vx_left_comm (ev n (a / 2) (step v)), ← vx_assoc v v, vx_self, zero_vx]
    · rw [vx_assoc]
    · rw [vx_left_comm]

theorem ev_vx (n f : Nat) (u v : V) : ev n f (vx u v) = vx (ev n f u) (ev n f v) := by
  induction n generalizing f u v with
  | zero => simp [ev, vx_zero]
  | succ n ih =>
    simp only [ev, step_vx, ih]
    split
    · rw [vx_assoc, vx_assoc, vx_left_comm v]
    · rfl

theorem ev_step (n f : Nat) (v : V) : ev n f (step v) = step (ev n f v) := by
  induction n generalizing f v with
  | zero => exact step_zero.symm
  | succ n ih =>
    simp only [ev]
    split
    · rw [step_vx, ih]
    · rw [ih]

theorem ev_more (n f : Nat) (h : f < 2 ^ n) (v : V) : ev (n + 1) f v = ev n f v := by
  induction n generalizing f v with
  | zero =>
    have : f = 0 := by simpa using h
    subst this
    exact ev_zero 1 v
  | succ n ih =>
    have h2 : f / 2 < 2 ^ n := by rw [Nat.pow_succ] at h; omega
    rw [ev, ih _ h2]
    rfl

theorem ev_double (n f : Nat) (v : V) : ev (n + 1) (2 * f) v = ev n f (step v) := by
  simp [ev]

/-! ### Linear maps that vanish on single bits vanish -/

theorem bits_zero (L : BitVec 64 → V) (hx : ∀ a b, L (a ^^^ b) = vx (L a) (L b))
    (hb : ∀ i, i < 64 → L (BitVec.twoPow 64 i) = vz) (a : BitVec 64) : L a = vz := by
  have h0 : L 0#64 = vz := by
    have := hx 0#64 0#64
    rw [vx_self] at this
    simpa using this
  have key : ∀ n, n ≤ 64 → ∀ a : BitVec 64, (∀ j, n ≤ j → a.getLsbD j = false) → L a = vz := by
    intro n
    induction n with
    | zero =>
      intro _ a h
      have : a = 0#64 := by
        apply BitVec.eq_of_getLsbD_eq
        intro i _
        simp [h i (Nat.zero_le _)]
      rw [this, h0]
    | succ n ih =>
      intro hn a h
      by_cases hbit : a.getLsbD n = true
      · have e : a = (a ^^^ BitVec.twoPow 64 n) ^^^ BitVec.twoPow 64 n := by
          rw [BitVec.xor_assoc, BitVec.xor_self, BitVec.xor_zero]
        rw [e, hx, hb n (by omega), vx_zero]
        apply ih (by omega)
        intro j hj
        rw [BitVec.getLsbD_xor, BitVec.getLsbD_twoPow]
        by_cases hjn : n = j
        · subst hjn; simp [hbit]; omega
        · rw [h j (by omega)]; simp [hjn]
      · apply ih (by omega)
        intro j hj
        by_cases hjn : j = n
        · subst hjn; simpa using hbit
        · exact h j (by omega)
  exact key 64 (Nat.le_refl _) a (fun j hj => BitVec.getLsbD_of_ge a j hj)

theorem linear_zero (L : V → V) (hx : ∀ u v, L (vx u v) = vx (L u) (L v))
    (h1 : ∀ i, i < 64 → L (BitVec.twoPow 64 i, 0#64) = vz) (h2 : ∀ i, i < 64 → L (0#64, BitVec.twoPow 64 i) = vz)
    (v : V) : L v = vz := by
  have a1 : L (v.1, 0#64) = vz := bits_zero (fun a => L (a, 0#64)) (fun a b => by
    rw [← hx]; simp [vx]) h1 v.1
  have a2 : L (0#64, v.2) = vz := bits_zero (fun a => L (0#64, a)) (fun a b => by
    rw [← hx]; simp [vx]) h2 v.2
  have e : v = vx (v.1, 0#64) (0#64, v.2) := by simp [vx]
  rw [e, hx, a1, a2, vx_zero]

/-! ### The characteristic polynomial -/

def P : Nat := 0x12844c5d42caf7db0024f06fae9e61daf

def twoPowCheck : Bool := (List.range 64).all fun i =>
  ev 129 P (BitVec.twoPow 64 i, 0#64) == vz && ev 129 P (0#64, BitVec.twoPow 64 i) == vz

theorem twoPow_ok : twoPowCheck = true := by decide +kernel

theorem ev_P (v : V) : ev 129 P v = vz := by
  have h := twoPow_ok
  unfold twoPowCheck at h
  rw [List.all_eq_true] at h
  refine linear_zero (ev 129 P) (ev_vx 129 P) (fun i hi => ?_) (fun i hi => ?_) v
  · have := h i (List.mem_range.mpr hi)
    simp only [Bool.and_eq_true, beq_iff_eq] at this
    exact this.1
  · have := h i (List.mem_range.mpr hi)
    simp only [Bool.and_eq_true, beq_iff_eq] at this
    exact this.2

/-- A polynomial times `x`, modulo `P`. -/
def xt (g : Nat) : Nat := if g < 2 ^ 127 then 2 * g else (2 * g) ^^^ P

theorem xt_lt (g : Nat) (h : g < 2 ^ 128) : xt g < 2 ^ 128 := by
  unfold xt
  split
  · omega
  · rename_i hg
    apply Nat.lt_pow_two_of_testBit
    intro i hi
    rw [Nat.testBit_xor]
    by_cases h8 : i = 128
    · subst h8
      have e1 : (2 * g).testBit 128 = true := by
        rw [Nat.testBit_eq_decide_div_mod_eq]
        have : 2 * g / 2 ^ 128 = 1 := by omega
        rw [this]
        rfl
      have e2 : P.testBit 128 = true := by decide +kernel
      rw [e1, e2]
      rfl
    · have hp : (2 : Nat) ^ 129 ≤ 2 ^ i := Nat.pow_le_pow_right (by omega) (by omega)
      have e1 : (2 * g).testBit i = false := Nat.testBit_lt_two_pow (by omega)
      have e2 : P.testBit i = false := Nat.testBit_lt_two_pow (Nat.lt_of_lt_of_le (by decide +kernel) hp)
      rw [e1, e2]
      rfl

theorem ev_xt (g : Nat) (h : g < 2 ^ 128) (v : V) : ev 128 (xt g) v = step (ev 128 g v) := by
  rw [← ev_more 128 (xt g) (xt_lt g h), ← ev_step]
  unfold xt
  split
  · rw [ev_double]
  · rw [ev_xor, ev_P, vx_zero, ev_double]

/-- Product modulo `P`. -/
def mulP : Nat → Nat → Nat → Nat
  | 0, _, _ => 0
  | n + 1, f, g => if f % 2 = 1 then g ^^^ mulP n (f / 2) (xt g) else mulP n (f / 2) (xt g)

theorem ev_mulP (n f g : Nat) (h : g < 2 ^ 128) (v : V) :
    mulP n f g < 2 ^ 128 ∧ ev 128 (mulP n f g) v = ev n f (ev 128 g v) := by
  induction n generalizing f g v with
  | zero => exact ⟨by simp [mulP], ev_zero 128 v⟩
  | succ n ih =>
    obtain ⟨i1, i2⟩ := ih (f / 2) (xt g) (xt_lt g h) v
    rw [mulP, show ev (n + 1) f (ev 128 g v) = if f % 2 = 1 then vx (ev 128 g v) (ev n (f / 2) (step (ev 128 g v)))
      else ev n (f / 2) (step (ev 128 g v)) from rfl]
    split
    · exact ⟨Nat.xor_lt_two_pow h i1, by rw [ev_xor, i2, ev_xt g h]⟩
    · exact ⟨i1, by rw [i2, ev_xt g h]⟩

/-- The power `b ^ e` modulo `P`, for `e < 2 ^ n`. -/
def powP : Nat → Nat → Nat → Nat
  | 0, _, _ => 1
  | n + 1, e, b =>
    if e % 2 = 1 then mulP 128 b (powP n (e / 2) (mulP 128 b b)) else powP n (e / 2) (mulP 128 b b)

theorem ev_one (n : Nat) (v : V) : ev (n + 1) 1 v = v := by
  simp [ev, ev_zero, vx_zero]

theorem ev_powP (n e b : Nat) (he : e < 2 ^ n) (hb : b < 2 ^ 128) (v : V) :
    powP n e b < 2 ^ 128 ∧ ev 128 (powP n e b) v = (ev 128 b)^[e] v := by
  induction n generalizing e b v with
  | zero =>
    have : e = 0 := by simpa using he
    subst this
    exact ⟨show 1 < 2 ^ 128 by decide, ev_one 127 v⟩
  | succ n ih =>
    have hs := fun u => ev_mulP 128 b b hb u
    have hf : ev 128 (mulP 128 b b) = (ev 128 b)^[2] := by
      funext u
      rw [(hs u).2]
      rfl
    have he2 : e / 2 < 2 ^ n := by rw [Nat.pow_succ] at he; omega
    obtain ⟨i1, i2⟩ := ih (e / 2) (mulP 128 b b) he2 (hs v).1 v
    rw [hf, ← Function.iterate_mul] at i2
    simp only [powP]
    split
    · rename_i ho
      obtain ⟨j1, j2⟩ := ev_mulP 128 b _ i1 v
      refine ⟨j1, ?_⟩
      rw [j2, i2, ← Function.iterate_succ_apply' (ev 128 b)]
      congr 1
      omega
    · rename_i ho
      refine ⟨i1, ?_⟩
      rw [i2]
      congr 1
      omega

theorem ev_x : ev 128 2 = step := by
  funext v
  simp [ev, vx_zero]

theorem step_pow (e : Nat) (he : e < 2 ^ 128) (v : V) : ev 128 (powP 128 e 2) v = step^[e] v := by
  rw [(ev_powP 128 e 2 he (by decide) v).2, ev_x]

/-- The number of states of a lane other than zero. -/
def N : Nat := 2 ^ 128 - 1

theorem pow_N : powP 128 N 2 = 1 := by decide +kernel

/-- For each prime factor `p` of `N`, the inverse of `x ^ (N / p) + 1` modulo `P`. -/
def inverses : List (Nat × Nat) :=
  [(3, 158559727607240789902919099517439469047), (5, 113526408348880941083180420693471817064),
   (17, 149808063571662190574603864620377744220), (257, 51306174325386397428511966121656031994),
   (641, 3268343882342998841821371150616072681), (65537, 161647651825394152921544737375745907074),
   (274177, 56652727513372076627891934522887607217), (6700417, 338670947001646916172314639469603959837),
   (67280421310721, 262487359091900871616605872545234828590)]

theorem inverses_ok : (inverses.all fun pg => N % pg.1 == 0 && mulP 128 pg.2 (powP 128 (N / pg.1) 2 ^^^ 1) == 1) = true := by
  decide +kernel

/-! ### The prime factors of `N` -/

/-- `b ^ e % m` for `e < 2 ^ n`. -/
def pm (m : Nat) : Nat → Nat → Nat → Nat
  | 0, _, _ => 1 % m
  | n + 1, e, b => if e % 2 = 1 then b * pm m n (e / 2) (b * b % m) % m else pm m n (e / 2) (b * b % m)

theorem pm_eq (m n e b : Nat) (h : e < 2 ^ n) : pm m n e b = b ^ e % m := by
  induction n generalizing e b with
  | zero =>
    have : e = 0 := by simpa using h
    subst this
    rfl
  | succ n ih =>
    have h2 : e / 2 < 2 ^ n := by rw [Nat.pow_succ] at h; omega
    have key : (b * b % m) ^ (e / 2) % m = b ^ (2 * (e / 2)) % m := by
      rw [← Nat.pow_mod, Nat.pow_mul, Nat.pow_two]
    rw [pm, ih _ _ h2, key]
    split
    · rename_i ho
      rw [Nat.mul_mod, Nat.mod_mod, ← Nat.mul_mod, Nat.mul_comm, ← Nat.pow_succ]
      congr 2
      omega
    · congr 2
      omega

theorem prime_big : Nat.Prime 67280421310721 := by
  have hc : ∀ e : ℕ, e < 2 ^ 64 → ((3 : ZMod 67280421310721) ^ e = 1 ↔ pm 67280421310721 64 e 3 = 1) := by
    intro e he
    rw [pm_eq _ _ _ _ he]
    have h := ZMod.natCast_eq_natCast_iff' (3 ^ e) 1 67280421310721
    rw [Nat.cast_pow, Nat.cast_one] at h
    exact h
  refine lucas_primality _ 3 ((hc _ (by norm_num)).mpr (by decide +kernel)) ?_
  intro q hq hd h
  have hd' : q ∣ 2 ^ 8 * 5 * 47 * 373 * 2998279 := by simpa using hd
  have h5 : Nat.Prime 5 := by norm_num
  have h47 : Nat.Prime 47 := by norm_num
  have h373 : Nat.Prime 373 := by norm_num
  have hL : Nat.Prime 2998279 := by norm_num
  rw [hq.dvd_mul, hq.dvd_mul, hq.dvd_mul, hq.dvd_mul] at hd'
  rcases hd' with (((hd' | hd') | hd') | hd') | hd'
  · have := (Nat.prime_dvd_prime_iff_eq hq Nat.prime_two).mp (hq.dvd_of_dvd_pow hd')
    subst this; rw [hc _ (by norm_num)] at h; revert h; decide +kernel
  · have := (Nat.prime_dvd_prime_iff_eq hq h5).mp hd'
    subst this; rw [hc _ (by norm_num)] at h; revert h; decide +kernel
  · have := (Nat.prime_dvd_prime_iff_eq hq h47).mp hd'
    subst this; rw [hc _ (by norm_num)] at h; revert h; decide +kernel
  · have := (Nat.prime_dvd_prime_iff_eq hq h373).mp hd'
    subst this; rw [hc _ (by norm_num)] at h; revert h; decide +kernel
  · have := (Nat.prime_dvd_prime_iff_eq hq hL).mp hd'
    subst this; rw [hc _ (by norm_num)] at h; revert h; decide +kernel

theorem prime_of_N (q : Nat) (hq : q.Prime) (hd : q ∣ N) : ∃ g, (q, g) ∈ inverses := by
  have hd' : q ∣ 3 * 5 * 17 * 257 * 641 * 65537 * 274177 * 6700417 * 67280421310721 := by
    have : N = 3 * 5 * 17 * 257 * 641 * 65537 * 274177 * 6700417 * 67280421310721 := by decide +kernel
    rwa [this] at hd
  have a1 : Nat.Prime 3 := by norm_num
  have a2 : Nat.Prime 5 := by norm_num
  have a3 : Nat.Prime 17 := by norm_num
  have a4 : Nat.Prime 257 := by norm_num
  have a5 : Nat.Prime 641 := by norm_num
  have a6 : Nat.Prime 65537 := by norm_num
  have a7 : Nat.Prime 274177 := by norm_num
  have a8 : Nat.Prime 6700417 := by norm_num
  rw [hq.dvd_mul, hq.dvd_mul, hq.dvd_mul, hq.dvd_mul, hq.dvd_mul, hq.dvd_mul, hq.dvd_mul, hq.dvd_mul,
    Nat.prime_dvd_prime_iff_eq hq a1, Nat.prime_dvd_prime_iff_eq hq a2, Nat.prime_dvd_prime_iff_eq hq a3,
    Nat.prime_dvd_prime_iff_eq hq a4, Nat.prime_dvd_prime_iff_eq hq a5, Nat.prime_dvd_prime_iff_eq hq a6,
    Nat.prime_dvd_prime_iff_eq hq a7, Nat.prime_dvd_prime_iff_eq hq a8, Nat.prime_dvd_prime_iff_eq hq prime_big] at hd'
  rcases hd' with (((((((h | h) | h) | h) | h) | h) | h) | h) | h <;> subst h <;> simp [inverses]

/-! ### The period -/

theorem period_N (v : V) : step^[N] v = v := by
  rw [← step_pow N (by decide +kernel), pow_N, ev_one]

theorem not_shorter (v : V) (hv : v ≠ vz) (q : Nat) (hq : q.Prime) (hd : q ∣ N) : step^[N / q] v ≠ v := by
  intro h
  obtain ⟨g, hg⟩ := prime_of_N q hq hd
  have hok := inverses_ok
  rw [List.all_eq_true] at hok
  have := hok _ hg
  simp only [Bool.and_eq_true, beq_iff_eq] at this
  have hlt : N / q < 2 ^ 128 := Nat.lt_of_le_of_lt (Nat.div_le_self _ _) (by decide +kernel)
  have hp : powP 128 (N / q) 2 < 2 ^ 128 := (ev_powP 128 (N / q) 2 hlt (by decide) v).1
  have e1 := (ev_mulP 128 g (powP 128 (N / q) 2 ^^^ 1) (Nat.xor_lt_two_pow hp (by decide)) v).2
  rw [this.2, ev_one, ev_xor, step_pow _ hlt, h, ev_one, vx_self, ev_at_zero] at e1
  exact hv e1

/-- Every state of a lane other than zero comes back after exactly `N` calls. -/
theorem period_iff (v : V) (hv : v ≠ vz) (d : Nat) : step^[d] v = v ↔ N ∣ d := by
  have hN : Function.IsPeriodicPt step N v := period_N v
  have hmin : Function.minimalPeriod step v = N := by
    have hdvd := hN.minimalPeriod_dvd
    by_contra hne
    obtain ⟨c, hc⟩ := hdvd
    have hc1 : c ≠ 1 := by
      rintro rfl
      exact hne (by rw [hc, Nat.mul_one])
    obtain ⟨q, hq, k, hk⟩ := Nat.exists_prime_and_dvd hc1
    have hNk : N = q * (Function.minimalPeriod step v * k) := by rw [hc, hk]; ac_rfl
    have hqN : q ∣ N := ⟨_, hNk⟩
    apply not_shorter v hv q hq hqN
    have : N / q = Function.minimalPeriod step v * k := by
      conv_lhs => rw [hNk]
      exact Nat.mul_div_cancel_left _ hq.pos
    rw [this]
    exact (Function.isPeriodicPt_minimalPeriod step v).mul_const k
  rw [← hmin]
  exact Function.isPeriodicPt_iff_minimalPeriod_dvd

/-! ### All states are reached -/

def enc (v : V) : Nat := v.1.toNat + 2 ^ 64 * v.2.toNat

theorem enc_lt (v : V) : enc v < 2 ^ 128 := by
  have h1 := v.1.isLt
  have h2 := v.2.isLt
  unfold enc
  omega

theorem enc_inj {u v : V} (h : enc u = enc v) : u = v := by
  have h1 := u.1.isLt
  have h2 := v.1.isLt
  unfold enc at h
  exact Prod.ext (BitVec.eq_of_toNat_eq (by omega)) (BitVec.eq_of_toNat_eq (by omega))

theorem iter_ne_zero (v : V) (hv : v ≠ vz) (k : Nat) : step^[k] v ≠ vz := by
  have hz : ∀ k, step^[k] vz = vz := by
    intro k
    induction k with
    | zero => rfl
    | succ k ih => rw [Function.iterate_succ_apply, step_zero, ih]
  intro h
  have hp : step^[N * k] v = v := (period_iff v hv _).mpr (Nat.dvd_mul_right _ _)
  have hle : k ≤ N * k := Nat.le_mul_of_pos_left k (by decide +kernel)
  rw [show N * k = (N * k - k) + k by omega, Function.iterate_add_apply, h, hz] at hp
  exact hv hp.symm

theorem reaches (v w : V) (hv : v ≠ vz) (hw : w ≠ vz) : ∃ k, k < N ∧ step^[k] v = w := by
  have hne : ∀ u : V, u ≠ vz → enc u ≠ 0 := fun u hu h => hu (enc_inj (h.trans (show 0 = enc vz by decide +kernel)))
  have hinj : Set.InjOn (fun k => enc (step^[k] v)) (Finset.range N : Set ℕ) := by
    have key : ∀ i j, i < j → j < N → enc (step^[i] v) ≠ enc (step^[j] v) := by
      intro i j hij hj h
      have h := enc_inj h
      rw [show j = (j - i) + i by omega, Function.iterate_add_apply] at h
      have := Nat.le_of_dvd (by omega) ((period_iff _ (iter_ne_zero v hv i) (j - i)).mp h.symm)
      omega
    intro i hi j hj h
    simp only [Finset.coe_range, Set.mem_Iio] at hi hj
    rcases Nat.lt_trichotomy i j with hlt | heq | hgt
    · exact absurd h (key i j hlt hj)
    · exact heq
    · exact absurd h.symm (key j i hgt hi)
  have hsub : (Finset.range N).image (fun k => enc (step^[k] v)) ⊆ (Finset.range (2 ^ 128)).erase 0 := by
    intro x hx
    obtain ⟨k, -, rfl⟩ := Finset.mem_image.mp hx
    exact Finset.mem_erase.mpr ⟨hne _ (iter_ne_zero v hv k), Finset.mem_range.mpr (enc_lt _)⟩
  have heq := Finset.eq_of_subset_of_card_le hsub (by
    rw [Finset.card_image_of_injOn hinj, Finset.card_erase_of_mem (Finset.mem_range.mpr (by decide)), Finset.card_range,
      Finset.card_range]
    exact Nat.le_refl _)
  have hmem : enc w ∈ (Finset.range N).image (fun k => enc (step^[k] v)) := by
    rw [heq]
    exact Finset.mem_erase.mpr ⟨hne w hw, Finset.mem_range.mpr (enc_lt w)⟩
  obtain ⟨k, hk, e⟩ := Finset.mem_image.mp hmem
  exact ⟨k, Finset.mem_range.mp hk, enc_inj e⟩

/-! ### The lowest bit of the output -/

/-- What a call returns in a lane. -/
def out (v : V) : BitVec 64 := (step v).2 + (step v).1

def low (v : V) : Bool := (out v).getLsbD 0

theorem low_eq (v : V) : low v = ((step v).2.getLsbD 0 ^^ (step v).1.getLsbD 0) := by
  unfold low out
  rw [BitVec.getLsbD_add (by decide)]
  simp

theorem low_vx (u v : V) : low (vx u v) = (low u ^^ low v) := by
  rw [low_eq, low_eq, low_eq, step_vx]
  simp only [vx, BitVec.getLsbD_xor]
  cases (step u).2.getLsbD 0 <;> cases (step u).1.getLsbD 0 <;> cases (step v).2.getLsbD 0 <;>
    cases (step v).1.getLsbD 0 <;> rfl

theorem iter_vx (k : Nat) (u v : V) : step^[k] (vx u v) = vx (step^[k] u) (step^[k] v) := by
  induction k generalizing u v with
  | zero => rfl
  | succ k ih => simp only [Function.iterate_succ_apply, step_vx, ih]

theorem low_determines (u v : V) (h : ∀ k, low (step^[k] u) = low (step^[k] v)) : u = v := by
  by_contra hne
  have hw : vx u v ≠ vz := by
    intro e
    apply hne
    rw [← vx_zero u, ← vx_self v, ← vx_assoc, e, zero_vx]
  obtain ⟨k, -, hk⟩ := reaches _ (1#64, 0#64) hw (by decide)
  have h1 : low (step^[k] (vx u v)) = true := by rw [hk]; decide +kernel
  rw [iter_vx, low_vx, h k] at h1
  simp at h1

theorem low_period (v : V) (hv : v ≠ vz) (d : Nat) (h : ∀ k, low (step^[k + d] v) = low (step^[k] v)) : N ∣ d := by
  rw [← period_iff v hv]
  exact low_determines _ _ fun k => by rw [← Function.iterate_add_apply, h k]

end GT.XS
