import Verif.Spec.SparseParams
import Verif.Lemmas.Double
import Verif.Props.Config
import Verif.Props.SparseFeedback
import Mathlib.Data.Nat.Sqrt
import Mathlib.Tactic.Linarith

/-!
# C91: the size limits and the threshold of a sparse machine reach every block
-/

namespace GT
open Spec

/-! ## The defaults -/

theorem sqrtUp_cover (n : Int) (hn : 0 ≤ n) : LeastCover n (sqrtUp n) := by
  obtain ⟨m, rfl⟩ := Int.eq_ofNat_of_zero_le hn
  have h1 := Nat.sqrt_le m
  have h2 := Nat.lt_succ_sqrt m
  have hn' : ¬ ((m : Int) < 0) := by omega
  unfold sqrtUp
  simp only [if_neg hn', Int.toNat_natCast]
  split
  · rename_i h
    refine ⟨by omega, by exact_mod_cast h.ge, fun j hj hm => ?_⟩
    obtain ⟨j, rfl⟩ := Int.eq_ofNat_of_zero_le hj
    have hm' : m ≤ j * j := by exact_mod_cast hm
    by_contra hlt
    have : j < Nat.sqrt m := by omega
    nlinarith
  · rename_i h
    refine ⟨by omega, by exact_mod_cast h2.le, fun j hj hm => ?_⟩
    obtain ⟨j, rfl⟩ := Int.eq_ofNat_of_zero_le hj
    have hm' : m ≤ j * j := by exact_mod_cast hm
    by_contra hlt
    have hj : j ≤ Nat.sqrt m := by omega
    have : j * j ≤ Nat.sqrt m * Nat.sqrt m := Nat.mul_le_mul hj hj
    omega

/-- C91: a new machine allows each half of a clause, and each class, as many literals as the square root of their
number, rounded up; the threshold is -40. -/
theorem C91_defaults (nl ncl ncs : Int) (s : SArg) (t : Int) (budget : Option Int) (boost ml : Bool) (m : SparseTM)
    (hn : 0 ≤ nl) (h : SparseTM.new nl ncl ncs s t budget boost ml = .ok m) :
    LeastCover nl m.clauseSize ∧ LeastCover nl m.alSize ∧ m.lowerTA = -40 ∧ m.cbs = none ∧
    TM.new nl ncl ncs s t budget boost ml = .ok m.tm := by
  unfold SparseTM.new at h
  split at h
  · cases h
  · rename_i tm e
    cases h
    exact ⟨sqrtUp_cover nl hn, sqrtUp_cover nl hn, rfl, rfl, e⟩

/-- C91: computing the root in double precision does not change the default, in whichever direction it is rounded. -/
theorem C91_rounding (n : Int) (h0 : 0 ≤ n) (h1 : n < 2 ^ 31) (d : Rat) (hd : SqrtRounded n d) : d.ceil = sqrtUp n := by
  obtain ⟨hk0, hk, hmin⟩ := sqrtUp_cover n h0
  generalize sqrtUp n = k at *
  have hkb : k ≤ 46341 := hmin 46341 (by norm_num) (by omega)
  obtain ⟨-, hd0, hd⟩ := hd
  obtain ⟨kn, rfl⟩ := Int.eq_ofNat_of_zero_le hk0
  have hup : d ≤ (kn : Rat) := (hd kn (Dbl.isDouble_nat kn (by omega)) (by positivity)).2 (by exact_mod_cast hk)
  apply le_antisymm
  · rw [Rat.ceil_le_iff]; exact_mod_cast hup
  · rcases Nat.eq_zero_or_pos kn with rfl | hpos
    · have : (0 : Int) ≤ d.ceil := by
        have := Rat.le_ceil (x := d)
        have h : (0 : Rat) ≤ (d.ceil : Rat) := le_trans hd0 this
        exact_mod_cast h
      simpa using this
    obtain ⟨j, rfl⟩ : ∃ j, kn = j + 1 := ⟨kn - 1, by omega⟩
    have hlt : (j : Int) * j < n := by
      by_contra hc
      have := hmin j (by omega) (by omega)
      omega
    have hj : j ≤ 46340 := by omega
    have he : IsDouble ((j : Rat) + 1 / 2 ^ 18) := by
      refine ⟨(j * 2 ^ 18 + 1 : Nat), -18, ?_, ?_⟩
      · rw [abs_of_nonneg (by positivity)]
        have : j * 2 ^ 18 + 1 < 2 ^ 53 := by omega
        exact_mod_cast this
      · rw [zpow_neg]
        push_cast
        norm_num
        ring
    have hlow := (hd _ he (by positivity)).1 (by
      have hj' : (j : Rat) ≤ 46340 := by exact_mod_cast hj
      have hj0 : (0 : Rat) ≤ j := by positivity
      have : ((j : Rat) * j + 1) ≤ n := by exact_mod_cast hlt
      nlinarith)
    have : (j : Int) < d.ceil := by
      have h := lt_of_lt_of_le (show (j : Rat) < j + 1 / 2 ^ 18 by norm_num) (le_trans hlow (Rat.le_ceil (x := d)))
      exact_mod_cast h
    push_cast
    omega

/-! ## The blocks -/

theorem toSizeT_id {v : Int} (h0 : 0 ≤ v) (h1 : v < 2 ^ 31) : (toSizeT v : Int) = v := by
  unfold toSizeT; omega

theorem cInt_fits {v : Int} (h : FitsInt v) : cInt v = .ok v := if_pos h

theorem cInt_not {v : Int} (h : ¬ FitsInt v) : cInt v = .error .typeError := if_neg h

theorem setExtra_ok (m : SparseTM) (h : AcceptableParams m.clauseSize m.alSize m.lowerTA) (h1 : FitsInt m.clauseSize)
    (h2 : FitsInt m.alSize) (h3 : FitsInt m.lowerTA) (b : SparseSetup) :
    m.setExtra b = .ok ⟨b.base, toSizeT m.clauseSize, toSizeT m.alSize, m.lowerTA⟩ := by
  obtain ⟨a1, a2, a3⟩ := h
  unfold SparseTM.setExtra
  rw [if_neg (by omega), if_neg (by omega), if_neg (by omega), cInt_fits h1, cInt_fits h2, cInt_fits h3]
  rfl

theorem setExtra_value (m : SparseTM) (h : ¬ AcceptableParams m.clauseSize m.alSize m.lowerTA) (b : SparseSetup) :
    m.setExtra b = .error .valueError := by
  unfold SparseTM.setExtra
  split
  · rfl
  split
  · rfl
  split
  · rfl
  · exact absurd ⟨by omega, by omega, by omega⟩ h

theorem setExtra_type (m : SparseTM) (h : AcceptableParams m.clauseSize m.alSize m.lowerTA)
    (h1 : ¬ (FitsInt m.clauseSize ∧ FitsInt m.alSize ∧ FitsInt m.lowerTA)) (b : SparseSetup) :
    m.setExtra b = .error .typeError := by
  obtain ⟨a1, a2, a3⟩ := h
  unfold SparseTM.setExtra
  rw [if_neg (by omega), if_neg (by omega), if_neg (by omega)]
  by_cases e1 : FitsInt m.alSize
  · rw [cInt_fits e1]
    by_cases e2 : FitsInt m.clauseSize
    · rw [cInt_fits e2, cInt_not fun h => h1 ⟨e2, e1, h⟩]; rfl
    · rw [cInt_not e2]; rfl
  · rw [cInt_not e1]; rfl

theorem fill_ok (m : SparseTM) (h : AcceptableParams m.clauseSize m.alSize m.lowerTA) (h1 : FitsInt m.clauseSize)
    (h2 : FitsInt m.alSize) (h3 : FitsInt m.lowerTA) (bs : List BlockSetup) (done : List SparseSetup) :
    m.fill bs done = (done ++ bs.map fun b => ⟨b, toSizeT m.clauseSize, toSizeT m.alSize, m.lowerTA⟩, none) := by
  induction bs generalizing done with
  | nil => simp [SparseTM.fill]
  | cons b bs ih => simp [SparseTM.fill, setExtra_ok m h h1 h2 h3, ih, SparseSetup.new]

/-- C91: constructing the blocks succeeds exactly if both sizes are positive, the threshold is not, and all three fit a
C++ `int`; otherwise the machine is left without blocks, everything else as it was, with a `ValueError` for a value out
of range and a `TypeError` for one that does not fit. -/
theorem C91_accepted_iff (m : SparseTM) (bs : List BlockSetup) (hb : m.tm.constructClauseBlocks = .ok bs) (hne : bs ≠ []) :
    (m.construct.2 = none ↔ AcceptableParams m.clauseSize m.alSize m.lowerTA ∧
      FitsInt m.clauseSize ∧ FitsInt m.alSize ∧ FitsInt m.lowerTA) ∧
    (¬ AcceptableParams m.clauseSize m.alSize m.lowerTA →
      m.construct = ({ m with cbs := some [] }, some .valueError)) ∧
    (AcceptableParams m.clauseSize m.alSize m.lowerTA →
      ¬ (FitsInt m.clauseSize ∧ FitsInt m.alSize ∧ FitsInt m.lowerTA) →
      m.construct = ({ m with cbs := some [] }, some .typeError)) := by
  obtain ⟨b, bs, rfl⟩ := List.exists_cons_of_ne_nil hne
  have hv : ¬ AcceptableParams m.clauseSize m.alSize m.lowerTA →
      m.construct = ({ m with cbs := some [] }, some .valueError) := by
    intro h
    simp [SparseTM.construct, hb, SparseTM.fill, setExtra_value m h]
  have ht : AcceptableParams m.clauseSize m.alSize m.lowerTA →
      ¬ (FitsInt m.clauseSize ∧ FitsInt m.alSize ∧ FitsInt m.lowerTA) →
      m.construct = ({ m with cbs := some [] }, some .typeError) := by
    intro h h1
    simp [SparseTM.construct, hb, SparseTM.fill, setExtra_type m h h1]
  refine ⟨⟨fun h => ?_, fun ⟨h, h1, h2, h3⟩ => ?_⟩, hv, ht⟩
  · by_cases a : AcceptableParams m.clauseSize m.alSize m.lowerTA
    · refine ⟨a, ?_⟩
      by_contra hc
      rw [ht a hc] at h; cases h
    · rw [hv a] at h; cases h
  · simp [SparseTM.construct, hb, fill_ok m h h1 h2 h3]

/-- C91: every block that is constructed has the machine's three values as they are at that moment, whatever the number
of blocks; nothing but the list of blocks changes. -/
theorem C91_every_block (m m' : SparseTM) (h : m.construct = (m', none)) :
    ∃ setups bs, m.tm.constructClauseBlocks = .ok setups ∧ m' = { m with cbs := some bs } ∧ bs.map (·.base) = setups ∧
      ∀ b ∈ bs, (b.clauseSize : Int) = m.clauseSize ∧ (b.alSize : Int) = m.alSize ∧ b.lowerTA = m.lowerTA := by
  rcases hb : m.tm.constructClauseBlocks with e | setups
  · simp [SparseTM.construct, hb] at h
  by_cases hne : setups = []
  · subst hne
    simp [SparseTM.construct, hb, SparseTM.fill] at h
    exact ⟨[], [], rfl, h.symm, rfl, by simp⟩
  obtain ⟨a, h1, h2, h3⟩ := (C91_accepted_iff m setups hb hne).1.mp (by rw [h])
  refine ⟨setups, setups.map fun b => ⟨b, toSizeT m.clauseSize, toSizeT m.alSize, m.lowerTA⟩, rfl, ?_, by simp [Function.comp_def], ?_⟩
  · simp [SparseTM.construct, hb, fill_ok m a h1 h2 h3] at h
    exact h.symm
  · intro b hb
    obtain ⟨s, -, rfl⟩ := List.mem_map.mp hb
    have := a.1
    have := a.2.1
    exact ⟨toSizeT_id (by omega) h1.2, toSizeT_id (by omega) h2.2, rfl⟩

/-- C91: what blocks there were before, from a training or from a refused attempt, has no influence. -/
theorem C91_no_trace (m : SparseTM) (old : Option (List SparseSetup)) (bs : List BlockSetup)
    (hb : m.tm.constructClauseBlocks = .ok bs) :
    { m with cbs := old }.construct = m.construct := by
  have e : ∀ bs done, SparseTM.fill { m with cbs := old } bs done = m.fill bs done := by
    intro bs
    induction bs with
    | nil => intro done; rfl
    | cons b bs ih =>
      intro done
      show (match m.setExtra (.new b) with
        | .error e => (done, some e)
        | .ok b => SparseTM.fill { m with cbs := old } bs (done ++ [b])) = _
      rw [SparseTM.fill]
      cases m.setExtra (.new b) with
      | error e => rfl
      | ok b => exact ih _
  simp only [SparseTM.construct, hb, e]

/-- C91: every `train()` works with blocks that have the machine's values of that moment, whether or not there was a
training with other values before. -/
theorem C91_every_training (m m' : SparseTM) (nJobs : Int) (h : m.prepare nJobs = (m', none)) :
    ∃ bs, m'.cbs = some bs ∧
      ∀ b ∈ bs, (b.clauseSize : Int) = m.clauseSize ∧ (b.alSize : Int) = m.alSize ∧ b.lowerTA = m.lowerTA := by
  unfold SparseTM.prepare at h
  split at h
  · cases h
  · rename_i tm he
    obtain ⟨_, bs, _, e, _, hall⟩ := C91_every_block _ _ h
    exact ⟨bs, by rw [e], hall⟩

/-- C91: a machine with its defaults is accepted by `train()`, which makes one block per job, each with the default
values. -/
theorem C91_default_machine (nl ncl ncs : Int) (s : SArg) (t : Int) (budget : Option Int) (boost ml : Bool) (m : SparseTM)
    (h0 : 1 ≤ nl) (h1 : nl < 2 ^ 31) (hs : s ≠ .list []) (h : SparseTM.new nl ncl ncs s t budget boost ml = .ok m)
    (nJobs : Int) (hj : 1 ≤ nJobs) (hj' : nJobs ≤ ncl) :
    ∃ m' bs, m.prepare nJobs = (m', none) ∧ m'.cbs = some bs ∧ bs.length = nJobs.toNat ∧
      ∀ b ∈ bs, LeastCover nl b.clauseSize ∧ LeastCover nl b.alSize ∧ b.lowerTA = -40 := by
  obtain ⟨d1, d2, d3, d4, d5⟩ := C91_defaults nl ncl ncs s t budget boost ml m (by omega) h
  have hnew : m.tm.blockSizes = none ∧ m.tm.flags = none ∧ m.tm.nClauses = ncl ∧ m.tm.s ≠ [] ∧ m.tm.budgets = [budget] := by
    unfold TM.new at d5
    cases s with
    | float s =>
      simp only at d5
      split at d5
      · cases d5
      · split at d5
        · cases d5
        · injection d5 with d5; rw [← d5]; simp
    | list ss =>
      have : ss ≠ [] := fun e => hs (by rw [e])
      simp only at d5
      split at d5
      · cases d5
      · split at d5
        · cases d5
        · injection d5 with d5; rw [← d5]; simpa using this
  obtain ⟨n1, n2, n3, n4, n5⟩ := hnew
  obtain ⟨sizes, e, -, hl⟩ := C01_trainer_default m.tm nJobs n1 hj (by omega)
  have hcon : ∃ bs, ({ m.tm with blockSizes := some sizes } : TM).constructClauseBlocks = .ok bs ∧ bs.length = sizes.length := by
    refine ⟨_, rfl, ?_⟩
    rw [show ({ m.tm with blockSizes := some sizes } : TM).flags.getD (List.replicate sizes.length true) =
      List.replicate sizes.length true by rw [n2]; rfl]
    exact (buildBlocks_get { m.tm with blockSizes := some sizes } _ sizes (List.replicate sizes.length true) (by simp) n4 (by rw [n5]; simp) 0
      ⟨m.tm.s, m.tm.s⟩ ⟨m.tm.budgets, m.tm.budgets⟩ ⟨rfl, by simp⟩ ⟨rfl, by simp⟩).1
  obtain ⟨setups, hc, hlen⟩ := hcon
  have hne : setups ≠ [] := by
    intro e
    rw [e] at hlen
    simp at hlen
    omega
  have bound : ∀ k, LeastCover nl k → 1 ≤ k ∧ FitsInt k := by
    intro k ⟨k0, k1, k2⟩
    have hk := k2 46341 (by norm_num) (by omega)
    have : k ≠ 0 := by rintro rfl; omega
    exact ⟨by omega, by unfold FitsInt; omega⟩
  have hok := (C91_accepted_iff { m with tm := { m.tm with blockSizes := some sizes } } setups hc hne).1.mpr
    ⟨⟨(bound _ d1).1, (bound _ d2).1, by show m.lowerTA ≤ 0; omega⟩, (bound _ d1).2, (bound _ d2).2, by
      show FitsInt m.lowerTA
      rw [d3]; unfold FitsInt; omega⟩
  obtain ⟨setups', bs, c1, c2, c3, c4⟩ := C91_every_block _ _ (Prod.ext rfl hok)
  have : setups' = setups := by
    have := c1.symm.trans hc
    injection this
  subst this
  refine ⟨{ m with tm := { m.tm with blockSizes := some sizes } }.construct.1, bs, ?_, ?_, ?_, ?_⟩
  · simp only [SparseTM.prepare, e]
    exact Prod.ext rfl hok
  · exact congrArg SparseTM.cbs c2
  · rw [← hl, ← hlen, ← c3, List.length_map]
  · intro b hb
    obtain ⟨e1, e2, e3⟩ := c4 b hb
    exact ⟨by rw [e1]; exact d1, by rw [e2]; exact d2, by rw [e3]; exact d3⟩

/-- C91, C36, C38: so after any history the rows of every clause and the list of every class of a constructed block
stay within the limits set on the machine. -/
theorem C91_limits_hold (m m' : SparseTM) (h : m.construct = (m', none)) (setups : List SparseSetup)
    (hc : m'.cbs = some setups) (p : SparseSetup) (hp : p ∈ setups) (boost dynAL : Bool) (si sm : Rat)
    (nLits nClauses nClasses : Nat) (fastOf : Nat → Rng) (junk : Nat → Nat) (seed : Nat) (b : SBlock)
    (hb : initSparse nLits nClauses nClasses (p.cfg boost dynAL si sm) fastOf junk seed = some b) (ops : List BlockOp) :
    (∀ c ∈ (sRun b ops).clauses, (c.pos.length : Int) ≤ m.clauseSize ∧ (c.neg.length : Int) ≤ m.clauseSize) ∧
    (∀ a ∈ (sRun b ops).al, (a.1.length : Int) ≤ m.alSize) := by
  obtain ⟨_, bs, _, rfl, _, hall⟩ := C91_every_block m m' h
  simp only [Option.some.injEq] at hc
  subst hc
  obtain ⟨e1, e2, _⟩ := hall p hp
  refine ⟨fun c hc => ?_, fun a ha => ?_⟩
  · obtain ⟨_, _, h3, h4, _⟩ := C36_every_history_partial nLits nClauses nClasses _ fastOf junk seed b hb ops c hc
    have h3 : c.pos.length ≤ p.clauseSize := h3
    have h4 : c.neg.length ≤ p.clauseSize := h4
    omega
  · obtain ⟨k, hk⟩ := List.mem_iff_getElem?.mp ha
    have h3 : a.1.length ≤ p.alSize := (C38_every_history_partial nLits nClauses nClasses _ fastOf junk seed b hb ops k a hk).1
    omega

/-! ## Cases that meet the hypotheses -/

/-- A machine for 10 literals, 5 clauses and 3 classes. -/
def exSparseTM : SparseTM := ⟨exSparseTM.base, 4, 4, -40, none⟩
where base : TM :=
  { nLiterals := 10, nClauses := 5, nClasses := 3, s := [3], threshold := 20, budgets := [none], budgetList := none,
    boost := false, multiLabel := false, blockSizes := none, flags := none }

example : (SparseTM.new 10 5 3 (.float 3) 20 none false false).toOption = some exSparseTM := by decide +kernel

example : (exSparseTM.prepare 2).2 = none ∧
    (exSparseTM.prepare 2).1.cbs.map (·.map fun b => (b.base.nClauses, b.clauseSize, b.alSize, b.lowerTA)) =
      some [(3, 4, 4, -40), (2, 4, 4, -40)] := by decide +kernel

example : (({ exSparseTM with clauseSize := 0 }).prepare 2).2 = some .valueError ∧
    (({ exSparseTM with lowerTA := 1 }).prepare 2).2 = some .valueError ∧
    (({ exSparseTM with lowerTA := 0 }).prepare 2).2 = none ∧
    (({ exSparseTM with alSize := 2 ^ 31 }).prepare 2).2 = some .typeError := by decide +kernel

/-- The root of 5, rounded down. -/
example : SqrtRounded 5 (5035177455121575 / 2 ^ 51) := by
  refine ⟨⟨5035177455121575, -51, by norm_num, by norm_num⟩, by norm_num, fun e he h0 => ⟨fun h => ?_, fun h => ?_⟩⟩
  · have hl : ilog2 3 = 1 := Dbl.ilog2_unique 3 1 (by norm_num) (by norm_num)
    rcases Dbl.isDouble_grid 3 e (by norm_num) he with ⟨k, hk⟩ | hk
    · rw [hl] at hk
      norm_num at hk
      subst hk
      have hk : k * k ≤ 5 * (2251799813685248 * 2251799813685248) := by
        have : (k : Rat) * k ≤ 5 * (2251799813685248 * 2251799813685248) := by push_cast at h; linarith
        exact_mod_cast this
      have : k ≤ 5035177455121575 := by
        by_contra hc
        have : 5035177455121576 ≤ k := by omega
        nlinarith
      have : (k : Rat) ≤ 5035177455121575 := by exact_mod_cast this
      norm_num
      linarith
    · rw [hl, abs_of_nonneg h0] at hk
      norm_num at hk
      norm_num
      linarith
  · push_cast at h
    nlinarith

end GT
