import Verif.Lemmas.Backend
import Verif.Model.Inference
import Verif.Model.Conv

/-!
# Choosing the backend: C45, C63, C64, C65
-/

namespace GT
open Spec

/-! ### C45: classes -/

/-- **C45**: with the C++ module, after any history of creating, configuring, constructing and training machines in the
process, a dense machine constructs blocks of the class of the platform with its own options. -/
theorem C45_dense_class (pl : Platform) (hc : pl.core = true) (ops : List ProcessOp) (i : Nat) (m : Mach)
    (hi : (runProcess pl ops).machs[i]? = some m) (hk : m.kind = .dense) :
    (m.construct (runProcess pl ops).reg).2.2 = .ok (wantedDense pl m.budget m.boost) :=
  construct_dense ((procRun_ok pl ops).mach hi) hc hk

/-- **C45**: a sparse machine constructs sparse blocks with its own options. -/
theorem C45_sparse_class (pl : Platform) (hc : pl.core = true) (ops : List ProcessOp) (i : Nat) (m : Mach)
    (hi : (runProcess pl ops).machs[i]? = some m) (hk : m.kind = .sparse) :
    (m.construct (runProcess pl ops).reg).2.2 = .ok (.sparse m.budget m.dynAL m.boost) := by
  rw [construct_sparse ((procRun_ok pl ops).mach hi) hc hk]

example : ∃ m, (runProcess ⟨true, true, false⟩ [.create .dense false false true, .create .sparse true true true,
    .construct 1, .setBudget 0]).machs[0]? = some m ∧ m.kind = .dense ∧
    wantedDense ⟨true, true, false⟩ m.budget m.boost = .avx2 true true := ⟨_, rfl, rfl, rfl⟩

/-- **C45**: a dense machine takes arrays and sparse matrices, whatever else was done in the process: an array is never
refused, arrays are read by the dense input block and sparse matrices by the one that expands them. -/
theorem C45_dense_machine_data (pl : Platform) (hc : pl.core = true) (ops : List ProcessOp) (i : Nat) (m : Mach)
    (hi : (runProcess pl ops).machs[i]? = some m) (hk : m.kind = .dense) :
    refusesArray m (runProcess pl ops).reg = false ∧
    (m.train (runProcess pl ops).reg .ndarray .ndarray).2.2 = .ok (wantedDense pl m.budget m.boost, .dense) ∧
    (m.train (runProcess pl ops).reg .csr .csr).2.2 = .ok (wantedDense pl m.budget m.boost, .sparseDense) := by
  have hok := (procRun_ok pl ops).mach hi
  have hne := sparse_ne (hok.mach (by simp [hk])) hok.scb
  have hcon := construct_dense hok hc hk
  have ha : ∀ ib, ib ≠ .sparse → acceptsIb (wantedDense pl m.budget m.boost) ib = true := by
    intro ib hib
    rcases pl with ⟨_, a, n⟩
    cases a <;> cases n <;> cases ib <;> simp_all [acceptsIb, wantedDense]
  refine ⟨by simp [refusesArray, hne], ?_, ?_⟩
  · simp [Mach.train, selectIb, hcon, ha]
  · simp [Mach.train, selectIb, hne, hcon, ha]

/-- **C45**, the other kinds of data: a missing set or a mixture of the two types is a ValueError for every machine, and
changes nothing. -/
theorem C45_data_types_must_match (m : Mach) (r : Registry) (a b : DataKind)
    (h : a = .missing ∨ b = .missing ∨ a ≠ b) : m.train r a b = (m, r, .error .valueError) := by
  cases a <;> cases b <;> simp_all [Mach.train, selectIb]

/-- **C45**: a sparse machine that is the only one in the process refuses arrays and trains on sparse matrices with the
sparse input block. -/
theorem C45_single_sparse_partial (pl : Platform) (hc : pl.core = true) (ops : List ProcessOp)
    (h1 : sparseCreated ops ≤ 1) (i : Nat) (m : Mach) (hi : (runProcess pl ops).machs[i]? = some m)
    (hk : m.kind = .sparse) :
    refusesArray m (runProcess pl ops).reg = true ∧
    (m.train (runProcess pl ops).reg .csr .csr).2.2 = .ok (.sparse m.budget m.dynAL m.boost, .sparse) := by
  have he := run_follows pl hc ops h1 m (List.mem_of_getElem? hi) hk
  have hcon := construct_sparse ((procRun_ok pl ops).mach hi) hc hk
  exact ⟨by simp [refusesArray, he], by simp [Mach.train, selectIb, he, hcon, acceptsIb]⟩

/-- **C45**: so do any number of sparse machines that all have a budget, dynamic active literals and no boosting. -/
theorem C45_fallback_sparse_partial (pl : Platform) (hc : pl.core = true) (ops : List ProcessOp)
    (h1 : OnlyFallbackSparse ops) (i : Nat) (m : Mach) (hi : (runProcess pl ops).machs[i]? = some m)
    (hk : m.kind = .sparse) :
    refusesArray m (runProcess pl ops).reg = true ∧
    (m.train (runProcess pl ops).reg .csr .csr).2.2 = .ok (.sparse true true false, .sparse) := by
  have hf := run_fallback pl hc ops h1
  obtain ⟨e1, e2, e3, e4⟩ := hf.machs m (List.mem_of_getElem? hi) hk
  have hcon := construct_sparse ((procRun_ok pl ops).mach hi) hc hk
  refine ⟨by simp [refusesArray, e1, hf.reg], ?_⟩
  simp only [Mach.train, selectIb, e1, hf.reg, hcon, e2, e3, e4]
  simp [acceptsIb]

example : sparseCreated [.create .dense true false true, .create .sparse false true false,
    .train 0 .csr .csr, .train 1 .csr .csr] ≤ 1 := by decide
example : OnlyFallbackSparse [.create .sparse true true false, .create .sparse true true false,
    .train 0 .csr .csr] := by
  intro op hop
  simp only [List.mem_cons, List.not_mem_nil, or_false] at hop
  rcases hop with h | h | h <;> subst h <;> simp

/-- **C45 fails** with two sparse machines: create two with the default options, train the first, and the second
refuses nothing and cannot be trained (the input block is the dense one); a second attempt works. -/
theorem C45_two_sparse_machines_fail (pl : Platform) (hc : pl.core = true) :
    let p := runProcess pl [.create .sparse false true false, .create .sparse false true false, .train 0 .csr .csr]
    ∃ m, p.machs[1]? = some m ∧ m.kind = .sparse ∧ refusesArray m p.reg = false ∧
      (m.train p.reg .csr .csr).2.2 = .error .typeError ∧
      ((m.train p.reg .csr .csr).1.train (m.train p.reg .csr .csr).2.1 .csr .csr).2.2 =
        .ok (.sparse false true false, .sparse) := by
  rcases pl with ⟨c, a, n⟩
  cases c
  · cases hc
  · cases a <;> cases n <;> exact ⟨_, rfl, rfl, rfl, rfl, rfl⟩

/-- **C45 fails** for convolutional machines without AVX2: no block can be constructed. With AVX2 the class is the
AVX2 one. -/
theorem C45_conv_class_partial (pl : Platform) (hc : pl.core = true) (ops : List ProcessOp) (i : Nat) (m : Mach)
    (hi : (runProcess pl ops).machs[i]? = some m) (hk : m.kind = .conv) :
    (m.construct (runProcess pl ops).reg).2.2 = if pl.avx2 then .ok .convAvx2 else .error .typeError := by
  rw [construct_conv ((procRun_ok pl ops).mach hi) hk, hc]
  simp

/-- **C45 fails** without the C++ module: the fallback has no class for any machine, whatever is done before. -/
theorem C45_pure_python_constructs_nothing (pl : Platform) (hc : pl.core = false) (ops : List ProcessOp) (i : Nat)
    (m : Mach) (hi : (runProcess pl ops).machs[i]? = some m) :
    (m.construct (runProcess pl ops).reg).2.2 = .error (if m.kind = .conv then .typeError else .keyError) :=
  construct_no_core ((procRun_ok pl ops).mach hi) hc

example : ∃ m, (runProcess ⟨false, false, false⟩ [.create .dense false false true]).machs[0]? = some m := ⟨_, rfl⟩

/-- **C45**: the inference class of a predictor: which importances it computes is what the explanation asks for; negative
clauses are left out when asked and an explanation is computed; anything else is a ValueError. -/
theorem C45_inference_class (e : String) (exclNeg : Bool) :
    match parseExpl e with
    | .ok x => (e = "none" ∨ e = "literals" ∨ e = "features" ∨ e = "both") ∧
        backendFlags x exclNeg =
          (decide (e = "features" ∨ e = "both"), decide (e = "literals" ∨ e = "both"), exclNeg && decide (e ≠ "none"))
    | .error _ => e ≠ "none" ∧ e ≠ "literals" ∧ e ≠ "features" ∧ e ≠ "both" := by
  unfold parseExpl
  by_cases h1 : e = "none"
  · subst h1; cases exclNeg <;> simp [backendFlags]
  · by_cases h2 : e = "literals"
    · subst h2; cases exclNeg <;> simp [backendFlags]
    · by_cases h3 : e = "features"
      · subst h3; cases exclNeg <;> simp [backendFlags]
      · by_cases h4 : e = "both"
        · subst h4; cases exclNeg <;> simp [backendFlags]
        · simp [h1, h2, h3, h4]

/-! ### C63: AVX2 only where the processor has it -/

/-- **C63**: a module built without AVX2 never selects it. -/
theorem C63_not_compiled_partial (cpuid : Nat → CpuRegs) : hasAvx2 false cpuid = false := rfl

/-- **C63 fails**: the test reads the vendor name, so every Intel and AMD processor counts as having AVX2, whether leaf 7
says so or not. -/
theorem C63_vendor_string_decides (cpuid : Nat → CpuRegs)
    (h : ∃ maxLeaf, cpuid 0 = genuineIntel maxLeaf ∨ cpuid 0 = authenticAMD maxLeaf) : hasAvx2 true cpuid = true := by
  obtain ⟨n, h | h⟩ := h
  · simp only [hasAvx2, h, genuineIntel]; decide
  · simp only [hasAvx2, h, authenticAMD]; decide

/-- **C63 fails**: a processor without AVX2 is given the AVX2 classes, and one with AVX2 can be given the portable
ones. -/
theorem C63_wrong_both_ways :
    (∃ cpuid, cpuHasAvx2 cpuid = false ∧ hasAvx2 true cpuid = true) ∧
    (∃ cpuid, cpuHasAvx2 cpuid = true ∧ hasAvx2 true cpuid = false) := by
  refine ⟨⟨fun l => if l = 0 then genuineIntel 6 else ⟨0, 0, 0, 0⟩, by decide, by decide⟩,
    ⟨fun l => if l = 7 then ⟨0, 32, 0, 0⟩ else ⟨7, 0, 0, 0⟩, by decide, by decide⟩⟩

/-! ### C64: options of a convolutional machine -/

/-- **C64**: without `multi_label` a convolutional machine has the options it was given, and no boosting. -/
theorem C64_single_label_partial (nl nc k : Int) (s : SArg) (t : Int) (b : Option Int) :
    convNew nl nc k s t b false = TM.new nl nc k s t b false false := rfl

/-- **C64 fails**: a convolutional machine made with `multi_label=True` is single label, has half the classes, and
boosts true positives. -/
theorem C64_multi_label_lost (nl nc k : Int) (s : SArg) (t : Int) (b : Option Int) (ml : Bool) (tm : TM)
    (h : convNew nl nc k s t b ml = .ok tm) :
    tm.multiLabel = false ∧ tm.nClasses = k ∧ tm.boost = ml := by
  cases s <;> simp only [convNew, TM.new] at h <;> split at h <;> try split at h
  all_goals first
    | (simp only [Except.ok.injEq] at h; subst h; exact ⟨rfl, rfl, rfl⟩)
    | cases h

example : (convNew 4 6 2 (.float 3) 10 none true).toOption.isSome = true := by decide +kernel

/-! ### C65: a convolutional machine looks at the patches -/

/-- **C65**: the statement for a block whose number of patches was set is **C41**; `initialize` refuses the others. -/
theorem C65_refused_partial (nLits nClauses nClasses : Nat) (cfg : Cfg) (fastOf rngOf : Nat → Rng)
    (junk junkPatch junkCounts : Nat → Nat) (seed : Nat) :
    initConv nLits nClauses nClasses constructedPatches cfg fastOf rngOf junk junkPatch junkCounts seed = none := by
  unfold initConv
  cases initTM nLits nClauses nClasses cfg fastOf rngOf junk seed <;> simp [constructedPatches]

/-- **C65 fails**: a block constructed and initialised through a machine has all votes zero for every example, in
training and in evaluation, after any history. -/
theorem C65_no_clause_ever_fires (nLits nClauses nClasses : Nat) (cfg : Cfg) (fastOf rngOf : Nat → Rng)
    (junk junkPatch junkCounts : Nat → Nat) (seed : Nat) (b : ConvBlock)
    (hb : initConvFromMachine nLits nClauses nClasses cfg fastOf rngOf junk junkPatch junkCounts seed = some b)
    (ops : List BlockOp) (x : List Nat) :
    ((b.run ops).apply (.evalExample x)).votes = List.replicate nClasses 0 ∧
    ((b.run ops).apply (.trainExample x)).votes = List.replicate nClasses 0 := by
  have h0 : b.nPatches = 0 ∧ b.nClasses = nClasses := by
    unfold initConvFromMachine at hb
    cases h : initTM nLits nClauses nClasses cfg fastOf rngOf junk seed with
    | none => rw [h] at hb; cases hb
    | some d => rw [h] at hb; simp only [Option.some.injEq] at hb; subst hb; exact ⟨rfl, rfl⟩
  have hrun : ∀ (ops : List BlockOp) (b : ConvBlock), (b.run ops).nPatches = b.nPatches ∧
      (b.run ops).nClasses = b.nClasses := by
    intro ops
    induction ops with
    | nil => intro b; exact ⟨rfl, rfl⟩
    | cons op ops ih =>
      intro b
      have := ih (b.apply op)
      cases op <;> exact this
  obtain ⟨h1, h2⟩ := hrun ops b
  rw [h0.1] at h1
  rw [h0.2] at h2
  generalize b.run ops = b' at h1 h2
  have hz : ∀ (cs : List Clause) (v : List Int), (∀ c ∈ cs, c.out = 0) →
      cs.foldl (fun v c => if c.out = 1 then addVotes v c.w else v) v = v := by
    intro cs
    induction cs with
    | nil => intro v _; rfl
    | cons c cs ih =>
      intro v hcs
      rw [List.foldl_cons, hcs c (List.mem_cons_self ..)]
      exact ih v (fun c' hc' => hcs c' (List.mem_cons_of_mem _ hc'))
  constructor
  · show countVotes b'.nClasses _ = _
    rw [h2]
    apply hz
    intro c hc
    simp only [List.map_map, List.mem_map, Function.comp] at hc
    obtain ⟨c0, _, rfl⟩ := hc
    simp [convEvalClause, h1, anyPatch]
  · show countVotes b'.nClasses _ = _
    rw [h2]
    apply hz
    rw [h1]
    have : ∀ (cs : List ConvClause) (k : Nat → Nat) (g : Rng),
        ∀ c ∈ (convSetClauses b'.cfg b'.nLits 0 x cs k g).1, c.base.out = 0 := by
      intro cs
      induction cs with
      | nil => intro k g c hc; simp [convSetClauses] at hc
      | cons c0 cs ih =>
        intro k g c hc
        simp only [convSetClauses, List.mem_cons] at hc
        rcases hc with hc | hc
        · subst hc; simp [convSetClause, convScan]
        · exact ih _ _ c hc
    intro c hc
    simp only [List.mem_map] at hc
    obtain ⟨c0, h, rfl⟩ := hc
    exact this _ _ _ c0 h

/-- **C65 fails** in the same way for the AVX2 class, the one a machine gets. -/
theorem C65_no_clause_ever_fires_avx2 (cfg : VCfg) (lits : Mem) (cs : List VConvClause) (counts : Nat → Nat) (g : Rng) :
    (∀ c ∈ (avxConvSetClauses cfg constructedPatches.toNat lits cs counts g).1, c.base.out = 0) ∧
    (∀ c ∈ cs, (avxConvEvalClause cfg constructedPatches.toNat lits c).base.out = 0) := by
  constructor
  · induction cs generalizing counts g with
    | nil => intro c hc; simp [avxConvSetClauses] at hc
    | cons c0 cs ih =>
      intro c hc
      simp only [avxConvSetClauses, List.mem_cons] at hc
      rcases hc with hc | hc
      · subst hc; simp [avxConvSetClause, convScan, constructedPatches]
      · exact ih _ _ c hc
  · intro c _
    simp [avxConvEvalClause, anyPatch, constructedPatches]

example : ∃ b, initConvFromMachine 3 2 2 ⟨none, false, 0, 1⟩ (fun _ => ⟨fun _ => 0, 0⟩) (fun _ => ⟨fun _ => 0, 0⟩)
    (fun _ => 0) (fun _ => 0) (fun _ => 0) 42 = some b := ⟨_, rfl⟩

end GT
