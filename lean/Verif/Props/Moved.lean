import Verif.Model.Moved
import Verif.Spec.Moved
import Verif.Props.StateArrays
import Verif.Props.CText
import Verif.Props.ConvExec

/-! # C98: a trained model answers the same wherever it is used -/

namespace GT
open Spec Spec.CLang Arr

theorem answers_of_get {n : Nat} {cls : List (List Int × List Int × List Int)} {α : Type} (f : α → List Nat)
    {data : List α} {ks : List Nat} (hl : ks.length = data.length)
    (h : ∀ (i : Nat) (x : α) (k : Nat), data[i]? = some x → ks[i]? = some k → LowestMax (modelVotes n cls (f x)) k) :
    AnswersOf n cls (data.map f) ks := by
  induction data generalizing ks with
  | nil => cases ks with
    | nil => exact .nil
    | cons _ _ => simp at hl
  | cons x xs ih => cases ks with
    | nil => simp at hl
    | cons k ks =>
      exact .cons (h 0 x k rfl rfl) (ih (by simpa using hl) fun i y j hy hj => h (i + 1) y j (by simpa using hy) (by simpa using hj))

theorem answers_unique {n : Nat} {cls cls' : List (List Int × List Int × List Int)} (hp : cls.Perm cls')
    {data : List (List Nat)} {ks ks' : List Nat} (h : AnswersOf n cls data ks) (h' : AnswersOf n cls' data ks') : ks = ks' := by
  induction h generalizing ks' with
  | nil => cases h'; rfl
  | @cons x k xs ks hx _ ih =>
    cases h' with
    | @cons _ k' _ ks' hx' hr =>
      rw [ih hr]
      congr 1
      refine lowestMax_unique hx ?_
      have : modelVotes n cls x = modelVotes n cls' x := by
        unfold modelVotes
        apply List.map_congr_left
        intro j _
        rw [firingSum_perm hp x j]
      rw [this]
      exact hx'

/-- C98: machines with the same clauses, however divided into blocks and ordered, give the same predictions, whichever of the
backends runs them (on NEON: without empty clauses, see C42). -/
theorem C98_backends_partial (m n : Nat) (data : List (List Nat)) (hx : ∀ x ∈ data, Binary x ∧ x.length = m)
    (e : Exec DBlock) (h : SetUp m n e) :
    ∃ ks, (Exec.evalPredict denseBackend data data.length e).2 = some ks ∧ AnswersOf n (model e) data ks ∧
      (∀ e' : Exec DBlock, SetUp m n e' → (model e').Perm (model e) →
        (Exec.evalPredict denseBackend data data.length e').2 = some ks) ∧
      (∀ (v : Exec VBlock) (mem : List Mem), AvxSetUp m n v → (avxModel v).Perm (model e) → mem.map (unpadExample m) = data →
        (Exec.evalPredict avxBackend mem mem.length v).2 = some ks) ∧
      (∀ (v : Exec (Option NBlock)) (mem : List Mem), Ready n (NeonBlockOK m n) v → (neonModel v).Perm (model e) →
        (∀ c ∈ model e, ¬ EmptyClause c.1 c.2.1) → mem.map (unpadExample m) = data →
        (Exec.evalPredict neonBackend mem mem.length v).2 = some ks) := by
  obtain ⟨ks, a1, a2, a3⟩ := C17_batch_predictions m n e data h hx
  have ha : AnswersOf n (model e) data ks := by
    have := answers_of_get (fun x => x) a2 a3
    rwa [List.map_id'] at this
  refine ⟨ks, a1, ha, ?_, ?_, ?_⟩
  · intro e' h' hp
    obtain ⟨ks', b1, b2, b3⟩ := C17_batch_predictions m n e' data h' hx
    have hb : AnswersOf n (model e') data ks' := by
      have := answers_of_get (fun x => x) b2 b3
      rwa [List.map_id'] at this
    rw [b1, answers_unique hp hb ha]
  · rintro v mem hv hp rfl
    obtain ⟨ks', b1, b2, b3⟩ := C17_avx2_batch_predictions m n v mem hv fun x hm => (hx _ (List.mem_map_of_mem hm)).1
    rw [b1, answers_unique hp (answers_of_get _ b2 b3) ha]
  · rintro v mem hv hp hne rfl
    obtain ⟨ks', b1, b2, b3⟩ := C17_neon_votes_without_empty_clauses m n v mem hv
      (fun c hc => hne c (hp.mem_iff.mp hc)) fun x hm => (hx _ (List.mem_map_of_mem hm)).1
    rw [b1, answers_unique hp (answers_of_get _ b2 b3) ha]

theorem zipWith_of_map {α β γ δ : Type} (f : β → γ → δ) (g : α → β) (h : α → γ) (l : List α) :
    List.zipWith f (l.map g) (l.map h) = l.map fun a => f (g a) (h a) := by
  induction l with
  | nil => rfl
  | cons a l ih => simp [ih]

/-- What the rule set compiler reads of usual arrays. -/
theorem dense_of_arrays (m : Mach) (w c : NpMat) (hs : SameSize m w c) :
    ∃ d, St.dense ⟨some w, some c⟩ = some d ∧ WellShaped d ∧ d.nLits = m.nLits ∧ d.nClasses = m.nClasses ∧
      stateClauses d = arrClauses m.nLits m.nClasses w c := by
  obtain ⟨s1, s2, s3, s4⟩ := hs
  refine ⟨_, rfl, ⟨?_, ?_, ?_⟩, by simp [s2], s4, ?_⟩
  · simp [NpMat.rowList, s1, s3]
  · intro row hr
    simp only [NpMat.rowList, List.mem_map] at hr
    obtain ⟨i, -, rfl⟩ := hr
    simp [s2]
  · intro row hr
    simp only [NpMat.rowList, List.mem_map] at hr
    obtain ⟨i, -, rfl⟩ := hr
    simp
  · unfold stateClauses arrClauses NpMat.rowList
    dsimp only
    rw [s3, s1, s2, s4]
    rw [zipWith_of_map]
    apply List.map_congr_left
    intro i _
    rw [show 2 * m.nLits / 2 = m.nLits by omega]
    refine Prod.ext ?_ (Prod.ext ?_ rfl)
    · dsimp only
      rw [← List.map_take, List.take_range, Nat.min_eq_left (by omega)]
      rfl
    · dsimp only
      rw [← List.map_drop]
      apply List.ext_getElem?
      intro j
      simp only [List.getElem?_map, List.getElem?_drop]
      by_cases hj : j < m.nLits
      · rw [List.getElem?_range (by omega), List.getElem?_range hj]; rfl
      · rw [List.getElem?_eq_none (by simp; omega), List.getElem?_eq_none (by simp; omega)]; rfl

/-- C98: the predictor a machine makes from its state, and both exported programs of that predictor, give the answers of the
clauses in the state, for every example, in any order and after any other use of the predictor; weights and votes fit in 16
bits. -/
theorem C98_predictor_and_programs (mach : Mach) (w c : NpMat) (hst : mach.state = some ⟨some w, some c⟩)
    (hs : SameSize mach w c) (h0 : 0 < mach.nClasses) (h1 : mach.nClasses < 2 ^ 31) (data : List (List Nat))
    (hx : ∀ x ∈ data, Binary x ∧ x.length = mach.nLits)
    (hsm : Fits16 mach.nLits mach.nClasses (arrClauses mach.nLits mach.nClasses w c) data)
    (ml : Bool) (s : String) (excl : Bool) (p : Predictor) (hp : mach.getPredictor ml s excl = .ok p)
    (cs : List Call) (hnames : (afterCalls p cs).names = none)
    (pick : List Nat → List Nat → List (Nat × List Nat) → Nat × List Nat) (hpick : ChoosesEntry pick) :
    ∃ rs ks, mach.ruleset ml = .ok rs ∧ AnswersOf mach.nClasses (arrClauses mach.nLits mach.nClasses w c) data ks ∧
      List.Forall₂ (fun x k => ((afterCalls p cs).predict x).2 = .ok (.idx k)) data ks ∧
      ∃ minSteps, ∀ steps, minSteps ≤ steps → ∀ name, name = "simple_c" ∨ name = "topological_c" →
        ∃ text bound, exportAsProgram pick rs steps name = .ok (some text) ∧
          ∀ fuel, bound ≤ fuel → session fuel text (fun _ => none) data = some (ks.map Int.ofNat) := by
  obtain ⟨d, e1, e2, e3, e4, e5⟩ := dense_of_arrays mach w c hs
  obtain ⟨rs, hc, -, hcl, -⟩ := C23_compiles ml d e2
  have hr : mach.ruleset ml = .ok rs := by
    unfold Mach.ruleset
    simp only [hst, e1, hc]
  have hp' : Predictor.fromRuleset rs s excl = .ok p := by
    unfold Mach.getPredictor at hp
    simpa only [hr] using hp
  have hf : MergesFit d := by
    intro r k hk
    rw [e5, e3]
    exact hsm.1 r k (by omega)
  have key : ∀ x ∈ data, ∃ k, ((afterCalls p cs).predict x).2 = .ok (.idx k) ∧
      LowestMax (modelVotes mach.nClasses (arrClauses mach.nLits mach.nClasses w c) x) k := fun x hm =>
    predictor_lowestMax mach.nLits mach.nClasses _ d e2 e3 e4 h0 (by rw [e5]) hf ml rs hc s excl p hp' cs hnames x (hx x hm)
      (hsm.2 x hm)
  obtain ⟨ks, k1, k2⟩ : ∃ ks, AnswersOf mach.nClasses (arrClauses mach.nLits mach.nClasses w c) data ks ∧
      List.Forall₂ (fun x k => ((afterCalls p cs).predict x).2 = .ok (.idx k)) data ks := by
    clear hx hsm
    induction data with
    | nil => exact ⟨[], .nil, .nil⟩
    | cons x xs ih =>
      obtain ⟨k, q1, q2⟩ := key x (by simp)
      obtain ⟨ks, r1, r2⟩ := ih fun y hy => key y (by simp [hy])
      exact ⟨k :: ks, .cons q2 r1, .cons q1 r2⟩
  refine ⟨rs, ks, hr, k1, k2, ?_⟩
  obtain ⟨hok, hne, hd⟩ := C25_compiled_rules_exportable ml d e2 rs hc
  have hx' : ∀ x ∈ data, Binary x ∧ x.length = rs.nLits ∧ VotesFit rs x := by
    intro x hm
    obtain ⟨-, f1, f2⟩ := compiled_ok ml d e2 rs hc
    refine ⟨(hx x hm).1, by rw [(hx x hm).2, f1, e3], ?_⟩
    intro k hk
    rw [C22_votes_exact ml d e2 hf rs hc x k (by omega), e5]
    exact hsm.2 x hm k (by omega)
  have same : ∀ ks' : List Nat, List.Forall₂ (fun x k => ((afterCalls p cs).predict x).2 = .ok (.idx k)) data ks' → ks' = ks := by
    clear hx hx' hsm key k1
    intro ks' h'
    induction k2 generalizing ks' with
    | nil => cases h'; rfl
    | cons a _ ih =>
      cases h' with
      | cons b hr =>
        rw [ih _ hr]
        rw [a] at b
        cases b
        rfl
  obtain ⟨ms, hms⟩ := C71_tree_text pick hpick rs hok hne hd (by omega) (by omega) s excl p hp' cs hnames
  refine ⟨ms, fun steps hst name hname => ?_⟩
  rcases hname with rfl | rfl
  · obtain ⟨text, t1, bound, t2⟩ := C71_simple_text rs hok hne (by omega) (by omega) s excl p hp' cs hnames pick steps
    refine ⟨text, bound, t1, fun fuel hfu => ?_⟩
    obtain ⟨ks', u1, u2⟩ := t2 fuel hfu data hx'
    rw [u1, same _ u2]
  · obtain ⟨text, t1, bound, t2⟩ := hms steps hst
    refine ⟨text, bound, t1, fun fuel hfu => ?_⟩
    obtain ⟨ks', u1, u2⟩ := t2 fuel hfu data hx'
    rw [u1, same _ u2]

/-- `save_state` and `load_state` carry the clauses of usual arrays over into usual arrays. -/
theorem saved_state_loaded (m m2 : Mach) (w c : NpMat) (hst : m.state = some ⟨some w, some c⟩)
    (hu : UsualArrays w c) (hs : SameSize m w c) (e1 : m2.nLits = m.nLits) (e2 : m2.nClauses = m.nClauses)
    (e3 : m2.nClasses = m.nClasses) (fs : FS) (path : String) (hp : NpzName path) :
    ∃ fs' w' c', m.saveFile fs path = some (m, fs', .ok ()) ∧ (∀ p, p ≠ path → fs' p = fs p) ∧
      m2.loadFile fs' path = ({ m2 with state := some ⟨some w', some c'⟩ }, .ok ()) ∧ UsualArrays w' c' ∧ SameSize m2 w' c' ∧
      arrClauses m.nLits m.nClasses w' c' = arrClauses m.nLits m.nClasses w c := by
  obtain ⟨aw, w1, w2, w3, w4⟩ := npy_round hu.2.2.2.2.2
  obtain ⟨ac, c1, c2, c3, c4⟩ := npy_round hu.2.2.2.2.1
  obtain ⟨s1, s2, s3, s4⟩ := hs
  refine ⟨fun p => if p = path then some [("w", aw), ("c", ac)] else fs p, NpMat.ofNpy aw, NpMat.ofNpy ac, ?_, ?_, ?_, ?_, ?_, ?_⟩
  · unfold Mach.saveFile Mach.writeState
    simp only [hst]
    rw [FlatMem.bind_of w1, FlatMem.bind_of c1]
    unfold DenseArr.saveToFile
    simp [(isNpz_iff path).mpr hp]
  · intro p hp'; simp [hp']
  · unfold Mach.loadFile
    have : DenseArr.loadFromFile (fun p => if p = path then some [("w", aw), ("c", ac)] else fs p) path = .ok ⟨aw, ac⟩ := by
      unfold DenseArr.loadFromFile
      simp [(isNpz_iff path).mpr hp, Npz.get, w2.1, c2.1, w3.trans hu.2.1, c3.trans hu.1, s1, s3, List.lookup]
    rw [this]
  · exact ⟨c3.trans hu.1, w3.trans hu.2.1, (ofNpy_valid c2).2, (ofNpy_valid w2).2, (ofNpy_valid c2).1, (ofNpy_valid w2).1⟩
  · rw [ofNpy_whole w2, ofNpy_whole c2]
    exact ⟨by simp [s1, e2], by simp [s2, e1], by simp [s3, e2], by simp [s4, e3]⟩
  · unfold arrClauses
    have hr : (NpMat.ofNpy ac).rows = c.rows := by rw [ofNpy_whole c2]
    rw [hr]
    apply List.map_congr_left
    intro i hi
    have hi := List.mem_range.1 hi
    refine Prod.ext ?_ (Prod.ext ?_ ?_)
    · apply List.map_congr_left
      intro j hj
      have hj : j < m.nLits := List.mem_range.1 hj
      exact c4 i j hi (by omega)
    · apply List.map_congr_left
      intro j hj
      have hj : j < m.nLits := List.mem_range.1 hj
      exact c4 i (m.nLits + j) hi (by omega)
    · apply List.map_congr_left
      intro k hk
      have hk : k < m.nClasses := List.mem_range.1 hk
      exact w4 i k (by omega) (by omega)

/-- C98: a machine trained with the portable backend is saved, and its file loaded by another machine of the same dimensions, with
any division into blocks and any padding. Then the same class is predicted for every example by the trained machine, by the other
machine on the portable and the AVX2 backend (and NEON, without empty clauses), by predictors made from either machine, and by
both kinds of programs exported from these, provided weights and votes fit in 16 bits. -/
theorem C98_everywhere_partial (m m2 : Mach) (bs bs2 : List Blk) (h : MachineReady m bs) (h2 : MachineReady m2 bs2)
    (hst : m.state = none) (e1 : m2.nLits = m.nLits) (e2 : m2.nClauses = m.nClauses) (e3 : m2.nClasses = m.nClasses)
    (h1 : m.nClasses < 2 ^ 31) (fs : FS) (path : String) (hp : NpzName path)
    (e : Exec DBlock) (he : SetUp m.nLits m.nClasses e) (hm : model e = held bs)
    (data : List (List Nat)) (hx : ∀ x ∈ data, Binary x ∧ x.length = m.nLits) (hsm : Fits16 m.nLits m.nClasses (held bs) data) :
    ∃ ks m' fs' m2' m2'' bs2',
      (Exec.evalPredict denseBackend data data.length e).2 = some ks ∧
      m.saveFile fs path = some (m', fs', .ok ()) ∧ m2.loadFile fs' path = (m2', .ok ()) ∧
      m2'.restore = some (m2'', .ok ()) ∧ m2''.cbs = some bs2' ∧
      (∀ e' : Exec DBlock, SetUp m.nLits m.nClasses e' → model e' = held bs2' →
        (Exec.evalPredict denseBackend data data.length e').2 = some ks) ∧
      (∀ (v : Exec VBlock) (mem : List Mem), AvxSetUp m.nLits m.nClasses v → avxModel v = held bs2' →
        mem.map (unpadExample m.nLits) = data → (Exec.evalPredict avxBackend mem mem.length v).2 = some ks) ∧
      (∀ (v : Exec (Option NBlock)) (mem : List Mem), Ready m.nClasses (NeonBlockOK m.nLits m.nClasses) v →
        neonModel v = held bs2' → (∀ c ∈ held bs, ¬ EmptyClause c.1 c.2.1) →
        mem.map (unpadExample m.nLits) = data → (Exec.evalPredict neonBackend mem mem.length v).2 = some ks) ∧
      ∀ mach, mach = m' ∨ mach = m2' ∨ mach = m2'' → ∀ ml s excl p, mach.getPredictor ml s excl = .ok p →
      ∀ cs, (afterCalls p cs).names = none → ∀ pick, ChoosesEntry pick →
        ∃ rs, mach.ruleset ml = .ok rs ∧
          List.Forall₂ (fun x k => ((afterCalls p cs).predict x).2 = .ok (.idx k)) data ks ∧
          ∃ minSteps, ∀ steps, minSteps ≤ steps → ∀ name, name = "simple_c" ∨ name = "topological_c" →
            ∃ text bound, exportAsProgram pick rs steps name = .ok (some text) ∧
              ∀ fuel, bound ≤ fuel → session fuel text (fun _ => none) data = some (ks.map Int.ofNat) := by
  obtain ⟨w, c, k1, k2, k3, k4⟩ := C80_collect_first m bs h hst
  obtain ⟨fs', w', c', q1, q2, q3, q4, q5, q6⟩ := saved_state_loaded { m with state := some ⟨some w, some c⟩ } m2 w c rfl k2 k3
    e1 e2 e3 fs path hp
  have q6 : arrClauses m.nLits m.nClasses w' c' = held bs := q6.trans k4
  have h2' : MachineReady { m2 with state := some ⟨some w', some c'⟩ } bs2 := ⟨h2.1, h2.2, h2.3, h2.4, h2.5, h2.6⟩
  obtain ⟨r1, r2⟩ := usual_readable q4
  obtain ⟨bs2', t1, t2, -⟩ := C80_restore_partial _ bs2 h2' w' c' rfl q5 r1 r2
  have t2 : held bs2' = held bs := by
    rw [t2, ← q6]
    show arrClauses m2.nLits m2.nClasses w' c' = _
    rw [e1, e3]
  obtain ⟨ks, b1, b2, b3, b4, b5⟩ := C98_backends_partial m.nLits m.nClasses data hx e he
  refine ⟨ks, { m with state := some ⟨some w, some c⟩ }, fs', _, _, bs2', b1, ?_, q3, t1, rfl, ?_, ?_, ?_, ?_⟩
  · unfold Mach.saveFile
    simp only [hst, h.cbs]
    rw [FlatMem.bind_of k1, ← h.cbs]
    exact q1
  · intro e' he' hm'
    exact b3 e' he' (by rw [hm', t2, hm])
  · intro v mem hv hm'
    exact b4 v mem hv (by rw [hm', t2, hm])
  · intro v mem hv hm' hne
    exact b5 v mem hv (by rw [hm', t2, hm]) (by rw [hm]; exact hne)
  · have go : ∀ mach : Mach, mach.nLits = m.nLits → mach.nClasses = m.nClasses → ∀ w c, mach.state = some ⟨some w, some c⟩ →
        SameSize mach w c → arrClauses m.nLits m.nClasses w c = held bs →
        ∀ ml s excl p, mach.getPredictor ml s excl = .ok p →
        ∀ cs, (afterCalls p cs).names = none → ∀ pick, ChoosesEntry pick →
        ∃ rs, mach.ruleset ml = .ok rs ∧
          List.Forall₂ (fun x k => ((afterCalls p cs).predict x).2 = .ok (.idx k)) data ks ∧
          ∃ minSteps, ∀ steps, minSteps ≤ steps → ∀ name, name = "simple_c" ∨ name = "topological_c" →
            ∃ text bound, exportAsProgram pick rs steps name = .ok (some text) ∧
              ∀ fuel, bound ≤ fuel → session fuel text (fun _ => none) data = some (ks.map Int.ofNat) := by
      intro mach d1 d2 w c hs hsz hcl ml s excl p hpr cs hn pick hpick
      obtain ⟨rs, ks', a1, a2, a3, a4⟩ := C98_predictor_and_programs mach w c hs hsz (by rw [d2]; exact he.classes)
        (by rw [d2]; exact h1) data (by rw [d1]; exact hx) (by rw [d1, d2, hcl]; exact hsm) ml s excl p hpr cs hn pick hpick
      rw [d1, d2, hcl, ← hm] at a2
      obtain rfl := answers_unique (.refl _) a2 b2
      exact ⟨rs, a1, a3, a4⟩
    rintro mach (rfl | rfl | rfl)
    · exact go _ rfl rfl w c rfl k3 k4
    · exact go _ e1 e3 w' c' rfl q5 q6
    · exact go _ e1 e3 w' c' rfl q5 q6

/-- The 16-bit condition holds for all examples as soon as the absolute values of each class's weights add up to at most 32767. -/
theorem C98_small_weights_suffice (m n : Nat) (cls : List (List Int × List Int × List Int))
    (h : ∀ k, k < n → (cls.map fun c => (c.2.2.getD k 0).natAbs).sum ≤ 32767) (data : List (List Nat)) : Fits16 m n cls data := by
  have part : ∀ (p : List Int × List Int × List Int → Bool) (k : Nat) (cs : List (List Int × List Int × List Int)),
      (((cs.filter p).map (fun c : List Int × List Int × List Int => c.2.2.getD k 0)).sum : Int).natAbs ≤ (cs.map fun c => (c.2.2.getD k 0).natAbs).sum := by
    intro p k cs
    induction cs with
    | nil => simp
    | cons c cs ih =>
      rw [List.filter_cons]
      split <;> simp only [List.map_cons, List.sum_cons] <;> omega
  constructor
  · intro r k hk
    have h1 := h k hk
    have h2 : (sameClauseSum m cls r k).natAbs ≤ _ := part _ k cls
    omega
  · intro x _ k hk
    have h1 := h k hk
    have h2 : (firingSum cls x k).natAbs ≤ _ := part _ k cls
    omega

/-! ### The hypotheses are met -/

/-- The blocks of `exExec` in one array. -/
def movedBlk : Blk := ⟨2, 3, 2, 2, 2, [5, -3, -2, 0, -5, -3, -2, -7, 0, -1, -1, -1], [4, -1, 4, 9, -2, 3]⟩

/-- Another machine, with two blocks and padding. -/
def movedBlks : List Blk := [⟨2, 1, 2, 3, 4, List.replicate 6 7, List.replicate 4 7⟩, ⟨2, 2, 2, 2, 2, List.replicate 8 7, List.replicate 4 7⟩]

example : MachineReady ⟨2, 3, 2, none, some [movedBlk]⟩ [movedBlk] ∧ MachineReady ⟨2, 3, 2, none, some movedBlks⟩ movedBlks ∧
    SetUp 2 2 exExec ∧ model exExec = held [movedBlk] ∧ (∀ data, Fits16 2 2 (held [movedBlk]) data) ∧ NpzName "a.npz" := by
  refine ⟨⟨rfl, ?_, by decide, by decide, by decide, by decide⟩, ⟨rfl, ?_, by decide, by decide, by decide, by decide⟩,
    exExec_setUp.1, by decide +kernel, C98_small_weights_suffice 2 2 _ (by decide +kernel), by rw [← isNpz_iff]; decide +kernel⟩
  · intro b hb
    obtain rfl := List.mem_singleton.mp hb
    constructor <;> decide
  · intro b hb
    simp only [movedBlks, List.mem_cons, List.not_mem_nil, or_false] at hb
    rcases hb with rfl | rfl <;> constructor <;> decide

/-- A predictor is made from the saved machine, and the other machine predicts. -/
example : ∃ m' fs' m2', (⟨2, 3, 2, none, some [movedBlk]⟩ : Mach).saveFile (fun _ => none) "a.npz" = some (m', fs', .ok ()) ∧
    (⟨2, 3, 2, none, some movedBlks⟩ : Mach).loadFile fs' "a.npz" = (m2', .ok ()) ∧
    (m2'.ruleset false).toOption = some ⟨2, 2, false, [[0, 3], [0]], [[4, -1], [-2, 3]]⟩ ∧
    (m2'.getPredictor false "none" false).toOption.isSome ∧
    ((⟨2, 3, 2, none, some movedBlks⟩ : Mach).ruleset false).toOption = none := by
  refine ⟨_, _, _, rfl, rfl, ?_, ?_, rfl⟩ <;> decide +kernel

end GT
