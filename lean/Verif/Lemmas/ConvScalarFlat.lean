import Verif.Lemmas.Flat
import Verif.Lemmas.Conv
import Verif.Spec.ConvScalarFlat

namespace GT.ConvMem
open Spec FlatMem

theorem violatedAt_eq (p : Int) (x : List Nat) (i : Int) (v a : Nat) (h : rd x i = some a) :
    violatedAt p x i v = some (decide (p ≥ 0 ∧ a = v)) := by
  unfold violatedAt
  by_cases hp : p ≥ 0
  · rw [if_pos hp, h]
    simp only [Option.bind_eq_bind, Option.bind_some, Option.pure_def, hp, true_and]
    congr 1
  · rw [if_neg hp]; simp [hp]

/-- The literal loop of one patch on rows in the middle of the array and a patch in the middle of the example. -/
theorem flatPatchLoop_eq (bud : Bool) (pre post : List Int) (xa xz : List Nat) :
    ∀ (ps qs : List Int) (xs : List Nat) (pd qd : List Int) (xd : List Nat) (cnt : Nat),
      qs.length = ps.length → xs.length = ps.length → xd.length = pd.length →
      flatPatchLoop bud (pre ++ (pd ++ ps) ++ (qd ++ qs) ++ post) (xa ++ (xd ++ xs) ++ xz) (xa.length : Nat) ps.length pd.length
        (pre.length + pd.length : Nat) (pre.length + (pd ++ ps).length + qd.length : Nat) cnt =
      some (convSetLoop bud ps qs xs cnt) := by
  intro ps
  induction ps with
  | nil =>
    intro qs xs pd qd xd cnt hq hx hxd
    have : qs = [] := by simpa using hq
    have : xs = [] := by simpa using hx
    subst_vars
    simp [flatPatchLoop, convSetLoop]
  | cons p ps ih =>
    intro qs xs pd qd xd cnt hq hx hxd
    obtain ⟨q, qs, rfl⟩ := List.exists_cons_of_length_eq_add_one hq
    obtain ⟨y, xs, rfl⟩ := List.exists_cons_of_length_eq_add_one hx
    have hp : rd (pre ++ (pd ++ p :: ps) ++ (qd ++ q :: qs) ++ post) ((pre.length + pd.length : Nat) : Int) = some p :=
      rd_eq_mid (pre ++ pd) (ps ++ (qd ++ q :: qs) ++ post) p (by simp) (by simp)
    have hqq : rd (pre ++ (pd ++ p :: ps) ++ (qd ++ q :: qs) ++ post)
        ((pre.length + (pd ++ p :: ps).length + qd.length : Nat) : Int) = some q :=
      rd_eq_mid (pre ++ (pd ++ p :: ps) ++ qd) (qs ++ post) q (by simp) (by simp; omega)
    have hxx : rd (xa ++ (xd ++ y :: xs) ++ xz) (((xa.length : Nat) : Int) + ((pd.length : Nat) : Int)) = some y :=
      rd_eq_mid (xa ++ xd) (xs ++ xz) y (by simp) (by simp [hxd])
    have hv := fun p v => violatedAt_eq p (xa ++ (xd ++ y :: xs) ++ xz) (((xa.length : Nat) : Int) + ((pd.length : Nat) : Int)) v y hxx
    rw [List.length_cons, flatPatchLoop]
    simp only [hp, hqq, hv, Option.bind_eq_bind, Option.bind_some, Option.pure_def]
    rw [convSetLoop]
    by_cases h1 : p ≥ 0 ∧ y = 0
    · simp [h1]
    · simp only [h1, decide_false, Bool.false_eq_true, if_false]
      by_cases h2 : q ≥ 0 ∧ y = 1
      · simp [h2]
      · simp only [h2, decide_false, Bool.false_eq_true, if_false]
        have := ih qs xs (pd ++ [p]) (qd ++ [q]) (xd ++ [y])
          (if q ≥ 0 ∧ bud = true then (if p ≥ 0 ∧ bud = true then cnt + 1 else cnt) + 1 else (if p ≥ 0 ∧ bud = true then cnt + 1 else cnt))
          (by simpa using hq) (by simpa using hx) (by simp [hxd])
        rw [← this]
        simp only [List.append_assoc, List.cons_append, List.nil_append, List.length_append, List.length_cons, List.length_nil]
        congr 1

theorem flatEvalPatchLoop_eq (pre post : List Int) (xa xz : List Nat) :
    ∀ (ps qs : List Int) (xs : List Nat) (pd qd : List Int) (xd : List Nat) (e : Bool),
      qs.length = ps.length → xs.length = ps.length → xd.length = pd.length →
      flatEvalPatchLoop (pre ++ (pd ++ ps) ++ (qd ++ qs) ++ post) (xa ++ (xd ++ xs) ++ xz) (xa.length : Nat) ps.length pd.length
        (pre.length + pd.length : Nat) (pre.length + (pd ++ ps).length + qd.length : Nat) e =
      some (convEvalLoop ps qs xs e) := by
  intro ps
  induction ps with
  | nil =>
    intro qs xs pd qd xd e hq hx hxd
    have : qs = [] := by simpa using hq
    have : xs = [] := by simpa using hx
    subst_vars
    simp [flatEvalPatchLoop, convEvalLoop]
  | cons p ps ih =>
    intro qs xs pd qd xd e hq hx hxd
    obtain ⟨q, qs, rfl⟩ := List.exists_cons_of_length_eq_add_one hq
    obtain ⟨y, xs, rfl⟩ := List.exists_cons_of_length_eq_add_one hx
    have hp : rd (pre ++ (pd ++ p :: ps) ++ (qd ++ q :: qs) ++ post) ((pre.length + pd.length : Nat) : Int) = some p :=
      rd_eq_mid (pre ++ pd) (ps ++ (qd ++ q :: qs) ++ post) p (by simp) (by simp)
    have hqq : rd (pre ++ (pd ++ p :: ps) ++ (qd ++ q :: qs) ++ post)
        ((pre.length + (pd ++ p :: ps).length + qd.length : Nat) : Int) = some q :=
      rd_eq_mid (pre ++ (pd ++ p :: ps) ++ qd) (qs ++ post) q (by simp) (by simp; omega)
    have hxx : rd (xa ++ (xd ++ y :: xs) ++ xz) (((xa.length : Nat) : Int) + ((pd.length : Nat) : Int)) = some y :=
      rd_eq_mid (xa ++ xd) (xs ++ xz) y (by simp) (by simp [hxd])
    have hv := fun p v => violatedAt_eq p (xa ++ (xd ++ y :: xs) ++ xz) (((xa.length : Nat) : Int) + ((pd.length : Nat) : Int)) v y hxx
    rw [List.length_cons, flatEvalPatchLoop]
    simp only [hp, hqq, hv, Option.bind_eq_bind, Option.bind_some, Option.pure_def]
    rw [convEvalLoop]
    by_cases h1 : p ≥ 0 ∧ y = 0
    · simp [h1]
    · simp only [h1, decide_false, Bool.false_eq_true, if_false]
      by_cases h2 : q ≥ 0 ∧ y = 1
      · simp [h2]
      · simp only [h2, decide_false, Bool.false_eq_true, if_false]
        have := ih qs xs (pd ++ [p]) (qd ++ [q]) (xd ++ [y]) (if q ≥ 0 then false else if p ≥ 0 then false else e)
          (by simpa using hq) (by simpa using hx) (by simp [hxd])
        rw [← this]
        simp only [List.append_assoc, List.cons_append, List.nil_append, List.length_append, List.length_cons, List.length_nil]
        congr 1

theorem patch_bound {n np k : Nat} (hk : k < np) : k * n + n ≤ np * n := by
  calc k * n + n = (k + 1) * n := (Nat.succ_mul k n).symm
    _ ≤ np * n := Nat.mul_le_mul_right _ hk

theorem patchAt_length {n np : Nat} {x : List Nat} (hx : x.length = np * n) {k : Nat} (hk : k < np) :
    (patchAt n x k).length = n := by
  have := patch_bound (n := n) hk
  simp only [patchAt, List.length_take, List.length_drop, hx]
  omega

theorem patch_split (n k : Nat) (x : List Nat) :
    x = x.take (k * n) ++ patchAt n x k ++ (x.drop (k * n)).drop n := by
  rw [List.append_assoc]
  unfold patchAt
  rw [List.take_append_drop, List.take_append_drop]

/-- A block whose clauses are split at the clause at hand. -/
def cat (b : ConvBlock) (done rest : List ConvClause) (c : ConvClause) (counts : Nat → Nat) (g : Rng) : ConvBlock :=
  { b with clauses := done ++ c :: rest, counts := counts, rng := g }

/-- The clauses of a block have the shape of the block. -/
def CRowsOk (b : ConvBlock) (cs : List ConvClause) : Prop := ∀ c ∈ cs, Shaped b.nLits c.base ∧ c.base.w.length = b.nClasses

theorem CRowsOk.base {b : ConvBlock} {cs : List ConvClause} (h : CRowsOk b cs) : RowsOk (densePart b) (cs.map (·.base)) := by
  intro c hc
  obtain ⟨c', hc', rfl⟩ := List.mem_map.mp hc
  exact h c' hc'

theorem set_range_map (np : Nat) (f : Nat → Nat) (j v : Nat) (hj : j < np) :
    wr ((List.range np).map f) (j : Int) v = some ((List.range np).map fun i => if i = j then v else f i) := by
  unfold wr
  rw [if_pos ⟨by omega, by simpa using hj⟩]
  congr 1
  apply List.ext_getElem
  · simp
  · intro i h1 h2
    simp only [Int.toNat_natCast, List.getElem_set, List.getElem_map, List.getElem_range]
    by_cases h : j = i
    · subst h; simp
    · rw [if_neg h, if_neg (fun e => h e.symm)]

theorem setPatch_eq (b : ConvBlock) (x : List Nat) (hx : x.length = b.nPatches * b.nLits) (done rest : List ConvClause) (c : ConvClause)
    (counts : Nat → Nat) (g : Rng) (st : List Nat) (j : Nat) (hj : j < b.nPatches)
    (hok : CRowsOk b (done ++ c :: rest)) (hs : SmallConv b.nLits (done ++ c :: rest).length b.nClasses b.nPatches) :
    FlatConv.setPatch x done.length j (flattenConv (cat b done rest c counts g), st) =
      some (flattenConv (cat b done rest { c with base := { c.base with out :=
          ((⟨c.base.out, st, counts⟩ : Scan).step (fun k => convSetLoop b.cfg.budget.isSome c.base.pos c.base.neg (patchAt b.nLits x k) 0) j).out } }
          ((⟨c.base.out, st, counts⟩ : Scan).step (fun k => convSetLoop b.cfg.budget.isSome c.base.pos c.base.neg (patchAt b.nLits x k) 0) j).counts g),
        ((⟨c.base.out, st, counts⟩ : Scan).step (fun k => convSetLoop b.cfg.budget.isSome c.base.pos c.base.neg (patchAt b.nLits x k) 0) j).storage) := by
  have hc := hok c (by simp)
  have hd : RowsOk (densePart b) (done.map (·.base)) := CRowsOk.base fun c' hc' => hok c' (by simp [hc'])
  have hlt : done.length < (done ++ c :: rest).length := by simp
  have hlen : ((done.map (·.base)).flatMap fun c => c.pos ++ c.neg).length = (done.map (·.base)).length * (b.nLits * 2) := hd.length
  have hpb := patch_bound (n := b.nLits) hj
  have hsm := hs.example'
  have hoff : i32 ((j : Int) * (b.nLits : Int)) = some ((j * b.nLits : Nat) : Int) := i32_nat _ (by push_cast; rfl) (by omega)
  unfold FlatConv.setPatch
  have hn : (flattenConv (cat b done rest c counts g)).tm.nLits = b.nLits := rfl
  have hcl : (flattenConv (cat b done rest c counts g)).tm.clauses =
      ((done.map (·.base)).flatMap fun c => c.pos ++ c.neg) ++ ([] ++ c.base.pos) ++ ([] ++ c.base.neg) ++
        ((rest.map (·.base)).flatMap fun c => c.pos ++ c.neg) := by
    simp [flattenConv, cat, flatten, densePart]
  have hcfg : (flattenConv (cat b done rest c counts g)).tm.cfg = b.cfg := rfl
  have hpl : (x.take (j * b.nLits)).length = j * b.nLits := by rw [List.length_take, hx]; omega
  have hloop := flatPatchLoop_eq b.cfg.budget.isSome ((done.map (·.base)).flatMap fun c => c.pos ++ c.neg)
    ((rest.map (·.base)).flatMap fun c => c.pos ++ c.neg) (x.take (j * b.nLits)) ((x.drop (j * b.nLits)).drop b.nLits)
    c.base.pos c.base.neg (patchAt b.nLits x j) [] [] [] 0 (by rw [hc.1.1, hc.1.2]) (by rw [hc.1.1, patchAt_length hx hj]) rfl
  rw [List.nil_append (patchAt b.nLits x j), ← patch_split, hpl] at hloop
  simp only [List.length_nil, Nat.add_zero, hlen, hc.1.1, List.length_append, Nat.zero_add, List.length_map] at hloop
  rw [hn, hcl, hcfg, bind_of (rowPtr_eq hlt hs.small.row hs.small.clauses), bind_of (negPtr_eq hlt hs.small.row hs.small.clauses),
    bind_of hoff, bind_of hloop]
  unfold Scan.step
  simp only
  split
  · have hwo : wr (flattenConv (cat b done rest c counts g)).tm.outputs ((done.length : Nat) : Int) 1 =
        some (done.map (·.base.out) ++ 1 :: rest.map (·.base.out)) :=
      wr_eq_mid _ _ c.base.out 1 (by simp [flattenConv, cat, flatten, densePart, Function.comp_def]) (by simp)
    have hwp := set_range_map b.nPatches counts j (convSetLoop b.cfg.budget.isSome c.base.pos c.base.neg (patchAt b.nLits x j) 0).2 hj
    rw [bind_of hwo]
    refine (bind_of hwp _).trans ?_
    simp [flattenConv, cat, flatten, densePart, Function.comp_def]
  · rfl

theorem scanLoop_eq (b : ConvBlock) (x : List Nat) (hx : x.length = b.nPatches * b.nLits) (done rest : List ConvClause)
    (g : Rng) (T : Nat → Bool × Nat) :
    ∀ (rem j : Nat) (c : ConvClause) (counts : Nat → Nat) (st : List Nat), j + rem = b.nPatches →
    CRowsOk b (done ++ c :: rest) → SmallConv b.nLits (done ++ c :: rest).length b.nClasses b.nPatches →
    T = (fun k => convSetLoop b.cfg.budget.isSome c.base.pos c.base.neg (patchAt b.nLits x k) 0) →
    forLoop (FlatConv.setPatch x done.length) rem j (flattenConv (cat b done rest c counts g), st) =
      some (flattenConv (cat b done rest { c with base := { c.base with out :=
          ((List.range' j rem).foldl (Scan.step T) ⟨c.base.out, st, counts⟩).out } }
          ((List.range' j rem).foldl (Scan.step T) ⟨c.base.out, st, counts⟩).counts g),
        ((List.range' j rem).foldl (Scan.step T) ⟨c.base.out, st, counts⟩).storage) := by
  intro rem
  induction rem with
  | zero => intro j c counts st _ _ _ _; rfl
  | succ rem ih =>
    intro j c counts st hj hok hs hT
    have h1 := setPatch_eq b x hx done rest c counts g st j (by omega) hok hs
    rw [← hT] at h1
    rw [forLoop, bind_of h1, List.range'_succ, List.foldl_cons]
    generalize hS : Scan.step T ⟨c.base.out, st, counts⟩ j = S
    have hok' : CRowsOk b (done ++ ({ c with base := { c.base with out := S.out } } : ConvClause) :: rest) := by
      intro c' hc'
      simp only [List.mem_append, List.mem_cons] at hc'
      rcases hc' with hc' | rfl | hc'
      · exact hok c' (by simp [hc'])
      · exact hok c (by simp)
      · exact hok c' (by simp [hc'])
    exact ih (j + 1) { c with base := { c.base with out := S.out } } S.counts S.storage (by omega) hok' (by simpa using hs) hT

theorem choose_eq (b : ConvBlock) (done rest : List ConvClause) (c : ConvClause) (s : Scan) (g : Rng)
    (hs : s.storage.length ≤ b.nPatches) :
    FlatConv.choose done.length (flattenConv (cat b done rest { c with base := { c.base with out := s.out } } s.counts g)) s.storage =
      some (flattenConv (cat b done rest
        ⟨{ c.base with out := s.out, cnt := (convSelect b.cfg.budget.isSome s c.patch c.base.cnt g).2.1 },
          (convSelect b.cfg.budget.isSome s c.patch c.base.cnt g).1⟩ s.counts
        (convSelect b.cfg.budget.isSome s c.patch c.base.cnt g).2.2)) := by
  unfold FlatConv.choose convSelect
  by_cases h0 : s.storage.length = 0
  · rw [if_pos h0, if_pos h0]
  · rw [if_neg h0, if_neg h0]
    have hg : (flattenConv (cat b done rest { c with base := { c.base with out := s.out } } s.counts g)).tm.rng = g := rfl
    have hlt : (g.pick s.storage.length).1 < s.storage.length := by
      unfold Rng.pick
      simp only
      omega
    have hrs : rd s.storage (((g.pick s.storage.length).1 : Nat) : Int) = some (s.storage.getD (g.pick s.storage.length).1 0) := by
      rw [rd_getElem _ _ hlt, List.getD_eq_getElem?_getD, List.getElem?_eq_getElem hlt, Option.getD_some]
    have hwa : wr (flattenConv (cat b done rest { c with base := { c.base with out := s.out } } s.counts g)).active
        ((done.length : Nat) : Int) (s.storage.getD (g.pick s.storage.length).1 0) =
        some (done.map (·.patch) ++ s.storage.getD (g.pick s.storage.length).1 0 :: rest.map (·.patch)) :=
      wr_eq_mid _ _ c.patch _ (by simp [flattenConv, cat]) (by simp)
    have hcfg : (flattenConv (cat b done rest { c with base := { c.base with out := s.out } } s.counts g)).tm.cfg = b.cfg := rfl
    have hrp : rd (flattenConv (cat b done rest { c with base := { c.base with out := s.out } } s.counts g)).perPatch
        (((g.pick s.storage.length).1 : Nat) : Int) = some (s.counts (g.pick s.storage.length).1) := by
      refine (rd_getElem _ _ (by simp [flattenConv, cat]; omega)).trans ?_
      simp [flattenConv, cat]
    simp only [hg]
    rw [bind_of hrs, bind_of hwa, hcfg]
    by_cases hbud : b.cfg.budget.isSome = true
    · rw [if_pos hbud, if_pos hbud, bind_of hrp]
      have hwc : ∀ v, wr (flattenConv (cat b done rest { c with base := { c.base with out := s.out } } s.counts g)).tm.counts
          ((done.length : Nat) : Int) v = some (done.map (·.base.cnt) ++ v :: rest.map (·.base.cnt)) := fun v =>
        wr_eq_mid _ _ c.base.cnt _ (by simp [flattenConv, cat, flatten, densePart, Function.comp_def]) (by simp)
      rw [bind_of (hwc _)]
      simp [flattenConv, cat, flatten, densePart, Function.comp_def]
    · rw [if_neg hbud, if_neg hbud]
      simp [flattenConv, cat, flatten, densePart, Function.comp_def]

theorem setBody_eq (b : ConvBlock) (x : List Nat) (hx : x.length = b.nPatches * b.nLits) (done rest : List ConvClause) (c : ConvClause)
    (counts : Nat → Nat) (g : Rng) (hok : CRowsOk b (done ++ c :: rest))
    (hs : SmallConv b.nLits (done ++ c :: rest).length b.nClasses b.nPatches) :
    FlatConv.setBody x done.length (flattenConv (cat b done rest c counts g)) =
      some (flattenConv (cat b done rest (convSetClause b.cfg b.nLits b.nPatches x c counts g).1
        (convSetClause b.cfg b.nLits b.nPatches x c counts g).2.1 (convSetClause b.cfg b.nLits b.nPatches x c counts g).2.2)) := by
  unfold FlatConv.setBody
  have hwo : wr (flattenConv (cat b done rest c counts g)).tm.outputs ((done.length : Nat) : Int) 0 =
      some (done.map (·.base.out) ++ 0 :: rest.map (·.base.out)) :=
    wr_eq_mid _ _ c.base.out 0 (by simp [flattenConv, cat, flatten, densePart, Function.comp_def]) (by simp)
  rw [bind_of hwo]
  have hok' : CRowsOk b (done ++ ({ c with base := { c.base with out := 0 } } : ConvClause) :: rest) := by
    intro c' hc'
    simp only [List.mem_append, List.mem_cons] at hc'
    rcases hc' with hc' | rfl | hc'
    · exact hok c' (by simp [hc'])
    · exact hok c (by simp)
    · exact hok c' (by simp [hc'])
  have hl := scanLoop_eq b x hx done rest g _ b.nPatches 0 { c with base := { c.base with out := 0 } } counts [] (by omega) hok'
    (by simpa using hs) rfl
  rw [← List.range_eq_range'] at hl
  have he : ({ flattenConv (cat b done rest c counts g) with
      tm := { (flattenConv (cat b done rest c counts g)).tm with outputs := done.map (·.base.out) ++ 0 :: rest.map (·.base.out) } } : FlatConv) =
      flattenConv (cat b done rest { c with base := { c.base with out := 0 } } counts g) := by
    simp [flattenConv, cat, flatten, densePart, Function.comp_def]
  have hnp : (flattenConv (cat b done rest c counts g)).nPatches = b.nPatches := rfl
  rw [he, hnp, bind_of hl]
  have hst := (convScan_spec b.nPatches (fun k => convSetLoop b.cfg.budget.isSome c.base.pos c.base.neg (patchAt b.nLits x k) 0) counts).1
  refine choose_eq b done rest c (convScan b.nPatches _ counts) g ?_
  rw [hst]
  exact (List.length_filter_le _ _).trans (by simp)

theorem convSetClause_shape (b : ConvBlock) (x : List Nat) (c : ConvClause) (counts : Nat → Nat) (g : Rng)
    (hc : Shaped b.nLits c.base ∧ c.base.w.length = b.nClasses) :
    Shaped b.nLits (convSetClause b.cfg b.nLits b.nPatches x c counts g).1.base ∧
      (convSetClause b.cfg b.nLits b.nPatches x c counts g).1.base.w.length = b.nClasses := hc

theorem CRowsOk.replace {b : ConvBlock} {done rest : List ConvClause} {c c' : ConvClause} (h : CRowsOk b (done ++ c :: rest))
    (hc : Shaped b.nLits c'.base ∧ c'.base.w.length = b.nClasses) : CRowsOk b ((done ++ [c']) ++ rest) := by
  intro d hd
  simp only [List.append_assoc, List.mem_append, List.mem_cons, List.not_mem_nil, or_false] at hd
  rcases hd with hd | rfl | hd
  · exact h d (by simp [hd])
  · exact hc
  · exact h d (by simp [hd])

theorem setLoop_eq (b : ConvBlock) (x : List Nat) (hx : x.length = b.nPatches * b.nLits) (total : Nat)
    (hs : SmallConv b.nLits total b.nClasses b.nPatches) :
    ∀ (rest done : List ConvClause) (counts : Nat → Nat) (g : Rng), (done ++ rest).length = total → CRowsOk b (done ++ rest) →
      forLoop (FlatConv.setBody x) rest.length done.length (flattenConv { b with clauses := done ++ rest, counts := counts, rng := g }) =
        some (flattenConv { b with clauses := done ++ (convSetClauses b.cfg b.nLits b.nPatches x rest counts g).1,
                                   counts := (convSetClauses b.cfg b.nLits b.nPatches x rest counts g).2.1,
                                   rng := (convSetClauses b.cfg b.nLits b.nPatches x rest counts g).2.2 }) := by
  intro rest
  induction rest with
  | nil => intro done counts g _ _; simp [forLoop, convSetClauses]
  | cons c rest ih =>
    intro done counts g ht hok
    have h1 := setBody_eq b x hx done rest c counts g hok (ht ▸ hs)
    unfold cat at h1
    rw [List.length_cons, forLoop, bind_of h1]
    have := ih (done ++ [(convSetClause b.cfg b.nLits b.nPatches x c counts g).1]) (convSetClause b.cfg b.nLits b.nPatches x c counts g).2.1
      (convSetClause b.cfg b.nLits b.nPatches x c counts g).2.2 (by simpa using ht)
      (hok.replace (convSetClause_shape b x c counts g (hok c (by simp))))
    simp only [List.append_assoc, List.cons_append, List.nil_append, List.length_append, List.length_cons, List.length_nil,
      Nat.zero_add] at this
    rw [this]
    rfl

/-! ### Evaluation -/

theorem evalPatches_eq (b : ConvBlock) (x : List Nat) (hx : x.length = b.nPatches * b.nLits) (done rest : List ConvClause) (c : ConvClause)
    (hok : CRowsOk b (done ++ c :: rest)) (hs : SmallConv b.nLits (done ++ c :: rest).length b.nClasses b.nPatches) (o1 o2 : List Nat)
    (ho : o1.length = done.length) : ∀ (rem j : Nat), j + rem = b.nPatches →
    flatEvalPatches (flatten (densePart (cat b done rest c b.counts b.rng))) x done.length rem j (o1 ++ 0 :: o2) =
      some (o1 ++ anyPatch (fun k => convEvalPatch c.base.pos c.base.neg (patchAt b.nLits x k)) j rem :: o2) := by
  intro rem
  induction rem with
  | zero => intro j _; rfl
  | succ rem ih =>
    intro j hjr
    have hj : j < b.nPatches := by omega
    have hc := hok c (by simp)
    have hd : RowsOk (densePart b) (done.map (·.base)) := CRowsOk.base fun c' hc' => hok c' (by simp [hc'])
    have hlt : done.length < (done ++ c :: rest).length := by simp
    have hlen : ((done.map (·.base)).flatMap fun c => c.pos ++ c.neg).length = (done.map (·.base)).length * (b.nLits * 2) := hd.length
    have hpb := patch_bound (n := b.nLits) hj
    have hsm := hs.example'
    have hoff : i32 ((j : Int) * (b.nLits : Int)) = some ((j * b.nLits : Nat) : Int) := i32_nat _ (by push_cast; rfl) (by omega)
    have hn : (flatten (densePart (cat b done rest c b.counts b.rng))).nLits = b.nLits := rfl
    have hcl : (flatten (densePart (cat b done rest c b.counts b.rng))).clauses =
        ((done.map (·.base)).flatMap fun c => c.pos ++ c.neg) ++ ([] ++ c.base.pos) ++ ([] ++ c.base.neg) ++
          ((rest.map (·.base)).flatMap fun c => c.pos ++ c.neg) := by
      simp [cat, flatten, densePart]
    have hpl : (x.take (j * b.nLits)).length = j * b.nLits := by rw [List.length_take, hx]; omega
    have hloop := flatEvalPatchLoop_eq ((done.map (·.base)).flatMap fun c => c.pos ++ c.neg)
      ((rest.map (·.base)).flatMap fun c => c.pos ++ c.neg) (x.take (j * b.nLits)) ((x.drop (j * b.nLits)).drop b.nLits)
      c.base.pos c.base.neg (patchAt b.nLits x j) [] [] [] true (by rw [hc.1.1, hc.1.2]) (by rw [hc.1.1, patchAt_length hx hj]) rfl
    rw [List.nil_append (patchAt b.nLits x j), ← patch_split, hpl] at hloop
    simp only [List.length_nil, Nat.add_zero, hlen, hc.1.1, List.length_append, Nat.zero_add, List.length_map] at hloop
    rw [flatEvalPatches, hn, hcl, bind_of (rowPtr_eq hlt hs.small.row hs.small.clauses),
      bind_of (negPtr_eq hlt hs.small.row hs.small.clauses), bind_of hoff, bind_of hloop, anyPatch]
    have hcond : ((convEvalLoop c.base.pos c.base.neg (patchAt b.nLits x j) true).2 = false ∧
        (convEvalLoop c.base.pos c.base.neg (patchAt b.nLits x j) true).1 = true) ↔
        convEvalPatch c.base.pos c.base.neg (patchAt b.nLits x j) = true := by
      unfold convEvalPatch
      generalize convEvalLoop c.base.pos c.base.neg (patchAt b.nLits x j) true = r
      rcases r with ⟨a, e⟩
      cases e <;> simp
    by_cases h : convEvalPatch c.base.pos c.base.neg (patchAt b.nLits x j) = true
    · rw [if_pos (hcond.mpr h), if_pos h]
      exact wr_mid o1 o2 0 1 _ (by rw [ho])
    · rw [if_neg (fun e => h (hcond.mp e)), if_neg h]
      exact ih (j + 1) (by omega)

theorem evalBody_eq (b : ConvBlock) (x : List Nat) (hx : x.length = b.nPatches * b.nLits) (done rest : List ConvClause) (c : ConvClause)
    (hok : CRowsOk b (done ++ c :: rest)) (hs : SmallConv b.nLits (done ++ c :: rest).length b.nClasses b.nPatches) :
    FlatConv.evalBody x done.length (flattenConv (cat b done rest c b.counts b.rng)) =
      some (flattenConv (cat b done rest (convEvalClause b.nLits b.nPatches x c) b.counts b.rng)) := by
  unfold FlatConv.evalBody
  have hwo : wr (flattenConv (cat b done rest c b.counts b.rng)).tm.outputs ((done.length : Nat) : Int) 0 =
      some (done.map (·.base.out) ++ 0 :: rest.map (·.base.out)) :=
    wr_eq_mid _ _ c.base.out 0 (by simp [flattenConv, cat, flatten, densePart, Function.comp_def]) (by simp)
  have hl := evalPatches_eq b x hx done rest c hok hs (done.map (·.base.out)) (rest.map (·.base.out)) (by simp) b.nPatches 0 (by omega)
  rw [bind_of hwo]
  refine (bind_of hl _).trans ?_
  simp [flattenConv, cat, flatten, densePart, Function.comp_def, convEvalClause]

theorem evalLoop_eq (b : ConvBlock) (x : List Nat) (hx : x.length = b.nPatches * b.nLits) (total : Nat)
    (hs : SmallConv b.nLits total b.nClasses b.nPatches) :
    ∀ (rest done : List ConvClause), (done ++ rest).length = total → CRowsOk b (done ++ rest) →
      forLoop (FlatConv.evalBody x) rest.length done.length (flattenConv { b with clauses := done ++ rest }) =
        some (flattenConv { b with clauses := done ++ rest.map (convEvalClause b.nLits b.nPatches x) }) := by
  intro rest
  induction rest with
  | nil => intro done _ _; simp [forLoop]
  | cons c rest ih =>
    intro done ht hok
    have h1 := evalBody_eq b x hx done rest c hok (ht ▸ hs)
    unfold cat at h1
    rw [List.length_cons, forLoop, bind_of h1]
    have := ih (done ++ [convEvalClause b.nLits b.nPatches x c]) (by simpa using ht) (hok.replace (hok c (by simp)))
    simp only [List.append_assoc, List.cons_append, List.nil_append, List.length_append, List.length_cons, List.length_nil,
      Nat.zero_add] at this
    rw [this]
    rfl

/-! ### Feedback -/

theorem rd_take {α : Type} (x : List α) (n k : Nat) (h : k < n) : rd (x.take n) (k : Int) = rd x (k : Int) := by
  simp [rd, h]

theorem forLoop_congr {σ : Type} (f g : Nat → σ → Option σ) : ∀ (rem k : Nat) (s : σ),
    (∀ i s, k ≤ i → i < k + rem → f i s = g i s) → forLoop f rem k s = forLoop g rem k s := by
  intro rem
  induction rem with
  | zero => intro k s _; rfl
  | succ rem ih =>
    intro k s h
    rw [forLoop, forLoop, h k s (Nat.le_refl _) (by omega)]
    cases g k s with
    | none => rfl
    | some s' => exact ih (k + 1) s' fun i s h1 h2 => h i s (by omega) (by omega)

theorem flatT1a_take (cfg : Cfg) (n : Nat) (cl : List Int) (row : Int) (x : List Nat) (g : Rng) :
    flatT1a cfg n cl row x g = flatT1a cfg n cl row (x.take n) g := by
  unfold flatT1a
  refine forLoop_congr _ _ n 0 (cl, g) fun i s _ hi => ?_
  unfold flatT1aBody
  rw [rd_take x n i (by omega)]

theorem flatT2_take (n : Nat) (cl : List Int) (row : Int) (x : List Nat) : flatT2 n cl row x = flatT2 n cl row (x.take n) := by
  unfold flatT2
  refine forLoop_congr _ _ n 0 cl fun i s _ hi => ?_
  unfold flatT2Body
  rw [rd_take x n i (by omega)]

theorem maybeUpdate_take (m : FlatTM) (x : List Nat) (k : Nat) (row wrow : Int) (cls : Nat) (t : Int) (pr : Rat) :
    m.maybeUpdate x k row wrow cls t pr = m.maybeUpdate (x.take m.nLits) k row wrow cls t pr := by
  unfold FlatTM.maybeUpdate FlatTM.clauseUpdate
  rw [← flatT2_take]
  simp only [← flatT1a_take]

theorem clauseUpdate_nLits {m m' : FlatTM} {x : List Nat} {row wi t : Int} {out : Nat}
    (hu : m.clauseUpdate x row wi t out = some m') : m'.nLits = m.nLits := by
  exact (Sizes.clauseUpdate (n := m.nLits) (k := m.nClasses) (W := m.weights.length) (d := m.fast.draw) ⟨rfl, rfl, rfl, rfl⟩ hu).1.nLits

theorem trainBody_dense (m : FlatConv) (x : List Nat) (fb : Feedback) (k a : Nat) (ha : rd m.active (k : Int) = some a) :
    FlatConv.trainBody x fb k m =
      (FlatTM.trainBody ((x.drop ((a * m.tm.nLits) % 4294967296)).take m.tm.nLits) fb k m.tm).map fun tm => { m with tm := tm } := by
  unfold FlatConv.trainBody FlatTM.trainBody
  cases h1 : i32 ((m.tm.nLits : Int) * 2) with
  | none => rfl
  | some nf =>
  rw [bind_of rfl, bind_of rfl]
  cases h2 : i32 ((k : Int) * nf) with
  | none => rfl
  | some row =>
  rw [bind_of rfl, bind_of rfl]
  cases h3 : i32 ((k : Int) * (m.tm.nClasses : Int)) with
  | none => rfl
  | some wrow =>
  rw [bind_of rfl, bind_of rfl, bind_of ha]
  cases h4 : m.tm.gate k with
  | none => rfl
  | some tm =>
  rw [bind_of rfl, bind_of rfl]
  have e4 : tm.nLits = m.tm.nLits :=
    (Sizes.gate (n := m.tm.nLits) (k := m.tm.nClasses) (W := m.tm.weights.length) (d := m.tm.fast.draw) ⟨rfl, rfl, rfl, rfl⟩ h4).nLits
  rw [maybeUpdate_take, e4]
  cases h5 : tm.maybeUpdate ((x.drop ((a * m.tm.nLits) % 4294967296)).take m.tm.nLits) k row wrow fb.posClass 1 fb.posProb with
  | none => rfl
  | some tm' =>
  rw [bind_of rfl, bind_of rfl]
  have e5 : tm'.nLits = m.tm.nLits := by
    rw [← e4]
    exact (Sizes.maybeUpdate (n := tm.nLits) (k := tm.nClasses) (W := tm.weights.length) (d := tm.fast.draw) ⟨rfl, rfl, rfl, rfl⟩ h5).nLits
  rw [maybeUpdate_take, e5]
  cases h6 : tm'.maybeUpdate ((x.drop ((a * m.tm.nLits) % 4294967296)).take m.tm.nLits) k row wrow fb.negClass (-1) fb.negProb with
  | none => rfl
  | some tm'' => rfl

/-- A clause that is on has an active patch of the example. -/
def Aimed (np : Nat) (cs : List ConvClause) : Prop := ∀ c ∈ cs, c.base.out = 1 → c.patch < np

theorem trainClause_blind (cfg : Cfg) (x y : List Nat) (fb : Feedback) (c : Clause) (f g : Rng) (h : ¬ c.out = 1) :
    trainClause cfg x fb c f g = trainClause cfg y fb c f g := by
  have h0 : ¬ (budgetGate cfg c).out = 1 := fun e => h (gate_on cfg c e)
  have key : ∀ (c : Clause) (g : Rng) (j : Nat) (t : Int), ¬ c.out = 1 → clauseUpdate cfg x j t c g = clauseUpdate cfg y j t c g := by
    intro c g j t hc
    unfold clauseUpdate
    simp [hc]
  have k2 : ∀ (c : Clause) (g : Rng) (j : Nat) (t : Int), ¬ c.out = 1 → ¬ (clauseUpdate cfg y j t c g).1.out = 1 := by
    intro c g j t hc
    rwa [update_out]
  unfold trainClause
  simp only
  generalize budgetGate cfg c = c0 at h0
  rw [key c0 g _ _ h0]
  have h1 : ¬ (if f.next.1 < fb.posProb then clauseUpdate cfg y fb.posClass 1 c0 g else (c0, g)).1.out = 1 := by
    split
    · exact k2 c0 g _ _ h0
    · exact h0
  rw [key _ _ _ _ h1]

theorem trainBody_eq (b : ConvBlock) (done rest : List ConvClause) (c : ConvClause) (f g : Rng) (x : List Nat) (fb : Feedback)
    (hx : x.length = b.nPatches * b.nLits) (ha : c.base.out = 1 → c.patch < b.nPatches) (hok : CRowsOk b (done ++ c :: rest))
    (hs : SmallConv b.nLits (done ++ c :: rest).length b.nClasses b.nPatches)
    (hp : fb.posClass < b.nClasses) (hn : fb.negClass < b.nClasses) :
    FlatConv.trainBody x fb done.length (flattenConv { b with clauses := done ++ c :: rest, fast := f, rng := g }) =
      some (flattenConv { b with clauses := done ++ (convTrainClause b.cfg b.nLits x fb c f g).1 :: rest,
                                 fast := (convTrainClause b.cfg b.nLits x fb c f g).2.1,
                                 rng := (convTrainClause b.cfg b.nLits x fb c f g).2.2 }) := by
  have har : rd (flattenConv { b with clauses := done ++ c :: rest, fast := f, rng := g }).active ((done.length : Nat) : Int) = some c.patch :=
    rd_eq_mid (done.map (·.patch)) (rest.map (·.patch)) c.patch (by simp [flattenConv]) (by simp)
  rw [trainBody_dense _ x fb done.length c.patch har]
  have hnl : (flattenConv { b with clauses := done ++ c :: rest, fast := f, rng := g }).tm.nLits = b.nLits := rfl
  rw [hnl]
  generalize hy : (x.drop ((c.patch * b.nLits) % 4294967296)).take b.nLits = y
  have hyx : c.base.out = 1 → y = patchAt b.nLits x c.patch := by
    intro ho
    have := patch_bound (n := b.nLits) (ha ho)
    have := hs.example'
    rw [← hy, Nat.mod_eq_of_lt (by omega)]
    rfl
  have hlen : c.base.out = 1 → y.length = b.nLits := fun ho => by rw [hyx ho]; exact patchAt_length hx (ha ho)
  have hb := flatTrainBody_eq (densePart b) (done.map (·.base)) (rest.map (·.base)) c.base f g y fb hlen
    (by have := hok.base; simpa using this) (by simpa [densePart] using hs.small) hp hn
  have he : (flattenConv { b with clauses := done ++ c :: rest, fast := f, rng := g }).tm =
      flatten (at_ (densePart b) (done.map (·.base)) (rest.map (·.base)) c.base f g) := by
    simp [flattenConv, densePart, at_]
  rw [List.length_map] at hb
  rw [he, hb]
  have hcfg : (densePart b).cfg = b.cfg := rfl
  have ht : trainClause (densePart b).cfg y fb c.base f g = trainClause b.cfg (patchAt b.nLits x c.patch) fb c.base f g := by
    rw [hcfg]
    by_cases ho : c.base.out = 1
    · rw [hyx ho]
    · exact trainClause_blind _ _ _ _ _ _ _ ho
  rw [ht]
  simp [flattenConv, densePart, at_, convTrainClause]

theorem convTrainClause_shape (b : ConvBlock) (x : List Nat) (fb : Feedback) (c : ConvClause) (f g : Rng)
    (hc : Shaped b.nLits c.base ∧ c.base.w.length = b.nClasses) :
    Shaped b.nLits (convTrainClause b.cfg b.nLits x fb c f g).1.base ∧ (convTrainClause b.cfg b.nLits x fb c f g).1.base.w.length = b.nClasses :=
  trainClause_shape (densePart b) _ fb c.base f g hc

theorem trainClause_out (cfg : Cfg) (x : List Nat) (fb : Feedback) (c : Clause) (f g : Rng)
    (h : (trainClause cfg x fb c f g).1.out = 1) : c.out = 1 := by
  apply gate_on cfg c
  unfold trainClause at h
  simp only at h
  generalize budgetGate cfg c = c0 at h
  split at h
  · split at h
    · rwa [update_out, update_out] at h
    · rwa [update_out] at h
  · split at h
    · rwa [update_out] at h
    · exact h

theorem trainLoop_eq (b : ConvBlock) (x : List Nat) (fb : Feedback) (total : Nat) (hx : x.length = b.nPatches * b.nLits)
    (hs : SmallConv b.nLits total b.nClasses b.nPatches) (hp : fb.posClass < b.nClasses) (hn : fb.negClass < b.nClasses) :
    ∀ (rest done : List ConvClause) (f g : Rng), (done ++ rest).length = total → CRowsOk b (done ++ rest) → Aimed b.nPatches rest →
      forLoop (FlatConv.trainBody x fb) rest.length done.length (flattenConv { b with clauses := done ++ rest, fast := f, rng := g }) =
        some (flattenConv { b with clauses := done ++ (convTrainClauses b.cfg b.nLits x fb rest f g).1,
                                   fast := (convTrainClauses b.cfg b.nLits x fb rest f g).2.1,
                                   rng := (convTrainClauses b.cfg b.nLits x fb rest f g).2.2 }) := by
  intro rest
  induction rest with
  | nil => intro done f g _ _ _; simp [forLoop, convTrainClauses]
  | cons c rest ih =>
    intro done f g ht hok ha
    have h1 := trainBody_eq b done rest c f g x fb hx (ha c List.mem_cons_self) hok (ht ▸ hs) hp hn
    rw [List.length_cons, forLoop, bind_of h1]
    have := ih (done ++ [(convTrainClause b.cfg b.nLits x fb c f g).1]) (convTrainClause b.cfg b.nLits x fb c f g).2.1
      (convTrainClause b.cfg b.nLits x fb c f g).2.2 (by simpa using ht)
      (hok.replace (convTrainClause_shape b x fb c f g (hok c (by simp)))) (fun d hd => ha d (List.mem_cons_of_mem _ hd))
    simp only [List.append_assoc, List.cons_append, List.nil_append, List.length_append, List.length_cons, List.length_nil,
      Nat.zero_add] at this
    rw [this]
    rfl

/-! ### Whole calls -/

theorem shaped_dense {b : ConvBlock} (h : ConvShaped b) : BlockShaped (densePart b) := ⟨CRowsOk.base h.rows, h.votes⟩

theorem countVotes_eq (b : ConvBlock) (hb : ConvShaped b) (hs : b.clauses.length * b.nClasses < 2147483648) :
    (flattenConv b).countVotes = some (flattenConv { b with votes := countVotes b.nClasses (b.clauses.map (·.base)) }) := by
  unfold FlatConv.countVotes
  have h := flat_countVotes (densePart b) (shaped_dense hb) (by simpa [densePart] using hs)
  exact bind_of h _

theorem convSetClauses_rows (b : ConvBlock) (x : List Nat) : ∀ (cs : List ConvClause) (k : Nat → Nat) (g : Rng), CRowsOk b cs →
    CRowsOk b (convSetClauses b.cfg b.nLits b.nPatches x cs k g).1 ∧ Aimed b.nPatches (convSetClauses b.cfg b.nLits b.nPatches x cs k g).1 := by
  intro cs
  induction cs with
  | nil => intro k g h; exact ⟨h, fun c hc => by simp [convSetClauses] at hc⟩
  | cons c cs ih =>
    intro k g h
    obtain ⟨h1, h2⟩ := ih (convSetClause b.cfg b.nLits b.nPatches x c k g).2.1 (convSetClause b.cfg b.nLits b.nPatches x c k g).2.2
      fun d hd => h d (List.mem_cons_of_mem _ hd)
    rw [convSetClauses]
    constructor
    · intro d hd
      rcases List.mem_cons.mp hd with rfl | hd
      · exact convSetClause_shape b x c k g (h c List.mem_cons_self)
      · exact h1 d hd
    · intro d hd
      rcases List.mem_cons.mp hd with rfl | hd
      · intro ho
        exact (convSelect_patch b.cfg.budget.isSome b.nPatches _ k c.patch c.base.cnt g ho).1
      · exact h2 d hd

theorem convTrainClauses_rows (b : ConvBlock) (x : List Nat) (fb : Feedback) : ∀ (cs : List ConvClause) (f g : Rng), CRowsOk b cs →
    Aimed b.nPatches cs → CRowsOk b (convTrainClauses b.cfg b.nLits x fb cs f g).1 ∧
      Aimed b.nPatches (convTrainClauses b.cfg b.nLits x fb cs f g).1 := by
  intro cs
  induction cs with
  | nil => intro f g h ha; exact ⟨h, ha⟩
  | cons c cs ih =>
    intro f g h ha
    obtain ⟨h1, h2⟩ := ih (convTrainClause b.cfg b.nLits x fb c f g).2.1 (convTrainClause b.cfg b.nLits x fb c f g).2.2
      (fun d hd => h d (List.mem_cons_of_mem _ hd)) (fun d hd => ha d (List.mem_cons_of_mem _ hd))
    rw [convTrainClauses]
    constructor
    · intro d hd
      rcases List.mem_cons.mp hd with rfl | hd
      · exact convTrainClause_shape b x fb c f g (h c List.mem_cons_self)
      · exact h1 d hd
    · intro d hd
      rcases List.mem_cons.mp hd with rfl | hd
      · intro ho
        exact ha c List.mem_cons_self (trainClause_out _ _ _ _ _ _ ho)
      · exact h2 d hd

/-- Same sizes. -/
structure Same (b b' : ConvBlock) : Prop where
  nLits : b'.nLits = b.nLits
  nClasses : b'.nClasses = b.nClasses
  nPatches : b'.nPatches = b.nPatches
  len : b'.clauses.length = b.clauses.length

theorem trainExample_eq (b : ConvBlock) (hb : ConvShaped b) (hs : SmallConv b.nLits b.clauses.length b.nClasses b.nPatches) (x : List Nat)
    (hx : x.length = b.nPatches * b.nLits) :
    (flattenConv b).apply (.trainExample x) = some (flattenConv (b.apply (.trainExample x))) ∧ ConvShaped (b.apply (.trainExample x)) ∧
      Aimed b.nPatches (b.apply (.trainExample x)).clauses ∧ Same b (b.apply (.trainExample x)) := by
  have hl := setLoop_eq b x hx b.clauses.length hs b.clauses [] b.counts b.rng rfl hb.rows
  obtain ⟨h1, h2⟩ := convSetClauses_rows b x b.clauses b.counts b.rng hb.rows
  have hlen := convSetClauses_length b.cfg b.nLits b.nPatches x b.clauses b.counts b.rng
  refine ⟨?_, ⟨h1, ?_⟩, h2, rfl, rfl, rfl, hlen⟩
  · refine (bind_of (show (flattenConv b).setOut x = _ from by
      have : (flattenConv b).tm.nClauses = b.clauses.length := by simp [flattenConv, flatten, densePart]
      unfold FlatConv.setOut
      rw [this]
      exact hl) _).trans ?_
    exact countVotes_eq { b with clauses := (convSetClauses b.cfg b.nLits b.nPatches x b.clauses b.counts b.rng).1,
                                 counts := (convSetClauses b.cfg b.nLits b.nPatches x b.clauses b.counts b.rng).2.1,
                                 rng := (convSetClauses b.cfg b.nLits b.nPatches x b.clauses b.counts b.rng).2.2 }
      ⟨h1, hb.votes⟩ (by rw [hlen]; exact hs.small.weights)
  · refine countVotes_length b.nClasses _ _ List.length_replicate fun c hc => ?_
    obtain ⟨c', hc', rfl⟩ := List.mem_map.mp hc
    exact (h1 c' hc').2

theorem evalExample_eq (b : ConvBlock) (hb : ConvShaped b) (hs : SmallConv b.nLits b.clauses.length b.nClasses b.nPatches) (x : List Nat)
    (hx : x.length = b.nPatches * b.nLits) :
    (flattenConv b).apply (.evalExample x) = some (flattenConv (b.apply (.evalExample x))) ∧ ConvShaped (b.apply (.evalExample x)) ∧
      Same b (b.apply (.evalExample x)) := by
  have hl := evalLoop_eq b x hx b.clauses.length hs b.clauses [] rfl hb.rows
  have h1 : CRowsOk b (b.clauses.map (convEvalClause b.nLits b.nPatches x)) := by
    intro c hc
    obtain ⟨c', hc', rfl⟩ := List.mem_map.mp hc
    exact hb.rows c' hc'
  refine ⟨?_, ⟨h1, ?_⟩, rfl, rfl, rfl, by simp [ConvBlock.apply]⟩
  · refine (bind_of (show (flattenConv b).evalOut x = _ from by
      have : (flattenConv b).tm.nClauses = b.clauses.length := by simp [flattenConv, flatten, densePart]
      unfold FlatConv.evalOut
      rw [this]
      exact hl) _).trans ?_
    exact countVotes_eq { b with clauses := b.clauses.map (convEvalClause b.nLits b.nPatches x) } ⟨h1, hb.votes⟩
      (by rw [List.length_map]; exact hs.small.weights)
  · refine countVotes_length b.nClasses _ _ List.length_replicate fun c hc => ?_
    obtain ⟨c', hc', rfl⟩ := List.mem_map.mp hc
    exact (h1 c' hc').2

theorem trainUpdate_eq (b : ConvBlock) (hb : ConvShaped b) (ha : Aimed b.nPatches b.clauses)
    (hs : SmallConv b.nLits b.clauses.length b.nClasses b.nPatches) (x : List Nat) (fb : Feedback)
    (hx : x.length = b.nPatches * b.nLits) (hp : fb.posClass < b.nClasses) (hn : fb.negClass < b.nClasses) :
    (flattenConv b).apply (.trainUpdate x fb) = some (flattenConv (b.apply (.trainUpdate x fb))) ∧ ConvShaped (b.apply (.trainUpdate x fb)) ∧
      Aimed b.nPatches (b.apply (.trainUpdate x fb)).clauses ∧ Same b (b.apply (.trainUpdate x fb)) := by
  have hl := trainLoop_eq b x fb b.clauses.length hx hs hp hn b.clauses [] b.fast b.rng rfl hb.rows ha
  obtain ⟨h1, h2⟩ := convTrainClauses_rows b x fb b.clauses b.fast b.rng hb.rows ha
  refine ⟨?_, ⟨h1, hb.votes⟩, h2, rfl, rfl, rfl, convTrainClauses_length _ _ _ _ _ _ _⟩
  have : (flattenConv b).tm.nClauses = b.clauses.length := by simp [flattenConv, flatten, densePart]
  show (flattenConv b).trainUpdate x fb = _
  unfold FlatConv.trainUpdate
  rw [this]
  exact hl

theorem run_append (ops ops' : List BlockOp) : ∀ (m : FlatConv), m.run (ops ++ ops') = (m.run ops).bind fun m => m.run ops' := by
  induction ops with
  | nil => intro m; rfl
  | cons op ops ih =>
    intro m
    rw [List.cons_append, FlatConv.run, FlatConv.run]
    cases m.apply op with
    | none => rfl
    | some m' => exact ih m'

theorem updates_eq (x : List Nat) : ∀ (fbs : List Feedback) (b : ConvBlock), ConvShaped b → Aimed b.nPatches b.clauses →
    SmallConv b.nLits b.clauses.length b.nClasses b.nPatches → x.length = b.nPatches * b.nLits →
    (∀ fb ∈ fbs, fb.posClass < b.nClasses ∧ fb.negClass < b.nClasses) →
    (flattenConv b).run (fbs.map (.trainUpdate x)) = some (flattenConv (b.run (fbs.map (.trainUpdate x)))) ∧
      ConvShaped (b.run (fbs.map (.trainUpdate x))) ∧ Same b (b.run (fbs.map (.trainUpdate x))) := by
  intro fbs
  induction fbs with
  | nil => intro b hb _ _ _ _; exact ⟨rfl, hb, rfl, rfl, rfl, rfl⟩
  | cons fb fbs ih =>
    intro b hb ha hs hx hf
    obtain ⟨h1, h2, h3, h4⟩ := trainUpdate_eq b hb ha hs x fb hx (hf fb List.mem_cons_self).1 (hf fb List.mem_cons_self).2
    obtain ⟨i1, i2, i3⟩ := ih (b.apply (.trainUpdate x fb)) h2 (by rw [h4.nPatches]; exact h3)
      (by rw [h4.nLits, h4.len, h4.nClasses, h4.nPatches]; exact hs) (by rw [h4.nPatches, h4.nLits]; exact hx)
      (fun fb' h => by rw [h4.nClasses]; exact hf fb' (List.mem_cons_of_mem _ h))
    refine ⟨?_, i2, i3.nLits.trans h4.nLits, i3.nClasses.trans h4.nClasses, i3.nPatches.trans h4.nPatches, i3.len.trans h4.len⟩
    rw [List.map_cons, FlatConv.run, bind_of h1]
    exact i1

theorem use_eq (u : ConvUse) (b : ConvBlock) (hb : ConvShaped b) (hs : SmallConv b.nLits b.clauses.length b.nClasses b.nPatches)
    (hu : u.Ok b.nLits b.nClasses b.nPatches) :
    (flattenConv b).run u.ops = some (flattenConv (b.run u.ops)) ∧ ConvShaped (b.run u.ops) ∧ Same b (b.run u.ops) := by
  cases u with
  | train x fbs =>
    obtain ⟨h1, h2, h3, h4⟩ := trainExample_eq b hb hs x hu.1
    obtain ⟨i1, i2, i3⟩ := updates_eq x fbs (b.apply (.trainExample x)) h2 (by rw [h4.nPatches]; exact h3)
      (by rw [h4.nLits, h4.len, h4.nClasses, h4.nPatches]; exact hs) (by rw [h4.nPatches, h4.nLits]; exact hu.1)
      (fun fb' h => by rw [h4.nClasses]; exact hu.2 fb' h)
    refine ⟨?_, i2, i3.nLits.trans h4.nLits, i3.nClasses.trans h4.nClasses, i3.nPatches.trans h4.nPatches, i3.len.trans h4.len⟩
    rw [ConvUse.ops, FlatConv.run, bind_of h1]
    exact i1
  | eval x =>
    obtain ⟨h1, h2, h4⟩ := evalExample_eq b hb hs x hu
    refine ⟨?_, h2, h4⟩
    rw [ConvUse.ops, FlatConv.run, bind_of h1]
    rfl

theorem uses_eq : ∀ (us : List ConvUse) (b : ConvBlock), ConvShaped b → SmallConv b.nLits b.clauses.length b.nClasses b.nPatches →
    (∀ u ∈ us, u.Ok b.nLits b.nClasses b.nPatches) →
    (flattenConv b).run (us.flatMap ConvUse.ops) = some (flattenConv (b.run (us.flatMap ConvUse.ops))) := by
  intro us
  induction us with
  | nil => intro b _ _ _; rfl
  | cons u us ih =>
    intro b hb hs hu
    obtain ⟨h1, h2, h3⟩ := use_eq u b hb hs (hu u List.mem_cons_self)
    have := ih (b.run u.ops) h2 (by rw [h3.nLits, h3.len, h3.nClasses, h3.nPatches]; exact hs)
      (fun v hv => by rw [h3.nLits, h3.nClasses, h3.nPatches]; exact hu v (List.mem_cons_of_mem _ hv))
    rw [List.flatMap_cons, run_append, h1, Option.bind_some, this]
    unfold ConvBlock.run
    rw [List.foldl_append]

/-! ### Initialisation -/

theorem init_eq (nLits nClauses nClasses : Nat) (nPatches : Int) (cfg : Cfg) (fastOf rngOf : Nat → Rng) (junk : Nat → Int)
    (junkC junkPatch junkCounts : Nat → Nat) (seed : Nat) (hs : Small nLits nClauses nClasses) :
    flatConvInit nLits nClauses nClasses nPatches cfg fastOf rngOf junk junkC junkPatch junkCounts seed =
      some ((initConv nLits nClauses nClasses nPatches cfg fastOf rngOf junkC junkPatch junkCounts seed).map flattenConv) := by
  unfold flatConvInit initConv
  rw [bind_of (flat_init nLits nClauses nClasses cfg fastOf rngOf junk junkC seed hs)]
  cases hi : initTM nLits nClauses nClasses cfg fastOf rngOf junkC seed with
  | none => rfl
  | some d =>
    obtain ⟨h1, h2, h3, h4⟩ := init_wellShaped nLits nClauses nClasses cfg fastOf rngOf junkC seed d hi
    have hcfg : d.cfg = cfg := by
      unfold initTM at hi
      split at hi
      · simp at hi
      · rw [← Option.some.inj hi]
    by_cases hp : nPatches > 0
    · simp only [Option.map_some, if_pos hp, Option.pure_def, Option.some.injEq]
      have e1 : (d.clauses.mapIdx fun i c => (⟨c, junkPatch i⟩ : ConvClause)).map (·.base) = d.clauses := by
        apply List.ext_getElem
        · simp
        · intro i _ _; simp
      have e2 : (d.clauses.mapIdx fun i c => (⟨c, junkPatch i⟩ : ConvClause)).map (·.patch) = (List.range nClauses).map junkPatch := by
        apply List.ext_getElem
        · simp [h4]
        · intro i _ _; simp
      simp only [flattenConv, densePart, e1, e2]
      obtain ⟨n, k, c', cl, v, f, g⟩ := d
      simp only at h2 h3 hcfg
      subst h2 h3 hcfg
      rfl
    · simp only [Option.map_some, if_neg hp, Option.pure_def, Option.map_none]

theorem init_shaped (nLits nClauses nClasses : Nat) (nPatches : Int) (cfg : Cfg) (fastOf rngOf : Nat → Rng)
    (junkC junkPatch junkCounts : Nat → Nat) (seed : Nat) (b : ConvBlock)
    (hb : initConv nLits nClauses nClasses nPatches cfg fastOf rngOf junkC junkPatch junkCounts seed = some b) :
    ConvShaped b ∧ b.nLits = nLits ∧ b.nClasses = nClasses ∧ b.clauses.length = nClauses ∧ (b.nPatches : Int) = nPatches := by
  unfold initConv at hb
  cases hi : initTM nLits nClauses nClasses cfg fastOf rngOf junkC seed with
  | none => rw [hi] at hb; simp at hb
  | some d =>
    obtain ⟨h1, h2, h3, h4⟩ := init_wellShaped nLits nClauses nClasses cfg fastOf rngOf junkC seed d hi
    rw [hi] at hb
    simp only at hb
    split at hb
    · rename_i hp
      obtain rfl := Option.some.inj hb
      refine ⟨⟨?_, ?_⟩, rfl, rfl, by simp [h4], by simp; omega⟩
      · intro c hc
        obtain ⟨i, hi, rfl⟩ := List.getElem_of_mem hc
        simp only [List.getElem_mapIdx]
        have := h1.rows _ (List.getElem_mem (l := d.clauses) (by simpa using hi))
        rw [h2, h3] at this
        exact this
      · have := h1.votes
        rwa [h3] at this
    · simp at hb

/-! ### What goes wrong outside the conditions -/

/-- A loop that cannot get past one of its steps. -/
theorem forLoop_none {σ : Type} (body : Nat → σ → Option σ) (P : σ → Prop) (hP : ∀ i s s', P s → body i s = some s' → P s') (i : Nat)
    (hi : ∀ s, P s → body i s = none) : ∀ (rem k : Nat) (s : σ), P s → k ≤ i → i < k + rem → forLoop body rem k s = none := by
  intro rem
  induction rem with
  | zero => intro k s _ _ _; omega
  | succ rem ih =>
    intro k s hs h1 h2
    rw [forLoop]
    by_cases h : k = i
    · subst h
      rw [hi s hs]
      exact bind_none' _
    · cases hb : body k s with
      | none => exact bind_none' _
      | some s' => exact (bind_of rfl _).trans (ih (k + 1) s' (hP k s s' hs hb) (by omega) (by omega))

theorem setPatch_sizes (x : List Nat) (k j : Nat) (s s' : FlatConv × List Nat) (h : FlatConv.setPatch x k j s = some s') :
    s'.1.tm.nLits = s.1.tm.nLits ∧ s'.1.nPatches = s.1.nPatches := by
  unfold FlatConv.setPatch at h
  obtain ⟨_, -, h⟩ := bind_inv h
  obtain ⟨_, -, h⟩ := bind_inv h
  obtain ⟨_, -, h⟩ := bind_inv h
  obtain ⟨r, -, h⟩ := bind_inv h
  split at h
  · obtain ⟨_, -, h⟩ := bind_inv h
    obtain ⟨_, -, h⟩ := bind_inv h
    obtain rfl := Option.some.inj h
    exact ⟨rfl, rfl⟩
  · obtain rfl := Option.some.inj h
    exact ⟨rfl, rfl⟩

theorem setBody_long (x : List Nat) (k : Nat) (m : FlatConv) (hp : 0 < m.nPatches) (hl : 2147483648 ≤ (m.nPatches - 1) * m.tm.nLits) :
    FlatConv.setBody x k m = none := by
  unfold FlatConv.setBody
  cases hw : wr m.tm.outputs (k : Int) 0 with
  | none => rfl
  | some outs =>
    rw [bind_of rfl]
    have := forLoop_none (FlatConv.setPatch x k) (fun s => s.1.tm.nLits = m.tm.nLits)
      (fun i s s' hs h => (setPatch_sizes x k i s s' h).1.trans hs) (m.nPatches - 1)
      (fun s hs => by
        unfold FlatConv.setPatch
        cases rowPtr s.1.tm.nLits k with
        | none => rfl
        | some pp =>
        cases negPtr s.1.tm.nLits k with
        | none => rfl
        | some pn =>
        rw [bind_of rfl, bind_of rfl, hs]
        have : i32 (((m.nPatches - 1 : Nat) : Int) * (m.tm.nLits : Int)) = none := by
          unfold i32
          rw [if_neg]
          rintro ⟨-, h⟩
          have : (((m.nPatches - 1) * m.tm.nLits : Nat) : Int) < 2147483648 := by rw [Int.natCast_mul]; exact h
          omega
        rw [this]
        rfl)
      m.nPatches 0 ({ m with tm := { m.tm with outputs := outs } }, []) rfl (by omega) (by omega)
    rw [this]
    rfl

theorem trainBody_sizes {n k W : Nat} {d : Nat → Rat} (x : List Nat) (fb : Feedback) (i : Nat) (m m' : FlatConv) (h : Sizes m.tm n k W d)
    (hu : FlatConv.trainBody x fb i m = some m') : Sizes m'.tm n k W d := by
  cases ha : rd m.active (i : Int) with
  | none =>
    unfold FlatConv.trainBody at hu
    obtain ⟨_, -, hu⟩ := bind_inv hu
    obtain ⟨_, -, hu⟩ := bind_inv hu
    obtain ⟨_, -, hu⟩ := bind_inv hu
    obtain ⟨_, h4, -⟩ := bind_inv hu
    rw [ha] at h4
    simp at h4
  | some a =>
    rw [trainBody_dense m x fb i a ha, Option.map_eq_some_iff] at hu
    obtain ⟨tm, h1, rfl⟩ := hu
    exact h.trainBody h1

theorem trainUpdate_outside {n k W : Nat} {d : Nat → Rat} (x : List Nat) (fb : Feedback) (hd : ∀ i, d i < fb.posProb) (m : FlatConv)
    (h : Sizes m.tm n k W d) (i : Nat) (hi : i < m.tm.nClauses) (hW : W ≤ i * k + fb.posClass) : m.trainUpdate x fb = none := by
  unfold FlatConv.trainUpdate
  refine forLoop_none _ (fun m => Sizes m.tm n k W d) (fun j s s' hs hb => trainBody_sizes x fb j s s' hs hb) i (fun s hs => ?_) _ 0 m h
    (Nat.zero_le _) (by omega)
  cases ha : rd s.active (i : Int) with
  | none =>
    cases hu : FlatConv.trainBody x fb i s with
    | none => rfl
    | some m' =>
      unfold FlatConv.trainBody at hu
      obtain ⟨_, -, hu⟩ := bind_inv hu
      obtain ⟨_, -, hu⟩ := bind_inv hu
      obtain ⟨_, -, hu⟩ := bind_inv hu
      obtain ⟨_, h4, -⟩ := bind_inv hu
      rw [ha] at h4
      simp at h4
  | some a =>
    rw [trainBody_dense s x fb i a ha, trainBody_outside hs _ fb i hW hd]
    rfl

end GT.ConvMem
