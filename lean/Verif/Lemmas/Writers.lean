import Verif.Spec.Writers
import Verif.Lemmas.Predictor

/-! # Helper lemmas about the exporters -/

namespace GT
open Spec

/-! ### Conditions -/

/-- All tests of a path hold. -/
def pathHolds (n : Nat) (x : List Nat) (p : List Nat) : Bool := (p.map (condOf n)).all (·.holds x)

theorem cond_holds (n : Nat) (x : List Nat) (hb : Binary x) (hx : x.length = n) (t : Nat) (ht : t < 2 * n) :
    (condOf n t).holds x = true ↔ (t < n ∧ x[t]? = some 1) ∨ (n ≤ t ∧ x[t - n]? = some 0) := by
  unfold condOf
  by_cases h : t < n
  · have h' : t < x.length := by omega
    have := hb x[t] (List.getElem_mem h')
    simp only [h, if_true, CCond.holds, List.getD, List.getElem?_eq_getElem h', Option.getD_some,
      decide_eq_true_eq, Option.some.injEq]
    generalize x[t] = v at this ⊢
    constructor
    · intro hv; exact Or.inl ⟨trivial, by omega⟩
    · rintro (hv | hv)
      · omega
      · omega
  · have h' : t - n < x.length := by omega
    simp only [h, if_false, CCond.holds, List.getD, List.getElem?_eq_getElem h', Option.getD_some,
      decide_eq_true_eq, Option.some.injEq]
    constructor
    · intro hv; exact Or.inr ⟨by omega, hv⟩
    · rintro (hv | hv)
      · exact absurd hv.1 id
      · exact hv.2

theorem pathHolds_iff (n : Nat) (x : List Nat) (hb : Binary x) (hx : x.length = n) (p : List Nat)
    (hp : ∀ t ∈ p, t < 2 * n) : pathHolds n x p = true ↔ Matches n x p := by
  unfold pathHolds Matches
  simp only [List.all_map, List.all_eq_true, Function.comp]
  constructor
  · intro h t ht; exact (cond_holds n x hb hx t (hp t ht)).mp (h t ht)
  · intro h t ht; exact (cond_holds n x hb hx t (hp t ht)).mpr (h t ht)

theorem pathHolds_append (n : Nat) (x : List Nat) (p q : List Nat) :
    pathHolds n x (p ++ q) = (pathHolds n x p && pathHolds n x q) := by
  simp [pathHolds]

/-! ### Adding up -/

/-- Adding the weights of the entries whose path holds. -/
def addPaths (n : Nat) (x : List Nat) (v : List Int) (ps : List (List Nat × List Int)) : List Int :=
  ps.foldl (fun v e => if pathHolds n x e.1 then addWeightLine v e.2 else v) v

theorem addPaths_append (n : Nat) (x : List Nat) (v : List Int) (ps qs : List (List Nat × List Int)) :
    addPaths n x v (ps ++ qs) = addPaths n x (addPaths n x v ps) qs := by
  simp [addPaths]

def pathSum (n : Nat) (x : List Nat) (ps : List (List Nat × List Int)) (k : Nat) : Int :=
  (ps.map fun e => if pathHolds n x e.1 then e.2.getD k 0 else 0).sum

theorem addPaths_value (n c : Nat) (x : List Nat) (ps : List (List Nat × List Int)) (f : Nat → Int)
    (v : List Int) (hv : v = (List.range c).map fun k => wrap16 (f k)) (hp : ∀ e ∈ ps, e.2.length = c) :
    addPaths n x v ps = (List.range c).map fun k => wrap16 (f k + pathSum n x ps k) := by
  induction ps generalizing v f with
  | nil => simp [addPaths, pathSum, hv]
  | cons e ps ih =>
    have e1 : addPaths n x v (e :: ps) =
        addPaths n x (if pathHolds n x e.1 then addWeightLine v e.2 else v) ps := rfl
    have hps : ∀ d ∈ ps, d.2.length = c := fun d hd => hp d (by simp [hd])
    have hl := hp e (by simp)
    rw [e1]
    by_cases h : pathHolds n x e.1 = true
    · rw [if_pos h, ih (fun k => f k + e.2.getD k 0) _ ?_ hps]
      · apply List.map_congr_left
        intro k _
        simp only [pathSum, List.map_cons, List.sum_cons, h, if_true]
        congr 1; omega
      · subst hv
        apply List.ext_getElem?
        intro k
        unfold addWeightLine
        by_cases hk : k < c
        · simp [hk, show k < e.2.length by omega, wrap16_add_wrap16]
        · simp [show c ≤ k by omega]
    · rw [if_neg h, ih f v hv hps]
      apply List.map_congr_left
      intro k _
      simp [pathSum, h]

/-! ### The flat program -/

theorem exec_rule (n : Nat) (x : List Nat) (rule : List Nat) (hr : rule ≠ []) (w v : List Int) (ts : List Tok) :
    execC x (simpleRule n rule w ++ ts) [] v = execC x ts [] (if pathHolds n x rule then addWeightLine v w else v) := by
  simp only [simpleRule, List.cons_append, List.nil_append, execC]
  rw [if_neg (by simpa using hr)]
  simp [pathHolds]

theorem exec_simple (n : Nat) (x : List Nat) (rules : List (List Nat)) (hr : ∀ r ∈ rules, r ≠ [])
    (weights : List (List Int)) (v : List Int) :
    execC x (List.zipWith (simpleRule n) rules weights).flatten [] v =
      some (addPaths n x v (rules.zip weights)) := by
  induction rules generalizing weights v with
  | nil => rfl
  | cons r rules ih =>
    cases weights with
    | nil => rfl
    | cons w weights =>
      rw [List.zipWith_cons_cons, List.flatten_cons, exec_rule n x r (hr r (by simp)),
        ih (fun r' h => hr r' (by simp [h]))]
      rfl

theorem pathSum_ruleSum (n : Nat) (x : List Nat) (hb : Binary x) (hx : x.length = n)
    (rules : List (List Nat)) (weights : List (List Int)) (h : ∀ r ∈ rules, ∀ t ∈ r, t < 2 * n) (k : Nat) :
    pathSum n x (rules.zip weights) k = ruleSum n rules weights x k := by
  induction rules generalizing weights with
  | nil => simp [pathSum, ruleSum]
  | cons r rules ih =>
    cases weights with
    | nil => simp [pathSum, ruleSum]
    | cons w weights =>
      rw [ruleSum_cons, ← ih weights (fun r' h' => h r' (by simp [h']))]
      have hm := pathHolds_iff n x hb hx r (h r (by simp))
      simp only [pathSum, List.zip_cons_cons, List.map_cons, List.sum_cons]
      by_cases hh : Matches n x r
      · rw [if_pos hh, if_pos (hm.mpr hh)]
      · rw [if_neg hh, if_neg (fun h' => hh (hm.mp h'))]

/-- The class the predictor chooses is the class of any program that computes these votes. -/
theorem program_agrees (rs : Rules) (h : RulesOK rs) (hn : 0 < rs.nClasses)
    (i : Inf) (hi : Holds rs i) (x : List Nat) (hb : Binary x) (hx : x.length = rs.nLits)
    (hf : VotesFit rs x) (v : List Int)
    (hv : v = (List.range rs.nClasses).map fun k => wrap16 (ruleSum rs.nLits rs.rules rs.weights x k)) :
    inferBest v.tail 1 0 (v.headD 0) = (i.predict x).2 ∧ v = rulesetVotes rs x := by
  have e1 : v = rulesetVotes rs x := by
    rw [hv]
    apply List.map_congr_left
    intro k hk
    have := hf k (List.mem_range.mp hk)
    exact wrap16_id this.1 this.2
  have e2 : (rulesetVotes rs x).map wrap32 = rulesetVotes rs x := by
    unfold rulesetVotes
    rw [List.map_map]
    apply List.map_congr_left
    intro k hk
    have := hf k (List.mem_range.mp hk)
    exact wrap32_id (by omega) (by omega)
  obtain ⟨-, -, hl⟩ := inf_predict rs h hn i hi x hb hx
  rw [e2] at hl
  refine ⟨?_, e1⟩
  rw [e1]
  apply lowestMax_unique (inferBest_lowestMax _ ?_) hl
  intro h0
  have := congrArg List.length h0
  simp [rulesetVotes] at this
  omega

/-! ### The tree program -/

mutual
/-- The weighted nodes below a node with the literals on the way to them. -/
def nodePaths : Node → List Nat → List (List Nat × List Int)
  | .mk ta w childs, pre =>
    let pre := match ta with
      | some t => pre ++ [t]
      | none => pre
    (match w with
      | some w => [(pre, w)]
      | none => []) ++ listPaths childs pre
def listPaths : List Node → List Nat → List (List Nat × List Int)
  | [], _ => []
  | c :: cs, pre => nodePaths c pre ++ listPaths cs pre
end

mutual
/-- Every node at or below has a literal. -/
def Tagged : Node → Prop
  | .mk ta _ childs => ta ≠ none ∧ TaggedList childs
def TaggedList : List Node → Prop
  | [] => True
  | c :: cs => Tagged c ∧ TaggedList cs
end

theorem taggedList_append (a b : List Node) : TaggedList (a ++ b) ↔ TaggedList a ∧ TaggedList b := by
  induction a with
  | nil => simp [TaggedList]
  | cons c a ih => simp [TaggedList, ih, and_assoc]

mutual
theorem exec_node (n : Nat) (x : List Nat) (nd : Node) (ht : Tagged nd) (p0 conds : List Nat) (st : List Bool)
    (hs : st.all id = pathHolds n x p0) (v : List Int) (rest : List Tok) :
    execC x (exportNode n nd conds ++ rest) st v =
      execC x rest st (addPaths n x v (nodePaths nd (p0 ++ conds))) := by
  match nd with
  | .mk ta w childs =>
    rw [Tagged] at ht
    obtain ⟨t, rfl⟩ : ∃ t, ta = some t := by
      cases ta with
      | none => exact absurd rfl ht.1
      | some t => exact ⟨t, rfl⟩
    cases w with
    | none =>
      rw [exportNode, nodePaths]
      simp only [List.nil_append]
      rw [exec_list n x childs ht.2 p0 (conds ++ [t]) st hs v rest, List.append_assoc]
    | some w =>
      rw [exportNode, nodePaths]
      simp only [List.cons_append, List.nil_append, List.append_assoc]
      have hs2 : ((((conds ++ [t]).map (condOf n)).all (·.holds x)) :: st).all id =
          pathHolds n x (p0 ++ (conds ++ [t])) := by
        rw [pathHolds_append, ← hs]
        simp only [List.all_cons, id, pathHolds]
        exact Bool.and_comm _ _
      simp only [execC]
      rw [if_neg (by simp), hs2,
        exec_list n x childs ht.2 (p0 ++ (conds ++ [t])) [] _ hs2 _ (Tok.close :: rest)]
      simp only [execC, List.append_nil]
      rfl
theorem exec_list (n : Nat) (x : List Nat) (cs : List Node) (ht : TaggedList cs) (p0 conds : List Nat)
    (st : List Bool) (hs : st.all id = pathHolds n x p0) (v : List Int) (rest : List Tok) :
    execC x (exportList n cs conds ++ rest) st v =
      execC x rest st (addPaths n x v (listPaths cs (p0 ++ conds))) := by
  match cs with
  | [] => rw [exportList, listPaths]; rfl
  | c :: cs =>
    rw [TaggedList] at ht
    rw [exportList, listPaths, List.append_assoc, exec_node n x c ht.1 p0 conds st hs v,
      exec_list n x cs ht.2 p0 conds st hs, addPaths_append]
end

/-! ### Building the tree -/

theorem sameSet_iff (a b : List Nat) : sameSet a b = true ↔ ∀ t, t ∈ a ↔ t ∈ b := by
  unfold sameSet
  simp only [Bool.and_eq_true, List.all_eq_true, List.contains_iff_mem]
  constructor
  · rintro ⟨h1, h2⟩ t; exact ⟨h1 t, h2 t⟩
  · intro h; exact ⟨fun t ht => (h t).mp ht, fun t ht => (h t).mpr ht⟩

theorem mem_restOf (rule path : List Nat) (t : Nat) : t ∈ restOf rule path ↔ t ∈ rule ∧ t ∉ path := by
  simp [restOf]

def mu (rules : List (List Nat)) (R path : List Nat) : Nat :=
  (R.map fun k => 1 + (restOf (rules.getD k []) path).length).sum

theorem mu_sub (rules : List (List Nat)) (path : List Nat) (R : List Nat) (p : Nat → Bool)
    (h : ∃ k ∈ R, p k = false) : mu rules (R.filter p) path < mu rules R path := by
  induction R with
  | nil => simp at h
  | cons a R ih =>
    have hle : mu rules (R.filter p) path ≤ mu rules R path := by
      clear ih h
      induction R with
      | nil => simp
      | cons b R ih =>
        rw [List.filter_cons]
        split
        · simp only [mu, List.map_cons, List.sum_cons] at ih ⊢; omega
        · simp only [mu, List.map_cons, List.sum_cons] at ih ⊢; omega
    rw [List.filter_cons]
    by_cases ha : p a = true
    · rw [if_pos ha]
      have : ∃ k ∈ R, p k = false := by
        obtain ⟨k, hk, hpk⟩ := h
        rcases List.mem_cons.mp hk with rfl | hk
        · simp [ha] at hpk
        · exact ⟨k, hk, hpk⟩
      have := ih this
      simp only [mu, List.map_cons, List.sum_cons] at this ⊢
      omega
    · rw [if_neg ha]
      simp only [mu, List.map_cons, List.sum_cons] at hle ⊢
      omega

theorem restOf_lt (rule path : List Nat) (h : Nat) (hm : h ∈ restOf rule path) :
    (restOf rule (path ++ [h])).length < (restOf rule path).length := by
  have e : restOf rule (path ++ [h]) = (restOf rule path).filter (fun t => t != h) := by
    unfold restOf
    rw [List.filter_filter]
    apply List.filter_congr
    intro t _
    simp [List.contains_eq_mem]
    by_cases h1 : t ∈ path <;> by_cases h2 : t = h <;> simp [h1, h2]
  rw [e]
  have : (restOf rule path).filter (fun t => t != h) ≠ restOf rule path := by
    intro h'
    rw [List.filter_eq_self] at h'
    have := h' h hm
    simp at this
  rcases Nat.lt_or_ge ((restOf rule path).filter (fun t => t != h)).length (restOf rule path).length with hl | hl
  · exact hl
  · exact absurd (List.Sublist.eq_of_length_le List.filter_sublist hl) this

theorem mu_child (rules : List (List Nat)) (path : List Nat) (R : List Nat) (h : Nat)
    (hne : ∃ k ∈ R, h ∈ restOf (rules.getD k []) path) :
    mu rules (R.filter fun k => (restOf (rules.getD k []) path).contains h) (path ++ [h]) < mu rules R path := by
  have key : ∀ R : List Nat,
      mu rules (R.filter fun k => (restOf (rules.getD k []) path).contains h) (path ++ [h]) +
        (R.filter fun k => (restOf (rules.getD k []) path).contains h).length ≤ mu rules R path := by
    intro R
    induction R with
    | nil => simp [mu]
    | cons a R ih =>
      rw [List.filter_cons]
      split
      · rename_i ha
        have := restOf_lt (rules.getD a []) path h (by simpa using ha)
        simp only [mu, List.map_cons, List.sum_cons, List.length_cons] at ih ⊢
        omega
      · simp only [mu, List.map_cons, List.sum_cons] at ih ⊢
        omega
  have h1 := key R
  have h2 : 0 < (R.filter fun k => (restOf (rules.getD k []) path).contains h).length := by
    obtain ⟨k, hk, hm⟩ := hne
    apply List.length_pos_of_mem (a := k)
    rw [List.mem_filter]
    exact ⟨hk, by simpa using hm⟩
  omega

theorem mem_candidates (rules : List (List Nat)) (R path : List Nat) (e : Nat × List Nat)
    (h : e ∈ candidates rules R path) :
    (∃ k ∈ R, e.1 ∈ restOf (rules.getD k []) path) ∧
      e.2 = R.filter fun k => (restOf (rules.getD k []) path).contains e.1 := by
  unfold candidates at h
  obtain ⟨t, ht, rfl⟩ := List.mem_map.mp h
  obtain ⟨k, hk, hm⟩ := List.mem_flatMap.mp ht
  exact ⟨⟨k, hk, hm⟩, rfl⟩

theorem candidates_nil (rules : List (List Nat)) (R path : List Nat) (h : candidates rules R path = []) :
    ∀ k ∈ R, ∀ t ∈ rules.getD k [], t ∈ path := by
  intro k hk t ht
  by_contra hc
  unfold candidates at h
  rw [List.map_eq_nil_iff, List.flatMap_eq_nil_iff] at h
  have := h k hk
  have hm := (mem_restOf (rules.getD k []) path t).mpr ⟨ht, hc⟩
  rw [this] at hm
  simp at hm

theorem filter_unique (R : List Nat) (p : Nat → Bool) (hn : R.Nodup)
    (hu : ∀ i ∈ R, ∀ j ∈ R, p i = true → p j = true → i = j) :
    R.filter p = [] ∨ ∃ k ∈ R, p k = true ∧ R.filter p = [k] := by
  have hn' := hn.filter p
  cases hf : R.filter p with
  | nil => exact Or.inl rfl
  | cons a l =>
    right
    have ha : a ∈ R.filter p := by rw [hf]; simp
    rw [List.mem_filter] at ha
    refine ⟨a, ha.1, ha.2, ?_⟩
    cases l with
    | nil => rfl
    | cons b l =>
      have hb : b ∈ R.filter p := by rw [hf]; simp
      rw [List.mem_filter] at hb
      rw [hf] at hn'
      have := hu a ha.1 b hb.1 ha.2 hb.2
      subst this
      simp at hn'

theorem perm_three (R : List Nat) (a b c : Nat → Bool)
    (h : ∀ k ∈ R, (a k = true → b k = false) ∧ (c k = (!a k && !b k))) :
    (R.filter a ++ R.filter b ++ R.filter c).Perm R := by
  induction R with
  | nil => exact List.Perm.refl _
  | cons k R ih =>
    have ih' := ih (fun j hj => h j (by simp [hj]))
    obtain ⟨h1, h2⟩ := h k (by simp)
    cases ha : a k with
    | true =>
      have hb := h1 ha
      rw [ha, hb] at h2
      simp only [List.filter_cons, ha, hb, h2]
      simpa using ih'
    | false =>
      cases hb : b k with
      | true =>
        rw [ha, hb] at h2
        simp only [List.filter_cons, ha, hb, h2]
        simp only [Bool.not_true, Bool.and_false, Bool.false_eq_true, if_false, if_true]
        rw [List.append_assoc, List.cons_append]
        refine List.perm_middle.trans (List.Perm.cons k ?_)
        rw [← List.append_assoc]; exact ih'
      | false =>
        rw [ha, hb] at h2
        simp only [List.filter_cons, ha, hb, h2]
        simp only [Bool.not_false, Bool.and_self, Bool.false_eq_true, if_false, if_true]
        exact List.perm_middle.trans (List.Perm.cons k ih')

/-- The tree holds every rule of `R` exactly once, at a node whose path is the rule. -/
theorem grow_spec (pick : List Nat → List Nat → List (Nat × List Nat) → Nat × List Nat)
    (hpick : ChoosesEntry pick) (rules : List (List Nat)) (weights : List (List Int)) (fuel : Nat) :
    ∀ (head : Option Nat) (R path inTree : List Nat) (w : Option (List Int)) (childs : List Node),
      mu rules R path < fuel → R.Nodup → (∀ k ∈ R, ∀ t ∈ path, t ∈ rules.getD k []) →
      (∀ k ∈ R, k ∉ inTree) →
      (∀ i ∈ R, ∀ j ∈ R, (∀ t, t ∈ rules.getD i [] ↔ t ∈ rules.getD j []) → i = j) →
      ∃ (new : List Node) (inTree' : List Nat) (ps : List (Nat × List Nat)),
        grow pick rules weights fuel head R path inTree w childs =
          some (.mk head ((R.filter fun k => sameSet (rules.getD k []) path).foldl
            (fun _ k => some (weights.getD k [])) w) (childs ++ new), inTree') ∧
        (∀ k, k ∈ inTree' ↔ k ∈ inTree ∨ k ∈ R) ∧ TaggedList new ∧
        (ps.map Prod.fst).Perm R ∧ (∀ q ∈ ps, ∀ t, t ∈ rules.getD q.1 [] ↔ t ∈ q.2) ∧
        ((R.filter fun k => sameSet (rules.getD k []) path).map fun k => (path, weights.getD k [])) ++
          listPaths new path = ps.map fun q => (q.2, weights.getD q.1 []) := by
  induction fuel with
  | zero => intro head R path inTree w childs h; omega
  | succ fuel ih =>
    intro head R path inTree w childs hmu hnd hpath hin hdist
    rw [grow]
    by_cases hR : R = []
    · subst hR
      refine ⟨[], inTree, [], by simp, by simp, by simp [TaggedList], by simp, by simp, by simp [listPaths]⟩
    · rw [if_neg hR]
      simp only
      have hhere : ∀ k, k ∈ R.filter (fun k => sameSet (rules.getD k []) path) ↔
          k ∈ R ∧ ∀ t, t ∈ rules.getD k [] ↔ t ∈ path := by
        intro k; rw [List.mem_filter, sameSet_iff]
      by_cases hc : candidates rules R path = []
      · rw [if_pos hc]
        have hall := candidates_nil rules R path hc
        have hf : R.filter (fun k => sameSet (rules.getD k []) path) = R := by
          rw [List.filter_eq_self]
          intro k hk
          rw [sameSet_iff]
          exact fun t => ⟨hall k hk t, hpath k hk t⟩
        refine ⟨[], _, R.map fun k => (k, path), by rw [List.append_nil], ?_, by simp [TaggedList], ?_, ?_, ?_⟩
        · intro k; rw [hf]; simp
        · simp [Function.comp_def]
        · intro q hq t
          obtain ⟨k, hk, rfl⟩ := List.mem_map.mp hq
          exact ⟨hall k hk t, hpath k hk t⟩
        · rw [hf]; simp [listPaths]
      · rw [if_neg hc]
        obtain ⟨⟨k0, hk0, hk0m⟩, hnext⟩ := mem_candidates rules R path _ (hpick path R _ hc)
        generalize pick path R (candidates rules R path) = nx at hk0m hnext
        obtain ⟨h, next⟩ := nx
        simp only at hk0m hnext ⊢
        subst hnext
        have hnextmem : ∀ k, k ∈ R.filter (fun k => (restOf (rules.getD k []) path).contains h) ↔
            k ∈ R ∧ h ∈ rules.getD k [] ∧ h ∉ path := by
          intro k
          rw [List.mem_filter, List.contains_iff_mem, mem_restOf]
        -- the child
        obtain ⟨new1, in1, ps1, g1, m1, t1, p1, s1, l1⟩ := ih (some h)
          (R.filter fun k => (restOf (rules.getD k []) path).contains h) (path ++ [h])
          (inTree ++ R.filter fun k => sameSet (rules.getD k []) path) none []
          (by have := mu_child rules path R h ⟨k0, hk0, hk0m⟩; omega)
          (hnd.filter _)
          (by
            intro k hk t ht
            rw [hnextmem] at hk
            rcases List.mem_append.mp ht with ht | ht
            · exact hpath k hk.1 t ht
            · simp at ht; subst ht; exact hk.2.1)
          (by
            intro k hk hk2
            rw [hnextmem] at hk
            rcases List.mem_append.mp hk2 with hk2 | hk2
            · exact hin k hk.1 hk2
            · rw [hhere] at hk2
              exact hk.2.2 ((hk2.2 h).mp hk.2.1))
          (by
            intro i hi j hj
            rw [hnextmem] at hi hj
            exact hdist i hi.1 j hj.1)
        rw [List.nil_append] at g1
        rw [g1]
        simp only
        -- the rest of the loop
        have hrest : ∀ k, k ∈ R.filter (fun k => !in1.contains k) ↔
            k ∈ R ∧ ¬ (∀ t, t ∈ rules.getD k [] ↔ t ∈ path) ∧ ¬ (h ∈ rules.getD k [] ∧ h ∉ path) := by
          intro k
          rw [List.mem_filter]
          have hc1 : (!in1.contains k) = true ↔ ¬ k ∈ in1 := by simp
          rw [hc1, m1, List.mem_append, hhere, hnextmem, not_or, not_or]
          constructor
          · rintro ⟨a, ⟨-, b⟩, c⟩
            exact ⟨a, fun d => b ⟨a, d⟩, fun d => c ⟨a, d⟩⟩
          · rintro ⟨a, b, c⟩
            exact ⟨a, ⟨hin k a, fun d => b d.2⟩, fun d => c d.2⟩
        have hk0R : k0 ∈ R ∧ h ∈ rules.getD k0 [] ∧ h ∉ path :=
          ⟨hk0, (mem_restOf _ _ _).mp hk0m⟩
        obtain ⟨new2, in2, ps2, g2, m2, t2, p2, s2, l2⟩ := ih head (R.filter fun k => !in1.contains k) path in1
          ((R.filter fun k => sameSet (rules.getD k []) path).foldl (fun _ k => some (weights.getD k [])) w)
          (childs ++ [.mk (some h) ((List.filter (fun k => sameSet (rules.getD k []) (path ++ [h]))
            (R.filter fun k => (restOf (rules.getD k []) path).contains h)).foldl
              (fun _ k => some (weights.getD k [])) none) new1])
          (by
            have := mu_sub rules path R (fun k => !in1.contains k) ⟨k0, hk0, by
              simp only [Bool.not_eq_false', List.contains_iff_mem, m1]
              exact Or.inr ((hnextmem k0).mpr hk0R)⟩
            omega)
          (hnd.filter _)
          (by intro k hk t ht; rw [hrest] at hk; exact hpath k hk.1 t ht)
          (by
            intro k hk
            rw [List.mem_filter] at hk
            simpa using hk.2)
          (by
            intro i hi j hj
            rw [hrest] at hi hj
            exact hdist i hi.1 j hj.1)
        have hno : (R.filter fun k => !in1.contains k).filter
            (fun k => sameSet (rules.getD k []) path) = [] := by
          rw [List.filter_eq_nil_iff]
          intro k hk
          rw [hrest] at hk
          rw [sameSet_iff]
          exact hk.2.1
        rw [hno] at g2 l2
        simp only [List.foldl_nil, List.map_nil, List.nil_append] at g2 l2
        -- the weight of the child
        have hchild : nodePaths (.mk (some h) ((List.filter (fun k => sameSet (rules.getD k []) (path ++ [h]))
            (R.filter fun k => (restOf (rules.getD k []) path).contains h)).foldl
              (fun _ k => some (weights.getD k [])) none) new1) path =
            ps1.map fun q => (q.2, weights.getD q.1 []) := by
          rw [← l1]
          rcases filter_unique _ (fun k => sameSet (rules.getD k []) (path ++ [h]))
            (hnd.filter fun k => (restOf (rules.getD k []) path).contains h) (by
              intro i hi j hj si sj
              rw [hnextmem] at hi hj
              rw [sameSet_iff] at si sj
              exact hdist i hi.1 j hj.1 (fun t => (si t).trans (sj t).symm)) with hf | ⟨k, -, -, hf⟩
          · rw [hf]; simp [nodePaths]
          · rw [hf]; simp [nodePaths]
        refine ⟨.mk (some h) ((List.filter (fun k => sameSet (rules.getD k []) (path ++ [h]))
            (R.filter fun k => (restOf (rules.getD k []) path).contains h)).foldl
              (fun _ k => some (weights.getD k [])) none) new1 :: new2, in2,
          ((R.filter fun k => sameSet (rules.getD k []) path).map fun k => (k, path)) ++ ps1 ++ ps2,
          ?_, ?_, ?_, ?_, ?_, ?_⟩
        · rw [g2]; simp
        · intro k
          rw [m2, m1, List.mem_append, hhere, hnextmem, hrest]
          constructor
          · rintro (((a | a) | a) | a)
            · exact Or.inl a
            · exact Or.inr a.1
            · exact Or.inr a.1
            · exact Or.inr a.1
          · rintro (a | a)
            · exact Or.inl (Or.inl (Or.inl a))
            · by_cases b : ∀ t, t ∈ rules.getD k [] ↔ t ∈ path
              · exact Or.inl (Or.inl (Or.inr ⟨a, b⟩))
              · by_cases c : h ∈ rules.getD k [] ∧ h ∉ path
                · exact Or.inl (Or.inr ⟨a, c⟩)
                · exact Or.inr ⟨a, b, c⟩
        · rw [TaggedList, Tagged]
          exact ⟨⟨by simp, by simpa using t1⟩, t2⟩
        · rw [List.map_append, List.map_append, List.map_map]
          have e0 : (R.filter fun k => sameSet (rules.getD k []) path).map
              (Prod.fst ∘ fun k => (k, path)) = R.filter fun k => sameSet (rules.getD k []) path := by
            simp [Function.comp_def]
          rw [e0]
          refine (List.Perm.append (List.Perm.append (List.Perm.refl _) p1) p2).trans ?_
          apply perm_three
          intro k hk
          constructor
          · intro hs
            rw [sameSet_iff] at hs
            rw [Bool.eq_false_iff, Ne, List.contains_iff_mem, mem_restOf]
            rintro ⟨a, b⟩
            exact b ((hs h).mp a)
          · have hr := hrest k
            rw [List.mem_filter] at hr
            have e3 : (!in1.contains k) = true ↔ ¬ (∀ t, t ∈ rules.getD k [] ↔ t ∈ path) ∧
                ¬ (h ∈ rules.getD k [] ∧ h ∉ path) := by
              constructor
              · intro h'; exact (hr.mp ⟨hk, h'⟩).2
              · intro h'; exact (hr.mpr ⟨hk, h'⟩).2
            rw [Bool.eq_iff_iff, e3]
            simp only [Bool.and_eq_true, Bool.not_eq_true', Bool.eq_false_iff, Ne, sameSet_iff,
              List.contains_iff_mem, mem_restOf]
        · intro q hq
          simp only [List.mem_append] at hq
          rcases hq with (hq | hq) | hq
          · obtain ⟨k, hk, rfl⟩ := List.mem_map.mp hq
            exact ((hhere k).mp hk).2
          · exact s1 q hq
          · exact s2 q hq
        · rw [listPaths, hchild, l2]
          simp

end GT
