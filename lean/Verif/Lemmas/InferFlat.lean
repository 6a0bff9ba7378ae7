import Verif.Spec.InferFlat
import Verif.Lemmas.Flat
import Verif.Lemmas.Predictor

/-! # Helper lemmas about the checked predictor -/

namespace GT.InferMem
open Spec FlatMem

theorem forLoop_none {σ : Type} (body : Nat → σ → Option σ) (j : Nat) (hj : ∀ s, body j s = none) :
    ∀ (rem k : Nat) (s : σ), k ≤ j → j < k + rem → forLoop body rem k s = none := by
  intro rem
  induction rem with
  | zero => intro k s h1 h2; omega
  | succ rem ih =>
    intro k s h1 h2
    rw [forLoop]
    by_cases h : k = j
    · subst h; rw [hj]; rfl
    · cases body k s with
      | none => rfl
      | some s' => exact ih (k + 1) s' (by omega) (by omega)

theorem copy_loop (x buf : List Nat) (rem : Nat) :
    ∀ k, k + rem ≤ x.length → k + rem ≤ buf.length →
      forLoop (fun k b => do
        let v ← rd x k
        wr b k v) rem k (x.take k ++ buf.drop k) = some (x.take (k + rem) ++ buf.drop (k + rem)) := by
  induction rem with
  | zero => intro k _ _; rfl
  | succ rem ih =>
    intro k h1 h2
    have hb : buf.drop k = buf[k] :: buf.drop (k + 1) := List.drop_eq_getElem_cons (by omega)
    have hw : wr (x.take k ++ buf.drop k) (k : Int) x[k] = some (x.take (k + 1) ++ buf.drop (k + 1)) := by
      rw [hb, wr_mid _ _ _ _ _ (by simp; omega), List.take_succ_eq_append_getElem (show k < x.length by omega),
        List.append_assoc, List.singleton_append]
    rw [forLoop, bind_of (rd_getElem x k (by omega)), bind_of hw, ih (k + 1) (by omega) (by omega)]
    rw [show k + 1 + rem = k + (rem + 1) by omega]

theorem copyC_ok (x buf : List Nat) (n : Nat) (hx : n ≤ x.length) (hb : n ≤ buf.length) :
    copyC x n buf = some (x.take n ++ buf.drop n) := by
  have := copy_loop x buf n 0 (by omega) (by omega)
  simpa [copyC] using this

theorem copyC_none (x buf : List Nat) (n : Nat) (hx : x.length < n) : copyC x n buf = none := by
  refine forLoop_none _ x.length ?_ n 0 buf (by omega) (by omega)
  intro s
  simp [rd]

theorem negate_loop (xs tail : List Nat) (hl : tail.length = xs.length) (h32 : xs.length * 2 < 2147483648) (rem : Nat) :
    ∀ k, k + rem ≤ xs.length →
      forLoop (fun k b => do
        let v ← rd b k
        let j ← i32 (xs.length + k)
        wr b j (if v = 0 then 1 else 0)) rem k
          (xs ++ ((xs.take k).map (fun v => if v = 0 then 1 else 0) ++ tail.drop k)) =
        some (xs ++ ((xs.take (k + rem)).map (fun v => if v = 0 then 1 else 0) ++ tail.drop (k + rem))) := by
  induction rem with
  | zero => intro k _; rfl
  | succ rem ih =>
    intro k h1
    have hr : ∀ t, rd (xs ++ t) (k : Int) = some xs[k] := by
      intro t
      rw [rd_getElem _ _ (by simp; omega), List.getElem_append_left (by omega)]
    have hb : tail.drop k = tail[k] :: tail.drop (k + 1) := List.drop_eq_getElem_cons (by omega)
    have hi : i32 ((xs.length : Int) + (k : Int)) = some (((xs.length + k : Nat)) : Int) :=
      i32_nat _ (by push_cast; rfl) (by omega)
    have hw : wr (xs ++ ((xs.take k).map (fun v => if v = 0 then 1 else 0) ++ tail.drop k)) ((xs.length + k : Nat) : Int)
        (if xs[k] = 0 then 1 else 0) =
        some (xs ++ ((xs.take (k + 1)).map (fun v => if v = 0 then 1 else 0) ++ tail.drop (k + 1))) := by
      rw [hb, ← List.append_assoc, wr_mid _ _ _ _ _ (by simp; omega),
        List.take_succ_eq_append_getElem (show k < xs.length by omega)]
      simp only [List.map_append, List.map_cons, List.map_nil, List.append_assoc, List.singleton_append]
    rw [forLoop, bind_of (hr _), bind_of hi, bind_of hw, ih (k + 1) (by omega)]
    rw [show k + 1 + rem = k + (rem + 1) by omega]

theorem negateC_ok (xs tail : List Nat) (n : Nat) (hn : xs.length = n) (hl : tail.length = n) (h32 : n * 2 < 2147483648) :
    negateC n (xs ++ tail) = some (inferExample xs) := by
  subst hn
  have := negate_loop xs tail hl h32 xs.length 0 (by omega)
  have hd : tail.drop xs.length = [] := List.drop_of_length_le (by omega)
  simpa [negateC, inferExample, hd] using this

theorem ruleHoldsC_ok (buf : List Nat) (r : List Nat) (h : ∀ l ∈ r, l < buf.length) :
    ruleHoldsC buf r = some (ruleHolds buf r) := by
  induction r with
  | nil => rfl
  | cons l ls ih =>
    have hl := h l (by simp)
    rw [ruleHoldsC, ruleHolds, bind_of (rd_getElem buf l hl), ih (fun j hj => h j (by simp [hj]))]
    have : buf.getD l 0 = buf[l] := by simp [List.getD, hl]
    rw [this]
    split <;> rfl

theorem i32_in {z : Int} (h : z.natAbs < 2147483648) : i32 z = some z := if_pos ⟨by omega, by omega⟩

theorem votes_loop (weights : List (List Int)) (j n : Nat) (row votes : List Int) (hj : weights[j]? = some row)
    (hr : row.length = n) (hv : votes.length = n)
    (hb : ∀ c, c < n → (votes.getD c 0 + row.getD c 0).natAbs < 2147483648) (rem : Nat) :
    ∀ k, k + rem = n →
      forLoop (fun c v => do
        let row ← rd weights j
        let w ← rd row c
        let a ← rd v c
        let s ← i32 (a + w)
        wr v c s) rem k ((List.range k).map (fun c => votes.getD c 0 + row.getD c 0) ++ votes.drop k) =
        some ((List.range n).map fun c => votes.getD c 0 + row.getD c 0) := by
  induction rem with
  | zero =>
    intro k hk
    have : k = n := by omega
    subst this
    rw [forLoop, List.drop_of_length_le (by omega), List.append_nil]
  | succ rem ih =>
    intro k hk
    have hd : votes.drop k = votes[k] :: votes.drop (k + 1) := List.drop_eq_getElem_cons (by omega)
    have h1 : rd weights (j : Int) = some row := by simp [rd, hj]
    have h2 : rd row (k : Int) = some (row.getD k 0) := by
      rw [rd_getElem _ _ (by omega)]; simp [List.getD, show k < row.length by omega]
    have h3 : rd ((List.range k).map (fun c => votes.getD c 0 + row.getD c 0) ++ votes.drop k) (k : Int) =
        some (votes.getD k 0) := by
      rw [hd, rd_mid _ _ _ _ (by simp)]
      simp [List.getD, show k < votes.length by omega]
    have h4 : i32 (votes.getD k 0 + row.getD k 0) = some (votes.getD k 0 + row.getD k 0) := i32_in (hb k (by omega))
    have h5 : wr ((List.range k).map (fun c => votes.getD c 0 + row.getD c 0) ++ votes.drop k) (k : Int)
        (votes.getD k 0 + row.getD k 0) =
        some ((List.range (k + 1)).map (fun c => votes.getD c 0 + row.getD c 0) ++ votes.drop (k + 1)) := by
      rw [hd, wr_mid _ _ _ _ _ (by simp), List.range_succ]
      simp
    rw [forLoop, bind_of h1, bind_of h2, bind_of h3, bind_of h4, bind_of h5]
    exact ih (k + 1) (by omega)

theorem addVotesC_ok (weights : List (List Int)) (j n : Nat) (row votes : List Int) (hj : weights[j]? = some row)
    (hr : row.length = n) (hv : votes.length = n)
    (hb : ∀ c, c < n → (votes.getD c 0 + row.getD c 0).natAbs < 2147483648) :
    addVotesC weights j n votes = some ((List.range n).map fun c => wrap32 (votes.getD c 0 + row.getD c 0)) := by
  have := votes_loop weights j n row votes hj hr hv hb n 0 (by omega)
  simp only [List.range_zero, List.map_nil, List.nil_append, List.drop_zero] at this
  unfold addVotesC
  rw [this]
  congr 1
  apply List.map_congr_left
  intro c hc
  have := hb c (List.mem_range.mp hc)
  exact (wrap32_id (by omega) (by omega)).symm

/-- What the weights of a list of rows can add up to for one class. -/
def absSum (ws : List (List Int)) (c : Nat) : Nat := (ws.map fun w => (w.getD c 0).natAbs).sum

theorem rules_loop (i : Inf) (buf : List Nat) (n : Nat) (hn : i.nClasses = n) :
    ∀ (rs : List (List Nat)) (ws : List (List Int)) (pr : List (List Nat)) (pw : List (List Int)) (act : List Nat)
      (votes : List Int), i.rules = pr ++ rs → i.weights = pw ++ ws → pr.length = pw.length → rs.length = ws.length →
      (∀ r ∈ rs, ∀ l ∈ r, l < buf.length) → (∀ w ∈ ws, w.length = n) → votes.length = n →
      (∀ c, c < n → (votes.getD c 0).natAbs + absSum ws c < 2147483648) →
      forLoop (fun k s => do
        let r ← rd i.rules k
        if ← ruleHoldsC buf r then
          let votes ← addVotesC i.weights k i.nClasses s.2
          return (s.1 ++ [k], votes)
        else return s) rs.length pr.length (act, votes) = some (inferLoop n buf rs ws pr.length act votes) := by
  intro rs
  induction rs with
  | nil => 
    intro ws pr pw act votes _ _ _ _ _ _ _ _
    rw [inferLoop]
    · rfl
    · intro r rs w ws h; simp at h
  | cons r rs ih =>
    intro ws pr pw act votes hR hW hl hlen hlit hw hv hb
    obtain ⟨w, ws, rfl⟩ := List.exists_cons_of_length_eq_add_one hlen.symm
    have h1 : rd i.rules (pr.length : Int) = some r := by rw [hR]; exact rd_mid pr rs r _ rfl
    have h2 := ruleHoldsC_ok buf r (hlit r (by simp))
    have hrow : i.weights[pr.length]? = some w := by rw [hW, hl]; simp
    have e3 : pr.length + 1 = (pr ++ [r]).length := by simp
    rw [List.length_cons, forLoop, inferLoop]
    by_cases h : ruleHolds buf r = true
    · rw [h] at h2
      have hsum : ∀ c, c < n → (votes.getD c 0 + w.getD c 0).natAbs + absSum ws c < 2147483648 := by
        intro c hc
        have := hb c hc
        simp only [absSum, List.map_cons, List.sum_cons] at this ⊢
        omega
      have h4 := addVotesC_ok i.weights pr.length n w votes hrow (hw w (by simp)) hv
        (fun c hc => by have := hsum c hc; omega)
      have hbody : (do
          let r ← rd i.rules (pr.length : Int)
          if ← ruleHoldsC buf r then
            let votes ← addVotesC i.weights pr.length i.nClasses (act, votes).2
            return ((act, votes).1 ++ [pr.length], votes)
          else return (act, votes)) =
          some (act ++ [pr.length], (List.range n).map fun c => wrap32 (votes.getD c 0 + w.getD c 0)) := by
        rw [bind_of h1, bind_of h2, if_pos rfl, hn, bind_of h4]
        rfl
      rw [bind_of hbody, if_pos h, e3]
      refine ih ws (pr ++ [r]) (pw ++ [w]) _ _ (by simp [hR]) (by simp [hW]) (by simp [hl]) (by simpa using hlen)
        (fun r' hr' => hlit r' (by simp [hr'])) (fun w' hw' => hw w' (by simp [hw'])) (by simp) ?_
      intro c hc
      have hs := hsum c hc
      have : ((List.range n).map fun c => wrap32 (votes.getD c 0 + w.getD c 0)).getD c 0 =
          votes.getD c 0 + w.getD c 0 := by
        simp only [List.getD, List.getElem?_map, List.getElem?_range hc, Option.map_some, Option.getD_some]
        exact wrap32_id (by simp only [List.getD] at hs; omega) (by simp only [List.getD] at hs; omega)
      rw [this]
      exact hs
    · have h' : ruleHolds buf r = false := by simpa using h
      rw [h'] at h2
      have hbody : (do
          let r ← rd i.rules (pr.length : Int)
          if ← ruleHoldsC buf r then
            let votes ← addVotesC i.weights pr.length i.nClasses (act, votes).2
            return ((act, votes).1 ++ [pr.length], votes)
          else return (act, votes)) = some (act, votes) := by
        rw [bind_of h1, bind_of h2, if_neg (by simp)]
        rfl
      rw [bind_of hbody, if_neg h, e3]
      refine ih ws (pr ++ [r]) (pw ++ [w]) _ _ (by simp [hR]) (by simp [hW]) (by simp [hl]) (by simpa using hlen)
        (fun r' hr' => hlit r' (by simp [hr'])) (fun w' hw' => hw w' (by simp [hw'])) hv ?_
      intro c hc
      have := hb c hc
      simp only [absSum, List.map_cons, List.sum_cons] at this ⊢
      omega

theorem best_loop (votes : List Int) :
    ∀ (vs pre : List Int) (bk : Nat) (bv : Int), votes = pre ++ vs →
      (forLoop (fun c (b : Nat × Int) => do
        let v ← rd votes c
        if v > b.2 then return (c, v) else return b) vs.length pre.length (bk, bv)).map (·.1) =
        some (inferBest vs pre.length bk bv) := by
  intro vs
  induction vs with
  | nil => intro pre bk bv _; rfl
  | cons v vs ih =>
    intro pre bk bv h
    have h1 : rd votes (pre.length : Int) = some v := by rw [h]; exact rd_mid pre vs v _ rfl
    have e3 : pre.length + 1 = (pre ++ [v]).length := by simp
    rw [List.length_cons, forLoop, inferBest]
    by_cases hv : v > bv
    · have hbody : (do
          let v ← rd votes (pre.length : Int)
          if v > (bk, bv).2 then return (pre.length, v) else return (bk, bv)) = some (pre.length, v) := by
        rw [bind_of h1, if_pos hv]; rfl
      rw [bind_of hbody, if_pos hv, e3]
      exact ih (pre ++ [v]) _ _ (by simp [h])
    · have hbody : (do
          let v ← rd votes (pre.length : Int)
          if v > (bk, bv).2 then return (pre.length, v) else return (bk, bv)) = some (bk, bv) := by
        rw [bind_of h1, if_neg hv]; rfl
      rw [bind_of hbody, if_neg hv, e3]
      exact ih (pre ++ [v]) _ _ (by simp [h])

theorem bestC_ok (n : Nat) (votes : List Int) (hn : 0 < n) (hv : votes.length = n) :
    bestC n votes = some (inferBest votes.tail 1 0 (votes.headD 0)) := by
  cases votes with
  | nil => simp at hv; omega
  | cons v vs =>
    have hl : n - 1 = vs.length := by simp at hv; omega
    have := best_loop (v :: vs) vs [v] 0 v rfl
    unfold bestC
    rw [bind_of (show rd (v :: vs) 0 = some v from rfl), hl]
    simp only [List.length_singleton] at this
    simp only [List.tail_cons, List.headD_cons]
    rw [← this]
    generalize forLoop _ vs.length 1 (0, v) = o
    cases o <;> rfl

/-- The object is as `from_ruleset` and any calls leave it. -/
structure Good (rs : Rules) (i : Inf) : Prop where
  holds : Holds rs i
  active : i.active.Sublist (List.range rs.rules.length)

theorem inferLoop_active_sub (n : Nat) (ex : List Nat) (rs : List (List Nat)) :
    ∀ (ws : List (List Int)) (k : Nat) (act : List Nat) (votes : List Int),
      ∃ t, (inferLoop n ex rs ws k act votes).1 = act ++ t ∧ t.Sublist (List.range' k rs.length) := by
  induction rs with
  | nil =>
    intro ws k act votes
    refine ⟨[], ?_, by simp⟩
    rw [inferLoop]
    · simp
    · intro r rs w ws h; simp at h
  | cons r rs ih =>
    intro ws k act votes
    cases ws with
    | nil =>
      refine ⟨[], ?_, by simp⟩
      rw [inferLoop]
      · simp
      · intro r rs w ws h; simp
    | cons w ws =>
      rw [inferLoop, List.length_cons, List.range'_succ]
      split
      · obtain ⟨t, h1, h2⟩ := ih ws (k + 1) (act ++ [k])
          ((List.range n).map fun i => wrap32 (votes.getD i 0 + w.getD i 0))
        exact ⟨k :: t, by rw [h1]; simp, List.Sublist.cons_cons k h2⟩
      · obtain ⟨t, h1, h2⟩ := ih ws (k + 1) act votes
        exact ⟨t, h1, h2.cons k⟩

theorem good_predict (rs : Rules) (i : Inf) (h : Good rs i) (x : List Nat) : Good rs (i.predict x).1 := by
  refine ⟨holds_predict rs i h.holds x, ?_⟩
  unfold Inf.predict
  dsimp only
  obtain ⟨t, h1, h2⟩ := inferLoop_active_sub i.nClasses (inferExample (x.take i.nLits)) i.rules i.weights 0 []
    (List.replicate i.votes.length 0)
  rw [h1, List.nil_append]
  rw [h.holds.rules] at h2
  rw [List.range_eq_range']
  exact h2

theorem good_explain (rs : Rules) (i : Inf) (h : Good rs i) (y : Nat) : Good rs (i.explain y) :=
  ⟨holds_explain rs i h.holds y, h.active⟩

/-- `predict` on an object in order. -/
theorem predict_ok (rs : Rules) (hf : RulesFit rs) (m : InfM) (hg : Good rs m.inf) (hbuf : m.buf.length = rs.nLits * 2)
    (x : List Nat) (hx : rs.nLits ≤ x.length) :
    m.predict x = some (⟨(m.inf.predict x).1, inferExample (x.take rs.nLits)⟩, (m.inf.predict x).2) := by
  have hh := hg.holds
  have htl : (x.take rs.nLits).length = rs.nLits := by simp; omega
  have h1 := copyC_ok x m.buf rs.nLits hx (by omega)
  have h2 := negateC_ok (x.take rs.nLits) (m.buf.drop rs.nLits) rs.nLits htl (by simp; omega) hf.lits
  have hexl : (inferExample (x.take rs.nLits)).length = 2 * rs.nLits := by
    simp only [inferExample, List.length_append, List.length_map, htl]; omega
  have hvl : (List.replicate rs.nClasses (0 : Int)).length = rs.nClasses := by simp
  have h3 := rules_loop m.inf (inferExample (x.take rs.nLits)) rs.nClasses hh.classes rs.rules rs.weights [] [] []
    (List.replicate rs.nClasses 0) (by simp [hh.rules]) (by simp [hh.weights]) rfl hf.ok.rows.symm
    (fun r hr l hl => by rw [hexl]; exact (hf.ok.lits r hr).2 l hl) hf.ok.weights hvl (by
      intro c hc
      have := hf.sums c hc
      have e : (List.replicate rs.nClasses (0 : Int)).getD c 0 = 0 := by
        simp [List.getD, hc]
      rw [e]
      simpa [absSum] using this)
  rw [← hh.rules, List.length_nil] at h3
  have h3' : rulesC m.inf (inferExample (x.take rs.nLits)) ([], List.replicate rs.nClasses 0) = _ := h3
  have hlen := inferLoop_votes_len rs.nClasses (inferExample (x.take rs.nLits)) m.inf.rules rs.weights 0 []
    (List.replicate rs.nClasses 0) hvl
  have h4 := bestC_ok rs.nClasses _ hf.classes hlen
  unfold InfM.predict
  rw [hh.lits, bind_of h1, bind_of h2, hh.votes, bind_of h3']
  unfold Inf.predict
  dsimp only
  rw [hh.lits, hh.classes, hh.weights, hh.votes]
  by_cases h0 : (inferLoop rs.nClasses (inferExample (x.take rs.nLits)) m.inf.rules rs.weights 0 []
    (List.replicate rs.nClasses 0)).1.length = 0
  · rw [if_pos h0, if_pos h0]; rfl
  · rw [if_neg h0, if_neg h0, bind_of h4]; rfl

theorem inferBest_lt (vs : List Int) : ∀ (k bk : Nat) (bv : Int), bk < k + vs.length →
    inferBest vs k bk bv < k + vs.length := by
  induction vs with
  | nil => intro k bk bv h; exact h
  | cons v vs ih =>
    intro k bk bv h
    rw [inferBest]
    simp only [List.length_cons] at h ⊢
    split
    · have := ih (k + 1) k v (by omega); omega
    · have := ih (k + 1) bk bv (by omega); omega

theorem predict_lt (rs : Rules) (hn : 0 < rs.nClasses) (i : Inf) (hh : Holds rs i) (x : List Nat) :
    (i.predict x).2 < rs.nClasses := by
  have hlen := (holds_predict rs i hh x).votes
  unfold Inf.predict at hlen ⊢
  dsimp only at hlen ⊢
  split
  · rw [hh.empty]; exact hn
  · rename_i h0
    generalize inferLoop _ _ _ _ _ _ _ = r at hlen
    have := inferBest_lt r.2.tail 1 0 (r.2.headD 0) (by simp)
    simp only [List.length_tail] at this
    omega

/-! ### Explanations -/

theorem addAtC_ok (w : Int) (ks : List Nat) :
    ∀ (v : List Int), ks.Nodup → (∀ k ∈ ks, k < v.length) → (∀ k ∈ ks, (v.getD k 0 + w).natAbs < 2147483648) →
      addAtC w ks v = some (addAt v ks w) := by
  induction ks with
  | nil => intro v _ _ _; rfl
  | cons k ks ih =>
    intro v hnd hl hb
    rw [List.nodup_cons] at hnd
    have hk := hl k (by simp)
    have e : addAt v (k :: ks) w = addAt (v.set k (wrap32 (v.getD k 0 + w))) ks w := rfl
    have h1 : rd v (k : Int) = some (v.getD k 0) := by
      rw [rd_getElem _ _ hk]; simp [List.getD, hk]
    have hbk := hb k (by simp)
    have h3 : wr v (k : Int) (v.getD k 0 + w) = some (v.set k (v.getD k 0 + w)) := by
      simp [wr, hk]
    rw [addAtC, bind_of h1, bind_of (i32_in hbk), bind_of h3, e, wrap32_id (by omega) (by omega)]
    refine ih _ hnd.2 (fun j hj => by simpa using hl j (by simp [hj])) ?_
    intro j hj
    have hne : k ≠ j := fun h => hnd.1 (h ▸ hj)
    have : (v.set k (v.getD k 0 + w)).getD j 0 = v.getD j 0 := by
      simp [List.getD, hne]
    rw [this]
    exact hb j (by simp [hj])

/-- The weights for class `y` of some rules, in absolute value. -/
def actSum (i : Inf) (y : Nat) (act : List Nat) : Nat :=
  (act.map fun k => ((i.weights.getD k []).getD y 0).natAbs).sum

theorem addAt_bound (v : List Int) (ks : List Nat) (w : Int) (hk : ks.Nodup) (B : Nat) (l : Nat)
    (hb : (v.getD l 0).natAbs + (w.natAbs + B) < 2147483648) :
    ((addAt v ks w).getD l 0).natAbs + B < 2147483648 := by
  have := addAt_get v ks w hk l
  simp only [List.getD] at hb ⊢
  rw [this]
  split
  · cases h : v[l]? with
    | none => simp; omega
    | some a =>
      rw [h] at hb
      simp only [Option.getD_some, Option.map_some] at hb ⊢
      rw [wrap32_id (by omega) (by omega)]
      omega
  · omega

theorem importanceC_ok (i : Inf) (y : Nat) (hnf : i.featImp = false) (act : List Nat) :
    ∀ (lits feats : List Int),
      (∀ k ∈ act, k < i.rules.length ∧ ∃ row, i.weights[k]? = some row ∧ y < row.length) →
      (i.litImp = true → ∀ r ∈ i.rules, r.Nodup ∧ ∀ l ∈ r, l < lits.length) →
      (∀ l, (lits.getD l 0).natAbs + actSum i y act < 2147483648) →
      importanceC i y act lits feats = some (importanceLoop i y act lits feats) := by
  induction act with
  | nil => intro lits feats _ _ _; rfl
  | cons k ks ih =>
    intro lits feats hk hl hb
    obtain ⟨hkr, row, hrow, hy⟩ := hk k (by simp)
    have h1 : rd i.weights (k : Int) = some row := by simp [rd, hrow]
    have h2 : rd row (y : Int) = some (row.getD y 0) := by
      rw [rd_getElem _ _ hy]; simp [List.getD, hy]
    have ew : i.weights.getD k [] = row := by simp [List.getD, hrow]
    have h3 : rd i.rules (k : Int) = some i.rules[k] := rd_getElem _ _ hkr
    have er : i.rules.getD k [] = i.rules[k] := by simp [List.getD, hkr]
    have hb' : ∀ l, (lits.getD l 0).natAbs + ((row.getD y 0).natAbs + actSum i y ks) < 2147483648 := by
      intro l
      have := hb l
      simp only [actSum, List.map_cons, List.sum_cons, ew] at this ⊢
      exact this
    have hks : ∀ k ∈ ks, k < i.rules.length ∧ ∃ row, i.weights[k]? = some row ∧ y < row.length :=
      fun j hj => hk j (by simp [hj])
    rw [importanceC, bind_of h1, bind_of h2, importanceLoop, ew]
    dsimp only
    generalize row.getD y 0 = w at hb'
    by_cases hex : i.exclNeg = true ∧ w < 1
    · rw [if_pos hex, if_pos hex]
      exact ih lits feats hks hl (fun l => by have := hb' l; omega)
    · rw [if_neg hex, if_neg hex, hnf]
      simp only [Bool.false_eq_true, if_false]
      by_cases hli : i.litImp = true
      · have hrk := hl hli i.rules[k] (List.getElem_mem hkr)
        have h4 := addAtC_ok w i.rules[k] lits hrk.1 hrk.2 (fun l _ => by have := hb' l; omega)
        rw [hli]
        simp only [if_true]
        rw [bind_of (show (some feats : Option (List Int)) = some feats from rfl), bind_of h3, bind_of h4, er]
        refine ih _ feats hks (fun _ => by rw [addAt_length]; exact hl hli) ?_
        intro l
        exact addAt_bound lits i.rules[k] w hrk.1 _ l (hb' l)
      · have hli' : i.litImp = false := by simpa using hli
        rw [hli']
        simp only [Bool.false_eq_true, if_false]
        rw [bind_of (show (some feats : Option (List Int)) = some feats from rfl),
          bind_of (show (some lits : Option (List Int)) = some lits from rfl)]
        exact ih lits feats hks (by rw [hli']; simp) (fun l => by have := hb' l; omega)

theorem sublist_sum_le (f : Nat → Nat) {a b : List Nat} (h : a.Sublist b) : (a.map f).sum ≤ (b.map f).sum := by
  induction h with
  | slnil => simp
  | cons x _ ih => simp only [List.map_cons, List.sum_cons]; omega
  | cons_cons x _ ih => simp only [List.map_cons, List.sum_cons]; omega

theorem range_map_getD (ws : List (List Int)) (y : Nat) :
    ((List.range ws.length).map fun (k : Nat) => ((ws.getD k []).getD y 0).natAbs) = ws.map fun w => (w.getD y 0).natAbs := by
  apply List.ext_getElem
  · simp
  · intro k h1 h2
    have : k < ws.length := by simpa using h1
    simp [List.getD, this]

theorem explain_ok (rs : Rules) (hf : RulesFit rs) (m : InfM) (hg : Good rs m.inf) (y : Nat) (hy : y < rs.nClasses) :
    m.explain y = some ⟨m.inf.explain y, m.buf⟩ := by
  have hh := hg.holds
  have hsum : actSum m.inf y m.inf.active < 2147483648 := by
    have h1 := sublist_sum_le (fun k => ((m.inf.weights.getD k []).getD y 0).natAbs) hg.active
    have h2 := hf.sums y hy
    rw [← hf.ok.rows, hh.weights, range_map_getD] at h1
    simp only [actSum, hh.weights]
    omega
  have hact : ∀ k ∈ m.inf.active, k < m.inf.rules.length ∧ ∃ row, m.inf.weights[k]? = some row ∧ y < row.length := by
    intro k hk
    have : k < rs.rules.length := List.mem_range.mp (hg.active.subset hk)
    rw [hh.rules, hh.weights]
    have hkw : k < rs.weights.length := by rw [hf.ok.rows]; exact this
    exact ⟨this, rs.weights[k], List.getElem?_eq_getElem hkw, by rw [hf.ok.weights _ (List.getElem_mem hkw)]; exact hy⟩
  have hnil : ∀ (n l : Nat), ((List.replicate n (0 : Int)).getD l 0) = 0 := by
    intro n l
    simp only [List.getD, List.getElem?_replicate]
    split <;> rfl
  unfold InfM.explain Inf.explain
  by_cases hli : m.inf.litImp = true
  · have := importanceC_ok m.inf y hh.noFeat m.inf.active (List.replicate m.inf.impLits.length 0)
      (if m.inf.featImp then List.replicate m.inf.impFeats.length 0 else m.inf.impFeats) hact
      (by
        intro _ r hr
        rw [hh.rules] at hr
        rw [List.length_replicate, hh.imps hli]
        exact hf.ok.lits r hr)
      (by intro l; rw [hnil]; simpa using hsum)
    rw [if_pos hli, bind_of this]
    rfl
  · have hli' : m.inf.litImp = false := by simpa using hli
    have hnf : ¬ m.inf.featImp = true := by rw [hh.noFeat]; simp
    rw [if_neg hli, if_neg hnf]
    have key : ∀ (lits feats : List Int) (act : List Nat), act.Sublist m.inf.active →
        importanceC m.inf y act lits feats = some (importanceLoop m.inf y act lits feats) := by
      intro lits feats act
      induction act with
      | nil => intro _; rfl
      | cons k ks ih =>
        intro hs
        obtain ⟨hkr, row, hrow, hy⟩ := hact k (hs.subset (by simp))
        have h1 : rd m.inf.weights (k : Int) = some row := by simp [rd, hrow]
        have h2 : rd row (y : Int) = some (row.getD y 0) := by
          rw [rd_getElem _ _ hy]; simp [List.getD, hy]
        have ew : m.inf.weights.getD k [] = row := by simp [List.getD, hrow]
        have hks := ih ((List.sublist_cons_self k ks).trans hs)
        rw [importanceC, bind_of h1, bind_of h2, importanceLoop, ew, hh.noFeat, hli']
        simp only [Bool.false_eq_true, if_false]
        rw [bind_of (show (some feats : Option (List Int)) = some feats from rfl),
          bind_of (show (some lits : Option (List Int)) = some lits from rfl), hks]
        split <;> rfl
    rw [bind_of (key m.inf.impLits m.inf.impFeats m.inf.active (List.Sublist.refl _))]
    rfl

/-- A class without weights is read outside the row of the first active rule. -/
theorem explain_none (rs : Rules) (hf : RulesFit rs) (m : InfM) (hg : Good rs m.inf) (y : Nat) (hy : rs.nClasses ≤ y)
    (ha : m.inf.active ≠ []) : m.explain y = none := by
  have hh := hg.holds
  unfold InfM.explain
  generalize (if m.inf.litImp = true then List.replicate m.inf.impLits.length 0 else m.inf.impLits) = lits
  generalize (if m.inf.featImp = true then List.replicate m.inf.impFeats.length 0 else m.inf.impFeats) = feats
  cases hact : m.inf.active with
  | nil => exact absurd hact ha
  | cons k ks =>
    have hk : k < rs.rules.length := List.mem_range.mp (hg.active.subset (by rw [hact]; simp))
    have hkw : k < m.inf.weights.length := by rw [hh.weights, hf.ok.rows]; exact hk
    have hlen : m.inf.weights[k].length = rs.nClasses := hf.ok.weights _ (by rw [← hh.weights]; exact List.getElem_mem hkw)
    rw [importanceC, bind_of (rd_getElem _ _ hkw)]
    have : rd m.inf.weights[k] (y : Int) = none := by simp [rd]; omega
    rw [this]
    rfl

theorem explain_idle (m : InfM) (y : Nat) (ha : m.inf.active = []) : m.explain y = some ⟨m.inf.explain y, m.buf⟩ := by
  obtain ⟨i, b⟩ := m
  cases i
  simp only at ha
  subst ha
  rfl

/-! ### Calls on a predictor -/

theorem new_eq (a b c : Bool) (n k : Nat) (e : Int) (junk : Nat → Nat) (h : n * 2 < 2147483648) :
    InfM.new a b c n k e junk =
      some (match Inf.new a b c n k e with
        | .error s => .error s
        | .ok i => .ok ⟨i, (List.range (n * 2)).map junk⟩) := by
  unfold InfM.new
  rw [bind_of (i32_nat (n * 2) (by push_cast; rfl) h)]
  cases Inf.new a b c n k e <;> rfl

theorem from_eq (rs : Rules) (s : String) (excl : Bool) (junk : Nat → Nat) (h : rs.nLits * 2 < 2147483648) :
    PredM.fromRuleset rs s excl junk =
      some (match Predictor.fromRuleset rs s excl with
        | .error s => .error s
        | .ok p => .ok ⟨p, (List.range (rs.nLits * 2)).map junk⟩) := by
  unfold PredM.fromRuleset Predictor.fromRuleset
  cases parseExpl s with
  | error e => rfl
  | ok ex =>
    dsimp only
    rw [bind_of (new_eq _ _ _ _ _ _ junk h)]
    cases Inf.new (backendFlags ex excl).1 (backendFlags ex excl).2.1 (backendFlags ex excl).2.2 rs.nLits rs.nClasses (-1) <;>
      rfl

theorem explainTarget_eq (p : Predictor) (t : Option Target) :
    p.explainTarget t = if p.expl = .none then (p, .error "ValueError")
      else match explainClass p t with
        | .error e => (p, .error e)
        | .ok k => ({ p with inf := p.inf.explain k }, .ok (p.explanation (p.inf.explain k))) := rfl

theorem invName_lt (names : List String) : ∀ (k j : Nat) (t : String), invName names k t = some j →
    j < k + names.length := by
  induction names with
  | nil => intro k j t h; simp [invName] at h
  | cons n ns ih =>
    intro k j t h
    rw [invName] at h
    simp only [List.length_cons]
    split at h
    · rename_i j' hj'
      have := ih (k + 1) j' t hj'
      simp only [Option.some.injEq] at h
      omega
    · split at h
      · simp only [Option.some.injEq] at h; omega
      · simp at h

/-- A predictor as proper calls leave it. -/
structure Inv (rs : Rules) (q : PredM) : Prop where
  good : Good rs q.p.inf
  buf : q.buf.length = rs.nLits * 2
  last : ∀ k, q.p.last = some k → k < rs.nClasses
  names : ∀ ns, q.p.names = some ns → ns.length ≤ rs.nClasses

theorem explainLoop_ok (rs : Rules) (hf : RulesFit rs) (p : Predictor) (ks : List Nat) :
    ∀ (m : InfM), Good rs m.inf → (∀ k ∈ ks, k < rs.nClasses) →
      PredM.explainLoop p ks m = some (⟨(p.explainLoop ks m.inf).1, m.buf⟩, (p.explainLoop ks m.inf).2) ∧
      Good rs (p.explainLoop ks m.inf).1 := by
  induction ks with
  | nil => intro m hg _; exact ⟨rfl, hg⟩
  | cons k ks ih =>
    intro m hg hk
    have h1 := explain_ok rs hf m hg k (hk k (by simp))
    obtain ⟨h2, h3⟩ := ih ⟨m.inf.explain k, m.buf⟩ (good_explain rs _ hg k) (fun j hj => hk j (by simp [hj]))
    refine ⟨?_, h3⟩
    rw [PredM.explainLoop, bind_of h1, bind_of h2]
    rfl

theorem call_ok (rs : Rules) (hf : RulesFit rs) (q : PredM) (hq : Inv rs q) (c : Call) (hc : Proper rs c) :
    ∃ b, callC q c = some (⟨afterCall q.p c, b⟩, answer q.p c) ∧ Inv rs ⟨afterCall q.p c, b⟩ := by
  cases c with
  | predict x =>
    have h1 := predict_ok rs hf q.back hq.good hq.buf x hc
    refine ⟨inferExample (x.take rs.nLits), ?_, ?_⟩
    · have : q.predict x = some (⟨(q.p.predict x).1, inferExample (x.take rs.nLits)⟩, (q.p.predict x).2) := by
        unfold PredM.predict
        rw [bind_of h1]
        rfl
      simp only [callC, this, Option.map_some]
      rfl
    · refine ⟨good_predict rs _ hq.good x, ?_, ?_, hq.names⟩
      · have hx : rs.nLits ≤ x.length := hc
        simp only [inferExample, List.length_append, List.length_map, List.length_take]
        omega
      · intro k hk
        have : (q.p.inf.predict x).2 = k := Option.some.inj hk
        rw [← this]
        exact predict_lt rs hf.classes _ hq.good.holds x
  | explain t =>
    by_cases he : q.p.expl = .none
    · refine ⟨q.buf, ?_, ?_⟩
      · simp only [callC, PredM.explainTarget, afterCall, answer, explainTarget_eq, if_pos he, Option.map_some]
      · simp only [afterCall, explainTarget_eq, if_pos he]
        exact hq
    · cases hk : explainClass q.p t with
      | error e =>
        refine ⟨q.buf, ?_, ?_⟩
        · simp only [callC, PredM.explainTarget, afterCall, answer, explainTarget_eq, if_neg he, hk, Option.map_some]
        · simp only [afterCall, explainTarget_eq, if_neg he, hk]
          exact hq
      | ok k =>
        have hlt : k < rs.nClasses := by
          unfold explainClass at hk
          cases t with
          | none =>
            cases hl : q.p.last with
            | none => rw [hl] at hk; cases hk
            | some j => rw [hl] at hk; cases hk; exact hq.last _ hl
          | some t =>
            cases hn : q.p.names with
            | none =>
              rw [hn] at hk
              cases t with
              | idx j => cases hk; exact hc
              | name s => cases hk
            | some ns =>
              rw [hn] at hk
              cases t with
              | idx j => cases hk
              | name s =>
                dsimp only at hk
                split at hk
                · rename_i j hj
                  cases hk
                  have h1 := invName_lt ns 0 k s hj
                  have h2 := hq.names ns hn
                  omega
                · cases hk
        have h1 := explain_ok rs hf q.back hq.good k hlt
        refine ⟨q.buf, ?_, ?_⟩
        · simp only [callC, PredM.explainTarget, afterCall, answer, explainTarget_eq, if_neg he, hk]
          rw [bind_of h1]
          rfl
        · simp only [afterCall, explainTarget_eq, if_neg he, hk]
          exact ⟨good_explain rs _ hq.good k, hq.buf, hq.last, hq.names⟩
  | explainAll =>
    by_cases he : q.p.expl = .none
    · refine ⟨q.buf, ?_, ?_⟩
      · simp only [callC, PredM.explainAll, afterCall, answer, Predictor.explainAll, if_pos he, Option.map_some]
      · simp only [afterCall, Predictor.explainAll, if_pos he]
        exact hq
    · obtain ⟨h1, h2⟩ := explainLoop_ok rs hf q.p (List.range q.p.inf.nClasses) q.back hq.good (by
        intro k hk; rw [← hq.good.holds.classes]; exact List.mem_range.mp hk)
      refine ⟨q.buf, ?_, ?_⟩
      · simp only [callC, PredM.explainAll, afterCall, answer, Predictor.explainAll, if_neg he]
        rw [bind_of h1]
        rfl
      · simp only [afterCall, Predictor.explainAll, if_neg he]
        exact ⟨h2, hq.buf, hq.last, hq.names⟩
  | setNames ns =>
    exact ⟨q.buf, rfl, hq.good, hq.buf, hq.last, fun ns' h => by cases h; exact hc⟩

theorem calls_ok (rs : Rules) (hf : RulesFit rs) (cs : List Call) :
    ∀ (q : PredM), Inv rs q → (∀ c ∈ cs, Proper rs c) →
      ∃ b, callsC q cs = some (⟨afterCalls q.p cs, b⟩, answers q.p cs) ∧ Inv rs ⟨afterCalls q.p cs, b⟩ := by
  induction cs with
  | nil => intro q hq _; exact ⟨q.buf, rfl, hq⟩
  | cons c cs ih =>
    intro q hq hc
    obtain ⟨b1, h1, h2⟩ := call_ok rs hf q hq c (hc c (by simp))
    obtain ⟨b2, h3, h4⟩ := ih _ h2 (fun c' h' => hc c' (by simp [h']))
    refine ⟨b2, ?_, h4⟩
    simp only [callsC, h1, h3, Option.map_some]
    rfl

theorem inv_new (rs : Rules) (s : String) (excl : Bool) (p : Predictor)
    (h : Predictor.fromRuleset rs s excl = .ok p) (junk : Nat → Nat) :
    Inv rs ⟨p, (List.range (rs.nLits * 2)).map junk⟩ := by
  obtain ⟨h1, h2, h3, -⟩ := fromRuleset_holds rs s excl p h
  have ha : p.inf.active = [] := by
    unfold Predictor.fromRuleset at h
    cases hp : parseExpl s with
    | error e => rw [hp] at h; cases h
    | ok ex =>
      rw [hp] at h
      dsimp only at h
      unfold Inf.new at h
      split at h
      · cases h
      · rename_i i hi
        split at hi
        · cases hi
        · cases hi; cases h; rfl
  refine ⟨⟨h1, ?_⟩, by simp, ?_, ?_⟩
  · dsimp only; rw [ha]; exact List.nil_sublist _
  · intro k hk; dsimp only at hk; rw [h3] at hk; cases hk
  · intro k hk; dsimp only at hk; rw [h2] at hk; cases hk

end GT.InferMem
