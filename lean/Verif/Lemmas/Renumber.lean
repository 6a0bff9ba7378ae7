import Verif.Spec.Renumber
import Verif.Lemmas.OnePatch
import Verif.Lemmas.Recode
import Verif.Props.Feedback
import Mathlib.Data.List.GetD
import Mathlib.Tactic.SplitIfs

/-! # Lemmas: the numbering of the classes does not matter (C101) -/

namespace GT.Renumber
open GT GT.Spec GT.OnePatch

variable (r : Renumbering)

theorem len {m : Nat} (hr : r.Of m) : r.order.length = m := by simpa using hr.length_eq

theorem nodup {m : Nat} (hr : r.Of m) : r.order.Nodup := hr.nodup_iff.2 List.nodup_range

theorem mem {m : Nat} (hr : r.Of m) (k : Nat) : k ∈ r.order ↔ k < m := by rw [hr.mem_iff]; exact List.mem_range

theorem row_length {α : Type} {m : Nat} (hr : r.Of m) (z : α) (v : List α) : (r.row z v).length = m := by
  simp [Renumbering.row, len r hr]

theorem row_getD {α : Type} {m : Nat} (hr : r.Of m) (z : α) (v : List α) (hv : v.length = m) (k : Nat) :
    (r.row z v).getD (r.new k) z = v.getD k z := by
  simp only [Renumbering.row, Renumbering.new]
  by_cases hk : k < m
  · have hi : r.order.idxOf k < r.order.length := List.idxOf_lt_length_of_mem ((mem r hr k).2 hk)
    rw [List.getD_eq_getElem _ _ (by simpa using hi), List.getElem_map, List.getElem_idxOf hi]
  · have hi : r.order.idxOf k = r.order.length := List.idxOf_eq_length (fun h => hk ((mem r hr k).1 h))
    rw [List.getD_eq_default _ _ (by simp [hi]), List.getD_eq_default _ _ (by omega)]

theorem row_set {α : Type} {m : Nat} (hr : r.Of m) (z : α) (v : List α) (hv : v.length = m) (k : Nat) (a : α) :
    (r.row z v).set (r.new k) a = r.row z (v.set k a) := by
  apply List.ext_getElem
  · simp [Renumbering.row]
  · intro j h1 h2
    simp only [List.length_set, row_length r hr] at h1
    have hj : j < r.order.length := by rw [len r hr]; exact h1
    have hlt : r.order[j] < m := (mem r hr _).1 (List.getElem_mem hj)
    rw [List.getElem_set]
    simp only [Renumbering.row, Renumbering.new, List.getElem_map]
    rw [List.getD_eq_getElem _ _ (by rw [hv]; exact hlt), List.getD_eq_getElem _ _ (by rw [List.length_set, hv]; exact hlt), List.getElem_set]
    by_cases hk : k = r.order[j]
    · rw [if_pos hk, if_pos]
      rw [hk]
      exact (nodup r hr).idxOf_getElem j hj
    · rw [if_neg hk, if_neg]
      intro he
      apply hk
      subst he
      exact (List.getElem_idxOf hj).symm

theorem row_map {α β : Type} {m : Nat} (hr : r.Of m) (z : α) (y : β) (f : α → β) (v : List α) (hv : v.length = m) :
    (r.row z v).map f = r.row y (v.map f) := by
  simp only [Renumbering.row, List.map_map]
  refine List.map_congr_left fun i hi => ?_
  have : i < v.length := by rw [hv]; exact (mem r hr i).1 hi
  simp [this]

theorem row_zipWith {m : Nat} (hr : r.Of m) (f : Int → Int → Int) (v w : List Int) (hv : v.length = m) (hw : w.length = m) :
    List.zipWith f (r.row 0 v) (r.row 0 w) = r.row 0 (List.zipWith f v w) := by
  simp only [Renumbering.row, List.zipWith_map, List.zipWith_self]
  refine List.map_congr_left fun i hi => ?_
  have hi := (mem r hr i).1 hi
  have h1 : i < v.length := by omega
  have h2 : i < w.length := by omega
  simp [h1, h2]

theorem row_replicate {α : Type} {m : Nat} (hr : r.Of m) (z : α) : r.row z (List.replicate m z) = List.replicate m z := by
  apply List.ext_getElem
  · simp [Renumbering.row, len r hr]
  · intro i h1 h2
    simp only [Renumbering.row, List.getElem_map, List.getElem_replicate]
    by_cases h : r.order[i]'(by simpa [Renumbering.row] using h1) < m
    · simp [h]
    · simp [h]

theorem votes_length {C : Type} (out : C → Nat) (w : C → List Int) {m : Nat} (cs : List C) (hc : ∀ c ∈ cs, (w c).length = m)
    (v : List Int) (hv : v.length = m) :
    (cs.foldl (fun v c => if out c = 1 then addVotes v (w c) else v) v).length = m := by
  induction cs generalizing v with
  | nil => exact hv
  | cons c cs ih =>
    simp only [List.foldl_cons]
    apply ih (fun c' h => hc c' (List.mem_cons_of_mem _ h))
    split
    · simp [addVotes, hv, hc c (List.mem_cons_self ..)]
    · exact hv

theorem votes_row {C : Type} (out : C → Nat) (w : C → List Int) (f : C → C) (ho : ∀ c, out (f c) = out c) (hw : ∀ c, w (f c) = r.row 0 (w c))
    {m : Nat} (hr : r.Of m) (cs : List C) (hc : ∀ c ∈ cs, (w c).length = m) (v : List Int) (hv : v.length = m) :
    (cs.map f).foldl (fun v c => if out c = 1 then addVotes v (w c) else v) (r.row 0 v) =
      r.row 0 (cs.foldl (fun v c => if out c = 1 then addVotes v (w c) else v) v) := by
  induction cs generalizing v with
  | nil => rfl
  | cons c cs ih =>
    have hcm := hc c (List.mem_cons_self ..)
    simp only [List.map_cons, List.foldl_cons, ho, hw]
    split
    · rw [← ih (fun c' h => hc c' (List.mem_cons_of_mem _ h)) _ (by simp [addVotes, hv, hcm])]
      congr 1
      exact row_zipWith r hr _ v (w c) hv hcm
    · exact ih (fun c' h => hc c' (List.mem_cons_of_mem _ h)) v hv

theorem count_row {C : Type} (out : C → Nat) (w : C → List Int) (f : C → C) (ho : ∀ c, out (f c) = out c) (hw : ∀ c, w (f c) = r.row 0 (w c))
    {m : Nat} (hr : r.Of m) (cs : List C) (hc : ∀ c ∈ cs, (w c).length = m) :
    (cs.map f).foldl (fun v c => if out c = 1 then addVotes v (w c) else v) (List.replicate m 0) =
      r.row 0 (cs.foldl (fun v c => if out c = 1 then addVotes v (w c) else v) (List.replicate m 0)) := by
  have := votes_row r out w f ho hw hr cs hc (List.replicate m 0) (by simp)
  rwa [row_replicate r hr] at this

/-! ## Machines -/

/-- The feedback with renumbered classes. -/
def feedback (fb : Feedback) : Feedback := ⟨r.new fb.posClass, fb.posProb, r.new fb.negClass, fb.negProb⟩

/-- A kind of block that does not look at the numbers of the classes. -/
structure Blind {B E : Type} (be : Backend B E) (m : Nat) (mk : B → B) (ok : B → Prop) : Prop where
  train : ∀ b x, ok b → be.trainExample (mk b) x = mk (be.trainExample b x)
  eval : ∀ b x, ok b → be.evalExample (mk b) x = mk (be.evalExample b x)
  update : ∀ b x fb, ok b → be.trainUpdate (mk b) x (feedback r fb) = mk (be.trainUpdate b x fb)
  votes : ∀ b, ok b → be.votes (mk b) = r.row 0 (be.votes b)
  trainVotes : ∀ b x, ok b → (be.votes (be.trainExample b x)).length = m
  evalVotes : ∀ b x, ok b → (be.votes (be.evalExample b x)).length = m
  okTrain : ∀ b x, ok b → ok (be.trainExample b x)
  okEval : ∀ b x, ok b → ok (be.evalExample b x)
  okUpdate : ∀ b x fb, ok b → ok (be.trainUpdate b x fb)
  trainable : ∀ b, be.trainable (mk b) = be.trainable b

/-- The two machines at any time. -/
structure Pair {B : Type} (m : Nat) (mk : B → B) (ok : B → Prop) (e d : Exec B) : Prop where
  fb : SameFb r e.fb d.fb
  classes : e.fb.nClasses = m
  len : e.fb.votes.length = m
  ok : ∀ b ∈ e.blocks, ok b
  blocks : d.blocks = e.blocks.map mk

theorem register_same {m : Nat} (hr : r.Of m) {f f' : FB} (h : SameFb r f f') (hn : f.nClasses = m) (hl : f.votes.length = m) (v : List Int)
    (hv : v.length = m) : SameFb r (f.register v) (f'.register (r.row 0 v)) ∧ (f.register v).votes.length = m := by
  obtain ⟨h1, h2, h3, h5⟩ := h
  refine ⟨⟨h1, h2, h3, ?_⟩, ?_⟩
  · simp only [FB.register, h1, hn, h5]
    have e1 : (r.row 0 f.votes).drop m = [] := List.drop_eq_nil_of_le (by rw [row_length r hr])
    have e2 : f.votes.drop m = [] := List.drop_eq_nil_of_le (by rw [hl])
    rw [List.take_of_length_le (by rw [row_length r hr]), List.take_of_length_le (by rw [hl]), e1, e2, List.append_nil, List.append_nil]
    exact row_zipWith r hr _ _ _ hl hv
  · simp only [FB.register, hn, List.length_append, List.length_zipWith, List.length_take, List.length_drop, hl, hv]
    omega

theorem reset_same {m : Nat} (hr : r.Of m) {f f' : FB} (h : SameFb r f f') (hl : f.votes.length = m) :
    SameFb r f.reset f'.reset ∧ f.reset.votes.length = m := by
  obtain ⟨h1, h2, h3, h5⟩ := h
  refine ⟨⟨h1, h2, h3, ?_⟩, by simp [FB.reset, hl]⟩
  simp only [FB.reset, h5, row_length r hr, hl]
  exact (row_replicate r hr 0).symm

theorem loop_same {B : Type} {m : Nat} (hr : r.Of m) (mk : B → B) (f : B → B) (votes : B → List Int) (bs : List B)
    (hf : ∀ b ∈ bs, f (mk b) = mk (f b)) (hv : ∀ b ∈ bs, votes (mk (f b)) = r.row 0 (votes (f b)))
    (hl : ∀ b ∈ bs, (votes (f b)).length = m) (fb fb' : FB)
    (h : SameFb r fb fb') (hn : fb.nClasses = m) (hm : fb.votes.length = m) :
    SameFb r (exampleLoop f votes bs fb).2 (exampleLoop f votes (bs.map mk) fb').2 ∧
    (exampleLoop f votes bs fb).2.nClasses = m ∧ (exampleLoop f votes bs fb).2.votes.length = m := by
  induction bs generalizing fb fb' with
  | nil => exact ⟨h, hn, hm⟩
  | cons b bs ih =>
    simp only [List.map_cons, exampleLoop]
    rw [hf b (List.mem_cons_self ..), hv b (List.mem_cons_self ..)]
    obtain ⟨h1, h2⟩ := register_same r hr h hn hm _ (hl b (List.mem_cons_self ..))
    exact ih (fun b' h' => hf b' (List.mem_cons_of_mem _ h')) (fun b' h' => hv b' (List.mem_cons_of_mem _ h'))
      (fun b' h' => hl b' (List.mem_cons_of_mem _ h')) _ _ h1 hn h2

/-- The weights of the classes when the negative class is drawn. -/
def weights (f : FB) (label : Nat) : List Rat := (f.votes.map (negWeight f.threshold)).set label 0

theorem weights_row {m : Nat} (hr : r.Of m) {f f' : FB} (h : SameFb r f f') (hl : f.votes.length = m) (label : Nat) :
    weights f' (r.new label) = r.row 0 (weights f label) ∧ (weights f label).length = m := by
  obtain ⟨h1, h2, h3, h5⟩ := h
  refine ⟨?_, by simpa [weights] using hl⟩
  unfold weights
  rw [h5, h2, row_map r hr 0 0 _ _ hl, row_set r hr 0 _ (by simpa using hl)]

theorem process_same {m : Nat} (hr : r.Of m) (smp smp' : List Rat → Rat → Nat) {f f' : FB} (h : SameFb r f f')
    (hl : f.votes.length = m) (label : Nat)
    (hneg : smp' (r.row 0 (weights f label)) f'.rng.next.1 = r.new (smp (weights f label) f.rng.next.1)) :
    SameFb r (f.process smp label) (f'.process smp' (r.new label)) ∧
    (f'.process smp' (r.new label)).feedback = feedback r (f.process smp label).feedback := by
  obtain ⟨hws, hwl⟩ := weights_row r hr h hl label
  obtain ⟨h1, h2, h3, h5⟩ := h
  unfold weights at hws hwl hneg
  rw [← hws] at hneg
  refine ⟨⟨h1, h2, ?_, h5⟩, ?_⟩
  · simp only [FB.process, h3]
  · simp only [FB.process, FB.feedback, feedback]
    rw [hneg, hws, row_getD r hr 0 _ hwl, h5, row_getD r hr 0 _ hl, h2]

theorem process_classes (smp : List Rat → Rat → Nat) (f : FB) (label : Nat) :
    (f.process smp label).nClasses = f.nClasses ∧ (f.process smp label).votes = f.votes := ⟨rfl, rfl⟩

variable {B E : Type} {be : Backend B E} {m : Nat} {mk : B → B} {ok : B → Prop}

theorem loop_rng (be : Backend B E) (x : E) (e : Exec B) :
    (exampleLoop (be.trainExample · x) be.votes e.blocks e.fb.reset).2.rng = e.fb.rng := by
  rw [exampleLoop_frame]; rfl

theorem loop_threshold (be : Backend B E) (x : E) (e : Exec B) :
    (exampleLoop (be.trainExample · x) be.votes e.blocks e.fb.reset).2.threshold = e.fb.threshold := by
  rw [exampleLoop_frame]; rfl

theorem train_pair (hb : Blind r be m mk ok) (hr : r.Of m) (smp smp' : List Rat → Rat → Nat) {e d : Exec B} (h : Pair r m mk ok e d) (x : E) (y : Nat)
    (hneg : smp' (r.row 0 (e.trainOne be smp x y).fb.updProb) d.fb.rng.next.1 = r.new (smp (e.trainOne be smp x y).fb.updProb e.fb.rng.next.1)) :
    Pair r m mk ok (e.trainOne be smp x y) (d.trainOne be smp' x (r.new y)) := by
  obtain ⟨c1, c2⟩ := reset_same r hr h.fb h.len
  obtain ⟨l1, l2, l3⟩ := loop_same r hr mk (be.trainExample · x) be.votes e.blocks (fun b hb' => hb.train b x (h.ok b hb'))
    (fun b hb' => hb.votes _ (hb.okTrain _ _ (h.ok b hb'))) (fun b hb' => hb.trainVotes b x (h.ok b hb')) _ _ c1 h.classes c2
  rw [← h.blocks] at l1
  obtain ⟨p1, p2⟩ := process_same r hr smp smp' l1 l3 y (by
    rw [loop_rng be x d, loop_rng be x e]; exact hneg)
  refine ⟨p1, l2, l3, ?_, ?_⟩
  · intro b hb'
    simp only [Exec.trainOne, exampleLoop_blocks, List.map_map] at hb'
    obtain ⟨b', h', rfl⟩ := List.mem_map.1 hb'
    simp only [Function.comp_apply]
    split
    · exact hb.okUpdate _ _ _ (hb.okTrain _ _ (h.ok b' h'))
    · exact hb.okTrain _ _ (h.ok b' h')
  · simp only [Exec.trainOne, exampleLoop_blocks, List.map_map]
    rw [p2, h.blocks, List.map_map]
    refine List.map_congr_left fun b hb' => ?_
    simp only [Function.comp_apply]
    rw [hb.train b x (h.ok b hb'), hb.trainable]
    split
    · exact hb.update _ _ _ (hb.okTrain _ _ (h.ok b hb'))
    · rfl

theorem eval_pair (hb : Blind r be m mk ok) (hr : r.Of m) {e d : Exec B} (h : Pair r m mk ok e d) (x : E) :
    Pair r m mk ok (e.evalOne be x).1 (d.evalOne be x).1 := by
  obtain ⟨c1, c2⟩ := reset_same r hr h.fb h.len
  obtain ⟨l1, l2, l3⟩ := loop_same r hr mk (be.evalExample · x) be.votes e.blocks (fun b hb' => hb.eval b x (h.ok b hb'))
    (fun b hb' => hb.votes _ (hb.okEval _ _ (h.ok b hb'))) (fun b hb' => hb.evalVotes b x (h.ok b hb')) _ _ c1 h.classes c2
  rw [← h.blocks] at l1
  refine ⟨l1, l2, l3, ?_, ?_⟩
  · intro b hb'
    rw [evalOne_blocks] at hb'
    obtain ⟨b', h', rfl⟩ := List.mem_map.1 hb'
    exact hb.okEval _ _ (h.ok b' h')
  · rw [evalOne_blocks, evalOne_blocks, h.blocks, List.map_map, List.map_map]
    exact List.map_congr_left fun b hb' => hb.eval b x (h.ok b hb')

/-! ## The numbers -/

theorem row_get {m : Nat} {α : Type} [Zero α] (hr : r.Of m) (v : List α) (hv : v.length = m) (k : Nat) (hk : k < m) : (r.row 0 v)[r.new k]? = v[k]? := by
  have hi : r.order.idxOf k < r.order.length := List.idxOf_lt_length_of_mem ((mem r hr k).2 hk)
  have h1 : r.new k < (r.row 0 v).length := by rw [row_length r hr, ← len r hr]; exact hi
  have h2 : k < v.length := by omega
  rw [List.getElem?_eq_getElem h1, List.getElem?_eq_getElem h2]
  have := row_getD r hr 0 v hv k
  rw [List.getD_eq_getElem _ _ h1, List.getD_eq_getElem _ _ h2] at this
  rw [this]

theorem sum_row {m : Nat} (hr : r.Of m) (ws : List Rat) (hw : ws.length = m) : (r.row 0 ws).sum = ws.sum := by
  have h1 : ws = (List.range m).map (ws.getD · 0) := by
    apply List.ext_getElem
    · simp [hw]
    · intro i h2 h3
      simp [h2]
  have h2 : (r.row 0 ws).Perm ws := by
    conv => rhs; rw [h1]
    exact hr.map _
  exact h2.sum_eq

theorem take_sum (ws : List Rat) (hn : ∀ w ∈ ws, 0 ≤ w) {i : Nat} {w : Rat} (hw : ws[i]? = some w) :
    0 ≤ (ws.take i).sum ∧ (ws.take i).sum + w ≤ ws.sum := by
  refine ⟨List.sum_nonneg fun w hw => hn w (List.mem_of_mem_take hw), ?_⟩
  have e : ws.sum = (ws.take i).sum + (ws.drop i).sum := by rw [← List.sum_append, List.take_append_drop]
  obtain ⟨hlt, hw'⟩ := List.getElem?_eq_some_iff.mp hw
  have e2 : ws.drop i = w :: ws.drop (i + 1) := by rw [List.drop_eq_getElem_cons hlt, hw']
  have h3 : 0 ≤ (ws.drop (i + 1)).sum := List.sum_nonneg fun w hw => hn w (List.mem_of_mem_drop hw)
  rw [e, e2, List.sum_cons]; linarith

/-- The class that is picked, and where its interval lies. -/
theorem loop_interval (ws : List Rat) (t : Rat) (k : Nat) (ht : 0 < t) (hs : t ≤ ws.sum) :
    ∃ i w, discreteLoop ws t k = k + i ∧ ws[i]? = some w ∧ (ws.take i).sum < t ∧ t ≤ (ws.take i).sum + w := by
  induction ws generalizing t k with
  | nil => simp at hs; linarith
  | cons a ws ih =>
    rw [discreteLoop]
    split
    · rename_i h; exact ⟨0, a, by simp, by simp, by simpa using ht, by simpa using h⟩
    · rename_i h
      push Not at h
      obtain ⟨i, w, e, hw, h1, h2⟩ := ih (t - a) (k + 1) (by linarith) (by simp at hs; linarith)
      refine ⟨i + 1, w, by rw [e]; omega, by simpa using hw, ?_, ?_⟩ <;>
        simp only [List.take_succ_cons, List.sum_cons] <;> linarith

theorem sample_interval (ws : List Rat) (hS : 0 < ws.sum) (u : Rat) (h0 : 0 < u) (h1 : u ≤ 1) :
    ∃ w, ws[discreteSample ws u]? = some w ∧ shareStart ws (discreteSample ws u) < u ∧
      u ≤ shareStart ws (discreteSample ws u) + w / ws.sum := by
  obtain ⟨i, w, e, hw, h2, h3⟩ := loop_interval ws (u * ws.sum) 0 (by positivity) (by nlinarith)
  have e' : discreteSample ws u = i := by unfold discreteSample; rw [e]; omega
  rw [e']
  refine ⟨w, hw, ?_, ?_⟩
  · unfold shareStart; rw [div_lt_iff₀ hS]; exact h2
  · unfold shareStart; rw [← add_div, le_div_iff₀ hS]; exact h3

theorem interval_sample (ws : List Rat) (hn : ∀ w ∈ ws, 0 ≤ w) (hS : 0 < ws.sum) {k : Nat} {w : Rat} (hw : ws[k]? = some w) (u : Rat)
    (h0 : shareStart ws k < u) (h1 : u ≤ shareStart ws k + w / ws.sum) : discreteSample ws u = k ∧ 0 < u ∧ u ≤ 1 := by
  obtain ⟨a, b⟩ := take_sum ws hn hw
  unfold shareStart at h0 h1
  have h2 : 0 ≤ (ws.take k).sum / ws.sum := by positivity
  have h3 : (ws.take k).sum / ws.sum + w / ws.sum ≤ 1 := by rw [← add_div, div_le_one hS]; exact b
  refine ⟨?_, by linarith, by linarith⟩
  rw [div_lt_iff₀ hS] at h0
  rw [← add_div, le_div_iff₀ hS] at h1
  unfold discreteSample
  rw [discreteLoop_hit ws hn k w hw _ 0 h0 h1]
  omega

theorem row_nonneg {m : Nat} (hr : r.Of m) (ws : List Rat) (hw : ws.length = m) (hn : ∀ w ∈ ws, 0 ≤ w) : ∀ w ∈ r.row 0 ws, 0 ≤ w := by
  intro w h
  obtain ⟨k, hk, rfl⟩ := List.mem_map.1 h
  have hk' : k < ws.length := by rw [hw]; exact (mem r hr k).1 hk
  rw [List.getD_eq_getElem _ _ hk']
  exact hn _ (List.getElem_mem hk')

theorem number_sample {m : Nat} (hr : r.Of m) (ws : List Rat) (hw : ws.length = m) (hn : ∀ w ∈ ws, 0 ≤ w) (hS : 0 < ws.sum) (u : Rat)
    (h0 : 0 < u) (h1 : u ≤ 1) :
    discreteSample (r.row 0 ws) (r.number ws u) = r.new (discreteSample ws u) ∧ 0 < r.number ws u ∧ r.number ws u ≤ 1 := by
  obtain ⟨w, e, a, b⟩ := sample_interval ws hS u h0 h1
  have hk : discreteSample ws u < m := by rw [← hw]; exact (List.getElem?_eq_some_iff.1 e).1
  have hget : (r.row 0 ws)[r.new (discreteSample ws u)]? = some w := by rw [row_get r hr ws hw _ hk, e]
  have hs := sum_row r hr ws hw
  refine interval_sample (r.row 0 ws) (row_nonneg r hr ws hw hn) (by rw [hs]; exact hS) hget _ ?_ ?_
  · unfold Renumbering.number; linarith
  · unfold Renumbering.number; rw [hs]; linarith

/-- Two numbers of one class keep their distance; numbers of different classes go to different classes. -/
theorem number_injective {m : Nat} (hr : r.Of m) (ws : List Rat) (hw : ws.length = m) (hn : ∀ w ∈ ws, 0 ≤ w) (hS : 0 < ws.sum) (u v : Rat)
    (hu : 0 < u ∧ u ≤ 1) (hv : 0 < v ∧ v ≤ 1) (h : r.number ws u = r.number ws v) : u = v := by
  obtain ⟨a, -, -⟩ := number_sample r hr ws hw hn hS u hu.1 hu.2
  obtain ⟨b, -, -⟩ := number_sample r hr ws hw hn hS v hv.1 hv.2
  rw [h, b] at a
  obtain ⟨w, e, -, -⟩ := sample_interval ws hS u hu.1 hu.2
  have hk : discreteSample ws u ∈ r.order := (mem r hr _).2 (by rw [← hw]; exact (List.getElem?_eq_some_iff.1 e).1)
  have hk' : discreteSample ws v = discreteSample ws u := ((List.idxOf_inj hk).1 a.symm).symm
  unfold Renumbering.number at h
  rw [hk'] at h
  linarith

/-! ## A whole history -/

theorem weights_proper (be : Backend B E) (smp : List Rat → Rat → Nat) {e : Exec B} (x : E) (y : Nat) (hT : 1 ≤ e.fb.threshold)
    (h2 : 2 ≤ (e.trainOne be smp x y).fb.votes.length) :
    (e.trainOne be smp x y).fb.updProb.length = (e.trainOne be smp x y).fb.votes.length ∧
    (∀ w ∈ (e.trainOne be smp x y).fb.updProb, 0 ≤ w) ∧ 0 < (e.trainOne be smp x y).fb.updProb.sum := by
  have ht := loop_threshold be x e
  have a := negWeights_nonneg (exampleLoop (be.trainExample · x) be.votes e.blocks e.fb.reset).2 y (by rw [ht]; linarith)
  obtain ⟨w, hw, hw0⟩ := negWeights_pos (exampleLoop (be.trainExample · x) be.votes e.blocks e.fb.reset).2 y (by rw [ht]; linarith) h2
  refine ⟨?_, a, lt_of_lt_of_le hw0 (List.single_le_sum a w hw)⟩
  simp [Exec.trainOne, FB.process]

theorem train_rng (be : Backend B E) (smp : List Rat → Rat → Nat) (e : Exec B) (x : E) (y : Nat) :
    (e.trainOne be smp x y).fb.rng = e.fb.rng.next.2 := by
  have := loop_rng be x e
  simp only [Exec.trainOne, FB.process]
  rw [this]

theorem eval_rng (be : Backend B E) (e : Exec B) (x : E) :
    (e.evalOne be x).1.fb.rng = e.fb.rng ∧ (e.evalOne be x).1.fb.threshold = e.fb.threshold := by
  simp only [Exec.evalOne]
  rw [exampleLoop_frame]
  exact ⟨rfl, rfl⟩

theorem train_threshold (be : Backend B E) (smp : List Rat → Rat → Nat) (e : Exec B) (x : E) (y : Nat) :
    (e.trainOne be smp x y).fb.threshold = e.fb.threshold := loop_threshold be x e

theorem train_len (hb : Blind r be m mk ok) (hr : r.Of m) (smp : List Rat → Rat → Nat) {e d : Exec B} (h : Pair r m mk ok e d) (x : E) (y : Nat) :
    (e.trainOne be smp x y).fb.votes.length = m := by
  obtain ⟨c1, c2⟩ := reset_same r hr h.fb h.len
  exact (loop_same r hr mk (be.trainExample · x) be.votes e.blocks (fun b hb' => hb.train b x (h.ok b hb'))
    (fun b hb' => hb.votes _ (hb.okTrain _ _ (h.ok b hb'))) (fun b hb' => hb.trainVotes b x (h.ok b hb')) _ _ c1 h.classes c2).2.2

theorem history (hb : Blind r be m mk ok) (hr : r.Of m) (cs : List (E × Option Nat)) (e : Exec B) (hm : 2 ≤ m)
    (hT : 1 ≤ e.fb.threshold) (hu : ∀ i, 0 < e.fb.rng.draw i ∧ e.fb.rng.draw i < 1) :
    ∃ g : Nat → Rat, ∀ (d : Exec B) (D : Nat → Rat), Pair r m mk ok e d → d.fb.rng = ⟨D, e.fb.rng.pos⟩ → (∀ i, e.fb.rng.pos ≤ i → D i = g i) →
      ∀ k, Pair r m mk ok (runCalls be discreteSample (cs.take k) e).1 (runCalls be discreteSample (r.calls (cs.take k)) d).1 ∧
        ∀ x y, cs[k]? = some (x, some y) → (runCalls be discreteSample (r.calls (cs.take k)) d).1.fb.rng.next.1 =
          r.number (runCalls be discreteSample (cs.take (k + 1)) e).1.fb.updProb (runCalls be discreteSample (cs.take k) e).1.fb.rng.next.1 := by
  induction cs generalizing e with
  | nil => exact ⟨fun _ => 0, fun d D h _ _ k => ⟨(by simp only [List.take_nil]; exact h), fun x y h => by simp at h⟩⟩
  | cons c cs ih =>
    obtain ⟨x, l⟩ := c
    cases l with
    | none =>
      obtain ⟨er, et⟩ := eval_rng be e x
      obtain ⟨g, hg⟩ := ih (e.evalOne be x).1 (by rw [et]; exact hT) (by rw [er]; exact hu)
      refine ⟨g, fun d D h hd hD k => ?_⟩
      cases k with
      | zero => exact ⟨h, fun x' y' h' => by simp at h'⟩
      | succ k =>
        have := hg (d.evalOne be x).1 D (eval_pair r hb hr h x) (by rw [(eval_rng be d x).1, er]; exact hd) (by rw [er]; exact hD) k
        simp only [List.take_succ_cons, List.getElem?_cons_succ]
        exact this
    | some y =>
      have er := train_rng be discreteSample e x y
      obtain ⟨g, hg⟩ := ih (e.trainOne be discreteSample x y) (by rw [train_threshold]; exact hT) (by rw [er]; exact hu)
      refine ⟨fun i => if i = e.fb.rng.pos then r.number (e.trainOne be discreteSample x y).fb.updProb e.fb.rng.next.1 else g i,
        fun d D h hd hD k => ?_⟩
      have hu0 : d.fb.rng.next.1 = r.number (e.trainOne be discreteSample x y).fb.updProb e.fb.rng.next.1 := by
        rw [hd]
        show D e.fb.rng.pos = _
        rw [hD _ (Nat.le_refl _)]
        exact if_pos rfl
      cases k with
      | zero =>
        refine ⟨h, fun x' y' h' => ?_⟩
        simp only [List.getElem?_cons_zero, Option.some.injEq, Prod.mk.injEq] at h'
        obtain ⟨rfl, rfl⟩ := h'
        exact hu0
      | succ k =>
        have hl := train_len r hb hr discreteSample h x y
        obtain ⟨w1, w2, w3⟩ := weights_proper be discreteSample x y hT (by rw [hl]; exact hm)
        have hp := train_pair r hb hr discreteSample discreteSample h x y (by
          rw [hu0]
          exact (number_sample r hr _ (by rw [w1, hl]) w2 w3 _ (hu _).1 (le_of_lt (hu _).2)).1)
        have hd1 : (d.trainOne be discreteSample x (r.new y)).fb.rng = ⟨D, (e.trainOne be discreteSample x y).fb.rng.pos⟩ := by
          rw [train_rng, er, hd]; rfl
        have := hg _ D hp hd1 (fun i hi => by
          rw [er] at hi
          have hi' : e.fb.rng.pos + 1 ≤ i := hi
          rw [hD i (by omega)]
          exact if_neg (by omega)) k
        simp only [List.take_succ_cons, List.getElem?_cons_succ]
        exact this

theorem runs (hb : Blind r be m mk ok) (hr : r.Of m) (cs : List (E × Option Nat)) (e : Exec B) (hp : ProperSession m cs e)
    (hok : ∀ b ∈ e.blocks, ok b) : ∃ g : Nat → Rat, RunsRenumbered r be mk cs e (r.exec mk e g) := by
  obtain ⟨g, hg⟩ := history r hb hr cs e hp.classes hp.threshold hp.numbers
  refine ⟨g, fun k => ?_⟩
  obtain ⟨h1, h2⟩ := hg (r.exec mk e g) g ⟨⟨rfl, rfl, rfl, rfl⟩, hp.nClasses, hp.votes, hok, rfl⟩ rfl (fun _ _ => rfl) k
  exact ⟨h1.fb, h1.blocks, fun x => (eval_pair r hb hr h1 x).fb, h2⟩

/-! ## The winner -/

theorem new_surj {m : Nat} (hr : r.Of m) (j : Nat) (hj : j < m) : ∃ k, k < m ∧ r.new k = j := by
  have hj' : j < r.order.length := by rw [len r hr]; exact hj
  exact ⟨r.order[j], (mem r hr _).1 (List.getElem_mem hj'), (nodup r hr).idxOf_getElem j hj'⟩

theorem winner_row {m : Nat} (hr : r.Of m) {v : List Int} (hv : v.length = m) {k : Nat} (h : Winner v k) : Winner (r.row 0 v) (r.new k) := by
  obtain ⟨a, h1, h2⟩ := h
  have hk : k < m := by
    rw [← hv]; exact (List.getElem?_eq_some_iff.1 h1).1
  refine ⟨a, by rw [row_get r hr v hv k hk, h1], fun i w hi hne => ?_⟩
  have him : i < m := by
    have := (List.getElem?_eq_some_iff.1 hi).1; rwa [row_length r hr] at this
  obtain ⟨j, hj, rfl⟩ := new_surj r hr i him
  rw [row_get r hr v hv j hj] at hi
  exact h2 j w hi fun e => hne (by rw [e])

theorem winner_predict {f : FB} {k : Nat} (h : Winner f.votes k) : f.predict = k := by
  obtain ⟨v, h1, h2⟩ := h
  have hne : f.votes ≠ [] := by intro e; rw [e] at h1; simp at h1
  refine ((C21_predict_lowest_max f hne).2 k ⟨v, h1, fun i w hi => ?_⟩).symm
  by_cases e : i = k
  · subst e
    rw [h1] at hi
    obtain rfl := Option.some.inj hi
    exact ⟨Int.le_refl _, fun h => absurd h (Nat.lt_irrefl _)⟩
  · exact ⟨Int.le_of_lt (h2 i w hi e), fun _ => h2 i w hi e⟩

/-! ## Dense blocks -/

theorem clauseUpdate_row {m : Nat} (hr : r.Of m) (cfg : Cfg) (x : List Nat) (j : Nat) (t : Int) (c : Clause) (hc : c.w.length = m) (g : Rng) :
    clauseUpdate cfg x (r.new j) t (r.clause c) g = (r.clause (clauseUpdate cfg x j t c g).1, (clauseUpdate cfg x j t c g).2) ∧
    (clauseUpdate cfg x j t c g).1.w.length = m := by
  have hw : (r.clause c).w.getD (r.new j) 0 = c.w.getD j 0 := row_getD r hr 0 c.w hc j
  have hs : ∀ a, (r.clause c).w.set (r.new j) a = r.row 0 (c.w.set j a) := fun a => row_set r hr 0 c.w hc j a
  simp only [clauseUpdate, hw, hs]
  generalize (if c.w.getD j 0 ≥ 0 then (1 : Int) else -1) = sign
  by_cases h1 : t * sign > 0
  · simp only [if_pos h1]
    by_cases h2 : c.out = 1
    · have h2' : (r.clause c).out = 1 := h2
      simp only [if_pos h2, if_pos h2']
      exact ⟨rfl, by simpa using hc⟩
    · have h2' : ¬ (r.clause c).out = 1 := h2
      simp only [if_neg h2, if_neg h2']
      exact ⟨rfl, hc⟩
  · simp only [if_neg h1]
    by_cases h2 : t * sign < 0 ∧ c.out = 1
    · have h2' : t * sign < 0 ∧ (r.clause c).out = 1 := h2
      simp only [if_pos h2, if_pos h2']
      exact ⟨rfl, by simpa using hc⟩
    · have h2' : ¬ (t * sign < 0 ∧ (r.clause c).out = 1) := h2
      simp only [if_neg h2, if_neg h2']
      exact ⟨trivial, hc⟩

theorem gate_row (cfg : Cfg) (c : Clause) : budgetGate cfg (r.clause c) = r.clause (budgetGate cfg c) ∧ (budgetGate cfg c).w = c.w := by
  unfold budgetGate
  cases cfg.budget with
  | none => exact ⟨rfl, rfl⟩
  | some b =>
    simp only []
    by_cases h : c.cnt > b
    · have h' : (r.clause c).cnt > b := h
      rw [if_pos h, if_pos h']; exact ⟨rfl, rfl⟩
    · have h' : ¬ (r.clause c).cnt > b := h
      rw [if_neg h, if_neg h']; exact ⟨rfl, rfl⟩

theorem trainClause_row {m : Nat} (hr : r.Of m) (cfg : Cfg) (x : List Nat) (fb : Feedback) (c : Clause) (hc : c.w.length = m) (f g : Rng) :
    trainClause cfg x (feedback r fb) (r.clause c) f g =
      (r.clause (trainClause cfg x fb c f g).1, (trainClause cfg x fb c f g).2) ∧ (trainClause cfg x fb c f g).1.w.length = m := by
  obtain ⟨g1, g2⟩ := gate_row r cfg c
  simp only [trainClause, feedback, g1]
  generalize budgetGate cfg c = c0 at g2
  have hc0 : c0.w.length = m := by rw [g2]; exact hc
  have step : ∀ (j : Nat) (t : Int) (p : Rat) (u : Rat) (c : Clause) (g : Rng), c.w.length = m →
      (if u < p then clauseUpdate cfg x (r.new j) t (r.clause c) g else (r.clause c, g)) =
        (r.clause (if u < p then clauseUpdate cfg x j t c g else (c, g)).1, (if u < p then clauseUpdate cfg x j t c g else (c, g)).2) ∧
      (if u < p then clauseUpdate cfg x j t c g else (c, g)).1.w.length = m := by
    intro j t p u c g hc
    split
    · exact clauseUpdate_row r hr cfg x j t c hc g
    · exact ⟨rfl, hc⟩
  obtain ⟨s1, s2⟩ := step fb.posClass 1 fb.posProb f.next.1 c0 g hc0
  rw [s1]
  obtain ⟨t1, t2⟩ := step fb.negClass (-1) fb.negProb f.next.2.next.1
    (if f.next.1 < fb.posProb then clauseUpdate cfg x fb.posClass 1 c0 g else (c0, g)).1
    (if f.next.1 < fb.posProb then clauseUpdate cfg x fb.posClass 1 c0 g else (c0, g)).2 s2
  simp only [] at t1 t2 ⊢
  rw [t1]
  exact ⟨rfl, t2⟩

theorem trainClauses_row {m : Nat} (hr : r.Of m) (cfg : Cfg) (x : List Nat) (fb : Feedback) (cs : List Clause)
    (hc : ∀ c ∈ cs, c.w.length = m) (f g : Rng) :
    trainClauses cfg x (feedback r fb) (cs.map r.clause) f g =
      ((trainClauses cfg x fb cs f g).1.map r.clause, (trainClauses cfg x fb cs f g).2) ∧
    ∀ c ∈ (trainClauses cfg x fb cs f g).1, c.w.length = m := by
  induction cs generalizing f g with
  | nil => exact ⟨rfl, fun c h => by cases h⟩
  | cons c cs ih =>
    obtain ⟨h1, h2⟩ := trainClause_row r hr cfg x fb c (hc c (List.mem_cons_self ..)) f g
    obtain ⟨h3, h4⟩ := ih (fun c' h => hc c' (List.mem_cons_of_mem _ h)) (trainClause cfg x fb c f g).2.1 (trainClause cfg x fb c f g).2.2
    simp only [List.map_cons, trainClauses, h1, h3]
    refine ⟨trivial, fun c' h' => ?_⟩
    rcases List.mem_cons.1 h' with rfl | h'
    · exact h2
    · exact h4 c' h'

/-- A dense block for `m` classes. -/
def Classes (m : Nat) (b : DBlock) : Prop := b.nClasses = m ∧ ∀ c ∈ b.clauses, c.w.length = m

theorem dense_example (hr : r.Of m) (b : DBlock) (hb : Classes m b) (f : Clause → Clause) (hf : ∀ c, f (r.clause c) = r.clause (f c))
    (hw : ∀ c, (f c).w = c.w) :
    ((({ r.block b with clauses := (r.block b).clauses.map f } : DBlock).countVotes) =
      r.block (({ b with clauses := b.clauses.map f } : DBlock).countVotes)) ∧
    (({ b with clauses := b.clauses.map f } : DBlock).countVotes).votes.length = m ∧
    Classes m (({ b with clauses := b.clauses.map f } : DBlock).countVotes) := by
  have hcl : ∀ c ∈ b.clauses.map f, c.w.length = m := by
    intro c hc
    obtain ⟨c', hc', rfl⟩ := List.mem_map.1 hc
    rw [hw]; exact hb.2 c' hc'
  refine ⟨?_, votes_length Clause.out Clause.w _ hcl _ (by simp [hb.1]), hb.1, hcl⟩
  have e : (b.clauses.map r.clause).map f = (b.clauses.map f).map r.clause := by
    simp only [List.map_map]; exact List.map_congr_left fun c _ => hf c
  simp only [DBlock.countVotes, Renumbering.block, e, countVotes, hb.1]
  rw [count_row r Clause.out Clause.w r.clause (fun _ => rfl) (fun _ => rfl) hr _ hcl]

theorem dense_blind (hr : r.Of m) : Blind r denseBackend m r.block (Classes m) where
  train := fun b x hb => (dense_example r hr b hb (setOutClause b.cfg x) (fun _ => rfl) (fun _ => rfl)).1
  eval := fun b x hb => (dense_example r hr b hb (evalOutClause x) (fun _ => rfl) (fun _ => rfl)).1
  update := fun b x fb hb => by
    show (r.block b).trainUpdate x (feedback r fb) = r.block (b.trainUpdate x fb)
    simp only [DBlock.trainUpdate, Renumbering.block]
    rw [(trainClauses_row r hr b.cfg x fb b.clauses hb.2 b.fast b.rng).1]
  votes := fun _ _ => rfl
  trainVotes := fun b x hb => (dense_example r hr b hb (setOutClause b.cfg x) (fun _ => rfl) (fun _ => rfl)).2.1
  evalVotes := fun b x hb => (dense_example r hr b hb (evalOutClause x) (fun _ => rfl) (fun _ => rfl)).2.1
  okTrain := fun b x hb => (dense_example r hr b hb (setOutClause b.cfg x) (fun _ => rfl) (fun _ => rfl)).2.2
  okEval := fun b x hb => (dense_example r hr b hb (evalOutClause x) (fun _ => rfl) (fun _ => rfl)).2.2
  okUpdate := fun b x fb hb => ⟨hb.1, (trainClauses_row r hr b.cfg x fb b.clauses hb.2 b.fast b.rng).2⟩
  trainable := fun _ => rfl

/-! ## AVX2 blocks -/

theorem avxUpdate_row {m : Nat} (hr : r.Of m) (cfg : VCfg) (x : Mem) (j : Nat) (t : Int) (c : VClause) (hc : c.w.length = m) (g : VRng) :
    avxClauseUpdate cfg x (r.new j) t (r.vclause c) g = (r.vclause (avxClauseUpdate cfg x j t c g).1, (avxClauseUpdate cfg x j t c g).2) ∧
    (avxClauseUpdate cfg x j t c g).1.w.length = m := by
  have hw : (r.vclause c).w.getD (r.new j) 0 = c.w.getD j 0 := row_getD r hr 0 c.w hc j
  have hs : ∀ a, (r.vclause c).w.set (r.new j) a = r.row 0 (c.w.set j a) := fun a => row_set r hr 0 c.w hc j a
  simp only [avxClauseUpdate, hw, hs]
  generalize (if c.w.getD j 0 ≥ 0 then (1 : Int) else -1) = sign
  by_cases h1 : t * sign > 0
  · simp only [if_pos h1]
    by_cases h2 : c.out = 1
    · have h2' : (r.vclause c).out = 1 := h2
      simp only [if_pos h2, if_pos h2']
      exact ⟨rfl, by simpa using hc⟩
    · have h2' : ¬ (r.vclause c).out = 1 := h2
      simp only [if_neg h2, if_neg h2']
      exact ⟨rfl, hc⟩
  · simp only [if_neg h1]
    by_cases h2 : t * sign < 0 ∧ c.out = 1
    · have h2' : t * sign < 0 ∧ (r.vclause c).out = 1 := h2
      simp only [if_pos h2, if_pos h2']
      exact ⟨rfl, by simpa using hc⟩
    · have h2' : ¬ (t * sign < 0 ∧ (r.vclause c).out = 1) := h2
      simp only [if_neg h2, if_neg h2']
      exact ⟨trivial, hc⟩

theorem avxGate_row (cfg : VCfg) (c : VClause) : avxBudgetGate cfg (r.vclause c) = r.vclause (avxBudgetGate cfg c) ∧ (avxBudgetGate cfg c).w = c.w := by
  unfold avxBudgetGate
  cases cfg.budget with
  | none => exact ⟨rfl, rfl⟩
  | some b =>
    simp only []
    by_cases h : c.cnt > b
    · have h' : (r.vclause c).cnt > b := h
      rw [if_pos h, if_pos h']; exact ⟨rfl, rfl⟩
    · have h' : ¬ (r.vclause c).cnt > b := h
      rw [if_neg h, if_neg h']; exact ⟨rfl, rfl⟩

theorem avxClause_row {m : Nat} (hr : r.Of m) (cfg : VCfg) (x : Mem) (fb : Feedback) (c : VClause) (hc : c.w.length = m) (f : Rng) (g : VRng) :
    avxTrainClause cfg x (feedback r fb) (r.vclause c) f g =
      (r.vclause (avxTrainClause cfg x fb c f g).1, (avxTrainClause cfg x fb c f g).2) ∧ (avxTrainClause cfg x fb c f g).1.w.length = m := by
  obtain ⟨g1, g2⟩ := avxGate_row r cfg c
  simp only [avxTrainClause, feedback, g1]
  generalize avxBudgetGate cfg c = c0 at g2
  have hc0 : c0.w.length = m := by rw [g2]; exact hc
  have step : ∀ (j : Nat) (t : Int) (p : Rat) (u : Rat) (c : VClause) (g : VRng), c.w.length = m →
      (if u < p then avxClauseUpdate cfg x (r.new j) t (r.vclause c) g else (r.vclause c, g)) =
        (r.vclause (if u < p then avxClauseUpdate cfg x j t c g else (c, g)).1, (if u < p then avxClauseUpdate cfg x j t c g else (c, g)).2) ∧
      (if u < p then avxClauseUpdate cfg x j t c g else (c, g)).1.w.length = m := by
    intro j t p u c g hc
    split
    · exact avxUpdate_row r hr cfg x j t c hc g
    · exact ⟨rfl, hc⟩
  obtain ⟨s1, s2⟩ := step fb.posClass 1 fb.posProb f.next.1 c0 g hc0
  rw [s1]
  obtain ⟨t1, t2⟩ := step fb.negClass (-1) fb.negProb f.next.2.next.1
    (if f.next.1 < fb.posProb then avxClauseUpdate cfg x fb.posClass 1 c0 g else (c0, g)).1
    (if f.next.1 < fb.posProb then avxClauseUpdate cfg x fb.posClass 1 c0 g else (c0, g)).2 s2
  simp only [] at t1 t2 ⊢
  rw [t1]
  exact ⟨rfl, t2⟩

theorem avxClauses_row {m : Nat} (hr : r.Of m) (cfg : VCfg) (x : Mem) (fb : Feedback) (cs : List VClause)
    (hc : ∀ c ∈ cs, c.w.length = m) (f : Rng) (g : VRng) :
    avxTrainClauses cfg x (feedback r fb) (cs.map r.vclause) f g =
      ((avxTrainClauses cfg x fb cs f g).1.map r.vclause, (avxTrainClauses cfg x fb cs f g).2) ∧
    ∀ c ∈ (avxTrainClauses cfg x fb cs f g).1, c.w.length = m := by
  induction cs generalizing f g with
  | nil => exact ⟨rfl, fun c h => by cases h⟩
  | cons c cs ih =>
    obtain ⟨h1, h2⟩ := avxClause_row r hr cfg x fb c (hc c (List.mem_cons_self ..)) f g
    obtain ⟨h3, h4⟩ := ih (fun c' h => hc c' (List.mem_cons_of_mem _ h)) (avxTrainClause cfg x fb c f g).2.1 (avxTrainClause cfg x fb c f g).2.2
    simp only [List.map_cons, avxTrainClauses, h1, h3]
    refine ⟨trivial, fun c' h' => ?_⟩
    rcases List.mem_cons.1 h' with rfl | h'
    · exact h2
    · exact h4 c' h'

theorem avxSet_row (cfg : VCfg) (x : Mem) (c : VClause) :
    avxSetClause cfg x (r.vclause c) = r.vclause (avxSetClause cfg x c) ∧ (avxSetClause cfg x c).w = c.w := by
  refine ⟨?_, ?_⟩
  · simp only [avxSetClause, apply_ite r.vclause]; rfl
  · simp only [avxSetClause, apply_ite VClause.w, ite_self]

theorem avxEval_row (cfg : VCfg) (x : Mem) (c : VClause) :
    avxEvalClause cfg x (r.vclause c) = r.vclause (avxEvalClause cfg x c) ∧ (avxEvalClause cfg x c).w = c.w := by
  refine ⟨?_, ?_⟩
  · simp only [avxEvalClause, apply_ite r.vclause]; rfl
  · simp only [avxEvalClause, apply_ite VClause.w, ite_self]

/-- An AVX2 block for `m` classes. -/
def AvxClasses (m : Nat) (b : VBlock) : Prop := b.nClasses = m ∧ ∀ c ∈ b.clauses, c.w.length = m

theorem avx_example (hr : r.Of m) (b : VBlock) (hb : AvxClasses m b) (f : VClause → VClause)
    (hf : ∀ c, f (r.vclause c) = r.vclause (f c) ∧ (f c).w = c.w) :
    (({ r.vblock b with clauses := (r.vblock b).clauses.map f, votes := avxCountVotes b.nClasses ((r.vblock b).clauses.map f) } : VBlock) =
      r.vblock ({ b with clauses := b.clauses.map f, votes := avxCountVotes b.nClasses (b.clauses.map f) } : VBlock)) ∧
    (avxCountVotes b.nClasses (b.clauses.map f)).length = m ∧ (∀ c ∈ b.clauses.map f, c.w.length = m) := by
  have hcl : ∀ c ∈ b.clauses.map f, c.w.length = m := by
    intro c hc
    obtain ⟨c', hc', rfl⟩ := List.mem_map.1 hc
    rw [(hf c').2]; exact hb.2 c' hc'
  refine ⟨?_, votes_length VClause.out VClause.w _ hcl _ (by simp [hb.1]), hcl⟩
  have e : (b.clauses.map r.vclause).map f = (b.clauses.map f).map r.vclause := by
    simp only [List.map_map]; exact List.map_congr_left fun c _ => (hf c).1
  simp only [Renumbering.vblock, e, avxCountVotes, hb.1]
  rw [count_row r VClause.out VClause.w r.vclause (fun _ => rfl) (fun _ => rfl) hr _ hcl]

theorem avx_blind (hr : r.Of m) : Blind r avxBackend m r.vblock (AvxClasses m) where
  train := fun b x hb => (avx_example r hr b hb (avxSetClause b.cfg x) (avxSet_row r b.cfg x)).1
  eval := fun b x hb => (avx_example r hr b hb (avxEvalClause b.cfg x) (avxEval_row r b.cfg x)).1
  update := fun b x fb hb => by
    show (r.vblock b).apply (.trainUpdate x (feedback r fb)) = r.vblock (b.apply (.trainUpdate x fb))
    simp only [VBlock.apply, Renumbering.vblock]
    rw [(avxClauses_row r hr b.cfg x fb b.clauses hb.2 b.fast b.vrng).1]
  votes := fun _ _ => rfl
  trainVotes := fun b x hb => (avx_example r hr b hb (avxSetClause b.cfg x) (avxSet_row r b.cfg x)).2.1
  evalVotes := fun b x hb => (avx_example r hr b hb (avxEvalClause b.cfg x) (avxEval_row r b.cfg x)).2.1
  okTrain := fun b x hb => ⟨hb.1, (avx_example r hr b hb (avxSetClause b.cfg x) (avxSet_row r b.cfg x)).2.2⟩
  okEval := fun b x hb => ⟨hb.1, (avx_example r hr b hb (avxEvalClause b.cfg x) (avxEval_row r b.cfg x)).2.2⟩
  okUpdate := fun b x fb hb => ⟨hb.1, (avxClauses_row r hr b.cfg x fb b.clauses hb.2 b.fast b.vrng).2⟩
  trainable := fun _ => rfl

/-! ## NEON blocks -/

theorem neonUpdate_row {m : Nat} (hr : r.Of m) (cfg : VCfg) (x : Mem) (j : Nat) (t : Int) (c : VClause) (hc : c.w.length = m) (g : VRng) :
    neonClauseUpdate cfg x (r.new j) t (r.vclause c) g = (r.vclause (neonClauseUpdate cfg x j t c g).1, (neonClauseUpdate cfg x j t c g).2) ∧
    (neonClauseUpdate cfg x j t c g).1.w.length = m := by
  have hw : (r.vclause c).w.getD (r.new j) 0 = c.w.getD j 0 := row_getD r hr 0 c.w hc j
  have hs : ∀ a, (r.vclause c).w.set (r.new j) a = r.row 0 (c.w.set j a) := fun a => row_set r hr 0 c.w hc j a
  simp only [neonClauseUpdate, hw, hs]
  generalize (if c.w.getD j 0 ≥ 0 then (1 : Int) else -1) = sign
  by_cases h1 : t * sign > 0
  · simp only [if_pos h1]
    by_cases h2 : c.out = 1
    · have h2' : (r.vclause c).out = 1 := h2
      simp only [if_pos h2, if_pos h2']
      exact ⟨rfl, by simpa using hc⟩
    · have h2' : ¬ (r.vclause c).out = 1 := h2
      simp only [if_neg h2, if_neg h2']
      exact ⟨rfl, hc⟩
  · simp only [if_neg h1]
    by_cases h2 : t * sign < 0 ∧ c.out = 1
    · have h2' : t * sign < 0 ∧ (r.vclause c).out = 1 := h2
      simp only [if_pos h2, if_pos h2']
      exact ⟨rfl, by simpa using hc⟩
    · have h2' : ¬ (t * sign < 0 ∧ (r.vclause c).out = 1) := h2
      simp only [if_neg h2, if_neg h2']
      exact ⟨trivial, hc⟩

theorem neonGate_row (cfg : VCfg) (c : VClause) : neonBudgetGate cfg (r.vclause c) = r.vclause (neonBudgetGate cfg c) ∧ (neonBudgetGate cfg c).w = c.w := by
  unfold neonBudgetGate
  cases cfg.budget with
  | none => exact ⟨rfl, rfl⟩
  | some b =>
    simp only []
    by_cases h : c.cnt > b
    · have h' : (r.vclause c).cnt > b := h
      rw [if_pos h, if_pos h']; exact ⟨rfl, rfl⟩
    · have h' : ¬ (r.vclause c).cnt > b := h
      rw [if_neg h, if_neg h']; exact ⟨rfl, rfl⟩

theorem neonClause_row {m : Nat} (hr : r.Of m) (cfg : VCfg) (x : Mem) (fb : Feedback) (c : VClause) (hc : c.w.length = m) (f : Rng) (g : VRng) :
    neonTrainClause cfg x (feedback r fb) (r.vclause c) f g =
      (r.vclause (neonTrainClause cfg x fb c f g).1, (neonTrainClause cfg x fb c f g).2) ∧ (neonTrainClause cfg x fb c f g).1.w.length = m := by
  obtain ⟨g1, g2⟩ := neonGate_row r cfg c
  simp only [neonTrainClause, feedback, g1]
  generalize neonBudgetGate cfg c = c0 at g2
  have hc0 : c0.w.length = m := by rw [g2]; exact hc
  have step : ∀ (j : Nat) (t : Int) (p : Rat) (u : Rat) (c : VClause) (g : VRng), c.w.length = m →
      (if u < p then neonClauseUpdate cfg x (r.new j) t (r.vclause c) g else (r.vclause c, g)) =
        (r.vclause (if u < p then neonClauseUpdate cfg x j t c g else (c, g)).1, (if u < p then neonClauseUpdate cfg x j t c g else (c, g)).2) ∧
      (if u < p then neonClauseUpdate cfg x j t c g else (c, g)).1.w.length = m := by
    intro j t p u c g hc
    split
    · exact neonUpdate_row r hr cfg x j t c hc g
    · exact ⟨rfl, hc⟩
  obtain ⟨s1, s2⟩ := step fb.posClass 1 fb.posProb f.next.1 c0 g hc0
  rw [s1]
  obtain ⟨t1, t2⟩ := step fb.negClass (-1) fb.negProb f.next.2.next.1
    (if f.next.1 < fb.posProb then neonClauseUpdate cfg x fb.posClass 1 c0 g else (c0, g)).1
    (if f.next.1 < fb.posProb then neonClauseUpdate cfg x fb.posClass 1 c0 g else (c0, g)).2 s2
  simp only [] at t1 t2 ⊢
  rw [t1]
  exact ⟨rfl, t2⟩

theorem neonClauses_row {m : Nat} (hr : r.Of m) (cfg : VCfg) (x : Mem) (fb : Feedback) (cs : List VClause)
    (hc : ∀ c ∈ cs, c.w.length = m) (f : Rng) (g : VRng) :
    neonTrainClauses cfg x (feedback r fb) (cs.map r.vclause) f g =
      ((neonTrainClauses cfg x fb cs f g).1.map r.vclause, (neonTrainClauses cfg x fb cs f g).2) ∧
    ∀ c ∈ (neonTrainClauses cfg x fb cs f g).1, c.w.length = m := by
  induction cs generalizing f g with
  | nil => exact ⟨rfl, fun c h => by cases h⟩
  | cons c cs ih =>
    obtain ⟨h1, h2⟩ := neonClause_row r hr cfg x fb c (hc c (List.mem_cons_self ..)) f g
    obtain ⟨h3, h4⟩ := ih (fun c' h => hc c' (List.mem_cons_of_mem _ h)) (neonTrainClause cfg x fb c f g).2.1 (neonTrainClause cfg x fb c f g).2.2
    simp only [List.map_cons, neonTrainClauses, h1, h3]
    refine ⟨trivial, fun c' h' => ?_⟩
    rcases List.mem_cons.1 h' with rfl | h'
    · exact h2
    · exact h4 c' h'

theorem neonSet_row (cfg : VCfg) (x : Mem) (c : VClause) :
    neonSetClause cfg x (r.vclause c) = r.vclause (neonSetClause cfg x c) ∧ (neonSetClause cfg x c).w = c.w := by
  refine ⟨?_, ?_⟩
  · simp only [neonSetClause, apply_ite r.vclause]; rfl
  · simp only [neonSetClause, apply_ite VClause.w, ite_self]

/-- The clause of a pair with renumbered weights. -/
def pairRow (p : VClause × Bool) : VClause × Bool := (r.vclause p.1, p.2)

theorem neonEval_row (cfg : VCfg) (x : Mem) (cs : List VClause) (hc : ∀ c ∈ cs, c.w.length = m) (act : Bool) :
    neonEvalClauses cfg x act (cs.map r.vclause) = (neonEvalClauses cfg x act cs).map r.vclause ∧
    ∀ c ∈ neonEvalClauses cfg x act cs, c.w.length = m := by
  induction cs generalizing act with
  | nil => exact ⟨rfl, fun c h => by cases h⟩
  | cons c cs ih =>
    have h1 : neonEvalClause cfg x act (r.vclause c) = (r.vclause (neonEvalClause cfg x act c).1, (neonEvalClause cfg x act c).2) ∧
        (neonEvalClause cfg x act c).1.w = c.w := by
      refine ⟨?_, ?_⟩
      · show _ = pairRow r (neonEvalClause cfg x act c)
        simp only [neonEvalClause, apply_ite (pairRow r)]; rfl
      · simp only [neonEvalClause, apply_ite Prod.fst, apply_ite VClause.w, ite_self]
    obtain ⟨h3, h4⟩ := ih (fun c' h => hc c' (List.mem_cons_of_mem _ h)) (neonEvalClause cfg x act c).2
    simp only [List.map_cons, neonEvalClauses, h1.1, h3]
    refine ⟨trivial, fun c' h' => ?_⟩
    rcases List.mem_cons.1 h' with rfl | h'
    · rw [h1.2]; exact hc c (List.mem_cons_self ..)
    · exact h4 c' h'

/-- A NEON block for `m` classes, running: it has a literal budget, without which it crashes (`C42`). -/
def NeonClasses (m : Nat) (b : Option NBlock) : Prop :=
  ∃ b', b = some b' ∧ b'.nClasses = m ∧ b'.cfg.budget.isSome = true ∧ ∀ c ∈ b'.clauses, c.w.length = m

theorem neon_set (cfg : VCfg) (h : cfg.budget.isSome = true) (x : Mem) (cs : List VClause) :
    neonSetClauses cfg x cs = some (cs.map (neonSetClause cfg x)) := by
  rw [neonSetClauses, if_neg]
  rintro ⟨-, h'⟩
  rw [h'] at h; cases h

theorem neon_example (hr : r.Of m) (b : NBlock) (hn : b.nClasses = m) (cs : List VClause) (hcl : ∀ c ∈ cs, c.w.length = m) :
    ({ r.nblock b with clauses := cs.map r.vclause, votes := neonCountVotes b.nClasses (cs.map r.vclause) } : NBlock) =
      r.nblock ({ b with clauses := cs, votes := neonCountVotes b.nClasses cs } : NBlock) ∧
    (neonCountVotes b.nClasses cs).length = m := by
  refine ⟨?_, votes_length VClause.out VClause.w _ hcl _ (by simp [hn])⟩
  simp only [Renumbering.nblock, neonCountVotes, hn]
  rw [count_row r VClause.out VClause.w r.vclause (fun _ => rfl) (fun _ => rfl) hr _ hcl]

theorem neonSets_row (cfg : VCfg) (x : Mem) (cs : List VClause) (hc : ∀ c ∈ cs, c.w.length = m) :
    (cs.map r.vclause).map (neonSetClause cfg x) = (cs.map (neonSetClause cfg x)).map r.vclause ∧
    ∀ c ∈ cs.map (neonSetClause cfg x), c.w.length = m := by
  refine ⟨?_, fun c h => ?_⟩
  · simp only [List.map_map]; exact List.map_congr_left fun c _ => (neonSet_row r cfg x c).1
  · obtain ⟨c', hc', rfl⟩ := List.mem_map.1 h
    rw [(neonSet_row r cfg x c').2]; exact hc c' hc'

theorem neon_blind (hr : r.Of m) : Blind r neonBackend m (Option.map r.nblock) (NeonClasses m) where
  train := by
    rintro _ x ⟨b, rfl, hn, hg, hc⟩
    show (r.nblock b).apply (.trainExample x) = (b.apply (.trainExample x)).map r.nblock
    simp only [NBlock.apply]
    rw [neon_set b.cfg hg, neon_set (r.nblock b).cfg hg]
    simp only [Option.map_some, Option.some.injEq]
    rw [← (neon_example r hr b hn _ (neonSets_row r b.cfg x _ hc).2).1, ← (neonSets_row r b.cfg x _ hc).1]
    rfl
  eval := by
    rintro _ x ⟨b, rfl, hn, hg, hc⟩
    show (r.nblock b).apply (.evalExample x) = (b.apply (.evalExample x)).map r.nblock
    simp only [NBlock.apply, Option.map_some, Option.some.injEq]
    rw [← (neon_example r hr b hn _ (neonEval_row r b.cfg x _ hc false).2).1, ← (neonEval_row r b.cfg x _ hc false).1]
    rfl
  update := by
    rintro _ x fb ⟨b, rfl, hn, hg, hc⟩
    show (r.nblock b).apply (.trainUpdate x (feedback r fb)) = (b.apply (.trainUpdate x fb)).map r.nblock
    simp only [NBlock.apply, Renumbering.nblock, Option.map_some]
    rw [(neonClauses_row r hr b.cfg x fb b.clauses hc b.fast b.vrng).1]
  votes := by
    rintro _ ⟨b, rfl, -⟩
    rfl
  trainVotes := by
    rintro _ x ⟨b, rfl, hn, hg, hc⟩
    show (((b.apply (.trainExample x)).map NBlock.votes).getD []).length = m
    simp only [NBlock.apply, neon_set b.cfg hg]
    exact (neon_example r hr b hn _ (neonSets_row r b.cfg x _ hc).2).2
  evalVotes := by
    rintro _ x ⟨b, rfl, hn, hg, hc⟩
    exact (neon_example r hr b hn _ (neonEval_row r b.cfg x _ hc false).2).2
  okTrain := by
    rintro _ x ⟨b, rfl, hn, hg, hc⟩
    show NeonClasses m (b.apply (.trainExample x))
    simp only [NBlock.apply, neon_set b.cfg hg]
    exact ⟨_, rfl, hn, hg, (neonSets_row r b.cfg x _ hc).2⟩
  okEval := by
    rintro _ x ⟨b, rfl, hn, hg, hc⟩
    exact ⟨_, rfl, hn, hg, (neonEval_row r b.cfg x _ hc false).2⟩
  okUpdate := by
    rintro _ x fb ⟨b, rfl, hn, hg, hc⟩
    exact ⟨_, rfl, hn, hg, (neonClauses_row r hr b.cfg x fb b.clauses hc b.fast b.vrng).2⟩
  trainable := fun _ => rfl

/-! ## Convolutional blocks -/

/-- The clause of a convolutional clause with renumbered weights. -/
def cclause (c : ConvClause) : ConvClause := { c with base := r.clause c.base }

theorem convSet_row (cfg : Cfg) (n p : Nat) (x : List Nat) (cs : List ConvClause) (hc : ∀ c ∈ cs, c.base.w.length = m) (k : Nat → Nat) (g : Rng) :
    convSetClauses cfg n p x (cs.map (cclause r)) k g =
      ((convSetClauses cfg n p x cs k g).1.map (cclause r), (convSetClauses cfg n p x cs k g).2) ∧
    ∀ c ∈ (convSetClauses cfg n p x cs k g).1, c.base.w.length = m := by
  induction cs generalizing k g with
  | nil => exact ⟨rfl, fun c h => by cases h⟩
  | cons c cs ih =>
    have h1 : convSetClause cfg n p x (cclause r c) k g = (cclause r (convSetClause cfg n p x c k g).1, (convSetClause cfg n p x c k g).2) := rfl
    obtain ⟨h3, h4⟩ := ih (fun c' h => hc c' (List.mem_cons_of_mem _ h)) (convSetClause cfg n p x c k g).2.1 (convSetClause cfg n p x c k g).2.2
    simp only [List.map_cons, convSetClauses, h1, h3]
    refine ⟨trivial, fun c' h' => ?_⟩
    rcases List.mem_cons.1 h' with rfl | h'
    · exact hc c (List.mem_cons_self ..)
    · exact h4 c' h'

theorem convTrain_row (hr : r.Of m) (cfg : Cfg) (n : Nat) (x : List Nat) (fb : Feedback) (cs : List ConvClause)
    (hc : ∀ c ∈ cs, c.base.w.length = m) (f g : Rng) :
    convTrainClauses cfg n x (feedback r fb) (cs.map (cclause r)) f g =
      ((convTrainClauses cfg n x fb cs f g).1.map (cclause r), (convTrainClauses cfg n x fb cs f g).2) ∧
    ∀ c ∈ (convTrainClauses cfg n x fb cs f g).1, c.base.w.length = m := by
  induction cs generalizing f g with
  | nil => exact ⟨rfl, fun c h => by cases h⟩
  | cons c cs ih =>
    obtain ⟨h1, h2⟩ := trainClause_row r hr cfg (patchAt n x c.patch) fb c.base (hc c (List.mem_cons_self ..)) f g
    have h1' : convTrainClause cfg n x (feedback r fb) (cclause r c) f g =
        (cclause r (convTrainClause cfg n x fb c f g).1, (convTrainClause cfg n x fb c f g).2) := by
      simp only [convTrainClause, cclause, h1]
    obtain ⟨h3, h4⟩ := ih (fun c' h => hc c' (List.mem_cons_of_mem _ h)) (convTrainClause cfg n x fb c f g).2.1
      (convTrainClause cfg n x fb c f g).2.2
    simp only [List.map_cons, convTrainClauses, h1', h3]
    refine ⟨trivial, fun c' h' => ?_⟩
    rcases List.mem_cons.1 h' with rfl | h'
    · exact h2
    · exact h4 c' h'

/-- A convolutional block for `m` classes. -/
def ConvClasses (m : Nat) (b : ConvBlock) : Prop := b.nClasses = m ∧ ∀ c ∈ b.clauses, c.base.w.length = m

theorem conv_votes (hr : r.Of m) (cs : List ConvClause) (hc : ∀ c ∈ cs, c.base.w.length = m) :
    countVotes m ((cs.map (cclause r)).map (·.base)) = r.row 0 (countVotes m (cs.map (·.base))) ∧
    (countVotes m (cs.map (·.base))).length = m := by
  have hcl : ∀ c ∈ cs.map (·.base), c.w.length = m := by
    intro c h
    obtain ⟨c', h', rfl⟩ := List.mem_map.1 h
    exact hc c' h'
  have e : (cs.map (cclause r)).map (·.base) = (cs.map (·.base)).map r.clause := by simp only [List.map_map]; rfl
  rw [e]
  exact ⟨count_row r Clause.out Clause.w r.clause (fun _ => rfl) (fun _ => rfl) hr _ hcl,
    votes_length Clause.out Clause.w _ hcl _ (by simp)⟩

theorem convEval_row (n p : Nat) (x : List Nat) (cs : List ConvClause) (hc : ∀ c ∈ cs, c.base.w.length = m) :
    (cs.map (cclause r)).map (convEvalClause n p x) = (cs.map (convEvalClause n p x)).map (cclause r) ∧
    ∀ c ∈ cs.map (convEvalClause n p x), c.base.w.length = m := by
  refine ⟨by simp only [List.map_map]; rfl, fun c h => ?_⟩
  obtain ⟨c', h', rfl⟩ := List.mem_map.1 h
  exact hc c' h'

theorem conv_blind (hr : r.Of m) : Blind r convBackend m r.cblock (ConvClasses m) where
  train := fun b x hb => by
    show (r.cblock b).apply (.trainExample x) = r.cblock (b.apply (.trainExample x))
    obtain ⟨h1, h2⟩ := convSet_row r b.cfg b.nLits b.nPatches x b.clauses hb.2 b.counts b.rng
    have h1' : convSetClauses b.cfg b.nLits b.nPatches x (r.cblock b).clauses b.counts b.rng = _ := h1
    simp only [ConvBlock.apply, Renumbering.cblock] at h1' ⊢
    rw [h1']
    have := (conv_votes r hr _ h2).1
    simp only [hb.1]
    rw [this]
    rfl
  eval := fun b x hb => by
    show (r.cblock b).apply (.evalExample x) = r.cblock (b.apply (.evalExample x))
    obtain ⟨h1, h2⟩ := convEval_row r b.nLits b.nPatches x b.clauses hb.2
    have h1' : (r.cblock b).clauses.map (convEvalClause b.nLits b.nPatches x) = _ := h1
    simp only [ConvBlock.apply, Renumbering.cblock] at h1' ⊢
    rw [h1']
    have := (conv_votes r hr _ h2).1
    simp only [hb.1]
    rw [this]
    rfl
  update := fun b x fb hb => by
    show (r.cblock b).apply (.trainUpdate x (feedback r fb)) = r.cblock (b.apply (.trainUpdate x fb))
    have h1' : convTrainClauses b.cfg b.nLits x (feedback r fb) (r.cblock b).clauses b.fast b.rng = _ :=
      (convTrain_row r hr b.cfg b.nLits x fb b.clauses hb.2 b.fast b.rng).1
    simp only [ConvBlock.apply, Renumbering.cblock] at h1' ⊢
    rw [h1']
    rfl
  votes := fun _ _ => rfl
  trainVotes := fun b x hb => by
    show (countVotes b.nClasses _).length = m
    rw [hb.1]
    exact (conv_votes r hr _ (convSet_row r b.cfg b.nLits b.nPatches x b.clauses hb.2 b.counts b.rng).2).2
  evalVotes := fun b x hb => by
    show (countVotes b.nClasses _).length = m
    rw [hb.1]
    exact (conv_votes r hr _ (convEval_row r b.nLits b.nPatches x b.clauses hb.2).2).2
  okTrain := fun b x hb => ⟨hb.1, (convSet_row r b.cfg b.nLits b.nPatches x b.clauses hb.2 b.counts b.rng).2⟩
  okEval := fun b x hb => ⟨hb.1, (convEval_row r b.nLits b.nPatches x b.clauses hb.2).2⟩
  okUpdate := fun b x fb hb => ⟨hb.1, (convTrain_row r hr b.cfg b.nLits x fb b.clauses hb.2 b.fast b.rng).2⟩
  trainable := fun _ => rfl

/-! ## Sparse blocks -/

theorem sparseUpdate_row (hr : r.Of m) (cfg : SCfg) (x : List Nat) (j : Nat) (t : Int) (c : SClause) (hc : c.w.length = m)
    (al : List Nat × Nat) (g : Rng) :
    sClauseUpdate cfg x (r.new j) t (r.sclause c) al g = (r.sclause (sClauseUpdate cfg x j t c al g).1, (sClauseUpdate cfg x j t c al g).2) ∧
    (sClauseUpdate cfg x j t c al g).1.w.length = m := by
  have hw : (r.sclause c).w.getD (r.new j) 0 = c.w.getD j 0 := row_getD r hr 0 c.w hc j
  have hs : ∀ a, (r.sclause c).w.set (r.new j) a = r.row 0 (c.w.set j a) := fun a => row_set r hr 0 c.w hc j a
  simp only [sClauseUpdate, hw, hs]
  generalize (if c.w.getD j 0 ≥ 0 then (1 : Int) else -1) = sign
  by_cases h1 : t * sign > 0
  · simp only [if_pos h1]
    by_cases h2 : c.out = 1
    · have h2' : (r.sclause c).out = 1 := h2
      simp only [if_pos h2, if_pos h2']
      exact ⟨rfl, by simpa using hc⟩
    · have h2' : ¬ (r.sclause c).out = 1 := h2
      simp only [if_neg h2, if_neg h2']
      by_cases h3 : c.out = 0
      · have h3' : (r.sclause c).out = 0 := h3
        simp only [if_pos h3, if_pos h3']
        exact ⟨rfl, hc⟩
      · have h3' : ¬ (r.sclause c).out = 0 := h3
        simp only [if_neg h3, if_neg h3']
        exact ⟨trivial, hc⟩
  · simp only [if_neg h1]
    by_cases h2 : t * sign < 0 ∧ c.out = 1
    · have h2' : t * sign < 0 ∧ (r.sclause c).out = 1 := h2
      simp only [if_pos h2, if_pos h2']
      exact ⟨rfl, by simpa using hc⟩
    · have h2' : ¬ (t * sign < 0 ∧ (r.sclause c).out = 1) := h2
      simp only [if_neg h2, if_neg h2']
      exact ⟨trivial, hc⟩

/-- A clause, active literals and generator with the classes renumbered. -/
def sthree (p : SClause × AL × Rng) : SClause × AL × Rng := (r.sclause p.1, r.row ([], 0) p.2.1, p.2.2)

/-- Weights and active literals for `m` classes. -/
def SThree (m : Nat) (p : SClause × AL × Rng) : Prop := p.1.w.length = m ∧ p.2.1.length = m

theorem sparseWith_row (hr : r.Of m) (cfg : SCfg) (x : List Nat) (j : Nat) (t : Int) (c : SClause) (hc : c.w.length = m)
    (al : AL) (ha : al.length = m) (g : Rng) :
    sUpdateWith cfg x (r.new j) t (r.sclause c) (r.row ([], 0) al) g = sthree r (sUpdateWith cfg x j t c al g) ∧
    SThree m (sUpdateWith cfg x j t c al g) := by
  obtain ⟨h1, h2⟩ := sparseUpdate_row r hr cfg x j t c hc (al.getD j ([], 0)) g
  simp only [sUpdateWith, sthree, SThree]
  rw [row_getD r hr _ al ha, h1]
  refine ⟨?_, h2, by simpa using ha⟩
  simp only [Prod.mk.injEq, true_and, and_true]
  exact row_set r hr _ al ha j _

theorem sparseGate_row (cfg : SCfg) (c : SClause) : sBudgetGate cfg (r.sclause c) = r.sclause (sBudgetGate cfg c) ∧ (sBudgetGate cfg c).w = c.w := by
  unfold sBudgetGate
  cases cfg.budget with
  | none => exact ⟨rfl, rfl⟩
  | some b =>
    simp only []
    by_cases h : c.cnt > b
    · have h' : (r.sclause c).cnt > b := h
      rw [if_pos h, if_pos h']; exact ⟨rfl, rfl⟩
    · have h' : ¬ (r.sclause c).cnt > b := h
      rw [if_neg h, if_neg h']; exact ⟨rfl, rfl⟩

theorem sparseClause_row (hr : r.Of m) (cfg : SCfg) (x : List Nat) (fb : Feedback) (c : SClause) (hc : c.w.length = m)
    (al : AL) (ha : al.length = m) (g : Rng) :
    sTrainClause cfg x (feedback r fb) (r.sclause c) (r.row ([], 0) al) g = sthree r (sTrainClause cfg x fb c al g) ∧
    SThree m (sTrainClause cfg x fb c al g) := by
  obtain ⟨g1, g2⟩ := sparseGate_row r cfg c
  simp only [sTrainClause, feedback, g1]
  generalize sBudgetGate cfg c = c0 at g2
  have hc0 : c0.w.length = m := by rw [g2]; exact hc
  have step : ∀ (j : Nat) (t : Int) (p u : Rat) (c : SClause) (al : AL) (g : Rng), c.w.length = m → al.length = m →
      (if u < p then sUpdateWith cfg x (r.new j) t (r.sclause c) (r.row ([], 0) al) g else (r.sclause c, r.row ([], 0) al, g)) =
        sthree r (if u < p then sUpdateWith cfg x j t c al g else (c, al, g)) ∧
      SThree m (if u < p then sUpdateWith cfg x j t c al g else (c, al, g)) := by
    intro j t p u c al g hc ha
    split
    · exact sparseWith_row r hr cfg x j t c hc al ha g
    · exact ⟨rfl, hc, ha⟩
  obtain ⟨s1, s2⟩ := step fb.posClass 1 fb.posProb g.next.1 c0 al g.next.2 hc0 ha
  rw [s1]
  generalize (if g.next.1 < fb.posProb then sUpdateWith cfg x fb.posClass 1 c0 al g.next.2 else (c0, al, g.next.2)) = q at s2
  exact step fb.negClass (-1) fb.negProb q.2.2.next.1 q.1 q.2.1 q.2.2.next.2 s2.1 s2.2

theorem sparseClauses_row (hr : r.Of m) (cfg : SCfg) (x : List Nat) (fb : Feedback) (cs : List SClause) (hc : ∀ c ∈ cs, c.w.length = m)
    (al : AL) (ha : al.length = m) (g : Rng) :
    sTrainClauses cfg x (feedback r fb) (cs.map r.sclause) (r.row ([], 0) al) g =
      ((sTrainClauses cfg x fb cs al g).1.map r.sclause, r.row ([], 0) (sTrainClauses cfg x fb cs al g).2.1, (sTrainClauses cfg x fb cs al g).2.2) ∧
    (∀ c ∈ (sTrainClauses cfg x fb cs al g).1, c.w.length = m) ∧ (sTrainClauses cfg x fb cs al g).2.1.length = m := by
  induction cs generalizing al g with
  | nil => exact ⟨rfl, ⟨fun c h => (by cases h), ha⟩⟩
  | cons c cs ih =>
    obtain ⟨h1, h2, h2'⟩ := sparseClause_row r hr cfg x fb c (hc c (List.mem_cons_self ..)) al ha g
    obtain ⟨h3, h4, h5⟩ := ih (fun c' h => hc c' (List.mem_cons_of_mem _ h)) (sTrainClause cfg x fb c al g).2.1 h2' (sTrainClause cfg x fb c al g).2.2
    simp only [List.map_cons, sTrainClauses, h1, sthree, h3]
    refine ⟨trivial, fun c' h' => ?_, h5⟩
    rcases List.mem_cons.1 h' with rfl | h'
    · exact h2
    · exact h4 c' h'

/-- A sparse block for `m` classes. -/
def SparseClasses (m : Nat) (b : SBlock) : Prop := b.nClasses = m ∧ b.al.length = m ∧ ∀ c ∈ b.clauses, c.w.length = m

theorem sparse_example (hr : r.Of m) (b : SBlock) (hb : SparseClasses m b) (f : SClause → SClause)
    (hf : ∀ c, f (r.sclause c) = r.sclause (f c) ∧ (f c).w = c.w) :
    (({ r.sblock b with clauses := (r.sblock b).clauses.map f, votes := sCountVotes b.nClasses ((r.sblock b).clauses.map f) } : SBlock) =
      r.sblock ({ b with clauses := b.clauses.map f, votes := sCountVotes b.nClasses (b.clauses.map f) } : SBlock)) ∧
    (sCountVotes b.nClasses (b.clauses.map f)).length = m ∧ (∀ c ∈ b.clauses.map f, c.w.length = m) := by
  have hcl : ∀ c ∈ b.clauses.map f, c.w.length = m := by
    intro c hc
    obtain ⟨c', hc', rfl⟩ := List.mem_map.1 hc
    rw [(hf c').2]; exact hb.2.2 c' hc'
  refine ⟨?_, votes_length SClause.out SClause.w _ hcl _ (by simp [hb.1]), hcl⟩
  have e : (b.clauses.map r.sclause).map f = (b.clauses.map f).map r.sclause := by
    simp only [List.map_map]; exact List.map_congr_left fun c _ => (hf c).1
  simp only [Renumbering.sblock, e, sCountVotes, hb.1]
  rw [count_row r SClause.out SClause.w r.sclause (fun _ => rfl) (fun _ => rfl) hr _ hcl]

theorem sparseSet_row (cfg : SCfg) (x : List Nat) (c : SClause) :
    sSetClause cfg x (r.sclause c) = r.sclause (sSetClause cfg x c) ∧ (sSetClause cfg x c).w = c.w := by
  unfold sSetClause
  by_cases h : c.pos.length = 0 ∧ c.neg.length = 0
  · have h' : (r.sclause c).pos.length = 0 ∧ (r.sclause c).neg.length = 0 := h
    rw [if_pos h, if_pos h']; exact ⟨rfl, rfl⟩
  · have h' : ¬ ((r.sclause c).pos.length = 0 ∧ (r.sclause c).neg.length = 0) := h
    rw [if_neg h, if_neg h']; exact ⟨rfl, rfl⟩

theorem sparseEval_row (x : List Nat) (c : SClause) :
    sEvalClause x (r.sclause c) = r.sclause (sEvalClause x c) ∧ (sEvalClause x c).w = c.w := by
  unfold sEvalClause
  by_cases h : c.pos.length = 0 ∨ c.neg.length = 0
  · have h' : (r.sclause c).pos.length = 0 ∨ (r.sclause c).neg.length = 0 := h
    rw [if_pos h, if_pos h']; exact ⟨rfl, rfl⟩
  · have h' : ¬ ((r.sclause c).pos.length = 0 ∨ (r.sclause c).neg.length = 0) := h
    rw [if_neg h, if_neg h']; exact ⟨rfl, rfl⟩

theorem sparse_blind (hr : r.Of m) : Blind r sparseBackend m r.sblock (SparseClasses m) where
  train := fun b x hb => (sparse_example r hr b hb (sSetClause b.cfg x) (sparseSet_row r b.cfg x)).1
  eval := fun b x hb => (sparse_example r hr b hb (sEvalClause x) (sparseEval_row r x)).1
  update := fun b x fb hb => by
    show (r.sblock b).apply (.trainUpdate x (feedback r fb)) = r.sblock (b.apply (.trainUpdate x fb))
    simp only [SBlock.apply, Renumbering.sblock]
    rw [(sparseClauses_row r hr b.cfg x fb b.clauses hb.2.2 b.al hb.2.1 b.fast).1]
  votes := fun _ _ => rfl
  trainVotes := fun b x hb => (sparse_example r hr b hb (sSetClause b.cfg x) (sparseSet_row r b.cfg x)).2.1
  evalVotes := fun b x hb => (sparse_example r hr b hb (sEvalClause x) (sparseEval_row r x)).2.1
  okTrain := fun b x hb => ⟨hb.1, hb.2.1, (sparse_example r hr b hb (sSetClause b.cfg x) (sparseSet_row r b.cfg x)).2.2⟩
  okEval := fun b x hb => ⟨hb.1, hb.2.1, (sparse_example r hr b hb (sEvalClause x) (sparseEval_row r x)).2.2⟩
  okUpdate := fun b x fb hb => ⟨hb.1, (sparseClauses_row r hr b.cfg x fb b.clauses hb.2.2 b.al hb.2.1 b.fast).2.2,
    (sparseClauses_row r hr b.cfg x fb b.clauses hb.2.2 b.al hb.2.1 b.fast).2.1⟩
  trainable := fun _ => rfl

/-! ## The start -/

open GT.Recode in
theorem initWeights_reads (m : Nat) (g : Rng) (L : List Rat) (hL : L.length = m) (h : Reads g L) :
    initWeights m g = (L.map (fun a => if a > 1 / 2 then (1 : Int) else -1), adv g m) := by
  induction m generalizing g L with
  | zero => obtain rfl := List.length_eq_zero_iff.1 hL; rfl
  | succ m ih =>
    cases L with
    | nil => simp at hL
    | cons a L =>
      simp only [initWeights, ih g.next.2 L (by simpa using hL) h.2, List.map_cons, h.1, adv_next]

open GT.Recode in
theorem numbers_length (g : Rng) (m : Nat) : (numbers g m).length = m := by simp [numbers]

open GT.Recode in
theorem weights_twin {m : Nat} (hr : r.Of m) : Twin (fun a b => b = r.row 0 a ∧ a.length = m) (initWeights m) (initWeights m) := by
  intro g
  have hlen := numbers_length g m
  have hR : Reads g (numbers g m) := (reads_iff g _).2 (by rw [hlen])
  refine ⟨numbers g m, r.row 0 (numbers g m), _, hR, ?_, ?_, ⟨rfl, ?_⟩, fun g' hg' => ?_⟩
  · have h1 : numbers g m = (List.range m).map ((numbers g m).getD · 0) := by
      apply List.ext_getElem
      · simp [hlen]
      · intro i h2 h3
        simp [h2]
    conv => rhs; rw [h1]
    exact hr.map _
  · rw [initWeights_reads m g _ hlen hR, hlen]
  · rw [initWeights_reads m g _ hlen hR]; simp [hlen]
  · rw [initWeights_reads m g' _ (row_length r hr _ _) hg', initWeights_reads m g _ hlen hR, row_length r hr]
    simp only [Prod.mk.injEq, and_true]
    exact row_map r hr 0 0 _ _ hlen

open GT.Recode in
theorem allWeights_twin {m : Nat} (hr : r.Of m) (k : Nat) :
    Twin (fun a b => b = a.map (r.row 0) ∧ ∀ w ∈ a, w.length = m) (initAllWeights m k) (initAllWeights m k) := by
  induction k with
  | zero => exact twin_ret ⟨rfl, fun w h => by cases h⟩
  | succ k ih =>
    exact twin_bind (h := fun p g => (p :: (initAllWeights m k g).1, (initAllWeights m k g).2))
      (h' := fun p g => (p :: (initAllWeights m k g).1, (initAllWeights m k g).2)) (weights_twin r hr)
      (fun a b hab => twin_map ih (a :: ·) (b :: ·) fun c d hcd => ⟨by rw [hab.1, hcd.1]; rfl, fun w hw => by
        rcases List.mem_cons.1 hw with rfl | hw
        · exact hab.2
        · exact hcd.2 w hw⟩)

open GT.Recode in
theorem start {m : Nat} (hr : r.Of m) (n nClauses : Nat) (cfg : Cfg) (fastOf rngOf : Nat → Rng) (junk : Nat → Nat) (seed : Nat)
    (b : DBlock) (h : initTM n nClauses m cfg fastOf rngOf junk seed = some b) :
    ∃ fast, Reshuffled (fastOf seed) fast ∧ ∃ d, initTM n nClauses m cfg (fun _ => fast) rngOf junk seed = some d ∧
      { d with fast := b.fast } = r.block b ∧ ∀ k, numbers d.fast k = numbers b.fast k := by
  unfold initTM at h
  by_cases hs : seed = 0
  · rw [if_pos hs] at h; cases h
  rw [if_neg hs] at h
  obtain rfl := Option.some.inj h
  obtain ⟨L, L', ws, r1, p1, e1, q1, k1⟩ := allWeights_twin r hr nClauses (fastOf seed)
  have hsame : Reshuffled (initAllWeights m nClauses (fastOf seed)).2 (initAllWeights m nClauses (fastOf seed)).2 :=
    fun k => ⟨k, Nat.le_refl _, .refl _⟩
  conv at hsame => arg 1; rw [e1]
  obtain ⟨g', g1, g2, g3⟩ := reshuffled_step r1 p1 hsame
  refine ⟨g', g1, ?_⟩
  simp only [initTM, if_neg hs, k1 g' g2]
  refine ⟨_, rfl, ?_, fun k => List.map_congr_left fun i _ => g3 i⟩
  simp only [Renumbering.block, DBlock.mk.injEq, true_and, and_true]
  refine ⟨?_, (row_replicate r hr 0).symm⟩
  rw [q1.1]
  generalize (initRows n nClauses (rngOf seed)).1 = rows
  generalize (initAllWeights m nClauses (fastOf seed)).1 = ws0
  apply List.ext_getElem
  · simp
  · intro i h1 h2
    simp only [List.getElem_mapIdx, List.getElem_zip, List.getElem_map]
    rfl

end GT.Renumber
