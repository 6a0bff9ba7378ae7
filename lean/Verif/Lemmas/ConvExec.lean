import Verif.Spec.ConvExec
import Verif.Lemmas.ExecGeneric
import Verif.Lemmas.EndToEnd
import Verif.Lemmas.Fresh
import Verif.Props.Conv
import Verif.Props.Neon

/-! # Helper lemmas: executors over convolutional and NEON blocks -/

namespace GT.CE
open GT Spec Neon

/-! ### Portable convolutional blocks -/

theorem countVotes_ge (n : Nat) (cs : List Clause) (hw : ∀ c ∈ cs, c.w.length = n) : n ≤ (countVotes n cs).length :=
  (C13_votes_length n cs hw).ge

theorem set_shape (m n : Nat) (b : ConvBlock) (x : List Nat)
    (h : ∀ c ∈ b.clauses, Shaped m c.base ∧ c.base.w.length = n) :
    ∀ c ∈ (convSetClauses b.cfg b.nLits b.nPatches x b.clauses b.counts b.rng).1,
      Shaped m c.base ∧ c.base.w.length = n := by
  intro c hc
  obtain ⟨i, hi, rfl⟩ := List.mem_iff_getElem.mp hc
  have hi' : i < b.clauses.length := by simpa [convSetClauses_length] using hi
  obtain ⟨k, g, e⟩ := convSetClauses_get b.cfg b.nLits b.nPatches x b.clauses b.counts b.rng i _
    (List.getElem?_eq_getElem hi')
  rw [List.getElem?_eq_getElem hi, Option.some.injEq] at e
  rw [e]
  exact h b.clauses[i] (List.getElem_mem hi')

theorem conv_keeps (m np n : Nat) : Keeps convBackend n (ConvBlockOK m np n) := by
  constructor
  · intro b x ⟨h1, h2, h3, h4⟩
    have hs := set_shape m n b x h4
    refine ⟨⟨h1, h2, h3, hs⟩, ?_⟩
    simp only [convBackend, ConvBlock.apply, h3]
    apply countVotes_ge
    intro c hc
    obtain ⟨d, hd, rfl⟩ := List.mem_map.mp hc
    exact (hs d hd).2
  · intro b x ⟨h1, h2, h3, h4⟩
    have hs : ∀ c ∈ b.clauses.map (convEvalClause b.nLits b.nPatches x), Shaped m c.base ∧ c.base.w.length = n := by
      intro c hc
      obtain ⟨d, hd, rfl⟩ := List.mem_map.mp hc
      exact h4 d hd
    refine ⟨⟨h1, h2, h3, hs⟩, ?_⟩
    simp only [convBackend, ConvBlock.apply, h3]
    apply countVotes_ge
    intro c hc
    obtain ⟨d, hd, rfl⟩ := List.mem_map.mp hc
    exact (hs d hd).2
  · intro b x fb ⟨h1, h2, h3, h4⟩
    refine ⟨h1, h2, h3, ?_⟩
    intro c hc
    change c ∈ (convTrainClauses b.cfg b.nLits x fb b.clauses b.fast b.rng).1 at hc
    obtain ⟨i, hi, rfl⟩ := List.mem_iff_getElem.mp hc
    have hi' : i < b.clauses.length := by simpa [convTrainClauses_length] using hi
    obtain ⟨f, g, e⟩ := convTrainClauses_get b.cfg b.nLits x fb b.clauses b.fast b.rng i _
      (List.getElem?_eq_getElem hi')
    rw [List.getElem?_eq_getElem hi, Option.some.injEq] at e
    rw [e]
    have := h4 _ (List.getElem_mem hi')
    exact ⟨trainClause_shaped _ _ _ _ _ _ _ this.1, (trainClause_w_length _ _ _ _ _ _).trans this.2⟩

theorem convSetClauses_out (cfg : Cfg) (n np : Nat) (x : List Nat) (F : ConvClause → ConvClause)
    (hF : ∀ c, ∃ o, F c = { c with base := { c.base with out := o } }) : ∀ (cs : List ConvClause) (k : Nat → Nat) (g : Rng),
    convSetClauses cfg n np x (cs.map F) k g = convSetClauses cfg n np x cs k g := by
  intro cs
  induction cs with
  | nil => intro k g; rfl
  | cons c cs ih =>
    intro k g
    obtain ⟨o, ho⟩ := hF c
    have : convSetClause cfg n np x (F c) k g = convSetClause cfg n np x c k g := by rw [ho]; rfl
    simp only [List.map_cons, convSetClauses, this, ih]

theorem conv_scratch (P : ConvBlock → Prop) (hP : ∀ b y, P b → P (convBackend.evalExample b y)) :
    EvalIsScratch convBackend P := by
  intro b y h
  refine ⟨hP b y h, fun x => ?_, fun x => ?_⟩
  · simp only [convBackend, ConvBlock.apply]
    rw [convSetClauses_out _ _ _ _ (convEvalClause b.nLits b.nPatches y) (fun c => ⟨_, rfl⟩)]
  · simp only [convBackend, ConvBlock.apply, List.map_map]
    rfl

theorem convFiringSum_cons (m np : Nat) (c : List Int × List Int × List Int) (cs : List (List Int × List Int × List Int))
    (x : List Nat) (k : Nat) [Decidable (FiresSomewhere m np x c)] :
    convFiringSum m np (c :: cs) x k =
      (if FiresSomewhere m np x c then c.2.2.getD k 0 else 0) + convFiringSum m np cs x k := by
  unfold convFiringSum
  by_cases h : FiresSomewhere m np x c
  · simp [h]
  · simp [h]

theorem convFiringSum_append (m np : Nat) (a b : List (List Int × List Int × List Int)) (x : List Nat) (k : Nat) :
    convFiringSum m np (a ++ b) x k = convFiringSum m np a x k + convFiringSum m np b x k := by
  unfold convFiringSum
  simp

theorem convFiringSum_perm (m np : Nat) {a b : List (List Int × List Int × List Int)} (h : a.Perm b) (x : List Nat)
    (k : Nat) : convFiringSum m np a x k = convFiringSum m np b x k := by
  unfold convFiringSum
  exact List.Perm.sum_eq ((h.filter _).map _)

theorem convFiringSum_flat {B : Type} (m np : Nat) (f : B → List (List Int × List Int × List Int)) (x : List Nat) (k : Nat)
    (bs : List B) : (bs.map fun b => convFiringSum m np (f b) x k).sum = convFiringSum m np (bs.flatMap f) x k := by
  induction bs with
  | nil => rfl
  | cons b bs ih => simp [ih, convFiringSum_append]

theorem convEval_out (m np : Nat) (x : List Nat) (hx : Binary x) (hl : x.length = np * m) (c : ConvClause)
    (hc : Shaped m c.base) : (convEvalClause m np x c).base.out = 1 ↔ FiresSomewhere m np x (learned c.base) := by
  obtain ⟨c', e, h, -⟩ := C41_eval_output ⟨m, 0, np, ⟨none, false, 0, 0⟩, [c], fun _ => 0, [], ⟨fun _ => 0, 0⟩, ⟨fun _ => 0, 0⟩⟩
    x hx hl 0 c rfl hc
  have : c' = convEvalClause m np x c := (Option.some.inj e).symm
  rw [← this]
  exact h

theorem conv_voteSum (m np : Nat) (x : List Nat) (hx : Binary x) (hl : x.length = np * m) (k : Nat) :
    ∀ (cs : List ConvClause), (∀ c ∈ cs, Shaped m c.base) →
    voteSum ((cs.map (convEvalClause m np x)).map (·.base)) k = convFiringSum m np (cs.map fun c => learned c.base) x k := by
  intro cs
  induction cs with
  | nil => intro _; rfl
  | cons c cs ih =>
    intro hs
    have ih := ih (fun c hc => hs c (by simp [hc]))
    have h := convEval_out m np x hx hl c (hs c (by simp))
    classical
    rw [List.map_cons, List.map_cons, List.map_cons, convFiringSum_cons, ← ih]
    have hw : (convEvalClause m np x c).base.w = c.base.w := rfl
    unfold voteSum
    by_cases ho : (convEvalClause m np x c).base.out = 1
    · have hf := h.mp ho
      simp only [List.filter_cons, ho, hf]
      simp [learned, hw]
    · have hf : ¬ FiresSomewhere m np x (learned c.base) := fun hf => ho (h.mpr hf)
      have hb : ((convEvalClause m np x c).base.out == 1) = false := by simpa using ho
      simp only [List.filter_cons, hb, hf]
      simp

theorem conv_block_votes (m np n : Nat) (b : ConvBlock) (x : List Nat) (k : Nat) (h : ConvBlockOK m np n b)
    (hx : Binary x ∧ x.length = np * m) (hk : k < n) :
    (convBackend.votes (convBackend.evalExample b x)).getD k 0 =
      wrap16 (convFiringSum m np (b.clauses.map fun c => learned c.base) x k) := by
  obtain ⟨h1, h2, h3, h4⟩ := h
  have hv := C13_votes_mod n ((b.clauses.map (convEvalClause m np x)).map (·.base)) (by
    intro c hc
    obtain ⟨d, hd, rfl⟩ := List.mem_map.mp hc
    obtain ⟨d', hd', rfl⟩ := List.mem_map.mp hd
    exact (h4 d' hd').2) k hk
  rw [conv_voteSum m np x hx.1 hx.2 k _ (fun c hc => (h4 c hc).1)] at hv
  simp only [convBackend, ConvBlock.apply, h1, h2, h3, List.getD, hv, Option.getD_some]

/-! ### AVX2 convolutional blocks -/

/-- The portable block that holds the same clauses. -/
def portable (b : VConvBlock) : ConvBlock :=
  ⟨b.cfg.nLits, b.nClasses, b.nPatches, ⟨b.cfg.budget, false, 0, 0⟩, b.clauses.map (unpadConv b.cfg.nLits), b.counts, b.votes,
    b.fast, b.rng⟩

theorem avxCountVotes_unpad (n m : Nat) (cs : List VClause) :
    avxCountVotes n cs = countVotes n (cs.map (unpad m)) := by
  unfold avxCountVotes countVotes
  rw [List.foldl_map]
  rfl

theorem portable_eval (m np n : Nat) (b : VConvBlock) (lits : Mem) (h : AvxConvBlockOK m np n b)
    (hx : Binary (unpadExample (np * m) lits)) :
    portable (b.apply (.evalExample lits)) = (portable b).apply (.evalExample (unpadExample (np * m) lits)) := by
  obtain ⟨h0, rfl, rfl, -, -⟩ := h
  have he : (b.clauses.map (avxConvEvalClause b.cfg b.nPatches lits)).map (unpadConv b.cfg.nLits) =
      (b.clauses.map (unpadConv b.cfg.nLits)).map
        (convEvalClause b.cfg.nLits b.nPatches (unpadExample (b.nPatches * b.cfg.nLits) lits)) := by
    rw [List.map_map, List.map_map]
    exact List.map_congr_left fun c _ => C41_avx2_eval b.cfg b.nPatches lits h0 hx c
  have hv : avxCountVotes b.nClasses ((b.clauses.map (avxConvEvalClause b.cfg b.nPatches lits)).map (·.base)) =
      countVotes b.nClasses (((b.clauses.map (unpadConv b.cfg.nLits)).map
        (convEvalClause b.cfg.nLits b.nPatches (unpadExample (b.nPatches * b.cfg.nLits) lits))).map (·.base)) := by
    rw [← he, avxCountVotes_unpad _ b.cfg.nLits]
    simp only [List.map_map]
    rfl
  unfold portable
  simp only [VConvBlock.apply, ConvBlock.apply, he, hv]

theorem avxConvSetClauses_base (cfg : VCfg) (np : Nat) (lits : Mem) : ∀ (cs : List VConvClause) (k : Nat → Nat) (g : Rng),
    ((avxConvSetClauses cfg np lits cs k g).1.map fun c => (c.base.row, c.base.w)) = cs.map fun c => (c.base.row, c.base.w) := by
  intro cs
  induction cs with
  | nil => intro k g; rfl
  | cons c cs ih => intro k g; simp only [avxConvSetClauses, List.map_cons, ih]; rfl

theorem avxConvTrainClauses_w (cfg : VCfg) (lits : Mem) (fb : Feedback) : ∀ (cs : List VConvClause) (f : Rng) (g : VRng),
    ((avxConvTrainClauses cfg lits fb cs f g).1.map fun c => c.base.w.length) = cs.map fun c => c.base.w.length := by
  intro cs
  induction cs with
  | nil => intro f g; rfl
  | cons c cs ih =>
    intro f g
    simp only [avxConvTrainClauses, List.map_cons, ih]
    congr 1
    exact avxTrainClause_w_length _ _ _ _ _ _

theorem all_of_map {α β : Type} {f : α → β} {p : β → Prop} {as bs : List α} (h : as.map f = bs.map f)
    (hb : ∀ b ∈ bs, p (f b)) : ∀ a ∈ as, p (f a) := by
  intro a ha
  have : f a ∈ bs.map f := h ▸ List.mem_map_of_mem ha
  obtain ⟨b, hb', e⟩ := List.mem_map.mp this
  rw [← e]
  exact hb b hb'

theorem avxConv_keeps (m np n : Nat) : Keeps avxConvBackend n (AvxConvBlockOK m np n) := by
  constructor
  · intro b x ⟨h0, h1, h2, h3, h4⟩
    have hs : ∀ c ∈ (avxConvSetClauses b.cfg b.nPatches x b.clauses b.counts b.rng).1, c.base.w.length = n :=
      all_of_map (f := fun c : VConvClause => (c.base.row, c.base.w)) (p := fun p => p.2.length = n)
        (avxConvSetClauses_base b.cfg b.nPatches x b.clauses b.counts b.rng) h4
    refine ⟨⟨h0, h1, h2, h3, hs⟩, ?_⟩
    simp only [avxConvBackend, VConvBlock.apply, h3]
    refine (avxCountVotes_length n _ ?_).ge
    intro c hc
    obtain ⟨d, hd, rfl⟩ := List.mem_map.mp hc
    exact hs d hd
  · intro b x ⟨h0, h1, h2, h3, h4⟩
    have hs : ∀ c ∈ b.clauses.map (avxConvEvalClause b.cfg b.nPatches x), c.base.w.length = n := by
      intro c hc
      obtain ⟨d, hd, rfl⟩ := List.mem_map.mp hc
      exact h4 d hd
    refine ⟨⟨h0, h1, h2, h3, hs⟩, ?_⟩
    simp only [avxConvBackend, VConvBlock.apply, h3]
    refine (avxCountVotes_length n _ ?_).ge
    intro c hc
    obtain ⟨d, hd, rfl⟩ := List.mem_map.mp hc
    exact hs d hd
  · intro b x fb ⟨h0, h1, h2, h3, h4⟩
    refine ⟨h0, h1, h2, h3, ?_⟩
    exact all_of_map (f := fun c : VConvClause => c.base.w.length) (p := fun p => p = n)
      (avxConvTrainClauses_w b.cfg x fb b.clauses b.fast b.vrng) h4

theorem avxConvSetClauses_out (cfg : VCfg) (np : Nat) (lits : Mem) (F : VConvClause → VConvClause)
    (hF : ∀ c, ∃ o, F c = { c with base := { c.base with out := o } }) :
    ∀ (cs : List VConvClause) (k : Nat → Nat) (g : Rng),
    avxConvSetClauses cfg np lits (cs.map F) k g = avxConvSetClauses cfg np lits cs k g := by
  intro cs
  induction cs with
  | nil => intro k g; rfl
  | cons c cs ih =>
    intro k g
    obtain ⟨o, ho⟩ := hF c
    have : avxConvSetClause cfg np lits (F c) k g = avxConvSetClause cfg np lits c k g := by rw [ho]; rfl
    simp only [List.map_cons, avxConvSetClauses, this, ih]

theorem avxConvEval_only_out (cfg : VCfg) (np : Nat) (lits : Mem) (c : VConvClause) :
    ∃ o, avxConvEvalClause cfg np lits c = { c with base := { c.base with out := o } } := by
  unfold avxConvEvalClause
  exact ⟨_, rfl⟩

theorem avxConvEval_again (cfg : VCfg) (np : Nat) (x y : Mem) (c : VConvClause) :
    avxConvEvalClause cfg np x (avxConvEvalClause cfg np y c) = avxConvEvalClause cfg np x c := by
  obtain ⟨o, h⟩ := avxConvEval_only_out cfg np y c
  rw [h]
  unfold avxConvEvalClause
  rfl

theorem avxConv_train_congr (b b' : VConvBlock) (x : Mem) (v : List Int) (cs : List VConvClause)
    (hb : b' = { b with clauses := cs, votes := v })
    (h : avxConvSetClauses b.cfg b.nPatches x cs b.counts b.rng = avxConvSetClauses b.cfg b.nPatches x b.clauses b.counts b.rng) :
    b'.apply (.trainExample x) = b.apply (.trainExample x) := by
  subst hb
  unfold VConvBlock.apply
  dsimp only
  rw [h]

theorem avxConv_eval_congr (b b' : VConvBlock) (x : Mem) (v : List Int) (cs : List VConvClause)
    (hb : b' = { b with clauses := cs, votes := v })
    (h : cs.map (avxConvEvalClause b.cfg b.nPatches x) = b.clauses.map (avxConvEvalClause b.cfg b.nPatches x)) :
    b'.apply (.evalExample x) = b.apply (.evalExample x) := by
  subst hb
  unfold VConvBlock.apply
  dsimp only
  rw [h]

theorem avxConv_scratch (P : VConvBlock → Prop) (hP : ∀ b y, P b → P (avxConvBackend.evalExample b y)) :
    EvalIsScratch avxConvBackend P := by
  intro b y h
  refine ⟨hP b y h, fun x => ?_, fun x => ?_⟩
  · exact avxConv_train_congr b _ x _ _ rfl
      (avxConvSetClauses_out _ _ _ (avxConvEvalClause b.cfg b.nPatches y) (avxConvEval_only_out _ _ _) _ _ _)
  · refine avxConv_eval_congr b _ x _ _ rfl ?_
    rw [List.map_map]
    exact List.map_congr_left fun c _ => avxConvEval_again b.cfg b.nPatches x y c

theorem avxConv_block_votes (m np n : Nat) (b : VConvBlock) (lits : Mem) (k : Nat) (h : AvxConvBlockOK m np n b)
    (hx : Binary (unpadExample (np * m) lits)) (hk : k < n) :
    (avxConvBackend.votes (avxConvBackend.evalExample b lits)).getD k 0 =
      wrap16 (convFiringSum m np (b.clauses.map fun c => learned (unpad b.cfg.nLits c.base)) (unpadExample (np * m) lits) k) := by
  have hp := portable_eval m np n b lits h hx
  have hok : ConvBlockOK m np n (portable b) := by
    obtain ⟨h0, h1, h2, h3, h4⟩ := h
    refine ⟨h1, h2, h3, ?_⟩
    intro c hc
    obtain ⟨d, hd, rfl⟩ := List.mem_map.mp hc
    exact ⟨by rw [← h1]; constructor <;> simp [unpadConv, unpad], h4 d hd⟩
  have := conv_block_votes m np n (portable b) (unpadExample (np * m) lits) k hok ⟨hx, by simp [unpadExample]⟩ hk
  have hvv : avxConvBackend.votes (avxConvBackend.evalExample b lits) =
      convBackend.votes (convBackend.evalExample (portable b) (unpadExample (np * m) lits)) :=
    congrArg ConvBlock.votes hp
  rw [hvv, this]
  congr 2
  simp only [portable, List.map_map]
  rfl

/-! ### NEON blocks -/

theorem neonEval_out (cfg : VCfg) (lits : Mem) (a : Bool) (c : VClause) :
    (∃ o, (neonEvalClause cfg lits a c).1 = { c with out := o }) ∧
    ∀ o, neonEvalClause cfg lits a { c with out := o } = neonEvalClause cfg lits a c := by
  constructor
  · unfold neonEvalClause
    dsimp only
    split
    · exact ⟨_, rfl⟩
    · split
      · exact ⟨_, rfl⟩
      · exact ⟨_, rfl⟩
  · intro o; rfl

theorem neonEvals_out (cfg : VCfg) (lits y : Mem) : ∀ (cs : List VClause) (a a' : Bool),
    neonEvalClauses cfg lits a (neonEvalClauses cfg y a' cs) = neonEvalClauses cfg lits a cs := by
  intro cs
  induction cs with
  | nil => intro a a'; rfl
  | cons c cs ih =>
    intro a a'
    obtain ⟨o, ho⟩ := (neonEval_out cfg y a' c).1
    simp only [neonEvalClauses, ih]
    rw [ho, (neonEval_out cfg lits a c).2 o]

theorem neonEvals_rows (cfg : VCfg) (lits : Mem) : ∀ (cs : List VClause) (a : Bool),
    (neonEvalClauses cfg lits a cs).map (fun c => (c.row, c.w, c.cnt)) = cs.map fun c => (c.row, c.w, c.cnt) := by
  intro cs
  induction cs with
  | nil => intro a; rfl
  | cons c cs ih =>
    intro a
    obtain ⟨o, ho⟩ := (neonEval_out cfg lits a c).1
    simp only [neonEvalClauses, List.map_cons, ih, ho]

theorem neonCountVotes_unpad (n m : Nat) (cs : List VClause) :
    neonCountVotes n cs = countVotes n (cs.map (neonUnpad m)) := by
  unfold neonCountVotes countVotes
  rw [List.foldl_map]
  rfl

theorem neonCountVotes_ge (n : Nat) (cs : List VClause) (h : ∀ c ∈ cs, c.w.length = n) :
    n ≤ (neonCountVotes n cs).length := by
  rw [neonCountVotes_unpad n 0]
  apply countVotes_ge
  intro c hc
  obtain ⟨d, hd, rfl⟩ := List.mem_map.mp hc
  exact h d hd

theorem neon_keepsEval (m n : Nat) : KeepsEval neonBackend n (NeonBlockOK m n) := by
  rintro b x ⟨d, rfl, h0, h1, h2, h3⟩
  have hs : ∀ c ∈ neonEvalClauses d.cfg x false d.clauses, c.w.length = n :=
    all_of_map (f := fun c : VClause => (c.row, c.w, c.cnt)) (p := fun p => p.2.1.length = n)
      (neonEvals_rows d.cfg x d.clauses false) h3
  refine ⟨⟨_, rfl, h0, h1, h2, hs⟩, ?_⟩
  show n ≤ (neonCountVotes d.nClasses (neonEvalClauses d.cfg x false d.clauses)).length
  rw [h2]
  exact neonCountVotes_ge n _ hs

theorem neonSetClause_rw (cfg : VCfg) (lits : Mem) (c : VClause) :
    (neonSetClause cfg lits c).row = c.row ∧ (neonSetClause cfg lits c).w = c.w ∧
    ∀ o, neonSetClause cfg lits { c with out := o } = neonSetClause cfg lits c := by
  refine ⟨?_, ?_, fun o => rfl⟩
  · unfold neonSetClause
    dsimp only
    split
    · rfl
    · split
      · rfl
      · rfl
  · unfold neonSetClause
    dsimp only
    split
    · rfl
    · split
      · rfl
      · rfl

theorem neonTrainClause_w_length (cfg : VCfg) (lits : Mem) (fb : Feedback) (c : VClause) (f : Rng) (g : VRng) :
    (neonTrainClause cfg lits fb c f g).1.w.length = c.w.length := by
  rw [neonTrainClause_w]
  dsimp only
  split <;> split <;> simp [bump_length]

theorem neon_keeps (m n : Nat) : Keeps neonBackend n (NeonBudgetOK m n) := by
  constructor
  · rintro b x ⟨⟨d, rfl, h0, h1, h2, h3⟩, hb⟩
    have hb' := hb d rfl
    have hset : neonSetClauses d.cfg x d.clauses = some (d.clauses.map (neonSetClause d.cfg x)) := by
      unfold neonSetClauses
      rw [if_neg (fun h => hb' h.2)]
    have hs : ∀ c ∈ d.clauses.map (neonSetClause d.cfg x), c.w.length = n := by
      intro c hc
      obtain ⟨d', hd, rfl⟩ := List.mem_map.mp hc
      rw [(neonSetClause_rw d.cfg x d').2.1]
      exact h3 d' hd
    have e : neonBackend.trainExample (some d) x = some { d with
        clauses := d.clauses.map (neonSetClause d.cfg x),
        votes := neonCountVotes d.nClasses (d.clauses.map (neonSetClause d.cfg x)) } := by
      simp [neonBackend, NBlock.apply, hset]
    rw [e]
    refine ⟨⟨⟨_, rfl, h0, h1, h2, hs⟩, ?_⟩, ?_⟩
    · intro d' hd'
      obtain rfl := (Option.some.inj hd').symm
      exact hb'
    · show n ≤ (neonCountVotes d.nClasses (d.clauses.map (neonSetClause d.cfg x))).length
      rw [h2]
      exact neonCountVotes_ge n _ hs
  · rintro b x ⟨hok, hb⟩
    have := neon_keepsEval m n b x hok
    refine ⟨⟨this.1, ?_⟩, this.2⟩
    obtain ⟨d, rfl, -⟩ := hok
    intro d' hd'
    obtain rfl := (Option.some.inj hd').symm
    exact hb d rfl
  · rintro b x fb ⟨⟨d, rfl, h0, h1, h2, h3⟩, hb⟩
    refine ⟨⟨_, rfl, h0, h1, h2, ?_⟩, ?_⟩
    · intro c hc
      change c ∈ (neonTrainClauses d.cfg x fb d.clauses d.fast d.vrng).1 at hc
      obtain ⟨i, hi, rfl⟩ := List.mem_iff_getElem.mp hc
      have hi' : i < d.clauses.length := by
        have := neonTrainClauses_length d.cfg x fb d.clauses d.fast d.vrng
        omega
      obtain ⟨g', e⟩ := neonTrainClauses_get d.cfg x fb d.clauses d.fast d.vrng i _ (List.getElem?_eq_getElem hi')
      rw [List.getElem?_eq_getElem hi, Option.some.injEq] at e
      rw [e, neonTrainClause_w_length]
      exact h3 _ (List.getElem_mem hi')
    · intro d' hd'
      obtain rfl := (Option.some.inj hd').symm
      exact hb d rfl

theorem neon_scratch (m n : Nat) : EvalIsScratch neonBackend (NeonBudgetOK m n) := by
  intro b y h
  refine ⟨((neon_keeps m n).eval b y h).1, fun x => ?_, fun x => ?_⟩
  · obtain ⟨⟨d, rfl, h0, h1, h2, h3⟩, hb⟩ := h
    have hb' := hb d rfl
    have hset : ∀ cs, neonSetClauses d.cfg x cs = some (cs.map (neonSetClause d.cfg x)) := by
      intro cs
      unfold neonSetClauses
      rw [if_neg (fun h => hb' h.2)]
    have : ∀ (cs : List VClause) (a : Bool), (neonEvalClauses d.cfg y a cs).map (neonSetClause d.cfg x) =
        cs.map (neonSetClause d.cfg x) := by
      intro cs
      induction cs with
      | nil => intro a; rfl
      | cons c cs ih =>
        intro a
        obtain ⟨o, ho⟩ := (neonEval_out d.cfg y a c).1
        simp only [neonEvalClauses, List.map_cons, ih]
        rw [ho, (neonSetClause_rw d.cfg x c).2.2 o]
    simp only [neonBackend, NBlock.apply, Option.bind_some, hset, this]
  · obtain ⟨⟨d, rfl, -⟩, -⟩ := h
    simp only [neonBackend, NBlock.apply, Option.bind_some, neonEvals_out]

/-- The sum of the weights for class `k` of the clauses a NEON block switches on. -/
def neonSum (b : Option NBlock) (lits : Mem) (k : Nat) : Int :=
  ((b.map fun d => voteSum ((neonEvalClauses d.cfg lits false d.clauses).map (neonUnpad 0)) k)).getD 0

theorem neon_block_votes (m n : Nat) (b : Option NBlock) (lits : Mem) (k : Nat) (h : NeonBlockOK m n b) (hk : k < n) :
    (neonBackend.votes (neonBackend.evalExample b lits)).getD k 0 = wrap16 (neonSum b lits k) := by
  have hlen := (neon_keepsEval m n b lits h).1
  obtain ⟨d, rfl, h0, h1, h2, h3⟩ := h
  obtain ⟨d', hd', -, -, -, h3'⟩ := hlen
  obtain rfl := (Option.some.inj hd').symm
  have hv := C13_votes_mod n ((neonEvalClauses d.cfg lits false d.clauses).map (neonUnpad 0)) (by
    intro c hc
    obtain ⟨c', hc', rfl⟩ := List.mem_map.mp hc
    exact h3' c' hc') k hk
  show (neonCountVotes d.nClasses (neonEvalClauses d.cfg lits false d.clauses)).getD k 0 = _
  rw [neonCountVotes_unpad _ 0, h2, List.getD, hv]
  rfl

theorem neonSum_eval (b : Option NBlock) (y : Mem) : neonSum (neonBackend.evalExample b y) = neonSum b := by
  cases b with
  | none => rfl
  | some d =>
    funext x k
    simp only [neonSum, neonBackend, NBlock.apply, Option.bind_some, Option.map_some, neonEvals_out]

theorem neonEvals_congr (cfg cfg' : VCfg) (hn : cfg.nLits = cfg'.nLits) (lits : Mem) : ∀ (cs ds : List VClause) (a : Bool),
    cs.map (fun c => (c.row, c.w)) = ds.map (fun c => (c.row, c.w)) →
    (neonEvalClauses cfg lits a cs).map (fun c => (c.w, c.out)) = (neonEvalClauses cfg' lits a ds).map fun c => (c.w, c.out) := by
  intro cs
  induction cs with
  | nil => intro ds a h; rw [Fresh.map_eq_nil h]; rfl
  | cons c cs ih =>
    intro ds a h
    cases ds with
    | nil => simp at h
    | cons d ds =>
      simp only [List.map_cons, List.cons.injEq, Prod.mk.injEq] at h
      obtain ⟨⟨hr, hw⟩, ht⟩ := h
      obtain ⟨r, w, o, t⟩ := c
      obtain ⟨r', w', o', t'⟩ := d
      simp only at hr hw
      subst hr hw
      have e : (neonEvalClause cfg lits a ⟨r, w, o, t⟩).1.out = (neonEvalClause cfg' lits a ⟨r, w, o', t'⟩).1.out ∧
          (neonEvalClause cfg lits a ⟨r, w, o, t⟩).2 = (neonEvalClause cfg' lits a ⟨r, w, o', t'⟩).2 := by
        unfold neonEvalClause
        rw [hn]
        dsimp only
        split
        · exact ⟨rfl, rfl⟩
        · split
          · exact ⟨rfl, rfl⟩
          · exact ⟨rfl, rfl⟩
      have ew : (neonEvalClause cfg lits a ⟨r, w, o, t⟩).1.w = (neonEvalClause cfg' lits a ⟨r, w, o', t'⟩).1.w := by
        obtain ⟨_, h1⟩ := (neonEval_out cfg lits a ⟨r, w, o, t⟩).1
        obtain ⟨_, h2⟩ := (neonEval_out cfg' lits a ⟨r, w, o', t'⟩).1
        rw [h1, h2]
      simp only [neonEvalClauses, List.map_cons, e, ew, ih ds _ ht]

theorem neonSum_congr (m n : Nat) (b d : Option NBlock) (hb : NeonBlockOK m n b) (hd : NeonBlockOK m n d)
    (h : neonRows b = neonRows d) : neonSum b = neonSum d := by
  obtain ⟨b, rfl, -, h1, -, -⟩ := hb
  obtain ⟨d, rfl, -, h1', -, -⟩ := hd
  have h := Option.some.inj h
  funext lits k
  have := neonEvals_congr b.cfg d.cfg (h1.trans h1'.symm) lits b.clauses d.clauses false h
  simp only [neonSum, Option.map_some, Option.getD_some]
  have key : ∀ cs : List VClause, voteSum (cs.map (neonUnpad 0)) k =
      (((cs.map fun c => (c.w, c.out)).filter (·.2 == 1)).map (·.1.getD k 0)).sum := by
    intro cs
    unfold voteSum
    induction cs with
    | nil => rfl
    | cons c cs ih =>
      by_cases ho : c.out = 1
      · simp [neonUnpad, ho] at ih ⊢; exact ih
      · simp [neonUnpad, ho] at ih ⊢; exact ih
  rw [key, key, this]

/-- No clause of the block is empty. -/
def NonEmptyNeon (m : Nat) (b : Option NBlock) : Prop :=
  ∀ d, b = some d → ∀ c ∈ d.clauses, ¬ EmptyClause (neonUnpad m c).pos (neonUnpad m c).neg

theorem nonEmpty_eval (m n : Nat) : KeepsEval neonBackend n (fun b => NeonBlockOK m n b ∧ NonEmptyNeon m b) := by
  rintro b x ⟨h, h'⟩
  have := neon_keepsEval m n b x h
  refine ⟨⟨this.1, ?_⟩, this.2⟩
  obtain ⟨d, rfl, -⟩ := h
  intro d' hd'
  obtain rfl := (Option.some.inj hd').symm
  refine all_of_map (f := fun c : VClause => (c.row, c.w, c.cnt)) (p := fun p =>
    ¬ EmptyClause (neonUnpad m ⟨p.1, p.2.1, 0, p.2.2⟩).pos (neonUnpad m ⟨p.1, p.2.1, 0, p.2.2⟩).neg)
    (neonEvals_rows d.cfg x d.clauses false) ?_
  exact h' d rfl

theorem neonSum_nonEmpty (m n : Nat) (b : Option NBlock) (lits : Mem) (k : Nat) (h : NeonBlockOK m n b)
    (he : NonEmptyNeon m b) (hx : Binary (unpadExample m lits)) :
    neonSum b lits k =
      firingSum ((b.map fun b => b.clauses.map fun c => learned (neonUnpad b.cfg.nLits c)).getD []) (unpadExample m lits) k := by
  obtain ⟨d, rfl, h0, rfl, -, -⟩ := h
  have he := he d rfl
  simp only [neonSum, Option.map_some, Option.getD_some]
  revert he
  generalize d.clauses = cs
  generalize false = a
  induction cs generalizing a with
  | nil => intro _; rfl
  | cons c cs ih =>
    intro he
    have ih := fun a => ih a (fun c hc => he c (by simp [hc]))
    have h1 := (neon_eval_clause d.cfg lits a c h0 hx).1 (Or.inl (he c (by simp)))
    have h2 := (C05_eval_output _ _ hx (Neon.unpad_shaped d.cfg.nLits c lits)).1
    obtain ⟨o, ho⟩ := (neonEval_out d.cfg lits a c).1
    have hw : (neonEvalClause d.cfg lits a c).1.w = c.w := by rw [ho]
    classical
    rw [neonEvalClauses, List.map_cons, List.map_cons, firingSum_cons, ← ih (neonEvalClause d.cfg lits a c).2]
    rw [← h1] at h2
    unfold voteSum
    by_cases ho : (neonEvalClause d.cfg lits a c).1.out = 1
    · have hf : Fires (unpadExample d.cfg.nLits lits) (learned (neonUnpad d.cfg.nLits c)) := h2.mp ho
      have hb : ((neonUnpad 0 (neonEvalClause d.cfg lits a c).1).out == 1) = true := by simpa [neonUnpad] using ho
      simp only [List.filter_cons, hb, hf]
      simp [learned, neonUnpad, hw]
    · have hf : ¬ Fires (unpadExample d.cfg.nLits lits) (learned (neonUnpad d.cfg.nLits c)) := fun hf => ho (h2.mpr hf)
      have hb : ((neonUnpad 0 (neonEvalClause d.cfg lits a c).1).out == 1) = false := by simpa [neonUnpad] using ho
      simp only [List.filter_cons, hb, hf]
      simp

theorem firingSum_flat {B : Type} (f : B → List (List Int × List Int × List Int)) (x : List Nat) (k : Nat)
    (bs : List B) : (bs.map fun b => firingSum (f b) x k).sum = firingSum (bs.flatMap f) x k := by
  induction bs with
  | nil => rfl
  | cons b bs ih => simp [ih, firingSum_append]

end GT.CE
