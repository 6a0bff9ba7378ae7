import Verif.Spec.Session
import Verif.Lemmas.Flat
import Mathlib.Data.List.Forall2

namespace GT.SessionL
open GT.Spec GT.FlatMem

/-- What the generic argument needs from an input block. -/
structure Faithful {S D X : Type} (io : InputOps S D X) (Enc : D → Option (LabelledExamples X) → Prop) (Good : S → Option (LabelledExamples X) → Prop) : Prop where
  set : ∀ s o d o', Good s o → Enc d o' → Good (io.setData s d).2 o'
  count : ∀ s ds, Good s (some ds) → io.nExamples s = ds.length
  prep : ∀ s ds (i : Nat) (h : i < ds.length), Good s (some ds) → ∃ s', io.prepare s i = some s' ∧ Good s' (some ds) ∧
    io.shown s' = ds[i].1 ∧ ∀ n, n ≤ ds[i].2.length → readLabels (io.lab s').cur n 0 = some (ds[i].2.take n)

theorem trainWalk_ok {S D X : Type} {io : InputOps S D X} {Enc : D → Option (LabelledExamples X) → Prop} {Good : S → Option (LabelledExamples X) → Prop}
    (hf : Faithful io Enc Good) (nRead : Nat) (ds : LabelledExamples X) (hl : Labelled nRead ds) (index : List Nat) (hi : ∀ e ∈ index, e < ds.length) :
    ∀ (r k : Nat) (s : S), Good s (some ds) → k + r ≤ index.length →
      ∃ s', trainWalk io nRead index r k s = some (s', ((index.drop k).take r).flatMap (trainedOn nRead ds)) ∧ Good s' (some ds) := by
  intro r
  induction r with
  | zero => intro k s hs _; exact ⟨s, by simp [trainWalk], hs⟩
  | succ r ih =>
    intro k s hs hk
    have hk' : k < index.length := by omega
    have he : index[k] < ds.length := hi _ (List.getElem_mem hk')
    obtain ⟨s1, h1, g1, h2, h3⟩ := hf.prep s ds index[k] he hs
    obtain ⟨s2, h4, g2⟩ := ih (k + 1) s1 g1 (by omega)
    refine ⟨s2, ?_, g2⟩
    rw [trainWalk, bind_of (rd_getElem index k hk'), bind_of h1, bind_of (h3 nRead (hl _ (List.getElem_mem he)))]
    rw [show ((k : Int) + 1) = ((k + 1 : Nat) : Int) by simp, bind_of h4, h2, List.drop_eq_getElem_cons hk',
      List.take_succ_cons, List.flatMap_cons]
    have : trainedOn nRead ds index[k] = [.trained ds[index[k]].1 (ds[index[k]].2.take nRead)] := by
      simp [trainedOn, List.getElem?_eq_getElem he]
    rw [this]
    rfl

theorem evalWalk_ok {S D X : Type} {io : InputOps S D X} {Enc : D → Option (LabelledExamples X) → Prop} {Good : S → Option (LabelledExamples X) → Prop}
    (hf : Faithful io Enc Good) (ds : LabelledExamples X) :
    ∀ (r k : Nat) (s : S), Good s (some ds) → k + r = ds.length →
      ∃ s', evalWalk io r k s = some (s', (ds.drop k).map fun e => .evaluated e.1) ∧ Good s' (some ds) := by
  intro r
  induction r with
  | zero => intro k s hs hk; exact ⟨s, by simp [evalWalk, List.drop_eq_nil_of_le (show ds.length ≤ k by omega)], hs⟩
  | succ r ih =>
    intro k s hs hk
    have hk' : k < ds.length := by omega
    obtain ⟨s1, h1, g1, h2, h3⟩ := hf.prep s ds k hk' hs
    obtain ⟨s2, h4, g2⟩ := ih (k + 1) s1 g1 (by omega)
    refine ⟨s2, ?_, g2⟩
    rw [evalWalk, bind_of h1, show ((k : Int) + 1) = ((k + 1 : Nat) : Int) by simp, bind_of h4, h2, List.drop_eq_getElem_cons hk', List.map_cons]
    rfl

theorem shuffles_lt {sh : List Nat → List Nat} {n : Nat} (h : Shuffles sh n) : (∀ e ∈ sh (List.range n), e < n) ∧ (sh (List.range n)).length = n :=
  ⟨fun e he => List.mem_range.mp (h.mem_iff.mp he), by simpa using h.length_eq⟩

theorem call_ok {S D X : Type} {io : InputOps S D X} {Enc : D → Option (LabelledExamples X) → Prop} {Good : S → Option (LabelledExamples X) → Prop}
    (hf : Faithful io Enc Good) (nRead : Nat) (s : Session S) (p : InPlace X) (hg : Good s.ib p.data) (ho : s.index = p.order)
    (c : SessionCall D) (a : SessionCall (Option (LabelledExamples X))) (hc : SameCall Enc c a) (hl : Sensible nRead p a) :
    ∃ s', s.call io nRead c = some (s', asks nRead p a) ∧ Good s'.ib (placed p a).data ∧ s'.index = (placed p a).order := by
  have slice0 : ∀ (sh : List Nat → List Nat) (ds : LabelledExamples X) (b : Int), p.data = some ds → Labelled nRead ds → Shuffles sh ds.length → b ≤ ds.length →
      ∃ ib', trainSliceOn io nRead s 0 b sh = some (⟨ib', sh (List.range ds.length)⟩,
        ((sh (List.range ds.length)).take b.toNat).flatMap (trainedOn nRead ds)) ∧ Good ib' (some ds) := by
    intro sh ds b hd hlab hsh hb
    rw [hd] at hg
    obtain ⟨ib', h1, h2⟩ := trainWalk_ok hf nRead ds hlab _ (shuffles_lt hsh).1 b.toNat 0 s.ib hg (by rw [(shuffles_lt hsh).2]; omega)
    refine ⟨ib', ?_, h2⟩
    have hn : ¬((0 : Int) = 0 ∧ io.nExamples s.ib < 0) := by rw [hf.count _ _ hg]; omega
    unfold trainSliceOn
    dsimp only
    rw [if_neg hn, if_pos rfl, hf.count _ _ hg, Int.toNat_natCast, Int.sub_zero]
    rw [show ((0 : Int)) = ((0 : Nat) : Int) from rfl, bind_of h1]
    simp
  cases c with
  | setData d =>
    cases a with
    | setData o => exact ⟨_, rfl, hf.set _ _ _ _ hg hc, ho⟩
    | _ => exact absurd hc (by simp [SameCall])
  | trainEpoch sh =>
    cases a with
    | trainEpoch sh' =>
      have : sh = sh' := hc
      subst this
      obtain ⟨ds, hd, hlab, hsh⟩ := hl
      obtain ⟨ib', h1, h2⟩ := slice0 sh ds ds.length hd hlab hsh (Int.le_refl _)
      refine ⟨⟨ib', sh (List.range ds.length)⟩, ?_, ?_, ?_⟩
      rotate_left
      · show Good (⟨ib', sh (List.range ds.length)⟩ : Session S).ib p.data
        rw [hd]; exact h2
      · simp [placed, hd]
      · rw [hd] at hg
        show trainSliceOn io nRead s 0 (io.nExamples s.ib) sh = _
        rw [hf.count _ _ hg, h1, Int.toNat_natCast, List.take_of_length_le (Nat.le_of_eq (shuffles_lt hsh).2)]
        simp [asks, hd]
    | _ => exact absurd hc (by simp [SameCall])
  | trainSlice x y sh =>
    cases a with
    | trainSlice x' y' sh' =>
      obtain ⟨e1, e2, e3⟩ : x = x' ∧ y = y' ∧ sh = sh' := hc
      subst e1; subst e2; subst e3
      obtain ⟨ds, hd, hlab, hx, hrest⟩ := hl
      by_cases h0 : x = 0
      · subst h0
        rw [if_pos rfl] at hrest
        obtain ⟨ib', h1, h2⟩ := slice0 sh ds y hd hlab hrest.1 hrest.2
        refine ⟨⟨ib', sh (List.range ds.length)⟩, ?_, ?_, ?_⟩
        · show trainSliceOn io nRead s 0 y sh = _
          rw [h1]; simp [asks, hd]
        · simpa [placed, hd] using h2
        · simp [placed, hd]
      · rw [if_neg h0] at hrest
        rw [hd] at hg
        by_cases hxy : x ≤ y
        · obtain ⟨ib', h1, h2⟩ := trainWalk_ok hf nRead ds hlab s.index (by rw [ho]; exact hrest.2) (y - x).toNat x.toNat s.ib hg
            (by rw [ho]; omega)
          rw [Int.toNat_of_nonneg hx] at h1
          refine ⟨⟨ib', s.index⟩, ?_, ?_, ?_⟩
          · show trainSliceOn io nRead s x y sh = _
            unfold trainSliceOn
            dsimp only
            rw [if_neg (fun h => h0 h.1), if_neg h0, bind_of h1]
            simp [asks, h0, hd, ho]
          · simpa [placed, h0, hd] using h2
          · simp [placed, h0, ho]
        · refine ⟨s, ?_, ?_, ?_⟩
          · show trainSliceOn io nRead s x y sh = _
            unfold trainSliceOn
            dsimp only
            rw [if_neg (fun h => h0 h.1), if_neg h0, show (y - x).toNat = 0 by omega]
            simp [trainWalk, asks, h0, show (y - x).toNat = 0 by omega]
          · simpa [placed, h0, hd] using hg
          · simp [placed, h0, ho]
    | _ => exact absurd hc (by simp [SameCall])
  | evalPredict n =>
    cases a with
    | evalPredict n' =>
      have : n = n' := hc
      subst this
      obtain ⟨ds, hd⟩ := Option.ne_none_iff_exists'.mp hl
      have hg' := hg
      rw [hd] at hg
      by_cases hn : n = ds.length
      · subst hn
        obtain ⟨ib', h1, h2⟩ := evalWalk_ok hf ds ds.length 0 s.ib hg (by omega)
        refine ⟨{ s with ib := ib' }, ?_, ?_, ho⟩
        · unfold Session.call
          dsimp only
          rw [if_neg (by rw [hf.count _ _ hg]; simp)]
          rw [show ((0 : Int)) = ((0 : Nat) : Int) from rfl, bind_of h1]
          simp [asks, hd]
        · simpa [placed, hd] using h2
      · refine ⟨s, ?_, hg', ho⟩
        unfold Session.call
        dsimp only
        rw [if_pos (by rw [hf.count _ _ hg]; omega)]
        simp [asks, hd, hn]
    | _ => exact absurd hc (by simp [SameCall])

theorem run_ok {S D X : Type} {io : InputOps S D X} {Enc : D → Option (LabelledExamples X) → Prop} {Good : S → Option (LabelledExamples X) → Prop}
    (hf : Faithful io Enc Good) (nRead : Nat) :
    ∀ (cs : List (SessionCall D)) (as : List (SessionCall (Option (LabelledExamples X)))) (s : Session S) (p : InPlace X),
      Good s.ib p.data → s.index = p.order → List.Forall₂ (SameCall Enc) cs as → SensibleAll nRead p as →
      ∃ s', s.run io nRead cs = some (s', asked nRead p as) := by
  intro cs
  induction cs with
  | nil => intro as s p _ _ hm _; cases hm; exact ⟨s, rfl⟩
  | cons c cs ih =>
    intro as s p hg ho hm hl
    cases hm with
    | cons hc hrest =>
      obtain ⟨s1, h1, g1, o1⟩ := call_ok hf nRead s p hg ho _ _ hc hl.1
      obtain ⟨s2, h2⟩ := ih _ s1 _ g1 o1 hrest hl.2
      refine ⟨s2, ?_⟩
      rw [Session.run, bind_of h1]
      dsimp only
      rw [bind_of h2]
      simp [asked]

/-! ## Labels -/

theorem flatten_drop {α : Type} (k : Nat) : ∀ (ls : List (List α)) (i : Nat), (∀ l ∈ ls, l.length = k) → i ≤ ls.length →
    ls.flatten.drop (i * k) = (ls.drop i).flatten := by
  intro ls
  induction ls with
  | nil => intro i _ hi; simp at hi; subst hi; simp
  | cons l ls ih =>
    intro i h hi
    cases i with
    | zero => simp
    | succ i =>
      have h1 := h l (by simp)
      rw [List.flatten_cons, show (i + 1) * k = l.length + i * k by rw [h1, Nat.succ_mul, Nat.add_comm], List.drop_append, List.drop_succ_cons]
      rw [List.drop_eq_nil_of_le (by omega), List.nil_append, show l.length + i * k - l.length = i * k by omega]
      exact ih i (fun l hl => h l (by simp [hl])) (by simpa using hi)

theorem readLabels_ok (a y r : List Nat) (o : Nat) (h : a.drop o = y ++ r) :
    ∀ (n k : Nat), k + n ≤ y.length → readLabels (some (a, (o : Int))) n k = some ((y.drop k).take n) := by
  intro n
  induction n with
  | zero => intro k _; simp [readLabels]
  | succ n ih =>
    intro k hk
    have hk' : k < y.length := by omega
    have hlen : o + k < a.length := by
      have := congrArg List.length h
      simp at this; omega
    have hv : a[o + k] = y[k] := by
      have : (a.drop o)[k]? = y[k]? := by rw [h, List.getElem?_append_left hk']
      rw [List.getElem?_drop, List.getElem?_eq_getElem hlen, List.getElem?_eq_getElem hk'] at this
      exact Option.some.inj this
    unfold readLabels
    simp only [Option.bind_eq_bind, Option.bind_some]
    rw [show ((o : Int) + (k : Int)) = ((o + k : Nat) : Int) by simp, rd_getElem a (o + k) hlen, ih (k + 1) (by omega)]
    simp only [Option.bind_some, hv]
    rw [List.drop_eq_getElem_cons hk', List.take_succ_cons]
    rfl

/-- The label members hold the labels of a data set. -/
def LabOk {X : Type} (l : LabelMem) (ds : LabelledExamples X) : Prop :=
  (l.labels = none ∧ ∀ e ∈ ds, e.2 = []) ∨
  (l.labels = some (ds.map Prod.snd).flatten ∧ (∀ e ∈ ds, e.2.length = l.perEx) ∧ (ds.length - 1) * l.perEx < 2147483648)

theorem mul_lt_of {i n k : Nat} (hi : i < n) (h : (n - 1) * k < 2147483648) : i * k < 2147483648 :=
  Nat.lt_of_le_of_lt (Nat.mul_le_mul_right k (by omega)) h

theorem i32_mul {i n k : Nat} (hi : i < n) (h : (n - 1) * k < 2147483648) : i32 ((i : Int) * k) = some ((i * k : Nat) : Int) :=
  i32_nat (i * k) (by simp) (mul_lt_of hi h)

theorem point_ok {X : Type} (l : LabelMem) (ds : LabelledExamples X) (h : LabOk l ds) (i : Nat) (hi : i < ds.length) :
    ∃ l', l.point i = some l' ∧ LabOk l' ds ∧ ∀ n, n ≤ ds[i].2.length → readLabels l'.cur n 0 = some (ds[i].2.take n) := by
  rcases h with ⟨h1, h2⟩ | ⟨h1, h2, h3⟩
  · refine ⟨l, by simp [LabelMem.point, h1], Or.inl ⟨h1, h2⟩, ?_⟩
    intro n hn
    rw [h2 _ (List.getElem_mem hi)] at hn
    have : n = 0 := by simpa using hn
    subst this
    simp [readLabels]
  · refine ⟨{ l with cur := some ((ds.map Prod.snd).flatten, ((i * l.perEx : Nat) : Int)) }, ?_, Or.inr ⟨h1, h2, h3⟩, ?_⟩
    · unfold LabelMem.point
      rw [h1]
      simp only [i32_mul hi h3]
      rfl
    · intro n hn
      have hd : (ds.map Prod.snd).flatten.drop (i * l.perEx) = ds[i].2 ++ ((ds.map Prod.snd).drop (i + 1)).flatten := by
        rw [flatten_drop l.perEx _ i (by intro x hx; obtain ⟨e, he, rfl⟩ := List.mem_map.mp hx; exact h2 e he) (by simp; omega)]
        rw [List.drop_eq_getElem_cons (by simpa using hi)]
        simp
      simpa using readLabels_ok _ _ _ _ hd n 0 (by omega)

theorem labelsPer_of {X : Type} {l : NdArr Nat} {ds : LabelledExamples X} (hl : LabelArray l ds) (lab : LabelMem) :
    l.shape.headD 0 = ds.length ∧ LabOk { lab with perEx := labelsPer l.shape, labels := some l.elems } ds := by
  obtain ⟨k, hs, he, hk, hsm⟩ := hl
  rcases hs with ⟨hs, rfl⟩ | hs
  · rw [hs]
    exact ⟨rfl, Or.inr ⟨by simp [he], hk, hsm⟩⟩
  · rw [hs]
    exact ⟨rfl, Or.inr ⟨by simp [he], hk, hsm⟩⟩

/-! ## Dense -/

def DGood (nLits : Nat) (b : FlatDenseIB) (o : Option (LabelledExamples (List Nat))) : Prop :=
  b.nLits = nLits ∧ nLits ≤ b.buffer.length ∧ match o with
  | none => True
  | some ds => b.nExamples = ds.length ∧ LabOk b.lab ds ∧ (∀ e ∈ ds, e.1.length = nLits) ∧ (ds.length - 1) * nLits < 2147483648 ∧
      (0 < ds.length → b.data = some (ds.map Prod.fst).flatten)

theorem copyFrom_row (nLits : Nat) (ds : LabelledExamples (List Nat)) (h : ∀ e ∈ ds, e.1.length = nLits) (i : Nat) (hi : i < ds.length) :
    copyFrom (ds.map Prod.fst).flatten ((i * nLits : Nat) : Int) nLits = some ds[i].1 := by
  have hd : (ds.map Prod.fst).flatten.drop (i * nLits) = ds[i].1 ++ ((ds.map Prod.fst).drop (i + 1)).flatten := by
    rw [flatten_drop nLits _ i (by intro x hx; obtain ⟨e, he, rfl⟩ := List.mem_map.mp hx; exact h e he) (by simp; omega)]
    rw [List.drop_eq_getElem_cons (by simpa using hi)]
    simp
  have hl := h _ (List.getElem_mem hi)
  unfold copyFrom
  rw [Int.toNat_natCast, hd, if_pos, List.take_append_of_le_length (by omega), List.take_of_length_le (by omega)]
  refine ⟨by omega, ?_⟩
  by_cases h0 : nLits = 0
  · subst h0; simp
  · have := congrArg List.length hd
    rw [List.length_drop, List.length_append, hl] at this
    omega

theorem dense_faithful (nLits : Nat) : Faithful denseInput (DenseArrays nLits) (DGood nLits) where
  set := by
    intro s o d o' hg he
    obtain ⟨h1, h2, _⟩ := hg
    show DGood nLits (FlatDenseIB.setData s d).2 o'
    cases o' with
    | none =>
      unfold FlatDenseIB.setData
      dsimp only
      split
      · exact ⟨h1, h2, trivial⟩
      · split
        · exact ⟨h1, h2, trivial⟩
        · split <;> exact ⟨h1, h2, trivial⟩
    | some ds =>
      obtain ⟨e1, e2, e3, e4, e5, e6⟩ := he
      unfold FlatDenseIB.setData
      dsimp only
      rw [e1]
      simp only [List.headD_cons, List.tail_cons, h1, ne_eq, not_true_eq_false, if_false]
      rcases e6 with e6 | ⟨e6, e7⟩
      · obtain ⟨f1, f2⟩ := labelsPer_of e6 s.lab
        by_cases h0 : ds.length = 0
        · rw [f1, h0, if_pos rfl]
          refine ⟨rfl, h2, by simp [h0], ?_, e3, e5, fun h => by omega⟩
          refine Or.inl ⟨rfl, ?_⟩
          have : ds = [] := List.length_eq_zero_iff.mp h0
          subst this; simp
        · rw [f1, if_neg h0, if_neg (by simp)]
          exact ⟨rfl, h2, rfl, f2, e3, e5, fun _ => by simp [e2]⟩
      · rw [if_pos e6]
        exact ⟨rfl, h2, rfl, Or.inl ⟨rfl, e7⟩, e3, e5, fun _ => by simp [e2]⟩
  count := fun s ds hg => hg.2.2.1
  prep := by
    intro s ds i hi hg
    obtain ⟨h1, h2, h3, h4, h5, h6, h7⟩ := hg
    obtain ⟨l', p1, p2, p3⟩ := point_ok s.lab ds h4 i hi
    have hl := h5 _ (List.getElem_mem hi)
    refine ⟨{ s with lab := l', buffer := ds[i].1 ++ s.buffer.drop nLits }, ?_, ⟨h1, ?_, h3, p2, h5, h6, h7⟩, ?_, p3⟩
    · show FlatDenseIB.prepare s i = _
      unfold FlatDenseIB.prepare
      rw [bind_of p1, bind_of (h7 (by omega)), h1, bind_of (i32_mul hi h6), bind_of (copyFrom_row nLits ds h5 i hi)]
      rfl
    · simp [hl]
    · show List.take s.nLits (ds[i].1 ++ s.buffer.drop nLits) = _
      rw [h1, List.take_append_of_le_length (by omega), List.take_of_length_le (by omega)]

theorem dense_new (nLits : Nat) : DGood nLits (FlatDenseIB.new nLits) (some []) :=
  ⟨rfl, by simp [FlatDenseIB.new]; omega, rfl, Or.inl ⟨rfl, by simp⟩, by simp, by simp, by simp⟩

/-! ## CSR -/

theorem readRow_ok (ix : List Int) : ∀ (r a : Nat), a + r ≤ ix.length → readRow ix r a = some ((ix.drop a).take r) := by
  intro r
  induction r with
  | zero => intro a _; simp [readRow]
  | succ r ih =>
    intro a ha
    have h : a < ix.length := by omega
    rw [readRow, bind_of (rd_getElem ix a h), show ((a : Int) + 1) = ((a + 1 : Nat) : Int) by simp, bind_of (ih (a + 1) (by omega)),
      List.drop_eq_getElem_cons h]
    rfl

theorem rd_some {α : Type} (l : List α) (k : Nat) (v : α) (h : l[k]? = some v) : rd l (k : Int) = some v := by
  simp [rd, h]

theorem csrEntries_ok (d : CsrData) (i : Nat) (row : List Int) (h : CsrRow d i row) (hi : i + 1 < 2147483648) :
    csrEntries d.indices d.indptr i = some row := by
  obtain ⟨a, b, h1, h2, h3, h4, rfl⟩ := h
  unfold csrEntries
  rw [bind_of (i32_nat (i + 1) (by simp) hi), bind_of (rd_some _ _ _ h2), bind_of (rd_some _ _ _ h1), show ((b : Int) - a).toNat = b - a by omega]
  exact readRow_ok d.indices (b - a) a (by omega)

def CGood (nLits : Nat) (b : FlatCsrIB) (o : Option (LabelledExamples (List Int))) : Prop :=
  b.nLits = nLits ∧ match o with
  | none => True
  | some ds => b.nExamples = ds.length ∧ LabOk b.lab ds ∧ (0 < ds.length → ∃ d : CsrData, d.indices = b.indices ∧ b.indptr = some d.indptr ∧
      ds.length < 2147483647 ∧ ∀ (i : Nat) (h : i < ds.length), CsrRow d i ds[i].1)

theorem csr_faithful (nLits : Nat) : Faithful csrInput CsrArrays (CGood nLits) where
  set := by
    intro s o d o' hg he
    obtain ⟨h1, _⟩ := hg
    show CGood nLits (FlatCsrIB.setData s d).2 o'
    unfold FlatCsrIB.setData
    dsimp only
    cases o' with
    | none => split <;> exact ⟨h1, trivial⟩
    | some ds =>
      obtain ⟨e1, e2, e3, e4⟩ := he
      obtain ⟨f1, f2⟩ := labelsPer_of e4 s.lab
      rw [if_neg (by rw [f1, e1]; simp)]
      exact ⟨h1, by simp [e1], f2, fun _ => ⟨d, rfl, rfl, e2, e3⟩⟩
  count := fun s ds hg => hg.2.1
  prep := by
    intro s ds i hi hg
    obtain ⟨h1, h3, h4, h5⟩ := hg
    obtain ⟨l', p1, p2, p3⟩ := point_ok s.lab ds h4 i hi
    obtain ⟨d, q1, q2, q3, q4⟩ := h5 (by omega)
    refine ⟨{ s with lab := l', current := ds[i].1 }, ?_, ⟨h1, h3, p2, h5⟩, rfl, p3⟩
    show FlatCsrIB.prepare s i = _
    unfold FlatCsrIB.prepare
    rw [bind_of p1, bind_of q2, ← q1, bind_of (csrEntries_ok d i _ (q4 i hi) (by omega))]
    simp [q1]

theorem csr_new (nLits : Nat) : CGood nLits (FlatCsrIB.new nLits) (some []) :=
  ⟨rfl, rfl, Or.inl ⟨rfl, by simp⟩, by simp⟩

/-! ## CSR to dense -/

theorem setEntries_ok (n : Nat) (tail : List Nat) : ∀ (vs : List Int) (buf : List Nat), (∀ v ∈ vs, 0 ≤ v ∧ v < (n : Int)) → buf.length = n →
    ∃ b, setEntries vs (buf ++ tail) = some (b ++ tail) ∧ b.length = n ∧ ∀ (j : Nat) (hb : j < b.length) (h : j < buf.length),
      b[j] = if (j : Int) ∈ vs then 1 else buf[j] := by
  intro vs
  induction vs with
  | nil => intro buf _ hb; exact ⟨buf, rfl, hb, by simp⟩
  | cons v vs ih =>
    intro buf hv hb
    have hv0 := hv v (by simp)
    obtain ⟨m, rfl⟩ : ∃ m : Nat, v = m := ⟨v.toNat, by omega⟩
    have hm : m < buf.length := by omega
    obtain ⟨b, h1, h2, h3⟩ := ih (buf.set m 1) (fun w hw => hv w (by simp [hw])) (by simp [hb])
    refine ⟨b, ?_, h2, ?_⟩
    · have hw : wr (buf ++ tail) (m : Int) 1 = some (buf.set m 1 ++ tail) := by
        unfold wr
        rw [if_pos ⟨by omega, by rw [Int.toNat_natCast, List.length_append]; omega⟩, Int.toNat_natCast, List.set_append_left _ _ hm]
      rw [setEntries, bind_of hw, h1]
    · intro j hj hj'
      rw [h3 j hj (by simpa using hj'), List.getElem_set]
      by_cases h : m = j
      · subst h; simp
      · have : ¬((j : Int) = (m : Int)) := by omega
        simp [h, this]

theorem onesAt_eq (n : Nat) (vs : List Int) (b : List Nat) (hb : b.length = n)
    (h : ∀ (j : Nat) (hj : j < b.length), b[j] = if (j : Int) ∈ vs then 1 else 0) : b = onesAt n vs := by
  refine List.ext_getElem (by simp [onesAt, hb]) ?_
  intro j h1 h2
  rw [h j h1]
  simp [onesAt]

def CDGood (nLits : Nat) (b : FlatCsrDenseIB) (o : Option (LabelledExamples (List Nat))) : Prop :=
  b.nLits = nLits ∧ match o with
  | none => True
  | some ds => b.nExamples = ds.length ∧ LabOk b.lab ds ∧ (0 < ds.length → ∃ d : CsrData, d.indices = b.indices ∧ b.indptr = some d.indptr ∧
      ds.length < 2147483647 ∧
      ∀ (i : Nat) (h : i < ds.length), ∃ row, CsrRow d i row ∧ (∀ v ∈ row, 0 ≤ v ∧ v < (nLits : Int)) ∧ ds[i].1 = onesAt nLits row)

theorem csrDense_faithful (nLits : Nat) : Faithful csrDenseInput (CsrDenseArrays nLits) (CDGood nLits) where
  set := by
    intro s o d o' hg he
    obtain ⟨h1, _⟩ := hg
    show CDGood nLits (FlatCsrDenseIB.setData s d).2 o'
    unfold FlatCsrDenseIB.setData
    dsimp only
    cases o' with
    | none => split <;> exact ⟨h1, trivial⟩
    | some ds =>
      obtain ⟨e1, e2, e3, e4⟩ := he
      obtain ⟨f1, f2⟩ := labelsPer_of e4 s.lab
      rw [if_neg (by rw [f1, e1]; simp)]
      exact ⟨h1, by simp [e1], f2, fun _ => ⟨d, rfl, rfl, e2, e3⟩⟩
  count := fun s ds hg => hg.2.1
  prep := by
    intro s ds i hi hg
    obtain ⟨h1, h3, h4, h5⟩ := hg
    obtain ⟨l', p1, p2, p3⟩ := point_ok s.lab ds h4 i hi
    obtain ⟨d, q1, q2, q3, q4⟩ := h5 (by omega)
    obtain ⟨row, r1, r2, r3⟩ := q4 i hi
    obtain ⟨b, b1, b2, b3⟩ := setEntries_ok nLits (s.buffer.drop nLits) row (List.replicate nLits 0) r2 (by simp)
    have hb : b = onesAt nLits row := onesAt_eq nLits row b b2 (by
      intro j hj
      rw [b3 j hj (by simpa [b2] using hj)]
      simp)
    refine ⟨{ s with lab := l', buffer := b ++ s.buffer.drop nLits }, ?_, ⟨h1, h3, p2, h5⟩, ?_, p3⟩
    · show FlatCsrDenseIB.prepare s i = _
      unfold FlatCsrDenseIB.prepare
      rw [bind_of p1, bind_of q2, ← q1, bind_of (csrEntries_ok d i _ r1 (by omega)), h1, bind_of b1]
      simp [q1]
    · show List.take s.nLits (b ++ s.buffer.drop nLits) = _
      rw [h1, r3, ← hb, List.take_append_of_le_length (by omega), List.take_of_length_le (by omega)]

theorem csrDense_new (nLits : Nat) : CDGood nLits (FlatCsrDenseIB.new nLits) (some []) :=
  ⟨rfl, rfl, Or.inl ⟨rfl, by simp⟩, by simp⟩

/-! ## Failing reads -/

theorem trainWalk_none {S D X : Type} (io : InputOps S D X) (nRead : Nat) (P : S → Prop) (hP : ∀ s (i : Nat) s', P s → io.prepare s i = some s' → P s')
    (index : List Nat) (e j : Nat) (hj : index[j]? = some e) (hbad : ∀ s, P s → io.prepare s e = none) :
    ∀ (r k : Nat) (s : S), P s → k ≤ j → j < k + r → trainWalk io nRead index r k s = none := by
  intro r
  induction r with
  | zero => intro k s _ h1 h2; omega
  | succ r ih =>
    intro k s hs h1 h2
    unfold trainWalk
    by_cases hkj : k = j
    · subst hkj
      rw [bind_of (rd_some _ _ _ hj), hbad s hs]
      rfl
    · cases hr : rd index (k : Int) with
      | none => rfl
      | some v =>
        rw [Option.bind_eq_bind, Option.bind_some]
        cases hp : io.prepare s (v : Int) with
        | none => rfl
        | some s1 =>
          rw [Option.bind_eq_bind, Option.bind_some]
          cases readLabels (io.lab s1).cur nRead 0 with
          | none => rfl
          | some y =>
            rw [Option.bind_eq_bind, Option.bind_some, show ((k : Int) + 1) = ((k + 1 : Nat) : Int) by simp,
              ih (k + 1) s1 (hP s v s1 hs hp) (by omega) (by omega)]
            rfl

theorem trainWalk_short {S D X : Type} (io : InputOps S D X) (nRead : Nat) (index : List Nat) :
    ∀ (r k : Nat) (s : S), k ≤ index.length → index.length < k + r → trainWalk io nRead index r k s = none := by
  intro r
  induction r with
  | zero => intro k s h1 h2; omega
  | succ r ih =>
    intro k s h1 h2
    unfold trainWalk
    by_cases hk : k = index.length
    · have : rd index (k : Int) = none := by simp [rd, hk]
      rw [this]; rfl
    · rw [bind_of (rd_getElem index k (by omega))]
      cases hp : io.prepare s (index[k] : Int) with
      | none => rfl
      | some s1 =>
        rw [Option.bind_eq_bind, Option.bind_some]
        cases readLabels (io.lab s1).cur nRead 0 with
        | none => rfl
        | some y =>
          rw [Option.bind_eq_bind, Option.bind_some, show ((k : Int) + 1) = ((k + 1 : Nat) : Int) by simp, ih (k + 1) s1 (by omega) (by omega)]
          rfl

theorem evalWalk_none {S D X : Type} (io : InputOps S D X) (P : S → Prop) (hP : ∀ s (i : Nat) s', P s → io.prepare s i = some s' → P s')
    (j : Nat) (hbad : ∀ s, P s → io.prepare s j = none) :
    ∀ (r k : Nat) (s : S), P s → k ≤ j → j < k + r → evalWalk io r k s = none := by
  intro r
  induction r with
  | zero => intro k s _ h1 h2; omega
  | succ r ih =>
    intro k s hs h1 h2
    unfold evalWalk
    by_cases hkj : k = j
    · subst hkj; rw [hbad s hs]; rfl
    · cases hp : io.prepare s (k : Int) with
      | none => rfl
      | some s1 =>
        rw [Option.bind_eq_bind, Option.bind_some, show ((k : Int) + 1) = ((k + 1 : Nat) : Int) by simp,
          ih (k + 1) s1 (hP s k s1 hs hp) (by omega) (by omega)]
        rfl

theorem run_last_none {S D X : Type} {io : InputOps S D X} {nRead : Nat} {s : Session S} {d : D} {c : SessionCall D}
    (h : Session.call io nRead { s with ib := (io.setData s.ib d).2 } c = none) : Session.run io nRead s [.setData d, c] = none := by
  simp only [Session.run, Session.call, Option.bind_eq_bind, Option.bind_some] at h ⊢
  rw [h]; rfl

theorem epoch_none {S D X : Type} {io : InputOps S D X} {nRead : Nat} (P : S → Prop) (hP : ∀ s (i : Nat) s', P s → io.prepare s i = some s' → P s')
    {e : Nat} (hbad : ∀ s, P s → io.prepare s e = none) (s : Session S) (n : Nat) (hs : P s.ib) (sh : List Nat → List Nat)
    (hn : io.nExamples s.ib = n) (hsh : Shuffles sh n) (he : e < n) : Session.call io nRead s (.trainEpoch sh) = none := by
  obtain ⟨j, hj1, hj2⟩ := List.getElem_of_mem (hsh.mem_iff.mpr (List.mem_range.mpr he))
  show trainSliceOn io nRead s 0 (io.nExamples s.ib) sh = none
  unfold trainSliceOn
  dsimp only
  rw [hn, if_neg (by omega), if_pos rfl, Int.sub_zero, Int.toNat_natCast]
  rw [show ((0 : Int)) = ((0 : Nat) : Int) from rfl, trainWalk_none io nRead P hP _ e j (by rw [List.getElem?_eq_getElem hj1, hj2]) hbad _ _ _ hs (by omega)
    (by rw [(shuffles_lt hsh).2] at hj1; omega)]
  rfl

/-- The data pointer and the number of literals. -/
def DataIs (nLits : Nat) (d : Option (List Nat)) (b : FlatDenseIB) : Prop := b.nLits = nLits ∧ b.data = d

theorem dense_keeps {nLits : Nat} {d : Option (List Nat)} {b b' : FlatDenseIB} {i : Int} (hb : DataIs nLits d b) (h : b.prepare i = some b') :
    DataIs nLits d b' := by
  unfold FlatDenseIB.prepare at h
  obtain ⟨l, h1, h⟩ := Option.bind_eq_some_iff.mp h
  obtain ⟨a, h2, h⟩ := Option.bind_eq_some_iff.mp h
  obtain ⟨o, h3, h⟩ := Option.bind_eq_some_iff.mp h
  obtain ⟨r, h4, h⟩ := Option.bind_eq_some_iff.mp h
  cases h
  exact hb

theorem dense_overflow {nLits : Nat} {d : Option (List Nat)} {b : FlatDenseIB} {i : Nat} (hb : DataIs nLits d b) (h : 2147483648 ≤ i * nLits) :
    b.prepare i = none := by
  unfold FlatDenseIB.prepare
  rw [hb.1]
  have : i32 ((i : Int) * (nLits : Int)) = none := by
    unfold i32
    rw [if_neg]
    intro hh
    have : (i : Int) * (nLits : Int) = ((i * nLits : Nat) : Int) := by simp
    rw [this] at hh
    omega
  rw [this]
  cases b.lab.point i <;> cases b.data <;> rfl

theorem dense_outside {nLits : Nat} {d : List Nat} {b : FlatDenseIB} {i : Nat} (hb : DataIs nLits (some d) b) (h : d.length < i * nLits + nLits) :
    b.prepare i = none := by
  unfold FlatDenseIB.prepare
  rw [hb.1, hb.2]
  cases b.lab.point i with
  | none => rfl
  | some l =>
    rw [Option.bind_eq_bind, Option.bind_some, Option.bind_eq_bind, Option.bind_some]
    by_cases hi : i * nLits < 2147483648
    · rw [bind_of (i32_nat (i * nLits) (by simp) hi)]
      have : copyFrom d ((i * nLits : Nat) : Int) nLits = none := by
        unfold copyFrom
        rw [if_neg]
        rw [Int.toNat_natCast]
        omega
      rw [this]; rfl
    · have : i32 ((i : Int) * (nLits : Int)) = none := by
        unfold i32
        rw [if_neg]
        intro hh
        have : (i : Int) * (nLits : Int) = ((i * nLits : Nat) : Int) := by simp
        rw [this] at hh
        omega
      rw [this]; rfl

theorem setData_data (b : FlatDenseIB) (n : Nat) (elems : List Nat) (labels : NdArr Nat) :
    DataIs b.nLits (some elems) (b.setData (⟨[n, b.nLits], elems⟩, labels)).2 := by
  unfold FlatDenseIB.setData
  dsimp only
  split
  · rename_i h; exact absurd rfl h
  · split
    · exact ⟨rfl, rfl⟩
    · split <;> exact ⟨rfl, rfl⟩

theorem setData_count (b : FlatDenseIB) (d : NdArr Nat × NdArr Nat) : (b.setData d).2.nExamples = d.1.shape.headD 0 := by
  unfold FlatDenseIB.setData
  dsimp only
  split
  · rfl
  · split
    · rfl
    · split <;> rfl

theorem setData_refused (b : FlatDenseIB) (d : NdArr Nat × NdArr Nat) (h : d.1.shape.tail.headD 0 ≠ b.nLits) :
    (b.setData d).1 = true ∧ DataIs b.nLits b.data (b.setData d).2 := by
  unfold FlatDenseIB.setData
  dsimp only
  rw [if_pos h]
  exact ⟨rfl, rfl, rfl⟩

theorem setEntries_length : ∀ (vs : List Int) (buf b : List Nat), setEntries vs buf = some b → b.length = buf.length := by
  intro vs
  induction vs with
  | nil => intro buf b h; cases h; rfl
  | cons v vs ih =>
    intro buf b h
    obtain ⟨b1, h1, h2⟩ := Option.bind_eq_some_iff.mp h
    rw [ih _ _ h2]
    unfold wr at h1
    split at h1
    · cases h1; simp
    · cases h1

theorem setEntries_outside (v : Int) : ∀ (vs : List Int) (buf : List Nat), v ∈ vs → v < 0 ∨ (buf.length : Int) ≤ v → setEntries vs buf = none := by
  intro vs
  induction vs with
  | nil => intro buf h _; simp at h
  | cons w vs ih =>
    intro buf hv hb
    unfold setEntries
    by_cases hw : v = w
    · subst hw
      have : wr buf v 1 = none := by
        unfold wr
        rw [if_neg]
        omega
      rw [this]; rfl
    · cases h1 : wr buf w 1 with
      | none => rfl
      | some b1 =>
        have hl : b1.length = buf.length := setEntries_length [w] buf b1 (by simp [setEntries, h1])
        rw [Option.bind_eq_bind, Option.bind_some]
        exact ih b1 (by rcases List.mem_cons.mp hv with h | h <;> [exact absurd h hw; exact h]) (by rw [hl]; exact hb)

/-- The arrays of a CSR data set, and the size of the example buffer. -/
def CsrIs (nLits len : Nat) (d : CsrData) (b : FlatCsrDenseIB) : Prop :=
  b.nLits = nLits ∧ b.indices = d.indices ∧ b.indptr = some d.indptr ∧ b.buffer.length = len

theorem csrDense_keeps {nLits len : Nat} {d : CsrData} {b b' : FlatCsrDenseIB} {i : Int} (hlen : nLits ≤ len) (hb : CsrIs nLits len d b)
    (h : b.prepare i = some b') : CsrIs nLits len d b' := by
  unfold FlatCsrDenseIB.prepare at h
  obtain ⟨l, h1, h⟩ := Option.bind_eq_some_iff.mp h
  obtain ⟨a, h2, h⟩ := Option.bind_eq_some_iff.mp h
  obtain ⟨o, h3, h⟩ := Option.bind_eq_some_iff.mp h
  obtain ⟨r, h4, h⟩ := Option.bind_eq_some_iff.mp h
  cases h
  obtain ⟨g1, g2, g3, g4⟩ := hb
  refine ⟨g1, g2, g3, ?_⟩
  rw [setEntries_length _ _ _ h4]
  simp [g1, g4]
  omega

theorem csrDense_outside {nLits len : Nat} {d : CsrData} {b : FlatCsrDenseIB} {i : Nat} {row : List Int} (hlen : nLits ≤ len) (hb : CsrIs nLits len d b)
    (hr : CsrRow d i row) (hi : i + 1 < 2147483648) (v : Int) (hv : v ∈ row) (ho : v < 0 ∨ (len : Int) ≤ v) : b.prepare i = none := by
  obtain ⟨g1, g2, g3, g4⟩ := hb
  unfold FlatCsrDenseIB.prepare
  cases b.lab.point i with
  | none => rfl
  | some l =>
    rw [Option.bind_eq_bind, Option.bind_some, bind_of g3, g2, bind_of (csrEntries_ok d i row hr hi), setEntries_outside v row _ hv]
    · rfl
    · simp [g1, g4]
      omega

theorem csrDense_set (b : FlatCsrDenseIB) (d : CsrData) : CsrIs b.nLits b.buffer.length d (b.setData d).2 ∧
    (b.setData d).2.nExamples = (d.indptr.length : Int) - 1 := by
  unfold FlatCsrDenseIB.setData
  dsimp only
  split <;> exact ⟨⟨rfl, rfl, rfl, rfl⟩, rfl⟩

theorem dense_unlabelled_keeps {b b' : FlatDenseIB} {i : Int} (hb : b.lab.labels = none ∧ b.lab.cur = none) (h : b.prepare i = some b') :
    b'.lab.labels = none ∧ b'.lab.cur = none := by
  unfold FlatDenseIB.prepare at h
  obtain ⟨l, h1, h⟩ := Option.bind_eq_some_iff.mp h
  obtain ⟨a, h2, h⟩ := Option.bind_eq_some_iff.mp h
  obtain ⟨o, h3, h⟩ := Option.bind_eq_some_iff.mp h
  obtain ⟨r, h4, h⟩ := Option.bind_eq_some_iff.mp h
  cases h
  unfold LabelMem.point at h1
  rw [hb.1] at h1
  cases h1
  exact hb

theorem trainWalk_unset {S D X : Type} (io : InputOps S D X) (index : List Nat) (n r : Nat) (i : Int) (s : S)
    (h : ∀ (e : Int) s', io.prepare s e = some s' → (io.lab s').cur = none) : trainWalk io (n + 1) index (r + 1) i s = none := by
  unfold trainWalk
  cases rd index i with
  | none => rfl
  | some e =>
    rw [Option.bind_eq_bind, Option.bind_some]
    cases hp : io.prepare s (e : Int) with
    | none => rfl
    | some s1 =>
      rw [Option.bind_eq_bind, Option.bind_some, h _ _ hp]
      rfl

end GT.SessionL
