import Verif.Spec.PySession
import Verif.Lemmas.Session

namespace GT.PySessionL
open GT.Spec GT.FlatMem GT.SessionL

theorem pyCall_eq {S D X : Type} (io : InputOps S D X) (s : S) (ix : List Nat) (c : SessionCall D) (h : WholeSlices c) :
    pyCall io s c = ((⟨s, ix⟩ : Session S).call io 1 c).map fun r => (r.1.ib, r.2) := by
  have slice : ∀ (b : Int) (sh : List Nat → List Nat),
      pyTrainSlice io s 0 b sh = (trainSliceOn io 1 ⟨s, ix⟩ 0 b sh).map fun r => (r.1.ib, r.2) := by
    intro b sh
    unfold pyTrainSlice trainSliceOn
    dsimp only
    rw [if_pos rfl]
    by_cases hn : io.nExamples s < 0
    · rw [if_pos hn, if_pos ⟨rfl, hn⟩]; rfl
    · rw [if_neg hn, if_neg (fun hh => hn hh.2), if_pos rfl, Int.sub_zero]
      cases trainWalk io 1 (sh (List.range (io.nExamples s).toNat)) b.toNat 0 s <;> rfl
  cases c with
  | setData d => rfl
  | trainEpoch sh => exact slice _ sh
  | trainSlice a b sh =>
    have : a = 0 := h
    subst this
    exact slice b sh
  | evalPredict n =>
    unfold pyCall Session.call
    dsimp only
    by_cases hn : (n : Int) ≠ io.nExamples s
    · rw [if_pos hn, if_pos hn]; rfl
    · rw [if_neg hn, if_neg hn]
      cases evalWalk io n 0 s <;> rfl

theorem pyRun_eq {S D X : Type} (io : InputOps S D X) : ∀ (cs : List (SessionCall D)) (s : S) (ix : List Nat), (∀ c ∈ cs, WholeSlices c) →
    pyRun io s cs = ((⟨s, ix⟩ : Session S).run io 1 cs).map fun r => (r.1.ib, r.2) := by
  intro cs
  induction cs with
  | nil => intro s ix _; rfl
  | cons c cs ih =>
    intro s ix h
    rw [pyRun, Session.run, pyCall_eq io s ix c (h c (by simp))]
    cases hc : (⟨s, ix⟩ : Session S).call io 1 c with
    | none => rfl
    | some r =>
      obtain ⟨⟨s1, ix1⟩, t⟩ := r
      simp only [Option.map_some, Option.bind_eq_bind, Option.bind_some]
      rw [ih s1 ix1 (fun c hc => h c (by simp [hc]))]
      cases (⟨s1, ix1⟩ : Session S).run io 1 cs <;> rfl

theorem pyRow_ok {α : Type} (a : List α) (i : Nat) (h : i < a.length) : pyRow a (i : Int) = some a[i] := by
  simp [pyRow, List.getElem?_eq_getElem h]

def PGood (nLits : Nat) (b : PyDenseIB) (o : Option (LabelledExamples (List Nat))) : Prop :=
  b.nLits = nLits ∧ match o with
  | none => True
  | some ds => b.nExamples = ds.length ∧ (0 < ds.length → b.perEx = 1 ∧ b.data = some (ds.map Prod.fst) ∧ b.labels = some (ds.map Prod.snd))

theorem read_row (row : List Nat) (n : Nat) (h : n ≤ row.length) : readLabels (some (row, 0)) n 0 = some (row.take n) := by
  simpa using readLabels_ok row row [] 0 (by simp) n 0 (by omega)

theorem pyDense_faithful (nLits : Nat) : Faithful pyDenseInput (PyDenseArrays nLits 1) (PGood nLits) where
  set := by
    intro s o d o' hg he
    obtain ⟨h1, _⟩ := hg
    show PGood nLits (PyDenseIB.setData s d).2 o'
    cases o' with
    | none =>
      unfold PyDenseIB.setData
      dsimp only
      split
      · exact ⟨h1, trivial⟩
      · split
        · exact ⟨h1, trivial⟩
        · split <;> exact ⟨h1, trivial⟩
    | some ds =>
      obtain ⟨e1, e2, e3, e4, e5, e6⟩ := he
      have hl : d.1.rows.length = ds.length := by rw [e2]; simp
      have hl2 : d.2.rows.length = ds.length := by rw [e4]; simp
      unfold PyDenseIB.setData
      dsimp only
      rw [if_neg (by rw [e1, h1]; simp), hl2, hl]
      by_cases h0 : ds.length = 0
      · rw [if_pos h0]
        exact ⟨h1, rfl, fun h => by omega⟩
      · rw [if_neg h0, if_neg (by simp)]
        refine ⟨h1, rfl, fun _ => ⟨?_, by rw [← e2], by rw [← e4]⟩⟩
        rcases e5 with ⟨e5, _⟩ | ⟨e5, e7⟩
        · simp [e5]
        · simp [e7]
  count := fun s ds hg => by
    show ((s.nExamples : Nat) : Int) = _
    rw [hg.2.1]
  prep := by
    intro s ds i hi hg
    obtain ⟨h1, h2, h3⟩ := hg
    obtain ⟨g1, g2, g3⟩ := h3 (by omega)
    refine ⟨{ s with label := some ds[i].2, example_ := some ds[i].1 }, ?_, ⟨h1, h2, h3⟩, rfl, ?_⟩
    · show PyDenseIB.prepare s i = _
      have r1 := pyRow_ok (ds.map Prod.snd) i (by simpa using hi)
      have r2 := pyRow_ok (ds.map Prod.fst) i (by simpa using hi)
      unfold PyDenseIB.prepare
      rw [g1, g2, g3]
      simp [pyLabel, r1, r2]
    · intro n hn
      exact read_row _ n hn

theorem pyDense_new (nLits : Nat) : PGood nLits (PyDenseIB.new nLits) (some []) := ⟨rfl, rfl, by simp⟩

theorem pyEntries_eq (ix : List Int) : ∀ (r : Nat) (k : Int), pyEntries ix r k = readRow ix r k := by
  intro r
  induction r with
  | zero => intro k; rfl
  | succ r ih => intro k; simp only [pyEntries, readRow, ih]; rfl

theorem pySetEntries_eq : ∀ (vs : List Int) (buf : List Nat), pySetEntries vs buf = setEntries vs buf := by
  intro vs
  induction vs with
  | nil => intro buf; rfl
  | cons v vs ih =>
    intro buf
    rw [pySetEntries, setEntries, wr]
    split
    · rw [ih]; rfl
    · rfl

def PCGood (nLits : Nat) (b : PyCsrDenseIB) (o : Option (LabelledExamples (List Nat))) : Prop :=
  b.example_.length = nLits ∧ match o with
  | none => True
  | some ds => b.nExamples = ds.length ∧ (0 < ds.length → b.labels = some (ds.map Prod.snd) ∧ ∃ p, b.indptr = some p ∧
      ∀ (i : Nat) (h : i < ds.length), ∃ row, CsrRow ⟨b.indices, p, ⟨[], []⟩⟩ i row ∧ (∀ v ∈ row, 0 ≤ v ∧ v < (nLits : Int)) ∧ ds[i].1 = onesAt nLits row)

theorem pyCsrDense_faithful (nLits : Nat) : Faithful pyCsrDenseInput (PyCsrDenseArrays nLits) (PCGood nLits) where
  set := by
    intro s o d o' hg he
    obtain ⟨h1, _⟩ := hg
    show PCGood nLits (PyCsrDenseIB.setData s d).2 o'
    unfold PyCsrDenseIB.setData
    dsimp only
    cases o' with
    | none => split <;> exact ⟨h1, trivial⟩
    | some ds =>
      obtain ⟨e1, e2, k, e3, e4⟩ := he
      rw [if_neg (by rw [e3, e1]; simp)]
      exact ⟨h1, by simp [e1], fun _ => ⟨by simp [e3], d.indptr, rfl, e2⟩⟩
  count := fun s ds hg => hg.2.1
  prep := by
    intro s ds i hi hg
    obtain ⟨h1, h2, h3⟩ := hg
    obtain ⟨g1, p, g2, g3⟩ := h3 (by omega)
    obtain ⟨row, ⟨a, b, r1, r2, r3, r4, r5⟩, q2, q3⟩ := g3 i hi
    obtain ⟨y, y1, y2, y3⟩ := setEntries_ok nLits [] row (List.replicate nLits 0) q2 (by simp)
    simp only [List.append_nil] at y1
    have hy : y = onesAt nLits row := onesAt_eq nLits row y y2 (by
      intro j hj
      rw [y3 j hj (by simpa [y2] using hj)]
      simp)
    refine ⟨{ s with label := some ds[i].2, example_ := y }, ?_, ⟨y2, h2, h3⟩, by rw [q3, ← hy]; rfl, fun n hn => read_row _ n hn⟩
    show PyCsrDenseIB.prepare s i = _
    have r0 := pyRow_ok (ds.map Prod.snd) i (by simpa using hi)
    have p1 : pyRow p ((i : Int) + 1) = some (b : Int) := by
      rw [show ((i : Int) + 1) = ((i + 1 : Nat) : Int) by simp]
      unfold pyRow
      rw [if_pos (by omega), Int.toNat_natCast]
      exact r2
    have p2 : pyRow p (i : Int) = some (a : Int) := by
      unfold pyRow
      rw [if_pos (by omega), Int.toNat_natCast]
      exact r1
    have p3 : pyEntries s.indices ((b : Int) - a).toNat a = some row := by
      rw [pyEntries_eq, show ((b : Int) - a).toNat = b - a by omega, r5]
      exact readRow_ok s.indices (b - a) a (by have : b ≤ s.indices.length := r4; omega)
    have p4 : pySetEntries row (List.replicate s.example_.length 0) = some y := by rw [pySetEntries_eq, h1, y1]
    unfold PyCsrDenseIB.prepare
    rw [g1]
    simp only [pyLabel, r0, Option.map_some, Option.bind_eq_bind, Option.bind_some, g2, p1, p2, p3, p4]
    simp

theorem pyCsrDense_new (nLits : Nat) : PCGood nLits (PyCsrDenseIB.new nLits) (some []) := ⟨by simp [PyCsrDenseIB.new], rfl, by simp⟩

def PSGood (b : PyCsrIB) : Option (LabelledExamples (List Int)) → Prop
  | none => True
  | some ds => b.nExamples = ds.length ∧ (0 < ds.length → b.labels = some (ds.map Prod.snd) ∧ ∃ p, b.indptr = some p ∧
      ∀ (i : Nat) (h : i < ds.length), CsrRow ⟨b.indices, p, ⟨[], []⟩⟩ i ds[i].1)

theorem pyCsr_faithful : Faithful pyCsrInput PyCsrArrays PSGood where
  set := by
    intro s o d o' _ he
    show PSGood (PyCsrIB.setData s d).2 o'
    unfold PyCsrIB.setData
    dsimp only
    cases o' with
    | none => split <;> trivial
    | some ds =>
      obtain ⟨e1, e2, k, e3, e4⟩ := he
      rw [if_neg (by rw [e3, e1]; simp)]
      exact ⟨by simp [e1], fun _ => ⟨by simp [e3], d.indptr, rfl, e2⟩⟩
  count := fun s ds hg => hg.1
  prep := by
    intro s ds i hi hg
    obtain ⟨h2, h3⟩ := hg
    obtain ⟨g1, p, g2, g3⟩ := h3 (by omega)
    obtain ⟨a, b, r1, r2, r3, r4, r5⟩ := g3 i hi
    refine ⟨{ s with label := some ds[i].2, example_ := some ds[i].1 }, ?_, ⟨h2, h3⟩, rfl, fun n hn => read_row _ n hn⟩
    show PyCsrIB.prepare s i = _
    have r0 := pyRow_ok (ds.map Prod.snd) i (by simpa using hi)
    have p1 : pyRow p ((i : Int) + 1) = some (b : Int) := by
      rw [show ((i : Int) + 1) = ((i + 1 : Nat) : Int) by simp]
      unfold pyRow
      rw [if_pos (by omega), Int.toNat_natCast]
      exact r2
    have p2 : pyRow p (i : Int) = some (a : Int) := by
      unfold pyRow
      rw [if_pos (by omega), Int.toNat_natCast]
      exact r1
    have p3 : pyEntries s.indices ((b : Int) - a).toNat a = some ds[i].1 := by
      rw [pyEntries_eq, show ((b : Int) - a).toNat = b - a by omega, r5]
      exact readRow_ok s.indices (b - a) a (by have : b ≤ s.indices.length := r4; omega)
    unfold PyCsrIB.prepare
    rw [g1]
    simp only [pyLabel, r0, Option.map_some, Option.bind_eq_bind, Option.bind_some, g2, p1, p2, p3]
    simp

theorem pyCsr_new (nLits : Nat) : PSGood (PyCsrIB.new nLits) (some []) := ⟨rfl, by simp⟩

end GT.PySessionL
