import Verif.Lemmas.StateArrays3

/-! # Lemmas about state transfer: padding, and arrays in files -/

namespace GT
namespace Arr
open Spec FlatMem

theorem get_of_den {l l' : List Int} (h : l'.length = l.length) {p : Nat} (e : den l' p = den l p) : l'[p]? = l[p]? := by
  unfold den List.getD at e
  by_cases hp : p < l.length
  · rw [List.getElem?_eq_getElem hp, List.getElem?_eq_getElem (by omega)] at e ⊢
    simpa using e
  · rw [List.getElem?_eq_none (by omega), List.getElem?_eq_none (by omega)]

theorem saveLoop_padding {n m : Nat} {bs bs' : List Blk} (d : List.Forall₂ SameDims bs bs') (a : Arrays) :
    ∀ (off : Nat), (∀ b ∈ bs, BlockReady n m b) → bs'.map Blk.flat = GT.saveLoop (bs.map Blk.flat) off a → List.Forall₂ PaddingKept bs bs' := by
  induction d with
  | nil => intro _ _ _; exact .nil
  | @cons b b' bs bs' h d ih =>
    intro off hb e
    simp only [List.map_cons, GT.saveLoop, List.cons.injEq] at e
    have hr := hb b (List.mem_cons_self ..)
    have h1 : b.flat.nLits ≤ b.flat.litMem := by show b.nLits ≤ b.litMem; rw [hr.lits]; exact hr.litMem
    have h2 : b.flat.nClasses ≤ b.flat.wMem := by show b.nClasses ≤ b.wMem; rw [hr.classes]; exact hr.wMem
    obtain ⟨p1, p2⟩ := setClauseState_pad b.flat h1 a.c off
    obtain ⟨q1, q2⟩ := setClauseWeights_pad (b.flat.setClauseState a.c off) h2 a.w off
    have ec : den b'.clauses = (b.flat.setClauseState a.c off).clauses := congrArg Flat.clauses e.1
    have ew : den b'.weights = ((b.flat.setClauseState a.c off).setClauseWeights a.w off).weights := congrArg Flat.weights e.1
    refine .cons ⟨h.2.2.2.2.2.1, h.2.2.2.2.2.2, ?_, ?_, ?_, ?_⟩ (ih _ (fun b hb' => hb b (List.mem_cons_of_mem _ hb')) e.2)
    · intro i t j hi ht hj hj'
      exact get_of_den h.2.2.2.2.2.1 (by rw [ec]; exact p1 i t j hi ht hj hj')
    · intro p hp
      exact get_of_den h.2.2.2.2.2.1 (by rw [ec]; exact p2 p hp)
    · intro i k hi hk hk'
      exact get_of_den h.2.2.2.2.2.2 (by rw [ew]; exact q1 i k hi hk hk')
    · intro p hp
      exact get_of_den h.2.2.2.2.2.2 (by rw [ew]; exact q2 p hp)

theorem mapM_some {α β : Type} (f : α → Option β) (g : α → β) : ∀ (l : List α), (∀ x ∈ l, f x = some (g x)) → l.mapM f = some (l.map g)
  | [], _ => rfl
  | x :: l, h => by
    rw [List.mapM_cons, h x (List.mem_cons_self ..), mapM_some f g l fun y hy => h y (List.mem_cons_of_mem _ hy)]
    rfl

theorem cell_lt {rows cols p : Nat} (h : p < rows * cols) : p / cols < rows ∧ p % cols < cols := by
  have hc : 0 < cols := by
    rcases Nat.eq_zero_or_pos cols with rfl | h'
    · simp at h
    · exact h'
  exact ⟨Nat.div_lt_of_lt_mul (by rw [Nat.mul_comm]; exact h), Nat.mod_lt _ hc⟩

theorem toNpy_some {a : NpMat} (h : ValidArray a) :
    a.toNpy = some ⟨a.dtype, [a.rows, a.cols], (List.range (a.rows * a.cols)).map fun p => valueAt a (p / a.cols) (p % a.cols)⟩ := by
  unfold NpMat.toNpy
  rw [mapM_some _ (fun p => valueAt a (p / a.cols) (p % a.cols))]
  · rfl
  · intro p hp
    obtain ⟨h1, h2⟩ := cell_lt (List.mem_range.1 hp)
    obtain ⟨v, hv⟩ := h.2 _ _ h1 h2
    simp only [valueAt, hv, Option.getD_some]

theorem ofNpy_whole {a : Npy} {rows cols : Nat} (h : WholeArray a rows cols) :
    NpMat.ofNpy a = ⟨a.dtype, rows, cols, a.data, 0, cols, 1⟩ := by
  unfold NpMat.ofNpy
  rw [h.1]
  simp

theorem ofNpy_elem {a : Npy} {rows cols : Nat} (h : WholeArray a rows cols) (i j : Nat) (hi : i < rows) (hj : j < cols) :
    (NpMat.ofNpy a).elem i j = a.data[i * cols + j]? := by
  have hlt : i * cols + j < a.data.length := by
    rw [h.2]
    have := row_le (S := cols) hi
    omega
  rw [ofNpy_whole h, NpMat.elem, rd_nat (n := i * cols + j) (by push_cast; rw [Int.mul_comm]; omega) hlt, den, List.getD,
    List.getElem?_eq_getElem hlt]
  rfl

theorem ofNpy_valid {a : Npy} {rows cols : Nat} (h : WholeArray a rows cols) : ValidArray (NpMat.ofNpy a) ∧ RowAfterRow (NpMat.ofNpy a) := by
  refine ⟨⟨?_, ?_⟩, ?_⟩
  · rw [ofNpy_whole h]; exact Nat.zero_le _
  · intro i j hi hj
    rw [ofNpy_whole h] at hi hj
    rw [ofNpy_elem h i j hi hj]
    refine ⟨_, List.getElem?_eq_getElem ?_⟩
    rw [h.2]
    have := row_le (S := cols) (show i < rows from hi)
    have : j < cols := hj
    omega
  · rw [ofNpy_whole h]; exact ⟨rfl, rfl⟩

/-- An array written and read back has the same elements. -/
theorem npy_round {a : NpMat} (h : ValidArray a) : ∃ b, a.toNpy = some b ∧ WholeArray b a.rows a.cols ∧ b.dtype = a.dtype ∧
    ∀ i j, i < a.rows → j < a.cols → valueAt (NpMat.ofNpy b) i j = valueAt a i j := by
  have hw : WholeArray ⟨a.dtype, [a.rows, a.cols], (List.range (a.rows * a.cols)).map fun p => valueAt a (p / a.cols) (p % a.cols)⟩ a.rows a.cols :=
    ⟨rfl, by simp⟩
  refine ⟨_, toNpy_some h, hw, rfl, ?_⟩
  intro i j hi hj
  have hlt : i * a.cols + j < a.rows * a.cols := by have := row_le (S := a.cols) hi; omega
  rw [valueAt, ofNpy_elem hw i j hi hj]
  simp only [List.getElem?_map, List.getElem?_range hlt, Option.map_some, Option.getD_some]
  obtain ⟨e1, e2⟩ := row_div_mod a.cols i j hj
  rw [e1, e2]

end Arr
end GT
