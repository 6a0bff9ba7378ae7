import Verif.Spec.AvxFlat
import Verif.Lemmas.Flat

namespace GT.AvxMem
open Spec FlatMem

/-- The bytes of a row. -/
def R (len : Nat) (row : Mem) : List Byte := (List.range len).map row

@[simp] theorem R_length (len : Nat) (row : Mem) : (R len row).length = len := by simp [R]

theorem R_congr {len : Nat} {a b : Mem} (h : ∀ i, i < len → a i = b i) : R len a = R len b := by
  apply List.ext_getElem
  · simp
  · intro i h1 _
    simpa [R] using h i (by simpa using h1)

theorem mid_getD (pre post : List Byte) (len : Nat) (row : Mem) (i : Nat) (hi : i < len) :
    (pre ++ R len row ++ post).getD (pre.length + i) 0#8 = row i := by
  rw [List.append_assoc, List.getD_eq_getElem?_getD, List.getElem?_append_right (by omega), Nat.add_sub_cancel_left,
    List.getElem?_append_left (by simpa using hi)]
  simp [R, hi]

theorem ldv_mid (pre post : List Byte) (len : Nat) (row : Mem) (off : Nat) {i : Int} (hi : i = ((pre.length + off : Nat) : Int))
    (h32 : pre.length % 32 = 0) (ho : off % 32 = 0) (hl : off + 32 ≤ len) :
    ldv (pre ++ R len row ++ post) i = some (load avxL row off) := by
  subst hi
  unfold ldv
  rw [if_pos ⟨by omega, by omega, by simp; omega⟩]
  congr 1
  funext l
  rw [Int.toNat_natCast, Nat.add_assoc, mid_getD _ _ _ _ _ (by have := l.isLt; omega)]
  rfl

theorem stv_mid (pre post : List Byte) (len : Nat) (row : Mem) (off : Nat) (v : Vec avxL) {i : Int}
    (hi : i = ((pre.length + off : Nat) : Int)) (h32 : pre.length % 32 = 0) (ho : off % 32 = 0) (hl : off + 32 ≤ len) :
    stv (pre ++ R len row ++ post) i v = some (pre ++ R len (store row off v) ++ post) := by
  subst hi
  unfold stv
  rw [if_pos ⟨by omega, by omega, by simp; omega⟩, Int.toNat_natCast]
  congr 1
  apply List.ext_getElem
  · simp; omega
  · intro j h1 h2
    rw [List.getElem_append, List.getElem_append]
    simp only [List.length_append, R_length, List.length_take, List.length_ofFn, List.getElem_append, List.getElem_take, List.getElem_drop,
      List.getElem_ofFn]
    have e : min (pre.length + off) (pre.length + len + post.length) = pre.length + off := by omega
    simp only [e]
    by_cases hA : j < pre.length
    · simp [hA, show j < pre.length + off + 32 by omega, show j < pre.length + off by omega, show j < pre.length + len by omega]
    · by_cases hB : j < pre.length + off
      · simp [hA, hB, show j < pre.length + off + 32 by omega, show j < pre.length + len by omega, R, store,
          show ¬ (off ≤ j - pre.length) by omega]
      · by_cases hC : j < pre.length + off + 32
        · have h3 : off ≤ j - pre.length ∧ j - pre.length - off < 32 := by omega
          simp only [hA, hB, hC, show j < pre.length + len by omega, dite_true, dite_false, R, store, List.getElem_map, List.getElem_range]
          rw [dif_pos h3]
          congr 1
          apply Fin.ext
          simp
          omega
        · by_cases hD : j < pre.length + len
          · have h3 : ¬ (off ≤ j - pre.length ∧ j - pre.length - off < 32) := by omega
            have e2 : pre.length + off + 32 + (j - (pre.length + off + 32)) = j := by omega
            simp only [hA, hC, hD, dite_true, dite_false, e2, R, store, List.getElem_map, List.getElem_range]
            rw [dif_neg h3]
          · have e2 : pre.length + off + 32 + (j - (pre.length + off + 32)) = j := by omega
            simp only [hC, hD, dite_false, e2]

/-- The example buffer as memory. -/
abbrev memOf (x : List Byte) : Mem := fun a => x.getD a 0#8

theorem ldv_buf (x : List Byte) (off : Nat) {i : Int} (hi : i = ((off : Nat) : Int)) (ho : off % 32 = 0) (hl : off + 32 ≤ x.length) :
    ldv x i = some (load avxL (memOf x) off) := by
  subst hi
  unfold ldv
  rw [if_pos ⟨by omega, by omega, by simpa using hl⟩]
  rfl

theorem posOff_nat {i : Nat} (h : i * 32 < 2147483648) : posOff (i : Int) = some ((i * 32 : Nat) : Int) :=
  i32_nat _ (by push_cast; rfl) h

theorem negOff_nat {mem i : Nat} (h : mem + i * 32 < 2147483648) : negOff mem (i : Int) = some ((mem + i * 32 : Nat) : Int) := by
  unfold negOff
  rw [bind_of (i32_nat (i * 32) (by push_cast; rfl) (by omega))]
  exact i32_nat _ (by push_cast; rfl) h

theorem avxRowPtr_nat {mem k : Nat} (h1 : mem * 2 < 2147483648) (h2 : k * (mem * 2) < 2147483648) :
    avxRowPtr mem k = some ((k * (mem * 2) : Nat) : Int) := by
  unfold avxRowPtr
  rw [bind_of (i32_nat (mem * 2) (by push_cast; rfl) h1)]
  exact i32_nat _ (by push_cast; rfl) h2

/-- What is known about a row inside the array. -/
structure Row (mem : Nat) (pre : List Byte) (x : List Byte) (row : Int) : Prop where
  mem32 : mem % 32 = 0
  small : mem * 2 < 2147483648
  pre32 : pre.length % 32 = 0
  buf : mem ≤ x.length
  at_ : row = (pre.length : Int)

section
variable {mem : Nat} {pre x : List Byte} {row : Int} (h : Row mem pre x row) (post : List Byte) (r : Mem)
include h

theorem Row.ex {i : Nat} (hi : i * 32 + 32 ≤ mem) : ldv x ((i * 32 : Nat) : Int) = some (load avxL (memOf x) (i * 32)) :=
  ldv_buf x _ rfl (by omega) (by have := h.buf; omega)

theorem Row.pos {i : Nat} (hi : i * 32 + 32 ≤ mem) :
    ldv (pre ++ R (mem * 2) r ++ post) (row + ((i * 32 : Nat) : Int)) = some (load avxL r (i * 32)) :=
  ldv_mid pre post _ r _ (by rw [h.at_]; push_cast; rfl) h.pre32 (by omega) (by omega)

theorem Row.neg {i : Nat} (hi : i * 32 + 32 ≤ mem) :
    ldv (pre ++ R (mem * 2) r ++ post) (row + ((mem + i * 32 : Nat) : Int)) = some (load avxL r (mem + i * 32)) :=
  ldv_mid pre post _ r _ (by rw [h.at_]; push_cast; rfl) h.pre32 (by have := h.mem32; omega) (by omega)

theorem Row.spos {i : Nat} (hi : i * 32 + 32 ≤ mem) (v : Vec avxL) :
    stv (pre ++ R (mem * 2) r ++ post) (row + ((i * 32 : Nat) : Int)) v = some (pre ++ R (mem * 2) (store r (i * 32) v) ++ post) :=
  stv_mid pre post _ r _ v (by rw [h.at_]; push_cast; rfl) h.pre32 (by omega) (by omega)

theorem Row.sneg {i : Nat} (hi : i * 32 + 32 ≤ mem) (v : Vec avxL) :
    stv (pre ++ R (mem * 2) r ++ post) (row + ((mem + i * 32 : Nat) : Int)) v =
      some (pre ++ R (mem * 2) (store r (mem + i * 32) v) ++ post) :=
  stv_mid pre post _ r _ v (by rw [h.at_]; push_cast; rfl) h.pre32 (by have := h.mem32; omega) (by omega)

theorem Row.po {i : Nat} (hi : i * 32 + 32 ≤ mem) : posOff (i : Int) = some ((i * 32 : Nat) : Int) :=
  posOff_nat (by have := h.small; omega)

theorem Row.no {i : Nat} (hi : i * 32 + 32 ≤ mem) : negOff mem (i : Int) = some ((mem + i * 32 : Nat) : Int) :=
  negOff_nat (by have := h.small; omega)

theorem setLoop_eq (bud : Bool) : ∀ (n i cnt : Nat), (i + n) * 32 ≤ mem →
    flatAvxSetLoop bud mem (pre ++ R (mem * 2) r ++ post) x row n i cnt = some (avxSetLoop bud mem r (memOf x) i n cnt) := by
  intro n
  induction n with
  | zero => intro i cnt _; rfl
  | succ n ih =>
    intro i cnt hi
    have hi' : i * 32 + 32 ≤ mem := by omega
    rw [flatAvxSetLoop, avxSetLoop]
    simp only [h.po hi', h.no hi', h.ex hi', h.pos post r hi', h.neg post r hi', Option.bind_eq_bind, Option.bind_some, Option.pure_def]
    split
    · rfl
    · split
      · rfl
      · exact ih (i + 1) _ (by omega)

theorem evalLoop_eq : ∀ (n i : Nat) (act : Bool), (i + n) * 32 ≤ mem →
    flatAvxEvalLoop mem (pre ++ R (mem * 2) r ++ post) x row n i act = some (avxEvalLoop mem r (memOf x) i n act) := by
  intro n
  induction n with
  | zero => intro i act _; rfl
  | succ n ih =>
    intro i act hi
    have hi' : i * 32 + 32 ≤ mem := by omega
    rw [flatAvxEvalLoop, avxEvalLoop]
    simp only [h.po hi', h.no hi', h.ex hi', h.pos post r hi', h.neg post r hi', Option.bind_eq_bind, Option.bind_some, Option.pure_def]
    split
    · rfl
    · split
      · rfl
      · exact ih (i + 1) _ (by omega)

theorem t1aBody_eq (cfg : VCfg) (g : VRng) {i : Nat} (hi : i * 32 + 32 ≤ mem) :
    flatAvxT1aBody cfg mem row x i (pre ++ R (mem * 2) r ++ post, g) =
      some (pre ++ R (mem * 2) (avxT1aChunk cfg mem (memOf x) i r g).1 ++ post, (avxT1aChunk cfg mem (memOf x) i r g).2) := by
  unfold flatAvxT1aBody
  simp only [h.po hi, h.no hi, h.ex hi, h.pos post _ hi, h.neg post _ hi, h.spos post _ hi, h.sneg post _ hi, Option.bind_eq_bind,
    Option.bind_some, Option.pure_def]
  rfl

theorem t1bBody_eq (cfg : VCfg) (g : VRng) {i : Nat} (hi : i * 32 + 32 ≤ mem) :
    flatAvxT1bBody cfg mem row i (pre ++ R (mem * 2) r ++ post, g) =
      some (pre ++ R (mem * 2) (avxT1bChunk cfg mem i r g).1 ++ post, (avxT1bChunk cfg mem i r g).2) := by
  unfold flatAvxT1bBody
  simp only [h.po hi, h.no hi, h.pos post _ hi, h.neg post _ hi, h.spos post _ hi, h.sneg post _ hi, Option.bind_eq_bind,
    Option.bind_some, Option.pure_def]
  rfl

theorem t2Body_eq (g : VRng) {i : Nat} (hi : i * 32 + 32 ≤ mem) :
    flatAvxT2Body mem row x i (pre ++ R (mem * 2) r ++ post, g) =
      some (pre ++ R (mem * 2) (avxT2Chunk mem (memOf x) i r) ++ post, g) := by
  unfold flatAvxT2Body
  simp only [h.po hi, h.no hi, h.ex hi, h.pos post _ hi, h.neg post _ hi, h.spos post _ hi, h.sneg post _ hi, Option.bind_eq_bind,
    Option.bind_some, Option.pure_def]
  rfl
end

/-- A loop over the chunks of one row. -/
theorem chunkLoop_eq (mem : Nat) (pre post : List Byte) (body : Nat → List Byte × VRng → Option (List Byte × VRng))
    (f : Nat → Mem → VRng → Mem × VRng)
    (hb : ∀ i r g, i * 32 + 32 ≤ mem → body i (pre ++ R (mem * 2) r ++ post, g) = some (pre ++ R (mem * 2) (f i r g).1 ++ post, (f i r g).2)) :
    ∀ (n i : Nat) (r : Mem) (g : VRng), (i + n) * 32 ≤ mem →
      forLoop body n i (pre ++ R (mem * 2) r ++ post, g) =
        some (pre ++ R (mem * 2) (chunkLoop f i n r g).1 ++ post, (chunkLoop f i n r g).2) := by
  intro n
  induction n with
  | zero => intro i r g _; rfl
  | succ n ih =>
    intro i r g hi
    rw [forLoop, bind_of (hb i r g (by omega)), chunkLoop]
    exact ih (i + 1) _ _ (by omega)

theorem avxMem_mod (n : Nat) : avxMem n % 32 = 0 := by unfold avxMem; split <;> omega
theorem avxMem_ge (n : Nat) : n ≤ avxMem n := by unfold avxMem; split <;> omega
theorem avxMem_pos {n : Nat} (h : 0 < n) : 32 ≤ avxMem n := by unfold avxMem; split <;> omega
theorem avxMem_le_example (n : Nat) : avxMem n ≤ exampleMem n := by unfold avxMem exampleMem; split <;> omega

/-! ### The state with one clause singled out -/

/-- The block with clause `c` between `done` and `rest`. -/
def at_ (b : VBlock) (done rest : List VClause) (c : VClause) (f : Rng) (g : VRng) : VBlock :=
  { b with clauses := done ++ c :: rest, fast := f, vrng := g }

/-- The rows of some clauses. -/
def Rs (n : Nat) (cs : List VClause) : List Byte := cs.flatMap fun c => (List.range (avxMem n * 2)).map c.row

theorem Rs_length (n : Nat) : ∀ cs : List VClause, (Rs n cs).length = cs.length * (avxMem n * 2) := by
  intro cs
  induction cs with
  | nil => simp [Rs]
  | cons c cs ih =>
    unfold Rs at ih ⊢
    rw [List.flatMap_cons, List.length_append, ih, List.length_cons, Nat.succ_mul]
    simp
    omega

theorem Rs_mod (n : Nat) (cs : List VClause) : (Rs n cs).length % 32 = 0 := by
  rw [Rs_length]
  have := avxMem_mod n
  obtain ⟨q, hq⟩ := Nat.dvd_of_mod_eq_zero this
  rw [hq, show cs.length * (32 * q * 2) = 32 * (cs.length * (q * 2)) by
    rw [Nat.mul_assoc, Nat.mul_left_comm]]
  exact Nat.mul_mod_right _ _

section
variable (b : VBlock) (done rest : List VClause) (c : VClause) (f : Rng) (g : VRng)

theorem at_clauses : (flattenAvx (at_ b done rest c f g)).clauses =
    Rs b.cfg.nLits done ++ R (avxMem b.cfg.nLits * 2) c.row ++ Rs b.cfg.nLits rest := by
  simp [flattenAvx, at_, Rs, R]

/-- The outputs after those of `rest`. -/
def tailOut (rest : List VClause) (total : Nat) : List Nat := rest.map (·.out) ++ List.replicate (outSize total - total) 0

theorem at_outputs : (flattenAvx (at_ b done rest c f g)).outputs =
    done.map (·.out) ++ c.out :: tailOut rest (done ++ c :: rest).length := by
  simp [flattenAvx, at_, tailOut]

theorem at_wr_out (o : Nat) : wr (flattenAvx (at_ b done rest c f g)).outputs ((done.length : Nat) : Int) o =
    some (flattenAvx (at_ b done rest { c with out := o } f g)).outputs := by
  rw [at_outputs, at_outputs, wr_mid _ _ _ _ _ (by simp)]
  simp

theorem at_with_out (o : Nat) : { flattenAvx (at_ b done rest c f g) with
    outputs := (flattenAvx (at_ b done rest { c with out := o } f g)).outputs } = flattenAvx (at_ b done rest { c with out := o } f g) := by
  simp [flattenAvx, at_]

theorem at_rd_out : rd (flattenAvx (at_ b done rest c f g)).outputs ((done.length : Nat) : Int) = some c.out := by
  rw [at_outputs, rd_mid _ _ _ _ (by simp)]

theorem at_small (hs : AvxSmall b.cfg.nLits (done ++ c :: rest).length b.nClasses) :
    done.length * (avxMem b.cfg.nLits * 2) < 2147483648 := by
  have : done.length * (avxMem b.cfg.nLits * 2) ≤ (done ++ c :: rest).length * (avxMem b.cfg.nLits * 2) :=
    Nat.mul_le_mul_right _ (by simp)
  have := hs.clauses
  omega

theorem at_row (hs : AvxSmall b.cfg.nLits (done ++ c :: rest).length b.nClasses) (x : List Byte)
    (hx : x.length = exampleMem b.cfg.nLits) :
    Row (avxMem b.cfg.nLits) (Rs b.cfg.nLits done) x ((done.length * (avxMem b.cfg.nLits * 2) : Nat) : Int) :=
  ⟨avxMem_mod _, hs.row, Rs_mod _ _, by rw [hx]; exact avxMem_le_example _, by rw [Rs_length]⟩

theorem at_endClause (o cnt : Nat) :
    (flattenAvx (at_ b done rest c f g)).endClause done.length (flattenAvx (at_ b done rest { c with out := o } f g)).outputs cnt =
      some (flattenAvx (at_ b done rest { c with out := o, cnt := if b.cfg.budget.isSome then cnt else c.cnt } f g)) := by
  unfold FlatAvx.endClause
  have hc : (flattenAvx (at_ b done rest c f g)).cfg = b.cfg := rfl
  rw [hc]
  by_cases hb : b.cfg.budget.isSome = true
  · rw [if_pos hb, if_pos hb]
    have hw : wr (flattenAvx (at_ b done rest c f g)).counts ((done.length : Nat) : Int) cnt =
        some (done.map (·.cnt) ++ cnt :: rest.map (·.cnt)) := by
      have hm : (flattenAvx (at_ b done rest c f g)).counts = done.map (·.cnt) ++ c.cnt :: rest.map (·.cnt) := by
        simp [flattenAvx, at_, hb]
      rw [hm]
      exact wr_mid _ _ _ _ _ (by simp)
    rw [bind_of hw]
    simp [flattenAvx, at_, hb]
  · rw [if_neg hb, if_neg hb]
    simp [flattenAvx, at_, hb]

end

theorem nc_eq {n : Nat} (h : 0 < n) : ((avxMem n : Int) / 32 - 1) = ((avxMem n / 32 - 1 : Nat) : Int) := by
  have := avxMem_pos h
  omega

theorem setOutBody_eq (b : VBlock) (x : List Byte) (hn : 0 < b.cfg.nLits) (hx : x.length = exampleMem b.cfg.nLits)
    (done rest : List VClause) (c : VClause) (f : Rng) (g : VRng)
    (hs : AvxSmall b.cfg.nLits (done ++ c :: rest).length b.nClasses) :
    FlatAvx.setOutBody x (avxMask b.cfg.nLits) done.length (flattenAvx (at_ b done rest c f g)) =
      some (flattenAvx (at_ b done rest (avxSetClause b.cfg (memOf x) c) f g)) := by
  have hrow := at_row b done rest c hs x hx
  have hm := avxMem_pos hn
  have hm32 := avxMem_mod b.cfg.nLits
  unfold FlatAvx.setOutBody
  have hmem : (flattenAvx (at_ b done rest c f g)).mem = avxMem b.cfg.nLits := rfl
  have hcfg : (flattenAvx (at_ b done rest c f g)).cfg = b.cfg := rfl
  simp only [hmem, hcfg, nc_eq hn, Int.toNat_natCast]
  rw [bind_of (at_wr_out b done rest c f g 1), bind_of (avxRowPtr_nat hs.row (at_small b done rest c hs)), at_clauses,
    bind_of (setLoop_eq hrow _ c.row _ _ 0 0 (by omega))]
  obtain ⟨ok, cnt, hr⟩ : ∃ ok cnt, avxSetLoop b.cfg.budget.isSome (avxMem b.cfg.nLits) c.row (memOf x) 0
      (avxMem b.cfg.nLits / 32 - 1) 0 = (ok, cnt) := ⟨_, _, rfl⟩
  simp only [avxSetClause, hr]
  cases ok with
  | false =>
    simp only [Bool.false_eq_true, if_false, if_true]
    rw [bind_of (at_wr_out b done rest { c with out := 1 } f g 0)]
    exact at_endClause b done rest c f g 0 cnt
  | true =>
    have hi : (avxMem b.cfg.nLits / 32 - 1) * 32 + 32 ≤ avxMem b.cfg.nLits := by omega
    simp only [if_true, Bool.true_eq_false, if_false]
    unfold FlatAvx.setLast
    have hpos := hrow.pos (Rs b.cfg.nLits rest) c.row hi
    have hneg := hrow.neg (Rs b.cfg.nLits rest) c.row hi
    rw [← at_clauses b done rest c f g] at hpos hneg
    simp only [hmem, hcfg]
    rw [bind_of (hrow.po hi), bind_of (hrow.ex hi), bind_of (hrow.po hi), bind_of hpos]
    by_cases h1 : anyBit (cmpeq (vor (vnot (vand (vnot (cmpgt (set1 32 0#8) (load 32 c.row ((avxMem b.cfg.nLits / 32 - 1) * 32))))
        (avxMask b.cfg.nLits))) (load 32 (memOf x) ((avxMem b.cfg.nLits / 32 - 1) * 32))) (set1 32 0#8)) = true
    · rw [if_pos h1, if_pos h1]
      rw [bind_of (at_wr_out b done rest { c with out := 1 } f g 0)]
      exact congrArg some (at_with_out b done rest c f g 0)
    · rw [if_neg h1, if_neg h1]
      simp only [Option.bind_eq_bind]
      rw [hrow.no hi]
      simp only [Option.bind_some]
      rw [hneg]
      simp only [Option.bind_some]
      split
      · rw [at_wr_out b done rest { c with out := 1 } f g 0]
        simp only [Option.bind_some]
        rw [at_endClause b done rest c f g 0]
      · rw [at_endClause b done rest c f g 1]

theorem evalBody_eq (b : VBlock) (x : List Byte) (hn : 0 < b.cfg.nLits) (hx : x.length = exampleMem b.cfg.nLits)
    (done rest : List VClause) (c : VClause) (f : Rng) (g : VRng)
    (hs : AvxSmall b.cfg.nLits (done ++ c :: rest).length b.nClasses) :
    FlatAvx.evalBody x (avxMask b.cfg.nLits) done.length (flattenAvx (at_ b done rest c f g)) =
      some (flattenAvx (at_ b done rest (avxEvalClause b.cfg (memOf x) c) f g)) := by
  have hrow := at_row b done rest c hs x hx
  have hm := avxMem_pos hn
  have hm32 := avxMem_mod b.cfg.nLits
  unfold FlatAvx.evalBody
  have hmem : (flattenAvx (at_ b done rest c f g)).mem = avxMem b.cfg.nLits := rfl
  simp only [hmem, nc_eq hn, Int.toNat_natCast]
  rw [bind_of (at_wr_out b done rest c f g 1), bind_of (avxRowPtr_nat hs.row (at_small b done rest c hs)), at_clauses,
    bind_of (evalLoop_eq hrow _ c.row _ 0 _ (by omega))]
  obtain ⟨ok, act, hr⟩ : ∃ ok act, avxEvalLoop (avxMem b.cfg.nLits) c.row (memOf x) 0
      (avxMem b.cfg.nLits / 32 - 1) false = (ok, act) := ⟨_, _, rfl⟩
  simp only [avxEvalClause, hr]
  have hw0 := at_wr_out b done rest { c with out := 1 } f g 0
  have h0 := congrArg some (at_with_out b done rest c f g 0)
  have h1' := congrArg some (at_with_out b done rest c f g 1)
  cases ok with
  | false =>
    simp only [Bool.false_eq_true, if_false, if_true]
    rw [bind_of hw0]
    rw [← at_clauses b done rest c f g]
    exact h0
  | true =>
    have hi : (avxMem b.cfg.nLits / 32 - 1) * 32 + 32 ≤ avxMem b.cfg.nLits := by omega
    simp only [if_true, Bool.true_eq_false, if_false]
    unfold FlatAvx.evalLast
    have hpos := hrow.pos (Rs b.cfg.nLits rest) c.row hi
    have hneg := hrow.neg (Rs b.cfg.nLits rest) c.row hi
    rw [← at_clauses b done rest c f g] at hpos hneg
    simp only [hmem]
    rw [bind_of (hrow.po hi), bind_of (hrow.ex hi), bind_of (hrow.po hi), bind_of hpos]
    simp only [Option.bind_eq_bind, Option.pure_def, hrow.no hi, Option.bind_some, hneg, hw0]
    split
    · exact h0
    · split
      · exact h0
      · split
        · exact h0
        · exact h1'

/-- A loop over the clauses that changes one clause at a time. -/
theorem forLoop_map (b : VBlock) (body : Nat → FlatAvx → Option FlatAvx) (F : VClause → VClause) (total : Nat)
    (h : ∀ (done rest : List VClause) (c : VClause), (done ++ c :: rest).length = total →
      body done.length (flattenAvx (at_ b done rest c b.fast b.vrng)) = some (flattenAvx (at_ b done rest (F c) b.fast b.vrng))) :
    ∀ (rest done : List VClause), (done ++ rest).length = total →
      forLoop body rest.length done.length (flattenAvx { b with clauses := done ++ rest }) =
        some (flattenAvx { b with clauses := done ++ rest.map F }) := by
  intro rest
  induction rest with
  | nil => intro done _; simp [forLoop]
  | cons c rest ih =>
    intro done ht
    have h1 := h done rest c ht
    unfold at_ at h1
    rw [List.length_cons, forLoop, bind_of h1]
    have := ih (done ++ [F c]) (by simpa using ht)
    simp only [List.append_assoc, List.cons_append, List.nil_append, List.length_append, List.length_cons, List.length_nil,
      Nat.zero_add] at this
    rw [this, List.map_cons]

theorem ldv_mask (b : VBlock) : ldv (flattenAvx b).mask 0 = some (avxMask b.cfg.nLits) := by
  have hm : (flattenAvx b).mask = List.ofFn (avxMask b.cfg.nLits) := rfl
  rw [hm]
  unfold ldv
  rw [if_pos ⟨by omega, by omega, by simp⟩]
  congr 1
  funext l
  have h0 : (0 : Int).toNat = 0 := rfl
  rw [h0, Nat.zero_add, List.getD_eq_getElem?_getD, List.getElem?_ofFn, dif_pos l.isLt]
  rfl

theorem flat_setOut (b : VBlock) (x : List Byte) (hn : 0 < b.cfg.nLits) (hs : AvxSmall b.cfg.nLits b.clauses.length b.nClasses)
    (hx : x.length = exampleMem b.cfg.nLits) :
    (flattenAvx b).setOut x = some (flattenAvx { b with clauses := b.clauses.map (avxSetClause b.cfg (memOf x)) }) := by
  unfold FlatAvx.setOut
  rw [bind_of (ldv_mask b)]
  exact forLoop_map b _ (avxSetClause b.cfg (memOf x)) b.clauses.length
    (fun done rest c ht => setOutBody_eq b x hn hx done rest c _ _ (ht ▸ hs)) b.clauses [] rfl

theorem flat_evalOut (b : VBlock) (x : List Byte) (hn : 0 < b.cfg.nLits) (hs : AvxSmall b.cfg.nLits b.clauses.length b.nClasses)
    (hx : x.length = exampleMem b.cfg.nLits) :
    (flattenAvx b).evalOut x = some (flattenAvx { b with clauses := b.clauses.map (avxEvalClause b.cfg (memOf x)) }) := by
  unfold FlatAvx.evalOut
  rw [bind_of (ldv_mask b)]
  exact forLoop_map b _ (avxEvalClause b.cfg (memOf x)) b.clauses.length
    (fun done rest c ht => evalBody_eq b x hn hx done rest c _ _ (ht ▸ hs)) b.clauses [] rfl

/-! ### Votes -/

theorem wlength (k : Nat) : ∀ cs : List VClause, (∀ c ∈ cs, c.w.length = k) → (cs.flatMap (·.w)).length = cs.length * k := by
  intro cs
  induction cs with
  | nil => simp
  | cons c cs ih =>
    intro h
    rw [List.flatMap_cons, List.length_append, h c List.mem_cons_self, ih fun c' hc' => h c' (List.mem_cons_of_mem _ hc'),
      List.length_cons, Nat.succ_mul]
    omega

theorem countLoop_eq (b : VBlock) (hb : ∀ c ∈ b.clauses, c.w.length = b.nClasses) (hs : b.clauses.length * b.nClasses < 2147483648) :
    ∀ (rest done : List VClause) (v : List Int), done ++ rest = b.clauses → v.length = b.nClasses →
      forLoop FlatAvx.countBody rest.length done.length { flattenAvx b with votes := v } =
        some { flattenAvx b with votes := rest.foldl (fun v c => if c.out = 1 then addVotes v c.w else v) v } := by
  intro rest
  induction rest with
  | nil => intro done v _ _; simp [forLoop]
  | cons c rest ih =>
    intro done v hdr hv
    have hc := hb c (by rw [← hdr]; simp)
    have hlt : done.length < b.clauses.length := by rw [← hdr]; simp
    have hsm : done.length * b.nClasses + b.nClasses < 2147483648 := by
      have : (done.length + 1) * b.nClasses ≤ b.clauses.length * b.nClasses := Nat.mul_le_mul_right _ hlt
      rw [Nat.succ_mul] at this
      omega
    rw [List.length_cons, forLoop]
    have hbody : FlatAvx.countBody done.length { flattenAvx b with votes := v } =
        some { flattenAvx b with votes := if c.out = 1 then addVotes v c.w else v } := by
      unfold FlatAvx.countBody
      have hro : rd (flattenAvx b).outputs ((done.length : Nat) : Int) = some c.out := by
        have hm : (flattenAvx b).outputs = done.map (·.out) ++ c.out :: tailOut rest b.clauses.length := by
          simp [flattenAvx, tailOut, ← hdr]
        rw [hm, rd_mid _ _ _ _ (by simp)]
      simp only [hro, Option.bind_eq_bind, Option.bind_some, Option.pure_def]
      by_cases ho : c.out = 1
      · rw [if_pos ho, if_pos ho]
        have hl := voteLoop_eq b.nClasses done.length (done.flatMap (·.w)) (rest.flatMap (·.w))
          (wlength _ _ fun c' hc' => hb c' (by rw [← hdr]; simp [hc'])) hsm c.w v [] []
          (by rw [hv, hc]) rfl (by simp [hc])
        simp only [List.nil_append, List.length_nil, hc] at hl
        have hw : (flattenAvx b).weights = done.flatMap (·.w) ++ c.w ++ rest.flatMap (·.w) := by simp [flattenAvx, ← hdr]
        have hn : (flattenAvx b).nClasses = b.nClasses := rfl
        rw [hw, hn, hl]
        rfl
      · rw [if_neg ho, if_neg ho]
    rw [hbody]
    simp only [Option.bind_eq_bind, Option.bind_some]
    have := ih (done ++ [c]) (if c.out = 1 then addVotes v c.w else v) (by rw [← hdr]; simp) (by
      split
      · simp [addVotes, hv, hc]
      · exact hv)
    simp only [List.length_append, List.length_cons, List.length_nil, Nat.zero_add] at this
    rw [this, List.foldl_cons]

theorem flat_countVotes (b : VBlock) (hb : AvxShaped b) (hs : b.clauses.length * b.nClasses < 2147483648) :
    (flattenAvx b).countVotes = some (flattenAvx { b with votes := avxCountVotes b.nClasses b.clauses }) := by
  unfold FlatAvx.countVotes
  have hz := zeroLoop_eq b.votes []
  simp only [List.nil_append, List.length_nil, hb.votes] at hz
  have hv : (flattenAvx b).votes = b.votes := rfl
  have hn : (flattenAvx b).nClasses = b.nClasses := rfl
  rw [hv, hn, hz]
  simp only [Option.bind_eq_bind, Option.bind_some]
  exact countLoop_eq b hb.weights hs b.clauses [] (List.replicate b.nClasses 0) rfl (by simp)

/-! ### Feedback -/

theorem at_weights (b : VBlock) (done rest : List VClause) (c : VClause) (f : Rng) (g : VRng) :
    (flattenAvx (at_ b done rest c f g)).weights = done.flatMap (·.w) ++ c.w ++ rest.flatMap (·.w) := by
  simp [flattenAvx, at_]

theorem row_split {α : Type} (l : List α) (j : Nat) (h : j < l.length) : l = l.take j ++ l[j] :: l.drop (j + 1) := by simp

theorem flatClauseUpdate_eq (b : VBlock) (done rest : List VClause) (c : VClause) (f : Rng) (g : VRng) (x : List Byte)
    (j : Nat) (t : Int) (hx : x.length = exampleMem b.cfg.nLits)
    (hs : AvxSmall b.cfg.nLits (done ++ c :: rest).length b.nClasses)
    (hd : ∀ c ∈ done, c.w.length = b.nClasses) (hc : c.w.length = b.nClasses) (hj : j < b.nClasses) :
    (flattenAvx (at_ b done rest c f g)).clauseUpdate x ((done.length * (avxMem b.cfg.nLits * 2) : Nat) : Int)
        ((done.length * b.nClasses : Nat) + (j : Nat) : Int) t c.out =
      some (flattenAvx (at_ b done rest (avxClauseUpdate b.cfg (memOf x) j t c g).1 f (avxClauseUpdate b.cfg (memOf x) j t c g).2)) := by
  have hrow := at_row b done rest c hs x hx
  have hm32 := avxMem_mod b.cfg.nLits
  have hjl : j < c.w.length := by omega
  have hsplit := row_split c.w j hjl
  have hdl := wlength _ _ hd
  have hwl : (flattenAvx (at_ b done rest c f g)).weights =
      (done.flatMap (·.w) ++ c.w.take j) ++ c.w[j] :: (c.w.drop (j + 1) ++ rest.flatMap (·.w)) := by
    rw [at_weights]
    have := congrArg (fun w => done.flatMap (·.w) ++ w ++ rest.flatMap (·.w)) hsplit
    simp only at this
    rw [this]
    simp only [List.append_assoc, List.cons_append]
  have hidx : ((done.length * b.nClasses : Nat) + (j : Nat) : Int) = ((done.flatMap (·.w) ++ c.w.take j).length : Int) := by
    rw [List.length_append, hdl, List.length_take, Nat.min_eq_left (by omega)]
    push_cast
    rfl
  have hrd : rd (flattenAvx (at_ b done rest c f g)).weights ((done.length * b.nClasses : Nat) + (j : Nat) : Int) = some (c.w.getD j 0) := by
    rw [hwl, rd_mid _ _ _ _ hidx]
    simp [hjl]
  have hwr : ∀ v : Int, wr (flattenAvx (at_ b done rest c f g)).weights ((done.length * b.nClasses : Nat) + (j : Nat) : Int) v =
      some (done.flatMap (·.w) ++ c.w.set j v ++ rest.flatMap (·.w)) := by
    intro v
    rw [hwl, wr_mid _ _ _ _ _ hidx, List.set_eq_take_append_cons_drop, if_pos hjl]
    simp
  have hn : 0 + avxMem b.cfg.nLits / 32 ≤ avxMem b.cfg.nLits / 32 := by omega
  have hb0 : (0 + avxMem b.cfg.nLits / 32) * 32 ≤ avxMem b.cfg.nLits := by omega
  have hcl := at_clauses b done rest c f g
  have hmem : (flattenAvx (at_ b done rest c f g)).mem = avxMem b.cfg.nLits := rfl
  have hcfg : (flattenAvx (at_ b done rest c f g)).cfg = b.cfg := rfl
  have hv : (flattenAvx (at_ b done rest c f g)).vrng = g := rfl
  have h1 := chunkLoop_eq (avxMem b.cfg.nLits) (Rs b.cfg.nLits done) (Rs b.cfg.nLits rest) _
    (avxT1aChunk b.cfg (avxMem b.cfg.nLits) (memOf x)) (fun i r g hi => t1aBody_eq hrow (Rs b.cfg.nLits rest) r b.cfg g hi) _ 0 c.row g hb0
  have h2 := chunkLoop_eq (avxMem b.cfg.nLits) (Rs b.cfg.nLits done) (Rs b.cfg.nLits rest) _
    (avxT1bChunk b.cfg (avxMem b.cfg.nLits)) (fun i r g hi => t1bBody_eq hrow (Rs b.cfg.nLits rest) r b.cfg g hi) _ 0 c.row g hb0
  have h3 := chunkLoop_eq (avxMem b.cfg.nLits) (Rs b.cfg.nLits done) (Rs b.cfg.nLits rest) _
    (fun i r g => (avxT2Chunk (avxMem b.cfg.nLits) (memOf x) i r, g)) (fun i r g hi => t2Body_eq hrow (Rs b.cfg.nLits rest) r g hi) _ 0 c.row g hb0
  unfold FlatAvx.clauseUpdate
  rw [bind_of hrd]
  simp only [hmem, hcfg, hv, hcl]
  unfold avxClauseUpdate
  simp only
  generalize (if c.w.getD j 0 ≥ 0 then (1 : Int) else -1) = sg
  generalize c.w.getD j 0 = w
  split
  · split
    · rw [bind_of (hwr _), bind_of h1]
      simp [flattenAvx, at_, Rs, R, avxT1a]
    · rw [bind_of h2]
      simp [flattenAvx, at_, Rs, R, avxT1b]
  · split
    · rw [bind_of (hwr _), bind_of h3]
      simp [flattenAvx, at_, Rs, R, avxT2]
    · rfl

theorem gate_eq (b : VBlock) (done rest : List VClause) (c : VClause) (f : Rng) (g : VRng) :
    (flattenAvx (at_ b done rest c f g)).gate done.length = some (flattenAvx (at_ b done rest (avxBudgetGate b.cfg c) f g)) := by
  unfold FlatAvx.gate
  have hb : (flattenAvx (at_ b done rest c f g)).cfg.budget = b.cfg.budget := rfl
  rw [hb]
  unfold avxBudgetGate
  cases hbud : b.cfg.budget with
  | none => rfl
  | some bud =>
    simp only
    have hrc : rd (flattenAvx (at_ b done rest c f g)).counts ((done.length : Nat) : Int) = some c.cnt := by
      have hm : (flattenAvx (at_ b done rest c f g)).counts = done.map (·.cnt) ++ c.cnt :: rest.map (·.cnt) := by
        simp [flattenAvx, at_, hbud]
      rw [hm, rd_mid _ _ _ _ (by simp)]
    rw [bind_of hrc]
    split
    · rw [bind_of (at_wr_out b done rest c f g 0)]
      exact congrArg some (at_with_out b done rest c f g 0)
    · rfl

theorem clauseUpdate_w (cfg : VCfg) (lits : Mem) (j : Nat) (t : Int) (c : VClause) (g : VRng) :
    (avxClauseUpdate cfg lits j t c g).1.w.length = c.w.length := by
  unfold avxClauseUpdate
  simp only
  generalize (if c.w.getD j 0 ≥ 0 then (1 : Int) else -1) = sg
  split
  · split <;> simp
  · split <;> simp

theorem gate_w (cfg : VCfg) (c : VClause) : (avxBudgetGate cfg c).w = c.w := by
  unfold avxBudgetGate
  split
  · split <;> rfl
  · rfl

theorem trainClause_w (cfg : VCfg) (lits : Mem) (fb : Feedback) (c : VClause) (f : Rng) (g : VRng) :
    (avxTrainClause cfg lits fb c f g).1.w.length = c.w.length := by
  unfold avxTrainClause
  simp only
  split
  · rw [clauseUpdate_w]
    split
    · rw [clauseUpdate_w, gate_w]
    · rw [gate_w]
  · split
    · rw [clauseUpdate_w, gate_w]
    · rw [gate_w]

theorem flatTrainBody_eq (b : VBlock) (done rest : List VClause) (c : VClause) (f : Rng) (g : VRng) (x : List Byte) (fb : Feedback)
    (hx : x.length = exampleMem b.cfg.nLits) (hok : ∀ c' ∈ done ++ c :: rest, c'.w.length = b.nClasses)
    (hs : AvxSmall b.cfg.nLits (done ++ c :: rest).length b.nClasses)
    (hp : fb.posClass < b.nClasses) (hn : fb.negClass < b.nClasses) :
    FlatAvx.trainBody x fb done.length (flattenAvx (at_ b done rest c f g)) =
      some (flattenAvx (at_ b done rest (avxTrainClause b.cfg (memOf x) fb c f g).1 (avxTrainClause b.cfg (memOf x) fb c f g).2.1
        (avxTrainClause b.cfg (memOf x) fb c f g).2.2)) := by
  have hc := hok c (by simp)
  have hd : ∀ c' ∈ done, c'.w.length = b.nClasses := fun c' hc' => hok c' (by simp [hc'])
  have hlt : done.length < (done ++ c :: rest).length := by simp
  have h2 : done.length * b.nClasses < 2147483648 := by
    have : done.length * b.nClasses ≤ (done ++ c :: rest).length * b.nClasses := Nat.mul_le_mul_right _ (Nat.le_of_lt hlt)
    have := hs.weights
    omega
  unfold FlatAvx.trainBody
  have e3 : i32 ((done.length : Int) * ((flattenAvx (at_ b done rest c f g)).nClasses : Int)) =
      some ((done.length * b.nClasses : Nat) : Int) := i32_nat _ (by push_cast; rfl) h2
  have hmem : (flattenAvx (at_ b done rest c f g)).mem = avxMem b.cfg.nLits := rfl
  rw [hmem, bind_of (avxRowPtr_nat hs.row (at_small b done rest c hs)), bind_of e3, bind_of (gate_eq b done rest c f g)]
  have hgs : (avxBudgetGate b.cfg c).w.length = b.nClasses := by rw [gate_w]; exact hc
  unfold avxTrainClause
  simp only
  generalize avxBudgetGate b.cfg c = c0 at hgs
  have key : ∀ (c : VClause) (f : Rng) (g : VRng), c.w.length = b.nClasses → ∀ (j : Nat) (t : Int) (pr : Rat), j < b.nClasses →
      (flattenAvx (at_ b done rest c f g)).maybeUpdate x done.length ((done.length * (avxMem b.cfg.nLits * 2) : Nat) : Int)
        ((done.length * b.nClasses : Nat) : Int) j t pr =
      some (flattenAvx (at_ b done rest (if f.next.1 < pr then avxClauseUpdate b.cfg (memOf x) j t c g else (c, g)).1 f.next.2
        (if f.next.1 < pr then avxClauseUpdate b.cfg (memOf x) j t c g else (c, g)).2)) := by
    intro c f g hc j t pr hj
    have hf : (flattenAvx (at_ b done rest c f g)).fast = f := rfl
    unfold FlatAvx.maybeUpdate
    rw [hf]
    split
    · rw [bind_of (at_rd_out b done rest c f g), bind_of (flatClauseUpdate_eq b done rest c f g x j t hx (by simpa using hs) hd hc hj)]
      rfl
    · rfl
  rw [bind_of (key c0 f g hgs fb.posClass 1 fb.posProb hp)]
  have hsh : (if f.next.1 < fb.posProb then avxClauseUpdate b.cfg (memOf x) fb.posClass 1 c0 g else (c0, g)).1.w.length = b.nClasses := by
    split
    · rw [clauseUpdate_w]; exact hgs
    · exact hgs
  exact key _ f.next.2 _ hsh fb.negClass (-1) fb.negProb hn

theorem flat_trainLoop (b : VBlock) (x : List Byte) (fb : Feedback) (total : Nat) (hx : x.length = exampleMem b.cfg.nLits)
    (hs : AvxSmall b.cfg.nLits total b.nClasses) (hp : fb.posClass < b.nClasses) (hn : fb.negClass < b.nClasses) :
    ∀ (rest done : List VClause) (f : Rng) (g : VRng), (done ++ rest).length = total → (∀ c ∈ done ++ rest, c.w.length = b.nClasses) →
      forLoop (FlatAvx.trainBody x fb) rest.length done.length (flattenAvx { b with clauses := done ++ rest, fast := f, vrng := g }) =
        some (flattenAvx { b with clauses := done ++ (avxTrainClauses b.cfg (memOf x) fb rest f g).1,
                                  fast := (avxTrainClauses b.cfg (memOf x) fb rest f g).2.1,
                                  vrng := (avxTrainClauses b.cfg (memOf x) fb rest f g).2.2 }) := by
  intro rest
  induction rest with
  | nil => intro done f g _ _; simp [forLoop, avxTrainClauses]
  | cons c rest ih =>
    intro done f g ht hok
    have h1 := flatTrainBody_eq b done rest c f g x fb hx hok (ht ▸ hs) hp hn
    unfold at_ at h1
    rw [List.length_cons, forLoop, bind_of h1]
    have hok' : ∀ c' ∈ (done ++ [(avxTrainClause b.cfg (memOf x) fb c f g).1]) ++ rest, c'.w.length = b.nClasses := by
      intro c' hc'
      simp only [List.append_assoc, List.mem_append, List.mem_cons, List.not_mem_nil, or_false] at hc'
      rcases hc' with hc' | rfl | hc'
      · exact hok c' (by simp [hc'])
      · rw [trainClause_w]; exact hok c (by simp)
      · exact hok c' (by simp [hc'])
    have := ih (done ++ [(avxTrainClause b.cfg (memOf x) fb c f g).1]) (avxTrainClause b.cfg (memOf x) fb c f g).2.1
      (avxTrainClause b.cfg (memOf x) fb c f g).2.2 (by simpa using ht) hok'
    simp only [List.append_assoc, List.cons_append, List.nil_append, List.length_append, List.length_cons, List.length_nil,
      Nat.zero_add] at this
    rw [this]
    rfl

theorem trainClauses_w (cfg : VCfg) (lits : Mem) (fb : Feedback) (k : Nat) : ∀ (cs : List VClause) (f : Rng) (g : VRng),
    (∀ c ∈ cs, c.w.length = k) → (∀ c ∈ (avxTrainClauses cfg lits fb cs f g).1, c.w.length = k) ∧
      (avxTrainClauses cfg lits fb cs f g).1.length = cs.length := by
  intro cs
  induction cs with
  | nil => intro f g h; exact ⟨h, rfl⟩
  | cons c cs ih =>
    intro f g h
    obtain ⟨h1, h2⟩ := ih (avxTrainClause cfg lits fb c f g).2.1 (avxTrainClause cfg lits fb c f g).2.2
      (fun c' hc' => h c' (List.mem_cons_of_mem _ hc'))
    rw [avxTrainClauses]
    refine ⟨?_, by simp [h2]⟩
    intro c' hc'
    rcases List.mem_cons.mp hc' with rfl | hc'
    · rw [trainClause_w]; exact h c List.mem_cons_self
    · exact h1 c' hc'

theorem countVotes_length (n : Nat) : ∀ (cs : List VClause) (v : List Int), v.length = n → (∀ c ∈ cs, c.w.length = n) →
    (cs.foldl (fun v c => if c.out = 1 then addVotes v c.w else v) v).length = n := by
  intro cs
  induction cs with
  | nil => intro v hv _; exact hv
  | cons c cs ih =>
    intro v hv h
    rw [List.foldl_cons]
    refine ih _ ?_ fun c' hc' => h c' (List.mem_cons_of_mem _ hc')
    split
    · simp [addVotes, hv, h c List.mem_cons_self]
    · exact hv

theorem setClause_w (cfg : VCfg) (lits : Mem) (c : VClause) : (avxSetClause cfg lits c).w = c.w := by
  unfold avxSetClause
  simp only
  split
  · rfl
  · split <;> rfl

theorem evalClause_w (cfg : VCfg) (lits : Mem) (c : VClause) : (avxEvalClause cfg lits c).w = c.w := by
  unfold avxEvalClause
  simp only
  split
  · rfl
  · split
    · rfl
    · split <;> rfl

/-- One call keeps the shape and does on the arrays what it does on the block. -/
theorem flat_apply (b : VBlock) (op : FlatAvxOp) (h0 : 0 < b.cfg.nLits) (hb : AvxShaped b)
    (hs : AvxSmall b.cfg.nLits b.clauses.length b.nClasses) (ho : AvxOpOk b.cfg.nLits b.nClasses op) :
    (flattenAvx b).apply op = some (flattenAvx (b.apply (opMem op))) ∧ AvxShaped (b.apply (opMem op)) ∧
      (b.apply (opMem op)).cfg = b.cfg ∧ (b.apply (opMem op)).nClasses = b.nClasses ∧
      (b.apply (opMem op)).clauses.length = b.clauses.length := by
  cases op with
  | trainExample x =>
    have hr : AvxShaped { b with clauses := b.clauses.map (avxSetClause b.cfg (memOf x)) } := ⟨by
      intro c hc
      obtain ⟨c', hc', rfl⟩ := List.mem_map.mp hc
      rw [setClause_w]
      exact hb.weights c' hc', hb.votes⟩
    refine ⟨?_, ⟨hr.weights, ?_⟩, rfl, rfl, by simp [VBlock.apply, opMem]⟩
    · refine (bind_of (flat_setOut b x h0 hs ho) _).trans ?_
      exact flat_countVotes _ hr (by simpa using hs.weights)
    · exact countVotes_length b.nClasses _ _ List.length_replicate hr.weights
  | evalExample x =>
    have hr : AvxShaped { b with clauses := b.clauses.map (avxEvalClause b.cfg (memOf x)) } := ⟨by
      intro c hc
      obtain ⟨c', hc', rfl⟩ := List.mem_map.mp hc
      rw [evalClause_w]
      exact hb.weights c' hc', hb.votes⟩
    refine ⟨?_, ⟨hr.weights, ?_⟩, rfl, rfl, by simp [VBlock.apply, opMem]⟩
    · refine (bind_of (flat_evalOut b x h0 hs ho) _).trans ?_
      exact flat_countVotes _ hr (by simpa using hs.weights)
    · exact countVotes_length b.nClasses _ _ List.length_replicate hr.weights
  | trainUpdate x fb =>
    obtain ⟨h1, h2⟩ := trainClauses_w b.cfg (memOf x) fb b.nClasses b.clauses b.fast b.vrng hb.weights
    exact ⟨flat_trainLoop b x fb b.clauses.length ho.1 hs ho.2.1 ho.2.2 b.clauses [] b.fast b.vrng rfl hb.weights,
      ⟨h1, hb.votes⟩, rfl, rfl, h2⟩

theorem flat_run (ops : List FlatAvxOp) : ∀ (b : VBlock), 0 < b.cfg.nLits → AvxShaped b →
    AvxSmall b.cfg.nLits b.clauses.length b.nClasses → (∀ op ∈ ops, AvxOpOk b.cfg.nLits b.nClasses op) →
    (flattenAvx b).run ops = some (flattenAvx (b.run (ops.map opMem))) := by
  induction ops with
  | nil => intro b _ _ _ _; rfl
  | cons op ops ih =>
    intro b h0 hb hs ho
    obtain ⟨h1, h2, h3, h4, h5⟩ := flat_apply b op h0 hb hs (ho op List.mem_cons_self)
    rw [FlatAvx.run, bind_of h1]
    exact ih (b.apply (opMem op)) (by rw [h3]; exact h0) h2 (by rw [h3, h4, h5]; exact hs) fun op' ho' => by
      rw [h3, h4]; exact ho op' (List.mem_cons_of_mem _ ho')

/-! ### Initialisation -/

theorem wr_midR (pre post : List Byte) (len : Nat) (row : Mem) (off : Nat) (v : Byte) {i : Int} (hi : i = ((pre.length + off : Nat) : Int))
    (hl : off < len) :
    wr (pre ++ R len row ++ post) i v = some (pre ++ R len (fun a => if a = off then v else row a) ++ post) := by
  subst hi
  unfold wr
  rw [if_pos ⟨by omega, by simp; omega⟩, Int.toNat_natCast]
  congr 1
  rw [List.append_assoc, List.append_assoc, List.set_append_right _ _ (by omega), Nat.add_sub_cancel_left,
    List.set_append_left _ _ (by simpa using hl)]
  congr 2
  apply List.ext_getElem
  · simp
  · intro j h1 h2
    rw [List.getElem_set]
    simp only [R, List.getElem_map, List.getElem_range]
    by_cases h : off = j
    · rw [if_pos h, if_pos h.symm]
    · rw [if_neg h, if_neg (fun h' => h h'.symm)]

theorem initLit_eq (mem : Nat) (pre post : List Byte) (hm : mem * 2 < 2147483648) :
    ∀ (r k : Nat) (row : Mem) (g : Rng), k + r ≤ mem →
      forLoop (flatAvxInitLit mem (pre.length : Int)) r k (pre ++ R (mem * 2) row ++ post, g) =
        some (pre ++ R (mem * 2) (avxInitRow mem k r row g).1 ++ post, (avxInitRow mem k r row g).2) := by
  intro r
  induction r with
  | zero => intro k row g _; rfl
  | succ r ih =>
    intro k row g hk
    rw [forLoop]
    have hb : flatAvxInitLit mem (pre.length : Int) k (pre ++ R (mem * 2) row ++ post, g) =
        some (pre ++ R (mem * 2) (fun a => if a = k + mem then coinByte g.next.2 else
          (fun a => if a = k then coinByte g else row a) a) ++ post, g.next.2.next.2) := by
      unfold flatAvxInitLit
      simp only
      rw [bind_of (wr_midR pre post _ row k (coinByte g) (by push_cast; rfl) (by omega)),
        bind_of (i32_nat (k + mem) (by push_cast; rfl) (by omega)),
        bind_of (wr_midR pre post _ _ (k + mem) (coinByte g.next.2) (by push_cast; rfl) (by omega))]
      rfl
    rw [bind_of hb, ih (k + 1) _ _ (by omega)]
    rfl

/-- A row with some filler states written. -/
def fillFrom (mem i r : Nat) (row : Mem) : Mem := fun a =>
  if i ≤ a ∧ a < i + r then BitVec.ofInt 8 (-109) else if i + mem ≤ a ∧ a < i + r + mem then BitVec.ofInt 8 (-111) else row a

theorem initFill_eq (mem : Nat) (pre post : List Byte) (hm : mem * 2 < 2147483648) :
    ∀ (r i : Nat) (row : Mem), i + r ≤ mem →
      forLoop (flatAvxInitFill mem (pre.length : Int)) r i (pre ++ R (mem * 2) row ++ post) =
        some (pre ++ R (mem * 2) (fillFrom mem i r row) ++ post) := by
  intro r
  induction r with
  | zero =>
    intro i row _
    have : fillFrom mem i 0 row = row := by
      funext a
      unfold fillFrom
      rw [if_neg (by omega), if_neg (by omega)]
    rw [this]
    rfl
  | succ r ih =>
    intro i row hi
    rw [forLoop]
    have hb : flatAvxInitFill mem (pre.length : Int) i (pre ++ R (mem * 2) row ++ post) =
        some (pre ++ R (mem * 2) (fun a => if a = i + mem then BitVec.ofInt 8 (-111) else
          (fun a => if a = i then BitVec.ofInt 8 (-109) else row a) a) ++ post) := by
      unfold flatAvxInitFill
      rw [bind_of (wr_midR pre post _ row i (BitVec.ofInt 8 (-109)) (by push_cast; rfl) (by omega)),
        bind_of (i32_nat (i + mem) (by push_cast; rfl) (by omega))]
      exact wr_midR pre post _ _ (i + mem) _ (by push_cast; rfl) (by omega)
    rw [bind_of hb, ih (i + 1) _ (by omega)]
    congr 3
    apply R_congr
    intro a _
    unfold fillFrom
    simp only
    by_cases h1 : i ≤ a ∧ a < i + (r + 1)
    · rw [if_pos h1]
      by_cases h2 : a = i
      · rw [if_neg (by omega), if_neg (by omega), if_neg (by omega), if_pos h2]
      · rw [if_pos (by omega)]
    · rw [if_neg h1, if_neg (by omega)]
      by_cases h3 : i + mem ≤ a ∧ a < i + (r + 1) + mem
      · rw [if_pos h3]
        by_cases h2 : a = i + mem
        · rw [if_neg (by omega), if_pos h2]
        · rw [if_pos (by omega)]
      · rw [if_neg h3, if_neg (by omega), if_neg (by omega), if_neg (by omega)]

theorem fillFrom_eq (n : Nat) (row : Mem) : fillFrom (avxMem n) n (avxMem n - n) row = avxFill n (avxMem n) row := by
  have := avxMem_ge n
  funext a
  unfold fillFrom avxFill
  rw [show n + (avxMem n - n) = avxMem n by omega]

/-- What was in memory before does not matter where the loop writes. -/
theorem initRow_agree (mem : Nat) : ∀ (r k : Nat) (row row' : Mem) (g : Rng),
    (avxInitRow mem k r row g).2 = (avxInitRow mem k r row' g).2 ∧
    ∀ a, (row a = row' a ∨ (k ≤ a ∧ a < k + r) ∨ (k + mem ≤ a ∧ a < k + r + mem)) →
      (avxInitRow mem k r row g).1 a = (avxInitRow mem k r row' g).1 a := by
  intro r
  induction r with
  | zero =>
    intro k row row' g
    refine ⟨rfl, ?_⟩
    intro a ha
    rcases ha with ha | ha | ha
    · exact ha
    · omega
    · omega
  | succ r ih =>
    intro k row row' g
    simp only [avxInitRow]
    refine ⟨(ih _ _ _ _).1, ?_⟩
    intro a ha
    apply (ih _ _ _ _).2
    by_cases h1 : a = k + mem
    · left; simp [h1]
    · by_cases h2 : a = k
      · left; simp [h2]
      · rcases ha with ha | ha | ha
        · left; simp [h1, h2, ha]
        · right; left; omega
        · right; right; omega

theorem initRow_junk (n : Nat) (row row' : Mem) (g : Rng) :
    R (avxMem n * 2) (avxFill n (avxMem n) (avxInitRow (avxMem n) 0 n row g).1) =
      R (avxMem n * 2) (avxFill n (avxMem n) (avxInitRow (avxMem n) 0 n row' g).1) := by
  apply R_congr
  intro a ha
  unfold avxFill
  split
  · rfl
  · split
    · rfl
    · exact (initRow_agree (avxMem n) n 0 row row' g).2 a (Or.inr (by omega))

theorem initClause_eq (n : Nat) (pre post : List Byte) (hm : avxMem n * 2 < 2147483648) (k : Nat) (hk : k * (avxMem n * 2) < 2147483648)
    (hpre : pre.length = k * (avxMem n * 2)) (row row' : Mem) (g : Rng) :
    flatAvxInitClause n (avxMem n) k (pre ++ R (avxMem n * 2) row ++ post, g) =
      some (pre ++ R (avxMem n * 2) (avxFill n (avxMem n) (avxInitRow (avxMem n) 0 n row' g).1) ++ post,
        (avxInitRow (avxMem n) 0 n row' g).2) := by
  have hge := avxMem_ge n
  unfold flatAvxInitClause
  rw [bind_of (avxRowPtr_nat hm hk), ← hpre, bind_of (initLit_eq _ pre post hm n 0 row g (by omega))]
  simp only
  rw [bind_of (initFill_eq _ pre post hm _ n _ (by omega)), fillFrom_eq, initRow_junk n row row', (initRow_agree (avxMem n) n 0 row row' g).1]
  rfl

theorem list_eq_R (l : List Byte) (len : Nat) (h : len ≤ l.length) : l = R len (memOf l) ++ l.drop len := by
  apply List.ext_getElem
  · simp; omega
  · intro i h1 h2
    rw [List.getElem_append]
    split
    · simp [R, h1]
    · next hh =>
      simp only [R_length, Nat.not_lt] at hh
      simp [hh]

theorem initClauses_eq (n total : Nat) (junkM : Nat → Mem) (hm : avxMem n * 2 < 2147483648)
    (ht : total * (avxMem n * 2) < 2147483648) :
    ∀ (rem k : Nat) (pre l : List Byte) (g : Rng), k + rem = total → pre.length = k * (avxMem n * 2) →
      l.length = rem * (avxMem n * 2) →
      forLoop (flatAvxInitClause n (avxMem n)) rem k (pre ++ l, g) =
        some (pre ++ (avxInitRows n junkM rem g).1.flatMap (R (avxMem n * 2)), (avxInitRows n junkM rem g).2) := by
  intro rem
  induction rem with
  | zero =>
    intro k pre l g _ _ hl
    have : l = [] := by simpa using hl
    subst this
    simp [forLoop, avxInitRows]
  | succ rem ih =>
    intro k pre l g hk hpre hl
    rw [Nat.succ_mul] at hl
    have hsplit := list_eq_R l (avxMem n * 2) (by omega)
    have hkk : k * (avxMem n * 2) < 2147483648 := by
      have : k * (avxMem n * 2) ≤ total * (avxMem n * 2) := Nat.mul_le_mul_right _ (by omega)
      omega
    rw [hsplit, ← List.append_assoc, forLoop,
      bind_of (initClause_eq n pre _ hm k hkk hpre _ (junkM rem) g)]
    rw [ih (k + 1) _ _ _ (by omega) (by rw [List.length_append, hpre, R_length, Nat.succ_mul])
      (by rw [List.length_drop, hl]; omega)]
    simp [avxInitRows]

theorem initWeight_eq (n ck : Nat) (pre post : List Int) (hpre : pre.length = ck * n) (hsm : ck * n + n < 2147483648) :
    ∀ (l d : List Int) (g : Rng), d.length + l.length = n →
      forLoop (flatAvxInitWeight n ck) l.length d.length (pre ++ (d ++ l) ++ post, g) =
        some (pre ++ (d ++ (initWeights l.length g).1) ++ post, (initWeights l.length g).2) := by
  intro l
  induction l with
  | nil => intro d g _; simp [forLoop, initWeights]
  | cons a l ih =>
    intro d g hd
    rw [List.length_cons, forLoop]
    rw [List.length_cons] at hd
    have hb : flatAvxInitWeight n ck d.length (pre ++ (d ++ a :: l) ++ post, g) =
        some (pre ++ ((d ++ [if g.next.1 > 1 / 2 then 1 else -1]) ++ l) ++ post, g.next.2) := by
      unfold flatAvxInitWeight
      rw [bind_of (i32_nat (ck * n) (by push_cast; rfl) (by omega)),
        bind_of (i32_nat (ck * n + d.length) (by push_cast; rfl) (by omega)),
        bind_of (wr_eq_mid (pre ++ d) (l ++ post) a _ (by simp) (by simp [hpre]))]
      simp
    rw [bind_of hb]
    have := ih (d ++ [if g.next.1 > 1 / 2 then 1 else -1]) g.next.2 (by simp; omega)
    simp only [List.length_append, List.length_cons, List.length_nil, Nat.zero_add] at this
    rw [this, initWeights]
    simp

theorem initAllWeights_eq (n total : Nat) (ht : total * n < 2147483648) :
    ∀ (rem k : Nat) (pre l : List Int) (g : Rng), k + rem = total → pre.length = k * n → l.length = rem * n →
      forLoop (flatAvxInitWeights n) rem k (pre ++ l, g) =
        some (pre ++ (initAllWeights n rem g).1.flatten, (initAllWeights n rem g).2) := by
  intro rem
  induction rem with
  | zero =>
    intro k pre l g _ _ hl
    have : l = [] := by simpa using hl
    subst this
    simp [forLoop, initAllWeights]
  | succ rem ih =>
    intro k pre l g hk hpre hl
    rw [Nat.succ_mul] at hl
    have hkk : k * n + n < 2147483648 := by
      have : (k + 1) * n ≤ total * n := Nat.mul_le_mul_right _ (by omega)
      rw [Nat.succ_mul] at this
      omega
    have h1 := initWeight_eq n k pre (l.drop n) hpre hkk (l.take n) [] g (by simp; omega)
    simp only [List.nil_append, List.length_nil, List.append_assoc, List.take_append_drop, List.length_take,
      Nat.min_eq_left (show n ≤ l.length by omega)] at h1
    rw [forLoop]
    have h2 : flatAvxInitWeights n k (pre ++ l, g) = some (pre ++ ((initWeights n g).1 ++ l.drop n), (initWeights n g).2) := h1
    rw [bind_of h2, ← List.append_assoc,
      ih (k + 1) _ _ _ (by omega) (by rw [List.length_append, hpre, initWeights_length, Nat.succ_mul]) (by rw [List.length_drop, hl]; omega)]
    simp [initAllWeights]

theorem maskLoop_eq (v : Byte) (post : List Byte) : ∀ (l d : List Byte),
    forLoop (maskBody v) l.length d.length (d ++ l ++ post) = some (d ++ List.replicate l.length v ++ post) := by
  intro l
  induction l with
  | nil => intro d; simp [forLoop]
  | cons a l ih =>
    intro d
    rw [List.length_cons, forLoop]
    have hb : maskBody v d.length (d ++ a :: l ++ post) = some ((d ++ [v]) ++ l ++ post) := by
      unfold maskBody
      rw [wr_eq_mid d (l ++ post) a v (by simp) rfl]
      simp
    rw [bind_of hb]
    have := ih (d ++ [v])
    simp only [List.length_append, List.length_cons, List.length_nil, Nat.zero_add] at this
    rw [this, List.replicate_succ]
    simp

theorem mask_eq (strict : Bool) (n : Nat) (junk : Nat → Byte) : flatAvxMask strict n junk = some (List.ofFn (avxMask n)) := by
  unfold flatAvxMask
  rw [bind_of (show alignedAlloc strict 32 32 = some 32 by cases strict <;> rfl)]
  have h1 := maskLoop_eq 0xFF#8 [] ((List.range 32).map junk) []
  rw [List.length_map, List.length_range, List.length_nil, List.nil_append, List.append_nil, List.nil_append, List.append_nil] at h1
  rw [show (32 : Int).toNat = 32 from rfl, bind_of h1]
  by_cases h : n % 32 = 0
  · rw [if_pos h]
    refine congrArg some ?_
    apply List.ext_getElem
    · rw [List.length_replicate, List.length_ofFn]
    · intro i _ _
      rw [List.getElem_replicate, List.getElem_ofFn, avxMask, if_pos h]
  · rw [if_neg h]
    have hlt : n % 32 < 32 := Nat.mod_lt _ (by decide)
    have h2 := maskLoop_eq 0#8 [] (List.replicate (32 - n % 32) 0xFF#8) (List.replicate (n % 32) 0xFF#8)
    rw [List.length_replicate, List.length_replicate, List.append_nil, List.append_nil, List.replicate_append_replicate,
      show n % 32 + (32 - n % 32) = 32 by omega] at h2
    rw [h2]
    refine congrArg some ?_
    apply List.ext_getElem
    · rw [List.length_append, List.length_replicate, List.length_replicate, List.length_ofFn]; omega
    · intro i _ _
      rw [List.getElem_append, List.getElem_ofFn, avxMask, if_neg h]
      simp only [List.length_replicate, List.getElem_replicate]
      by_cases hi : i < n % 32
      · rw [dif_pos hi, if_neg (by omega)]
      · rw [dif_neg hi, if_pos (by omega)]

theorem mem_eq {n : Nat} (h : avxMem n < 2147483648) : flatAvxMem n = some (avxMem n : Int) := by
  unfold flatAvxMem avxMem at *
  split
  · rfl
  · next hh =>
    rw [if_neg hh] at h
    rw [bind_of (i32_nat (n / 32 + 1) (by push_cast; rfl) (by omega))]
    exact i32_nat _ (by push_cast; rfl) h

theorem zip_rows : ∀ (rows : List Mem) (ws : List (List Int)), ws.length = rows.length →
    ∀ (f : Nat → Mem × List Int → VClause), (∀ i rw, (f i rw).row = rw.1) → ∀ len,
    ((rows.zip ws).mapIdx f).flatMap (fun c => (List.range len).map c.row) = rows.flatMap (R len) := by
  intro rows
  induction rows with
  | nil => intro ws _ f _ len; simp
  | cons r rows ih =>
    intro ws hw f hf len
    obtain ⟨w, ws, rfl⟩ := List.exists_cons_of_length_eq_add_one hw
    rw [List.zip_cons_cons, List.mapIdx_cons, List.flatMap_cons, List.flatMap_cons, hf]
    rw [ih ws (by simpa using hw) (fun i => f (i + 1)) (fun i rw => hf (i + 1) rw) len]
    rfl

theorem zip_ws : ∀ (rows : List Mem) (ws : List (List Int)), ws.length = rows.length →
    ∀ (f : Nat → Mem × List Int → VClause), (∀ i rw, (f i rw).w = rw.2) →
    ((rows.zip ws).mapIdx f).flatMap (·.w) = ws.flatten := by
  intro rows
  induction rows with
  | nil =>
    intro ws hw f _
    have : ws = [] := by simpa using hw
    simp [this]
  | cons r rows ih =>
    intro ws hw f hf
    obtain ⟨w, ws, rfl⟩ := List.exists_cons_of_length_eq_add_one hw
    rw [List.zip_cons_cons, List.mapIdx_cons, List.flatMap_cons, hf, List.flatten_cons]
    rw [ih ws (by simpa using hw) (fun i => f (i + 1)) fun i rw => hf (i + 1) rw]

theorem initRows_length (n : Nat) (junkM : Nat → Mem) : ∀ (k : Nat) (g : Rng), (avxInitRows n junkM k g).1.length = k := by
  intro k
  induction k with
  | zero => intro g; rfl
  | succ k ih => intro g; simp [avxInitRows, ih]

theorem alignedAlloc_of {strict : Bool} {size : Int} (h : strict = true → size % 32 = 0) : alignedAlloc strict 32 size = some size := by
  unfold alignedAlloc
  exact if_neg fun hh => hh.2 (h hh.1)

theorem flat_init (strict : Bool) (nClauses nClasses : Nat) (cfg : VCfg) (fastOf : Nat → Rng) (vrngOf : Nat → VRng) (junk : Nat → Byte)
    (junkM : Nat → Mem) (junkC : Nat → Nat) (seed : Nat) (hn : 0 < cfg.nLits) (hc : 0 < nClauses)
    (hs : AvxSmall cfg.nLits nClauses nClasses) (hst : strict = true → nClasses % 16 = 0) :
    flatAvxInit strict nClauses nClasses cfg fastOf vrngOf junk junkC seed =
      some ((avxInit nClauses nClasses cfg fastOf vrngOf junkM junkC seed).map flattenAvx) := by
  unfold flatAvxInit avxInit
  by_cases hseed : seed = 0
  · rw [if_pos hseed, if_pos hseed]; rfl
  rw [if_neg hseed, if_neg hseed]
  have hrow := hs.row
  have hcl := hs.clauses
  have hmp := avxMem_pos hn
  have hm32 := avxMem_mod cfg.nLits
  have e0 : nClauses * avxMem cfg.nLits * 2 = nClauses * (avxMem cfg.nLits * 2) := Nat.mul_assoc _ _ _
  have hbig : avxMem cfg.nLits * 2 ≤ nClauses * (avxMem cfg.nLits * 2) := Nat.le_mul_of_pos_left _ hc
  have h64 : (nClauses * (avxMem cfg.nLits * 2)) % 32 = 0 := by
    rw [Nat.mul_mod, show avxMem cfg.nLits * 2 % 32 = 0 by omega, Nat.mul_zero, Nat.zero_mod]
  rw [bind_of (mask_eq strict cfg.nLits junk), bind_of (mem_eq (by omega)),
    bind_of (i32_nat (nClauses * avxMem cfg.nLits) (by push_cast; rfl) (by omega)),
    bind_of (i32_nat (nClauses * (avxMem cfg.nLits * 2)) (by rw [← e0]; push_cast; rfl) hs.clauses)]
  have hsafe : safeAllocSize 32 ((nClauses * (avxMem cfg.nLits * 2) : Nat) : Int) =
      some ((nClauses * (avxMem cfg.nLits * 2) : Nat) : Int) := by
    unfold safeAllocSize
    rw [if_neg (by omega), if_neg (by omega)]
    rfl
  have ho := hs.outputs
  unfold outSize at ho
  have hw32 : strict = true → nClauses * nClasses % 16 = 0 := fun h => by
    rw [Nat.mul_mod, hst h, Nat.mul_zero, Nat.zero_mod]
  rw [bind_of hsafe, bind_of (i32_nat (nClauses / 128 + 1) (by push_cast; rfl) (by omega)),
    bind_of (i32_nat (outSize nClauses) (by unfold outSize; push_cast; rfl) hs.outputs),
    bind_of (alignedAlloc_of (fun _ => by unfold outSize; omega)),
    bind_of (i32_nat (nClauses * nClasses) (by push_cast; rfl) hs.weights),
    bind_of (alignedAlloc_of (fun h => by have := hw32 h; omega)),
    bind_of (alignedAlloc_of (fun h => by have := hst h; omega))]
  simp only [Int.toNat_natCast]
  rw [show (((nClauses * nClasses : Nat) : Int) * 2).toNat / 2 = nClauses * nClasses by omega,
    show ((nClasses : Int) * 2).toNat / 2 = nClasses by omega]
  have l1 := initClauses_eq cfg.nLits nClauses junkM hs.row hs.clauses nClauses 0 []
    ((List.range (nClauses * (avxMem cfg.nLits * 2))).map junk) (fastOf seed) (by omega) (by simp) (by simp)
  have l2 := initAllWeights_eq nClasses nClauses hs.weights nClauses 0 [] (List.replicate (nClauses * nClasses) 0)
    (avxInitRows cfg.nLits junkM nClauses (fastOf seed)).2 (by omega) (by simp) (by simp)
  rw [List.nil_append, List.nil_append] at l1 l2
  rw [bind_of l1, bind_of l2]
  have r3 := initRows_length cfg.nLits junkM nClauses (fastOf seed)
  obtain ⟨_, _, w3, _⟩ := initAllWeights_flat nClasses nClauses (avxInitRows cfg.nLits junkM nClauses (fastOf seed)).2
  simp only [Option.map_some, flattenAvx, Option.pure_def, List.length_mapIdx, List.length_zip, r3, w3, Nat.min_self]
  rw [zip_rows _ _ (by rw [r3, w3]) _ (fun _ _ => rfl), zip_ws _ _ (by rw [r3, w3]) _ (fun _ _ => rfl)]
  have hout : List.map (·.out) (((avxInitRows cfg.nLits junkM nClauses (fastOf seed)).1.zip
      (initAllWeights nClasses nClauses (avxInitRows cfg.nLits junkM nClauses (fastOf seed)).2).1).mapIdx
      (fun i rw => (⟨rw.1, rw.2, 0, junkC i⟩ : VClause))) = List.replicate nClauses 0 := by
    apply List.ext_getElem
    · simp [r3, w3]
    · intro i h1 h2; simp
  have hcnt : List.map (·.cnt) (((avxInitRows cfg.nLits junkM nClauses (fastOf seed)).1.zip
      (initAllWeights nClasses nClauses (avxInitRows cfg.nLits junkM nClauses (fastOf seed)).2).1).mapIdx
      (fun i rw => (⟨rw.1, rw.2, 0, junkC i⟩ : VClause))) = (List.range nClauses).map junkC := by
    apply List.ext_getElem
    · simp [r3, w3]
    · intro i h1 h2; simp
  rw [hout, hcnt, List.replicate_append_replicate, show nClauses + (outSize nClauses - nClauses) = outSize nClauses by
    unfold outSize; omega]

theorem init_shaped (nClauses nClasses : Nat) (cfg : VCfg) (fastOf : Nat → Rng) (vrngOf : Nat → VRng)
    (junkM : Nat → Mem) (junkC : Nat → Nat) (seed : Nat) (b : VBlock)
    (hb : avxInit nClauses nClasses cfg fastOf vrngOf junkM junkC seed = some b) :
    AvxShaped b ∧ b.cfg = cfg ∧ b.nClasses = nClasses ∧ b.clauses.length = nClauses := by
  unfold avxInit at hb
  split at hb
  · simp at hb
  · obtain rfl := Option.some.inj hb
    have r3 := initRows_length cfg.nLits junkM nClauses (fastOf seed)
    obtain ⟨_, _, w3, w4⟩ := initAllWeights_flat nClasses nClauses (avxInitRows cfg.nLits junkM nClauses (fastOf seed)).2
    refine ⟨⟨?_, by simp⟩, rfl, rfl, by simp [r3, w3]⟩
    intro c hc
    obtain ⟨i, hi, rfl⟩ := List.getElem_of_mem hc
    simp only [List.getElem_mapIdx, List.getElem_zip]
    exact w4 _ (List.getElem_mem _)

theorem forLoop_none {α : Type} {f : Nat → α → Option α} {r i : Nat} {a : α} (h : f i a = none) : forLoop f (r + 1) i a = none := by
  rw [forLoop, h]; rfl

theorem ldv_neg (l : List Byte) {i : Int} (h : i < 0) : ldv l i = none := by
  unfold ldv
  exact if_neg fun hh => by omega

theorem ldv_misaligned (l : List Byte) {i : Int} (h : i % 32 ≠ 0) : ldv l i = none := by
  unfold ldv
  exact if_neg fun hh => h hh.2.1

end GT.AvxMem
