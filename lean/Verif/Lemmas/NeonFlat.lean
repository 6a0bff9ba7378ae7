import Verif.Spec.NeonFlat
import Verif.Lemmas.AvxFlat
import Verif.Lemmas.Neon

namespace GT.NeonMem
open Spec FlatMem
open AvxMem (R R_length R_congr mid_getD memOf wr_midR list_eq_R row_split wlength countVotes_length maskLoop_eq zip_rows zip_ws forLoop_none fillFrom)

theorem ldq_mid (pre post : List Byte) (len : Nat) (row : Mem) (off : Nat) {i : Int} (hi : i = ((pre.length + off : Nat) : Int))
    (hl : off + 16 ≤ len) :
    ldq (pre ++ R len row ++ post) i = some (load neonL row off) := by
  subst hi
  unfold ldq
  rw [if_pos ⟨by omega, by simp; omega⟩]
  congr 1
  funext l
  rw [Int.toNat_natCast, Nat.add_assoc, mid_getD _ _ _ _ _ (by have := l.isLt; omega)]
  rfl

theorem stq_mid (pre post : List Byte) (len : Nat) (row : Mem) (off : Nat) (v : Vec neonL) {i : Int}
    (hi : i = ((pre.length + off : Nat) : Int)) (hl : off + 16 ≤ len) :
    stq (pre ++ R len row ++ post) i v = some (pre ++ R len (store row off v) ++ post) := by
  subst hi
  unfold stq
  rw [if_pos ⟨by omega, by simp; omega⟩, Int.toNat_natCast]
  congr 1
  apply List.ext_getElem
  · simp; omega
  · intro j h1 h2
    rw [List.getElem_append, List.getElem_append]
    simp only [List.length_append, R_length, List.length_take, List.length_ofFn, List.getElem_append, List.getElem_take, List.getElem_drop,
      List.getElem_ofFn]
    have e : min (pre.length + off) (pre.length + len + post.length) = pre.length + off := by omega
    simp only [e]
    by_cases hA : j < pre.length
    · simp [hA, show j < pre.length + off + 16 by omega, show j < pre.length + off by omega, show j < pre.length + len by omega]
    · by_cases hB : j < pre.length + off
      · simp [hA, hB, show j < pre.length + off + 16 by omega, show j < pre.length + len by omega, R, store,
          show ¬ (off ≤ j - pre.length) by omega]
      · by_cases hC : j < pre.length + off + 16
        · have h3 : off ≤ j - pre.length ∧ j - pre.length - off < 16 := by omega
          simp only [hA, hB, hC, show j < pre.length + len by omega, dite_true, dite_false, R, store, List.getElem_map, List.getElem_range]
          rw [dif_pos h3]
          congr 1
          apply Fin.ext
          simp
          omega
        · by_cases hD : j < pre.length + len
          · have h3 : ¬ (off ≤ j - pre.length ∧ j - pre.length - off < 16) := by omega
            have e2 : pre.length + off + 16 + (j - (pre.length + off + 16)) = j := by omega
            simp only [hA, hC, hD, dite_true, dite_false, e2, R, store, List.getElem_map, List.getElem_range]
            rw [dif_neg h3]
          · have e2 : pre.length + off + 16 + (j - (pre.length + off + 16)) = j := by omega
            simp only [hC, hD, dite_false, e2]

theorem ldq_buf (x : List Byte) (off : Nat) {i : Int} (hi : i = ((off : Nat) : Int)) (hl : off + 16 ≤ x.length) :
    ldq x i = some (load neonL (memOf x) off) := by
  subst hi
  unfold ldq
  rw [if_pos ⟨by omega, by simpa using hl⟩]
  rfl

theorem posOffN_nat {i : Nat} (h : i * 16 < 2147483648) : posOffN (i : Int) = some ((i * 16 : Nat) : Int) :=
  i32_nat _ (by push_cast; rfl) h

theorem negOffN_nat {mem i : Nat} (h : mem + i * 16 < 2147483648) : negOffN mem (i : Int) = some ((mem + i * 16 : Nat) : Int) := by
  unfold negOffN
  rw [bind_of (i32_nat (i * 16) (by push_cast; rfl) (by omega))]
  exact i32_nat _ (by push_cast; rfl) h

theorem neonRowPtr_nat {mem k : Nat} (h1 : mem * 2 < 2147483648) (h2 : k * (mem * 2) < 2147483648) :
    neonRowPtr mem k = some ((k * (mem * 2) : Nat) : Int) := by
  unfold neonRowPtr
  rw [bind_of (i32_nat (mem * 2) (by push_cast; rfl) h1)]
  exact i32_nat _ (by push_cast; rfl) h2

/-- What is known about a row inside the array. -/
structure Row (mem : Nat) (pre : List Byte) (x : List Byte) (row : Int) : Prop where
  mem16 : mem % 16 = 0
  small : mem * 2 < 2147483648
  pre32 : pre.length % 32 = 0
  buf : mem ≤ x.length
  at_ : row = (pre.length : Int)

section
variable {mem : Nat} {pre x : List Byte} {row : Int} (h : Row mem pre x row) (post : List Byte) (r : Mem)
include h

theorem Row.ex {i : Nat} (hi : i * 16 + 16 ≤ mem) : ldq x ((i * 16 : Nat) : Int) = some (load neonL (memOf x) (i * 16)) :=
  ldq_buf x _ rfl (by have := h.buf; omega)

theorem Row.pos {i : Nat} (hi : i * 16 + 16 ≤ mem) :
    ldq (pre ++ R (mem * 2) r ++ post) (row + ((i * 16 : Nat) : Int)) = some (load neonL r (i * 16)) :=
  ldq_mid pre post _ r _ (by rw [h.at_]; push_cast; rfl) (by omega)

theorem Row.neg {i : Nat} (hi : i * 16 + 16 ≤ mem) :
    ldq (pre ++ R (mem * 2) r ++ post) (row + ((mem + i * 16 : Nat) : Int)) = some (load neonL r (mem + i * 16)) :=
  ldq_mid pre post _ r _ (by rw [h.at_]; push_cast; rfl) (by omega)

theorem Row.spos {i : Nat} (hi : i * 16 + 16 ≤ mem) (v : Vec neonL) :
    stq (pre ++ R (mem * 2) r ++ post) (row + ((i * 16 : Nat) : Int)) v = some (pre ++ R (mem * 2) (store r (i * 16) v) ++ post) :=
  stq_mid pre post _ r _ v (by rw [h.at_]; push_cast; rfl) (by omega)

theorem Row.sneg {i : Nat} (hi : i * 16 + 16 ≤ mem) (v : Vec neonL) :
    stq (pre ++ R (mem * 2) r ++ post) (row + ((mem + i * 16 : Nat) : Int)) v =
      some (pre ++ R (mem * 2) (store r (mem + i * 16) v) ++ post) :=
  stq_mid pre post _ r _ v (by rw [h.at_]; push_cast; rfl) (by omega)

theorem Row.po {i : Nat} (hi : i * 16 + 16 ≤ mem) : posOffN (i : Int) = some ((i * 16 : Nat) : Int) :=
  posOffN_nat (by have := h.small; omega)

theorem Row.no {i : Nat} (hi : i * 16 + 16 ≤ mem) : negOffN mem (i : Int) = some ((mem + i * 16 : Nat) : Int) :=
  negOffN_nat (by have := h.small; omega)

theorem setLoop_eq (bud : Bool) : ∀ (n i cnt : Nat), (i + n) * 16 ≤ mem →
    flatNeonSetLoop bud mem (pre ++ R (mem * 2) r ++ post) x row n i cnt = some (neonSetLoop bud mem r (memOf x) i n cnt) := by
  intro n
  induction n with
  | zero => intro i cnt _; rfl
  | succ n ih =>
    intro i cnt hi
    have hi' : i * 16 + 16 ≤ mem := by omega
    rw [flatNeonSetLoop, neonSetLoop]
    simp only [h.po hi', h.no hi', h.ex hi', h.pos post r hi', h.neg post r hi', Option.bind_eq_bind, Option.bind_some, Option.pure_def]
    split
    · rfl
    · split
      · rfl
      · exact ih (i + 1) _ (by omega)

theorem evalLoop_eq : ∀ (n i : Nat) (act : Bool), (i + n) * 16 ≤ mem →
    flatNeonEvalLoop mem (pre ++ R (mem * 2) r ++ post) x row n i act = some (neonEvalLoop mem r (memOf x) i n act) := by
  intro n
  induction n with
  | zero => intro i act _; rfl
  | succ n ih =>
    intro i act hi
    have hi' : i * 16 + 16 ≤ mem := by omega
    rw [flatNeonEvalLoop, neonEvalLoop]
    simp only [h.po hi', h.no hi', h.ex hi', h.pos post r hi', h.neg post r hi', Option.bind_eq_bind, Option.bind_some, Option.pure_def]
    split
    · rfl
    · split
      · rfl
      · exact ih (i + 1) _ (by omega)

theorem t1aBody_eq (cfg : VCfg) (g : VRng) {i : Nat} (hi : i * 16 + 16 ≤ mem) :
    flatNeonT1aBody cfg mem row x i (pre ++ R (mem * 2) r ++ post, g) =
      some (pre ++ R (mem * 2) (neonT1aChunk cfg mem (memOf x) i r g).1 ++ post, (neonT1aChunk cfg mem (memOf x) i r g).2) := by
  unfold flatNeonT1aBody
  simp only [h.po hi, h.no hi, h.ex hi, h.pos post _ hi, h.neg post _ hi, h.spos post _ hi, h.sneg post _ hi, Option.bind_eq_bind,
    Option.bind_some, Option.pure_def]
  rfl

theorem t1bBody_eq (cfg : VCfg) (g : VRng) {i : Nat} (hi : i * 16 + 16 ≤ mem) :
    flatNeonT1bBody cfg mem row i (pre ++ R (mem * 2) r ++ post, g) =
      some (pre ++ R (mem * 2) (neonT1bChunk cfg mem i r g).1 ++ post, (neonT1bChunk cfg mem i r g).2) := by
  unfold flatNeonT1bBody
  simp only [h.po hi, h.no hi, h.pos post _ hi, h.neg post _ hi, h.spos post _ hi, h.sneg post _ hi, Option.bind_eq_bind,
    Option.bind_some, Option.pure_def]
  rfl

theorem t2Body_eq (g : VRng) {i : Nat} (hi : i * 16 + 16 ≤ mem) :
    flatNeonT2Body mem row x i (pre ++ R (mem * 2) r ++ post, g) =
      some (pre ++ R (mem * 2) (neonT2Chunk mem (memOf x) i r) ++ post, g) := by
  unfold flatNeonT2Body
  simp only [h.po hi, h.no hi, h.ex hi, h.pos post _ hi, h.neg post _ hi, h.spos post _ hi, h.sneg post _ hi, Option.bind_eq_bind,
    Option.bind_some, Option.pure_def]
  rfl
end

/-- A loop over the chunks of one row. -/
theorem chunkLoop_eq (mem : Nat) (pre post : List Byte) (body : Nat → List Byte × VRng → Option (List Byte × VRng))
    (f : Nat → Mem → VRng → Mem × VRng)
    (hb : ∀ i r g, i * 16 + 16 ≤ mem → body i (pre ++ R (mem * 2) r ++ post, g) = some (pre ++ R (mem * 2) (f i r g).1 ++ post, (f i r g).2)) :
    ∀ (n i : Nat) (r : Mem) (g : VRng), (i + n) * 16 ≤ mem →
      forLoop body n i (pre ++ R (mem * 2) r ++ post, g) =
        some (pre ++ R (mem * 2) (chunkLoop f i n r g).1 ++ post, (chunkLoop f i n r g).2) := by
  intro n
  induction n with
  | zero => intro i r g _; rfl
  | succ n ih =>
    intro i r g hi
    rw [forLoop, bind_of (hb i r g (by omega)), chunkLoop]
    exact ih (i + 1) _ _ (by omega)

theorem neonMem_mod (n : Nat) : neonMem n % 16 = 0 := by unfold neonMem; split <;> omega
theorem neonMem_ge (n : Nat) : n ≤ neonMem n := by unfold neonMem; split <;> omega
theorem neonMem_pos {n : Nat} (h : 0 < n) : 16 ≤ neonMem n := by unfold neonMem; split <;> omega
theorem neonMem_le_example (n : Nat) : neonMem n ≤ exampleMem n := by unfold neonMem exampleMem; split <;> omega

/-! ### The state with one clause singled out -/

/-- The block with clause `c` between `done` and `rest`. -/
def at_ (b : NBlock) (done rest : List VClause) (c : VClause) (f : Rng) (g : VRng) : NBlock :=
  { b with clauses := done ++ c :: rest, fast := f, vrng := g }

/-- The rows of some clauses. -/
def Rs (n : Nat) (cs : List VClause) : List Byte := cs.flatMap fun c => (List.range (neonMem n * 2)).map c.row

theorem Rs_length (n : Nat) : ∀ cs : List VClause, (Rs n cs).length = cs.length * (neonMem n * 2) := by
  intro cs
  induction cs with
  | nil => simp [Rs]
  | cons c cs ih =>
    unfold Rs at ih ⊢
    rw [List.flatMap_cons, List.length_append, ih, List.length_cons, Nat.succ_mul]
    simp
    omega

theorem Rs_mod (n : Nat) (cs : List VClause) : (Rs n cs).length % 32 = 0 := by
  rw [Rs_length]
  have := neonMem_mod n
  obtain ⟨q, hq⟩ := Nat.dvd_of_mod_eq_zero this
  rw [hq, show cs.length * (16 * q * 2) = 32 * (cs.length * q) by
    rw [Nat.mul_assoc, Nat.mul_left_comm, ← Nat.mul_assoc cs.length]; omega]
  exact Nat.mul_mod_right _ _

section
variable (b : NBlock) (done rest : List VClause) (c : VClause) (f : Rng) (g : VRng)

theorem at_clauses : (flattenNeon (at_ b done rest c f g)).clauses =
    Rs b.cfg.nLits done ++ R (neonMem b.cfg.nLits * 2) c.row ++ Rs b.cfg.nLits rest := by
  simp [flattenNeon, at_, Rs, R]

/-- The outputs after those of `rest`. -/
def tailOut (rest : List VClause) (total : Nat) : List Nat := rest.map (·.out) ++ List.replicate (neonOutSize total - total) 0

theorem at_outputs : (flattenNeon (at_ b done rest c f g)).outputs =
    done.map (·.out) ++ c.out :: tailOut rest (done ++ c :: rest).length := by
  simp [flattenNeon, at_, tailOut]

theorem at_wr_out (o : Nat) : wr (flattenNeon (at_ b done rest c f g)).outputs ((done.length : Nat) : Int) o =
    some (flattenNeon (at_ b done rest { c with out := o } f g)).outputs := by
  rw [at_outputs, at_outputs, wr_mid _ _ _ _ _ (by simp)]
  simp

theorem at_with_out (o : Nat) : { flattenNeon (at_ b done rest c f g) with
    outputs := (flattenNeon (at_ b done rest { c with out := o } f g)).outputs } = flattenNeon (at_ b done rest { c with out := o } f g) := by
  simp [flattenNeon, at_]

theorem at_rd_out : rd (flattenNeon (at_ b done rest c f g)).outputs ((done.length : Nat) : Int) = some c.out := by
  rw [at_outputs, rd_mid _ _ _ _ (by simp)]

theorem at_small (hs : NeonSmall b.cfg.nLits (done ++ c :: rest).length b.nClasses) :
    done.length * (neonMem b.cfg.nLits * 2) < 2147483648 := by
  have : done.length * (neonMem b.cfg.nLits * 2) ≤ (done ++ c :: rest).length * (neonMem b.cfg.nLits * 2) :=
    Nat.mul_le_mul_right _ (by simp)
  have := hs.clauses
  omega

theorem at_row (hs : NeonSmall b.cfg.nLits (done ++ c :: rest).length b.nClasses) (x : List Byte)
    (hx : x.length = exampleMem b.cfg.nLits) :
    Row (neonMem b.cfg.nLits) (Rs b.cfg.nLits done) x ((done.length * (neonMem b.cfg.nLits * 2) : Nat) : Int) :=
  ⟨neonMem_mod _, hs.row, Rs_mod _ _, by rw [hx]; exact neonMem_le_example _, by rw [Rs_length]⟩

theorem at_wr_cnt (hb : b.cfg.budget.isSome = true) (n : Nat) :
    wr (flattenNeon (at_ b done rest c f g)).counts ((done.length : Nat) : Int) n =
      some (flattenNeon (at_ b done rest { c with cnt := n } f g)).counts := by
  have hm : ∀ c : VClause, (flattenNeon (at_ b done rest c f g)).counts = done.map (·.cnt) ++ c.cnt :: rest.map (·.cnt) := by
    intro c
    simp [flattenNeon, at_, hb]
  rw [hm, hm]
  exact wr_mid _ _ _ _ _ (by simp)

theorem at_leave (hb : b.cfg.budget.isSome = true) (n o cnt : Nat) :
    FlatNeon.leave { flattenNeon (at_ b done rest c f g) with counts := (flattenNeon (at_ b done rest { c with cnt := n } f g)).counts }
      done.length (flattenNeon (at_ b done rest { c with out := o } f g)).outputs cnt =
      some (flattenNeon (at_ b done rest { c with out := o, cnt := cnt } f g)) := by
  unfold FlatNeon.leave
  have hw := at_wr_cnt b done rest { c with cnt := n } f g hb cnt
  simp only [hw, Option.bind_eq_bind, Option.bind_some, Option.pure_def]
  simp [flattenNeon, at_]

end

theorem nc_eq {n : Nat} (h : 0 < n) : ((neonMem n : Int) / 16 - 1) = ((neonMem n / 16 - 1 : Nat) : Int) := by
  have := neonMem_pos h
  omega

theorem ldq_mask (b : NBlock) : ldq (flattenNeon b).mask 0 = some (neonMask b.cfg.nLits) := by
  have hm : (flattenNeon b).mask = List.ofFn (neonMask b.cfg.nLits) := rfl
  rw [hm]
  unfold ldq
  rw [if_pos ⟨by omega, by simp⟩]
  congr 1
  funext l
  have h0 : (0 : Int).toNat = 0 := rfl
  rw [h0, Nat.zero_add, List.getD_eq_getElem?_getD, List.getElem?_ofFn, dif_pos l.isLt]
  rfl

theorem setOutBody_eq (b : NBlock) (x : List Byte) (hn : 0 < b.cfg.nLits) (hx : x.length = exampleMem b.cfg.nLits)
    (done rest : List VClause) (c : VClause) (f : Rng) (g : VRng) (hbud : b.cfg.budget.isSome = true)
    (hs : NeonSmall b.cfg.nLits (done ++ c :: rest).length b.nClasses) :
    FlatNeon.setOutBody x done.length (flattenNeon (at_ b done rest c f g)) =
      some (flattenNeon (at_ b done rest (neonSetClause b.cfg (memOf x) c) f g)) := by
  have hrow := at_row b done rest c hs x hx
  have hm := neonMem_pos hn
  have hm16 := neonMem_mod b.cfg.nLits
  have hmask := ldq_mask (at_ b done rest c f g)
  have hcfg' : (at_ b done rest c f g).cfg = b.cfg := rfl
  rw [hcfg'] at hmask
  unfold FlatNeon.setOutBody
  have hmem : (flattenNeon (at_ b done rest c f g)).mem = neonMem b.cfg.nLits := rfl
  have hcfg : (flattenNeon (at_ b done rest c f g)).cfg = b.cfg := rfl
  simp only [hmem, hcfg, nc_eq hn, Int.toNat_natCast]
  rw [bind_of (at_wr_out b done rest c f g 1), bind_of (at_wr_cnt b done rest c f g hbud 0),
    bind_of (neonRowPtr_nat hs.row (at_small b done rest c hs)), at_clauses,
    bind_of (setLoop_eq hrow _ c.row _ _ 0 0 (by omega))]
  obtain ⟨ok, cnt, hr⟩ : ∃ ok cnt, neonSetLoop b.cfg.budget.isSome (neonMem b.cfg.nLits) c.row (memOf x) 0
      (neonMem b.cfg.nLits / 16 - 1) 0 = (ok, cnt) := ⟨_, _, rfl⟩
  simp only [neonSetClause, hr]
  have hw0 := at_wr_out b done rest { c with out := 1 } f g 0
  have hl0 := fun cnt => at_leave b done rest c f g hbud 0 0 cnt
  have hl1 := fun cnt => at_leave b done rest c f g hbud 0 1 cnt
  rw [← at_clauses b done rest c f g]
  cases ok with
  | false =>
    simp only [Bool.false_eq_true, if_false, if_true]
    rw [bind_of hw0]
    exact hl0 cnt
  | true =>
    have hi : (neonMem b.cfg.nLits / 16 - 1) * 16 + 16 ≤ neonMem b.cfg.nLits := by omega
    simp only [if_true, Bool.true_eq_false, if_false]
    unfold FlatNeon.setLast
    have hpos := hrow.pos (Rs b.cfg.nLits rest) c.row hi
    have hneg := hrow.neg (Rs b.cfg.nLits rest) c.row hi
    rw [← at_clauses b done rest c f g] at hpos hneg
    simp only
    rw [bind_of hmask, bind_of (hrow.po hi), bind_of (hrow.ex hi), bind_of (hrow.po hi), bind_of hpos]
    simp only [Option.bind_eq_bind, hrow.no hi, Option.bind_some, hneg, hw0]
    split
    · exact hl0 _
    · split
      · exact hl0 _
      · exact hl1 _

theorem evalBody_eq (b : NBlock) (x : List Byte) (hn : 0 < b.cfg.nLits) (hx : x.length = exampleMem b.cfg.nLits)
    (done rest : List VClause) (c : VClause) (f : Rng) (g : VRng) (act0 : Bool)
    (hs : NeonSmall b.cfg.nLits (done ++ c :: rest).length b.nClasses) :
    FlatNeon.evalBody x done.length (flattenNeon (at_ b done rest c f g), act0) =
      some (flattenNeon (at_ b done rest (neonEvalClause b.cfg (memOf x) act0 c).1 f g), (neonEvalClause b.cfg (memOf x) act0 c).2) := by
  have hrow := at_row b done rest c hs x hx
  have hm := neonMem_pos hn
  have hm16 := neonMem_mod b.cfg.nLits
  have hmask := ldq_mask (at_ b done rest c f g)
  have hcfg' : (at_ b done rest c f g).cfg = b.cfg := rfl
  rw [hcfg'] at hmask
  unfold FlatNeon.evalBody
  have hmem : (flattenNeon (at_ b done rest c f g)).mem = neonMem b.cfg.nLits := rfl
  simp only [hmem, nc_eq hn, Int.toNat_natCast]
  rw [bind_of (at_wr_out b done rest c f g 1), bind_of (neonRowPtr_nat hs.row (at_small b done rest c hs)), at_clauses,
    bind_of (evalLoop_eq hrow _ c.row _ 0 _ (by omega))]
  obtain ⟨ok, act, hr⟩ : ∃ ok act, neonEvalLoop (neonMem b.cfg.nLits) c.row (memOf x) 0
      (neonMem b.cfg.nLits / 16 - 1) act0 = (ok, act) := ⟨_, _, rfl⟩
  simp only [neonEvalClause, hr]
  have hw0 := at_wr_out b done rest { c with out := 1 } f g 0
  have hw00 := at_wr_out b done rest { c with out := 0 } f g 0
  have h0 := fun a : Bool => congrArg (fun m => some (m, a)) (at_with_out b done rest c f g 0)
  have h1' := fun a : Bool => congrArg (fun m => some (m, a)) (at_with_out b done rest c f g 1)
  cases ok with
  | false =>
    simp only [Bool.false_eq_true, if_false, if_true]
    rw [bind_of hw0]
    rw [← at_clauses b done rest c f g]
    exact h0 act
  | true =>
    have hi : (neonMem b.cfg.nLits / 16 - 1) * 16 + 16 ≤ neonMem b.cfg.nLits := by omega
    simp only [if_true, Bool.true_eq_false, if_false]
    unfold FlatNeon.evalLast
    have hpos := hrow.pos (Rs b.cfg.nLits rest) c.row hi
    have hneg := hrow.neg (Rs b.cfg.nLits rest) c.row hi
    rw [← at_clauses b done rest c f g] at hpos hneg
    simp only [hmem]
    rw [bind_of hmask, bind_of (hrow.po hi), bind_of (hrow.ex hi), bind_of (hrow.po hi), bind_of hpos]
    simp only [Option.bind_eq_bind, Option.pure_def, hrow.no hi, Option.bind_some, hneg, hw0]
    split
    · exact h0 _
    · generalize (act || movemaskNZ (vand (vnot (cmpgt (set1 16 0#8) (load 16 c.row ((neonMem b.cfg.nLits / 16 - 1) * 16))))
        (neonMask b.cfg.nLits)) || movemaskNZ (vand (vnot (cmpgt (set1 16 0#8) (load 16 c.row (neonMem b.cfg.nLits +
        (neonMem b.cfg.nLits / 16 - 1) * 16)))) (neonMask b.cfg.nLits))) = a
      split
      · simp only
        cases a with
        | false =>
          simp only [if_true, hw00, Option.bind_some]
          exact h0 false
        | true => exact h0 true
      · simp only
        cases a with
        | false =>
          simp only [if_true]
          exact h0 false
        | true => exact h1' true

/-- A loop over the clauses that changes one clause at a time. -/
theorem forLoop_map (b : NBlock) (body : Nat → FlatNeon → Option FlatNeon) (F : VClause → VClause) (total : Nat)
    (h : ∀ (done rest : List VClause) (c : VClause), (done ++ c :: rest).length = total →
      body done.length (flattenNeon (at_ b done rest c b.fast b.vrng)) = some (flattenNeon (at_ b done rest (F c) b.fast b.vrng))) :
    ∀ (rest done : List VClause), (done ++ rest).length = total →
      forLoop body rest.length done.length (flattenNeon { b with clauses := done ++ rest }) =
        some (flattenNeon { b with clauses := done ++ rest.map F }) := by
  intro rest
  induction rest with
  | nil => intro done _; simp [forLoop]
  | cons c rest ih =>
    intro done ht
    have h1 := h done rest c ht
    unfold at_ at h1
    rw [List.length_cons, forLoop, bind_of h1]
    have := ih (done ++ [F c]) (by simpa using ht)
    simp only [List.append_assoc, List.cons_append, List.nil_append, List.length_append, List.length_cons, List.length_nil,
      Nat.zero_add] at this
    rw [this, List.map_cons]

theorem evalLoop_all (b : NBlock) (x : List Byte) (hn : 0 < b.cfg.nLits) (hx : x.length = exampleMem b.cfg.nLits) (total : Nat)
    (hs : NeonSmall b.cfg.nLits total b.nClasses) :
    ∀ (rest done : List VClause) (act : Bool), (done ++ rest).length = total →
      ∃ a, forLoop (FlatNeon.evalBody x) rest.length done.length (flattenNeon { b with clauses := done ++ rest }, act) =
        some (flattenNeon { b with clauses := done ++ neonEvalClauses b.cfg (memOf x) act rest }, a) := by
  intro rest
  induction rest with
  | nil => intro done act _; exact ⟨act, by simp [forLoop, neonEvalClauses]⟩
  | cons c rest ih =>
    intro done act ht
    have h1 := evalBody_eq b x hn hx done rest c b.fast b.vrng act (ht ▸ hs)
    unfold at_ at h1
    rw [List.length_cons, forLoop, bind_of h1]
    obtain ⟨a, this⟩ := ih (done ++ [(neonEvalClause b.cfg (memOf x) act c).1]) (neonEvalClause b.cfg (memOf x) act c).2 (by simpa using ht)
    simp only [List.append_assoc, List.cons_append, List.nil_append, List.length_append, List.length_cons, List.length_nil,
      Nat.zero_add] at this
    exact ⟨a, this⟩

theorem flat_setOut (b : NBlock) (x : List Byte) (hn : 0 < b.cfg.nLits) (hs : NeonSmall b.cfg.nLits b.clauses.length b.nClasses)
    (hx : x.length = exampleMem b.cfg.nLits) :
    (flattenNeon b).setOut x = (neonSetClauses b.cfg (memOf x) b.clauses).map fun cs => flattenNeon { b with clauses := cs } := by
  unfold FlatNeon.setOut neonSetClauses
  cases hbud : b.cfg.budget with
  | some bud =>
    rw [if_neg (by simp)]
    exact forLoop_map b _ (neonSetClause b.cfg (memOf x)) b.clauses.length
      (fun done rest c ht => setOutBody_eq b x hn hx done rest c _ _ (by simp [hbud]) (ht ▸ hs)) b.clauses [] rfl
  | none =>
    by_cases hne : b.clauses = []
    · rw [if_neg (by simp [hne])]
      have : (flattenNeon b).nClauses = 0 := by simp [flattenNeon, hne]
      rw [this, forLoop, hne]
      cases b
      simp only at hne
      subst hne
      rfl
    · rw [if_pos ⟨hne, rfl⟩]
      obtain ⟨c, cs, hcs⟩ := List.exists_cons_of_ne_nil hne
      have hl : (flattenNeon b).nClauses = cs.length + 1 := by simp [flattenNeon, hcs]
      have hc : (flattenNeon b).counts = [] := by simp [flattenNeon, hbud]
      rw [hl]
      refine forLoop_none ?_
      unfold FlatNeon.setOutBody
      simp only [hc]
      cases wr (flattenNeon b).outputs ((0 : Nat) : Int) 1 <;> rfl

theorem flat_evalOut (b : NBlock) (x : List Byte) (hn : 0 < b.cfg.nLits) (hs : NeonSmall b.cfg.nLits b.clauses.length b.nClasses)
    (hx : x.length = exampleMem b.cfg.nLits) :
    (flattenNeon b).evalOut x = some (flattenNeon { b with clauses := neonEvalClauses b.cfg (memOf x) false b.clauses }) := by
  unfold FlatNeon.evalOut
  obtain ⟨a, h⟩ := evalLoop_all b x hn hx b.clauses.length hs b.clauses [] false rfl
  exact bind_of h _

/-! ### Votes -/

theorem countLoop_eq (b : NBlock) (hb : ∀ c ∈ b.clauses, c.w.length = b.nClasses) (hs : b.clauses.length * b.nClasses < 2147483648) :
    ∀ (rest done : List VClause) (v : List Int), done ++ rest = b.clauses → v.length = b.nClasses →
      forLoop FlatNeon.countBody rest.length done.length { flattenNeon b with votes := v } =
        some { flattenNeon b with votes := rest.foldl (fun v c => if c.out = 1 then addVotes v c.w else v) v } := by
  intro rest
  induction rest with
  | nil => intro done v _ _; simp [forLoop]
  | cons c rest ih =>
    intro done v hdr hv
    have hc := hb c (by rw [← hdr]; simp)
    have hlt : done.length < b.clauses.length := by rw [← hdr]; simp
    have hsm : done.length * b.nClasses + b.nClasses < 2147483648 := by
      have : (done.length + 1) * b.nClasses ≤ b.clauses.length * b.nClasses := Nat.mul_le_mul_right _ hlt
      rw [Nat.succ_mul] at this
      omega
    rw [List.length_cons, forLoop]
    have hbody : FlatNeon.countBody done.length { flattenNeon b with votes := v } =
        some { flattenNeon b with votes := if c.out = 1 then addVotes v c.w else v } := by
      unfold FlatNeon.countBody
      have hro : rd (flattenNeon b).outputs ((done.length : Nat) : Int) = some c.out := by
        have hm : (flattenNeon b).outputs = done.map (·.out) ++ c.out :: tailOut rest b.clauses.length := by
          simp [flattenNeon, tailOut, ← hdr]
        rw [hm, rd_mid _ _ _ _ (by simp)]
      simp only [hro, Option.bind_eq_bind, Option.bind_some, Option.pure_def]
      by_cases ho : c.out = 1
      · rw [if_pos ho, if_pos ho]
        have hl := voteLoop_eq b.nClasses done.length (done.flatMap (·.w)) (rest.flatMap (·.w))
          (wlength _ _ fun c' hc' => hb c' (by rw [← hdr]; simp [hc'])) hsm c.w v [] []
          (by rw [hv, hc]) rfl (by simp [hc])
        simp only [List.nil_append, List.length_nil, hc] at hl
        have hw : (flattenNeon b).weights = done.flatMap (·.w) ++ c.w ++ rest.flatMap (·.w) := by simp [flattenNeon, ← hdr]
        have hn : (flattenNeon b).nClasses = b.nClasses := rfl
        rw [hw, hn, hl]
        rfl
      · rw [if_neg ho, if_neg ho]
    rw [hbody]
    simp only [Option.bind_eq_bind, Option.bind_some]
    have := ih (done ++ [c]) (if c.out = 1 then addVotes v c.w else v) (by rw [← hdr]; simp) (by
      split
      · simp [addVotes, hv, hc]
      · exact hv)
    simp only [List.length_append, List.length_cons, List.length_nil, Nat.zero_add] at this
    rw [this, List.foldl_cons]

theorem flat_countVotes (b : NBlock) (hb : NeonShaped b) (hs : b.clauses.length * b.nClasses < 2147483648) :
    (flattenNeon b).countVotes = some (flattenNeon { b with votes := neonCountVotes b.nClasses b.clauses }) := by
  unfold FlatNeon.countVotes
  have hz := zeroLoop_eq b.votes []
  simp only [List.nil_append, List.length_nil, hb.votes] at hz
  have hv : (flattenNeon b).votes = b.votes := rfl
  have hn : (flattenNeon b).nClasses = b.nClasses := rfl
  rw [hv, hn, hz]
  simp only [Option.bind_eq_bind, Option.bind_some]
  exact countLoop_eq b hb.weights hs b.clauses [] (List.replicate b.nClasses 0) rfl (by simp)

/-! ### Feedback -/

theorem at_weights (b : NBlock) (done rest : List VClause) (c : VClause) (f : Rng) (g : VRng) :
    (flattenNeon (at_ b done rest c f g)).weights = done.flatMap (·.w) ++ c.w ++ rest.flatMap (·.w) := by
  simp [flattenNeon, at_]

theorem flatClauseUpdate_eq (b : NBlock) (done rest : List VClause) (c : VClause) (f : Rng) (g : VRng) (x : List Byte)
    (j : Nat) (t : Int) (hx : x.length = exampleMem b.cfg.nLits)
    (hs : NeonSmall b.cfg.nLits (done ++ c :: rest).length b.nClasses)
    (hd : ∀ c ∈ done, c.w.length = b.nClasses) (hc : c.w.length = b.nClasses) (hj : j < b.nClasses) :
    (flattenNeon (at_ b done rest c f g)).clauseUpdate x ((done.length * (neonMem b.cfg.nLits * 2) : Nat) : Int)
        ((done.length * b.nClasses : Nat) + (j : Nat) : Int) t c.out =
      some (flattenNeon (at_ b done rest (neonClauseUpdate b.cfg (memOf x) j t c g).1 f (neonClauseUpdate b.cfg (memOf x) j t c g).2)) := by
  have hrow := at_row b done rest c hs x hx
  have hm16 := neonMem_mod b.cfg.nLits
  have hjl : j < c.w.length := by omega
  have hsplit := row_split c.w j hjl
  have hdl := wlength _ _ hd
  have hwl : (flattenNeon (at_ b done rest c f g)).weights =
      (done.flatMap (·.w) ++ c.w.take j) ++ c.w[j] :: (c.w.drop (j + 1) ++ rest.flatMap (·.w)) := by
    rw [at_weights]
    have := congrArg (fun w => done.flatMap (·.w) ++ w ++ rest.flatMap (·.w)) hsplit
    simp only at this
    rw [this]
    simp only [List.append_assoc, List.cons_append]
  have hidx : ((done.length * b.nClasses : Nat) + (j : Nat) : Int) = ((done.flatMap (·.w) ++ c.w.take j).length : Int) := by
    rw [List.length_append, hdl, List.length_take, Nat.min_eq_left (by omega)]
    push_cast
    rfl
  have hrd : rd (flattenNeon (at_ b done rest c f g)).weights ((done.length * b.nClasses : Nat) + (j : Nat) : Int) = some (c.w.getD j 0) := by
    rw [hwl, rd_mid _ _ _ _ hidx]
    simp [hjl]
  have hwr : ∀ v : Int, wr (flattenNeon (at_ b done rest c f g)).weights ((done.length * b.nClasses : Nat) + (j : Nat) : Int) v =
      some (done.flatMap (·.w) ++ c.w.set j v ++ rest.flatMap (·.w)) := by
    intro v
    rw [hwl, wr_mid _ _ _ _ _ hidx, List.set_eq_take_append_cons_drop, if_pos hjl]
    simp
  have hn : 0 + neonMem b.cfg.nLits / 16 ≤ neonMem b.cfg.nLits / 16 := by omega
  have hb0 : (0 + neonMem b.cfg.nLits / 16) * 16 ≤ neonMem b.cfg.nLits := by omega
  have hcl := at_clauses b done rest c f g
  have hmem : (flattenNeon (at_ b done rest c f g)).mem = neonMem b.cfg.nLits := rfl
  have hcfg : (flattenNeon (at_ b done rest c f g)).cfg = b.cfg := rfl
  have hv : (flattenNeon (at_ b done rest c f g)).vrng = g := rfl
  have h1 := chunkLoop_eq (neonMem b.cfg.nLits) (Rs b.cfg.nLits done) (Rs b.cfg.nLits rest) _
    (neonT1aChunk b.cfg (neonMem b.cfg.nLits) (memOf x)) (fun i r g hi => t1aBody_eq hrow (Rs b.cfg.nLits rest) r b.cfg g hi) _ 0 c.row g hb0
  have h2 := chunkLoop_eq (neonMem b.cfg.nLits) (Rs b.cfg.nLits done) (Rs b.cfg.nLits rest) _
    (neonT1bChunk b.cfg (neonMem b.cfg.nLits)) (fun i r g hi => t1bBody_eq hrow (Rs b.cfg.nLits rest) r b.cfg g hi) _ 0 c.row g hb0
  have h3 := chunkLoop_eq (neonMem b.cfg.nLits) (Rs b.cfg.nLits done) (Rs b.cfg.nLits rest) _
    (fun i r g => (neonT2Chunk (neonMem b.cfg.nLits) (memOf x) i r, g)) (fun i r g hi => t2Body_eq hrow (Rs b.cfg.nLits rest) r g hi) _ 0 c.row g hb0
  have hal : assumeAligned ((done.length * (neonMem b.cfg.nLits * 2) : Nat) : Int) = some () := by
    refine if_pos ?_
    rw [hrow.at_]
    have := hrow.pre32
    omega
  have k1 : ∀ body s r, forLoop body (neonMem b.cfg.nLits / 16) 0 s = some r →
      neonChunks body (neonMem b.cfg.nLits) ((done.length * (neonMem b.cfg.nLits * 2) : Nat) : Int) s = some r := by
    intro body s r h
    unfold neonChunks
    rw [bind_of hal]
    exact h
  unfold FlatNeon.clauseUpdate
  rw [bind_of hrd]
  simp only [hmem, hcfg, hv, hcl]
  unfold neonClauseUpdate
  simp only
  generalize (if c.w.getD j 0 ≥ 0 then (1 : Int) else -1) = sg
  generalize c.w.getD j 0 = w
  split
  · split
    · rw [bind_of (hwr _), bind_of (k1 _ _ _ h1)]
      simp [flattenNeon, at_, Rs, R, neonT1a]
    · rw [bind_of (k1 _ _ _ h2)]
      simp [flattenNeon, at_, Rs, R, neonT1b]
  · split
    · rw [bind_of (hwr _), bind_of (k1 _ _ _ h3)]
      simp [flattenNeon, at_, Rs, R, neonT2]
    · rfl

theorem gate_eq (b : NBlock) (done rest : List VClause) (c : VClause) (f : Rng) (g : VRng) :
    (flattenNeon (at_ b done rest c f g)).gate done.length = some (flattenNeon (at_ b done rest (neonBudgetGate b.cfg c) f g)) := by
  unfold FlatNeon.gate
  have hb : (flattenNeon (at_ b done rest c f g)).cfg.budget = b.cfg.budget := rfl
  rw [hb]
  unfold neonBudgetGate
  cases hbud : b.cfg.budget with
  | none => rfl
  | some bud =>
    simp only
    have hrc : rd (flattenNeon (at_ b done rest c f g)).counts ((done.length : Nat) : Int) = some c.cnt := by
      have hm : (flattenNeon (at_ b done rest c f g)).counts = done.map (·.cnt) ++ c.cnt :: rest.map (·.cnt) := by
        simp [flattenNeon, at_, hbud]
      rw [hm, rd_mid _ _ _ _ (by simp)]
    rw [bind_of hrc]
    split
    · rw [bind_of (at_wr_out b done rest c f g 0)]
      exact congrArg some (at_with_out b done rest c f g 0)
    · rfl

theorem clauseUpdate_w (cfg : VCfg) (lits : Mem) (j : Nat) (t : Int) (c : VClause) (g : VRng) :
    (neonClauseUpdate cfg lits j t c g).1.w.length = c.w.length := by
  unfold neonClauseUpdate
  simp only
  generalize (if c.w.getD j 0 ≥ 0 then (1 : Int) else -1) = sg
  split
  · split <;> simp
  · split <;> simp

theorem gate_w (cfg : VCfg) (c : VClause) : (neonBudgetGate cfg c).w = c.w := by
  unfold neonBudgetGate
  split
  · split <;> rfl
  · rfl

theorem trainClause_w (cfg : VCfg) (lits : Mem) (fb : Feedback) (c : VClause) (f : Rng) (g : VRng) :
    (neonTrainClause cfg lits fb c f g).1.w.length = c.w.length := by
  unfold neonTrainClause
  simp only
  split
  · rw [clauseUpdate_w]
    split
    · rw [clauseUpdate_w, gate_w]
    · rw [gate_w]
  · split
    · rw [clauseUpdate_w, gate_w]
    · rw [gate_w]

theorem flatTrainBody_eq (b : NBlock) (done rest : List VClause) (c : VClause) (f : Rng) (g : VRng) (x : List Byte) (fb : Feedback)
    (hx : x.length = exampleMem b.cfg.nLits) (hok : ∀ c' ∈ done ++ c :: rest, c'.w.length = b.nClasses)
    (hs : NeonSmall b.cfg.nLits (done ++ c :: rest).length b.nClasses)
    (hp : fb.posClass < b.nClasses) (hn : fb.negClass < b.nClasses) :
    FlatNeon.trainBody x fb done.length (flattenNeon (at_ b done rest c f g)) =
      some (flattenNeon (at_ b done rest (neonTrainClause b.cfg (memOf x) fb c f g).1 (neonTrainClause b.cfg (memOf x) fb c f g).2.1
        (neonTrainClause b.cfg (memOf x) fb c f g).2.2)) := by
  have hc := hok c (by simp)
  have hd : ∀ c' ∈ done, c'.w.length = b.nClasses := fun c' hc' => hok c' (by simp [hc'])
  have hlt : done.length < (done ++ c :: rest).length := by simp
  have h2 : done.length * b.nClasses < 2147483648 := by
    have : done.length * b.nClasses ≤ (done ++ c :: rest).length * b.nClasses := Nat.mul_le_mul_right _ (Nat.le_of_lt hlt)
    have := hs.weights
    omega
  unfold FlatNeon.trainBody
  have e3 : i32 ((done.length : Int) * ((flattenNeon (at_ b done rest c f g)).nClasses : Int)) =
      some ((done.length * b.nClasses : Nat) : Int) := i32_nat _ (by push_cast; rfl) h2
  have hmem : (flattenNeon (at_ b done rest c f g)).mem = neonMem b.cfg.nLits := rfl
  rw [hmem, bind_of (neonRowPtr_nat hs.row (at_small b done rest c hs)), bind_of e3, bind_of (gate_eq b done rest c f g)]
  have hgs : (neonBudgetGate b.cfg c).w.length = b.nClasses := by rw [gate_w]; exact hc
  unfold neonTrainClause
  simp only
  generalize neonBudgetGate b.cfg c = c0 at hgs
  have key : ∀ (c : VClause) (f : Rng) (g : VRng), c.w.length = b.nClasses → ∀ (j : Nat) (t : Int) (pr : Rat), j < b.nClasses →
      (flattenNeon (at_ b done rest c f g)).maybeUpdate x done.length ((done.length * (neonMem b.cfg.nLits * 2) : Nat) : Int)
        ((done.length * b.nClasses : Nat) : Int) j t pr =
      some (flattenNeon (at_ b done rest (if f.next.1 < pr then neonClauseUpdate b.cfg (memOf x) j t c g else (c, g)).1 f.next.2
        (if f.next.1 < pr then neonClauseUpdate b.cfg (memOf x) j t c g else (c, g)).2)) := by
    intro c f g hc j t pr hj
    have hf : (flattenNeon (at_ b done rest c f g)).fast = f := rfl
    unfold FlatNeon.maybeUpdate
    rw [hf]
    split
    · rw [bind_of (at_rd_out b done rest c f g), bind_of (flatClauseUpdate_eq b done rest c f g x j t hx (by simpa using hs) hd hc hj)]
      rfl
    · rfl
  rw [bind_of (key c0 f g hgs fb.posClass 1 fb.posProb hp)]
  have hsh : (if f.next.1 < fb.posProb then neonClauseUpdate b.cfg (memOf x) fb.posClass 1 c0 g else (c0, g)).1.w.length = b.nClasses := by
    split
    · rw [clauseUpdate_w]; exact hgs
    · exact hgs
  exact key _ f.next.2 _ hsh fb.negClass (-1) fb.negProb hn

theorem flat_trainLoop (b : NBlock) (x : List Byte) (fb : Feedback) (total : Nat) (hx : x.length = exampleMem b.cfg.nLits)
    (hs : NeonSmall b.cfg.nLits total b.nClasses) (hp : fb.posClass < b.nClasses) (hn : fb.negClass < b.nClasses) :
    ∀ (rest done : List VClause) (f : Rng) (g : VRng), (done ++ rest).length = total → (∀ c ∈ done ++ rest, c.w.length = b.nClasses) →
      forLoop (FlatNeon.trainBody x fb) rest.length done.length (flattenNeon { b with clauses := done ++ rest, fast := f, vrng := g }) =
        some (flattenNeon { b with clauses := done ++ (neonTrainClauses b.cfg (memOf x) fb rest f g).1,
                                   fast := (neonTrainClauses b.cfg (memOf x) fb rest f g).2.1,
                                   vrng := (neonTrainClauses b.cfg (memOf x) fb rest f g).2.2 }) := by
  intro rest
  induction rest with
  | nil => intro done f g _ _; simp [forLoop, neonTrainClauses]
  | cons c rest ih =>
    intro done f g ht hok
    have h1 := flatTrainBody_eq b done rest c f g x fb hx hok (ht ▸ hs) hp hn
    unfold at_ at h1
    rw [List.length_cons, forLoop, bind_of h1]
    have hok' : ∀ c' ∈ (done ++ [(neonTrainClause b.cfg (memOf x) fb c f g).1]) ++ rest, c'.w.length = b.nClasses := by
      intro c' hc'
      simp only [List.append_assoc, List.mem_append, List.mem_cons, List.not_mem_nil, or_false] at hc'
      rcases hc' with hc' | rfl | hc'
      · exact hok c' (by simp [hc'])
      · rw [trainClause_w]; exact hok c (by simp)
      · exact hok c' (by simp [hc'])
    have := ih (done ++ [(neonTrainClause b.cfg (memOf x) fb c f g).1]) (neonTrainClause b.cfg (memOf x) fb c f g).2.1
      (neonTrainClause b.cfg (memOf x) fb c f g).2.2 (by simpa using ht) hok'
    simp only [List.append_assoc, List.cons_append, List.nil_append, List.length_append, List.length_cons, List.length_nil,
      Nat.zero_add] at this
    rw [this]
    rfl

theorem trainClauses_w (cfg : VCfg) (lits : Mem) (fb : Feedback) (k : Nat) : ∀ (cs : List VClause) (f : Rng) (g : VRng),
    (∀ c ∈ cs, c.w.length = k) → (∀ c ∈ (neonTrainClauses cfg lits fb cs f g).1, c.w.length = k) ∧
      (neonTrainClauses cfg lits fb cs f g).1.length = cs.length := by
  intro cs
  induction cs with
  | nil => intro f g h; exact ⟨h, rfl⟩
  | cons c cs ih =>
    intro f g h
    obtain ⟨h1, h2⟩ := ih (neonTrainClause cfg lits fb c f g).2.1 (neonTrainClause cfg lits fb c f g).2.2
      (fun c' hc' => h c' (List.mem_cons_of_mem _ hc'))
    rw [neonTrainClauses]
    refine ⟨?_, by simp [h2]⟩
    intro c' hc'
    rcases List.mem_cons.mp hc' with rfl | hc'
    · rw [trainClause_w]; exact h c List.mem_cons_self
    · exact h1 c' hc'

theorem setClause_w (cfg : VCfg) (lits : Mem) (c : VClause) : (neonSetClause cfg lits c).w = c.w := by
  unfold neonSetClause
  simp only
  split
  · rfl
  · split <;> rfl

theorem evalClause_w (cfg : VCfg) (lits : Mem) (act : Bool) (c : VClause) : (neonEvalClause cfg lits act c).1.w = c.w := by
  unfold neonEvalClause
  simp only
  split
  · rfl
  · split <;> rfl

theorem evalClauses_w (cfg : VCfg) (lits : Mem) (k : Nat) : ∀ (cs : List VClause) (act : Bool), (∀ c ∈ cs, c.w.length = k) →
    (∀ c ∈ neonEvalClauses cfg lits act cs, c.w.length = k) ∧ (neonEvalClauses cfg lits act cs).length = cs.length := by
  intro cs
  induction cs with
  | nil => intro act h; exact ⟨h, rfl⟩
  | cons c cs ih =>
    intro act h
    obtain ⟨h1, h2⟩ := ih (neonEvalClause cfg lits act c).2 fun c' hc' => h c' (List.mem_cons_of_mem _ hc')
    rw [neonEvalClauses]
    refine ⟨?_, by simp [h2]⟩
    intro c' hc'
    rcases List.mem_cons.mp hc' with rfl | hc'
    · rw [evalClause_w]; exact h c List.mem_cons_self
    · exact h1 c' hc'

/-- One call keeps the shape and does on the arrays what it does on the block. -/
theorem flat_apply (b : NBlock) (op : FlatAvxOp) (h0 : 0 < b.cfg.nLits) (hb : NeonShaped b)
    (hs : NeonSmall b.cfg.nLits b.clauses.length b.nClasses) (ho : AvxOpOk b.cfg.nLits b.nClasses op) :
    (flattenNeon b).apply op = (b.apply (opMem op)).map flattenNeon ∧ ∀ b', b.apply (opMem op) = some b' →
      NeonShaped b' ∧ b'.cfg = b.cfg ∧ b'.nClasses = b.nClasses ∧ b'.clauses.length = b.clauses.length := by
  have hsw := hs.weights
  cases op with
  | trainExample x =>
    have hset := flat_setOut b x h0 hs ho
    have happ : b.apply (opMem (.trainExample x)) = (neonSetClauses b.cfg (memOf x) b.clauses).map fun cs =>
        { b with clauses := cs, votes := neonCountVotes b.nClasses cs } := rfl
    rw [happ]
    have hflat : (flattenNeon b).apply (.trainExample x) = ((flattenNeon b).setOut x).bind FlatNeon.countVotes := rfl
    rw [hflat, hset]
    cases hcs : neonSetClauses b.cfg (memOf x) b.clauses with
    | none => exact ⟨rfl, by simp⟩
    | some cs =>
      have hcs' : cs = b.clauses.map (neonSetClause b.cfg (memOf x)) := by
        unfold neonSetClauses at hcs
        split at hcs
        · simp at hcs
        · exact (Option.some.inj hcs).symm
      have hr : NeonShaped { b with clauses := cs } := ⟨by
        intro c hc
        simp only [hcs'] at hc
        obtain ⟨c', hc', rfl⟩ := List.mem_map.mp hc
        rw [setClause_w]
        exact hb.weights c' hc', hb.votes⟩
      have hlen : cs.length = b.clauses.length := by simp [hcs']
      refine ⟨flat_countVotes _ hr (by show cs.length * b.nClasses < _; rw [hlen]; omega), ?_⟩
      intro b' hb'
      obtain rfl := Option.some.inj hb'
      exact ⟨⟨hr.weights, countVotes_length b.nClasses _ _ List.length_replicate hr.weights⟩, rfl, rfl, hlen⟩
  | evalExample x =>
    obtain ⟨h1, h2⟩ := evalClauses_w b.cfg (memOf x) b.nClasses b.clauses false hb.weights
    have hr : NeonShaped { b with clauses := neonEvalClauses b.cfg (memOf x) false b.clauses } := ⟨h1, hb.votes⟩
    refine ⟨?_, ?_⟩
    · refine (bind_of (flat_evalOut b x h0 hs ho) _).trans ?_
      exact flat_countVotes _ hr (by show (neonEvalClauses b.cfg (memOf x) false b.clauses).length * b.nClasses < _; rw [h2]; omega)
    · intro b' hb'
      obtain rfl := Option.some.inj hb'
      exact ⟨⟨hr.weights, countVotes_length b.nClasses _ _ List.length_replicate hr.weights⟩, rfl, rfl, h2⟩
  | trainUpdate x fb =>
    obtain ⟨h1, h2⟩ := trainClauses_w b.cfg (memOf x) fb b.nClasses b.clauses b.fast b.vrng hb.weights
    refine ⟨flat_trainLoop b x fb b.clauses.length ho.1 hs ho.2.1 ho.2.2 b.clauses [] b.fast b.vrng rfl hb.weights, ?_⟩
    intro b' hb'
    obtain rfl := Option.some.inj hb'
    exact ⟨⟨h1, hb.votes⟩, rfl, rfl, h2⟩

theorem flat_run (ops : List FlatAvxOp) : ∀ (b : NBlock), 0 < b.cfg.nLits → NeonShaped b →
    NeonSmall b.cfg.nLits b.clauses.length b.nClasses → (∀ op ∈ ops, AvxOpOk b.cfg.nLits b.nClasses op) →
    (flattenNeon b).run ops = (neonRun b (ops.map opMem)).map flattenNeon := by
  induction ops with
  | nil => intro b _ _ _ _; rfl
  | cons op ops ih =>
    intro b h0 hb hs ho
    obtain ⟨h1, h2⟩ := flat_apply b op h0 hb hs (ho op List.mem_cons_self)
    rw [FlatNeon.run, h1, List.map_cons, neonRun]
    cases hb' : b.apply (opMem op) with
    | none => rfl
    | some b' =>
      obtain ⟨h2, h3, h4, h5⟩ := h2 b' hb'
      exact ih b' (by rw [h3]; exact h0) h2 (by rw [h3, h4, h5]; exact hs) fun op' ho' => by
        rw [h3, h4]; exact ho op' (List.mem_cons_of_mem _ ho')

/-! ### Initialisation -/

theorem initLit_eq (mem : Nat) (pre post : List Byte) (hm : mem * 2 < 2147483648) :
    ∀ (r k : Nat) (row : Mem) (g : Rng), k + r ≤ mem →
      forLoop (flatNeonInitLit mem (pre.length : Int)) r k (pre ++ R (mem * 2) row ++ post, g) =
        some (pre ++ R (mem * 2) (neonInitRow mem k r row g).1 ++ post, (neonInitRow mem k r row g).2) := by
  intro r
  induction r with
  | zero => intro k row g _; rfl
  | succ r ih =>
    intro k row g hk
    rw [forLoop]
    have hb : flatNeonInitLit mem (pre.length : Int) k (pre ++ R (mem * 2) row ++ post, g) =
        some (pre ++ R (mem * 2) (fun a => if a = k + mem then neonCoin g.next.2 else
          (fun a => if a = k then neonCoin g else row a) a) ++ post, g.next.2.next.2) := by
      unfold flatNeonInitLit
      simp only
      rw [bind_of (wr_midR pre post _ row k (neonCoin g) (by push_cast; rfl) (by omega)),
        bind_of (i32_nat (k + mem) (by push_cast; rfl) (by omega)),
        bind_of (wr_midR pre post _ _ (k + mem) (neonCoin g.next.2) (by push_cast; rfl) (by omega))]
      rfl
    rw [bind_of hb, ih (k + 1) _ _ (by omega)]
    rfl

theorem initFill_eq (mem : Nat) (pre post : List Byte) (hm : mem * 2 < 2147483648) :
    ∀ (r i : Nat) (row : Mem), i + r ≤ mem →
      forLoop (flatNeonInitFill mem (pre.length : Int)) r i (pre ++ R (mem * 2) row ++ post) =
        some (pre ++ R (mem * 2) (fillFrom mem i r row) ++ post) := by
  intro r
  induction r with
  | zero =>
    intro i row _
    have : fillFrom mem i 0 row = row := by
      funext a
      unfold fillFrom
      rw [if_neg (by omega), if_neg (by omega)]
    rw [this]
    rfl
  | succ r ih =>
    intro i row hi
    rw [forLoop]
    have hb : flatNeonInitFill mem (pre.length : Int) i (pre ++ R (mem * 2) row ++ post) =
        some (pre ++ R (mem * 2) (fun a => if a = i + mem then BitVec.ofInt 8 (-111) else
          (fun a => if a = i then BitVec.ofInt 8 (-109) else row a) a) ++ post) := by
      unfold flatNeonInitFill
      rw [bind_of (wr_midR pre post _ row i (BitVec.ofInt 8 (-109)) (by push_cast; rfl) (by omega)),
        bind_of (i32_nat (i + mem) (by push_cast; rfl) (by omega))]
      exact wr_midR pre post _ _ (i + mem) _ (by push_cast; rfl) (by omega)
    rw [bind_of hb, ih (i + 1) _ (by omega)]
    congr 3
    apply R_congr
    intro a _
    unfold fillFrom
    simp only
    by_cases h1 : i ≤ a ∧ a < i + (r + 1)
    · rw [if_pos h1]
      by_cases h2 : a = i
      · rw [if_neg (by omega), if_neg (by omega), if_neg (by omega), if_pos h2]
      · rw [if_pos (by omega)]
    · rw [if_neg h1, if_neg (by omega)]
      by_cases h3 : i + mem ≤ a ∧ a < i + (r + 1) + mem
      · rw [if_pos h3]
        by_cases h2 : a = i + mem
        · rw [if_neg (by omega), if_pos h2]
        · rw [if_pos (by omega)]
      · rw [if_neg h3, if_neg (by omega), if_neg (by omega), if_neg (by omega)]

theorem fillFrom_eq (n : Nat) (row : Mem) : fillFrom (neonMem n) n (neonMem n - n) row = neonFill n (neonMem n) row := by
  have := neonMem_ge n
  funext a
  unfold fillFrom neonFill
  rw [show n + (neonMem n - n) = neonMem n by omega]

/-- What was in memory before does not matter where the loop writes. -/
theorem initRow_agree (mem : Nat) : ∀ (r k : Nat) (row row' : Mem) (g : Rng),
    (neonInitRow mem k r row g).2 = (neonInitRow mem k r row' g).2 ∧
    ∀ a, (row a = row' a ∨ (k ≤ a ∧ a < k + r) ∨ (k + mem ≤ a ∧ a < k + r + mem)) →
      (neonInitRow mem k r row g).1 a = (neonInitRow mem k r row' g).1 a := by
  intro r
  induction r with
  | zero =>
    intro k row row' g
    refine ⟨rfl, ?_⟩
    intro a ha
    rcases ha with ha | ha | ha
    · exact ha
    · omega
    · omega
  | succ r ih =>
    intro k row row' g
    simp only [neonInitRow]
    refine ⟨(ih _ _ _ _).1, ?_⟩
    intro a ha
    apply (ih _ _ _ _).2
    by_cases h1 : a = k + mem
    · left; simp [h1]
    · by_cases h2 : a = k
      · left; simp [h2]
      · rcases ha with ha | ha | ha
        · left; simp [h1, h2, ha]
        · right; left; omega
        · right; right; omega

theorem initRow_junk (n : Nat) (row row' : Mem) (g : Rng) :
    R (neonMem n * 2) (neonFill n (neonMem n) (neonInitRow (neonMem n) 0 n row g).1) =
      R (neonMem n * 2) (neonFill n (neonMem n) (neonInitRow (neonMem n) 0 n row' g).1) := by
  apply R_congr
  intro a ha
  unfold neonFill
  split
  · rfl
  · split
    · rfl
    · exact (initRow_agree (neonMem n) n 0 row row' g).2 a (Or.inr (by omega))

theorem initClause_eq (n : Nat) (pre post : List Byte) (hm : neonMem n * 2 < 2147483648) (k : Nat) (hk : k * (neonMem n * 2) < 2147483648)
    (hpre : pre.length = k * (neonMem n * 2)) (row row' : Mem) (g : Rng) :
    flatNeonInitClause n (neonMem n) k (pre ++ R (neonMem n * 2) row ++ post, g) =
      some (pre ++ R (neonMem n * 2) (neonFill n (neonMem n) (neonInitRow (neonMem n) 0 n row' g).1) ++ post,
        (neonInitRow (neonMem n) 0 n row' g).2) := by
  have hge := neonMem_ge n
  unfold flatNeonInitClause
  rw [bind_of (neonRowPtr_nat hm hk), ← hpre, bind_of (initLit_eq _ pre post hm n 0 row g (by omega))]
  simp only
  rw [bind_of (initFill_eq _ pre post hm _ n _ (by omega)), fillFrom_eq, initRow_junk n row row', (initRow_agree (neonMem n) n 0 row row' g).1]
  rfl

theorem initClauses_eq (n total : Nat) (junkM : Nat → Mem) (hm : neonMem n * 2 < 2147483648)
    (ht : total * (neonMem n * 2) < 2147483648) :
    ∀ (rem k : Nat) (pre l : List Byte) (g : Rng), k + rem = total → pre.length = k * (neonMem n * 2) →
      l.length = rem * (neonMem n * 2) →
      forLoop (flatNeonInitClause n (neonMem n)) rem k (pre ++ l, g) =
        some (pre ++ (neonInitRows n junkM rem g).1.flatMap (R (neonMem n * 2)), (neonInitRows n junkM rem g).2) := by
  intro rem
  induction rem with
  | zero =>
    intro k pre l g _ _ hl
    have : l = [] := by simpa using hl
    subst this
    simp [forLoop, neonInitRows]
  | succ rem ih =>
    intro k pre l g hk hpre hl
    rw [Nat.succ_mul] at hl
    have hsplit := list_eq_R l (neonMem n * 2) (by omega)
    have hkk : k * (neonMem n * 2) < 2147483648 := by
      have : k * (neonMem n * 2) ≤ total * (neonMem n * 2) := Nat.mul_le_mul_right _ (by omega)
      omega
    rw [hsplit, ← List.append_assoc, forLoop,
      bind_of (initClause_eq n pre _ hm k hkk hpre _ (fun a => if a < 2 * neonMem n then junkM rem a else 0#8) g)]
    rw [ih (k + 1) _ _ _ (by omega) (by rw [List.length_append, hpre, R_length, Nat.succ_mul])
      (by rw [List.length_drop, hl]; omega)]
    simp [neonInitRows]

theorem initWeights_length (n : Nat) : ∀ g : Rng, (neonInitWeights n g).1.length = n := by
  induction n with
  | zero => intro g; rfl
  | succ n ih => intro g; simp [neonInitWeights, ih]

theorem initWeights_append (n m : Nat) : ∀ g : Rng, (neonInitWeights (n + m) g).1 =
    (neonInitWeights n g).1 ++ (neonInitWeights m (neonInitWeights n g).2).1 ∧
    (neonInitWeights (n + m) g).2 = (neonInitWeights m (neonInitWeights n g).2).2 := by
  induction n with
  | zero => intro g; simp [neonInitWeights]
  | succ n ih =>
    intro g
    rw [show n + 1 + m = (n + m) + 1 by omega]
    simp only [neonInitWeights]
    exact ⟨by rw [(ih g.next.2).1]; rfl, (ih g.next.2).2⟩

theorem initAllWeights_flatten (n : Nat) : ∀ (k : Nat) (g : Rng), (neonInitAllWeights n k g).1.flatten = (neonInitWeights (k * n) g).1 ∧
    (neonInitAllWeights n k g).2 = (neonInitWeights (k * n) g).2 ∧ (neonInitAllWeights n k g).1.length = k ∧
    ∀ w ∈ (neonInitAllWeights n k g).1, w.length = n := by
  intro k
  induction k with
  | zero => intro g; simp [neonInitAllWeights, neonInitWeights]
  | succ k ih =>
    intro g
    obtain ⟨h1, h2, h3, h4⟩ := ih (neonInitWeights n g).2
    obtain ⟨a1, a2⟩ := initWeights_append n (k * n) g
    rw [show (k + 1) * n = n + k * n by rw [Nat.succ_mul]; omega]
    simp only [neonInitAllWeights, List.flatten_cons, List.length_cons, List.mem_cons]
    refine ⟨by rw [a1, h1], by rw [a2, h2], by rw [h3], ?_⟩
    rintro w (rfl | hw)
    · exact initWeights_length n g
    · exact h4 w hw

theorem initWeight_eq : ∀ (l d : List Int) (g : Rng),
    forLoop flatNeonInitWeight l.length d.length (d ++ l, g) = some (d ++ (neonInitWeights l.length g).1, (neonInitWeights l.length g).2) := by
  intro l
  induction l with
  | nil => intro d g; simp [forLoop, neonInitWeights]
  | cons a l ih =>
    intro d g
    rw [List.length_cons, forLoop]
    have hb : flatNeonInitWeight d.length (d ++ a :: l, g) = some ((d ++ [if g.next.1 < 1 / 2 then 1 else -1]) ++ l, g.next.2) := by
      unfold flatNeonInitWeight
      simp only
      rw [bind_of (wr_eq_mid d l a _ rfl rfl)]
      simp
    rw [bind_of hb]
    have := ih (d ++ [if g.next.1 < 1 / 2 then 1 else -1]) g.next.2
    simp only [List.length_append, List.length_cons, List.length_nil, Nat.zero_add] at this
    rw [this, neonInitWeights]
    simp

theorem sizeToInt_nat {n : Nat} (h : n < 2147483648) : sizeToInt (n : Int) = n := by
  unfold sizeToInt
  omega

theorem neonAlloc_nat {n : Nat} (h : n ≤ 2147483616) : neonAlloc (n : Int) = some (n : Int) := by
  have hs : ∃ size, safeAllocSize 32 (n : Int) = some size := by
    unfold safeAllocSize
    split
    · exact ⟨_, rfl⟩
    · split
      · exact ⟨_, i32_ok (by omega) (by omega)⟩
      · exact ⟨_, rfl⟩
  obtain ⟨size, hs⟩ := hs
  unfold neonAlloc
  rw [bind_of hs, if_neg (by omega)]
  rfl

theorem mask_eq (n : Nat) (junk : Nat → Byte) : flatNeonMask n junk = some (List.ofFn (neonMask n)) := by
  unfold flatNeonMask
  rw [bind_of (show neonAlloc 16 = some 16 by decide)]
  have h1 := maskLoop_eq 0xFF#8 [] ((List.range 16).map junk) []
  rw [List.length_map, List.length_range, List.length_nil, List.nil_append, List.append_nil, List.nil_append, List.append_nil] at h1
  rw [show (16 : Int).toNat = 16 from rfl, bind_of h1]
  by_cases h : n % 16 = 0
  · rw [if_pos h]
    refine congrArg some ?_
    apply List.ext_getElem
    · rw [List.length_replicate, List.length_ofFn]
    · intro i _ _
      rw [List.getElem_replicate, List.getElem_ofFn, neonMask, if_pos h]
  · rw [if_neg h]
    have hlt : n % 16 < 16 := Nat.mod_lt _ (by decide)
    have h2 := maskLoop_eq 0#8 [] (List.replicate (16 - n % 16) 0xFF#8) (List.replicate (n % 16) 0xFF#8)
    rw [List.length_replicate, List.length_replicate, List.append_nil, List.append_nil, List.replicate_append_replicate,
      show n % 16 + (16 - n % 16) = 16 by omega] at h2
    rw [h2]
    refine congrArg some ?_
    apply List.ext_getElem
    · rw [List.length_append, List.length_replicate, List.length_replicate, List.length_ofFn]; omega
    · intro i _ _
      rw [List.getElem_append, List.getElem_ofFn, neonMask, if_neg h]
      simp only [List.length_replicate, List.getElem_replicate]
      by_cases hi : i < n % 16
      · rw [dif_pos hi, if_neg (by omega)]
      · rw [dif_neg hi, if_pos (by omega)]

theorem mem_eq {n : Nat} (h : neonMem n < 2147483648) : flatNeonMem n = some (neonMem n : Int) := by
  unfold flatNeonMem neonMem at *
  split
  · rfl
  · next hh =>
    rw [if_neg hh] at h
    rw [bind_of (i32_nat (n / 16 + 1) (by push_cast; rfl) (by omega))]
    exact i32_nat _ (by push_cast; rfl) h

theorem initRows_length (n : Nat) (junkM : Nat → Mem) : ∀ (k : Nat) (g : Rng), (neonInitRows n junkM k g).1.length = k := by
  intro k
  induction k with
  | zero => intro g; rfl
  | succ k ih => intro g; simp [neonInitRows, ih]

theorem flat_init (nClauses nClasses : Nat) (cfg : VCfg) (fastOf rngOf : Nat → Rng) (vrngOf : Nat → VRng) (junk : Nat → Byte)
    (junkW : Nat → Int) (junkM : Nat → Mem) (junkC : Nat → Nat) (seed : Nat) (hs : NeonSmall cfg.nLits nClauses nClasses) :
    flatNeonInit nClauses nClasses cfg fastOf rngOf vrngOf junk junkW junkC seed =
      some ((neonInit nClauses nClasses cfg fastOf rngOf vrngOf junkM junkC seed).map flattenNeon) := by
  unfold flatNeonInit neonInit
  by_cases hseed : seed = 0
  · rw [if_pos hseed, if_pos hseed]; rfl
  rw [if_neg hseed, if_neg hseed]
  have hrow := hs.row
  have hcl := hs.clauses
  have e0 : nClauses * neonMem cfg.nLits * 2 = nClauses * (neonMem cfg.nLits * 2) := Nat.mul_assoc _ _ _
  have ho := hs.outputs
  have hw := hs.weights
  have hv := hs.votes
  unfold neonOutSize at ho
  have hm16 := neonMem_mod cfg.nLits
  have h32 : (nClauses * (neonMem cfg.nLits * 2)) % 32 = 0 := by
    rw [Nat.mul_mod, show neonMem cfg.nLits * 2 % 32 = 0 by omega, Nat.mul_zero, Nat.zero_mod]
  rw [bind_of (mask_eq cfg.nLits junk), bind_of (mem_eq (by omega)),
    bind_of (i32_nat (nClauses * neonMem cfg.nLits) (by push_cast; rfl) (by omega)),
    bind_of (i32_nat (nClauses * (neonMem cfg.nLits * 2)) (by rw [← e0]; push_cast; rfl) hs.clauses),
    bind_of (neonAlloc_nat (by omega)), bind_of (i32_nat (nClauses / 64 + 1) (by push_cast; rfl) (by omega)),
    bind_of (i32_nat (neonOutSize nClauses) (by unfold neonOutSize; push_cast; rfl) hs.outputs),
    sizeToInt_nat hs.outputs, bind_of (neonAlloc_nat (by unfold neonOutSize; omega)),
    bind_of (i32_nat (nClauses * nClasses) (by push_cast; rfl) (by omega)),
    show (((nClauses * nClasses : Nat) : Int) * 2) = ((nClauses * nClasses * 2 : Nat) : Int) by push_cast; rfl,
    show ((nClasses : Int) * 2) = ((nClasses * 2 : Nat) : Int) by push_cast; rfl,
    sizeToInt_nat (by omega), bind_of (neonAlloc_nat hw), sizeToInt_nat (by omega), bind_of (neonAlloc_nat hv)]
  simp only [Int.toNat_natCast]
  rw [show nClauses * nClasses * 2 / 2 = nClauses * nClasses by omega, show nClasses * 2 / 2 = nClasses by omega]
  have l0 := zeroLoop_eq ((List.range nClasses).map junkW) []
  have l1 := initClauses_eq cfg.nLits nClauses junkM hs.row hs.clauses nClauses 0 []
    ((List.range (nClauses * (neonMem cfg.nLits * 2))).map junk) (rngOf seed) (by omega) (by simp) (by simp)
  have l2 := initWeight_eq ((List.range (nClauses * nClasses)).map junkW) [] (neonInitRows cfg.nLits junkM nClauses (rngOf seed)).2
  simp only [List.nil_append, List.length_nil, List.length_map, List.length_range] at l0 l1 l2
  rw [bind_of l0, bind_of l1, bind_of l2]
  have r3 := initRows_length cfg.nLits junkM nClauses (rngOf seed)
  obtain ⟨w1, w2, w3, _⟩ := initAllWeights_flatten nClasses nClauses (neonInitRows cfg.nLits junkM nClauses (rngOf seed)).2
  simp only [Option.map_some, flattenNeon, Option.pure_def, List.length_mapIdx, List.length_zip, r3, w3, Nat.min_self]
  rw [zip_rows _ _ (by rw [r3, w3]) _ (fun _ _ => rfl), zip_ws _ _ (by rw [r3, w3]) _ (fun _ _ => rfl), w1]
  have hout : List.map (·.out) (((neonInitRows cfg.nLits junkM nClauses (rngOf seed)).1.zip
      (neonInitAllWeights nClasses nClauses (neonInitRows cfg.nLits junkM nClauses (rngOf seed)).2).1).mapIdx
      (fun i rw => (⟨rw.1, rw.2, 0, junkC i⟩ : VClause))) = List.replicate nClauses 0 := by
    apply List.ext_getElem
    · simp [r3, w3]
    · intro i h1 h2; simp
  have hcnt : List.map (·.cnt) (((neonInitRows cfg.nLits junkM nClauses (rngOf seed)).1.zip
      (neonInitAllWeights nClasses nClauses (neonInitRows cfg.nLits junkM nClauses (rngOf seed)).2).1).mapIdx
      (fun i rw => (⟨rw.1, rw.2, 0, junkC i⟩ : VClause))) = (List.range nClauses).map junkC := by
    apply List.ext_getElem
    · simp [r3, w3]
    · intro i h1 h2; simp
  rw [hout, hcnt, List.replicate_append_replicate, show nClauses + (neonOutSize nClauses - nClauses) = neonOutSize nClauses by
    unfold neonOutSize; omega]

theorem init_shaped (nClauses nClasses : Nat) (cfg : VCfg) (fastOf rngOf : Nat → Rng) (vrngOf : Nat → VRng)
    (junkM : Nat → Mem) (junkC : Nat → Nat) (seed : Nat) (b : NBlock)
    (hb : neonInit nClauses nClasses cfg fastOf rngOf vrngOf junkM junkC seed = some b) :
    NeonShaped b ∧ b.cfg = cfg ∧ b.nClasses = nClasses ∧ b.clauses.length = nClauses := by
  unfold neonInit at hb
  split at hb
  · simp at hb
  · obtain rfl := Option.some.inj hb
    have r3 := initRows_length cfg.nLits junkM nClauses (rngOf seed)
    obtain ⟨_, _, w3, w4⟩ := initAllWeights_flatten nClasses nClauses (neonInitRows cfg.nLits junkM nClauses (rngOf seed)).2
    refine ⟨⟨?_, by simp⟩, rfl, rfl, by simp [r3, w3]⟩
    intro c hc
    obtain ⟨i, hi, rfl⟩ := List.getElem_of_mem hc
    simp only [List.getElem_mapIdx, List.getElem_zip]
    exact w4 _ (List.getElem_mem _)

theorem ldq_neg (l : List Byte) {i : Int} (h : i < 0) : ldq l i = none := by
  unfold ldq
  exact if_neg fun hh => by omega

/-- A loop that writes an array element by element does not run past its end. -/
theorem initWeight_none : ∀ (r k : Nat) (l : List Int) (g : Rng), k ≤ l.length → l.length < k + r →
    forLoop flatNeonInitWeight r k (l, g) = none := by
  intro r
  induction r with
  | zero => intro k l g _ _; omega
  | succ r ih =>
    intro k l g hk hr
    rw [forLoop]
    by_cases h : k < l.length
    · have hb : flatNeonInitWeight k (l, g) = some (l.set k (if g.next.1 < 1 / 2 then 1 else -1), g.next.2) := by
        unfold flatNeonInitWeight wr
        simp only
        rw [if_pos ⟨by omega, by simpa using h⟩]
        rfl
      rw [bind_of hb]
      exact ih (k + 1) _ _ (by simp; omega) (by simp; omega)
    · have hb : flatNeonInitWeight k (l, g) = none := by
        unfold flatNeonInitWeight wr
        simp only
        rw [if_neg (by simp; omega)]
        rfl
      rw [hb]
      rfl

end GT.NeonMem
