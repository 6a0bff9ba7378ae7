import Verif.Lemmas.StateArrays4
import Verif.Props.Files

/-! # State transfer with arrays as the caller made them (C80) -/

namespace GT
open Spec Arr

theorem held_dims {n m : Nat} {bs bs' : List Blk} (h : List.Forall₂ SameDims bs bs') (hb : ∀ b ∈ bs, BlockReady n m b) :
    (∀ b ∈ bs', BlockReady n m b) ∧ (bs'.map (·.nClauses)).sum = (bs.map (·.nClauses)).sum := by
  induction h with
  | nil => exact ⟨hb, rfl⟩
  | cons h1 _ ih =>
    obtain ⟨k1, k2⟩ := ih (fun b hb' => hb b (List.mem_cons_of_mem _ hb'))
    refine ⟨?_, ?_⟩
    · intro b hb'
      rcases List.mem_cons.mp hb' with rfl | hb'
      · exact h1.ready (hb _ (List.mem_cons_self ..))
      · exact k1 b hb'
    · simp only [List.map_cons, List.sum_cons, k2, h1.2.1]

/-- C80 (partial: arrays of the machine's dimensions, see `Readable` for the layouts): putting a state into the blocks reads and
writes only inside the arrays and the blocks, afterwards the machine holds exactly the clauses of the state, and the padding of the
blocks is as it was. -/
theorem C80_restore_partial (m : Mach) (bs : List Blk) (h : MachineReady m bs) (w c : NpMat)
    (hst : m.state = some ⟨some w, some c⟩) (hs : SameSize m w c)
    (hc : Readable .int8 128 c) (hw : Readable .int16 32768 w) :
    ∃ bs', m.restore = some ({ m with cbs := some bs' }, .ok ()) ∧ held bs' = arrClauses m.nLits m.nClasses w c ∧
      MachineReady { m with cbs := some bs' } bs' ∧ List.Forall₂ PaddingKept bs bs' := by
  obtain ⟨h1, h2, h3, h4, h5, h6⟩ := h
  obtain ⟨s1, s2, s3, s4⟩ := hs
  obtain ⟨p1, p2, p3, p4, p5⟩ := readable_pass cast8 hc
  obtain ⟨q1, q2, q3, q4, q5⟩ := readable_pass cast16 hw
  have ht : total bs = m.nClauses := h3
  let a : Arrays := ⟨0, 0, 0, ptr (c.pass .int8), ptr (w.pass .int16)⟩
  obtain ⟨bs', e, f, d⟩ := saveLoop_ok m.nLits m.nClasses w c bs h2 a rfl rfl [] 0
    (by rw [Nat.zero_add, ht]; exact h4) (by rw [Nat.zero_add, ht]; exact h5) (by rw [Nat.zero_add, ht]; exact h6)
    (by rw [Nat.zero_add, ht, ← s1, ← s2]; exact p4) (by rw [Nat.zero_add, ht, ← s3, ← s4]; exact q4)
  obtain ⟨d1, d2⟩ := held_dims d h2
  refine ⟨bs', ?_, ?_, ⟨rfl, d1, d2.trans h3, h4, h5, h6⟩, saveLoop_padding d a 0 h2 f⟩
  · unfold Mach.restore
    simp only [h1, hst]
    rw [FlatMem.bind_of e]
    rfl
  · have hfit : ∀ b ∈ bs.map Blk.flat, Fits m.nLits m.nClasses b := by
      intro b hb
      obtain ⟨b', hb', rfl⟩ := List.mem_map.mp hb
      exact ⟨(h2 b' hb').lits, (h2 b' hb').classes, (h2 b' hb').litMem, (h2 b' hb').wMem⟩
    have sp := saveLoop_spec m.nLits m.nClasses (bs.map Blk.flat) hfit 0 a
    rw [← f, held_flat, total_flat, ht] at sp
    rw [sp]
    simp only [Nat.zero_add]
    rw [← arrClauses_congr (n := m.nLits) (m := m.nClasses) (w := w) (c := c) (w' := w.pass .int16) (c' := c.pass .int8) p2
      (fun i j hi hj => p5 i j hi (by omega)) (fun i k hi hk => q5 i k (by omega) (by omega)),
      arrClauses_flat m.nLits m.nClasses _ _ p1 q1 (p3.trans s2) (q3.trans s4), p2, s1]

/-- Arrays the library makes itself are readable. -/
theorem usual_readable {w c : NpMat} (h : UsualArrays w c) : Readable .int8 128 c ∧ Readable .int16 32768 w :=
  ⟨⟨h.2.2.2.2.1, Or.inl ⟨h.1, h.2.2.1⟩⟩, ⟨h.2.2.2.2.2, Or.inl ⟨h.2.1, h.2.2.2.1⟩⟩⟩

theorem zeros_valid (d : DType) (r k : Nat) : RowAfterRow (NpMat.zeros d r k) ∧ ValidArray (NpMat.zeros d r k) := by
  have hr : RowAfterRow (NpMat.zeros d r k) := ⟨rfl, rfl⟩
  refine ⟨hr, Nat.zero_le _, fun i j hi hj => ?_⟩
  rw [elem_row _ hr]
  exact ⟨_, rd_nat rfl (by
    show 0 + (i * k + j) < (List.replicate (r * k) (0 : Int)).length
    rw [List.length_replicate, Nat.zero_add]
    exact row_lt k i j r hi hj)⟩

/-- C80: collecting into usual arrays of the machine's size overwrites all their elements and nothing else. -/
theorem collect_into (m : Mach) (bs : List Blk) (h : MachineReady m bs) (w c : NpMat) (hu : UsualArrays w c) (hs : SameSize m w c) :
    ∃ w' c', Arr.loadLoop bs 0 ⟨some w, some c⟩ = some (⟨some w', some c'⟩, .ok ()) ∧ UsualArrays w' c' ∧ SameSize m w' c' ∧
      arrClauses m.nLits m.nClasses w' c' = held bs ∧ OnlyElements w w' ∧ OnlyElements c c' := by
  obtain ⟨h1, h2, h3, h4, h5, h6⟩ := h
  obtain ⟨s1, s2, s3, s4⟩ := hs
  obtain ⟨u1, u2, u3, u4, u5, u6⟩ := hu
  have ht : total bs = m.nClauses := h3
  have v1 := valid_size c u3 u5
  have v2 := valid_size w u4 u6
  rw [s1, s2] at v1
  rw [s3, s4] at v2
  let a : Arrays := ⟨0, 0, 0, ptr c, ptr w⟩
  obtain ⟨bw, bc, e, l1, l2, k1, k2, k3, k4⟩ := loadLoop_ok m.nLits m.nClasses bs h2 w c u1 u2 a rfl rfl 0
    (by rw [Nat.zero_add, ht]; exact h4) (by rw [Nat.zero_add, ht]; exact h5) (by rw [Nat.zero_add, ht]; exact h6)
    (by rw [Nat.zero_add, ht]; exact v1) (by rw [Nat.zero_add, ht]; exact v2)
  have hd : ∀ b ∈ bs.map Blk.flat, b.nLits = m.nLits ∧ b.nClasses = m.nClasses := by
    intro b hb
    obtain ⟨b', hb', rfl⟩ := List.mem_map.mp hb
    exact ⟨(h2 b' hb').lits, (h2 b' hb').classes⟩
  have reads := load_reads m.nLits m.nClasses (bs.map Blk.flat) hd a
  obtain ⟨-, o1, o2, -⟩ := loadLoop_spec m.nLits m.nClasses (bs.map Blk.flat) hd 0 a
  rw [arrayClauses_eq, total_flat, held_flat, ht, ← k1, ← k2] at reads
  rw [Nat.zero_add, total_flat, ht] at o1 o2
  have valid : ∀ (x : NpMat) (b : List Int), RowAfterRow x → ValidArray x → b.length = x.buf.length → ValidArray { x with buf := b } := by
    intro x b hr hv hl
    have sz := valid_size x hr hv
    refine ⟨by show x.off ≤ b.length; rw [hl]; exact hv.1, fun i j hi hj => ?_⟩
    have hr' : RowAfterRow { x with buf := b } := hr
    rw [elem_row _ hr']
    have hi' : i < x.rows := hi
    have hj' : j < x.cols := hj
    have := row_lt x.cols i j x.rows hi' hj'
    exact ⟨_, rd_nat rfl (by show x.off + (i * x.cols + j) < b.length; omega)⟩
  have outside : ∀ (l l' : List Int) (p : Nat), l'.length = l.length → den l' p = den l p → l'[p]? = l[p]? := by
    intro l l' p hl hp
    unfold den at hp
    rw [List.getD_eq_getElem?_getD, List.getD_eq_getElem?_getD] at hp
    by_cases hlt : p < l.length
    · rw [List.getElem?_eq_getElem hlt, List.getElem?_eq_getElem (by omega)] at hp ⊢
      exact congrArg some hp
    · rw [List.getElem?_eq_none (by omega), List.getElem?_eq_none (by omega)]
  refine ⟨{ w with buf := bw }, { c with buf := bc }, e, ⟨u1, u2, u3, u4, valid c bc u3 u5 l2, valid w bw u4 u6 l1⟩,
    ⟨s1, s2, s3, s4⟩, ?_, ⟨rfl, rfl, rfl, rfl, rfl, rfl, l1, ?_⟩, ⟨rfl, rfl, rfl, rfl, rfl, rfl, l2, ?_⟩⟩
  · rw [arrClauses_flat m.nLits m.nClasses { w with buf := bw } { c with buf := bc } u3 u4 s2 s4]
    show (List.range c.rows).map _ = _
    rw [s1]
    exact reads
  · intro p hp
    apply outside _ _ _ l1
    rcases hp with hp | hp
    · exact k4 p hp
    · rw [s3, s4] at hp
      have := congrFun k2 (p - w.off)
      rw [o2 _ (Or.inr (by omega))] at this
      have e2 : w.off + (p - w.off) = p := by omega
      have this : den bw (w.off + (p - w.off)) = den w.buf (w.off + (p - w.off)) := this
      rw [e2] at this
      exact this
  · intro p hp
    apply outside _ _ _ l2
    rcases hp with hp | hp
    · exact k3 p hp
    · rw [s1, s2] at hp
      have := congrFun k1 (p - c.off)
      rw [o1 _ (Or.inr (by omega))] at this
      have e2 : c.off + (p - c.off) = p := by omega
      have this : den bc (c.off + (p - c.off)) = den c.buf (c.off + (p - c.off)) := this
      rw [e2] at this
      exact this

theorem zeros_fit (m : Mach) :
    UsualArrays (NpMat.zeros .int16 m.nClauses m.nClasses) (NpMat.zeros .int8 m.nClauses (m.nLits * 2)) ∧
    SameSize m (NpMat.zeros .int16 m.nClauses m.nClasses) (NpMat.zeros .int8 m.nClauses (m.nLits * 2)) :=
  ⟨⟨rfl, rfl, (zeros_valid ..).1, (zeros_valid ..).1, (zeros_valid ..).2, (zeros_valid ..).2⟩,
   rfl, Nat.mul_comm m.nLits 2, rfl, rfl⟩

/-- C80: a copy of the state collected from the blocks has the machine's dimensions and exactly its clauses, whatever state the
machine held, and nothing outside the new arrays is written. -/
theorem C80_collect_copy (m : Mach) (bs : List Blk) (h : MachineReady m bs) :
    ∃ w c, m.collectCopy = some (.ok ⟨some w, some c⟩) ∧ UsualArrays w c ∧ SameSize m w c ∧
      arrClauses m.nLits m.nClasses w c = held bs := by
  obtain ⟨u, s⟩ := zeros_fit m
  obtain ⟨w, c, e, h1, h2, h3, -⟩ := collect_into m bs h _ _ u s
  refine ⟨w, c, ?_, h1, h2, h3⟩
  unfold Mach.collectCopy
  simp only [h.cbs]
  rw [FlatMem.bind_of (show Arr.loadLoop bs 0 (St.zeros m.nLits m.nClauses m.nClasses) = _ from e)]
  rfl

/-- C80 (partial: the state's arrays are as the library makes them): collecting the state replaces exactly the elements of the
arrays the machine holds by the clauses of its blocks. -/
theorem C80_collect_in_place_partial (m : Mach) (bs : List Blk) (h : MachineReady m bs) (w c : NpMat)
    (hst : m.state = some ⟨some w, some c⟩) (hu : UsualArrays w c) (hs : SameSize m w c) :
    ∃ w' c', m.collect = some ({ m with state := some ⟨some w', some c'⟩ }, .ok ()) ∧
      arrClauses m.nLits m.nClasses w' c' = held bs ∧ OnlyElements w w' ∧ OnlyElements c c' := by
  obtain ⟨w', c', e, h1, h2, h3, h4, h5⟩ := collect_into m bs h _ _ hu hs
  refine ⟨w', c', ?_, h3, h4, h5⟩
  unfold Mach.collect
  simp only [h.cbs, hst]
  rw [FlatMem.bind_of e]
  rfl

/-- C80: without a state, collecting makes one with exactly the clauses of the blocks. -/
theorem C80_collect_first (m : Mach) (bs : List Blk) (h : MachineReady m bs) (hst : m.state = none) :
    ∃ w c, m.collect = some ({ m with state := some ⟨some w, some c⟩ }, .ok ()) ∧ UsualArrays w c ∧ SameSize m w c ∧
      arrClauses m.nLits m.nClasses w c = held bs := by
  obtain ⟨u, s⟩ := zeros_fit m
  obtain ⟨w, c, e, h1, h2, h3, -⟩ := collect_into m bs h _ _ u s
  refine ⟨w, c, ?_, h1, h2, h3⟩
  unfold Mach.collect
  simp only [h.cbs, hst]
  rw [FlatMem.bind_of (show Arr.loadLoop bs 0 (St.zeros m.nLits m.nClauses m.nClasses) = _ from e)]
  rfl

/-- C80: a state collected from one machine and put into another of the same dimensions, with any division into blocks and any
padding, gives it the same clauses; no access leaves an array. -/
theorem C80_round_trip (m m2 : Mach) (bs bs2 : List Blk) (h : MachineReady m bs) (h2 : MachineReady m2 bs2)
    (e1 : m2.nLits = m.nLits) (e2 : m2.nClauses = m.nClauses) (e3 : m2.nClasses = m.nClasses) :
    ∃ st m2' bs2', m.collectCopy = some (.ok st) ∧ (m2.loadState st).restore = some (m2', .ok ()) ∧
      m2'.cbs = some bs2' ∧ held bs2' = held bs := by
  obtain ⟨w, c, k1, k2, k3, k4⟩ := C80_collect_copy m bs h
  obtain ⟨r1, r2⟩ := usual_readable k2
  have h2' : MachineReady (m2.loadState ⟨some w, some c⟩) bs2 := ⟨h2.1, h2.2, h2.3, h2.4, h2.5, h2.6⟩
  obtain ⟨bs', q1, q2, -⟩ := C80_restore_partial (m2.loadState ⟨some w, some c⟩) bs2 h2' w c rfl
    ⟨k3.1.trans e2.symm, by rw [k3.2.1]; show _ = 2 * m2.nLits; rw [e1], k3.2.2.1.trans e2.symm, k3.2.2.2.trans e3.symm⟩ r1 r2
  refine ⟨_, _, bs', k1, q1, rfl, ?_⟩
  rw [q2, ← k4]
  show arrClauses m2.nLits m2.nClasses w c = _
  rw [e1, e3]

/-- C80: a file with arrays of the machine's dimensions is loaded, and putting the loaded state into the blocks gives the machine exactly the
clauses in the file: literal `j` of clause `i` is element `i * 2n + j` of the file's array, and so on. -/
theorem C80_load_file (m : Mach) (bs : List Blk) (h : MachineReady m bs) (fs : FS) (path : String) (hp : NpzName path) (d : Npz) (w c : Npy)
    (hd : fs path = some d) (hw : d.lookup "w" = some w) (hc : d.lookup "c" = some c) (tw : w.dtype = .int16) (tc : c.dtype = .int8)
    (sw : WholeArray w m.nClauses m.nClasses) (sc : WholeArray c m.nClauses (2 * m.nLits)) :
    ∃ m1 m2 bs', m.loadFile fs path = (m1, .ok ()) ∧ m1.restore = some (m2, .ok ()) ∧ m2.cbs = some bs' ∧
      held bs' = (List.range m.nClauses).map fun i =>
        ((List.range m.nLits).map (fun j => c.data.getD (i * (2 * m.nLits) + j) 0),
         (List.range m.nLits).map (fun j => c.data.getD (i * (2 * m.nLits) + m.nLits + j) 0),
         (List.range m.nClasses).map (fun k => w.data.getD (i * m.nClasses + k) 0)) := by
  have hl : m.loadFile fs path = ({ m with state := some ⟨some (NpMat.ofNpy w), some (NpMat.ofNpy c)⟩ }, .ok ()) := by
    unfold Mach.loadFile
    have : DenseArr.loadFromFile fs path = .ok ⟨w, c⟩ := by
      unfold DenseArr.loadFromFile
      simp [(isNpz_iff path).mpr hp, hd, Npz.get, hw, hc, sw.1, sc.1, tw, tc]
    rw [this]
  have h' : MachineReady { m with state := some ⟨some (NpMat.ofNpy w), some (NpMat.ofNpy c)⟩ } bs := ⟨h.1, h.2, h.3, h.4, h.5, h.6⟩
  have u : UsualArrays (NpMat.ofNpy w) (NpMat.ofNpy c) := ⟨tc, tw, (ofNpy_valid sc).2, (ofNpy_valid sw).2, (ofNpy_valid sc).1, (ofNpy_valid sw).1⟩
  obtain ⟨r1, r2⟩ := usual_readable u
  obtain ⟨bs', q1, q2, -⟩ := C80_restore_partial _ bs h' (NpMat.ofNpy w) (NpMat.ofNpy c) rfl
    (by rw [ofNpy_whole sw, ofNpy_whole sc]; exact ⟨rfl, rfl, rfl, rfl⟩) r1 r2
  refine ⟨_, _, bs', hl, q1, rfl, ?_⟩
  rw [q2]
  unfold arrClauses
  have er : (NpMat.ofNpy c).rows = m.nClauses := by rw [ofNpy_whole sc]
  rw [er]
  apply List.map_congr_left
  intro i hi
  have hi := List.mem_range.1 hi
  have g : ∀ (a : Npy) (k : Nat) (l : List Int), a.data = l → a.data[k]?.getD 0 = l.getD k 0 := by rintro a k l rfl; rfl
  refine Prod.ext ?_ (Prod.ext ?_ ?_)
  · apply List.map_congr_left
    intro j hj
    have hj : j < m.nLits := List.mem_range.1 hj
    rw [valueAt, ofNpy_elem sc i j hi (by omega)]
    exact g c _ _ rfl
  · apply List.map_congr_left
    intro j hj
    have hj : j < m.nLits := List.mem_range.1 hj
    dsimp only
    rw [valueAt, ofNpy_elem sc i (m.nLits + j) hi (by omega), ← Nat.add_assoc]
    exact g c _ _ rfl
  · apply List.map_congr_left
    intro k hk
    have hk : k < m.nClasses := List.mem_range.1 hk
    rw [valueAt, ofNpy_elem sw i k hi hk]
    exact g w _ _ rfl

/-- C80: `save_state` on a machine with a state, `load_state` and training on another machine of the same dimensions, with any division into
blocks and any padding: through the file all clauses of the state reach the other machine's blocks. Other files are as they were. -/
theorem C80_saved_state (m m2 : Mach) (bs2 : List Blk) (h2 : MachineReady m2 bs2) (w c : NpMat) (hst : m.state = some ⟨some w, some c⟩)
    (hu : UsualArrays w c) (hs : SameSize m w c) (e1 : m2.nLits = m.nLits) (e2 : m2.nClauses = m.nClauses) (e3 : m2.nClasses = m.nClasses)
    (fs : FS) (path : String) (hp : NpzName path) :
    ∃ fs' m2' m2'' bs2', m.saveFile fs path = some (m, fs', .ok ()) ∧ (∀ p, p ≠ path → fs' p = fs p) ∧
      m2.loadFile fs' path = (m2', .ok ()) ∧ m2'.restore = some (m2'', .ok ()) ∧ m2''.cbs = some bs2' ∧
      held bs2' = arrClauses m.nLits m.nClasses w c := by
  obtain ⟨aw, w1, w2, w3, w4⟩ := npy_round hu.2.2.2.2.2
  obtain ⟨ac, c1, c2, c3, c4⟩ := npy_round hu.2.2.2.2.1
  obtain ⟨s1, s2, s3, s4⟩ := hs
  have hs : m.saveFile fs path = some (m, fun p => if p = path then some [("w", aw), ("c", ac)] else fs p, .ok ()) := by
    unfold Mach.saveFile Mach.writeState
    simp only [hst]
    rw [FlatMem.bind_of w1, FlatMem.bind_of c1]
    unfold DenseArr.saveToFile
    simp [(isNpz_iff path).mpr hp]
  rw [s3, s4] at w2
  rw [s1, s2] at c2
  obtain ⟨m2', m2'', bs2', l1, l2, l3, l4⟩ := C80_load_file m2 bs2 h2 (fun p => if p = path then some [("w", aw), ("c", ac)] else fs p) path hp
    [("w", aw), ("c", ac)] aw ac (by simp) rfl rfl (w3.trans hu.2.1) (c3.trans hu.1) (by rw [e2, e3]; exact w2) (by rw [e1, e2]; exact c2)
  refine ⟨_, m2', m2'', bs2', hs, ?_, l1, l2, l3, ?_⟩
  · intro p hp'; simp [hp']
  · rw [l4, e1, e2, e3]
    unfold arrClauses
    rw [s1]
    have val : ∀ (a : Npy) (x : NpMat) (rows cols : Nat), WholeArray a rows cols → x.rows = rows → x.cols = cols →
        (∀ i j, i < x.rows → j < x.cols → valueAt (NpMat.ofNpy a) i j = valueAt x i j) →
        ∀ i j, i < rows → j < cols → a.data.getD (i * cols + j) 0 = valueAt x i j := by
      intro a x rows cols ha hr hc hv i j hi hj
      rw [← hv i j (by omega) (by omega), valueAt, ofNpy_elem ha i j hi hj]
      rfl
    apply List.map_congr_left
    intro i hi
    have hi := List.mem_range.1 hi
    refine Prod.ext ?_ (Prod.ext ?_ ?_)
    · apply List.map_congr_left
      intro j hj
      have hj : j < m.nLits := List.mem_range.1 hj
      exact val ac c _ _ c2 s1 s2 c4 i j hi (by omega)
    · apply List.map_congr_left
      intro j hj
      have hj : j < m.nLits := List.mem_range.1 hj
      rw [Nat.add_assoc]
      exact val ac c _ _ c2 s1 s2 c4 i (m.nLits + j) hi (by omega)
    · apply List.map_congr_left
      intro k hk
      have hk : k < m.nClasses := List.mem_range.1 hk
      exact val aw w _ _ w2 s3 s4 w4 i k hi hk

/-- C80: the same for a machine that has blocks but no state: it is collected, kept in the machine and written. -/
theorem C80_through_a_file (m m2 : Mach) (bs bs2 : List Blk) (h : MachineReady m bs) (h2 : MachineReady m2 bs2) (hst : m.state = none)
    (e1 : m2.nLits = m.nLits) (e2 : m2.nClauses = m.nClauses) (e3 : m2.nClasses = m.nClasses)
    (fs : FS) (path : String) (hp : NpzName path) :
    ∃ m' w c fs' m2' m2'' bs2', m.saveFile fs path = some (m', fs', .ok ()) ∧ m' = { m with state := some ⟨some w, some c⟩ } ∧
      arrClauses m.nLits m.nClasses w c = held bs ∧ (∀ p, p ≠ path → fs' p = fs p) ∧
      m2.loadFile fs' path = (m2', .ok ()) ∧ m2'.restore = some (m2'', .ok ()) ∧ m2''.cbs = some bs2' ∧ held bs2' = held bs := by
  obtain ⟨w, c, k1, k2, k3, k4⟩ := C80_collect_first m bs h hst
  obtain ⟨fs', m2', m2'', bs2', q1, q2, q3, q4, q5, q6⟩ := C80_saved_state { m with state := some ⟨some w, some c⟩ } m2 bs2 h2 w c rfl k2 k3 e1 e2 e3
    fs path hp
  refine ⟨_, w, c, fs', m2', m2'', bs2', ?_, rfl, k4, q2, q3, q4, q5, q6.trans k4⟩
  unfold Mach.saveFile
  simp only [hst, h.cbs]
  rw [FlatMem.bind_of k1]
  rw [← h.cbs]
  exact q1

/-- C80: `save_state` without a state and without blocks, and `save_state` under a name that does not end in `.npz`, raise `ValueError` and
leave all files as they are. -/
theorem C80_save_refused (m : Mach) (fs : FS) (path : String) :
    (m.state = none → m.cbs = none → m.saveFile fs path = some (m, fs, .error .valueError)) ∧
    (¬ NpzName path → ∀ w c, m.state = some ⟨some w, some c⟩ → ValidArray w → ValidArray c →
      m.saveFile fs path = some (m, fs, .error .valueError)) ∧
    (¬ NpzName path → ∀ bs, MachineReady m bs → m.state = none →
      ∃ st, m.saveFile fs path = some ({ m with state := some st }, fs, .error .valueError)) := by
  have refuse : ¬ NpzName path → ∀ (m : Mach) w c, m.state = some ⟨some w, some c⟩ → ValidArray w → ValidArray c →
      m.writeState fs path = some (m, fs, .error .valueError) := by
    intro hp m w c hst vw vc
    have hp' : isNpz path = false := by rw [← Bool.not_eq_true]; exact fun h => hp ((isNpz_iff path).mp h)
    unfold Mach.writeState
    simp only [hst]
    rw [FlatMem.bind_of (toNpy_some vw), FlatMem.bind_of (toNpy_some vc)]
    unfold DenseArr.saveToFile
    simp [hp']
  refine ⟨fun h1 h2 => ?_, fun hp w c hst vw vc => ?_, fun hp bs h hst => ?_⟩
  · unfold Mach.saveFile; simp only [h1, h2]
  · unfold Mach.saveFile; simp only [hst]; exact refuse hp m w c hst vw vc
  · obtain ⟨w, c, k1, k2, k3, k4⟩ := C80_collect_first m bs h hst
    refine ⟨⟨some w, some c⟩, ?_⟩
    unfold Mach.saveFile
    simp only [hst, h.cbs]
    rw [FlatMem.bind_of k1, ← h.cbs]
    exact refuse hp { m with state := some ⟨some w, some c⟩ } w c rfl k2.2.2.2.2.2 k2.2.2.2.2.1

/-- C80: putting a state whose arrays have the expected element types into the blocks stays inside the arrays exactly when the memory
from their start suffices for the machine; their shape and their strides play no part. -/
theorem C80_restore_defined_iff (m : Mach) (bs : List Blk) (h : MachineReady m bs) (w c : NpMat)
    (hst : m.state = some ⟨some w, some c⟩) (dc : c.dtype = .int8) (dw : w.dtype = .int16)
    (hn : 0 < m.nLits) (hm : 0 < m.nClasses) (hb : ∀ b ∈ bs, 0 < b.nClauses) (hne : bs ≠ []) :
    (∃ r, m.restore = some r) ↔
      c.off + m.nClauses * (2 * m.nLits) ≤ c.buf.length ∧ w.off + m.nClauses * m.nClasses ≤ w.buf.length := by
  obtain ⟨h1, h2, h3, h4, h5, h6⟩ := h
  have ht : total bs = m.nClauses := h3
  constructor
  · rintro ⟨r, hr⟩
    unfold Mach.restore at hr
    simp only [h1, hst, Option.bind_eq_bind, Option.bind_eq_some_iff] at hr
    obtain ⟨x, hx, -⟩ := hr
    have := saveLoop_in m.nLits m.nClasses hn hm w c bs (fun b hb' => ⟨(h2 b hb').lits, (h2 b hb').classes, hb b hb'⟩) [] 0 x hx hne
    rw [pass_same dc, pass_same dw, Nat.zero_add, ht] at this
    exact this
  · rintro ⟨k1, k2⟩
    obtain ⟨bs', e, -⟩ := saveLoop_ok m.nLits m.nClasses w c bs h2 ⟨0, 0, 0, ptr (c.pass .int8), ptr (w.pass .int16)⟩ rfl rfl [] 0
      (by rw [Nat.zero_add, ht]; exact h4) (by rw [Nat.zero_add, ht]; exact h5) (by rw [Nat.zero_add, ht]; exact h6)
      (by rw [pass_same dc, Nat.zero_add, ht]; exact k1) (by rw [pass_same dw, Nat.zero_add, ht]; exact k2)
    refine ⟨({ m with cbs := some bs' }, .ok ()), ?_⟩
    unfold Mach.restore
    simp only [h1, hst]
    rw [FlatMem.bind_of e]
    rfl

/-- C80: a state without arrays is refused and leaves the machine as it was; so does a machine without blocks or without a state. -/
theorem C80_refused (m : Mach) :
    (m.cbs = none → m.restore = some (m, .error .valueError) ∧ m.collect = some (m, .error .typeError)) ∧
    (∀ bs, m.cbs = some bs → m.state = none → m.restore = some (m, .error .valueError)) ∧
    (∀ bs w, m.cbs = some bs → bs ≠ [] → m.state = some ⟨w, none⟩ →
      m.restore = some (m, .error .typeError) ∧ m.collect = some (m, .error .typeError)) := by
  refine ⟨fun h => ⟨by simp [Mach.restore, h], by simp [Mach.collect, h]⟩, fun bs h h' => by simp [Mach.restore, h, h'], ?_⟩
  intro bs w h hne h'
  cases bs with
  | nil => exact absurd rfl hne
  | cons b bs =>
    cases m
    simp only at h h'
    subst h h'
    exact ⟨rfl, rfl⟩

/-- C80 fails: arrays of other element types are copied on the way in, so collecting leaves the state that the machine holds as it was,
without an error. -/
theorem C80_other_type_not_collected (m : Mach) (w c : NpMat) (hst : m.state = some ⟨some w, some c⟩)
    (dc : c.dtype ≠ .int8) (dw : w.dtype ≠ .int16) (bs : List Blk) (hbs : m.cbs = some bs) (r : Mach × Except PyErr Unit)
    (h : m.collect = some r) : r = (m, .ok ()) := by
  unfold Mach.collect at h
  simp only [hbs, hst, Option.bind_eq_bind, Option.bind_eq_some_iff] at h
  obtain ⟨x, hx, hr⟩ := h
  have := loadLoop_lost w c dc dw bs 0 x hx
  subst this
  have hr := (Option.some.inj hr).symm
  cases m
  simp only at hst hbs
  subst hst hbs
  exact hr

/-! ## Concrete machines -/

namespace Arr.Example

/-- A block of 2 clauses, 2 literals and 2 classes with padded rows. -/
def padded : Blk := ⟨2, 2, 2, 3, 4,
  [1, 2, 99, -1, -2, 98, 3, 4, 97, -3, -4, 96], [10, 11, 90, 91, 20, 21, 92, 93]⟩

/-- A block of 1 clause without padding. -/
def plain : Blk := ⟨2, 1, 2, 2, 2, [5, 6, -5, -6], [30, 31]⟩

def machine : Mach := ⟨2, 3, 2, none, some [padded, plain]⟩

theorem machine_ready : MachineReady machine [padded, plain] := by
  refine ⟨rfl, ?_, by decide, by decide, by decide, by decide⟩
  intro b hb
  rcases List.mem_cons.mp hb with rfl | hb
  · constructor <;> decide
  · rcases List.mem_cons.mp hb with rfl | hb
    · constructor <;> decide
    · cases hb

/-- The state of the machine, in C order. -/
def c0 : NpMat := ⟨.int8, 3, 4, [1, 2, -1, -2, 3, 4, -3, -4, 5, 6, -5, -6], 0, 4, 1⟩
def w0 : NpMat := ⟨.int16, 3, 2, [10, 11, 20, 21, 30, 31], 0, 2, 1⟩

/-- The same elements in Fortran order. -/
def cF : NpMat := ⟨.int8, 3, 4, [1, 3, 5, 2, 4, 6, -1, -3, -5, -2, -4, -6], 0, 1, 3⟩

/-- The same elements as `int64`. -/
def c64 : NpMat := { c0 with dtype := .int64 }
def w64 : NpMat := { w0 with dtype := .int64 }

end Arr.Example
open Arr.Example

theorem valid_of_check (a : NpMat) (h : (decide (a.off ≤ a.buf.length) && (List.range a.rows).all fun i => (List.range a.cols).all fun j => (a.elem i j).isSome) = true) :
    ValidArray a := by
  simp only [Bool.and_eq_true, decide_eq_true_eq, List.all_eq_true, List.mem_range] at h
  exact ⟨h.1, fun i j hi hj => Option.isSome_iff_exists.mp (h.2 i hi j hj)⟩

example : UsualArrays w0 c0 ∧ SameSize machine w0 c0 :=
  ⟨⟨rfl, rfl, ⟨rfl, rfl⟩, ⟨rfl, rfl⟩, valid_of_check _ (by decide), valid_of_check _ (by decide)⟩, rfl, rfl, rfl, rfl⟩

example : machine.collectCopy = some (.ok ⟨some w0, some c0⟩) := by decide +kernel

/-- The file the machine writes; another machine with one block and other padding reads it. -/
example : (machine.saveFile (fun _ => none) "a.npz").map (fun r => (r.2.1 "a.npz", r.2.1 "b.npz")) =
    some (some [("w", ⟨.int16, [3, 2], [10, 11, 20, 21, 30, 31]⟩), ("c", ⟨.int8, [3, 4], [1, 2, -1, -2, 3, 4, -3, -4, 5, 6, -5, -6]⟩)], none) ∧
    NpzName "a.npz" ∧
    MachineReady ⟨2, 3, 2, none, some [⟨2, 3, 2, 4, 2, List.replicate 24 7, List.replicate 6 7⟩]⟩ [⟨2, 3, 2, 4, 2, List.replicate 24 7, List.replicate 6 7⟩] := by
  refine ⟨by decide +kernel, by rw [← isNpz_iff]; decide +kernel, rfl, ?_, by decide, by decide, by decide, by decide⟩
  intro b hb
  rcases List.mem_cons.mp hb with rfl | hb
  · constructor <;> decide
  · cases hb

/-- A blank machine receives the state, also from `int64` arrays. -/
example : (({ machine with cbs := some [{ padded with clauses := List.replicate 12 7, weights := List.replicate 8 7 }, plain] } : Mach).loadState
    ⟨some w64, some c64⟩).restore =
      some ({ machine with state := some ⟨some w64, some c64⟩, cbs := some [{ padded with
        clauses := [1, 2, 7, -1, -2, 7, 3, 4, 7, -3, -4, 7], weights := [10, 11, 7, 7, 20, 21, 7, 7] }, plain] }, .ok ()) := by
  decide +kernel

example : Readable .int8 128 c64 ∧ Readable .int16 32768 w64 := by
  refine ⟨⟨valid_of_check _ (by decide), Or.inr ⟨by decide, by decide, ?_⟩⟩,
    ⟨valid_of_check _ (by decide), Or.inr ⟨by decide, by decide, ?_⟩⟩⟩
  · intro i j hi hj
    have hi : i < 3 := hi
    have hj : j < 4 := hj
    have : ∀ i < 3, ∀ j < 4, -128 ≤ valueAt c64 i j ∧ valueAt c64 i j < 128 := by decide
    exact this i hi j hj
  · intro i j hi hj
    have hi : i < 3 := hi
    have hj : j < 2 := hj
    have : ∀ i < 3, ∀ j < 2, -32768 ≤ valueAt w64 i j ∧ valueAt w64 i j < 32768 := by decide
    exact this i hi j hj

/-- **C80**: whatever its strides, the array made for a parameter of another element type has the same shape and the converted elements;
it lies row after row, or column after column if the given one has its larger stride in the columns. -/
theorem C80_conversion (d : DType) (a : NpMat) :
    (a.asType d).dtype = d ∧ (a.asType d).rows = a.rows ∧ (a.asType d).cols = a.cols ∧
      (∀ i j, i < a.rows → j < a.cols → valueAt (a.asType d) i j = castTo d (valueAt a i j)) ∧
      (a.cs.natAbs ≤ a.rs.natAbs → ∀ i j, i < a.rows → j < a.cols →
        (a.asType d).buf[i * a.cols + j]? = some (castTo d (valueAt a i j))) ∧
      (a.rs.natAbs < a.cs.natAbs → ∀ i j, i < a.rows → j < a.cols →
        (a.asType d).buf[j * a.rows + i]? = some (castTo d (valueAt a i j))) :=
  ⟨Arr.asType_dtype d a, (Arr.asType_values d a).1, (Arr.asType_values d a).2.1, (Arr.asType_values d a).2.2,
    Arr.asType_rowMajor d a, Arr.asType_colMajor d a⟩

example : (NpMat.mk .int64 2 3 [1, 2, 3, 4, 5, 300] 0 1 2).asType .int8 = ⟨.int8, 2, 3, [1, 2, 3, 4, 5, 44], 0, 1, 2⟩ := by decide

/-- C80 fails: an array in Fortran order has the same elements and the same shape, but the blocks receive other clauses. -/
theorem C80_fortran_order_garbled :
    ∃ c w m', SameSize machine w c ∧ ValidArray c ∧ c.dtype = .int8 ∧ arrClauses 2 2 w c = held [padded, plain] ∧
      (machine.loadState ⟨some w, some c⟩).restore = some (m', .ok ()) ∧ m'.cbs.map held ≠ some (held [padded, plain]) := by
  refine ⟨cF, w0, ((machine.loadState ⟨some w0, some cF⟩).restore.getD (machine, .ok ())).1, ⟨rfl, rfl, rfl, rfl⟩,
    valid_of_check _ (by decide), rfl, by decide +kernel, by decide +kernel, by decide +kernel⟩

/-- C80 fails: the state of a machine with more literals is accepted and the rows are cut at the wrong places. -/
theorem C80_other_machine_garbled :
    ∃ c w m', UsualArrays w c ∧ c.rows = 3 ∧ c.cols = 6 ∧ w.rows = 3 ∧ w.cols = 2 ∧
      (machine.loadState ⟨some w, some c⟩).restore = some (m', .ok ()) ∧
      m'.cbs.map held = some [([1, 1], [1, -1], [10, 11]), ([-1, -1], [2, 2], [20, 21]), ([2, -2], [-2, -2], [30, 31])] := by
  refine ⟨⟨.int8, 3, 6, [1, 1, 1, -1, -1, -1, 2, 2, 2, -2, -2, -2, 3, 3, 3, -3, -3, -3], 0, 6, 1⟩, w0,
    ((machine.loadState ⟨some w0, some ⟨.int8, 3, 6, [1, 1, 1, -1, -1, -1, 2, 2, 2, -2, -2, -2, 3, 3, 3, -3, -3, -3], 0, 6, 1⟩⟩).restore.getD
      (machine, .ok ())).1,
    ⟨rfl, rfl, ⟨rfl, rfl⟩, ⟨rfl, rfl⟩, valid_of_check _ (by decide), valid_of_check _ (by decide)⟩, rfl, rfl, rfl, rfl, by decide +kernel, by decide +kernel⟩

/-- C80 fails: a state file of a machine with fewer clauses passes the checks of `load_state`, and putting it into the blocks reads
outside the arrays. -/
theorem C80_smaller_file_reads_outside :
    ∃ fs m', machine.loadFile fs "small.npz" = (m', .ok ()) ∧ m'.restore = none := by
  refine ⟨fun _ => some [("w", ⟨.int16, [2, 2], [1, 2, 3, 4]⟩), ("c", ⟨.int8, [2, 4], [1, 2, 3, 4, 5, 6, 7, 8]⟩)], _, rfl, ?_⟩
  decide +kernel

/-- The stale state of `C80_other_type_not_collected` occurs: the machine's clauses are not those of the state it reports. -/
example : (machine.loadState ⟨some ⟨.int64, 3, 2, List.replicate 6 0, 0, 2, 1⟩, some ⟨.int64, 3, 4, List.replicate 12 0, 0, 4, 1⟩⟩).collect =
    some (machine.loadState ⟨some ⟨.int64, 3, 2, List.replicate 6 0, 0, 2, 1⟩, some ⟨.int64, 3, 4, List.replicate 12 0, 0, 4, 1⟩⟩, .ok ()) := by
  decide +kernel

end GT
