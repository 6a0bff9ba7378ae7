import Verif.Model.Basic

/-!
# Allocation and release of the clause blocks' arrays

The heap is the set of live allocations. A clause block object holds one pointer per array. The sizes of the arrays
and their contents are not part of this model (see `Verif/Model/Dense.lean`, `Avx2.lean`, `Neon.lean`, `Conv.lean` for
the contents); a failing allocation (`std::bad_alloc`) is not modelled.
-/

namespace GT

/-- The arrays of a clause block (src/aligned_tsetlin_state.hpp:31-46, src/sparse_tsetlin_state.hpp:36, 45-52). -/
inductive Fld
  | clauses | outputs | weights | votes | counts | mask | patches | patchCounts
deriving DecidableEq, Repr

/-- The backends (src/main.cpp:76-232). -/
inductive Fam
  | tm | avx2 | neon | conv | convAvx2 | sparse
deriving DecidableEq, Repr

/-- A backend class: backend and `do_literal_budget` (src/main.cpp:76-232). -/
structure CbKind where
  fam : Fam
  budget : Bool
deriving DecidableEq, Repr

/-- The arrays `initialize` always allocates, in order: src/func_tm.hpp:22-38, src/func_avx2.hpp:31-85, src/func_neon.hpp:73-113,
src/func_conv_tm.hpp:21-27, src/func_conv_avx2.hpp:17-23, src/func_sparse.hpp:64-76 (the vectors of the sparse backend
are the array `clauses` here). -/
def CbKind.allocates (k : CbKind) : List Fld :=
  let counts := if k.budget then [.counts] else []
  match k.fam with
  | .tm => [.clauses, .outputs, .weights, .votes] ++ counts
  | .avx2 => [.mask, .clauses] ++ counts ++ [.outputs, .weights, .votes]
  | .neon => [.mask, .clauses] ++ counts ++ [.outputs, .weights, .votes]
  | .conv => [.clauses, .outputs, .weights, .votes] ++ counts ++ [.patches]
  | .convAvx2 => [.mask, .clauses] ++ counts ++ [.outputs, .weights, .votes] ++ [.patches]
  | .sparse => [.clauses] ++ counts ++ [.outputs, .votes, .weights]

/-- The arrays `cleanup` releases, in order: src/func_tm.hpp:80-96, src/func_avx2.hpp:149-166, src/func_neon.hpp:165-182,
src/func_conv_tm.hpp:44-62, src/func_conv_avx2.hpp:39-57, src/func_sparse.hpp:102-123. -/
def CbKind.releases (k : CbKind) : List Fld :=
  let counts := if k.budget then [.counts] else []
  match k.fam with
  | .tm => [.clauses, .votes, .weights] ++ counts
  | .avx2 => [.clauses, .votes, .weights, .mask] ++ counts
  | .neon => [.clauses, .votes, .weights, .mask] ++ counts
  | .conv => [.patches, .patchCounts] ++ [.clauses, .votes, .weights] ++ counts
  | .convAvx2 => [.patches, .patchCounts] ++ [.clauses, .votes, .weights, .mask] ++ counts
  | .sparse => [.clauses, .votes, .weights] ++ counts

/-- Backends whose `initialize` also needs the number of patches (src/func_conv_tm.hpp:28-31,
src/func_conv_avx2.hpp:24-27). -/
def CbKind.hasPatches (k : CbKind) : Bool := k.fam == .conv || k.fam == .convAvx2

/-- The process: live allocations, the next address, and the clause block objects with their pointers
(src/aligned_tsetlin_state.hpp:31-46), `m_is_init` (src/clause_block.hpp:87) and `num_patches_per_example`
(src/aligned_tsetlin_state.hpp:43). -/
structure CbHeap where
  live : List Nat
  next : Nat
  count : Nat
  kind : Nat → CbKind
  ptr : Nat → Fld → Option Nat
  isInit : Nat → Bool
  nPatches : Nat → Int

/-- A new process (src/main.cpp:271). -/
def CbHeap.start : CbHeap := ⟨[], 0, 0, fun _ => ⟨.tm, false⟩, fun _ _ => none, fun _ => false, fun _ => -1⟩

/-- `p->f = v` (for example src/func_tm.hpp:23). -/
def CbHeap.setPtr (p : CbHeap) (b : Nat) (f : Fld) (v : Option Nat) : CbHeap :=
  { p with ptr := fun b' f' => if b' = b ∧ f' = f then v else p.ptr b' f' }

/-- `state.f = new ...` or `aligned_alloc` (for example src/func_tm.hpp:23): the old pointer is overwritten. The vectors
of the sparse backend keep their storage (src/func_sparse.hpp:41-62). -/
def CbHeap.alloc (p : CbHeap) (b : Nat) (f : Fld) : CbHeap :=
  if (p.kind b).fam = .sparse ∧ f = .clauses ∧ p.ptr b f ≠ none then p
  else { p with live := p.next :: p.live, next := p.next + 1 }.setPtr b f (some p.next)

/-- `delete[] state.f; state.f = nullptr;` or `safe_aligned_free` (for example src/func_tm.hpp:80-81): releasing what
is not allocated is undefined (`none`), releasing `nullptr` does nothing. -/
def CbHeap.release (p : CbHeap) (b : Nat) (f : Fld) : Option CbHeap :=
  match p.ptr b f with
  | none => some p
  | some a => if a ∈ p.live then some ({ p with live := p.live.erase a }.setPtr b f none) else none

/-- `cleanup` up to the flag (src/clause_block.hpp:162-167). -/
def CbHeap.releaseAll (p : CbHeap) (b : Nat) : List Fld → Option CbHeap
  | [] => some p
  | f :: fs => match p.release b f with
    | none => none
    | some p => p.releaseAll b fs

/-- `initialize(seed)` (src/clause_block.hpp:155-160) with the backend's initialiser; `budgetOk`: the sparse backend
also refuses a literal budget of 0 (src/func_sparse.hpp:29-37). -/
def CbHeap.initialize (p : CbHeap) (b : Nat) (seed : Nat) (budgetOk : Bool) : CbHeap :=
  let k := p.kind b
  if seed = 0 ∨ (k.fam = .sparse ∧ k.budget = true ∧ budgetOk = false) then
    { p with isInit := fun b' => if b' = b then false else p.isInit b' }
  else
    let p := k.allocates.foldl (fun p f => p.alloc b f) p
    if k.hasPatches then
      if p.nPatches b > 0 then
        let p := p.alloc b .patchCounts
        { p with isInit := fun b' => if b' = b then true else p.isInit b' }
      else { p with isInit := fun b' => if b' = b then false else p.isInit b' }
    else { p with isInit := fun b' => if b' = b then true else p.isInit b' }

/-- `cleanup()` (src/clause_block.hpp:162-167). -/
def CbHeap.cleanup (p : CbHeap) (b : Nat) : Option CbHeap :=
  match p.releaseAll b (p.kind b).releases with
  | none => none
  | some p => some { p with isInit := fun b' => if b' = b then false else p.isInit b' }

/-- What can be done with the arrays of a block (src/clause_block.hpp:121-219). -/
inductive Use
  | trainOutput | evalOutput | setVotes | trainUpdate | getState | setState | getWeights | setWeights | getOutput
deriving DecidableEq, Repr

/-- The arrays a use may touch: src/func_tm.hpp:107-330, src/func_avx2.hpp:168-560, src/func_neon.hpp:190-600,
src/func_conv_tm.hpp:66-240, src/func_conv_avx2.hpp:60-305, src/func_sparse.hpp:127-860,
src/aligned_tsetlin_state.hpp:83-140, src/clause_block.hpp:213-219. -/
def CbKind.touches (k : CbKind) (u : Use) : List Fld :=
  let counts := if k.budget then [.counts] else []
  let mask := if k.fam = .avx2 ∨ k.fam = .neon ∨ k.fam = .convAvx2 then [.mask] else []
  match u with
  | .trainOutput => [.clauses, .outputs] ++ counts ++ mask ++ (if k.hasPatches then [.patches, .patchCounts] else [])
  | .evalOutput => [.clauses, .outputs] ++ mask
  | .setVotes => [.outputs, .weights, .votes]
  | .trainUpdate => [.clauses, .outputs, .weights] ++ counts ++ mask ++ (if k.hasPatches then [.patches] else [])
  | .getState => [.clauses]
  | .setState => [.clauses]
  | .getWeights => [.weights]
  | .setWeights => [.weights]
  | .getOutput => [.outputs]

/-- Reading or writing the arrays: all pointers must point to live allocations, otherwise the process is in undefined
behaviour (`none`) (for example src/func_tm.hpp:113-116). -/
def CbHeap.useArrays (p : CbHeap) (b : Nat) (u : Use) : Option CbHeap :=
  if ∀ f ∈ (p.kind b).touches u, ∃ a ∈ p.live, p.ptr b f = some a then some p else none

/-- The vectors of the sparse backend are released with the object, plain arrays are not: the state has no destructor
(src/aligned_tsetlin_state.hpp:16-140, src/sparse_tsetlin_state.hpp:18-123, src/clause_block.hpp:22). -/
def CbHeap.drop (p : CbHeap) (b : Nat) : Option CbHeap :=
  match (if (p.kind b).fam = .sparse then p.release b .clauses else some p) with
  | none => none
  | some p => some { p with ptr := fun b' f => if b' = b then none else p.ptr b' f
                            isInit := fun b' => if b' = b then false else p.isInit b' }

/-- Calls from Python (src/main.cpp:237-267, 358-379). -/
inductive CbCall
  | new (k : CbKind) | setPatches (b : Nat) (n : Int) | initialize (b seed : Nat) (budgetOk : Bool) | cleanup (b : Nat)
  | use (b : Nat) (u : Use) | drop (b : Nat)

/-- One call (src/clause_block.hpp:101-219); there are no calls on objects that do not exist. -/
def CbHeap.call (p : CbHeap) : CbCall → Option CbHeap
  | .new k => some { p with count := p.count + 1, kind := fun b => if b = p.count then k else p.kind b }
  | .setPatches b n => some { p with nPatches := fun b' => if b' = b then n else p.nPatches b' }
  | .initialize b s o => if b < p.count then some (p.initialize b s o) else some p
  | .cleanup b => if b < p.count then p.cleanup b else some p
  | .use b u => if b < p.count then p.useArrays b u else some p
  | .drop b => if b < p.count then p.drop b else some p

/-- A sequence of calls (src/main.cpp:237-267, 358-379). -/
def CbHeap.calls (p : CbHeap) : List CbCall → Option CbHeap
  | [] => some p
  | c :: cs => match p.call c with
    | none => none
    | some p => p.calls cs

end GT
