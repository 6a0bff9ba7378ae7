import Verif.Model.Config
import Verif.Model.Conv

/-!
# Choosing the backend (green_tsetlin/backend.py and the places that read its registry)

The registry `impl` is one dictionary for the whole process; machines read and overwrite its entries.
-/

namespace GT

/-- The classes that can be in the registry as clause blocks (src/main.cpp:422-462): `l` literal budget, `b` boosting,
`d` dynamic active literals; and the two placeholders of the pure-Python fallback. -/
inductive Cls
  | portable (l b : Bool)
  | avx2 (l b : Bool)
  | neon (l b : Bool)
  | sparse (l d b : Bool)
  | conv
  | convAvx2
  | pyClauseBlock
  | pySparseInput
deriving DecidableEq, Repr

/-- A value in the registry: a class, `None`, or a one-element tuple (green_tsetlin/backend.py:5-77). -/
inductive RegVal
  | cls (c : Cls)
  | noneVal
  | tuple (c : Cls)
deriving DecidableEq, Repr

/-- What the import of the backend finds: whether the C++ module is there, and what `has_avx2` and `has_neon` say
(green_tsetlin/backend.py:20-77). -/
structure Platform where
  core : Bool
  avx2 : Bool
  neon : Bool
deriving DecidableEq, Repr

/-- The registry `impl` (green_tsetlin/backend.py:5-17). `dense l b` is `cb_L*_B*`, `sparse l d b` is
`sparse_cb_L*_D*_B*`; `none` when there is no such key. -/
structure Registry where
  cb       : RegVal
  convCb   : RegVal
  sparseCb : RegVal
  dense    : Bool → Bool → Option RegVal
  sparse   : Bool → Bool → Bool → Option RegVal

/-- The import (green_tsetlin/backend.py:5-77). The comma at the end of line 24 makes `conv_cb` a tuple. -/
def loadBackend (p : Platform) : Registry :=
  let r : Registry := ⟨.cls .pyClauseBlock, .noneVal, .cls .pySparseInput, fun _ _ => none, fun _ _ _ => none⟩
  if p.core then
    let r : Registry :=
      ⟨.cls (.portable true true), .tuple .conv, .cls (.sparse true true false),
        fun l b => some (.cls (.portable l b)), fun l d b => some (.cls (.sparse l d b))⟩
    let r := if p.avx2 then { r with cb := .cls (.avx2 true true), convCb := .cls .convAvx2,
                                     dense := fun l b => some (.cls (.avx2 l b)) } else r
    if p.neon then { r with dense := fun l b => some (.cls (.neon l b)) } else r
  else r

/-- The registers `cpuid` returns for a leaf (src/main.cpp:24-34). -/
structure CpuRegs where
  eax : Nat
  ebx : Nat
  ecx : Nat
  edx : Nat
deriving DecidableEq, Repr

/-- `has_avx2` (src/main.cpp:24-34): `__get_cpuid(0, ...)` and the test of `bit_AVX2` (bit 5 in cpuid.h) in `edx`;
`compiled` is `USE_AVX2`. `__get_cpuid` is taken to succeed for leaf 0. -/
def hasAvx2 (compiled : Bool) (cpuid : Nat → CpuRegs) : Bool := compiled && (cpuid 0).edx.testBit 5

/-- The kinds of machine (green_tsetlin/tsetlin_machine.py:65, 378, green_tsetlin/sparse_tsetlin_machine.py:96). -/
inductive MKind
  | dense
  | sparse
  | conv
deriving DecidableEq, Repr

/-- What of a machine matters here: the options and `_backend_clause_block_cls`
(green_tsetlin/tsetlin_machine.py:81-127). -/
structure Mach where
  kind    : MKind
  budget  : Bool
  dynAL   : Bool
  boost   : Bool
  current : RegVal
deriving DecidableEq, Repr

/-- Type of data given to a trainer (green_tsetlin/trainer.py:242-255). -/
inductive DataKind
  | missing
  | ndarray
  | csr
deriving DecidableEq, Repr

/-- The input blocks (src/main.cpp:343-357). -/
inductive Ib
  | dense
  | sparse
  | sparseDense
deriving DecidableEq, Repr

/-- Creating a machine (green_tsetlin/tsetlin_machine.py:127, green_tsetlin/sparse_tsetlin_machine.py:108). -/
def Mach.new (r : Registry) (kind : MKind) (budget dynAL boost : Bool) : Mach :=
  ⟨kind, budget, dynAL, boost, match kind with
    | .sparse => r.sparseCb
    | _ => r.cb⟩

/-- `_get_backend` (green_tsetlin/tsetlin_machine.py:350-369, 388-393, green_tsetlin/sparse_tsetlin_machine.py:216-241):
the value and the registry afterwards; a missing key is a KeyError. -/
def Mach.getBackend (m : Mach) (r : Registry) : Except PyErr (RegVal × Registry) :=
  match m.kind with
  | .dense =>
    match r.dense m.budget m.boost with
    | some v => .ok (v, { r with cb := v })
    | none => .error .keyError
  | .sparse =>
    match r.sparse m.budget m.dynAL m.boost with
    | some v => .ok (v, { r with sparseCb := v })
    | none => .error .keyError
  | .conv => .ok (r.convCb, r)

/-- `construct_clause_blocks` (green_tsetlin/tsetlin_machine.py:305-311), as far as classes go: machine, registry and
the class of the blocks. Calling `None` or a tuple is a TypeError. -/
def Mach.construct (m : Mach) (r : Registry) : Mach × Registry × Except PyErr Cls :=
  match m.getBackend r with
  | .error e => (m, r, .error e)
  | .ok (v, r') =>
    ({ m with current := v }, r', match v with
      | .cls c => .ok c
      | _ => .error .typeError)

/-- The check of `set_train_data` and `set_eval_data` on arrays (green_tsetlin/trainer.py:140-141,192-193): is the
array refused because the machine is a sparse one? -/
def refusesArray (m : Mach) (r : Registry) : Bool := decide (m.current = r.sparseCb)

/-- `_select_backend_ib` (green_tsetlin/trainer.py:242-255). -/
def selectIb (m : Mach) (r : Registry) (xTrain xEval : DataKind) : Except PyErr Ib :=
  match xTrain, xEval with
  | .csr, .csr => if m.current = r.sparseCb then .ok .sparse else .ok .sparseDense
  | .ndarray, .ndarray => .ok .dense
  | _, _ => .error .valueError

/-- Does `cb.set_input_block(input_block)` accept the block (src/clause_block.hpp:172,416, src/main.cpp:343-357)?
The sparse-to-dense block is a subclass of the dense one. -/
def acceptsIb : Cls → Ib → Bool
  | .sparse _ _ _, .sparse => true
  | .sparse _ _ _, _ => false
  | _, .sparse => false
  | _, _ => true

/-- `_train_inner` up to the connection of the blocks (green_tsetlin/trainer.py:258-281): machine and registry
afterwards, and the class and input block used. -/
def Mach.train (m : Mach) (r : Registry) (xTrain xEval : DataKind) : Mach × Registry × Except PyErr (Cls × Ib) :=
  if xTrain = .missing then (m, r, .error .valueError)
  else
    match selectIb m r xTrain xEval with
    | .error e => (m, r, .error e)
    | .ok ib =>
      let t := m.construct r
      (t.1, t.2.1, match t.2.2 with
        | .error e => .error e
        | .ok c => if acceptsIb c ib then .ok (c, ib) else .error .typeError)

/-- The process: the registry and the machines (green_tsetlin/backend.py:5-17). -/
structure Process where
  reg   : Registry
  machs : List Mach

/-- What a program does with machines (green_tsetlin/tsetlin_machine.py:81-320, green_tsetlin/trainer.py:242-290). -/
inductive ProcessOp
  | create (kind : MKind) (budget dynAL boost : Bool)
  | setBudget (i : Nat)
  | construct (i : Nat)
  | train (i : Nat) (xTrain xEval : DataKind)
deriving Repr

/-- One step; operations on machines that do not exist do nothing. `set_literal_budget` makes the budget present
(green_tsetlin/tsetlin_machine.py:151-169). -/
def Process.step (p : Process) : ProcessOp → Process
  | .create k l d b => { p with machs := p.machs ++ [Mach.new p.reg k l d b] }
  | .setBudget i =>
    match p.machs[i]? with
    | some m => { p with machs := p.machs.set i { m with budget := true } }
    | none => p
  | .construct i =>
    match p.machs[i]? with
    | some m => let t := m.construct p.reg; ⟨t.2.1, p.machs.set i t.1⟩
    | none => p
  | .train i a b =>
    match p.machs[i]? with
    | some m => let t := m.train p.reg a b; ⟨t.2.1, p.machs.set i t.1⟩
    | none => p

/-- A program from the import on (green_tsetlin/backend.py:5-77 is the start). -/
def runProcess (pl : Platform) (ops : List ProcessOp) : Process := ops.foldl Process.step ⟨loadBackend pl, []⟩

/-- `ConvolutionalTsetlinMachine.__init__` (green_tsetlin/tsetlin_machine.py:378-386): `multi_label` is passed on in
the place of `boost_true_positives`. -/
def convNew (nLiterals nClauses nClasses : Int) (s : SArg) (threshold : Int) (budget : Option Int)
    (multiLabel : Bool) : Except PyErr TM :=
  TM.new nLiterals nClauses nClasses s threshold budget multiLabel false

/-- `num_patches_per_example` of a block constructed by a machine: `construct_clause_blocks`
(green_tsetlin/tsetlin_machine.py:305-319) does not call `set_number_of_patches_per_example` (nothing in Python does), so
it is still the initial value (src/aligned_tsetlin_state.hpp:43). -/
def constructedPatches : Int := -1

/-- `cb.initialize(seed)` on such a block, its result ignored (green_tsetlin/tsetlin_machine.py:421,
src/func_conv_tm.hpp:18-33): refused, after the arrays of a dense block were made. A negative bound makes the patch loops
empty. -/
def initConvFromMachine (nLits nClauses nClasses : Nat) (cfg : Cfg) (fastOf rngOf : Nat → Rng)
    (junk junkPatch junkCounts : Nat → Nat) (seed : Nat) : Option ConvBlock :=
  match initTM nLits nClauses nClasses cfg fastOf rngOf junk seed with
  | none => none
  | some d =>
    some { nLits := nLits, nClasses := nClasses, nPatches := constructedPatches.toNat, cfg := cfg,
           clauses := d.clauses.mapIdx fun i c => ⟨c, junkPatch i⟩, counts := junkCounts,
           votes := d.votes, fast := d.fast, rng := d.rng }

end GT
