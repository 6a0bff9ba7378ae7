import Verif.Spec.ClauseOrder
import Verif.Spec.Fresh
import Verif.Spec.Neon
import Verif.Model.Trainer

/-! # What it means that training goes on from a saved state (C105) -/

namespace GT.Spec

/-- What a program does with a machine: an epoch of training on labelled examples, in the order the executor's generator gives them, or
predictions for some examples. -/
inductive TMUse (E : Type)
  | epoch (shuffle : List Nat → List Nat) (data : List (E × Nat))
  | predict (data : List E)

/-- All its examples have the property. -/
def TMUse.All {E : Type} (P : E → Prop) : TMUse E → Prop
  | .epoch _ data => ∀ d ∈ data, P d.1
  | .predict data => ∀ x ∈ data, P x

/-- What it gets: the training accuracy of the epoch, or the predicted classes. -/
inductive Got
  | accuracy (a : Rat)
  | classes (ks : Option (List Nat))

/-- One use of the machine. -/
def useOnce {B E : Type} (be : Backend B E) (smp : List Rat → Rat → Nat) (e : Exec B) : TMUse E → Exec B × Got
  | .epoch shuffle data => ((e.trainEpoch be smp shuffle data).1, .accuracy (e.trainEpoch be smp shuffle data).2)
  | .predict data => ((e.evalPredict be data data.length).1, .classes (e.evalPredict be data data.length).2)

/-- Everything a program gets from a machine, use after use. -/
def gets {B E : Type} (be : Backend B E) (smp : List Rat → Rat → Nat) : List (TMUse E) → Exec B → List Got
  | [], _ => []
  | u :: us, e => (useOnce be smp e u).2 :: gets be smp us (useOnce be smp e u).1

/-- The machine after all these uses. -/
def afterUses {B E : Type} (be : Backend B E) (smp : List Rat → Rat → Nat) (us : List (TMUse E)) (e : Exec B) : Exec B :=
  us.foldl (fun e u => (useOnce be smp e u).1) e

/-- The feedback blocks have the same settings and generators at the same place. Votes, chosen classes, probabilities and counters are free. -/
structure SameFeedback (f g : FB) : Prop where
  nClasses  : g.nClasses = f.nClasses
  threshold : g.threshold = f.threshold
  length    : g.votes.length = f.votes.length
  rng       : g.rng = f.rng

/-- Portable blocks with the same settings, the same learned states and weights and generators at the same place. The outputs of the clauses,
the literal counters and the votes are free. -/
structure SameState (b d : DBlock) : Prop where
  nClasses : d.nClasses = b.nClasses
  cfg      : d.cfg = b.cfg
  learned  : d.clauses.map learned = b.clauses.map learned
  fast     : d.fast = b.fast
  rng      : d.rng = b.rng

/-- The same for AVX2 blocks: only the bytes of literals count, not the padding. -/
structure SameAvxState (b d : VBlock) : Prop where
  lits     : 0 < b.cfg.nLits
  nClasses : d.nClasses = b.nClasses
  cfg      : d.cfg = b.cfg
  learned  : (d.clauses.map fun c => learned (unpad b.cfg.nLits c)) = b.clauses.map fun c => learned (unpad b.cfg.nLits c)
  fast     : d.fast = b.fast
  vrng     : d.vrng = b.vrng

/-- The same for NEON blocks. -/
structure SameNeonState (b d : NBlock) : Prop where
  lits     : 0 < b.cfg.nLits
  nClasses : d.nClasses = b.nClasses
  cfg      : d.cfg = b.cfg
  learned  : (d.clauses.map fun c => learned (neonUnpad b.cfg.nLits c)) = b.clauses.map fun c => learned (neonUnpad b.cfg.nLits c)
  fast     : d.fast = b.fast
  vrng     : d.vrng = b.vrng

/-- The same for sparse blocks: also the active literals, with the index of the one that is replaced next. -/
structure SameSparseState (b d : SBlock) : Prop where
  nClasses : d.nClasses = b.nClasses
  cfg      : d.cfg = b.cfg
  learned  : (d.clauses.map fun c => (c.pos, c.neg, c.w)) = b.clauses.map fun c => (c.pos, c.neg, c.w)
  al       : d.al = b.al
  fast     : d.fast = b.fast

/-- The same for convolutional blocks; the scratch memory is free. -/
structure SameConvState (b d : ConvBlock) : Prop where
  nLits    : d.nLits = b.nLits
  nClasses : d.nClasses = b.nClasses
  nPatches : d.nPatches = b.nPatches
  cfg      : d.cfg = b.cfg
  learned  : (d.clauses.map fun c => learned c.base) = b.clauses.map fun c => learned c.base
  fast     : d.fast = b.fast
  rng      : d.rng = b.rng

/-- The same for AVX2 convolutional blocks: padding and scratch memory are free. -/
structure SameAvxConvState (b d : VConvBlock) : Prop where
  lits     : 0 < b.cfg.nLits
  nClasses : d.nClasses = b.nClasses
  nPatches : d.nPatches = b.nPatches
  cfg      : d.cfg = b.cfg
  learned  : (d.clauses.map fun c => learned (unpad b.cfg.nLits c.base)) = b.clauses.map fun c => learned (unpad b.cfg.nLits c.base)
  fast     : d.fast = b.fast
  rng      : d.rng = b.rng
  vrng     : d.vrng = b.vrng

/-- The machine with the generators of another one with as many blocks: those of its blocks and of its feedback block. -/
def withGenerators (e f : Exec DBlock) : Exec DBlock :=
  { e with fb := { e.fb with rng := f.fb.rng }
           blocks := List.zipWith (fun b d => { b with fast := d.fast, rng := d.rng }) e.blocks f.blocks }

/-- The second machine is set up like the first: the same settings in the feedback block, and blocks with the same settings and numbers of
clauses. -/
structure SetUpLike (e f : Exec DBlock) : Prop where
  nClasses  : f.fb.nClasses = e.fb.nClasses
  threshold : f.fb.threshold = e.fb.threshold
  length    : f.fb.votes.length = e.fb.votes.length
  blocks    : (f.blocks.map fun b => (b.nClasses, b.cfg, b.clauses.length)) = e.blocks.map fun b => (b.nClasses, b.cfg, b.clauses.length)

end GT.Spec
