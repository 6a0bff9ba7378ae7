import Verif.Model.Trainable
import Verif.Spec.Executor

/-! # What the properties of trainable flags mean -/

namespace GT.Spec

/-- The executor without any flags. -/
def plain {B : Type} (e : FExec B) : Exec B := ⟨e.fb, e.blocks.map (·.block), e.index⟩

/-- The block at a position. -/
def blockAt {B : Type} (e : FExec B) (i : Nat) : Option B := e.blocks[i]?.map (·.block)

/-- The flag of the block at a position. -/
def flagAt {B : Type} (e : FExec B) (i : Nat) : Option Bool := e.blocks[i]?.map (·.flag)

/-- The executor made the block at this position one of those it trains: it was trainable when the executor was made. -/
def Recorded {B : Type} (e : FExec B) (i : Nat) : Prop := i ∈ e.recorded

/-- Block `i` will get the updates of the next example. -/
def Learning {B : Type} (e : FExec B) (i : Nat) : Prop := Recorded e i ∧ flagAt e i = some true

/-- The call does not make block `i` trainable. -/
def Leaves {E : Type} (i : Nat) (c : FCall E) : Prop := c ≠ .setTrainable i true

/-- The call does not make a new executor. -/
def SameExecutor {E : Type} (c : FCall E) : Prop := ∀ fb, c ≠ .rebuild fb

/-- The call makes no block untrainable. -/
def FreezesNone {E : Type} (c : FCall E) : Prop := ∀ i, c ≠ .setTrainable i false

/-- `F` is something `train_example` and `eval_example` leave alone. -/
def KeptByExamples {B E α : Type} (be : Backend B E) (F : B → α) : Prop :=
  ∀ b x, F (be.trainExample b x) = F b ∧ F (be.evalExample b x) = F b

/-- The recorded list is one that a constructor can have made: each position once, none beyond the blocks. -/
def FWell {B : Type} (e : FExec B) : Prop := e.recorded.Nodup ∧ ∀ i ∈ e.recorded, i < e.blocks.length

/-- The program on the executor without flags; calls of `set_trainable` do nothing. -/
def plainCall {B E : Type} (be : Backend B E) (smp : List Rat → Rat → Nat) (e : Exec B) : FCall E → Exec B × FRes
  | .setTrainable _ _ => (e, .none)
  | .slice sh data a b => (Exec.trainSlice be smp sh data a b e, .none)
  | .epoch sh data => ((Exec.trainEpoch be smp sh data e).1, .accuracy (Exec.trainEpoch be smp sh data e).2)
  | .eval data n => ((Exec.evalPredict be data n e).1, .predictions (Exec.evalPredict be data n e).2)
  | .rebuild fb => (⟨fb, e.blocks, []⟩, .none)

/-- The whole program on the executor without flags. -/
def plainRun {B E : Type} (be : Backend B E) (smp : List Rat → Rat → Nat) : List (FCall E) → Exec B → Exec B × List FRes
  | [], e => (e, [])
  | c :: cs, e =>
    ((plainRun be smp cs (plainCall be smp e c).1).1, (plainCall be smp e c).2 :: (plainRun be smp cs (plainCall be smp e c).1).2)

end GT.Spec
