import Verif.Model.ConvFlat
import Verif.Spec.AvxFlat
import Verif.Spec.ConvExec

/-! # What C76 means -/

namespace GT.Spec

/-- What an executor does with a block and an example buffer: a training step (`train_example`, then `train_update` on the same example) or
an evaluation. -/
inductive BufStep
  | train (x : List Byte) (fb : Feedback)
  | eval (x : List Byte)

/-- The example buffer of a step. -/
def BufStep.buf : BufStep → List Byte
  | .train x _ => x
  | .eval x => x

/-- The step with checked loads; `none` when a load faults. -/
def convStepOn (b : VConvBlock) : BufStep → Option VConvBlock
  | .train x fb => (b.applyOn (.trainExample x)).bind fun b => b.applyOn (.trainUpdate x fb)
  | .eval x => b.applyOn (.evalExample x)

/-- The step when every load succeeds. -/
def convStep (b : VConvBlock) : BufStep → VConvBlock
  | .train x fb => (b.apply (.trainExample fun a => x.getD a 0#8)).apply (.trainUpdate (fun a => x.getD a 0#8) fb)
  | .eval x => b.apply (.evalExample fun a => x.getD a 0#8)

/-- A history of steps with checked loads. -/
def convStepsOn : VConvBlock → List BufStep → Option VConvBlock
  | b, [] => some b
  | b, s :: ss => (convStepOn b s).bind fun b => convStepsOn b ss

/-- The literals in the example buffer, as numbers. -/
def bufLits (n : Nat) (x : List Byte) : List Nat := unpadExample n fun a => x.getD a 0#8

/-- Every clause is non-empty and holds in the first patch of `m` literals. -/
def AllHoldInFirst (m : Nat) (b : VConvBlock) (x : List Byte) : Prop :=
  ∀ c ∈ b.clauses, Fires (bufLits m x) (learned (unpad m c.base))

end GT.Spec
