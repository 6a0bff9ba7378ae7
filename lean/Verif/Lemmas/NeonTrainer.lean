import Verif.Model.NeonTrainer
import Verif.Lemmas.SparseTrainer
import Verif.Props.ConvExec
import Verif.Props.EndToEnd
import Verif.Lemmas.Start

/-! # Helper lemmas: training on the NEON backend -/

namespace GT.NTrain
open Spec

theorem eval_kept (b : Option NBlock) (x : Mem) :
    (neonBackend.evalExample b x).map (fun b => (b.cfg, b.clauses.map fun c => (c.row, c.w))) =
      b.map fun b => (b.cfg, b.clauses.map fun c => (c.row, c.w)) := by
  cases b with
  | none => rfl
  | some d =>
    have h := congrArg (List.map fun p : Mem × List Int × Nat => (p.1, p.2.1)) (CE.neonEvals_rows d.cfg x d.clauses false)
    simp only [List.map_map] at h
    exact congrArg (fun l => some (d.cfg, l)) h

theorem model_congr (e e' : Exec (Option NBlock))
    (h : e.blocks.map (Option.map fun b => (b.cfg, b.clauses.map fun c => (c.row, c.w))) =
      e'.blocks.map (Option.map fun b => (b.cfg, b.clauses.map fun c => (c.row, c.w)))) : neonModel e = neonModel e' := by
  have key : ∀ e : Exec (Option NBlock), neonModel e =
      (e.blocks.map (Option.map fun b => (b.cfg, b.clauses.map fun c => (c.row, c.w)))).flatMap fun o =>
        (o.map fun p => p.2.map fun q =>
          ((List.range p.1.nLits).map fun i => (q.1 i).toInt,
            (List.range p.1.nLits).map fun i => (q.1 (neonMem p.1.nLits + i)).toInt, q.2)).getD [] := by
    intro e
    unfold neonModel
    rw [List.flatMap_map]
    congr 1
    funext b
    cases b with
    | none => rfl
    | some d => simp [learned, neonUnpad, Function.comp_def]
  rw [key, key, h]

variable (m n : Nat) (init : Option (List (List Int × List Int × List Int)) → Exec (Option NBlock))
  (smp : List Rat → Rat → Nat) (shuffle : Nat → List Nat → List Nat) (metric : List Nat → List Nat → Rat)
  (tr ev : List (Mem × Nat)) (t : Trainer (List (List Int × List Int × List Int)))
  (tm : Option (List (List Int × List Int × List Int)))

theorem neon_reproduces (hi : Ready n (NeonBudgetOK m n) (init tm)) (hx : ∀ d ∈ ev, Binary (unpadExample m d.1)) (k : Nat)
    (cls : List (List Int × List Int × List Int))
    (hcls : (neonEnv init smp shuffle metric tr ev).snap (afterTrain (neonEnv init smp shuffle metric tr ev)
      ((neonEnv init smp shuffle metric tr ev).start tm) k) = cls)
    (hne : ∀ c ∈ cls, ¬ EmptyClause c.1 c.2.1)
    (rs : Rules) (p : Predictor) (hd : DeliveredFrom m n cls (ev.map fun d => unpadExample m d.1) rs p) :
    Reproduces n metric (ev.map fun d => (unpadExample m d.1, d.2)) p (simpleC rs)
      (scoreOf (neonEnv init smp shuffle metric tr ev) ((neonEnv init smp shuffle metric tr ev).start tm) k) := by
  have hready := ready_afterTrain (snapOf := fun e => e.blocks.flatMap fun b => (b.map fun b => b.clauses.map fun c =>
      ((List.range b.cfg.nLits).map fun i => (c.row i).toInt,
       (List.range b.cfg.nLits).map fun i => (c.row (neonMem b.cfg.nLits + i)).toInt, c.w)).getD [])
    (init := init) (smp := smp) (shuffle := shuffle) (metric := metric) (tr := tr) (ev := ev)
    (CE.neon_keeps m n) ⟨init tm, [], 0⟩ hi k
  rw [show scoreOf (neonEnv init smp shuffle metric tr ev) ((neonEnv init smp shuffle metric tr ev).start tm) k = _ from
    scoreOf_backend (be := neonBackend) ⟨init tm, [], 0⟩ k]
  obtain ⟨ks, h1, h2, h3⟩ := C17_neon_votes_without_empty_clauses m n _ (ev.map (·.1))
    ⟨hready.classes, hready.fbClasses, hready.fbVotes, fun b hb => (hready.blocks b hb).1⟩
    (by subst hcls; exact hne) (by
    intro x hx'
    obtain ⟨d, hd', rfl⟩ := List.mem_map.mp hx'
    exact hx d hd')
  rw [h1]
  exact reproduces_of_predictions (unpadExample m) m n hi.classes metric ev cls
    (fun d hd' => ⟨hx d hd', by simp [unpadExample]⟩) ks (by simpa using h2)
    (fun i x k' a b => by subst hcls; exact h3 i x k' a b) rs p hd

end GT.NTrain
