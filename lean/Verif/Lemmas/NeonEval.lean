import Verif.Lemmas.Neon
import Verif.Props.Dense

/-! Helper lemmas about evaluation on a NEON block. -/

namespace GT
open Spec Neon

/-- Evaluation of one NEON clause, given whether the clauses before it left the flag set. -/
theorem neon_eval_clause (cfg : VCfg) (lits : Mem) (act : Bool) (c : VClause) (hn : 0 < cfg.nLits)
    (hx : Binary (unpadExample cfg.nLits lits)) :
    ((¬ EmptyClause (neonUnpad cfg.nLits c).pos (neonUnpad cfg.nLits c).neg ∨ act = false) →
      (neonEvalClause cfg lits act c).1.out =
        (evalOutClause (unpadExample cfg.nLits lits) (neonUnpad cfg.nLits c)).out) ∧
    (act = true → EmptyClause (neonUnpad cfg.nLits c).pos (neonUnpad cfg.nLits c).neg →
      (neonEvalClause cfg lits act c).1.out = 1) := by
  have h1 := neonEvalClause_spec cfg lits act c hn
  have h2 := C05_eval_output _ _ hx (Neon.unpad_shaped cfg.nLits c lits)
  refine ⟨fun h => ?_, fun ha he => ?_⟩
  · have e : (neonEvalClause cfg lits act c).1.out = 1 ↔
        (evalOutClause (unpadExample cfg.nLits lits) (neonUnpad cfg.nLits c)).out = 1 := by
      rw [h1.2.1, Neon.okRange_iff_satisfied c hx, h2.1, ← Neon.nonempty_unpad]
      constructor
      · rintro ⟨a, b | b⟩
        · rcases h with h | h
          · exact ⟨h, a⟩
          · rw [h] at b; exact absurd b (by simp)
        · exact ⟨b, a⟩
      · rintro ⟨a, b⟩; exact ⟨b, Or.inr a⟩
    rcases h1.1 with a | a <;> rcases h2.2 with b | b <;> omega
  · rw [h1.2.1]
    refine ⟨?_, Or.inl ha⟩
    rw [Neon.okRange_iff_satisfied c hx]
    exact ⟨fun i hi => absurd hi (he.1 i), fun i hi => absurd hi (he.2 i)⟩

/-- Output of clause `i` in evaluation, with what is known of the flag before it. -/
theorem neonEval_get (cfg : VCfg) (lits : Mem) (act : Bool) (cs : List VClause) (hn : 0 < cfg.nLits)
    (i : Nat) (c : VClause) (hc : cs[i]? = some c) :
    ∃ a, (neonEvalClauses cfg lits act cs)[i]? = some (neonEvalClause cfg lits a c).1 ∧
      (a = true → act = true ∨ ∃ (j : Nat) (e : VClause), j < i ∧ cs[j]? = some e ∧
        ¬ EmptyClause (neonUnpad cfg.nLits e).pos (neonUnpad cfg.nLits e).neg) ∧
      ((act = true ∨ ∃ (j : Nat) (e : VClause), j < i ∧ (neonEvalClauses cfg lits act cs)[j]? = some e ∧
        e.out = 1) → a = true) := by
  induction cs generalizing act i with
  | nil => simp at hc
  | cons d cs ih =>
    rw [neonEvalClauses]
    cases i with
    | zero =>
      simp at hc; subst hc
      refine ⟨act, by simp, fun h => Or.inl h, ?_⟩
      rintro (h | ⟨j, e, hj, _⟩)
      · exact h
      · omega
    | succ i =>
      simp at hc
      have sp := neonEvalClause_spec cfg lits act d hn
      obtain ⟨a, h1, h2, h3⟩ := ih (neonEvalClause cfg lits act d).2 i hc
      refine ⟨a, by simpa using h1, ?_, ?_⟩
      · intro ha
        rcases h2 ha with h | ⟨j, e, hj, he, hne⟩
        · rcases sp.2.2.2.2.2.2 h with h | h
          · exact Or.inl h
          · exact Or.inr ⟨0, d, by omega, rfl, (Neon.nonempty_unpad _ _).mpr h⟩
        · exact Or.inr ⟨j + 1, e, by omega, by simpa using he, hne⟩
      · rintro (h | ⟨j, e, hj, he, ho⟩)
        · exact h3 (Or.inl (sp.2.2.2.2.2.1 (Or.inl h)))
        · cases j with
          | zero =>
            simp at he; subst he
            exact h3 (Or.inl (sp.2.2.2.2.2.1 (Or.inr ho)))
          | succ j => exact h3 (Or.inr ⟨j, e, by omega, by simpa using he, ho⟩)

end GT
