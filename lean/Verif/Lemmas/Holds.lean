import Verif.Base

/-!
# A decidable way of writing `∃ a, o = .ok a ∧ p a`, for concrete examples only
-/

namespace Verif

/-- The outcome is `Ok a` for an `a` with `p a`. -/
def Out.holds {ε α : Type} (o : Out ε α) (p : α → Prop) : Prop :=
  match o with
  | .ok a => p a
  | _ => False

instance {ε α : Type} (o : Out ε α) (p : α → Prop) [DecidablePred p] : Decidable (o.holds p) := by
  unfold Out.holds; cases o <;> infer_instance

theorem Out.holds.elim {ε α : Type} {o : Out ε α} {p : α → Prop} (h : o.holds p) :
    ∃ a, o = .ok a ∧ p a := by
  unfold Out.holds at h; split at h
  · exact ⟨_, rfl, h⟩
  · exact h.elim

end Verif
