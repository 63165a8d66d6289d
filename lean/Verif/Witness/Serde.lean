import Verif.Props.Serde

/-!
# Formats meeting the hypotheses of C99
-/

namespace Verif.Witness
open Spec

/-- A format that names variants and keeps newtype structures, as text formats do. -/
def named : Serialized → Offered
  | .u16 v => .int v.toNat
  | .u64 v => .int v.toNat
  | .newtypeStruct _ s => .newtype (named s)
  | .tupleVariant _ _ n s t => .enum (.name n) [named s, named t]

/-- A format that numbers variants and shows a newtype structure as a sequence. -/
def numbered : Serialized → Offered
  | .u16 v => .int v.toNat
  | .u64 v => .int v.toNat
  | .newtypeStruct _ s => .seq [numbered s]
  | .tupleVariant _ i _ s t => .enum (.index i) [numbered s, numbered t]

theorem named_keeps : (⟨id, named⟩ : Format Serialized).Keeps := by
  intro s
  induction s with
  | u16 v => rfl
  | u64 v => rfl
  | newtypeStruct n s ih => exact ⟨_, ih, .inl rfl⟩
  | tupleVariant e i n s t ihs iht => exact ⟨_, _, _, [], rfl, ihs, iht, .inr (.inl rfl)⟩

theorem numbered_keeps : (⟨id, numbered⟩ : Format Serialized).Keeps := by
  intro s
  induction s with
  | u16 v => rfl
  | u64 v => rfl
  | newtypeStruct n s ih => exact ⟨_, ih, .inr ⟨[], rfl⟩⟩
  | tupleVariant e i n s t ihs iht => exact ⟨_, _, _, [], rfl, ihs, iht, .inl rfl⟩

example := (C99_round_trip _ named_keeps).1 (.short 0x1234 0x5678)
example := (C99_round_trip _ numbered_keeps).1 (.extended 0x1234 0x0102030405060708)
open Classical in
/-- A format that refuses what it is not asked for. -/
noncomputable def strict : StrictFormat Serialized := ⟨id, fun h s => if Expected h s then named s else .other⟩
theorem strict_keeps : strict.Keeps := by
  intro h s hs
  simp only [strict, id, if_pos hs]
  exact named_keeps s
example := (C99_strict_round_trip _ strict_keeps).1 (.extended 0x1234 0x0102030405060708)
example := C99_stored_apart _ named_keeps (.short 0x1234 0x5678) (.extended 0x1234 0x5678)
/-- Out of range, of another type, or too short. -/
example : PanId.deserialize (.newtype (.int 65536)) = none ∧ PanId.deserialize (.newtype (.int (-1))) = none ∧
    PanId.deserialize (.int 7) = none ∧ Address.deserialize (.enum (.name "Short") [.newtype (.int 7)]) = none ∧
    Address.deserialize (.enum (.index 2) [.newtype (.int 7), .newtype (.int 7)]) = none ∧
    Address.deserialize (.enum (.index 1) [.newtype (.int 7), .newtype (.int 65536)]) = some (.extended 7 65536) ∧
    Address.deserialize (.enum (.index 0) [.newtype (.int 7), .newtype (.int 65536)]) = none := by
  decide +kernel

end Verif.Witness
