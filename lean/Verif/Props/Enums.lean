import Verif.Lemmas.Command
import Verif.Spec.EnumSpec

/-!
# Properties of the enumeration conversions: C22
-/

namespace Verif
open Spec

/-- How to establish `Faithful` from finitely many facts. -/
theorem Faithful.mk' {τ : Type} {code : τ → Nat} {toOctet : τ → UInt8} {ofOctet : UInt8 → Option τ}
    (h1 : ∀ x, (toOctet x).toNat = code x) (h2 : ∀ x, ofOctet (toOctet x) = some x)
    (h3 : ∀ b x, ofOctet b = some x → b = toOctet x) : Faithful code toOctet ofOctet where
  code := h1
  ofOctet b x := ⟨h3 b x, fun h => h ▸ h2 x⟩
  injective x y h := by
    have := h2 x
    rw [h, h2 y] at this
    exact (Option.some.inj this).symm

/-- **C22** Frame types. -/
theorem C22_frame_type : Faithful typeCode FrameType.toBits FrameType.fromBits := by
  refine Faithful.mk' (by intro x; cases x <;> rfl) (by intro x; cases x <;> rfl) ?_
  apply forall_u8
  intro n x
  revert n
  cases x <;> decide +kernel

/-- **C22** Frame versions. -/
theorem C22_frame_version : Faithful versionCode FrameVersion.toBits FrameVersion.fromBits := by
  refine Faithful.mk' (by intro x; cases x <;> rfl) (by intro x; cases x <;> rfl) ?_
  apply forall_u8
  intro n x
  revert n
  cases x <;> decide +kernel

/-- **C22** Address modes, whose conversion reports an error naming the bits instead of `None`. -/
theorem C22_address_mode :
    Faithful addressModeCode AddressMode.toBits
      (fun b => match AddressMode.fromBits b with | .ok m => some m | _ => none) ∧
    ∀ b, (∀ m, AddressMode.toBits m ≠ b) → AddressMode.fromBits b = .err (.invalidAddressMode b) := by
  constructor
  · refine Faithful.mk' (by intro x; cases x <;> rfl) (by intro x; cases x <;> rfl) ?_
    apply forall_u8
    intro n x
    revert n
    cases x <;> decide +kernel
  · intro b h
    have h0 : b ≠ 0 := fun e => h .none e.symm
    have h2 : b ≠ 2 := fun e => h .short e.symm
    have h3 : b ≠ 3 := fun e => h .extended e.symm
    simp [AddressMode.fromBits, h0, h2, h3]

/-- **C22** Security levels. -/
theorem C22_security_level : Faithful levelCode SecurityLevel.toBits SecurityLevel.fromBits := by
  refine Faithful.mk' (by intro x; cases x <;> rfl) (by intro x; cases x <;> rfl) ?_
  apply forall_u8
  intro n x
  revert n
  cases x <;> decide +kernel

/-- **C22** Key identifier modes. -/
theorem C22_key_id_mode : Faithful keyIdModeCode KeyIdMode.toBits KeyIdMode.fromBits := by
  refine Faithful.mk' (by intro x; cases x <;> rfl) (by intro x; cases x <;> rfl) ?_
  apply forall_u8
  intro n x
  revert n
  cases x <;> decide +kernel

/-- **C22** Command identifiers. -/
theorem C22_command_id : Faithful commandCode CommandId.toU8 CommandId.optionalFrom := by
  refine Faithful.mk' (by intro x; cases x <;> rfl) (by intro x; cases x <;> rfl) ?_
  apply forall_u8
  intro n x
  revert n
  cases x <;> decide +kernel

/-- **C22** Association statuses. -/
theorem C22_association_status :
    Faithful statusCode AssociationStatus.toU8 AssociationStatus.optionalFrom := by
  refine Faithful.mk' (by intro x; cases x <;> rfl) (by intro x; cases x <;> rfl) ?_
  apply forall_u8
  intro n x
  revert n
  cases x <;> decide +kernel

/-- **C22** Disassociation reasons. -/
theorem C22_disassociation_reason :
    Faithful reasonCode DisassociationReason.toU8 DisassociationReason.optionalFrom := by
  refine Faithful.mk' (by intro x; cases x <;> rfl) (by intro x; cases x <;> rfl) ?_
  apply forall_u8
  intro n x
  revert n
  cases x <;> decide +kernel

/-- **C22** For the enumerations with an infallible conversion from integers (command identifiers,
statuses, reasons): it agrees with the fallible one and panics exactly on the other integers, and
comparing an integer with a value compares it with the value's code. -/
theorem C22_infallible_conversion (b : UInt8) :
    ((∃ x, enumFrom CommandId.table b = .ok x ∧ b = x.toU8) ∨
      (enumFrom CommandId.table b = .panic ∧ ∀ x : CommandId, b ≠ x.toU8)) ∧
    ((∃ x, enumFrom AssociationStatus.table b = .ok x ∧ b = x.toU8) ∨
      (enumFrom AssociationStatus.table b = .panic ∧ ∀ x : AssociationStatus, b ≠ x.toU8)) ∧
    ((∃ x, enumFrom DisassociationReason.table b = .ok x ∧ b = x.toU8) ∨
      (enumFrom DisassociationReason.table b = .panic ∧ ∀ x : DisassociationReason, b ≠ x.toU8)) := by
  have key : ∀ {τ : Type} {code : τ → Nat} {toOctet : τ → UInt8} (table : List (τ × UInt8)),
      Faithful code toOctet (enumOptionalFrom table) →
      (∃ x, enumFrom table b = .ok x ∧ b = toOctet x) ∨
        (enumFrom table b = .panic ∧ ∀ x : τ, b ≠ toOctet x) := by
    intro τ code toOctet table hf
    unfold enumFrom
    cases h : enumOptionalFrom table b with
    | some x => exact .inl ⟨x, rfl, (hf.ofOctet b x).1 h⟩
    | none =>
      refine .inr ⟨rfl, fun x hx => ?_⟩
      rw [(hf.ofOctet b x).2 hx] at h
      cases h
  exact ⟨key _ C22_command_id, key _ C22_association_status, key _ C22_disassociation_reason⟩

/-- **C22** `integer == value` and `integer != value`. -/
theorem C22_integer_comparison {τ : Type} {code : τ → Nat} {toOctet : τ → UInt8}
    {ofOctet : UInt8 → Option τ} (hf : Faithful code toOctet ofOctet) (b : UInt8) (x : τ) :
    (enumEqU8 toOctet b x = true ↔ ofOctet b = some x) ∧
    (enumNeU8 toOctet b x = true ↔ ofOctet b ≠ some x) := by
  have := hf.ofOctet b x
  simp [enumEqU8, enumNeU8, this]

/-- The tag length of a level is the one the level's name says. -/
theorem C22_tag_length (l : SecurityLevel) : l.micOctetSize = tagLength l := by cases l <;> rfl

example : FrameType.fromBits 4 = none ∧ enumFrom AssociationStatus.table 4 = .panic ∧
    enumFrom AssociationStatus.table 0x80 = .ok .fastAssociationSuccesful := by decide

end Verif
