import Verif.Spec.CommandSpec

/-!
# Specification: enumerations and their codes
-/

namespace Verif.Spec

/-- A conversion to and from octets is faithful to a code table: the octet of a value is its code,
an octet converts back to a value exactly when it is that value's octet, and different values
have different octets. -/
structure Faithful {τ : Type} (code : τ → Nat) (toOctet : τ → UInt8) (ofOctet : UInt8 → Option τ) :
    Prop where
  code : ∀ x, (toOctet x).toNat = code x
  ofOctet : ∀ b x, ofOctet b = some x ↔ b = toOctet x
  injective : ∀ x y, toOctet x = toOctet y → x = y

/-- Address mode codes. -/
def addressModeCode : AddressMode → Nat
  | .none => 0 | .short => 2 | .extended => 3

/-- Command identifier codes. -/
def commandCode : CommandId → Nat
  | .associationRequest => 1 | .associationResponse => 2 | .disassociationNotification => 3
  | .dataRequest => 4 | .panIdConflictNotification => 5 | .orphanNotification => 6
  | .beaconRequest => 7 | .coordinatorRealignment => 8 | .guaranteedTimeSlotRequest => 9

/-- What the enum macro is given: pairs of variant and value, every variant of the type it declares
once. -/
structure EnumTable {τ ν : Type} (table : List (τ × ν)) : Prop where
  once : (table.map Prod.fst).Nodup
  all : ∀ x, x ∈ table.map Prod.fst

end Verif.Spec
