import Verif.Spec.Layout

/-!
# Specification: what a command octet string means

`commandRead` says, without reference to the decoder, which command (if any) a slice starts with,
how many octets it takes, and which error is due otherwise.
-/

namespace Verif.Spec

/-- Capability information in an octet: bits 1, 2, 3, 6, 7; bits 0, 4, 5 are ignored. -/
def capabilityOf (b : UInt8) : CapabilityInformation where
  fullFunctionDevice := b.toNat.testBit 1
  mainsPower := b.toNat.testBit 2
  idleReceive := b.toNat.testBit 3
  frameProtection := b.toNat.testBit 6
  allocateAddress := b.toNat.testBit 7

/-- GTS characteristics in an octet: bits 0-3, bit 4, bit 5; bits 6 and 7 are ignored. -/
def characteristicsOf (b : UInt8) : GtsCharacteristics where
  count := UInt8.ofNat (b.toNat % 16)
  receiveOnly := b.toNat.testBit 4
  allocation := b.toNat.testBit 5

/-- Two octets, least significant first. -/
def u16Of (lo hi : UInt8) : UInt16 := UInt16.ofNat (lo.toNat + 256 * hi.toNat)

/-- The association status with a given code. -/
def statusOf (b : UInt8) : Option AssociationStatus :=
  if b.toNat = 0 then some .successful
  else if b.toNat = 1 then some .networkAtCapacity
  else if b.toNat = 2 then some .accessDenied
  else if b.toNat = 3 then some .hoppingSequenceOffsetDuplication
  else if b.toNat = 128 then some .fastAssociationSuccesful
  else none

/-- The disassociation reason with a given code. -/
def reasonOf (b : UInt8) : Option DisassociationReason :=
  if b.toNat = 1 then some .coordinatorLeave
  else if b.toNat = 2 then some .deviceLeave
  else none

/-- The error for values outside an enumeration. -/
def invalidValue : ByteErr := .badInput "InvalidValue"

/-- Reading a command. -/
def commandRead : List UInt8 → Out ByteErr (Command × Nat)
  | [] => .err .incomplete
  | id :: rest =>
    match id.toNat with
    | 1 => match rest with
      | c :: _ => .ok (.associationRequest (capabilityOf c), 2)
      | [] => .err .incomplete
    | 2 => match rest with
      | a0 :: a1 :: s :: _ => match statusOf s with
        | some st => .ok (.associationResponse (u16Of a0 a1) st, 4)
        | none => .err invalidValue
      | _ => .err .incomplete
    | 3 => match rest with
      | r :: _ => match reasonOf r with
        | some rs => .ok (.disassociationNotification rs, 2)
        | none => .err invalidValue
      | [] => .err .incomplete
    | 4 => .ok (.dataRequest, 1)
    | 5 => .ok (.panIdConflictNotification, 1)
    | 6 => .ok (.orphanNotification, 1)
    | 7 => .ok (.beaconRequest, 1)
    | 8 => match rest with
      | p0 :: p1 :: c0 :: c1 :: ch :: d0 :: d1 :: [] =>
          .ok (.coordinatorRealignment ⟨u16Of p0 p1, u16Of c0 c1, ch, u16Of d0 d1, none⟩, 8)
      | p0 :: p1 :: c0 :: c1 :: ch :: d0 :: d1 :: page :: _ =>
          .ok (.coordinatorRealignment ⟨u16Of p0 p1, u16Of c0 c1, ch, u16Of d0 d1, some page⟩, 9)
      | _ => .err .incomplete
    | 9 => match rest with
      | c :: _ => .ok (.guaranteedTimeSlotRequest (characteristicsOf c), 2)
      | [] => .err .incomplete
    | _ => .err invalidValue

/-- Commands whose fields fit their bits on the wire. -/
def CommandInRange : Command → Prop
  | .guaranteedTimeSlotRequest g => g.count.toNat ≤ 15
  | _ => True

/-- Realignment command without channel page. -/
def NoPage : Command → Prop
  | .coordinatorRealignment d => d.channelPage = none
  | _ => False

/-- Octets demanded by a command identifier (the whole command with its mandatory fields). -/
def commandNeed (id : UInt8) : Nat :=
  if id = 1 ∨ id = 3 ∨ id = 9 then 2 else if id = 2 then 4 else if id = 8 then 8 else 1

/-- The command identifiers in use. -/
def KnownCommand (id : UInt8) : Prop := 1 ≤ id.toNat ∧ id.toNat ≤ 9

/-- A field of the command holds a value outside its enumeration: an association status other than
0, 1, 2, 3, 128 or a disassociation reason other than 1, 2. -/
def BadField (bytes : List UInt8) : Prop :=
  (∃ a0 a1 s rest, bytes = 2 :: a0 :: a1 :: s :: rest ∧ s ≠ 0 ∧ s ≠ 1 ∧ s ≠ 2 ∧ s ≠ 3 ∧ s ≠ 128) ∨
  (∃ r rest, bytes = 3 :: r :: rest ∧ r ≠ 1 ∧ r ≠ 2)

/-- What a realignment payload means: seven octets, and an eighth if there is one. -/
def realignmentRead : List UInt8 → Option (CoordinatorRealignmentData × Nat)
  | [p0, p1, c0, c1, ch, d0, d1] => some (⟨u16Of p0 p1, u16Of c0 c1, ch, u16Of d0 d1, none⟩, 7)
  | p0 :: p1 :: c0 :: c1 :: ch :: d0 :: d1 :: page :: _ =>
      some (⟨u16Of p0 p1, u16Of c0 c1, ch, u16Of d0 d1, some page⟩, 8)
  | _ => none

end Verif.Spec
