import Verif.Base

/-!
# Enumerations and error types

Models `/repo/src/mac/frame/frame_control.rs`, the enumerations of
`/repo/src/mac/frame/security/security_control.rs`, `/repo/src/utils.rs`
(`extended_enum!`) with its three uses in `/repo/src/mac/command.rs`, and the error types of
`/repo/src/mac/frame/mod.rs` and `/repo/src/mac/frame/security/mod.rs`.
-/

namespace Verif

/-- frame_control.rs:12-33 `enum FrameType`. -/
inductive FrameType where
  | beacon | data | acknowledgement | macCommand | multipurpose | fragOrFragAck | extended
deriving DecidableEq, Repr

namespace FrameType

/-- `self as u8` / `self as u16`: the discriminants, frame_control.rs:14-32. -/
def toBits : FrameType → UInt8
  | beacon => 0b000
  | data => 0b001
  | acknowledgement => 0b010
  | macCommand => 0b011
  | multipurpose => 0b101
  | fragOrFragAck => 0b110
  | extended => 0b111

/-- frame_control.rs:48-59 `FrameType::from_bits`. -/
def fromBits (bits : UInt8) : Option FrameType :=
  if bits = 0b000 then some beacon
  else if bits = 0b001 then some data
  else if bits = 0b010 then some acknowledgement
  else if bits = 0b011 then some macCommand
  else if bits = 0b101 then some multipurpose
  else if bits = 0b110 then some fragOrFragAck
  else if bits = 0b111 then some extended
  else none

end FrameType

/-- frame_control.rs:65-72 `enum FrameVersion`. -/
inductive FrameVersion where
  | ieee802154_2003 | ieee802154_2006 | ieee802154
deriving DecidableEq, Repr

namespace FrameVersion

/-- discriminants, frame_control.rs:67-71. -/
def toBits : FrameVersion → UInt8
  | ieee802154_2003 => 0b00
  | ieee802154_2006 => 0b01
  | ieee802154 => 0b10

/-- frame_control.rs:88-95 `FrameVersion::from_bits`. -/
def fromBits (bits : UInt8) : Option FrameVersion :=
  if bits = 0b00 then some ieee802154_2003
  else if bits = 0b01 then some ieee802154_2006
  else if bits = 0b10 then some ieee802154
  else none

end FrameVersion

/-- frame/mod.rs:453-483 `enum DecodeError`. -/
inductive DecodeError where
  | notEnoughBytes
  | invalidFrameType (v : UInt8)
  | securityEnabled
  | invalidAddressMode (v : UInt8)
  | invalidFrameVersion (v : UInt8)
  | invalidSecurityLevel (v : UInt8)
  | invalidKeyIdentifierMode (v : UInt8)
  | missingSecurityCtx
  | auxSecHeaderAbsent
  | invalidValue
deriving DecidableEq, Repr

/-- frame/mod.rs:485-518 `impl From<DecodeError> for byte::Error`. -/
def DecodeError.toByteErr : DecodeError → ByteErr
  | .notEnoughBytes => .incomplete
  | .invalidFrameType _ => .badInput "InvalidFrameType"
  | .invalidAddressMode _ => .badInput "InvalidAddressMode"
  | .invalidFrameVersion _ => .badInput "InvalidFrameVersion"
  | .invalidValue => .badInput "InvalidValue"
  | .invalidSecurityLevel _ => .badInput "InvalidSecurityLevel"
  | .invalidKeyIdentifierMode _ => .badInput "InvalidKeyIdentifierMode"
  | .missingSecurityCtx => .badInput "MissingSecurityCtx"
  | .auxSecHeaderAbsent => .badInput "AuxSecHeaderAbsent"
  | .securityEnabled => .badInput "SecurityEnabled (use Frame::try_read_and_unsecure)"

/-- frame/mod.rs:523-533 `enum EncodeError`. -/
inductive EncodeError where
  | writeError
  | missingSecurityCtx
  | disallowedPanIdCompress
  | unknownError
deriving DecidableEq, Repr

/-- frame/mod.rs:535-552 `impl From<EncodeError> for byte::Error`. -/
def EncodeError.toByteErr : EncodeError → ByteErr
  | .writeError => .badInput "WriteError"
  | .missingSecurityCtx => .badInput "MissingSecurityCtx"
  | .disallowedPanIdCompress => .badInput "DisallowedPanIdCompress"
  | .unknownError => .badInput "UnknownError"

/-- security/mod.rs:681-722 `enum SecurityError`. -/
inductive SecErr where
  | securityNotEnabled
  | invalidSecContext
  | frameTooLong
  | counterError
  | unavailableKey
  | keyFailure
  | noSourceAddress
  | noDestinationAddress
  | transformationError
  | writeError (e : ByteErr)
  | tagWriteError
  | notImplemented
  | auxSecHeaderAbsent
  | keyIdentifierMismatch
  | unsupportedLegacy
  | unsupportedSecurity
  | unavailableDevice
  | keyLookupAddressTypeMismatch
deriving DecidableEq, Repr

/-- security/mod.rs:724-728 `impl From<byte::Error> for SecurityError`. -/
def SecErr.ofByteErr (e : ByteErr) : SecErr := .writeError e

/-- security/mod.rs:730-789 `impl From<SecurityError> for byte::Error`. -/
def SecErr.toByteErr : SecErr → ByteErr
  | .invalidSecContext => .badInput "InvalidSecContext"
  | .frameTooLong => .badInput "FrameTooLong"
  | .counterError => .badInput "CounterError"
  | .unavailableKey => .badInput "UnavailableKey"
  | .keyFailure => .badInput "KeyFailure"
  | .noSourceAddress => .badInput "NoSourceAddress"
  | .noDestinationAddress => .badInput "NoDstAddress"
  | .transformationError => .badInput "TransformationError"
  | .tagWriteError => .badInput "TagWriteError"
  | .securityNotEnabled => .badInput "SecurityNotEnabled"
  | .writeError e => e
  | .notImplemented => .badInput "NotImplemented"
  | .auxSecHeaderAbsent => .badInput "AuxSecHeaderAbsent"
  | .keyIdentifierMismatch => .badInput "KeyIdentifierMismatch"
  | .unsupportedLegacy => .badInput "UnsupportedLegacy"
  | .unsupportedSecurity => .badInput "UnsupportedSecurity"
  | .unavailableDevice => .badInput "UnavailableDevice"
  | .keyLookupAddressTypeMismatch => .badInput "KeyLookupAddressTypeMismatch"

/-- frame_control.rs:111-118 `enum AddressMode`. -/
inductive AddressMode where
  | none | short | extended
deriving DecidableEq, Repr

namespace AddressMode

/-- discriminants, frame_control.rs:113-117. -/
def toBits : AddressMode → UInt8
  | none => 0b00
  | short => 0b10
  | extended => 0b11

/-- frame_control.rs:153-160 `AddressMode::from_bits` (returns `Result<_, DecodeError>`). -/
def fromBits (bits : UInt8) : Out DecodeError AddressMode :=
  if bits = 0b00 then .ok none
  else if bits = 0b10 then .ok short
  else if bits = 0b11 then .ok extended
  else .err (.invalidAddressMode bits)

end AddressMode

/-- security_control.rs:70-87 `enum SecurityLevel`. -/
inductive SecurityLevel where
  | none | mic32 | mic64 | mic128 | enc | encmic32 | encmic64 | encmic128
deriving DecidableEq, Repr

namespace SecurityLevel

/-- security_control.rs:90-102 `SecurityLevel::from_bits`. -/
def fromBits (bits : UInt8) : Option SecurityLevel :=
  if bits = 0b000 then some none
  else if bits = 0b001 then some mic32
  else if bits = 0b010 then some mic64
  else if bits = 0b011 then some mic128
  else if bits = 0b100 then some enc
  else if bits = 0b101 then some encmic32
  else if bits = 0b110 then some encmic64
  else if bits = 0b111 then some encmic128
  else Option.none

/-- security_control.rs:104-115 `SecurityLevel::to_bits`. -/
def toBits : SecurityLevel → UInt8
  | none => 0b000
  | mic32 => 0b001
  | mic64 => 0b010
  | mic128 => 0b011
  | enc => 0b100
  | encmic32 => 0b101
  | encmic64 => 0b110
  | encmic128 => 0b111

/-- security_control.rs:119-126 `SecurityLevel::get_mic_octet_size`. -/
def micOctetSize : SecurityLevel → Nat
  | none | enc => 0
  | mic32 | encmic32 => 4
  | mic64 | encmic64 => 8
  | mic128 | encmic128 => 16

end SecurityLevel

/-- security_control.rs:132-141 `enum KeyIdentifierMode`. -/
inductive KeyIdMode where
  | none | keyIndex | keySource4 | keySource8
deriving DecidableEq, Repr

namespace KeyIdMode

/-- security_control.rs:144-152 `KeyIdentifierMode::from_bits`. -/
def fromBits (bits : UInt8) : Option KeyIdMode :=
  if bits = 0b00 then some none
  else if bits = 0b01 then some keyIndex
  else if bits = 0b10 then some keySource4
  else if bits = 0b11 then some keySource8
  else Option.none

/-- security_control.rs:153-160 `KeyIdentifierMode::to_bits`. -/
def toBits : KeyIdMode → UInt8
  | none => 0b00
  | keyIndex => 0b01
  | keySource4 => 0b10
  | keySource8 => 0b11

end KeyIdMode

/-! ## `extended_enum!` (utils.rs:10-66)

The macro generates, for each enumeration with a table `var => val`: the infallible
`From<$ty>` (utils.rs:26-33, panics outside the table), `From<$name> for $ty`
(utils.rs:35-41), `OptionalFrom<$ty>` (utils.rs:43-50) and `PartialEq<$name> for $ty`
(utils.rs:52-64).  A table is modelled as a list of pairs, in source order; the first
matching arm wins, as in a Rust `match`. -/

/-- utils.rs:43-50 `OptionalFrom::optional_from` over a table. -/
def enumOptionalFrom {τ ν : Type} [DecidableEq ν] (table : List (τ × ν)) (v : ν) : Option τ :=
  match table with
  | [] => none
  | (x, val) :: rest => if v = val then some x else enumOptionalFrom rest v

/-- utils.rs:26-33 `From<$ty> for $name`: `panic!("Invalid value")` outside the table. -/
def enumFrom {τ ν : Type} [DecidableEq ν] (table : List (τ × ν)) (v : ν) : Out Empty τ :=
  match enumOptionalFrom table v with
  | some x => .ok x
  | none => .panic

/-- utils.rs:35-41 `From<$name> for $ty` over a table: the value beside the variant.  `none` stands for a
variant the table does not list; the macro declares exactly the variants it lists, so this arm does not
exist in the code (`EnumTable` in `Verif/Spec/EnumSpec.lean`). -/
def enumInto {τ ν : Type} [DecidableEq τ] (table : List (τ × ν)) (x : τ) : Option ν :=
  match table with
  | [] => none
  | (y, val) :: rest => if x = y then some val else enumInto rest x

/-- utils.rs:52-64 `PartialEq<$name> for $ty`, `eq`, over a table. -/
def enumEq {τ ν : Type} [DecidableEq τ] [DecidableEq ν] (table : List (τ × ν)) (v : ν) (x : τ) : Option Bool :=
  match table with
  | [] => none
  | (y, val) :: rest => if x = y then some (v == val) else enumEq rest v x

/-- utils.rs:52-64 `PartialEq<$name> for $ty`, `ne`, over a table. -/
def enumNe {τ ν : Type} [DecidableEq τ] [DecidableEq ν] (table : List (τ × ν)) (v : ν) (x : τ) : Option Bool :=
  match table with
  | [] => none
  | (y, val) :: rest => if x = y then some (v != val) else enumNe rest v x

/-- utils.rs:52-64 `PartialEq<$name> for $ty`, `eq`: compares the integer with the table value
of the variant. -/
def enumEqU8 {τ : Type} (toU8 : τ → UInt8) (v : UInt8) (x : τ) : Bool := v == toU8 x

/-- utils.rs:52-64 `PartialEq<$name> for $ty`, `ne`. -/
def enumNeU8 {τ : Type} (toU8 : τ → UInt8) (v : UInt8) (x : τ) : Bool := v != toU8 x

/-- command.rs:12-33 `CommandId`. -/
inductive CommandId where
  | associationRequest | associationResponse | disassociationNotification | dataRequest
  | panIdConflictNotification | orphanNotification | beaconRequest | coordinatorRealignment
  | guaranteedTimeSlotRequest
deriving DecidableEq, Repr

/-- command.rs:12-33, the table of `CommandId`. -/
def CommandId.table : List (CommandId × UInt8) :=
  [(.associationRequest, 1), (.associationResponse, 2), (.disassociationNotification, 3),
   (.dataRequest, 4), (.panIdConflictNotification, 5), (.orphanNotification, 6),
   (.beaconRequest, 7), (.coordinatorRealignment, 8), (.guaranteedTimeSlotRequest, 9)]

/-- `u8::from(CommandId)` (utils.rs `From<$name> for $ty` with command.rs:12-33). -/
def CommandId.toU8 : CommandId → UInt8
  | .associationRequest => 1
  | .associationResponse => 2
  | .disassociationNotification => 3
  | .dataRequest => 4
  | .panIdConflictNotification => 5
  | .orphanNotification => 6
  | .beaconRequest => 7
  | .coordinatorRealignment => 8
  | .guaranteedTimeSlotRequest => 9

/-- `CommandId::optional_from`. -/
def CommandId.optionalFrom (v : UInt8) : Option CommandId := enumOptionalFrom table v

/-- command.rs:101-114 `AssociationStatus`. -/
inductive AssociationStatus where
  | successful | networkAtCapacity | accessDenied | hoppingSequenceOffsetDuplication
  | fastAssociationSuccesful
deriving DecidableEq, Repr

/-- command.rs:101-114, the table of `AssociationStatus`. -/
def AssociationStatus.table : List (AssociationStatus × UInt8) :=
  [(.successful, 0x00), (.networkAtCapacity, 0x01), (.accessDenied, 0x02),
   (.hoppingSequenceOffsetDuplication, 0x03), (.fastAssociationSuccesful, 0x80)]

/-- `u8::from(AssociationStatus)`. -/
def AssociationStatus.toU8 : AssociationStatus → UInt8
  | .successful => 0x00
  | .networkAtCapacity => 0x01
  | .accessDenied => 0x02
  | .hoppingSequenceOffsetDuplication => 0x03
  | .fastAssociationSuccesful => 0x80

/-- `AssociationStatus::optional_from`. -/
def AssociationStatus.optionalFrom (v : UInt8) : Option AssociationStatus :=
  enumOptionalFrom table v

/-- command.rs:116-123 `DisassociationReason`. -/
inductive DisassociationReason where
  | coordinatorLeave | deviceLeave
deriving DecidableEq, Repr

/-- command.rs:116-123, the table of `DisassociationReason`. -/
def DisassociationReason.table : List (DisassociationReason × UInt8) :=
  [(.coordinatorLeave, 1), (.deviceLeave, 2)]

/-- `u8::from(DisassociationReason)`. -/
def DisassociationReason.toU8 : DisassociationReason → UInt8
  | .coordinatorLeave => 1
  | .deviceLeave => 2

/-- `DisassociationReason::optional_from`. -/
def DisassociationReason.optionalFrom (v : UInt8) : Option DisassociationReason :=
  enumOptionalFrom table v

end Verif
