import Verif.Model.Frame

/-!
# Derived `Hash` and `Hash32`

Every public value type of the crate derives `core::hash::Hash`. The derived implementation feeds a hasher field by
field, in the order of declaration; in front of the fields of an enum it feeds the discriminant. What the standard
library's own implementations feed (integers, `bool`, `Option`, slices, arrays) is external and modelled here from its
documentation; it is part of the trusted base.

* an integer: one call with it; `bool`: one call with an octet 0 or 1;
* a discriminant: one call with an `isize` (no enum of the crate has a `repr` attribute);
* an array or slice: its length as `usize`, then the elements; octets in a single `write`.
-/

namespace Verif

/-- A call of a method of `core::hash::Hasher`. Simplification: discriminants are not negative. -/
inductive HasherCall where
  | u8 (v : UInt8)
  | u16 (v : UInt16)
  | u32 (v : UInt32)
  | u64 (v : UInt64)
  | usize (n : Nat)
  | isize (n : Nat)
  | write (octets : List UInt8)
deriving DecidableEq, Repr

/-- What `Hash::hash` of a value feeds to the hasher. -/
class RustHash (α : Type) where
  calls : α → List HasherCall

export RustHash (calls)

/-- `impl Hash for u8`, `bool`, `u16`, `u32`, `u64` in the standard library; header.rs:320, 359, 401: the derived
`Hash` of `PanId`, `ShortAddress`, `ExtendedAddress` feeds their field. -/
instance : RustHash UInt8 := ⟨fun v => [.u8 v]⟩
instance : RustHash Bool := ⟨fun b => [.u8 (if b then 1 else 0)]⟩
instance : RustHash UInt16 := ⟨fun v => [.u16 v]⟩
instance : RustHash UInt32 := ⟨fun v => [.u32 v]⟩
instance : RustHash UInt64 := ⟨fun v => [.u64 v]⟩

/-- `impl Hash for Option` (derived in the standard library). -/
instance {α : Type} [RustHash α] : RustHash (Option α) :=
  ⟨fun o => match o with
    | none => [.isize 0]
    | some a => .isize 1 :: calls a⟩

/-- `impl Hash for [T; 7]`: the length and the elements. -/
instance {α : Type} [RustHash α] : RustHash (Vector α 7) :=
  ⟨fun v => .usize 7 :: v.toList.flatMap calls⟩

/-- `impl Hash for [u8]`. -/
def octetCalls (octets : List UInt8) : List HasherCall := [.usize octets.length, .write octets]

/-- frame_control.rs:10-33 derived `Hash for FrameType`. -/
instance : RustHash FrameType :=
  ⟨fun t => [.isize (match t with
    | .beacon => 0 | .data => 1 | .acknowledgement => 2 | .macCommand => 3
    | .multipurpose => 5 | .fragOrFragAck => 6 | .extended => 7)]⟩

/-- frame_control.rs:63-72 derived `Hash for FrameVersion`. -/
instance : RustHash FrameVersion :=
  ⟨fun v => [.isize (match v with | .ieee802154_2003 => 0 | .ieee802154_2006 => 1 | .ieee802154 => 2)]⟩

/-- frame_control.rs:108-119 derived `Hash for AddressMode`. -/
instance : RustHash AddressMode :=
  ⟨fun m => [.isize (match m with | .none => 0 | .short => 2 | .extended => 3)]⟩

/-- security_control.rs:68-87 derived `Hash for SecurityLevel`. -/
instance : RustHash SecurityLevel :=
  ⟨fun l => [.isize (match l with
    | .none => 0 | .mic32 => 1 | .mic64 => 2 | .mic128 => 3
    | .enc => 4 | .encmic32 => 5 | .encmic64 => 6 | .encmic128 => 7)]⟩

/-- security_control.rs:130-141 derived `Hash for KeyIdentifierMode`. -/
instance : RustHash KeyIdMode :=
  ⟨fun m => [.isize (match m with | .none => 0 | .keyIndex => 1 | .keySource4 => 2 | .keySource8 => 3)]⟩

/-- security_control.rs:9-19 derived `Hash for SecurityControl`. -/
instance : RustHash SecurityControl := ⟨fun c => calls c.securityLevel ++ calls c.keyIdMode⟩

/-- auxiliary_security_header.rs:184-191 derived `Hash for KeySource`. -/
instance : RustHash KeySource :=
  ⟨fun s => match s with
    | .short v => .isize 0 :: calls v
    | .long v => .isize 1 :: calls v⟩

/-- auxiliary_security_header.rs:157-164 derived `Hash for KeyIdentifier`. -/
instance : RustHash KeyIdentifier := ⟨fun k => calls k.keySource ++ calls k.keyIndex⟩

/-- auxiliary_security_header.rs:12-22 derived `Hash for AuxiliarySecurityHeader`. -/
instance : RustHash AuxHeader := ⟨fun a => calls a.control ++ calls a.frameCounter ++ calls a.keyIdentifier⟩

/-- header.rs:433-441 derived `Hash for Address`. -/
instance : RustHash Address :=
  ⟨fun a => match a with
    | .short p s => .isize 0 :: (calls p ++ calls s)
    | .extended p s => .isize 1 :: (calls p ++ calls s)⟩

/-- header.rs:24-82 derived `Hash for Header`. -/
instance : RustHash Header :=
  ⟨fun h => calls h.frameType ++ calls h.framePending ++ calls h.ackRequest ++ calls h.panIdCompress ++
    calls h.seqNoSuppress ++ calls h.iePresent ++ calls h.version ++ calls h.seq ++ calls h.destination ++
    calls h.source ++ calls h.auxSec⟩

/-- beacon.rs:12-21 derived `Hash for BeaconOrder`. -/
instance : RustHash BeaconOrder :=
  ⟨fun o => match o with
    | .beaconOrder v => .isize 0 :: calls v
    | .onDemand => [.isize 1]⟩

/-- beacon.rs:44-53 derived `Hash for SuperframeOrder`. -/
instance : RustHash SuperframeOrder :=
  ⟨fun o => match o with
    | .superframeOrder v => .isize 0 :: calls v
    | .inactive => [.isize 1]⟩

/-- beacon.rs:79-96 derived `Hash for SuperframeSpecification`. -/
instance : RustHash SuperframeSpec :=
  ⟨fun s => calls s.beaconOrder ++ calls s.superframeOrder ++ calls s.finalCapSlot ++ calls s.batteryLifeExtension ++
    calls s.panCoordinator ++ calls s.associationPermit⟩

/-- beacon.rs:157-164 derived `Hash for Direction`. -/
instance : RustHash Direction := ⟨fun d => [.isize (match d with | .receive => 0 | .transmit => 1)]⟩

/-- beacon.rs:167-178 derived `Hash for GuaranteedTimeSlotDescriptor`. -/
instance : RustHash GtsDescriptor :=
  ⟨fun g => calls g.shortAddress ++ calls g.startingSlot ++ calls g.length ++ calls g.direction⟩

/-- beacon.rs:237-244 derived `Hash for GuaranteedTimeSlotInformation`: also the unused entries. -/
instance : RustHash GtsInfo := ⟨fun g => calls g.permit ++ (.usize g.slotCount :: calls g.slots)⟩

/-- beacon.rs:356-363 derived `Hash for PendingAddress`: also the unused entries. -/
instance : RustHash PendingAddress :=
  ⟨fun p => .usize p.shortCount :: (calls p.shorts ++ (.usize p.extendedCount :: calls p.extendeds))⟩

/-- beacon.rs:442-451 derived `Hash for Beacon`. -/
instance : RustHash Beacon := ⟨fun b => calls b.superframeSpec ++ calls b.gtsInfo ++ calls b.pendingAddress⟩

/-- utils.rs:17-24 and command.rs:12-33: derived `Hash for CommandId`; the variants are numbered from 0. -/
instance : RustHash CommandId :=
  ⟨fun c => [.isize (match c with
    | .associationRequest => 0 | .associationResponse => 1 | .disassociationNotification => 2 | .dataRequest => 3
    | .panIdConflictNotification => 4 | .orphanNotification => 5 | .beaconRequest => 6 | .coordinatorRealignment => 7
    | .guaranteedTimeSlotRequest => 8)]⟩

/-- utils.rs:17-24 and command.rs:101-114: derived `Hash for AssociationStatus`. -/
instance : RustHash AssociationStatus :=
  ⟨fun s => [.isize (match s with
    | .successful => 0 | .networkAtCapacity => 1 | .accessDenied => 2 | .hoppingSequenceOffsetDuplication => 3
    | .fastAssociationSuccesful => 4)]⟩

/-- utils.rs:17-24 and command.rs:116-123: derived `Hash for DisassociationReason`. -/
instance : RustHash DisassociationReason :=
  ⟨fun r => [.isize (match r with | .coordinatorLeave => 0 | .deviceLeave => 1)]⟩

/-- command.rs:44-58 derived `Hash for CapabilityInformation`. -/
instance : RustHash CapabilityInformation :=
  ⟨fun c => calls c.fullFunctionDevice ++ calls c.mainsPower ++ calls c.idleReceive ++ calls c.frameProtection ++
    calls c.allocateAddress⟩

/-- command.rs:128-141 derived `Hash for CoordinatorRealignmentData`. -/
instance : RustHash CoordinatorRealignmentData :=
  ⟨fun d => calls d.panId ++ calls d.coordinatorAddress ++ calls d.channel ++ calls d.deviceAddress ++ calls d.channelPage⟩

/-- command.rs:189-198 derived `Hash for GuaranteedTimeSlotCharacteristics`. -/
instance : RustHash GtsCharacteristics := ⟨fun g => calls g.count ++ calls g.receiveOnly ++ calls g.allocation⟩

/-- command.rs:226-247 derived `Hash for Command`. -/
instance : RustHash Command :=
  ⟨fun c => match c with
    | .associationRequest c => .isize 0 :: calls c
    | .associationResponse a s => .isize 1 :: (calls a ++ calls s)
    | .disassociationNotification r => .isize 2 :: calls r
    | .dataRequest => [.isize 3]
    | .panIdConflictNotification => [.isize 4]
    | .orphanNotification => [.isize 5]
    | .beaconRequest => [.isize 6]
    | .coordinatorRealignment d => .isize 7 :: calls d
    | .guaranteedTimeSlotRequest g => .isize 8 :: calls g⟩

/-- frame/mod.rs:397-416 derived `Hash for FrameContent`. -/
instance : RustHash FrameContent :=
  ⟨fun c => match c with
    | .beacon b => .isize 0 :: calls b
    | .data => [.isize 1]
    | .acknowledgement => [.isize 2]
    | .command c => .isize 3 :: calls c
    | .multipurpose => [.isize 4]
    | .fragOrFragAck => [.isize 5]
    | .extended => [.isize 6]⟩

/-- frame/mod.rs:154-175 derived `Hash for Frame`. -/
instance : RustHash Frame :=
  ⟨fun f => calls f.header ++ calls f.content ++ octetCalls f.payload ++ octetCalls [f.footer.1, f.footer.2]⟩

/-- frame/mod.rs:451-483 derived `Hash for DecodeError`. -/
instance : RustHash DecodeError :=
  ⟨fun e => match e with
    | .notEnoughBytes => [.isize 0]
    | .invalidFrameType v => .isize 1 :: calls v
    | .securityEnabled => [.isize 2]
    | .invalidAddressMode v => .isize 3 :: calls v
    | .invalidFrameVersion v => .isize 4 :: calls v
    | .invalidSecurityLevel v => .isize 5 :: calls v
    | .invalidKeyIdentifierMode v => .isize 6 :: calls v
    | .missingSecurityCtx => [.isize 7]
    | .auxSecHeaderAbsent => [.isize 8]
    | .invalidValue => [.isize 9]⟩

/-- frame/mod.rs:521-533 derived `Hash for EncodeError`. -/
instance : RustHash EncodeError :=
  ⟨fun e => [.isize (match e with
    | .writeError => 0 | .missingSecurityCtx => 1 | .disallowedPanIdCompress => 2 | .unknownError => 3)]⟩

/-- header.rs:320, 359 (`hash32-derive` 0.1, external): `Hash32 for PanId` and `ShortAddress` writes the octets of the
field in the host's byte order. -/
def hash32U16 (cfg : Cfg) (v : UInt16) : List UInt8 := natToBytes cfg.native 2 v.toNat

/-- header.rs:401: `Hash32 for ExtendedAddress`. -/
def hash32U64 (cfg : Cfg) (v : UInt64) : List UInt8 := natToBytes cfg.native 8 v.toNat

end Verif
