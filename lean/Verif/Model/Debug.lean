import Verif.Model.Frame

/-!
# Derived `Debug`

Every public value type of the crate derives `core::fmt::Debug`; this is what `format!("{:?}", value)` gives, and what a
log or a failed `unwrap` shows. The derived implementation prints the name of the struct or
variant and the fields in the order of declaration, with their names if they have any. What the standard library's own
implementations print (integers, `bool`, `Option`, slices, arrays, `str`, and the punctuation of derived ones) is
external and modelled here from its documentation; it is part of the trusted base.

Simplifications: the plain form `{:?}` only, not `{:#?}`, `{:x?}` or a width; in a `str`, characters that cannot be
printed appear as they are instead of as `\u{…}` (no message of the crate contains one).
-/

namespace Verif

/-- A literal as a list of characters. -/
macro:max "c!" s:str : term => do
  let cs := s.getString.toList.toArray.map fun c => Lean.Syntax.mkCharLit c
  `([$cs,*])

/-- `format!("{:?}", value)`. -/
class RustDebug (α : Type) where
  debug : α → List Char

export RustDebug (debug)

/-- A decimal digit. -/
def digitChar (d : Nat) : Char :=
  if d = 0 then '0' else if d = 1 then '1' else if d = 2 then '2' else if d = 3 then '3' else if d = 4 then '4'
  else if d = 5 then '5' else if d = 6 then '6' else if d = 7 then '7' else if d = 8 then '8' else '9'

/-- `impl Debug` for the unsigned integers: decimal, without leading zeros. -/
def decimal (n : Nat) : List Char :=
  if n < 10 then [digitChar n] else decimal (n / 10) ++ [digitChar (n % 10)]

/-- Items with commas between them. -/
def withCommas : List (List Char) → List Char
  | [] => []
  | [x] => x
  | x :: y :: rest => x ++ (c!", " ++ withCommas (y :: rest))

/-- `Formatter::debug_struct`, as derived implementations use it: `Name { field: value, field: value }`. -/
def structOut (name : List Char) (fields : List (List Char × List Char)) : List Char :=
  name ++ (c!" { " ++ (withCommas (fields.map fun f => f.1 ++ (c!": " ++ f.2)) ++ c!" }"))

/-- `Formatter::debug_tuple`: `Name(value, value)`. -/
def tupleOut (name : List Char) (fields : List (List Char)) : List Char :=
  name ++ (c!"(" ++ (withCommas fields ++ c!")"))

/-- `Formatter::debug_list`: `[value, value]`. -/
def listOut (items : List (List Char)) : List Char := c!"[" ++ (withCommas items ++ c!"]")

/-- A character inside a `str`: `char::escape_debug` (simplified, see above; `'` is not escaped in a `str`). -/
def escaped (c : Char) : List Char :=
  if c = '"' then ['\\', '"'] else if c = '\\' then ['\\', '\\'] else if c = '\n' then ['\\', 'n']
  else if c = '\r' then ['\\', 'r'] else if c = '\t' then ['\\', 't'] else if c = '\x00' then ['\\', '0'] else [c]

/-- `impl Debug for str`. -/
def quoted (s : List Char) : List Char := '"' :: (s.flatMap escaped ++ ['"'])

instance : RustDebug UInt8 := ⟨fun v => decimal v.toNat⟩
instance : RustDebug UInt16 := ⟨fun v => decimal v.toNat⟩
instance : RustDebug UInt32 := ⟨fun v => decimal v.toNat⟩
instance : RustDebug UInt64 := ⟨fun v => decimal v.toNat⟩
/-- `impl Debug for usize`. -/
instance : RustDebug Nat := ⟨decimal⟩

/-- `impl Debug for bool`. -/
instance : RustDebug Bool := ⟨fun b => match b with | true => c!"true" | false => c!"false"⟩

/-- `impl Debug for Option` (derived in the standard library). -/
def optionOut {α : Type} [RustDebug α] (o : Option α) : List Char :=
  match o with
  | none => c!"None"
  | some a => tupleOut c!"Some" [debug a]

instance {α : Type} [RustDebug α] : RustDebug (Option α) := ⟨optionOut⟩

/-- `impl Debug for [u8]` and `[u8; 2]`. -/
instance : RustDebug (List UInt8) := ⟨fun octets => listOut (octets.map debug)⟩

/-- header.rs:320-323 derived `Debug for PanId`. -/
def panIdOut (v : PanId) : List Char := tupleOut c!"PanId" [debug v]
/-- header.rs:359-363 derived `Debug for ShortAddress`. -/
def shortAddressOut (v : ShortAddress) : List Char := tupleOut c!"ShortAddress" [debug v]
/-- header.rs:401-405 derived `Debug for ExtendedAddress`. -/
def extendedAddressOut (v : ExtendedAddress) : List Char := tupleOut c!"ExtendedAddress" [debug v]

/-- frame_control.rs:10-33 derived `Debug for FrameType`. -/
def FrameType.debugOut (t : FrameType) : List Char :=
  match t with
    | .beacon => c!"Beacon" | .data => c!"Data" | .acknowledgement => c!"Acknowledgement"
    | .macCommand => c!"MacCommand" | .multipurpose => c!"Multipurpose" | .fragOrFragAck => c!"FragOrFragAck"
    | .extended => c!"Extended"

instance : RustDebug FrameType := ⟨FrameType.debugOut⟩

/-- frame_control.rs:63-72 derived `Debug for FrameVersion`. -/
def FrameVersion.debugOut (v : FrameVersion) : List Char :=
  match v with
    | .ieee802154_2003 => c!"Ieee802154_2003" | .ieee802154_2006 => c!"Ieee802154_2006"
    | .ieee802154 => c!"Ieee802154"

instance : RustDebug FrameVersion := ⟨FrameVersion.debugOut⟩

/-- frame_control.rs:108-119 derived `Debug for AddressMode`. -/
def AddressMode.debugOut (m : AddressMode) : List Char :=
  match m with | .none => c!"None" | .short => c!"Short" | .extended => c!"Extended"

instance : RustDebug AddressMode := ⟨AddressMode.debugOut⟩

/-- security_control.rs:68-87 derived `Debug for SecurityLevel`. -/
def SecurityLevel.debugOut (l : SecurityLevel) : List Char :=
  match l with
    | .none => c!"None" | .mic32 => c!"MIC32" | .mic64 => c!"MIC64" | .mic128 => c!"MIC128"
    | .enc => c!"ENC" | .encmic32 => c!"ENCMIC32" | .encmic64 => c!"ENCMIC64" | .encmic128 => c!"ENCMIC128"

instance : RustDebug SecurityLevel := ⟨SecurityLevel.debugOut⟩

/-- security_control.rs:130-141 derived `Debug for KeyIdentifierMode`. -/
def KeyIdMode.debugOut (m : KeyIdMode) : List Char :=
  match m with
    | .none => c!"None" | .keyIndex => c!"KeyIndex" | .keySource4 => c!"KeySource4" | .keySource8 => c!"KeySource8"

instance : RustDebug KeyIdMode := ⟨KeyIdMode.debugOut⟩

/-- security_control.rs:9-19 derived `Debug for SecurityControl`. -/
def SecurityControl.debugOut (c : SecurityControl) : List Char :=
  structOut c!"SecurityControl"
    [(c!"security_level", debug c.securityLevel), (c!"key_id_mode", debug c.keyIdMode)]

instance : RustDebug SecurityControl := ⟨SecurityControl.debugOut⟩

/-- auxiliary_security_header.rs:184-191 derived `Debug for KeySource`. -/
def KeySource.debugOut (s : KeySource) : List Char :=
  match s with
    | .short v => tupleOut c!"Short" [debug v]
    | .long v => tupleOut c!"Long" [debug v]

instance : RustDebug KeySource := ⟨KeySource.debugOut⟩

/-- auxiliary_security_header.rs:157-164 derived `Debug for KeyIdentifier`. -/
def KeyIdentifier.debugOut (k : KeyIdentifier) : List Char :=
  structOut c!"KeyIdentifier" [(c!"key_source", debug k.keySource), (c!"key_index", debug k.keyIndex)]

instance : RustDebug KeyIdentifier := ⟨KeyIdentifier.debugOut⟩

/-- auxiliary_security_header.rs:12-22 derived `Debug for AuxiliarySecurityHeader`. -/
def AuxHeader.debugOut (a : AuxHeader) : List Char :=
  structOut c!"AuxiliarySecurityHeader"
    [(c!"control", debug a.control), (c!"frame_counter", debug a.frameCounter),
     (c!"key_identifier", debug a.keyIdentifier)]

instance : RustDebug AuxHeader := ⟨AuxHeader.debugOut⟩

/-- header.rs:433-441 derived `Debug for Address`. -/
def Address.debugOut (a : Address) : List Char :=
  match a with
    | .short p s => tupleOut c!"Short" [panIdOut p, shortAddressOut s]
    | .extended p s => tupleOut c!"Extended" [panIdOut p, extendedAddressOut s]

instance : RustDebug Address := ⟨Address.debugOut⟩

/-- header.rs:24-82 derived `Debug for Header`. -/
def Header.debugOut (h : Header) : List Char :=
  structOut c!"Header"
    [(c!"frame_type", debug h.frameType), (c!"frame_pending", debug h.framePending),
     (c!"ack_request", debug h.ackRequest), (c!"pan_id_compress", debug h.panIdCompress),
     (c!"seq_no_suppress", debug h.seqNoSuppress), (c!"ie_present", debug h.iePresent),
     (c!"version", debug h.version), (c!"seq", debug h.seq), (c!"destination", debug h.destination),
     (c!"source", debug h.source), (c!"auxiliary_security_header", debug h.auxSec)]

instance : RustDebug Header := ⟨Header.debugOut⟩

/-- beacon.rs:12-21 derived `Debug for BeaconOrder`. -/
def BeaconOrder.debugOut (o : BeaconOrder) : List Char :=
  match o with
    | .beaconOrder v => tupleOut c!"BeaconOrder" [debug v]
    | .onDemand => c!"OnDemand"

instance : RustDebug BeaconOrder := ⟨BeaconOrder.debugOut⟩

/-- beacon.rs:44-53 derived `Debug for SuperframeOrder`. -/
def SuperframeOrder.debugOut (o : SuperframeOrder) : List Char :=
  match o with
    | .superframeOrder v => tupleOut c!"SuperframeOrder" [debug v]
    | .inactive => c!"Inactive"

instance : RustDebug SuperframeOrder := ⟨SuperframeOrder.debugOut⟩

/-- beacon.rs:79-96 derived `Debug for SuperframeSpecification`. -/
def SuperframeSpec.debugOut (s : SuperframeSpec) : List Char :=
  structOut c!"SuperframeSpecification"
    [(c!"beacon_order", debug s.beaconOrder), (c!"superframe_order", debug s.superframeOrder),
     (c!"final_cap_slot", debug s.finalCapSlot), (c!"battery_life_extension", debug s.batteryLifeExtension),
     (c!"pan_coordinator", debug s.panCoordinator), (c!"association_permit", debug s.associationPermit)]

instance : RustDebug SuperframeSpec := ⟨SuperframeSpec.debugOut⟩

/-- beacon.rs:157-164 derived `Debug for Direction`. -/
def Direction.debugOut (d : Direction) : List Char :=
  match d with | .receive => c!"Receive" | .transmit => c!"Transmit"

instance : RustDebug Direction := ⟨Direction.debugOut⟩

/-- beacon.rs:167-178 derived `Debug for GuaranteedTimeSlotDescriptor`. -/
def GtsDescriptor.debugOut (g : GtsDescriptor) : List Char :=
  structOut c!"GuaranteedTimeSlotDescriptor"
    [(c!"short_address", shortAddressOut g.shortAddress), (c!"starting_slot", debug g.startingSlot),
     (c!"length", debug g.length), (c!"direction", debug g.direction)]

instance : RustDebug GtsDescriptor := ⟨GtsDescriptor.debugOut⟩

/-- beacon.rs:237-244 derived `Debug for GuaranteedTimeSlotInformation`: also the unused entries. -/
def GtsInfo.debugOut (g : GtsInfo) : List Char :=
  structOut c!"GuaranteedTimeSlotInformation"
    [(c!"permit", debug g.permit), (c!"slot_count", debug g.slotCount), (c!"slots", listOut (g.slots.toList.map debug))]

instance : RustDebug GtsInfo := ⟨GtsInfo.debugOut⟩

/-- beacon.rs:356-363 derived `Debug for PendingAddress`: also the unused entries. -/
def PendingAddress.debugOut (p : PendingAddress) : List Char :=
  structOut c!"PendingAddress"
    [(c!"short_address_count", debug p.shortCount),
     (c!"short_addresses", listOut (p.shorts.toList.map shortAddressOut)),
     (c!"extended_address_count", debug p.extendedCount),
     (c!"extended_addresses", listOut (p.extendeds.toList.map extendedAddressOut))]

instance : RustDebug PendingAddress := ⟨PendingAddress.debugOut⟩

/-- beacon.rs:442-451 derived `Debug for Beacon`. -/
def Beacon.debugOut (b : Beacon) : List Char :=
  structOut c!"Beacon"
    [(c!"superframe_spec", debug b.superframeSpec), (c!"guaranteed_time_slot_info", debug b.gtsInfo),
     (c!"pending_address", debug b.pendingAddress)]

instance : RustDebug Beacon := ⟨Beacon.debugOut⟩

/-- utils.rs:17-24 and command.rs:12-33: derived `Debug for CommandId`. -/
def CommandId.debugOut (c : CommandId) : List Char :=
  match c with
    | .associationRequest => c!"AssociationRequest" | .associationResponse => c!"AssociationResponse"
    | .disassociationNotification => c!"DisassociationNotification" | .dataRequest => c!"DataRequest"
    | .panIdConflictNotification => c!"PanIdConflictNotification" | .orphanNotification => c!"OrphanNotification"
    | .beaconRequest => c!"BeaconRequest" | .coordinatorRealignment => c!"CoordinatorRealignment"
    | .guaranteedTimeSlotRequest => c!"GuaranteedTimeSlotRequest"

instance : RustDebug CommandId := ⟨CommandId.debugOut⟩

/-- utils.rs:17-24 and command.rs:101-114: derived `Debug for AssociationStatus`. -/
def AssociationStatus.debugOut (s : AssociationStatus) : List Char :=
  match s with
    | .successful => c!"Successful" | .networkAtCapacity => c!"NetworkAtCapacity" | .accessDenied => c!"AccessDenied"
    | .hoppingSequenceOffsetDuplication => c!"HoppingSequenceOffsetDuplication"
    | .fastAssociationSuccesful => c!"FastAssociationSuccesful"

instance : RustDebug AssociationStatus := ⟨AssociationStatus.debugOut⟩

/-- utils.rs:17-24 and command.rs:116-123: derived `Debug for DisassociationReason`. -/
def DisassociationReason.debugOut (r : DisassociationReason) : List Char :=
  match r with | .coordinatorLeave => c!"CoordinatorLeave" | .deviceLeave => c!"DeviceLeave"

instance : RustDebug DisassociationReason := ⟨DisassociationReason.debugOut⟩

/-- command.rs:44-58 derived `Debug for CapabilityInformation`. -/
def CapabilityInformation.debugOut (c : CapabilityInformation) : List Char :=
  structOut c!"CapabilityInformation"
    [(c!"full_function_device", debug c.fullFunctionDevice), (c!"mains_power", debug c.mainsPower),
     (c!"idle_receive", debug c.idleReceive), (c!"frame_protection", debug c.frameProtection),
     (c!"allocate_address", debug c.allocateAddress)]

instance : RustDebug CapabilityInformation := ⟨CapabilityInformation.debugOut⟩

/-- command.rs:128-141 derived `Debug for CoordinatorRealignmentData`. -/
def CoordinatorRealignmentData.debugOut (d : CoordinatorRealignmentData) : List Char :=
  structOut c!"CoordinatorRealignmentData"
    [(c!"pan_id", panIdOut d.panId), (c!"coordinator_address", shortAddressOut d.coordinatorAddress),
     (c!"channel", debug d.channel), (c!"device_address", shortAddressOut d.deviceAddress),
     (c!"channel_page", debug d.channelPage)]

instance : RustDebug CoordinatorRealignmentData := ⟨CoordinatorRealignmentData.debugOut⟩

/-- command.rs:189-198 derived `Debug for GuaranteedTimeSlotCharacteristics`. -/
def GtsCharacteristics.debugOut (g : GtsCharacteristics) : List Char :=
  structOut c!"GuaranteedTimeSlotCharacteristics"
    [(c!"count", debug g.count), (c!"receive_only", debug g.receiveOnly), (c!"allocation", debug g.allocation)]

instance : RustDebug GtsCharacteristics := ⟨GtsCharacteristics.debugOut⟩

/-- command.rs:226-247 derived `Debug for Command`. -/
def Command.debugOut (c : Command) : List Char :=
  match c with
    | .associationRequest c => tupleOut c!"AssociationRequest" [debug c]
    | .associationResponse a s => tupleOut c!"AssociationResponse" [shortAddressOut a, debug s]
    | .disassociationNotification r => tupleOut c!"DisassociationNotification" [debug r]
    | .dataRequest => c!"DataRequest"
    | .panIdConflictNotification => c!"PanIdConflictNotification"
    | .orphanNotification => c!"OrphanNotification"
    | .beaconRequest => c!"BeaconRequest"
    | .coordinatorRealignment d => tupleOut c!"CoordinatorRealignment" [debug d]
    | .guaranteedTimeSlotRequest g => tupleOut c!"GuaranteedTimeSlotRequest" [debug g]

instance : RustDebug Command := ⟨Command.debugOut⟩

/-- frame/mod.rs:397-416 derived `Debug for FrameContent`. -/
def FrameContent.debugOut (c : FrameContent) : List Char :=
  match c with
    | .beacon b => tupleOut c!"Beacon" [debug b]
    | .data => c!"Data"
    | .acknowledgement => c!"Acknowledgement"
    | .command c => tupleOut c!"Command" [debug c]
    | .multipurpose => c!"Multipurpose"
    | .fragOrFragAck => c!"FragOrFragAck"
    | .extended => c!"Extended"

instance : RustDebug FrameContent := ⟨FrameContent.debugOut⟩

/-- frame/mod.rs:154-175 derived `Debug for Frame`. -/
def Frame.debugOut (f : Frame) : List Char :=
  structOut c!"Frame"
    [(c!"header", debug f.header), (c!"content", debug f.content), (c!"payload", debug f.payload),
     (c!"footer", debug [f.footer.1, f.footer.2])]

instance : RustDebug Frame := ⟨Frame.debugOut⟩

/-- frame/mod.rs:451-483 derived `Debug for DecodeError`. -/
def DecodeError.debugOut (e : DecodeError) : List Char :=
  match e with
    | .notEnoughBytes => c!"NotEnoughBytes"
    | .invalidFrameType v => tupleOut c!"InvalidFrameType" [debug v]
    | .securityEnabled => c!"SecurityEnabled"
    | .invalidAddressMode v => tupleOut c!"InvalidAddressMode" [debug v]
    | .invalidFrameVersion v => tupleOut c!"InvalidFrameVersion" [debug v]
    | .invalidSecurityLevel v => tupleOut c!"InvalidSecurityLevel" [debug v]
    | .invalidKeyIdentifierMode v => tupleOut c!"InvalidKeyIdentifierMode" [debug v]
    | .missingSecurityCtx => c!"MissingSecurityCtx"
    | .auxSecHeaderAbsent => c!"AuxSecHeaderAbsent"
    | .invalidValue => c!"InvalidValue"

instance : RustDebug DecodeError := ⟨DecodeError.debugOut⟩

/-- frame/mod.rs:521-533 derived `Debug for EncodeError`. -/
def EncodeError.debugOut (e : EncodeError) : List Char :=
  match e with
    | .writeError => c!"WriteError" | .missingSecurityCtx => c!"MissingSecurityCtx"
    | .disallowedPanIdCompress => c!"DisallowedPanIdCompress" | .unknownError => c!"UnknownError"

instance : RustDebug EncodeError := ⟨EncodeError.debugOut⟩

/-- byte 0.2.7 (external): derived `Debug for byte::Error`. -/
def ByteErr.debugOut (e : ByteErr) : List Char :=
  match e with
    | .incomplete => c!"Incomplete"
    | .badOffset n => tupleOut c!"BadOffset" [debug n]
    | .badInput err => structOut c!"BadInput" [(c!"err", quoted err.toList)]

instance : RustDebug ByteErr := ⟨ByteErr.debugOut⟩

/-- security/mod.rs:680-722 derived `Debug for SecurityError`. -/
def SecErr.debugOut (e : SecErr) : List Char :=
  match e with
    | .securityNotEnabled => c!"SecurityNotEnabled" | .invalidSecContext => c!"InvalidSecContext"
    | .frameTooLong => c!"FrameTooLong" | .counterError => c!"CounterError" | .unavailableKey => c!"UnavailableKey"
    | .keyFailure => c!"KeyFailure" | .noSourceAddress => c!"NoSourceAddress"
    | .noDestinationAddress => c!"NoDestinationAddress" | .transformationError => c!"TransformationError"
    | .writeError e => tupleOut c!"WriteError" [debug e]
    | .tagWriteError => c!"TagWriteError" | .notImplemented => c!"NotImplemented"
    | .auxSecHeaderAbsent => c!"AuxSecHeaderAbsent" | .keyIdentifierMismatch => c!"KeyIdentifierMismatch"
    | .unsupportedLegacy => c!"UnsupportedLegacy" | .unsupportedSecurity => c!"UnsupportedSecurity"
    | .unavailableDevice => c!"UnavailableDevice"
    | .keyLookupAddressTypeMismatch => c!"KeyLookupAddressTypeMismatch"

instance : RustDebug SecErr := ⟨SecErr.debugOut⟩

end Verif
