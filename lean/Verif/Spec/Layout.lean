import Verif.Model.Frame

/-!
# Specification: the octets on the air

Independent statement of the wire layouts, in arithmetic (no bit operations), to be read next to
IEEE 802.15.4-2015 clause 7 and the crate's documentation.  Nothing here refers to the
reader/writer functions of the model, only to its data types.
-/

namespace Verif.Spec

/-- The `k` low-order octets of `n`, least significant first. -/
def le (k n : Nat) : List UInt8 := (List.range k).map fun i => UInt8.ofNat (n / 256 ^ i)

/-- The `k` low-order octets of `n` in the byte order `e`. -/
def inOrder (e : Endian) (k n : Nat) : List UInt8 :=
  match e with
  | .little => le k n
  | .big => (le k n).reverse

/-- A flag as a number. -/
def bit (b : Bool) : Nat := if b then 1 else 0

/-! ## Code points -/

/-- Frame type subfield. -/
def typeCode : FrameType → Nat
  | .beacon => 0 | .data => 1 | .acknowledgement => 2 | .macCommand => 3
  | .multipurpose => 5 | .fragOrFragAck => 6 | .extended => 7

/-- Frame version subfield. -/
def versionCode : FrameVersion → Nat
  | .ieee802154_2003 => 0 | .ieee802154_2006 => 1 | .ieee802154 => 2

/-- Addressing mode subfield. -/
def modeCode : Option Address → Nat
  | none => 0
  | some (.short ..) => 2
  | some (.extended ..) => 3

/-- Security level subfield. -/
def levelCode : SecurityLevel → Nat
  | .none => 0 | .mic32 => 1 | .mic64 => 2 | .mic128 => 3
  | .enc => 4 | .encmic32 => 5 | .encmic64 => 6 | .encmic128 => 7

/-- Length of the tag (MIC) in octets. -/
def tagLength : SecurityLevel → Nat
  | .none => 0 | .mic32 => 4 | .mic64 => 8 | .mic128 => 16
  | .enc => 0 | .encmic32 => 4 | .encmic64 => 8 | .encmic128 => 16

/-- Key identifier mode subfield of a key identifier. -/
def keyModeCode : Option KeyIdentifier → Nat
  | none => 0
  | some ⟨none, _⟩ => 1
  | some ⟨some (.short _), _⟩ => 2
  | some ⟨some (.long _), _⟩ => 3

/-- Numeric key-id mode. -/
def keyIdModeCode : KeyIdMode → Nat
  | .none => 0 | .keyIndex => 1 | .keySource4 => 2 | .keySource8 => 3

/-! ## Auxiliary security header -/

/-- Key identifier field. -/
def keyIdentifierOctets (order : Endian) : Option KeyIdentifier → List UInt8
  | none => []
  | some ⟨none, i⟩ => [i]
  | some ⟨some (.short v), i⟩ => inOrder order 4 v.toNat ++ [i]
  | some ⟨some (.long v), i⟩ => inOrder order 8 v.toNat ++ [i]

/-- Auxiliary security header: control octet (level in bits 0-2, key-id mode in bits 3-4,
`reserved < 8` in bits 5-7), frame counter, key identifier. -/
def auxOctets (counterOrder keyOrder : Endian) (reserved : Nat) (level : SecurityLevel)
    (counter : UInt32) (k : Option KeyIdentifier) : List UInt8 :=
  [UInt8.ofNat (levelCode level + 8 * keyModeCode k + 32 * reserved)]
    ++ inOrder counterOrder 4 counter.toNat ++ keyIdentifierOctets keyOrder k

/-- Length of an auxiliary header with the given key identifier. -/
def auxLength (k : Option KeyIdentifier) : Nat :=
  5 + match k with
    | none => 0
    | some ⟨none, _⟩ => 1
    | some ⟨some (.short _), _⟩ => 5
    | some ⟨some (.long _), _⟩ => 9

/-- Octets an auxiliary header needs, as announced by its control octet (5 when that octet itself
is missing). -/
def auxNeed : List UInt8 → Nat
  | [] => 5
  | b :: _ =>
    match b.toNat / 8 % 4 with
    | 0 => 5
    | 1 => 6
    | 2 => 10
    | _ => 14

/-! ## MAC header -/

/-- An address without its PAN identifier. -/
def addrOctets : Address → List UInt8
  | .short _ a => le 2 a.toNat
  | .extended _ a => le 8 a.toNat

/-- PAN identifier of an address. -/
def panOf : Address → UInt16
  | .short p _ => p
  | .extended p _ => p

/-- PAN identifier and address. -/
def fullAddrOctets (a : Address) : List UInt8 := le 2 (panOf a).toNat ++ addrOctets a

/-- Destination addressing fields. -/
def dstOctets : Option Address → List UInt8
  | none => []
  | some a => fullAddrOctets a

/-- Source addressing fields. -/
def srcOctets (compressed : Bool) : Option Address → List UInt8
  | none => []
  | some a => if compressed then addrOctets a else fullAddrOctets a

/-- Frame control field, with bits 7 (reserved), 8 (sequence number suppression) and 9
(IE present) given separately. -/
def frameControl (h : Header) (b7 b8 b9 : Bool) : Nat :=
  typeCode h.frameType + 8 * bit h.auxSec.isSome + 16 * bit h.framePending
    + 32 * bit h.ackRequest + 64 * bit h.panIdCompress + 128 * bit b7 + 256 * bit b8
    + 512 * bit b9 + 1024 * modeCode h.destination + 4096 * versionCode h.version
    + 16384 * modeCode h.source

/-- A header on the air, given bits 7-9 and the octets of the auxiliary security header. -/
def headerOctets (h : Header) (b7 b8 b9 : Bool) (aux : List UInt8) : List UInt8 :=
  le 2 (frameControl h b7 b8 b9) ++ [h.seq] ++ dstOctets h.destination
    ++ srcOctets h.panIdCompress h.source ++ aux

/-- Length of a header with both PAN identifiers in full and no auxiliary security header. -/
def uncompressedLength (h : Header) : Nat :=
  3 + (dstOctets h.destination).length + (srcOctets false h.source).length

/-- The headers the encoder has an encoding for: compression needs both addresses. -/
def Encodable (h : Header) : Prop :=
  h.panIdCompress = true → h.destination.isSome = true ∧ h.source.isSome = true

instance (h : Header) : Decidable (Encodable h) := inferInstanceAs (Decidable (_ → _))

/-- A compressed source address stands in the destination's PAN. -/
def SamePan (h : Header) : Prop :=
  ∀ d s, h.destination = some d → h.source = some s → panOf s = panOf d

/-- The key-id mode named by a key identifier. -/
def keyIdModeOf : Option KeyIdentifier → KeyIdMode
  | none => .none
  | some ⟨none, _⟩ => .keyIndex
  | some ⟨some (.short _), _⟩ => .keySource4
  | some ⟨some (.long _), _⟩ => .keySource8

/-- `l` is a received auxiliary security header field (possibly absent) with value `a`:
little-endian counter, key source in host order, reserved control bits arbitrary. -/
def AuxOnWire (cfg : Cfg) (a : Option AuxHeader) (l : List UInt8) : Prop :=
  match a with
  | none => l = []
  | some a => a.control.keyIdMode = keyIdModeOf a.keyIdentifier ∧ ∃ r < 8,
      l = auxOctets .little cfg.native r a.control.securityLevel a.frameCounter a.keyIdentifier

/-- `l` is a received header with value `h`: bit 7 arbitrary, bits 8 and 9 the two flags, PAN
compression only with a destination and then with the destination's PAN for the source. -/
def HeaderOnWire (cfg : Cfg) (h : Header) (l : List UInt8) : Prop :=
  (h.panIdCompress = true → h.destination.isSome = true ∧ SamePan h) ∧
  ∃ b7 aux, AuxOnWire cfg h.auxSec aux ∧ l = headerOctets h b7 h.seqNoSuppress h.iePresent aux

/-- Length of an addressing field for mode bits `0`, `2`, `3`, with or without PAN identifier. -/
def addrLength (mode : Nat) (withPan : Bool) : Nat :=
  match mode with
  | 0 => 0
  | 2 => 2 + 2 * bit withPan
  | _ => 8 + 2 * bit withPan

/-! ## Beacon -/

/-- Beacon order subfield. -/
def beaconOrderCode : BeaconOrder → Nat
  | .beaconOrder v => v.toNat
  | .onDemand => 15

/-- Superframe order subfield. -/
def superframeOrderCode : SuperframeOrder → Nat
  | .superframeOrder v => v.toNat
  | .inactive => 15

/-- Superframe specification: beacon order in bits 0-3, superframe order in bits 4-7, final CAP
slot in bits 8-11, battery life extension bit 12, reserved bit 13, PAN coordinator bit 14,
association permit bit 15.  Out-of-range fields are reduced modulo 16. -/
def superframeOctets (s : SuperframeSpec) (b13 : Bool) : List UInt8 :=
  [UInt8.ofNat (beaconOrderCode s.beaconOrder % 16 + 16 * (superframeOrderCode s.superframeOrder % 16)),
   UInt8.ofNat (s.finalCapSlot.toNat % 16 + 16 * bit s.batteryLifeExtension + 32 * bit b13
      + 64 * bit s.panCoordinator + 128 * bit s.associationPermit)]

/-- Superframe specification whose fields fit. -/
def SuperframeInRange (s : SuperframeSpec) : Prop :=
  (∀ v, s.beaconOrder = .beaconOrder v → v.toNat ≤ 14) ∧
  (∀ v, s.superframeOrder = .superframeOrder v → v.toNat ≤ 14) ∧ s.finalCapSlot.toNat ≤ 15

/-- A GTS descriptor: short address, then starting slot in bits 0-3 and length in bits 4-7. -/
def slotOctets (d : GtsDescriptor) : List UInt8 :=
  le 2 d.shortAddress.toNat ++ [UInt8.ofNat (d.startingSlot.toNat + 16 * d.length.toNat)]

/-- Directions octet: bit `i` set iff slot `i` is a transmit slot. -/
def directionsValue : List GtsDescriptor → Nat
  | [] => 0
  | d :: ds => (if d.direction = .transmit then 1 else 0) + 2 * directionsValue ds

/-- The first `n` entries of a list of slots. -/
def activeSlots (g : GtsInfo) : List GtsDescriptor := g.slots.toList.take g.slotCount

/-- GTS information: count in bits 0-2 and permit in bit 7, then (if any) directions and slots.
`reserved < 16` are bits 3-6 of the first octet, `dirReserved` the bits of the directions octet
above the slot count. -/
def gtsOctets (g : GtsInfo) (reserved dirReserved : Nat) : List UInt8 :=
  [UInt8.ofNat (g.slotCount + 8 * reserved + 128 * bit g.permit)] ++
    if g.slotCount = 0 then [] else
      [UInt8.ofNat (directionsValue (activeSlots g) + 2 ^ g.slotCount * dirReserved)]
        ++ (activeSlots g).flatMap slotOctets

/-- Pending address field: short count in bits 0-2, extended count in bits 4-6 (`r3`, `r7` are the
reserved bits 3 and 7), short addresses, extended addresses. -/
def pendingOctets (p : PendingAddress) (r3 r7 : Bool) : List UInt8 :=
  [UInt8.ofNat (p.shortCount + 8 * bit r3 + 16 * p.extendedCount + 128 * bit r7)]
    ++ (p.shorts.toList.take p.shortCount).flatMap (fun a => le 2 a.toNat)
    ++ (p.extendeds.toList.take p.extendedCount).flatMap (fun a => le 8 a.toNat)

/-- A beacon as the encoder writes it (reserved bits zero). -/
def beaconOctets (b : Beacon) : List UInt8 :=
  superframeOctets b.superframeSpec false ++ gtsOctets b.gtsInfo 0 0
    ++ pendingOctets b.pendingAddress false false

/-! ## Commands -/

/-- Capability information: bits 1, 2, 3, 6, 7. -/
def capabilityValue (c : CapabilityInformation) : Nat :=
  2 * bit c.fullFunctionDevice + 4 * bit c.mainsPower + 8 * bit c.idleReceive
    + 64 * bit c.frameProtection + 128 * bit c.allocateAddress

/-- Association status codes. -/
def statusCode : AssociationStatus → Nat
  | .successful => 0 | .networkAtCapacity => 1 | .accessDenied => 2
  | .hoppingSequenceOffsetDuplication => 3 | .fastAssociationSuccesful => 128

/-- Disassociation reason codes. -/
def reasonCode : DisassociationReason → Nat
  | .coordinatorLeave => 1 | .deviceLeave => 2

/-- GTS characteristics: length in bits 0-3 (reduced modulo 16), direction bit 4, type bit 5. -/
def characteristicsValue (g : GtsCharacteristics) : Nat :=
  g.count.toNat % 16 + 16 * bit g.receiveOnly + 32 * bit g.allocation

/-- Channel page field of a realignment command. -/
def pageOctets : Option UInt8 → List UInt8
  | none => []
  | some p => [p]

/-- Command identifier and fields. -/
def commandOctets : Command → List UInt8
  | .associationRequest c => [1, UInt8.ofNat (capabilityValue c)]
  | .associationResponse a s => [2] ++ le 2 a.toNat ++ [UInt8.ofNat (statusCode s)]
  | .disassociationNotification r => [3, UInt8.ofNat (reasonCode r)]
  | .dataRequest => [4]
  | .panIdConflictNotification => [5]
  | .orphanNotification => [6]
  | .beaconRequest => [7]
  | .coordinatorRealignment d =>
      [8] ++ le 2 d.panId.toNat ++ le 2 d.coordinatorAddress.toNat ++ [d.channel]
        ++ le 2 d.deviceAddress.toNat ++ pageOctets d.channelPage
  | .guaranteedTimeSlotRequest g => [9, UInt8.ofNat (characteristicsValue g)]

/-! ## Frames -/

/-- Content octets. -/
def contentOctets : FrameContent → List UInt8
  | .beacon b => beaconOctets b
  | .command c => commandOctets c
  | _ => []

/-- The content variant named by a frame type. -/
def ContentMatches (t : FrameType) (c : FrameContent) : Prop :=
  match t with
  | .beacon => ∃ b, c = .beacon b
  | .data => c = .data
  | .acknowledgement => c = .acknowledgement
  | .macCommand => ∃ m, c = .command m
  | .multipurpose => c = .multipurpose
  | .fragOrFragAck => c = .fragOrFragAck
  | .extended => c = .extended

/-- Footer octets according to the footer mode. -/
def footerOctets (mode : FooterMode) (footer : UInt8 × UInt8) : List UInt8 :=
  match mode with
  | .none => []
  | .explicit => [footer.1, footer.2]

/-- CCM nonce of IEEE 802.15.4-2006 as the code builds it: EUI-64 and counter little-endian, then
the security level. -/
def nonceOctets (eui : UInt64) (counter : UInt32) (level : SecurityLevel) : List UInt8 :=
  le 8 eui.toNat ++ le 4 counter.toNat ++ [UInt8.ofNat (levelCode level)]

end Verif.Spec
