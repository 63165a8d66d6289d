import Verif.Model.AuxSec

/-!
# MAC header — `/repo/src/mac/frame/header.rs:19-307`, `/repo/src/mac/frame/frame_control.rs:163-187`
-/

namespace Verif

namespace FcOffset
/-- frame_control.rs:164 `offset::FRAME_TYPE`. -/
def FRAME_TYPE : UInt16 := 0
/-- frame_control.rs:165 `offset::SECURITY`. -/
def SECURITY : UInt16 := 3
/-- frame_control.rs:166 `offset::PENDING`. -/
def PENDING : UInt16 := 4
/-- frame_control.rs:167 `offset::ACK`. -/
def ACK : UInt16 := 5
/-- frame_control.rs:168 `offset::PAN_ID_COMPRESS`. -/
def PAN_ID_COMPRESS : UInt16 := 6
/-- frame_control.rs:169 `offset::SEQ_NO_SUPPRESS`. -/
def SEQ_NO_SUPPRESS : UInt16 := 8
/-- frame_control.rs:170 `offset::IE_PRESENT`. -/
def IE_PRESENT : UInt16 := 9
/-- frame_control.rs:171 `offset::DEST_ADDR_MODE`. -/
def DEST_ADDR_MODE : UInt16 := 10
/-- frame_control.rs:172 `offset::VERSION`. -/
def VERSION : UInt16 := 12
/-- frame_control.rs:173 `offset::SRC_ADDR_MODE`. -/
def SRC_ADDR_MODE : UInt16 := 14
end FcOffset

namespace FcMask
/-- frame_control.rs:177 `mask::FRAME_TYPE`. -/
def FRAME_TYPE : UInt16 := 0x0007
/-- frame_control.rs:178 `mask::SECURITY`. -/
def SECURITY : UInt16 := 0x0008
/-- frame_control.rs:179 `mask::PENDING`. -/
def PENDING : UInt16 := 0x0010
/-- frame_control.rs:180 `mask::ACK`. -/
def ACK : UInt16 := 0x0020
/-- frame_control.rs:181 `mask::PAN_ID_COMPRESS`. -/
def PAN_ID_COMPRESS : UInt16 := 0x0040
/-- frame_control.rs:182 `mask::SEQ_NO_SUPPRESS`. -/
def SEQ_NO_SUPPRESS : UInt16 := 0x0100
/-- frame_control.rs:183 `mask::IE_PRESENT`. -/
def IE_PRESENT : UInt16 := 0x0200
/-- frame_control.rs:184 `mask::DEST_ADDR_MODE`. -/
def DEST_ADDR_MODE : UInt16 := 0x0C00
/-- frame_control.rs:185 `mask::VERSION`. -/
def VERSION : UInt16 := 0x3000
/-- frame_control.rs:186 `mask::SRC_ADDR_MODE`. -/
def SRC_ADDR_MODE : UInt16 := 0xC000
end FcMask

/-- header.rs:26-83 `struct Header`. -/
structure Header where
  frameType : FrameType
  framePending : Bool
  ackRequest : Bool
  panIdCompress : Bool
  seqNoSuppress : Bool
  iePresent : Bool
  version : FrameVersion
  seq : UInt8
  destination : Option Address
  source : Option Address
  auxSec : Option AuxHeader
deriving DecidableEq, Repr

namespace Header

/-- header.rs:91-104, the body of the loop over `[destination, source]`. -/
def addrOctets : Option Address → Nat
  | some (.short ..) => 2 + 2
  | some (.extended ..) => 2 + 8
  | none => 0

/-- header.rs:87-106 `Header::get_octet_size`. -/
def octetSize (h : Header) : Nat := 3 + addrOctets h.destination + addrOctets h.source

/-- header.rs:109-111 `Header::has_security`. -/
def hasSecurity (h : Header) : Bool := h.auxSec.isSome

/-- header.rs:114-231 `TryRead for Header`. -/
def tryRead (cfg : Cfg) : TryRead Header := R.run do
  R.checkLen 0 3
  let bits ← R.read (tryReadU16 .little)
  let frameType := ((bits &&& FcMask.FRAME_TYPE) >>> FcOffset.FRAME_TYPE).toUInt8
  let security := ((bits &&& FcMask.SECURITY) >>> FcOffset.SECURITY).toUInt8
  let framePending := ((bits &&& FcMask.PENDING) >>> FcOffset.PENDING).toUInt8
  let ackRequest := ((bits &&& FcMask.ACK) >>> FcOffset.ACK).toUInt8
  let panIdCompress := ((bits &&& FcMask.PAN_ID_COMPRESS) >>> FcOffset.PAN_ID_COMPRESS).toUInt8
  let seqNoSuppress := ((bits &&& FcMask.SEQ_NO_SUPPRESS) >>> FcOffset.SEQ_NO_SUPPRESS).toUInt8
  let iePresent := ((bits &&& FcMask.IE_PRESENT) >>> FcOffset.IE_PRESENT).toUInt8
  let destAddrMode := ((bits &&& FcMask.DEST_ADDR_MODE) >>> FcOffset.DEST_ADDR_MODE).toUInt8
  let version := ((bits &&& FcMask.VERSION) >>> FcOffset.VERSION).toUInt8
  let srcAddrMode := ((bits &&& FcMask.SRC_ADDR_MODE) >>> FcOffset.SRC_ADDR_MODE).toUInt8
  let version ← R.okOr (FrameVersion.fromBits version)
    (DecodeError.invalidFrameVersion version).toByteErr
  let frameType ← R.okOr (FrameType.fromBits frameType)
    (DecodeError.invalidFrameType frameType).toByteErr
  let destAddrMode ← R.lift ((AddressMode.fromBits destAddrMode).mapErr DecodeError.toByteErr)
  let srcAddrMode ← R.lift ((AddressMode.fromBits srcAddrMode).mapErr DecodeError.toByteErr)
  let security : Bool := security > 0
  let framePending : Bool := framePending > 0
  let ackRequest : Bool := ackRequest > 0
  let panIdCompress : Bool := panIdCompress > 0
  let seqNoSuppress : Bool := seqNoSuppress > 0
  let iePresent : Bool := iePresent > 0
  let seq ← R.read tryReadU8
  let destination ← (match destAddrMode with
    | .none => pure none
    | .short => do
        let pan ← R.read PanId.tryRead
        let addr ← R.read ShortAddress.tryRead
        pure (some (Address.short pan addr))
    | .extended => do
        let pan ← R.read PanId.tryRead
        let addr ← R.read ExtendedAddress.tryRead
        pure (some (Address.extended pan addr)) : R (Option Address))
  if panIdCompress then
    let _ ← R.okOr destination (ByteErr.badInput "InvalidAddressMode")
  let source ← (match srcAddrMode with
    | .none => pure none
    | .short =>
        if panIdCompress then do
          let d ← R.unwrap destination
          let addr ← R.read ShortAddress.tryRead
          pure (some (Address.short d.panId addr))
        else do
          let pan ← R.read PanId.tryRead
          let addr ← R.read ShortAddress.tryRead
          pure (some (Address.short pan addr))
    | .extended =>
        if panIdCompress then do
          let d ← R.unwrap destination
          let addr ← R.read ExtendedAddress.tryRead
          pure (some (Address.extended d.panId addr))
        else do
          let pan ← R.read PanId.tryRead
          let addr ← R.read ExtendedAddress.tryRead
          pure (some (Address.extended pan addr)) : R (Option Address))
  let auxSec ← (match security with
    | true => do
        let a ← R.read (AuxHeader.tryRead cfg)
        pure (some a)
    | false => pure none : R (Option AuxHeader))
  pure { frameType, framePending, ackRequest, panIdCompress, seqNoSuppress, iePresent,
         version, seq, destination, source, auxSec }

/-- header.rs:250-257 `frame_control_raw`. -/
def frameControlRaw (h : Header) : UInt16 :=
  let destAddrMode := AddressMode.ofOption h.destination
  let srcAddrMode := AddressMode.ofOption h.source
  let security := h.auxSec.isSome
  (h.frameType.toBits.toUInt16 <<< FcOffset.FRAME_TYPE)
    ||| (security.toUInt16 <<< FcOffset.SECURITY)
    ||| (h.framePending.toUInt16 <<< FcOffset.PENDING)
    ||| (h.ackRequest.toUInt16 <<< FcOffset.ACK)
    ||| (h.panIdCompress.toUInt16 <<< FcOffset.PAN_ID_COMPRESS)
    ||| (destAddrMode.toBits.toUInt16 <<< FcOffset.DEST_ADDR_MODE)
    ||| (h.version.toBits.toUInt16 <<< FcOffset.VERSION)
    ||| (srcAddrMode.toBits.toUInt16 <<< FcOffset.SRC_ADDR_MODE)

/-- header.rs:233-307 `TryWrite<&Option<&mut SecurityContext>> for Header`. -/
def tryWrite {κ : Type} (cfg : Cfg) (h : Header) (secCtx : Option (SecCtx κ)) : TryWrite := W.run do
  let security := h.auxSec.isSome
  W.write (tryWriteU16 .little h.frameControlRaw)
  W.write (tryWriteU8 h.seq)
  if (h.destination.isNone || h.source.isNone) && h.panIdCompress then
    W.fail EncodeError.disallowedPanIdCompress.toByteErr
  match h.destination with
  | some d => W.write (d.tryWrite .normal)
  | none => pure ()
  match h.source, h.panIdCompress with
  | some s, true => W.write (s.tryWrite .compressed)
  | some s, false => W.write (s.tryWrite .normal)
  | none, true => W.panic
  | none, false => pure ()
  if security && secCtx.isNone then
    W.fail EncodeError.missingSecurityCtx.toByteErr
  else if security then
    match h.auxSec with
    | some aux => match secCtx with
      | some ctx => W.write (aux.tryWrite cfg ctx)
      | none => W.fail EncodeError.unknownError.toByteErr
    | none => W.fail EncodeError.unknownError.toByteErr

end Header

end Verif
