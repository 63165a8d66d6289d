import Verif.Model.Address

/-!
# MAC commands — `/repo/src/mac/command.rs:1-350`
-/

namespace Verif

/-- command.rs:35 -/
def CAP_FFD : UInt8 := 0x02
/-- command.rs:36 -/
def CAP_MAINS_POWER : UInt8 := 0x04
/-- command.rs:37 -/
def CAP_IDLE_RECEIVE : UInt8 := 0x08
/-- command.rs:38 -/
def CAP_FRAME_PROTECTION : UInt8 := 0x40
/-- command.rs:39 -/
def CAP_ALLOCATE_ADDRESS : UInt8 := 0x80

/-- command.rs:46-58 `struct CapabilityInformation`. -/
structure CapabilityInformation where
  fullFunctionDevice : Bool
  mainsPower : Bool
  idleReceive : Bool
  frameProtection : Bool
  allocateAddress : Bool
deriving DecidableEq, Repr

namespace CapabilityInformation

/-- command.rs:60-77 `From<u8> for CapabilityInformation`. -/
def ofU8 (byte : UInt8) : CapabilityInformation where
  fullFunctionDevice := byte &&& CAP_FFD == CAP_FFD
  mainsPower := byte &&& CAP_MAINS_POWER == CAP_MAINS_POWER
  idleReceive := byte &&& CAP_IDLE_RECEIVE == CAP_IDLE_RECEIVE
  frameProtection := byte &&& CAP_FRAME_PROTECTION == CAP_FRAME_PROTECTION
  allocateAddress := byte &&& CAP_ALLOCATE_ADDRESS == CAP_ALLOCATE_ADDRESS

/-- command.rs:79-99 `From<CapabilityInformation> for u8`. -/
def toU8 (ar : CapabilityInformation) : UInt8 :=
  let byte : UInt8 := 0
  let byte := if ar.fullFunctionDevice then byte ||| CAP_FFD else byte
  let byte := if ar.mainsPower then byte ||| CAP_MAINS_POWER else byte
  let byte := if ar.idleReceive then byte ||| CAP_IDLE_RECEIVE else byte
  let byte := if ar.frameProtection then byte ||| CAP_FRAME_PROTECTION else byte
  let byte := if ar.allocateAddress then byte ||| CAP_ALLOCATE_ADDRESS else byte
  byte

end CapabilityInformation

/-- command.rs:130-141 `struct CoordinatorRealignmentData`. -/
structure CoordinatorRealignmentData where
  panId : PanId
  coordinatorAddress : ShortAddress
  channel : UInt8
  deviceAddress : ShortAddress
  channelPage : Option UInt8
deriving DecidableEq, Repr

namespace CoordinatorRealignmentData

/-- command.rs:143-155 `TryWrite for CoordinatorRealignmentData`. -/
def tryWrite (d : CoordinatorRealignmentData) : TryWrite := W.run do
  W.write d.panId.tryWrite
  W.write (ShortAddress.tryWrite d.coordinatorAddress)
  W.write (tryWriteU8 d.channel)
  W.write (ShortAddress.tryWrite d.deviceAddress)
  match d.channelPage with
  | some p => W.write (tryWriteU8 p)
  | none => pure ()

/-- command.rs:157-181 `TryRead for CoordinatorRealignmentData`. -/
def tryRead : TryRead CoordinatorRealignmentData := R.run do
  R.checkLen 0 7
  let panId ← R.read PanId.tryRead
  let coordinatorAddress ← R.read ShortAddress.tryRead
  let channel ← R.read tryReadU8
  let deviceAddress ← R.read ShortAddress.tryRead
  let len ← R.len
  let off ← R.offset
  let channelPage ← (if len > off then do
      let p ← R.read tryReadU8
      pure (some p)
    else pure none : R (Option UInt8))
  pure { panId, coordinatorAddress, channel, deviceAddress, channelPage }

end CoordinatorRealignmentData

/-- command.rs:183 -/
def GTSC_RECEIVE_ONLY : UInt8 := 0x10
/-- command.rs:184 -/
def GTSC_ALLOCATION : UInt8 := 0x20

/-- command.rs:191-198 `struct GuaranteedTimeSlotCharacteristics`. -/
structure GtsCharacteristics where
  count : UInt8
  receiveOnly : Bool
  allocation : Bool
deriving DecidableEq, Repr

namespace GtsCharacteristics

/-- command.rs:200-210 `From<u8> for GuaranteedTimeSlotCharacteristics`. -/
def ofU8 (byte : UInt8) : GtsCharacteristics where
  count := byte &&& 0x0f
  receiveOnly := byte &&& GTSC_RECEIVE_ONLY == GTSC_RECEIVE_ONLY
  allocation := byte &&& GTSC_ALLOCATION == GTSC_ALLOCATION

/-- command.rs:212-223 `From<GuaranteedTimeSlotCharacteristics> for u8`. -/
def toU8 (g : GtsCharacteristics) : UInt8 :=
  let byte := g.count &&& 0x0f
  let byte := if g.receiveOnly then byte ||| GTSC_RECEIVE_ONLY else byte
  let byte := if g.allocation then byte ||| GTSC_ALLOCATION else byte
  byte

end GtsCharacteristics

/-- command.rs:228-247 `enum Command`. -/
inductive Command where
  | associationRequest (c : CapabilityInformation)
  | associationResponse (a : ShortAddress) (s : AssociationStatus)
  | disassociationNotification (r : DisassociationReason)
  | dataRequest
  | panIdConflictNotification
  | orphanNotification
  | beaconRequest
  | coordinatorRealignment (d : CoordinatorRealignmentData)
  | guaranteedTimeSlotRequest (g : GtsCharacteristics)
deriving DecidableEq, Repr

namespace Command

/-- command.rs:249-302 `TryWrite for Command`. -/
def tryWrite (c : Command) : TryWrite := W.run <|
  match c with
  | .associationRequest capability => do
      W.write (tryWriteU8 CommandId.associationRequest.toU8)
      W.write (tryWriteU8 capability.toU8)
  | .associationResponse address status => do
      W.write (tryWriteU8 CommandId.associationResponse.toU8)
      W.write (ShortAddress.tryWrite address)
      W.write (tryWriteU8 status.toU8)
  | .disassociationNotification reason => do
      W.write (tryWriteU8 CommandId.disassociationNotification.toU8)
      W.write (tryWriteU8 reason.toU8)
  | .dataRequest => W.write (tryWriteU8 CommandId.dataRequest.toU8)
  | .panIdConflictNotification => W.write (tryWriteU8 CommandId.panIdConflictNotification.toU8)
  | .orphanNotification => W.write (tryWriteU8 CommandId.orphanNotification.toU8)
  | .beaconRequest => W.write (tryWriteU8 CommandId.beaconRequest.toU8)
  | .coordinatorRealignment data => do
      W.write (tryWriteU8 CommandId.coordinatorRealignment.toU8)
      W.write data.tryWrite
  | .guaranteedTimeSlotRequest characteristics => do
      W.write (tryWriteU8 CommandId.guaranteedTimeSlotRequest.toU8)
      W.write (tryWriteU8 characteristics.toU8)

/-- command.rs:304-350 `TryRead for Command`. -/
def tryRead : TryRead Command := R.run do
  let b ← R.read tryReadU8
  let cmd ← R.okOr (CommandId.optionalFrom b) DecodeError.invalidValue.toByteErr
  match cmd with
  | .associationRequest => do
      let b ← R.read tryReadU8
      pure (.associationRequest (CapabilityInformation.ofU8 b))
  | .associationResponse => do
      let address ← R.read ShortAddress.tryRead
      let b ← R.read tryReadU8
      let status ← R.okOr (AssociationStatus.optionalFrom b) DecodeError.invalidValue.toByteErr
      pure (.associationResponse address status)
  | .disassociationNotification => do
      let b ← R.read tryReadU8
      let reason ← R.okOr (DisassociationReason.optionalFrom b) DecodeError.invalidValue.toByteErr
      pure (.disassociationNotification reason)
  | .dataRequest => pure .dataRequest
  | .panIdConflictNotification => pure .panIdConflictNotification
  | .orphanNotification => pure .orphanNotification
  | .beaconRequest => pure .beaconRequest
  | .coordinatorRealignment => do
      let d ← R.read CoordinatorRealignmentData.tryRead
      pure (.coordinatorRealignment d)
  | .guaranteedTimeSlotRequest => do
      let b ← R.read tryReadU8
      pure (.guaranteedTimeSlotRequest (GtsCharacteristics.ofU8 b))

end Command

end Verif
