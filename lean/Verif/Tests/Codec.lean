import Verif.Tests.Security

/-!
# The crate's other unit tests, replayed on the model
-/

namespace Verif.Tests
open Verif

/-- A write of `n` octets `expected` into a zeroed buffer of `size` octets. -/
def writes (w : TryWrite) (size : Nat) (expected : List UInt8) : Prop :=
  (w (List.replicate size 0)).1 = .ok expected.length ∧
  (w (List.replicate size 0)).2.take expected.length = expected

instance (w : TryWrite) (size : Nat) (expected : List UInt8) : Decidable (writes w size expected) :=
  inferInstanceAs (Decidable (_ ∧ _))

/-- A read fails. -/
def refuses {α : Type} (r : TryRead α) (data : List UInt8) : Bool :=
  match r data with
  | .err _ => true
  | _ => false

/-! ## beacon.rs:481-676 -/

example : SuperframeSpec.tryRead [0xff, 0x0f] = .ok (⟨.onDemand, .inactive, 0xf, false, false, false⟩, 2) := by
  decide +kernel

example : (GtsInfo.tryRead [0]).holds fun (g, n) => n = 1 ∧ g.permit = false ∧ g.slotsSlice = .ok [] := by
  decide +kernel

example : (PendingAddress.tryRead [0]).holds fun (p, n) =>
    n = 1 ∧ p.shortAddresses = .ok [] ∧ p.extendedAddresses = .ok [] := by
  decide +kernel

example : (Beacon.tryRead [0xff, 0x0f, 0, 0]).holds fun (b, n) =>
    n = 4 ∧ b.superframeSpec = ⟨.onDemand, .inactive, 0xf, false, false, false⟩ ∧ b.gtsInfo.permit = false ∧
    b.gtsInfo.slotsSlice = .ok [] ∧ b.pendingAddress.shortAddresses = .ok [] ∧
    b.pendingAddress.extendedAddresses = .ok [] := by
  decide +kernel

example : (Beacon.tryRead [0x12, 0xc3, 0x82, 0x01, 0x34, 0x12, 0x11, 0x78, 0x56, 0x14, 0x00]).holds fun (b, n) =>
    n = 11 ∧ b.superframeSpec = ⟨.beaconOrder 2, .superframeOrder 1, 3, false, true, true⟩ ∧
    b.gtsInfo.permit = true ∧
    b.gtsInfo.slotsSlice = .ok [⟨0x1234, 1, 1, .transmit⟩, ⟨0x5678, 4, 1, .receive⟩] ∧
    b.pendingAddress.shortAddresses = .ok [] ∧ b.pendingAddress.extendedAddresses = .ok [] := by
  decide +kernel

example : (Beacon.tryRead [0x12, 0xc3, 0x82, 0x02, 0x34, 0x12, 0x11, 0x78, 0x56, 0x14, 0x12,
      0x34, 0x12, 0x78, 0x56, 0xef, 0xcd, 0xab, 0x89, 0x67, 0x45, 0x23, 0x01]).holds fun (b, n) =>
    n = 23 ∧ b.superframeSpec = ⟨.beaconOrder 2, .superframeOrder 1, 3, false, true, true⟩ ∧
    b.gtsInfo.permit = true ∧
    b.gtsInfo.slotsSlice = .ok [⟨0x1234, 1, 1, .receive⟩, ⟨0x5678, 4, 1, .transmit⟩] ∧
    b.pendingAddress.shortAddresses = .ok [0x1234, 0x5678] ∧
    b.pendingAddress.extendedAddresses = .ok [0x0123456789abcdef] := by
  decide +kernel

def testBeacon : Beacon where
  superframeSpec := ⟨.onDemand, .inactive, 0, false, true, true⟩
  gtsInfo := ⟨true, 1, (Vector.replicate 7 GtsDescriptor.new).set 0 ⟨0x1234, 1, 1, .transmit⟩⟩
  pendingAddress := ⟨1, (Vector.replicate 7 0xFFFF).set 0 0x7856,
    1, (Vector.replicate 7 0xFFFFFFFFFFFFFFFF).set 0 0xaec24a1c2116e260⟩

example : writes testBeacon.tryWrite 128 [0xff, 0xc0, 0x81, 0x01, 0x34, 0x12, 0x11, 0x11, 0x56, 0x78,
    0x60, 0xe2, 0x16, 0x21, 0x1c, 0x4a, 0xc2, 0xae] := by decide +kernel

/-! ## command.rs:356-868 -/

example : Command.tryRead [0x01, 0x8e] = .ok (.associationRequest ⟨true, true, true, false, true⟩, 2) := by
  decide +kernel

example : writes (Command.associationRequest ⟨false, false, false, false, false⟩).tryWrite 32 [1, 0] ∧
    writes (Command.associationRequest ⟨true, false, false, false, false⟩).tryWrite 32 [1, 2] ∧
    writes (Command.associationRequest ⟨false, true, false, false, false⟩).tryWrite 32 [1, 4] ∧
    writes (Command.associationRequest ⟨false, false, true, false, false⟩).tryWrite 32 [1, 8] ∧
    writes (Command.associationRequest ⟨false, false, false, true, false⟩).tryWrite 32 [1, 0x40] ∧
    writes (Command.associationRequest ⟨false, false, false, false, true⟩).tryWrite 32 [1, 0x80] := by
  decide +kernel

example : Command.tryRead [2, 0x40, 0x77, 0] = .ok (.associationResponse 0x7740 .successful, 4) ∧
    Command.tryRead [2, 0xaa, 0x55, 1] = .ok (.associationResponse 0x55aa .networkAtCapacity, 4) ∧
    Command.tryRead [2, 0, 0, 2] = .ok (.associationResponse 0 .accessDenied, 4) ∧
    Command.tryRead [2, 0, 0, 3] = .ok (.associationResponse 0 .hoppingSequenceOffsetDuplication, 4) ∧
    Command.tryRead [2, 0, 0, 0x80] = .ok (.associationResponse 0 .fastAssociationSuccesful, 4) ∧
    refuses Command.tryRead [2, 0, 0, 4] ∧ refuses Command.tryRead [2, 0, 0, 0x7f] ∧
    refuses Command.tryRead [2, 0, 0, 0x81] := by
  decide +kernel

example : writes (Command.associationResponse 0x55aa .successful).tryWrite 4 [2, 0xaa, 0x55, 0] ∧
    writes (Command.associationResponse 0x1234 .networkAtCapacity).tryWrite 4 [2, 0x34, 0x12, 1] ∧
    writes (Command.associationResponse 0xcffe .accessDenied).tryWrite 4 [2, 0xfe, 0xcf, 2] ∧
    writes (Command.associationResponse 0xfedc .hoppingSequenceOffsetDuplication).tryWrite 4 [2, 0xdc, 0xfe, 3] ∧
    writes (Command.associationResponse 0x0ff0 .fastAssociationSuccesful).tryWrite 4 [2, 0xf0, 0x0f, 0x80] := by
  decide +kernel

example : Command.tryRead [3, 1] = .ok (.disassociationNotification .coordinatorLeave, 2) ∧
    Command.tryRead [3, 2] = .ok (.disassociationNotification .deviceLeave, 2) ∧
    refuses Command.tryRead [3, 0] ∧ refuses Command.tryRead [3, 3] ∧
    writes (Command.disassociationNotification .coordinatorLeave).tryWrite 32 [3, 1] ∧
    writes (Command.disassociationNotification .deviceLeave).tryWrite 32 [3, 2] := by
  decide +kernel

example : Command.tryRead [8, 0x23, 0x11, 1, 0, 0x0f, 0x34, 0x12] =
      .ok (.coordinatorRealignment ⟨0x1123, 1, 15, 0x1234, none⟩, 8) ∧
    Command.tryRead [8, 0x34, 0x12, 0x21, 0x43, 0x0b, 0xcd, 0xab, 1] =
      .ok (.coordinatorRealignment ⟨0x1234, 0x4321, 11, 0xabcd, some 1⟩, 9) ∧
    writes (Command.coordinatorRealignment ⟨0x1123, 1, 15, 0x1234, none⟩).tryWrite 32
      [8, 0x23, 0x11, 1, 0, 0x0f, 0x34, 0x12] ∧
    writes (Command.coordinatorRealignment ⟨0xbeef, 0xfeed, 26, 0x1234, some 15⟩).tryWrite 32
      [8, 0xef, 0xbe, 0xed, 0xfe, 0x1a, 0x34, 0x12, 0x0f] := by
  decide +kernel

example : Command.tryRead [9, 1] = .ok (.guaranteedTimeSlotRequest ⟨1, false, false⟩, 2) ∧
    Command.tryRead [9, 0x12] = .ok (.guaranteedTimeSlotRequest ⟨2, true, false⟩, 2) ∧
    Command.tryRead [9, 0x23] = .ok (.guaranteedTimeSlotRequest ⟨3, false, true⟩, 2) ∧
    writes (Command.guaranteedTimeSlotRequest ⟨1, false, false⟩).tryWrite 32 [9, 1] ∧
    writes (Command.guaranteedTimeSlotRequest ⟨15, true, false⟩).tryWrite 32 [9, 0x1f] ∧
    writes (Command.guaranteedTimeSlotRequest ⟨15, false, true⟩).tryWrite 32 [9, 0x2f] := by
  decide +kernel

example : Command.tryRead [4] = .ok (.dataRequest, 1) ∧
    Command.tryRead [5] = .ok (.panIdConflictNotification, 1) ∧
    Command.tryRead [6] = .ok (.orphanNotification, 1) ∧ Command.tryRead [7] = .ok (.beaconRequest, 1) ∧
    writes Command.dataRequest.tryWrite 32 [4] ∧ writes Command.panIdConflictNotification.tryWrite 32 [5] ∧
    writes Command.orphanNotification.tryWrite 32 [6] ∧ writes Command.beaconRequest.tryWrite 32 [7] := by
  decide +kernel

/-! ## frame/mod.rs:563-868 -/

example : Frame.tryRead host .none [2, 0, 4] =
    .ok (⟨⟨.acknowledgement, false, false, false, false, false, .ieee802154_2003, 4, none, none, none⟩,
      .acknowledgement, [], (0, 0)⟩, 3) := by
  decide +kernel

example : (Frame.tryRead host .none [0x41, 0x88, 0x91, 0x8f, 0x20, 0xff, 0xff, 0x33, 0x44, 0, 0]).holds fun (f, _) =>
    f.header = ⟨.data, false, false, true, false, false, .ieee802154_2003, 145,
      some (.short 0x208f 0xffff), some (.short 0x208f 0x4433), none⟩ := by
  decide +kernel

example : Frame.tryRead host .none [0x41, 0x80, 0x91, 0x8f, 0x20, 0xff, 0xff, 0x33, 0x44, 0, 0]
    = .err (.badInput "InvalidAddressMode") := by
  decide +kernel

example : (Frame.tryRead host .none [0x21, 0xc8, 0x8b, 0xff, 0xff, 0x02, 0x00, 0x23, 0x00, 0x60, 0xe2,
      0x16, 0x21, 0x1c, 0x4a, 0xc2, 0xae, 0xaa, 0xbb, 0xcc]).holds fun (f, _) =>
    f.header = ⟨.data, false, true, false, false, false, .ieee802154_2003, 139,
      some (.short 0xffff 2), some (.extended 0x23 0xaec24a1c2116e260), none⟩ ∧ f.payload.length = 3 := by
  decide +kernel

/-- A frame writer without security as a plain writer. -/
def plain (f : Frame) : TryWrite := fun buf =>
  ((f.tryWrite host aes (SerDesCtx.noSecurity .none) buf).1, (f.tryWrite host aes (SerDesCtx.noSecurity .none) buf).2.1)

example : writes (plain ⟨⟨.data, false, false, false, false, false, .ieee802154_2003, 1,
      some (.short 0x1234 0x5678), some (.short 0x4321 0x9abc), none⟩, .data, [0xde, 0xf0], (0, 0)⟩) 32
    [0x01, 0x88, 0x01, 0x34, 0x12, 0x78, 0x56, 0x21, 0x43, 0xbc, 0x9a, 0xde, 0xf0] := by
  decide +kernel

example : writes (plain ⟨⟨.beacon, true, false, false, false, false, .ieee802154_2006, 0xff,
      some (.extended 0x1234 0x1122334455667788), some (.short 0x4321 0x9abc), none⟩,
      .beacon ⟨⟨.onDemand, .inactive, 15, false, false, false⟩, GtsInfo.new, PendingAddress.new⟩,
      [0xde, 0xf0], (0, 0)⟩) 32
    [0x10, 0x9c, 0xff, 0x34, 0x12, 0x88, 0x77, 0x66, 0x55, 0x44,
      0x33, 0x22, 0x11, 0x21, 0x43, 0xbc, 0x9a, 0xff, 0x0f, 0x00, 0x00, 0xde, 0xf0] := by
  decide +kernel

example : writes (plain ⟨⟨.acknowledgement, false, false, true, false, false, .ieee802154_2003, 0xff,
      some (.extended 0x1234 0x1122334455667788), some (.short 0x1234 0x9abc), none⟩, .acknowledgement, [], (0, 0)⟩) 32
    [0x42, 0x8c, 0xff, 0x34, 0x12, 0x88, 0x77, 0x66, 0x55, 0x44, 0x33, 0x22, 0x11, 0xbc, 0x9a] := by
  decide +kernel

example : writes (plain ⟨⟨.macCommand, false, true, false, false, false, .ieee802154, 0xff,
      none, some (.short 0x1234 0x9abc), none⟩, .command .dataRequest, [], (0, 0)⟩) 32
    [0x23, 0xa0, 0xff, 0x34, 0x12, 0xbc, 0x9a, 0x04] := by
  decide +kernel

/-- `empty_addressing_and_panid_compress`. -/
def compressHeader (dst : Option Address) : Header :=
  ⟨.data, false, false, true, false, false, .ieee802154_2006, 1, dst, some (.extended 0xABCD 0xFF), none⟩

example : ((compressHeader none).tryWrite host (some (SecCtx.noSecurity : SecCtx Nat)) (List.replicate 127 0)).1
      = .err (.badInput "DisallowedPanIdCompress") ∧
    ((compressHeader (some (.extended 0xABCD 0xFF))).tryWrite host (some (SecCtx.noSecurity : SecCtx Nat))
      (List.replicate 127 0)).1 = .ok 21 := by
  decide +kernel

end Verif.Tests
