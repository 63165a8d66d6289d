import Verif.Tests.Aes
import Verif.Model.Frame
import Verif.Lemmas.Holds

/-!
# The crate's own security examples, replayed on the model

The octets expected are those asserted in /repo; they come from the real `aes` and `ccm` crates, so
these checks tie the model of CCM, of the nonce and of secured writing to them.
-/

namespace Verif.Tests
open Verif

/-- The 64-bit little-endian host with overflow checks the tests run on. -/
def host : Cfg := ⟨true, .w64, .little⟩

/-- `StaticKeyLookup`: security/mod.rs:43-61, 799-817. -/
def staticKeyLookup : AddressingMode → Option KeyIdentifier → Option Address → Option (UInt64 × List UInt8)
  | _, _, some (.extended _ eui) => some (eui, List.replicate 16 0)
  | _, _, _ => none

/-- `BasicDevDescriptorLookup`: security/mod.rs:63-84, 818-840. -/
def basicLookup : DevLookup DeviceDescriptor := fun s _ _ => (s, some (s, fun d => d))

/-- `aes_sec_ctx`: security/mod.rs:89-91. -/
def aesCtx (eui : UInt64) (counter : UInt32) : SecCtx (List UInt8) := ⟨eui, counter, staticKeyLookup⟩

/-- `Ccm<Aes128, _, U13>`. -/
def aes : Aead (List UInt8) := Ccm.aead Aes.cipher

/-- `get_frame`: security/mod.rs:852-877. -/
def getFrame (src dst : Address) (payload : List UInt8) (aux : Option AuxHeader) : Frame :=
  ⟨⟨.data, false, false, false, false, false, .ieee802154, 127, some dst, some src, aux⟩, .data, payload, (0, 0)⟩

/-! ## security/mod.rs:93-166 (documentation example) -/

def docFrame : Frame := getFrame (.extended 0x111 1) (.extended 0x111 2) [0, 1, 2, 3, 4]
  (some (AuxHeader.new (SecurityControl.new .encmic128) (some ⟨some (.long 0xAA), 48⟩)))

def docOctets : List UInt8 := [
  0x9, 0xec, 0x7f, 0x11, 0x1, 0x2, 0x0, 0x0, 0x0, 0x0, 0x0, 0x0, 0x0, 0x11, 0x1, 0x1, 0x0, 0x0,
  0x0, 0x0, 0x0, 0x0, 0x0, 0x1f, 0x0, 0x0, 0x0, 0x0, 0xaa, 0x0, 0x0, 0x0, 0x0, 0x0, 0x0, 0x0,
  0x30, 0xf8, 0x58, 0x90, 0xd2, 0x7f, 0x46, 0xcf, 0x1a, 0x73, 0xd3, 0xad, 0x65, 0xda, 0x6c, 0xd1,
  0x4b, 0x73, 0xef, 0xbe, 0x79, 0x31]

example : (docFrame.tryWrite host aes ⟨.none, some (aesCtx 1 0)⟩ (List.replicate 128 0)).1 = .ok docOctets.length ∧
    (docFrame.tryWrite host aes ⟨.none, some (aesCtx 1 0)⟩ (List.replicate 128 0)).2.1.take docOctets.length
      = docOctets := by
  decide +kernel

example : (Frame.tryReadAndUnsecure host aes docOctets ⟨.none, some (aesCtx 1 1)⟩ basicLookup ⟨0, false⟩).1.holds
    fun (f, _) => f.payload = [0, 1, 2, 3, 4] := by decide +kernel

/-! ## security/mod.rs:1018-1132 `encode_decode_secured_frame` -/

def testFrame : Frame := getFrame (.extended 0x111 8) (.extended 0x2222 9) [0xFF, 0xFF, 0xFF, 0xFF, 0xFF, 0xFF]
  (some (AuxHeader.new (SecurityControl.new .encmic32) (some ⟨some (.long 0xABABABABABABABAB), 48⟩)))

def testOctets : List UInt8 := [
  9, 236, 127, 34, 34, 9, 0, 0, 0, 0, 0, 0, 0, 17, 1, 8, 0, 0, 0,
  0, 0, 0, 0, 29, 3, 3, 3, 3, 171, 171, 171, 171, 171, 171, 171,
  171, 48, 125, 232, 44, 201, 215, 168, 157, 77, 13, 6]

example : (testFrame.tryWrite host aes ⟨.none, none⟩ (List.replicate 127 0)).1
    = .err (.badInput "MissingSecurityCtx") := by decide +kernel

example : (testFrame.tryWrite host aes ⟨.none, some (aesCtx 8 0x03030303)⟩ (List.replicate 127 0)).1
      = .ok (2 + 1 + 2 + 8 + 2 + 8 + 1 + 4 + 9 + 6 + 4) ∧
    (testFrame.tryWrite host aes ⟨.none, some (aesCtx 8 0x03030303)⟩ (List.replicate 127 0)).2.1.take
      testOctets.length = testOctets ∧
    ((testFrame.tryWrite host aes ⟨.none, some (aesCtx 8 0x03030303)⟩ (List.replicate 127 0)).2.2.securityCtx.map
      SecCtx.frameCounter) = some 0x03030304 := by
  decide +kernel

example : ((Frame.tryReadAndUnsecure host aes testOctets ⟨.none, some (aesCtx 8 0x03030304)⟩ basicLookup
      ⟨0x03030303, false⟩).1.holds fun (f, _) => f.payload = List.replicate 6 0xFF ∧
        f.header.auxSec = some ⟨⟨.encmic32, .keySource8⟩, 0x03030303, some ⟨some (.long 0xABABABABABABABAB), 48⟩⟩) ∧
    (Frame.tryReadAndUnsecure host aes testOctets ⟨.none, some (aesCtx 8 0x03030304)⟩ basicLookup
      ⟨0x03030303, false⟩).2.2.2.frameCounter = 0x03030304 := by decide +kernel

/-! ## security/mod.rs:1134-1259 `encode_fail_decode_secured_frame` -/

def failFrame : Frame := getFrame (.extended 0x111 8) (.extended 0x2222 9) [0xFF, 0xFF, 0xFF, 0xFF, 0xFF, 0xFF]
  (some (AuxHeader.new (SecurityControl.new .mic128) none))

def failOctets : List UInt8 :=
  (failFrame.tryWrite host aes ⟨.none, some (aesCtx 8 0x03030303)⟩ (List.replicate 127 0)).2.1.take 50

example : (failFrame.tryWrite host aes ⟨.none, some (aesCtx 8 0x03030303)⟩ (List.replicate 127 0)).1
    = .ok (2 + 1 + 2 + 8 + 2 + 8 + 1 + 4 + 0 + 6 + 16) := by decide +kernel

example : (Frame.tryReadAndUnsecure host aes (failOctets.set 33 (failOctets.getD 33 0 ^^^ 1))
    ⟨.none, some (aesCtx 8 0x03030304)⟩ basicLookup ⟨0x03030303, false⟩).1 = .err .transformationError := by
  decide +kernel

example : (Frame.tryReadAndUnsecure host aes failOctets
    ⟨.none, some (aesCtx 8 0x03030304)⟩ basicLookup ⟨0x03030308, false⟩).1 = .err .counterError := by
  decide +kernel

example : (Frame.tryReadAndUnsecure host aes failOctets
    ⟨.none, some (aesCtx 8 0x03030304)⟩ basicLookup ⟨0xFFFFFFFF, false⟩).1 = .err .counterError := by
  decide +kernel

/-! ## security/mod.rs:884-1016 `test_security_level!`, `encode_unsecured` (with one pair of addresses in
place of random ones) -/

/-- `test_security_level!`: what securing and then unsecuring return, and the first octets of the buffer then. -/
def testLevel (level : SecurityLevel) : Out SecErr Nat × Out SecErr Nat × List UInt8 :=
  let src : Address := .extended 0x111 0x123456789ABCDEF0
  let dst : Address := .extended 0x2222 0x0FEDCBA987654321
  let aux := some (AuxHeader.newUnsafe (SecurityControl.new level) (some ⟨none, 0⟩) 0x03030303)
  let payload : List UInt8 := [0xFF, 0x00, 0xFF, 0x00, 0xFF, 0x00]
  let w := secureFrame aes (getFrame src dst payload aux) (aesCtx 0x123456789ABCDEF0 0x03030303) .none
    (List.replicate (6 + level.micOctetSize) 0)
  let r := unsecureFrame host aes (getFrame src dst [] aux).header w.2.2 w.2.1 .none basicLookup ⟨0x03030302, false⟩
  (w.1, r.1, r.2.1.take 6)

example : ∀ level ∈ [SecurityLevel.mic32, .mic64, .mic128, .encmic32, .encmic64, .encmic128],
    testLevel level = (.ok (6 + level.micOctetSize), .ok level.micOctetSize, [0xFF, 0x00, 0xFF, 0x00, 0xFF, 0x00]) := by
  decide +kernel

example : (testLevel .enc).1 = .err .notImplemented := by decide +kernel

example : (secureFrame aes (getFrame (.extended 0x111 1) (.extended 0x2222 2) [0xAA, 0xBB, 0xCC, 0xDD, 0xFE, 0xDE] none)
    (aesCtx 1 0x03030303) .none (List.replicate 127 0)).1 = .err .securityNotEnabled := by decide +kernel

end Verif.Tests
