import Verif.Tests.Aes
import Verif.Spec.CcmSpec

/-!
# Test vectors of RFC 3610, section 8, on the specification of CCM

Packet vectors #1, #2 and #7: tags of 8 and 10 octets, messages of 23, 24 and 23 octets.
-/

namespace Verif.Tests
open Verif Spec

/-- Key of packet vectors 1 to 12. -/
def rfcKey : List UInt8 := (List.range 16).map fun i => UInt8.ofNat (0xC0 + i)

/-- Octets `i, i + 1, …, j`. -/
def fromTo (i j : Nat) : List UInt8 := (List.range (j + 1 - i)).map fun k => UInt8.ofNat (i + k)

/-- Nonce of a packet vector: four octets that vary, then the rest. -/
def rfcNonce (i a b c : UInt8) : List UInt8 := [0, 0, 0, i, a, b, c] ++ fromTo 0xA0 0xA5

example : Rfc3610.encrypted (Aes.cipher rfcKey) (rfcNonce 3 2 1 0) (fromTo 8 0x1E) =
    [0x58, 0x8C, 0x97, 0x9A, 0x61, 0xC6, 0x63, 0xD2, 0xF0, 0x66, 0xD0, 0xC2, 0xC0, 0xF9, 0x89, 0x80,
     0x6D, 0x5F, 0x6B, 0x61, 0xDA, 0xC3, 0x84] ∧
    Rfc3610.authValue (Aes.cipher rfcKey) 8 (rfcNonce 3 2 1 0) (fromTo 0 7) (fromTo 8 0x1E) =
    [0x17, 0xE8, 0xD1, 0x2C, 0xFD, 0xF9, 0x26, 0xE0] := by decide +kernel

example : Rfc3610.encrypted (Aes.cipher rfcKey) (rfcNonce 4 3 2 1) (fromTo 8 0x1F) =
    [0x72, 0xC9, 0x1A, 0x36, 0xE1, 0x35, 0xF8, 0xCF, 0x29, 0x1C, 0xA8, 0x94, 0x08, 0x5C, 0x87, 0xE3,
     0xCC, 0x15, 0xC4, 0x39, 0xC9, 0xE4, 0x3A, 0x3B] ∧
    Rfc3610.authValue (Aes.cipher rfcKey) 8 (rfcNonce 4 3 2 1) (fromTo 0 7) (fromTo 8 0x1F) =
    [0xA0, 0x91, 0xD5, 0x6E, 0x10, 0x40, 0x09, 0x16] := by decide +kernel

example : Rfc3610.encrypted (Aes.cipher rfcKey) (rfcNonce 9 8 7 6) (fromTo 8 0x1E) =
    [0x01, 0x35, 0xD1, 0xB2, 0xC9, 0x5F, 0x41, 0xD5, 0xD1, 0xD4, 0xFE, 0xC1, 0x85, 0xD1, 0x66, 0xB8,
     0x09, 0x4E, 0x99, 0x9D, 0xFE, 0xD9, 0x6C] ∧
    Rfc3610.authValue (Aes.cipher rfcKey) 10 (rfcNonce 9 8 7 6) (fromTo 0 7) (fromTo 8 0x1E) =
    [0x04, 0x8C, 0x56, 0x60, 0x2C, 0x97, 0xAC, 0xBB, 0x74, 0x90] := by decide +kernel

end Verif.Tests
