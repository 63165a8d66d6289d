import Verif.Model.Security

/-!
# CCM — the external crate `ccm` 0.4 (`/repo/Cargo.toml`, used by security/mod.rs:171-180)

The crate's source is not in `/repo`; this is CCM (RFC 3610 / NIST SP 800-38C) as that crate
implements it for a 13-octet nonce, over an arbitrary 16-octet block cipher, i.e. the type
`Ccm<AEADBLKCIPH, M, U13>` with `M` octets of tag (security/mod.rs:417-418, 597-600).
It is an *instance* of the `Aead` parameter of the frame model: theorems about frames are stated
for every `Aead` with the laws of `Verif/Spec/SecuritySpec.lean`, and `Verif/Props/Ccm.lean`
proves those laws for this definition.
-/

namespace Verif

/-- A block cipher: encryption of a 16-octet block under a key (`NewBlockCipher + BlockEncrypt`
with `BlockSize = U16`, frame/mod.rs:222).  Decryption of blocks is never used. -/
abbrev BlockCipher (κ : Type) := κ → Vector UInt8 16 → Vector UInt8 16

/-- security/default.rs:32-51 `Unimplemented` as a block cipher: `new` ignores the key and
`encrypt_block` leaves the block as it is. -/
def unimplementedCipher {κ : Type} : BlockCipher κ := fun _ block => block

namespace Ccm

/-- The first 16 octets of a list, padded with zeros. -/
def block (l : List UInt8) : Vector UInt8 16 := Vector.ofFn fun i => l.getD i.val 0

/-- Exclusive or of octet strings, as long as the shorter one. -/
def xorBytes (a b : List UInt8) : List UInt8 := List.zipWith (· ^^^ ·) a b

/-- Exclusive or of blocks. -/
def xorBlock (a b : Vector UInt8 16) : Vector UInt8 16 := Vector.ofFn fun i => a[i] ^^^ b[i]

/-- One step of the CBC-MAC. -/
def macStep (e : Vector UInt8 16 → Vector UInt8 16) (x b : Vector UInt8 16) : Vector UInt8 16 :=
  e (xorBlock x b)

/-- CBC-MAC update with octets, split in blocks of 16, the last one padded with zeros
(`mac.update`): at most `fuel` blocks. -/
def macUpdate (e : Vector UInt8 16 → Vector UInt8 16) : Nat → Vector UInt8 16 → List UInt8 → Vector UInt8 16
  | 0, x, _ => x
  | _ + 1, x, [] => x
  | fuel + 1, x, l => macUpdate e fuel (macStep e x (block (l.take 16))) (l.drop 16)

/-- Big-endian octets. -/
def be (k n : Nat) : List UInt8 := (natToLE k n).reverse

/-- Encoding of the length of the associated data (`fill_aad_header`). -/
def aadHeader (n : Nat) : List UInt8 :=
  if n < 0xFF00 then be 2 n
  else if n < 2 ^ 32 then [0xFF, 0xFE] ++ be 4 n
  else [0xFF, 0xFF] ++ be 8 n

/-- First block: flags, nonce, length of the message in two octets. -/
def b0 (tagLen : Nat) (nonce aad msg : List UInt8) : Vector UInt8 16 :=
  let flags := 64 * (if aad.isEmpty then 0 else 1) + 8 * ((tagLen - 2) / 2) + 1
  block ([UInt8.ofNat flags] ++ (nonce.take 13) ++ be 2 msg.length)

/-- `calc_mac`: CBC-MAC over the first block, the associated data and the message. -/
def mac (e : Vector UInt8 16 → Vector UInt8 16) (tagLen : Nat) (nonce aad msg : List UInt8) :
    Vector UInt8 16 :=
  let x := macStep e (Vector.replicate 16 0) (b0 tagLen nonce aad msg)
  let x := if aad.isEmpty then x
    else
      let a := aadHeader aad.length ++ aad
      macUpdate e (a.length + 1) x a
  macUpdate e (msg.length + 1) x msg

/-- Counter block `i`: flags, nonce, two-octet counter. -/
def ctrBlock (nonce : List UInt8) (i : Nat) : Vector UInt8 16 :=
  block ([1] ++ (nonce.take 13) ++ be 2 i)

/-- Keystream from block `i` on, `n` blocks. -/
def keystream (e : Vector UInt8 16 → Vector UInt8 16) (nonce : List UInt8) (i n : Nat) : List UInt8 :=
  (List.range n).flatMap fun j => (e (ctrBlock nonce (i + j))).toList

/-- `apply_keystream` from block 1. -/
def ctr (e : Vector UInt8 16 → Vector UInt8 16) (nonce buf : List UInt8) : List UInt8 :=
  xorBytes buf (keystream e nonce 1 ((buf.length + 15) / 16))

/-- The tag: the CBC-MAC encrypted with keystream block 0, truncated. -/
def tag (e : Vector UInt8 16 → Vector UInt8 16) (tagLen : Nat) (nonce aad msg : List UInt8) : List UInt8 :=
  (xorBytes (mac e tagLen nonce aad msg).toList (e (ctrBlock nonce 0)).toList).take tagLen

/-- Maximal message length for a 13-octet nonce. -/
def maxLen : Nat := 65535

/-- `encrypt_in_place_detached`: refuses over-long messages before touching the buffer. -/
def encrypt (e : Vector UInt8 16 → Vector UInt8 16) (tagLen : Nat) (nonce aad buf : List UInt8) :
    Option (List UInt8) × List UInt8 :=
  if maxLen < buf.length then (none, buf)
  else (some (tag e tagLen nonce aad buf), ctr e nonce buf)

/-- `decrypt_in_place_detached`: decrypts, recomputes the tag, zeroes the buffer on mismatch.
(The content of an over-long buffer after the failure is not modelled faithfully; only its length.) -/
def decrypt (e : Vector UInt8 16 → Vector UInt8 16) (tagLen : Nat) (nonce aad buf tag' : List UInt8) :
    Bool × List UInt8 :=
  let msg := ctr e nonce buf
  if maxLen < buf.length then (false, msg)
  else if tag e tagLen nonce aad msg = tag' then (true, msg)
  else (false, List.replicate buf.length 0)

/-- CCM over a block cipher as the AEAD of the frame model. -/
def aead {κ : Type} (cipher : BlockCipher κ) : Aead κ where
  encrypt t k n a b := encrypt (cipher k) t n a b
  decrypt t k n a b tag' := decrypt (cipher k) t n a b tag'

end Ccm

end Verif
