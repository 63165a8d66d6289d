import Verif.Spec.Layout

/-! # Specification: what reading and writing headers should do -/

namespace Verif.Spec

/-- The four octets of `c` in the opposite order. -/
def swap32 (c : UInt32) : UInt32 :=
  UInt32.ofNat (c.toNat % 256 * 2 ^ 24 + c.toNat / 256 % 256 * 2 ^ 16
    + c.toNat / 2 ^ 16 % 256 * 2 ^ 8 + c.toNat / 2 ^ 24)

/-- The counter a little-endian reader finds where a host wrote `c` in its own byte order. -/
def counterOnAir (cfg : Cfg) (c : UInt32) : UInt32 :=
  match cfg.native with
  | .little => c
  | .big => swap32 c

/-- The auxiliary header found on the air after writing `a` with a context whose counter is `c`. -/
def auxAsRead (cfg : Cfg) (c : UInt32) (a : AuxHeader) : AuxHeader where
  control := ⟨a.control.securityLevel, keyIdModeOf a.keyIdentifier⟩
  frameCounter := counterOnAir cfg c
  keyIdentifier := a.keyIdentifier

/-- An address moved to another PAN. -/
def inPan (p : UInt16) : Address → Address
  | .short _ a => .short p a
  | .extended _ a => .extended p a

/-- The source address after a round trip: a compressed source takes the destination's PAN. -/
def sourceAsRead (h : Header) : Option Address :=
  match h.panIdCompress, h.destination, h.source with
  | true, some d, some s => some (inPan (panOf d) s)
  | _, _, s => s

/-- The header found on the air after writing `h`, where `c` is the counter of the context
(irrelevant for unsecured headers). -/
def headerAsRead (cfg : Cfg) (c : UInt32) (h : Header) : Header :=
  { h with
    seqNoSuppress := false
    iePresent := false
    source := sourceAsRead h
    auxSec := h.auxSec.map (auxAsRead cfg c) }

/-- The octets of the auxiliary security header as the host `cfg` writes it. -/
def auxAsWritten (cfg : Cfg) (c : UInt32) : Option AuxHeader → List UInt8
  | none => []
  | some a => auxOctets cfg.native cfg.native 0 a.control.securityLevel c a.keyIdentifier

/-- Counter of an optional context. -/
def ctxCounter {κ : Type} : Option (SecCtx κ) → UInt32
  | none => 0
  | some c => c.frameCounter

/-- Octets consumed by reading a header, or the reason it is refused. -/
def headerVerdict (bytes : List UInt8) : Out ByteErr Nat :=
  match bytes with
  | b0 :: b1 :: _ :: rest =>
    let n := b0.toNat + 256 * b1.toNat
    let dst := n / 1024 % 4
    let src := n / 16384 % 4
    let compressed := n / 64 % 2 = 1
    if n / 4096 % 4 = 3 then .err (.badInput "InvalidFrameVersion")
    else if n % 8 = 4 then .err (.badInput "InvalidFrameType")
    else if dst = 1 ∨ src = 1 then .err (.badInput "InvalidAddressMode")
    else if compressed ∧ dst = 0 then .err (.badInput "InvalidAddressMode")
    else
      let addr := addrLength dst true + addrLength src (¬ compressed)
      let need := 3 + addr + (if n / 8 % 2 = 1 then auxNeed (rest.drop addr) else 0)
      if bytes.length < need then .err .incomplete else .ok need
  | _ => .err .incomplete

/-- The first two octets of a slice with bits 7, 8 and 9 of the 16-bit field cleared. -/
def clear789 : List UInt8 → List UInt8
  | b0 :: b1 :: rest => UInt8.ofNat (b0.toNat % 128) :: UInt8.ofNat (b1.toNat / 4 * 4) :: rest
  | l => l

end Verif.Spec
