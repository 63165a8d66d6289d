import Verif.Model.Security

/-!
# Length arithmetic in `usize`

The rest of the model computes sums of lengths and offsets in `Nat`.  Here the same sums are
modelled as the code computes them: step by step, in `usize`, with the overflow behaviour of the
build.  `Props/Arith.lean` shows that the two agree.
-/

namespace Verif

/-- Rust `usize` addition `a + b`: exact if it fits; otherwise a panic with overflow checks and
wrap-around without. -/
def uadd (cfg : Cfg) {ε : Type} (a b : Nat) : Out ε Nat :=
  if a + b < 2 ^ cfg.usize.bits then .ok (a + b)
  else if cfg.overflowChecks then .panic
  else .ok ((a + b) % 2 ^ cfg.usize.bits)

/-- Rust `usize` multiplication `a * b`. -/
def umul (cfg : Cfg) {ε : Type} (a b : Nat) : Out ε Nat :=
  if a * b < 2 ^ cfg.usize.bits then .ok (a * b)
  else if cfg.overflowChecks then .panic
  else .ok ((a * b) % 2 ^ cfg.usize.bits)

/-- header.rs:91-104: one round of the loop in `Header::get_octet_size` (`len += 2`, then `len += 2` or
`len += 8`). -/
def addAddressUsize (cfg : Cfg) {ε : Type} (len : Nat) : Option Address → Out ε Nat
  | none => .ok len
  | some a => (uadd cfg len 2).bind fun len =>
    match a with
    | .short _ _ => uadd cfg len 2
    | .extended _ _ => uadd cfg len 8

/-- header.rs:87-106 `Header::get_octet_size`, in `usize`. -/
def Header.octetSizeUsize (cfg : Cfg) {ε : Type} (h : Header) : Out ε Nat :=
  (addAddressUsize cfg 3 h.destination).bind fun len => addAddressUsize cfg len h.source

/-- auxiliary_security_header.rs:26-42 `AuxiliarySecurityHeader::get_octet_size`, in `usize`. -/
def AuxHeader.octetSizeUsize (cfg : Cfg) {ε : Type} (a : AuxHeader) : Out ε Nat :=
  (uadd cfg 1 4).bind fun len => uadd cfg len
    (match a.keyIdentifier with
      | some k => match k.keySource with
        | some (.short _) => 5
        | some (.long _) => 9
        | none => 1
      | none => 0)

/-- security/mod.rs:366-375: the sum compared with `aMaxPHYPacketSize`, left to right in `usize`. -/
def frameSizeUsize (cfg : Cfg) {ε : Type} (frame : Frame) (aux : AuxHeader) : Out ε Nat :=
  let authLen := aux.control.securityLevel.micOctetSize
  (aux.octetSizeUsize cfg).bind fun auxLen =>
  (frame.header.octetSizeUsize cfg).bind fun headerLen =>
  (uadd cfg frame.payload.length headerLen).bind fun n =>
  (uadd cfg n auxLen).bind fun n =>
  (uadd cfg n authLen).bind fun n =>
  uadd cfg n 2

/-- security/mod.rs:329-495 `secure_frame` with the size check of lines 366-378 in `usize`; everything
else as in `secureFrame` (which repeats the check in `Nat`). -/
def secureFrameUsize {κ : Type} (cfg : Cfg) (aead : Aead κ) (frame : Frame) (context : SecCtx κ)
    (footerMode : FooterMode) (buffer : List UInt8) : Out SecErr Nat × SecCtx κ × List UInt8 :=
  match footerMode, frame.header.frameType, frame.header.auxSec with
  | .none, .data, some aux =>
    match (frameSizeUsize cfg frame aux : Out SecErr Nat) with
    | .panic => (.panic, context, buffer)
    | .err e => (.err e, context, buffer)
    | .ok total =>
      if ¬ total ≤ 127 then (.err .frameTooLong, context, buffer)
      else secureFrame aead frame context footerMode buffer
  | _, _, _ => secureFrame aead frame context footerMode buffer

/-- beacon.rs:300, 308: octets a GTS information with count octet `byte` asks for,
`2 + (3 * slot_count)`. -/
def gtsNeedUsize (cfg : Cfg) {ε : Type} (byte : UInt8) : Out ε Nat :=
  (umul cfg 3 (byte &&& COUNT_MASK).toNat).bind fun n => uadd cfg 2 n

/-- beacon.rs:389-394: octets a pending-address list with count octet `byte` asks for,
`(sl * ss) + (el * es)`. -/
def pendingNeedUsize (cfg : Cfg) {ε : Type} (byte : UInt8) : Out ε Nat :=
  (umul cfg (byte &&& SHORT_MASK).toNat 2).bind fun s =>
  (umul cfg ((byte &&& EXTENDED_MASK) >>> 4).toNat 8).bind fun e => uadd cfg s e

/-- `bytes.read_with(offset, ctx)?` as `R.read`, with `*offset += n` in `usize`. -/
def R.readUsize {α : Type} (cfg : Cfg) (tr : TryRead α) : R α := fun bytes off =>
  if bytes.length < off then .err (.badOffset off)
  else match tr (bytes.drop off) with
    | .ok (a, n) => (uadd cfg off n).bind fun off => .ok (a, off)
    | .err e => .err e
    | .panic => .panic

/-- `bytes.write_with(offset, value, ctx)?` as `W.write`, with `*offset += n` in `usize`
(also frame/mod.rs:248). -/
def W.writeUsize (cfg : Cfg) (tw : TryWrite) : W Unit := fun buf off =>
  if buf.length < off then (.err (.badOffset off), buf, off)
  else match tw (buf.drop off) with
    | (.ok n, sub) =>
      match (uadd cfg off n : Out ByteErr Nat) with
      | .ok off' => (.ok (), buf.take off ++ sub, off')
      | .err e => (.err e, buf.take off ++ sub, off)
      | .panic => (.panic, buf.take off ++ sub, off)
    | (.err e, sub) => (.err e, buf.take off ++ sub, off)
    | (.panic, sub) => (.panic, buf.take off ++ sub, off)

end Verif
