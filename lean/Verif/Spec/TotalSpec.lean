import Verif.Spec.Accounts
import Verif.Spec.OnWire

/-!
# Specification: one table for every frame write and one for every frame read

Nothing is left open: every frame, context, footer mode and buffer for writing; every slice, context, footer
mode and device lookup for reading.
-/

namespace Verif.Spec

/-! ## Writing -/

/-- Given room for `enc` the outcome is `done`; otherwise `Incomplete`, with at most a first part of `enc` put
into the buffer and the context untouched. -/
def PutsDown {κ : Type} (enc buf : List UInt8) (ctx : SerDesCtx κ)
    (done r : Out ByteErr Nat × List UInt8 × SerDesCtx κ) : Prop :=
  (enc.length ≤ buf.length → r = done) ∧
  (buf.length < enc.length → ∃ k, k ≤ buf.length ∧ r = (.err .incomplete, enc.take k ++ buf.drop k, ctx))

/-- The outcome `r` of writing `f` with context `ctx` into `buf`: result, buffer and context afterwards. -/
def WriteTable {κ : Type} (cfg : Cfg) (aead : Aead κ) (f : Frame) (ctx : SerDesCtx κ) (buf : List UInt8)
    (r : Out ByteErr Nat × List UInt8 × SerDesCtx κ) : Prop :=
  let over (enc : List UInt8) : List UInt8 := enc ++ buf.drop enc.length
  let start := le 2 (frameControl f.header false false false) ++ [f.header.seq]
  let plainHeader := headerOctets f.header false false false []
  -- compression without both addresses
  (¬ Encodable f.header →
    PutsDown start buf ctx (.err (.badInput "DisallowedPanIdCompress"), over start, ctx) r) ∧
  (Encodable f.header →
    match f.header.auxSec, ctx.securityCtx, ctx.footerMode with
    -- secured, no context
    | some _, none, _ => PutsDown plainHeader buf ctx (.err (.badInput "MissingSecurityCtx"), over plainHeader, ctx) r
    -- a context and an explicit footer, secured or not
    | _, some sc, .explicit =>
        PutsDown (securedHead cfg sc.frameCounter f) buf ctx (.panic, over (securedHead cfg sc.frameCounter f), ctx) r
    -- unsecured
    | none, _, mode => PutsDown (plainFrameOctets mode f) buf ctx
        (.ok (plainFrameOctets mode f).length, over (plainFrameOctets mode f), ctx) r
    -- secured, with a context
    | some aux, some sc, .none => PutsDown (securedHead cfg sc.frameCounter f) buf ctx
        (if f.header.frameType = .data then
          let s := sendingAccount cfg aead f aux sc buf
          (s.1, s.2.1, ⟨.none, some s.2.2⟩)
        else (.err (.badInput "NotImplemented"), over (securedHead cfg sc.frameCounter f), ctx)) r)

/-! ## Reading -/

/-- Content of a frame whose three type bits are `code`: octets consumed or the reason it is refused. -/
def contentVerdict (code : Nat) (behind : List UInt8) : Out ByteErr Nat :=
  if code = 0 then
    if behind.length < beaconLength behind then .err .incomplete else .ok (beaconLength behind)
  else if code = 3 then
    match commandRead behind with
    | .ok (_, n) => .ok n
    | .err e => .err e
    | .panic => .panic
  else .ok 0

/-- Header and content: octets consumed or the reason they are refused. -/
def headVerdict (bytes : List UInt8) : Out ByteErr Nat :=
  match headerVerdict bytes with
  | .ok n =>
    match contentVerdict ((bytes.headD 0).toNat % 8) (bytes.drop n) with
    | .ok m => .ok (n + m)
    | .err e => .err e
    | .panic => .panic
  | .err e => .err e
  | .panic => .panic

/-- The outcome of a plain read: octets consumed, error or panic, from the octets alone. -/
def plainVerdict (cfg : Cfg) (mode : FooterMode) (bytes : List UInt8) : Out ByteErr Nat :=
  match headVerdict bytes with
  | .ok k =>
    if (bytes.headD 0).toNat.testBit 3 then
      .err (.badInput "SecurityEnabled (use Frame::try_read_and_unsecure)")
    else match mode with
      | .none => .ok bytes.length
      | .explicit =>
        if bytes.length < k + 2 then (if cfg.overflowChecks = true then .panic else .err .incomplete)
        else .ok bytes.length
  | .err e => .err e
  | .panic => .panic

/-- The octets are header `h`, content `c` and `rest` behind them. -/
def HeadOnWire (cfg : Cfg) (h : Header) (c : FrameContent) (headLength : Nat) (bytes rest : List UInt8) : Prop :=
  ∃ hd ct, bytes = hd ++ ct ++ rest ∧ HeaderOnWire cfg h hd ∧ ContentOnWire h.frameType c ct rest ∧
    headLength = hd.length + ct.length

/-- The outcome `r` of receiving `buf`: result, buffer, context and device state afterwards. -/
def ReceiveTable {κ σ : Type} (cfg : Cfg) (aead : Aead κ) (buf : List UInt8) (ctx : SerDesCtx κ)
    (lookup : DevLookup σ) (dev : σ) (r : Out SecErr (Frame × Nat) × List UInt8 × SerDesCtx κ × σ) : Prop :=
  -- no header or no content
  (∀ e, headVerdict buf = .err e → r = (.err (.writeError e), buf, ctx, dev)) ∧
  (∀ k, headVerdict buf = .ok k → ∃ h c rest, HeadOnWire cfg h c k buf rest ∧
    match h.auxSec, ctx.securityCtx, ctx.footerMode with
    -- unsecured: everything behind header and content is payload
    | none, _, _ => r = (.ok (⟨h, c, rest, (0, 0)⟩, buf.length), buf, ctx, dev)
    -- secured, no context
    | some _, none, _ => r = (.err .invalidSecContext, buf, ctx, dev)
    | some _, some _, .explicit => r = (.panic, buf, ctx, dev)
    | some aux, some sc, .none =>
      let s := receivingAccount cfg aead buf sc lookup dev h aux c k
      r = (s.1, s.2.1, ctx, s.2.2))

end Verif.Spec
