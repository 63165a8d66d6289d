import Verif.Spec.HistorySpec

/-!
# Specification: an authenticated channel

What a sender sent and what a receiver accepted, as lists; and what it means that no delivered slice
is a forgery.
-/

namespace Verif.Spec

/-- What one call sends at a level with a tag: the context's counter before the call and the payload,
if the call succeeds. -/
def sentByCall {κ : Type} (cfg : Cfg) (aead : Aead κ) (sc : SecCtx κ) (call : WriteCall) :
    List (UInt32 × List UInt8) :=
  match (call.frame.tryWrite cfg aead ⟨call.mode, some sc⟩ call.buf).1, call.frame.header.auxSec with
  | .ok _, some aux =>
    if Authenticating aux.control.securityLevel then [(sc.frameCounter, call.frame.payload)] else []
  | _, _ => []

/-- What a history of writes sends, in order. -/
def sentBy {κ : Type} (cfg : Cfg) (aead : Aead κ) (sc : SecCtx κ) : List WriteCall → List (UInt32 × List UInt8)
  | [] => []
  | call :: calls => sentByCall cfg aead sc call ++ sentBy cfg aead (contextAfterCall cfg aead sc call) calls

/-- What one call of the reader accepts from device `i`: counter and payload. -/
def acceptedByCall {κ σ ι : Type} [DecidableEq ι] (cfg : Cfg) (aead : Aead κ) (lookup : DevLookup σ)
    (table : DeviceTable ι lookup) (i : ι) (dev : σ) (call : ReadCall κ) : List (UInt32 × List UInt8) :=
  match (Frame.tryReadAndUnsecure cfg aead call.buf call.ctx lookup dev).1 with
  | .ok (f, _) =>
    match f.header.source, f.header.auxSec with
    | some src, some aux => if table.identify src = i then [(aux.frameCounter, f.payload)] else []
    | _, _ => []
  | _ => []

/-- What a history of receptions accepts from device `i`, in order. -/
def acceptedFrom {κ σ ι : Type} [DecidableEq ι] (cfg : Cfg) (aead : Aead κ) (lookup : DevLookup σ)
    (table : DeviceTable ι lookup) (i : ι) (dev : σ) : List (ReadCall κ) → List (UInt32 × List UInt8)
  | [] => []
  | call :: calls => acceptedByCall cfg aead lookup table i dev call ++
      acceptedFrom cfg aead lookup table i
        (Frame.tryReadAndUnsecure cfg aead call.buf call.ctx lookup dev).2.2.2 calls

/-- Some call of the history successfully wrote a secured data frame in which `body` and `tag` stand
for the payload under this level, key and nonce. -/
def SentUnder {κ : Type} (cfg : Cfg) (aead : Aead κ) (sc : SecCtx κ) (calls : List WriteCall)
    (level : SecurityLevel) (key : κ) (nonce body tag : List UInt8) : Prop :=
  ∃ before call after aux eui n out ctx, calls = before ++ call :: after ∧ call.mode = .none ∧
    SecuredData call.frame aux ∧ aux.control.securityLevel = level ∧
    sc.keyProvider .dst aux.keyIdentifier call.frame.header.destination = some (eui, key) ∧
    nonce = nonceOctets sc.euid (contextAfter cfg aead sc before).frameCounter level ∧
    call.frame.tryWrite cfg aead ⟨.none, some (contextAfter cfg aead sc before)⟩ call.buf = (.ok n, out, ctx) ∧
    out.take n = securedHead cfg (contextAfter cfg aead sc before).frameCounter call.frame ++ body ++ tag

/-- No delivered slice is a forgery of device `i`: whatever verifies under a key the receiver has for
that device was sent, with that key and nonce, by the sender. -/
def NoForgery {κ σ ι : Type} {lookup : DevLookup σ} (cfg rcfg : Cfg) (aead : Aead κ) (table : DeviceTable ι lookup)
    (i : ι) (sc : SecCtx κ) (calls : List WriteCall) (deliveries : List (ReadCall κ)) : Prop :=
  ∀ call ∈ deliveries, ∀ rc h n aux src eui key body tag payload,
    call.ctx.securityCtx = some rc → Header.tryRead rcfg call.buf = .ok (h, n) →
    h.auxSec = some aux → h.source = some src → table.identify src = i →
    rc.keyProvider .src aux.keyIdentifier (some src) = some (eui, key) →
    call.buf.drop n = body ++ tag → tag.length = tagLength aux.control.securityLevel →
    unprotect aead aux.control.securityLevel key
      (nonceOctets eui aux.frameCounter aux.control.securityLevel) body tag = some payload →
    SentUnder cfg aead sc calls aux.control.securityLevel key
      (nonceOctets eui aux.frameCounter aux.control.securityLevel) body tag

end Verif.Spec
