import Verif.Spec.CcmSpec
import Verif.Spec.HistorySpec
import Verif.Spec.ReceiveSpec
import Verif.Model.Ccm

/-!
# Specification: what can be seen on the air

The block cipher is taken as any function from keys and blocks to blocks ("ideal cipher" in the usual sense of
a random function: statements compare one such function with another, one to one).
-/

namespace Verif.Spec

namespace Rfc3610

/-- The blocks the cipher is given one after the other while `bs` is chained, from `x` on. -/
def chainInputs (E : Block → Block) : Block → List Block → List Block
  | _, [] => []
  | x, b :: bs => xor x b :: chainInputs E (E (xor x b)) bs

/-- The blocks to authenticate for a payload at a level: with MIC it is additional data, with ENC-MIC it is
the message. -/
def authenticatedAt (level : SecurityLevel) (N payload : List UInt8) : List Block :=
  if MicOnly level then authenticated (tagLength level) N payload []
  else authenticated (tagLength level) N [] payload

/-- The blocks the cipher is given to compute the authentication value of a payload. -/
def macInputs (E : Block → Block) (level : SecurityLevel) (N payload : List UInt8) : List Block :=
  chainInputs E (Vector.replicate 16 0) (authenticatedAt level N payload)

end Rfc3610

/-- The calls differ at most in the payload, and there only if the frame is to be encrypted and the payloads
are equally long. -/
def Alike (c c' : WriteCall) : Prop :=
  c'.mode = c.mode ∧ c'.buf = c.buf ∧ c'.frame.header = c.frame.header ∧ c'.frame.content = c.frame.content ∧
  c'.frame.footer = c.frame.footer ∧
  (c'.frame.payload = c.frame.payload ∨
    c'.frame.payload.length = c.frame.payload.length ∧
    ∃ aux, c.frame.header.auxSec = some aux ∧ EncMic aux.control.securityLevel)

/-- The histories consist of pairwise alike calls. -/
def AlikeHistories (calls calls' : List WriteCall) : Prop :=
  calls'.length = calls.length ∧
  ∀ (p : Nat) c c', calls[p]? = some c → calls'[p]? = some c' → Alike c c'

/-- Call number `p` puts a frame on the air that is protected at `level`, with this key, nonce and payload. -/
def Sends {κ : Type} (cfg : Cfg) (cipher : BlockCipher κ) (sc : SecCtx κ) (calls : List WriteCall) (p : Nat)
    (key : κ) (level : SecurityLevel) (nonce payload : List UInt8) : Prop :=
  (onAir cfg (Ccm.aead cipher) sc calls p).isSome = true ∧
  ∃ call aux eui, calls[p]? = some call ∧ call.frame.header.auxSec = some aux ∧
    aux.control.securityLevel = level ∧ Authenticating level ∧
    sc.keyProvider .dst aux.keyIdentifier call.frame.header.destination = some (eui, key) ∧
    nonce = nonceOctets sc.euid (contextAfter cfg (Ccm.aead cipher) sc (calls.take p)).frameCounter level ∧
    payload = call.frame.payload

/-- What call number `p` puts on the air, without the tag at its end. -/
def onAirBeforeTag {κ : Type} (cfg : Cfg) (aead : Aead κ) (sc : SecCtx κ) (calls : List WriteCall) (p : Nat) :
    Option (List UInt8) :=
  (onAir cfg aead sc calls p).map fun octets =>
    match calls[p]?.bind fun c => c.frame.header.auxSec with
    | some aux => octets.take (octets.length - tagLength aux.control.securityLevel)
    | none => octets

/-- One device that sends, with the frame writes it does. -/
structure Sender (κ : Type) where
  cfg : Cfg
  context : SecCtx κ
  calls : List WriteCall

/-- The devices have different addresses, and their frames' content comes from the crate's readers or
constructors. -/
structure Fleet {κ : Type} (net : List (Sender κ)) : Prop where
  addresses : net.Pairwise fun s s' => s.context.euid ≠ s'.context.euid
  api : ∀ s ∈ net, ∀ c ∈ s.calls, ContentFromApi c.frame.content

/-- The same devices with alike histories. -/
def AlikeFleets {κ : Type} (net net' : List (Sender κ)) : Prop :=
  net'.length = net.length ∧ ∀ (i : Nat) s s', net[i]? = some s → net'[i]? = some s' →
    s'.cfg = s.cfg ∧ s'.context = s.context ∧ AlikeHistories s.calls s'.calls

/-- Some device puts a frame on the air that is protected at `level`, with this key, nonce and payload. -/
def Sent {κ : Type} (cipher : BlockCipher κ) (net : List (Sender κ)) (key : κ) (level : SecurityLevel)
    (nonce payload : List UInt8) : Prop :=
  ∃ s ∈ net, ∃ p, Sends s.cfg cipher s.context s.calls p key level nonce payload

/-- While the frames are authenticated, the cipher is never given, under a key, one of the (at most nine)
counter blocks of a frame sent under that key. -/
def NoClash {κ : Type} (cipher : BlockCipher κ) (net : List (Sender κ)) : Prop :=
  ∀ key level level' nonce nonce' payload payload',
    Sent cipher net key level nonce payload → Sent cipher net key level' nonce' payload' →
    ∀ b ∈ Rfc3610.macInputs (cipher key) level nonce payload, ∀ i ≤ 8, b ≠ Rfc3610.counterBlock nonce' i

/-- What the devices put on the air: by device and call. -/
def observed {κ : Type} (cipher : BlockCipher κ) (net : List (Sender κ)) (i p : Nat) : Option (List UInt8) :=
  net[i]?.bind fun s => onAir s.cfg (Ccm.aead cipher) s.context s.calls p

/-- The same without the tags. -/
def observedBeforeTag {κ : Type} (cipher : BlockCipher κ) (net : List (Sender κ)) (i p : Nat) : Option (List UInt8) :=
  net[i]?.bind fun s => onAirBeforeTag s.cfg (Ccm.aead cipher) s.context s.calls p

/-- The cipher with its value for one key and one block replaced. -/
noncomputable def replaced {κ : Type} (cipher : BlockCipher κ) (key : κ) (b v : Rfc3610.Block) : BlockCipher κ :=
  open Classical in fun k x => if k = key ∧ x = b then v else cipher k x

/-- The octets `body` with the masking of the nonce taken off (at ENC-MIC levels). -/
def unmasked (E : Rfc3610.Block → Rfc3610.Block) (level : SecurityLevel) (nonce body : List UInt8) : List UInt8 :=
  if MicOnly level then body else Rfc3610.encrypted E nonce body

/-- The sender has not used the nonce with the key, nor has its cipher been given the nonce's first counter
block while authenticating with the key. -/
def Unspent {κ : Type} (cfg : Cfg) (cipher : BlockCipher κ) (sc : SecCtx κ) (calls : List WriteCall)
    (key : κ) (nonce : List UInt8) : Prop :=
  ∀ p level nonce' payload, Sends cfg cipher sc calls p key level nonce' payload →
    nonce' ≠ nonce ∧ Rfc3610.counterBlock nonce 0 ∉ Rfc3610.macInputs (cipher key) level nonce' payload

/-- The receiver accepts the slice as a secured frame. -/
def AcceptsSecured {κ σ : Type} (cfg : Cfg) (cipher : BlockCipher κ) (rc : SecCtx κ) (lookup : DevLookup σ)
    (dev : σ) (buf : List UInt8) : Prop :=
  ∃ f n, (Frame.tryReadAndUnsecure cfg (Ccm.aead cipher) buf ⟨.none, some rc⟩ lookup dev).1 = .ok (f, n) ∧
    Secured f.header

end Verif.Spec
