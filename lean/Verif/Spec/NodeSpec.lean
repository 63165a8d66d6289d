import Verif.Spec.TableSpec

/-!
# Specification: a node that sends and receives with one security context
-/

namespace Verif.Spec

/-- What a node does with its context: it writes a frame, or it reads a slice. -/
inductive NodeEvent where
  | send (call : WriteCall)
  | receive (mode : FooterMode) (buf : List UInt8)

/-- What the node sees of one event: result and buffer. -/
inductive Seen where
  | sent (result : Out ByteErr Nat) (buf : List UInt8)
  | received (result : Out SecErr (Frame × Nat)) (buf : List UInt8)

/-- One event: what is seen of it, and the node's context and device state afterwards. -/
def nodeStep {κ σ : Type} (cfg : Cfg) (aead : Aead κ) (lookup : DevLookup σ) (sc : SecCtx κ) (dev : σ) :
    NodeEvent → Seen × SecCtx κ × σ
  | .send call =>
    let r := call.frame.tryWrite cfg aead ⟨call.mode, some sc⟩ call.buf
    (.sent r.1 r.2.1, r.2.2.securityCtx.getD sc, dev)
  | .receive mode buf =>
    let r := Frame.tryReadAndUnsecure cfg aead buf ⟨mode, some sc⟩ lookup dev
    (.received r.1 r.2.1, r.2.2.1.securityCtx.getD sc, r.2.2.2)

/-- A sequence of events: what is seen of each, and context and device state at the end. -/
def nodeRun {κ σ : Type} (cfg : Cfg) (aead : Aead κ) (lookup : DevLookup σ) (sc : SecCtx κ) (dev : σ) :
    List NodeEvent → List Seen × SecCtx κ × σ
  | [] => ([], sc, dev)
  | e :: es =>
    let s := nodeStep cfg aead lookup sc dev e
    let r := nodeRun cfg aead lookup s.2.1 s.2.2 es
    (s.1 :: r.1, r.2)

/-- Is it a write? -/
def NodeEvent.isSend : NodeEvent → Bool
  | .send _ => true
  | .receive .. => false

/-- Is it what is seen of a write? -/
def Seen.isSent : Seen → Bool
  | .sent .. => true
  | .received .. => false

end Verif.Spec
