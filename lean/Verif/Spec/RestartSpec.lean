import Verif.Spec.HistorySpec

/-!
# Specification: restarts

A device that restarts builds a new security context; the crate keeps nothing.
-/

namespace Verif.Spec

/-- From one start of a device to the next: the build running, its cipher, the context created at the
start, and the calls of the frame writer made before it stopped (anywhere). -/
structure Session (κ : Type) where
  cfg : Cfg
  aead : Aead κ
  start : SecCtx κ
  calls : List WriteCall

/-- The context when the session stops. -/
def Session.stop {κ : Type} (s : Session κ) : SecCtx κ := contextAfter s.cfg s.aead s.start s.calls

/-- Some call of the session uses the nonce. -/
def Session.Uses {κ : Type} (s : Session κ) (nonce : List UInt8) : Prop :=
  ∃ before call after, s.calls = before ++ call :: after ∧
    UsesNonce s.cfg (contextAfter s.cfg s.aead s.start before) call nonce

/-- Exclusive or of octet strings, as long as the shorter one. -/
def xorOctets (a b : List UInt8) : List UInt8 := List.zipWith (· ^^^ ·) a b

/-- In device state `dev` the call accepts the secured frame `f`, for which its key lookup gave the
EUI-64 `eui`; the frame's counter is `c`. -/
def AcceptsUnder {κ σ : Type} (cfg : Cfg) (aead : Aead κ) (lookup : DevLookup σ) (dev : σ)
    (call : ReadCall κ) (f : Frame) (eui : UInt64) (c : UInt32) : Prop :=
  Accepts cfg aead lookup dev call f ∧
  ∃ sc aux key, call.ctx.securityCtx = some sc ∧ f.header.auxSec = some aux ∧ aux.frameCounter = c ∧
    sc.keyProvider .src aux.keyIdentifier f.header.source = some (eui, key)

/-- The EUI-64s the key lookups of these contexts give for source addresses tell devices apart: if two
of them give the same one for two addresses, both addresses stand for the same device. -/
def EuiTellsDevices {κ ι : Type} (identify : Address → ι) (contexts : List (SecCtx κ)) : Prop :=
  ∀ sc ∈ contexts, ∀ sc' ∈ contexts, ∀ k k' a a' eui key key',
    sc.keyProvider .src k (some a) = some (eui, key) →
    sc'.keyProvider .src k' (some a') = some (eui, key') → identify a = identify a'

end Verif.Spec
