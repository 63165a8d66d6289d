import Verif.Spec.RestartSpec

/-!
# Specification: receivers whose application changes the device table, and tables that agree
-/

namespace Verif.Spec

/-- What happens to a receiver: it reads a slice, or the application changes its device table. -/
inductive Event (κ σ : Type) where
  | receive (call : ReadCall κ)
  | change (update : σ → σ)

/-- The device state after one event. -/
def stateAfterEvent {κ σ : Type} (cfg : Cfg) (aead : Aead κ) (lookup : DevLookup σ) (dev : σ) :
    Event κ σ → σ
  | .receive call => (Frame.tryReadAndUnsecure cfg aead call.buf call.ctx lookup dev).2.2.2
  | .change update => update dev

/-- The device state after a sequence of events. -/
def stateAfter {κ σ : Type} (cfg : Cfg) (aead : Aead κ) (lookup : DevLookup σ) (dev : σ)
    (events : List (Event κ σ)) : σ :=
  events.foldl (stateAfterEvent cfg aead lookup) dev

/-- Changing state `s` to `s'` keeps device `i` above counter `c`: if it is known afterwards, then either
it was known before with a counter not greater, or its counter now is above `c`. -/
def KeepsAbove {σ ι : Type} {lookup : DevLookup σ} (table : DeviceTable ι lookup) (i : ι) (c : UInt32)
    (s s' : σ) : Prop :=
  ∀ d', table.get s' i = some d' →
    (∃ d, table.get s i = some d ∧ d.frameCounter ≤ d'.frameCounter) ∨ c < d'.frameCounter

/-- Two states of two tables know the same devices with the same counters. -/
def SameCounters {σ τ ι : Type} {lookup : DevLookup σ} {lookup' : DevLookup τ} (table : DeviceTable ι lookup)
    (table' : DeviceTable ι lookup') (s : σ) (s' : τ) : Prop :=
  ∀ i, (table.get s i).map DeviceDescriptor.frameCounter = (table'.get s' i).map DeviceDescriptor.frameCounter

/-- Everything a receiver shows in a history of calls: each call's result, buffer and context. -/
def shown {κ σ : Type} (cfg : Cfg) (aead : Aead κ) (lookup : DevLookup σ) (dev : σ) :
    List (ReadCall κ) → List (Out SecErr (Frame × Nat) × List UInt8 × SerDesCtx κ)
  | [] => []
  | call :: calls =>
    let r := Frame.tryReadAndUnsecure cfg aead call.buf call.ctx lookup dev
    (r.1, r.2.1, r.2.2.1) :: shown cfg aead lookup r.2.2.2 calls

/-- What happens to a sender's context: a frame is written with it, or the application changes it (its
fields are public; a key lookup with inner state may also change between calls). -/
inductive SendEvent (κ : Type) where
  | write (call : WriteCall)
  | change (update : SecCtx κ → SecCtx κ)

/-- The context after one such event. -/
def contextAfterEvent {κ : Type} (cfg : Cfg) (aead : Aead κ) (sc : SecCtx κ) : SendEvent κ → SecCtx κ
  | .write call => contextAfterCall cfg aead sc call
  | .change update => update sc

/-- The context after a sequence of events. -/
def contextAfterEvents {κ : Type} (cfg : Cfg) (aead : Aead κ) (sc : SecCtx κ) (events : List (SendEvent κ)) :
    SecCtx κ :=
  events.foldl (contextAfterEvent cfg aead) sc

/-- Changing context `s` to `s'` keeps address `e` above counter `c`: if the address is `e` afterwards,
then either it was before and the counter is not lowered, or the counter now is above `c`. -/
def KeepsAddressAbove {κ : Type} (e : UInt64) (c : UInt32) (s s' : SecCtx κ) : Prop :=
  s'.euid = e → (s.euid = e ∧ s.frameCounter ≤ s'.frameCounter) ∨ c < s'.frameCounter

end Verif.Spec
