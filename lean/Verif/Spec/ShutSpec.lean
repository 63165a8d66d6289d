import Verif.Spec.EverySpec

/-!
# Specification: shutting a device out

A packet a device sent, handed to a receiver as it was sent; and what would count as the attacker keeping
it from being delivered.
-/

namespace Verif.Spec

/-- The receiver knows the device at first, with a counter not above the one the device starts with. -/
def KnowsAtFirst {κ σ ι : Type} (st : Station κ σ ι) (d : Nat) (sender : Sender κ) : Prop :=
  ∃ entry, st.table.get st.dev (st.entry d) = some entry ∧ entry.frameCounter ≤ sender.context.frameCounter

/-- With step `n` the attacker hands the receiver what call number `p` of device number `d` put on the air,
octet for octet. `s` is the device with its calls up to now, `call` the call, `a` the offer made. -/
structure HandsOver {κ σ ι : Type} (cipher : BlockCipher κ) (start : List (Sender κ)) (A : Attacker κ σ)
    (st : Station κ σ ι) (d p n : Nat) (s : Sender κ) (call : WriteCall) (a : Offer κ σ) : Prop where
  offer : A (play cipher start A n).log = some (.offer a)
  mine : st.mine a = true
  device : (play cipher start A n).net[d]? = some s
  number : s.calls[p]? = some call
  octets : onAir s.cfg (Ccm.aead cipher) s.context s.calls p = some a.slice
  receivable : ∃ rc, a.ctx = ⟨.none, some rc⟩ ∧ Receivable st.table (st.entry d) s.context rc call

/-- Up to step `n` the receiver has delivered something that the device sent with its call number `p` or later. -/
def Overtaken {κ σ ι : Type} [DecidableEq ι] (cipher : BlockCipher κ) (start : List (Sender κ)) (A : Attacker κ σ)
    (st : Station κ σ ι) (d p n : Nat) (s : Sender κ) : Prop :=
  ∃ x ∈ deliveredIn st.mine st.table.identify (st.entry d) (play cipher start A n).log,
    x ∈ sentBy s.cfg (Ccm.aead cipher) (contextAfter s.cfg (Ccm.aead cipher) s.context (s.calls.take p))
      (s.calls.drop p)

/-- The receiver delivers the call's payload in answer to the offer. -/
def Delivers {κ σ : Type} (cipher : BlockCipher κ) (s : Sender κ) (call : WriteCall) (a : Offer κ σ) : Prop :=
  ∃ c k, (answer cipher a).1 = .ok (⟨headerAsRead s.cfg c call.frame.header, .data, call.frame.payload, (0, 0)⟩, k)

/-- At some step a packet handed over is not delivered though nothing has overtaken it, or is answered with
anything but `CounterError` though something has. -/
def ShutOut {κ σ ι ρ : Type} [DecidableEq ι] (cipher : BlockCipher κ) (start : List (Sender κ)) (A : Attacker κ σ)
    (stations : ρ → Station κ σ ι) : Prop :=
  ∃ r d p n s call a, HandsOver cipher start A (stations r) d p n s call a ∧ KnowsAtFirst (stations r) d s ∧
    s.cfg.native = .little ∧ (stations r).cfg.native = .little ∧
    ¬ ((¬ Overtaken cipher start A (stations r) d p n s → Delivers cipher s call a) ∧
       (Overtaken cipher start A (stations r) d p n s → (answer cipher a).1 = .err .counterError))

/-- The log ends with something device number `d` has just put on the air. -/
def JustSent {κ σ : Type} (d : Nat) (log : List (Sight κ σ)) : Prop :=
  ∃ before call octets, log = before ++ [.sent d call (some octets)]

/-- The attacker can add, but not hold back: what device number `d` puts on the air gets to the receiver in the next
step, and can be received there. Between these steps the attacker does what he likes. -/
def CannotHoldBack {κ σ ι : Type} (start : List (Sender κ)) (A : Attacker κ σ) (st : Station κ σ ι) (d : Nat)
    (sender : Sender κ) : Prop :=
  ∀ (cipher : BlockCipher κ) n before call octets,
    (play cipher start A n).log = before ++ [.sent d call (some octets)] →
    ∃ a rc, A (play cipher start A n).log = some (.offer a) ∧ st.mine a = true ∧ a.slice = octets ∧
      a.ctx = ⟨.none, some rc⟩ ∧ Receivable st.table (st.entry d) sender.context rc call

/-- At some step, other than right after the device has sent something, the receiver has not delivered all
the device has sent up to then, in order, and nothing else. -/
def Missing {κ σ ι : Type} [DecidableEq ι] (cipher : BlockCipher κ) (start : List (Sender κ)) (A : Attacker κ σ)
    (st : Station κ σ ι) (d : Nat) : Prop :=
  ∃ n s, (play cipher start A n).net[d]? = some s ∧ ¬ JustSent d (play cipher start A n).log ∧
    deliveredIn st.mine st.table.identify (st.entry d) (play cipher start A n).log ≠
      sentBy s.cfg (Ccm.aead cipher) s.context s.calls

end Verif.Spec
