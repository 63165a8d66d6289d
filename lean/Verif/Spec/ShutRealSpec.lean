import Verif.Spec.ShutSpec
import Verif.Spec.QuizSpec

/-!
# Specification: shutting a device out of a network with real keys

The events of `ShutSpec` in a network whose devices and receivers hold real keys of a real block cipher.
-/

namespace Verif.Spec

/-- After `n` steps, what every receiver has delivered as coming from every device is a part, in order and without
repetition, of what that device has sent. -/
def RealAllRight {κ K σ ι ρ : Type} [DecidableEq ι] (cipher : BlockCipher K) (keys : κ → K) (start : List (Sender κ))
    (A : Attacker κ σ) (stations : ρ → Station κ σ ι) (n : Nat) : Prop :=
  ∀ r d s, (realPlay cipher keys start A n).net[d]? = some s →
    List.Sublist
      (deliveredIn (stations r).mine (stations r).table.identify ((stations r).entry d) (realPlay cipher keys start A n).log)
      (sentBy s.cfg (Ccm.aead cipher) (contextWith keys s.context) s.calls)

/-- With step `n` the attacker hands the receiver what call number `p` of device number `d` put on the air,
octet for octet. `s` is the device with its calls up to now (keys by name), `call` the call, `a` the offer made. -/
structure RealHandsOver {κ K σ ι : Type} (cipher : BlockCipher K) (keys : κ → K) (start : List (Sender κ)) (A : Attacker κ σ)
    (st : Station κ σ ι) (d p n : Nat) (s : Sender κ) (call : WriteCall) (a : Offer κ σ) : Prop where
  offer : A (realPlay cipher keys start A n).log = some (.offer a)
  mine : st.mine a = true
  device : (realPlay cipher keys start A n).net[d]? = some s
  number : s.calls[p]? = some call
  octets : onAir s.cfg (Ccm.aead cipher) (contextWith keys s.context) s.calls p = some a.slice
  receivable : ∃ rc, a.ctx = ⟨.none, some rc⟩ ∧ Receivable st.table (st.entry d) s.context rc call

/-- Up to step `n` the receiver has delivered something that the device sent with its call number `p` or later. -/
def RealOvertaken {κ K σ ι : Type} [DecidableEq ι] (cipher : BlockCipher K) (keys : κ → K) (start : List (Sender κ))
    (A : Attacker κ σ) (st : Station κ σ ι) (d p n : Nat) (s : Sender κ) : Prop :=
  ∃ x ∈ deliveredIn st.mine st.table.identify (st.entry d) (realPlay cipher keys start A n).log,
    x ∈ sentBy s.cfg (Ccm.aead cipher) (contextAfter s.cfg (Ccm.aead cipher) (contextWith keys s.context) (s.calls.take p))
      (s.calls.drop p)

/-- The receiver delivers the call's payload in answer to the offer. -/
def RealDelivers {κ K σ : Type} (cipher : BlockCipher K) (keys : κ → K) (s : Sender κ) (call : WriteCall) (a : Offer κ σ) : Prop :=
  ∃ c k, (answer cipher (offerWith keys a)).1 =
    .ok (⟨headerAsRead s.cfg c call.frame.header, .data, call.frame.payload, (0, 0)⟩, k)

/-- At some step a packet handed over is not delivered though nothing has overtaken it, or is answered with
anything but `CounterError` though something has. -/
def RealShutOut {κ K σ ι ρ : Type} [DecidableEq ι] (cipher : BlockCipher K) (keys : κ → K) (start : List (Sender κ))
    (A : Attacker κ σ) (stations : ρ → Station κ σ ι) : Prop :=
  ∃ r d p n s call a, RealHandsOver cipher keys start A (stations r) d p n s call a ∧ KnowsAtFirst (stations r) d s ∧
    s.cfg.native = .little ∧ (stations r).cfg.native = .little ∧
    ¬ ((¬ RealOvertaken cipher keys start A (stations r) d p n s → RealDelivers cipher keys s call a) ∧
       (RealOvertaken cipher keys start A (stations r) d p n s → (answer cipher (offerWith keys a)).1 = .err .counterError))

/-- At some step, other than right after the device has sent something, the receiver has not delivered all
the device has sent up to then, in order, and nothing else. -/
def RealMissing {κ K σ ι : Type} [DecidableEq ι] (cipher : BlockCipher K) (keys : κ → K) (start : List (Sender κ))
    (A : Attacker κ σ) (st : Station κ σ ι) (d : Nat) : Prop :=
  ∃ n s, (realPlay cipher keys start A n).net[d]? = some s ∧ ¬ JustSent d (realPlay cipher keys start A n).log ∧
    deliveredIn st.mine st.table.identify (st.entry d) (realPlay cipher keys start A n).log ≠
      sentBy s.cfg (Ccm.aead cipher) (contextWith keys s.context) s.calls

end Verif.Spec
