import Verif.Spec.PermSpec

/-!
# Specification: all receivers of a network

Any number of receivers, each with its build, its device lookup and its device table, and what all of them
have delivered as coming from any device.
-/

namespace Verif.Spec

/-- A receiver: which offers are made to it, its build, its device lookup with the device table it is, its state at
first, and which entry of the table is for which device of the network. -/
structure Station (κ σ ι : Type) where
  mine : Offer κ σ → Bool
  cfg : Cfg
  lookup : DevLookup σ
  table : DeviceTable ι lookup
  dev : σ
  entry : Nat → ι

/-- The offers to every receiver are made to it as it is, and its keys for the entry of a device are given out with
that device's address. -/
def MadeToAll {κ σ ι ρ : Type} (A : Attacker κ σ) (start : List (Sender κ)) (stations : ρ → Station κ σ ι) : Prop :=
  ∀ r d sender, start[d]? = some sender →
    MadeTo A (stations r).mine (stations r).cfg (stations r).table ((stations r).entry d) (stations r).dev
      sender.context.euid

/-- After `n` steps, what each receiver has delivered as coming from each device is a part, in order and without
repetition, of what that device has sent up to then. -/
def AllRight {κ σ ι ρ : Type} [DecidableEq ι] (cipher : BlockCipher κ) (start : List (Sender κ)) (A : Attacker κ σ)
    (stations : ρ → Station κ σ ι) (n : Nat) : Prop :=
  ∀ r d s, (play cipher start A n).net[d]? = some s →
    List.Sublist
      (deliveredIn (stations r).mine (stations r).table.identify ((stations r).entry d) (play cipher start A n).log)
      (sentBy s.cfg (Ccm.aead cipher) s.context s.calls)

end Verif.Spec
