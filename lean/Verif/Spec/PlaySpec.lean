import Verif.Spec.ChanceSpec

/-!
# Specification: plays

An attacker in control of the network: he chooses step by step which device writes which frame and which receiver gets
which slice, in view of all that went over the air and all answers of the receivers up to then.
-/

namespace Verif.Spec

/-- A step: a device writes a frame, or a receiver gets a slice. -/
inductive Move (κ σ : Type) where
  | write (device : Nat) (call : WriteCall)
  | offer (a : Offer κ σ)

/-- What is seen of a step: what the device put on the air, or the receiver's answer. -/
inductive Sight (κ σ : Type) where
  | sent (device : Nat) (call : WriteCall) (octets : Option (List UInt8))
  | answered (a : Offer κ σ) (answer : Answer κ σ)

/-- Chooses the next step, or stops. -/
abbrev Attacker (κ σ : Type) := List (Sight κ σ) → Option (Move κ σ)

/-- The devices with their writes up to now, and what was seen up to now. -/
structure Play (κ σ : Type) where
  net : List (Sender κ)
  log : List (Sight κ σ)

/-- Device number `i` does one more write. -/
def wrote {κ : Type} (net : List (Sender κ)) (i : Nat) (call : WriteCall) : List (Sender κ) :=
  net.modify i fun s => { s with calls := s.calls ++ [call] }

/-- The number of writes of device number `i`. -/
def writesOf {κ : Type} (net : List (Sender κ)) (i : Nat) : Nat :=
  match net[i]? with
  | some s => s.calls.length
  | none => 0

/-- The first steps of a play. -/
def play {κ σ : Type} (cipher : BlockCipher κ) (start : List (Sender κ)) (A : Attacker κ σ) : Nat → Play κ σ
  | 0 => ⟨start, []⟩
  | n + 1 =>
    let now := play cipher start A n
    match A now.log with
    | none => now
    | some (.write i call) =>
      ⟨wrote now.net i call,
        now.log ++ [.sent i call (observed cipher (wrote now.net i call) i (writesOf now.net i))]⟩
    | some (.offer a) => ⟨now.net, now.log ++ [.answered a (answer cipher a)]⟩

/-- The number of writes seen. -/
def sentCount {κ σ : Type} (log : List (Sight κ σ)) : Nat :=
  log.countP fun | .sent _ _ _ => true | .answered _ _ => false

/-- The number of answers seen. -/
def answerCount {κ σ : Type} (log : List (Sight κ σ)) : Nat :=
  log.countP fun | .sent _ _ _ => false | .answered _ _ => true

/-- An attacker who has at most `q` frames written, of content out of the crate's readers or constructors, and at most
`v` slices read, each of at most `limit` octets. -/
structure Limited {κ σ : Type} (A : Attacker κ σ) (q v limit : Nat) : Prop where
  writes : ∀ log i call, A log = some (.write i call) → sentCount log < q ∧ ContentFromApi call.frame.content
  offers : ∀ log a, A log = some (.offer a) → answerCount log < v ∧ a.slice.length ≤ limit

/-- Devices with different addresses that have written nothing yet. -/
def Fresh {κ : Type} (net : List (Sender κ)) : Prop :=
  (net.Pairwise fun s s' => s.context.euid ≠ s'.context.euid) ∧ ∀ s ∈ net, s.calls = []

/-- At some step the attacker offers a slice that is accepted as a secured frame with a tag of at least `M` octets,
though no device has, up to then, sent a frame with this key, level, nonce and payload. -/
def PlayForges {κ σ : Type} (cipher : BlockCipher κ) (start : List (Sender κ)) (A : Attacker κ σ) (M : Nat) : Prop :=
  ∃ n a, A (play cipher start A n).log = some (.offer a) ∧ Forged cipher (play cipher start A n).net M a

/-- What a receiver's answer delivers from device `i`: counter and payload. -/
def deliveredFrom {κ σ ι : Type} [DecidableEq ι] (identify : Address → ι) (i : ι) (x : Answer κ σ) :
    List (UInt32 × List UInt8) :=
  match x.1 with
  | .ok (f, _) =>
    match f.header.source, f.header.auxSec with
    | some src, some aux => if identify src = i then [(aux.frameCounter, f.payload)] else []
    | _, _ => []
  | _ => []

/-- What the answers of one receiver deliver from device `i`, in order; `mine` says which offers are made to it. -/
def deliveredIn {κ σ ι : Type} [DecidableEq ι] (mine : Offer κ σ → Bool) (identify : Address → ι) (i : ι) :
    List (Sight κ σ) → List (UInt32 × List UInt8)
  | [] => []
  | .sent _ _ _ :: log => deliveredIn mine identify i log
  | .answered a x :: log =>
    (if mine a then deliveredFrom identify i x else []) ++ deliveredIn mine identify i log

/-- The state of that receiver's device lookup, at first `dev`. -/
def lookupState {κ σ : Type} (mine : Offer κ σ → Bool) (dev : σ) : List (Sight κ σ) → σ
  | [] => dev
  | .sent _ _ _ :: log => lookupState mine dev log
  | .answered a x :: log => lookupState mine (if mine a then x.2.2.2 else dev) log

/-- The offers to that receiver are made to it as it is: with its device lookup in the state its last answer left it
in, and with keys that go for device `i` of its table with the address `eui`. -/
def MadeTo {κ σ ι : Type} (A : Attacker κ σ) (mine : Offer κ σ → Bool) (rcfg : Cfg) {lookup : DevLookup σ}
    (table : DeviceTable ι lookup) (i : ι) (dev : σ) (eui : UInt64) : Prop :=
  ∀ log a, A log = some (.offer a) → mine a = true →
    a.cfg = rcfg ∧ a.lookup = lookup ∧ a.device = lookupState mine dev log ∧ NamesDevice table i eui ⟨a.slice, a.ctx⟩

end Verif.Spec
