import Verif.Model.Steps
import Verif.Spec.NodeSpec

/-!
# Specification: calls cut short at any point

What a call can do step by step, what is left in memory when it is cut short, and histories of calls
each of which may be cut short anywhere.
-/

namespace Verif.Spec

/-- What outlives a call that is cut short — the counter of the security context and the state of the
device lookup — and the reference the device lookup gave out, if any. -/
structure Memory (σ : Type) where
  counter : UInt32
  dev : σ
  ref : Option (DeviceDescriptor → σ)

/-- The device state after storing a descriptor through that reference. -/
def Memory.store {σ : Type} (m : Memory σ) (d : DeviceDescriptor) : σ :=
  match m.ref with
  | some store => store d
  | none => m.dev

/-- What happened in one step. -/
inductive Effect where
  /-- the counter of the context was stored -/
  | counter (c : UInt32)
  /-- the key lookup was called and answered -/
  | key
  /-- the cipher was called to encrypt under a nonce -/
  | encrypted (nonce : List UInt8)
  /-- the device lookup was called and answered -/
  | device
  /-- the cipher was called to decrypt under a nonce and said whether the tag is right -/
  | decrypted (nonce : List UInt8) (verified : Bool)
  /-- a device descriptor was stored -/
  | stored (d : DeviceDescriptor)
deriving DecidableEq

/-- One step.  Key lookup and cipher may answer anything at all (they may have a memory of their own,
or be random); the device lookup answers as `lookup` says. -/
inductive Step {κ σ α : Type} (lookup : DevLookup σ) :
    Prog κ α → Memory σ → Effect → Prog κ α → Memory σ → Prop
  | setCounter (w c next m) : Step lookup (.setCounter w c next) m (.counter c) next { m with counter := c }
  | askKey (w mode kid addr next m) (answer : Option (UInt64 × κ)) :
      Step lookup (.askKey w mode kid addr next) m .key (next answer) m
  | encrypt (w t key nonce aad buf next m) (answer : Option (List UInt8) × List UInt8) :
      Step lookup (.encrypt w t key nonce aad buf next) m (.encrypted nonce) (next answer) m
  | lookupDevice (w mode addr next m) :
      Step lookup (.lookupDevice w mode addr next) m .device
        (next ((lookup m.dev mode addr).2.map (·.1)))
        { m with dev := (lookup m.dev mode addr).1, ref := (lookup m.dev mode addr).2.map (·.2) }
  | decrypt (w t key nonce aad buf tag next m) (answer : Bool × List UInt8) :
      Step lookup (.decrypt w t key nonce aad buf tag next) m (.decrypted nonce answer.1) (next answer) m
  | storeDevice (w d next m) :
      Step lookup (.storeDevice w d next) m (.stored d) next { m with dev := m.store d }

/-- Any number of steps, with what happened. -/
inductive Steps {κ σ α : Type} (lookup : DevLookup σ) :
    Prog κ α → Memory σ → List Effect → Prog κ α → Memory σ → Prop
  | none (p m) : Steps lookup p m [] p m
  | more {p m e q m' es r m''} : Step lookup p m e q m' → Steps lookup q m' es r m'' →
      Steps lookup p m (e :: es) r m''

/-- The program of a write with the context of address `euid`, as its counter stands in memory. -/
def writeProg {κ σ : Type} (cfg : Cfg) (euid : UInt64) (m : Memory σ) (call : WriteCall) :
    Prog κ (Out ByteErr Nat × List UInt8) :=
  call.frame.tryWriteP cfg ⟨call.mode, some ⟨euid, m.counter, fun _ _ _ => none⟩⟩ call.buf

/-- The program of a reception. -/
def readProg {κ : Type} (cfg : Cfg) (mode : FooterMode) (buf : List UInt8) :
    Prog κ (Out SecErr (Frame × Nat) × List UInt8) :=
  Frame.tryReadAndUnsecureP cfg buf mode true

/-- The frame the caller of the reader has been given, if the call has come to its end with one. -/
def delivered {κ : Type} : Prog κ (Out SecErr (Frame × Nat) × List UInt8) → Option Frame
  | .done (.ok (f, _), _) => some f
  | _ => none

/-- A call that is carried out up to some point — at most to its end — and what is found in memory
afterwards.  The frame is the one the caller was given. -/
inductive Attempt (κ : Type) {σ : Type} (cfg : Cfg) (euid : UInt64) (lookup : DevLookup σ) :
    Memory σ → List Effect → Option Frame → Memory σ → Prop
  | write (call : WriteCall) {m es m'} (rest : Prog κ (Out ByteErr Nat × List UInt8))
      (h : Steps lookup (writeProg cfg euid m call) m es rest m') : Attempt κ cfg euid lookup m es none m'
  | read (mode : FooterMode) (buf : List UInt8) {m es m'}
      (rest : Prog κ (Out SecErr (Frame × Nat) × List UInt8))
      (h : Steps lookup (readProg cfg mode buf) m es rest m') :
      Attempt κ cfg euid lookup m es (delivered rest) m'

/-- A history of attempts, each with what happened in it and the frame it gave its caller; each begins
with the memory the one before left. -/
inductive Attempts (κ : Type) {σ : Type} (cfg : Cfg) (euid : UInt64) (lookup : DevLookup σ) :
    Memory σ → List (List Effect × Option Frame) → Memory σ → Prop
  | none (m) : Attempts κ cfg euid lookup m [] m
  | more {m es f m' rest m''} : Attempt κ cfg euid lookup m es f m' →
      Attempts κ cfg euid lookup m' rest m'' → Attempts κ cfg euid lookup m ((es, f) :: rest) m''

/-- The nonces under which the cipher was called to encrypt. -/
def noncesOf (es : List Effect) : List (List UInt8) :=
  es.filterMap fun e => match e with
    | .encrypted nonce => some nonce
    | _ => none

/-- No counter wrapped round in the history: no descriptor was stored with counter 0.  With overflow
checks that cannot happen (`C82_no_wrap`). -/
def NoWrap (hist : List (List Effect × Option Frame)) : Prop :=
  ∀ a ∈ hist, ∀ d, .stored d ∈ a.1 → d.frameCounter ≠ 0

/-- A call carried out to its end with a particular key lookup and cipher: result and memory. -/
def runToEnd {κ σ α : Type} (aead : Aead κ) (keys : KeyLookup κ) (lookup : DevLookup σ) :
    Prog κ α → Memory σ → α × Memory σ
  | .done a, m => (a, m)
  | .setCounter _ c next, m => runToEnd aead keys lookup next { m with counter := c }
  | .askKey _ mode kid addr next, m => runToEnd aead keys lookup (next (keys mode kid addr)) m
  | .encrypt _ t key nonce aad buf next, m =>
      runToEnd aead keys lookup (next (aead.encrypt t key nonce aad buf)) m
  | .lookupDevice _ mode addr next, m =>
      runToEnd aead keys lookup (next ((lookup m.dev mode addr).2.map (·.1)))
        { m with dev := (lookup m.dev mode addr).1, ref := (lookup m.dev mode addr).2.map (·.2) }
  | .decrypt _ t key nonce aad buf tag next, m =>
      runToEnd aead keys lookup (next (aead.decrypt t key nonce aad buf tag)) m
  | .storeDevice _ d next, m =>
      runToEnd aead keys lookup next { m with dev := m.store d }

end Verif.Spec
