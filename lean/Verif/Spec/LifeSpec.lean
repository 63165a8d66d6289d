import Verif.Spec.StepSpec
import Verif.Spec.TableSpec

/-!
# Specification: everything at once

A node in use.  Its calls may be cut short anywhere; its key lookup and cipher may answer anything; its key lookup may
change the device table while it is asked (the two lookups may share state); and between calls its application may set
the address and counter of its context and change its device table as it likes.
-/

namespace Verif.Spec

/-- What a node has in memory between calls: the address and counter of its context, and its device table. -/
structure Snap (σ : Type) where
  euid : UInt64
  counter : UInt32
  dev : σ

/-- The memory a call finds. -/
def Snap.memory {σ : Type} (s : Snap σ) : Memory σ := ⟨s.counter, s.dev, none⟩

/-- What happens to a node. -/
inductive Live (σ : Type) where
  /-- a call does a step -/
  | effect (e : Effect)
  /-- a reception comes to its end and gives its caller a frame -/
  | given (f : Frame)
  /-- the application changes what is in memory -/
  | changed (s s' : Snap σ)

/-- The application changes the device table, and nothing else, any number of times. -/
inductive TableChanges {σ : Type} (euid : UInt64) (counter : UInt32) : σ → List (Live σ) → σ → Prop
  | none (dev) : TableChanges euid counter dev [] dev
  | more (dev dev') {rest dev''} : TableChanges euid counter dev' rest dev'' →
      TableChanges euid counter dev (.changed ⟨euid, counter, dev⟩ ⟨euid, counter, dev'⟩ :: rest) dev''

/-- Any number of steps of a call, where the key lookup may change the device table before it answers, or before the
call is cut short. -/
inductive LiveSteps {κ σ α : Type} (euid : UInt64) (lookup : DevLookup σ) :
    Prog κ α → Memory σ → List (Live σ) → Prog κ α → Memory σ → Prop
  | none (p m) : LiveSteps euid lookup p m [] p m
  | step {p m e q m' tr r m''} : Step lookup p m e q m' → LiveSteps euid lookup q m' tr r m'' →
      LiveSteps euid lookup p m (.effect e :: tr) r m''
  | changing {w mode kid addr next} {m : Memory σ} (dev' : σ) {tr r m''} :
      LiveSteps euid lookup (.askKey w mode kid addr next) { m with dev := dev' } tr r m'' →
      LiveSteps euid lookup (.askKey w mode kid addr next) m
        (.changed ⟨euid, m.counter, m.dev⟩ ⟨euid, m.counter, dev'⟩ :: tr) r m''

/-- The life of a node from one state of its memory to another, with everything that happened: changes by the
application, and calls carried out up to some point, at most to their end. -/
inductive Life (κ : Type) {σ : Type} (cfg : Cfg) (lookup : DevLookup σ) :
    Snap σ → List (Live σ) → Snap σ → Prop
  | none (s) : Life κ cfg lookup s [] s
  | change (s s') {tr s''} : Life κ cfg lookup s' tr s'' → Life κ cfg lookup s (.changed s s' :: tr) s''
  | write (call : WriteCall) {s tr m' more s''} (rest : Prog κ (Out ByteErr Nat × List UInt8))
      (h : LiveSteps s.euid lookup (writeProg cfg s.euid s.memory call) s.memory tr rest m') :
      Life κ cfg lookup ⟨s.euid, m'.counter, m'.dev⟩ more s'' → Life κ cfg lookup s (tr ++ more) s''
  | read (mode : FooterMode) (buf : List UInt8) {s tr m' more s''}
      (rest : Prog κ (Out SecErr (Frame × Nat) × List UInt8))
      (h : LiveSteps s.euid lookup (readProg cfg mode buf) s.memory tr rest m') :
      Life κ cfg lookup ⟨s.euid, m'.counter, m'.dev⟩ more s'' →
      Life κ cfg lookup s (tr ++ ((delivered rest).toList.map .given ++ more)) s''

/-- The steps among what happened. -/
def effectsOf {σ : Type} (tr : List (Live σ)) : List Effect :=
  tr.filterMap fun x => match x with
    | .effect e => some e
    | _ => none

/-- What the application did among what happened. -/
def changesOf {σ : Type} (tr : List (Live σ)) : List (Live σ) :=
  tr.filter fun x => match x with
    | .changed _ _ => true
    | _ => false

/-- Changing memory `s` to `s'` keeps address `e` above counter `c`: if the address is `e` afterwards, then either it was
before and the counter is not lowered, or the counter now is above `c`. -/
def HoldsAddressAbove {σ : Type} (e : UInt64) (c : UInt32) (s s' : Snap σ) : Prop :=
  s'.euid = e → (s.euid = e ∧ s.counter ≤ s'.counter) ∨ c < s'.counter

end Verif.Spec
