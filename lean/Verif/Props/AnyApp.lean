import Verif.Props.Talk
import Verif.Spec.AnyAppSpec

/-!
# C101: applications with a memory of their own

Whatever key lookup, device lookup and cipher answer — also if they answer the same question differently from one time
to the next — a call shows what it would show with some lookups and some cipher that always answer the same.  So
everything proved of single calls for all lookups and ciphers holds of calls into any application.
-/

namespace Verif
open Spec

section
variable {κ α σ : Type}

/-- The memory after a conversation. -/
def memoryAfter (lookup : DevLookup σ) : Memory σ → List (Exchange κ) → Memory σ
  | m, [] => m
  | m, .counter c :: es => memoryAfter lookup { m with counter := c } es
  | m, .device mode addr _ :: es => memoryAfter lookup
      { m with dev := (lookup m.dev mode addr).1, ref := (lookup m.dev mode addr).2.map (·.2) } es
  | m, .store d :: es => memoryAfter lookup { m with dev := m.store d } es
  | m, .key _ _ _ _ :: es => memoryAfter lookup m es
  | m, .encrypt _ _ _ _ _ _ :: es => memoryAfter lookup m es
  | m, .decrypt _ _ _ _ _ _ _ :: es => memoryAfter lookup m es

theorem memoryAfter_counter (lookup : DevLookup σ) (es : List (Exchange κ)) (m : Memory σ) :
    (memoryAfter lookup m es).counter = counterAfter m.counter es := by
  induction es generalizing m with
  | nil => rfl
  | cons x es ih => cases x <;> exact ih _

/-- A conversation to the end with truthful answers is the run to the end. -/
theorem runToEnd_of_talk (aead : Aead κ) (keys : KeyLookup κ) (lookup : DevLookup σ) {p q : Prog κ α}
    {es : List (Exchange κ)} (h : Talk p es q) (a : α) (hq : q = .done a) (m : Memory σ)
    (ht : Truthful aead keys lookup m es) :
    runToEnd aead keys lookup p m = (a, memoryAfter lookup m es) := by
  induction h generalizing m with
  | nothing p => subst hq; rfl
  | counter _ ih => exact ih hq _ ht
  | key answer _ ih => obtain ⟨rfl, ht⟩ := ht; exact ih hq _ ht
  | encrypt answer _ ih => obtain ⟨rfl, ht⟩ := ht; exact ih hq _ ht
  | device answer _ ih => obtain ⟨rfl, ht⟩ := ht; exact ih hq _ ht
  | decrypt answer _ ih => obtain ⟨rfl, ht⟩ := ht; exact ih hq _ ht
  | store _ ih => exact ih hq _ ht

open Classical in
/-- The cipher that gives one answer to one question and refuses all others. -/
noncomputable def oneAnswer (t : Nat) (key : κ) (nonce aad text : List UInt8)
    (answer : Option (List UInt8) × List UInt8) : Aead κ where
  encrypt t' k n a b := if (t', k, n, a, b) = (t, key, nonce, aad, text) then answer else (none, b)
  decrypt _ _ _ _ b _ := (false, b)

open Classical in
/-- The same for decryption. -/
noncomputable def oneOpening (t : Nat) (key : κ) (nonce aad text tag : List UInt8) (answer : Bool × List UInt8) :
    Aead κ where
  encrypt _ _ _ _ b := (none, b)
  decrypt t' k n a b g := if (t', k, n, a, b, g) = (t, key, nonce, aad, text, tag) then answer else (false, b)

/-- The cipher that refuses everything. -/
def refusesAll : Aead κ := ⟨fun _ _ _ _ b => (none, b), fun _ _ _ _ b _ => (false, b)⟩

theorem refusesAll_typed : AeadTyped (refusesAll : Aead κ) :=
  ⟨fun _ _ _ _ _ => rfl, fun _ _ _ _ _ _ _ h => (by cases h), fun _ _ _ _ _ _ => rfl⟩

theorem oneAnswer_typed {t : Nat} {key : κ} {nonce aad text : List UInt8} {answer : Option (List UInt8) × List UInt8}
    (h : answer.2.length = text.length ∧ ∀ tag, answer.1 = some tag → tag.length = t) :
    AeadTyped (oneAnswer t key nonce aad text answer) := by
  refine ⟨?_, ?_, fun _ _ _ _ _ _ => rfl⟩
  · intro t' k n a b
    unfold oneAnswer
    dsimp only
    split
    next heq => cases heq; exact h.1
    next => rfl
  · intro t' k n a b tag _ he
    unfold oneAnswer at he
    dsimp only at he
    split at he
    next heq => cases heq; exact h.2 _ he
    next => cases he

theorem oneOpening_typed {t : Nat} {key : κ} {nonce aad text tag : List UInt8} {answer : Bool × List UInt8}
    (h : answer.2.length = text.length) : AeadTyped (oneOpening t key nonce aad text tag answer) := by
  refine ⟨fun _ _ _ _ _ => rfl, fun _ _ _ _ _ _ _ h => (by cases h), ?_⟩
  intro t' k n a b g
  unfold oneOpening
  dsimp only
  split
  next heq => cases heq; exact h
  next => rfl

/-- **C101** Whatever an application answers during a write, the write ends as it does with some key lookup and cipher
that always give these answers: same result, same octets, same counter. -/
theorem C101_write (cfg : Cfg) (euid : UInt64) (m : Memory σ) (call : WriteCall) (es : List (Exchange κ))
    (r : Out ByteErr Nat) (out : List UInt8) (h : Talk (writeProg cfg euid m call) es (.done (r, out)))
    (hty : ∀ x ∈ es, TypedAnswer x) :
    ∃ (aead : Aead κ) (keys : KeyLookup κ), AeadTyped aead ∧
      (∀ lookup : DevLookup σ, Truthful aead keys lookup m es) ∧
      call.frame.tryWrite cfg aead ⟨call.mode, some ⟨euid, m.counter, keys⟩⟩ call.buf =
        (r, out, ⟨call.mode, some ⟨euid, counterAfter m.counter es, keys⟩⟩) := by
  have key : ∀ (aead : Aead κ) (keys : KeyLookup κ), (∀ lookup : DevLookup σ, Truthful aead keys lookup m es) →
      call.frame.tryWrite cfg aead ⟨call.mode, some ⟨euid, m.counter, keys⟩⟩ call.buf =
        (r, out, ⟨call.mode, some ⟨euid, counterAfter m.counter es, keys⟩⟩) := by
    intro aead keys ht
    have h1 := (C81_write_refines cfg aead (unimplementedDevLookup : DevLookup σ) ⟨euid, m.counter, keys⟩ call m rfl).1
    have h2 := runToEnd_of_talk aead keys unimplementedDevLookup h _ rfl m (ht _)
    dsimp only at h1
    rw [h1, h2, memoryAfter_counter]
  rcases C100_write cfg euid m call es _ h with rfl | ⟨aux, _, _, _, _, _, hw⟩
  · exact ⟨refusesAll, fun _ _ _ => none, refusesAll_typed, fun _ => trivial, key _ _ fun _ => trivial⟩
  · cases hw with
    | counted => exact ⟨refusesAll, fun _ _ _ => none, refusesAll_typed, fun _ => trivial, key _ _ fun _ => trivial⟩
    | asked answer =>
      exact ⟨refusesAll, fun _ _ _ => answer, refusesAll_typed, fun _ => ⟨rfl, trivial⟩, key _ _ fun _ => ⟨rfl, trivial⟩⟩
    | «sealed» owner k aad text answer hs =>
      have ht : ∀ lookup : DevLookup σ, Truthful (oneAnswer (tagLength aux.control.securityLevel) k
          (nonceOctets euid m.counter aux.control.securityLevel) aad text answer) (fun _ _ _ => some (owner, k)) lookup m
          [.counter (m.counter + 1), .key .dst aux.keyIdentifier call.frame.header.destination (some (owner, k)),
            .encrypt (tagLength aux.control.securityLevel) k (nonceOctets euid m.counter aux.control.securityLevel) aad
              text answer] := by
        intro lookup
        refine ⟨rfl, ?_, trivial⟩
        exact (if_pos rfl).symm
      exact ⟨_, _, oneAnswer_typed (hty _ (.tail _ (.tail _ (.head _)))), ht, key _ _ ht⟩

/-- **C101** Whatever an application answers during a reception, the reception ends as it does with some key lookup,
device lookup and cipher that always give these answers: same result, same octets, same descriptor stored. -/
theorem C101_read (cfg : Cfg) (mode : FooterMode) (buf : List UInt8) (es : List (Exchange κ))
    (r : Out SecErr (Frame × Nat)) (out : List UInt8) (h : Talk (readProg cfg mode buf) es (.done (r, out)))
    (hty : ∀ x ∈ es, TypedAnswer x) (euid : UInt64) (c : UInt32) :
    ∃ (aead : Aead κ) (keys : KeyLookup κ) (found : Option DeviceDescriptor), AeadTyped aead ∧
      Truthful aead keys (sameDevice found) ⟨c, none, none⟩ es ∧
      Frame.tryReadAndUnsecure cfg aead buf ⟨mode, some ⟨euid, c, keys⟩⟩ (sameDevice found) none =
        (r, out, ⟨mode, some ⟨euid, c, keys⟩⟩, lastStored es) := by
  have key : ∀ (aead : Aead κ) (keys : KeyLookup κ) (found : Option DeviceDescriptor),
      Truthful aead keys (sameDevice found) ⟨c, none, none⟩ es →
      (memoryAfter (sameDevice found) ⟨c, none, none⟩ es).dev = lastStored es →
      Frame.tryReadAndUnsecure cfg aead buf ⟨mode, some ⟨euid, c, keys⟩⟩ (sameDevice found) none =
        (r, out, ⟨mode, some ⟨euid, c, keys⟩⟩, lastStored es) := by
    intro aead keys found ht hst
    have h1 := (C82_read_refines cfg aead (sameDevice found) ⟨euid, c, keys⟩ mode buf ⟨c, none, none⟩).1
    have h2 := runToEnd_of_talk aead keys (sameDevice found) h _ rfl ⟨c, none, none⟩ ht
    dsimp only at h1
    rw [h1, h2, hst]
  rcases C100_read cfg mode buf es _ h with rfl | ⟨header, n, aux, _, _, _, _, _, _, hw⟩
  · exact ⟨refusesAll, fun _ _ _ => none, none, refusesAll_typed, trivial, key _ _ _ trivial rfl⟩
  · cases hw with
    | asked answer =>
      exact ⟨refusesAll, fun _ _ _ => answer, none, refusesAll_typed, ⟨rfl, trivial⟩, key _ _ _ ⟨rfl, trivial⟩ rfl⟩
    | looked owner k src answer hs =>
      have he : answer = ((sameDevice answer (none : Option DeviceDescriptor) .src src).2.map (·.1)) := by
        cases answer <;> rfl
      exact ⟨refusesAll, fun _ _ _ => some (owner, k), answer, refusesAll_typed, ⟨rfl, he, trivial⟩,
        key _ _ _ ⟨rfl, he, trivial⟩ rfl⟩
    | opened owner k src d octets aad text tag answer hs fresh left hb ht hsplit =>
      exact ⟨_, fun _ _ _ => some (owner, k), some d, oneOpening_typed (hty _ (.tail _ (.tail _ (.head _)))),
        ⟨rfl, rfl, (if_pos rfl).symm, trivial⟩, key _ _ _ ⟨rfl, rfl, (if_pos rfl).symm, trivial⟩ rfl⟩
    | stored owner k src d octets aad text tag o hs fresh left hb ht hsplit wrap =>
      exact ⟨_, fun _ _ _ => some (owner, k), some d, oneOpening_typed (hty _ (.tail _ (.tail _ (.head _)))),
        ⟨rfl, rfl, (if_pos rfl).symm, trivial⟩, key _ _ _ ⟨rfl, rfl, (if_pos rfl).symm, trivial⟩ rfl⟩

end
end Verif
