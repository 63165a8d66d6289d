import Verif.Props.Talk
import Verif.Props.AnyApp

/-!
# Conversations meeting the hypotheses of C100 and C101
-/

namespace Verif.Witness
open Spec

/-- What is said in a run to the end. -/
def record {κ σ α : Type} (aead : Aead κ) (keys : KeyLookup κ) (lookup : DevLookup σ) :
    Prog κ α → Memory σ → List (Exchange κ) × α
  | .done a, _ => ([], a)
  | .setCounter _ c next, m =>
      let r := record aead keys lookup next { m with counter := c }
      (.counter c :: r.1, r.2)
  | .askKey _ mode kid addr next, m =>
      let r := record aead keys lookup (next (keys mode kid addr)) m
      (.key mode kid addr (keys mode kid addr) :: r.1, r.2)
  | .encrypt _ t key nonce aad text next, m =>
      let r := record aead keys lookup (next (aead.encrypt t key nonce aad text)) m
      (.encrypt t key nonce aad text (aead.encrypt t key nonce aad text) :: r.1, r.2)
  | .lookupDevice _ mode addr next, m =>
      let r := record aead keys lookup (next ((lookup m.dev mode addr).2.map (·.1)))
        { m with dev := (lookup m.dev mode addr).1, ref := (lookup m.dev mode addr).2.map (·.2) }
      (.device mode addr ((lookup m.dev mode addr).2.map (·.1)) :: r.1, r.2)
  | .decrypt _ t key nonce aad text tag next, m =>
      let r := record aead keys lookup (next (aead.decrypt t key nonce aad text tag)) m
      (.decrypt t key nonce aad text tag (aead.decrypt t key nonce aad text tag) :: r.1, r.2)
  | .storeDevice _ d next, m =>
      let r := record aead keys lookup next { m with dev := m.store d }
      (.store d :: r.1, r.2)

theorem record_talk {κ σ α : Type} (aead : Aead κ) (keys : KeyLookup κ) (lookup : DevLookup σ) (p : Prog κ α)
    (m : Memory σ) : Talk p (record aead keys lookup p m).1 (.done (record aead keys lookup p m).2) := by
  induction p generalizing m with
  | done a => exact .nothing _
  | setCounter w c next ih => exact .counter (ih _)
  | askKey w mode kid addr next ih => exact .key _ (ih _ _)
  | encrypt w t k n a b next ih => exact .encrypt _ (ih _ _)
  | lookupDevice w mode addr next ih => exact .device _ (ih _ _)
  | decrypt w t k n a b g next ih => exact .decrypt _ (ih _ _)
  | storeDevice w d next ih => exact .store (ih _)

/-- The conversation of the sample write. -/
def writeSaid := record sampleAead sampleSender.keyProvider sampleLookup
  (writeProg sampleCfg sampleSender.euid sampleMemory ⟨sampleSecured, .none, List.replicate 40 0⟩) sampleMemory

/-- The conversation of the sample reception. -/
def readSaid := record sampleAead sampleSender.keyProvider sampleLookup
  (readProg sampleCfg .none sampleReceived) sampleMemory

theorem writeSaid_is : writeSaid.1 =
    [.counter 0x01020305, .key .dst (some ⟨some (.short 0xA1B2C3D4), 9⟩) sampleSecured.header.destination (some (9, 5)),
      .encrypt 4 5 (nonceOctets sampleSender.euid 0x01020304 .encmic32) [] [0xde, 0xf0]
        (some [0xAA, 0xAA, 0xAA, 0xAA], [0xde, 0xf0])] := by decide +kernel

theorem readSaid_is : readSaid.1 =
    [.key .src (some ⟨some (.short 0xA1B2C3D4), 9⟩) (some (.extended 0x1234 0x0102030405060708)) (some (9, 5)),
      .device .src (.extended 0x1234 0x0102030405060708) (some ⟨3, false⟩),
      .decrypt 4 5 (nonceOctets 9 0x01020304 .encmic32) [] [0xde, 0xf0] [0xAA, 0xAA, 0xAA, 0xAA] (true, [0xde, 0xf0]),
      .store ⟨0x01020305, false⟩] := by decide +kernel

/-- The sample write reports success. -/
theorem writeSaid_ok : (match writeSaid.2 with | (.ok _, _) => true | _ => false) = true := by decide +kernel

/-- The sample reception gives a secured frame. -/
theorem readSaid_ok :
    (match readSaid.2 with | (.ok (f, _), _) => f.header.auxSec.isSome | _ => false) = true := by decide +kernel

example := C100_write sampleCfg sampleSender.euid sampleMemory ⟨sampleSecured, .none, List.replicate 40 0⟩ _ _
  (record_talk sampleAead sampleSender.keyProvider sampleLookup _ sampleMemory)

example : ∃ n out, writeSaid.2 = (.ok n, out) ∧
    ∃ owner key aad text tag text', Split sampleAux.control.securityLevel sampleSecured.payload aad text ∧
      writeSaid.1 = [.counter (sampleMemory.counter + 1),
        .key .dst sampleAux.keyIdentifier sampleSecured.header.destination (some (owner, key)),
        .encrypt (tagLength sampleAux.control.securityLevel) key
          (nonceOctets sampleSender.euid sampleMemory.counter sampleAux.control.securityLevel) aad text
          (some tag, text')] := by
  have h := record_talk sampleAead sampleSender.keyProvider sampleLookup
    (writeProg sampleCfg sampleSender.euid sampleMemory ⟨sampleSecured, .none, List.replicate 40 0⟩) sampleMemory
  have h0 := writeSaid_ok
  change Talk _ writeSaid.1 (.done writeSaid.2) at h
  generalize hr : writeSaid.2 = r at h h0
  rcases r with ⟨n | e | _, out⟩
  · exact ⟨n, out, rfl, C100_written sampleCfg sampleSender.euid sampleMemory _ _ n out h sampleAux rfl (by decide)⟩
  · cases h0
  · cases h0

example := C100_read sampleCfg .none sampleReceived _ _
  (record_talk sampleAead sampleSender.keyProvider sampleLookup _ sampleMemory)

example : ∃ q₁ q₂ q₃ d, readSaid.1 = [q₁, q₂, q₃, .store d] := by
  have h := record_talk sampleAead sampleSender.keyProvider sampleLookup
    (readProg sampleCfg .none sampleReceived) sampleMemory
  have h0 := readSaid_ok
  change Talk _ readSaid.1 (.done readSaid.2) at h
  generalize readSaid.2 = r at h h0
  rcases r with ⟨⟨f, k⟩ | e | _, out⟩
  · exact C100_delivered sampleCfg .none sampleReceived _ f k out h h0
  · cases h0
  · cases h0

theorem writeSaid_typed : ∀ x ∈ writeSaid.1, TypedAnswer x := by
  rw [writeSaid_is]
  intro x hx
  simp only [List.mem_cons, List.not_mem_nil, or_false] at hx
  rcases hx with rfl | rfl | rfl
  · trivial
  · trivial
  · exact ⟨rfl, fun tag h => by cases h; rfl⟩

theorem readSaid_typed : ∀ x ∈ readSaid.1, TypedAnswer x := by
  rw [readSaid_is]
  intro x hx
  simp only [List.mem_cons, List.not_mem_nil, or_false] at hx
  rcases hx with rfl | rfl | rfl | rfl
  · trivial
  · trivial
  · exact rfl
  · trivial

example := C101_write sampleCfg sampleSender.euid sampleMemory ⟨sampleSecured, .none, List.replicate 40 0⟩ writeSaid.1
  writeSaid.2.1 writeSaid.2.2 (record_talk sampleAead sampleSender.keyProvider sampleLookup _ sampleMemory) writeSaid_typed

example := C101_read sampleCfg .none sampleReceived readSaid.1 readSaid.2.1 readSaid.2.2
  (record_talk sampleAead sampleSender.keyProvider sampleLookup _ sampleMemory) readSaid_typed 7 8

end Verif.Witness
