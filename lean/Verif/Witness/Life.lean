import Verif.Props.Life
import Verif.Witness.Runs

/-!
# C103 at work
-/

namespace Verif.Witness
open Spec

def asking {κ α : Type} : Prog κ α → Bool
  | .askKey .. => true
  | _ => false

theorem changing_first {κ σ α : Type} {euid : UInt64} {lookup : DevLookup σ} {p q : Prog κ α} (h : asking p = true)
    (m : Memory σ) (dev' : σ) {tr m'} (hs : LiveSteps euid lookup p { m with dev := dev' } tr q m') :
    LiveSteps euid lookup p m (.changed ⟨euid, m.counter, m.dev⟩ ⟨euid, m.counter, dev'⟩ :: tr) q m' := by
  cases p with
  | askKey => exact .changing dev' hs
  | _ => cases h

/-- The sample node. -/
def node₀ : Snap DeviceDescriptor := ⟨sampleSender.euid, 0x01020304, ⟨3, false⟩⟩
def node₁ : Snap DeviceDescriptor := ⟨sampleSender.euid, 0x01020304, ⟨0x01020305, false⟩⟩
def node₂ : Snap DeviceDescriptor := ⟨sampleSender.euid, 0x01020304, ⟨0x01020305, true⟩⟩
def node₄ : Snap DeviceDescriptor := ⟨sampleSender.euid, 0x01020304, ⟨0x01020306, false⟩⟩

theorem liveRead (s : Snap DeviceDescriptor) (n : Nat) (b : UInt8) :
    LiveSteps s.euid sampleLookup (readProg sampleCfg .none (sampleReceivedAt b)) s.memory
      ((cutRead n b s.memory).1.map .effect) (cutRead n b s.memory).2.1 (cutRead n b s.memory).2.2 :=
  live_of_steps (cutRead_steps n b s.memory)

/-- The trace of a reception that the key lookup changes to `node₁`'s table, cut before the store. -/
def during : List (Live DeviceDescriptor) :=
  .changed node₂ node₁ :: (cutRead 3 5 node₁.memory).1.map .effect

theorem life_cut (s' : Snap DeviceDescriptor) (tr : List (Live DeviceDescriptor))
    (h : Life Nat sampleCfg sampleLookup node₁ tr s') : Life Nat sampleCfg sampleLookup node₂ (during ++ tr) s' := by
  have h1 : LiveSteps sampleSender.euid sampleLookup (readProg sampleCfg .none (sampleReceivedAt 5)) node₂.memory during
      (cutRead 3 5 node₁.memory).2.1 (cutRead 3 5 node₁.memory).2.2 :=
    changing_first (p := readProg sampleCfg .none (sampleReceivedAt 5)) (by decide +kernel) node₂.memory node₁.dev
      (liveRead node₁ 3 5)
  have h2 : delivered (cutRead 3 5 node₁.memory).2.1 = none := by decide +kernel
  have h3 : (cutRead 3 5 node₁.memory).2.2.counter = 0x01020304 := by decide +kernel
  have h4 : (cutRead 3 5 node₁.memory).2.2.dev = ⟨0x01020305, false⟩ := by decide +kernel
  have := Life.read (s := node₂) (κ := Nat) (cfg := sampleCfg) .none (sampleReceivedAt 5) (more := tr) (s'' := s') _ h1
    (by rw [h3, h4]; exact h)
  rw [h2] at this
  exact this

/-- A packet given to the caller; the application exempts the device; a reception, while which the key lookup takes
that back, is cut before the store; then the next packet is given to the caller. -/
theorem sampleLife : Life Nat sampleCfg sampleLookup node₀
    ((cutRead 9 4 node₀.memory).1.map .effect ++ .given (sampleAccepted 4) ::
      ((.changed node₁ node₂ :: (during ++ (cutRead 9 5 node₁.memory).1.map .effect)) ++ .given (sampleAccepted 5) :: [])) node₄ := by
  have h1 : delivered (cutRead 9 4 node₀.memory).2.1 = some (sampleAccepted 4) := by decide +kernel
  have h2 : delivered (cutRead 9 5 node₁.memory).2.1 = some (sampleAccepted 5) := by decide +kernel
  have c1 : (cutRead 9 4 node₀.memory).2.2.counter = 0x01020304 := by decide +kernel
  have d1 : (cutRead 9 4 node₀.memory).2.2.dev = ⟨0x01020305, false⟩ := by decide +kernel
  have c2 : (cutRead 9 5 node₁.memory).2.2.counter = 0x01020304 := by decide +kernel
  have d2 : (cutRead 9 5 node₁.memory).2.2.dev = ⟨0x01020306, false⟩ := by decide +kernel
  have hlast := Life.read (κ := Nat) (cfg := sampleCfg) .none (sampleReceivedAt 5) (more := []) (s'' := node₄) _ (liveRead node₁ 9 5)
    (by rw [c2, d2]; exact .none _)
  rw [h2] at hlast
  have hfirst := Life.read (κ := Nat) (cfg := sampleCfg) .none (sampleReceivedAt 4) (s'' := node₄) _ (liveRead node₀ 9 4)
    (by rw [c1, d1]; exact .change node₁ node₂ (life_cut _ _ hlast))
  rw [h1] at hfirst
  simpa using hfirst

theorem stored_between (x : Live DeviceDescriptor)
    (h : x ∈ .changed node₁ node₂ :: (during ++ (cutRead 9 5 node₁.memory).1.map .effect)) :
    (∀ d, x = .effect (.stored d) → d.frameCounter ≠ 0) ∧
    ∀ t t', x = .changed t t' → KeepsAbove sampleTable () 0x01020304 t.dev t'.dev := by
  have e1 : (cutRead 3 5 node₁.memory).1 = [.key, .device, .decrypted (nonceOctets 9 0x01020305 .encmic32) true] := by
    decide +kernel
  have e2 : (cutRead 9 5 node₁.memory).1 = [.key, .device, .decrypted (nonceOctets 9 0x01020305 .encmic32) true,
    .stored ⟨0x01020306, false⟩] := by decide +kernel
  rw [during, e1, e2] at h
  simp only [List.map_cons, List.map_nil, List.cons_append, List.nil_append, List.mem_cons, List.not_mem_nil, or_false] at h
  rcases h with rfl | rfl | rfl | rfl | rfl | rfl | rfl | rfl | rfl
  case' inl | inr.inl =>
    refine ⟨fun _ h => (by cases h), fun t t' h => ?_⟩
    cases h
    intro d hd
    exact .inr (by cases hd; decide)
  all_goals exact ⟨fun _ h => (by cases h; try decide), fun _ _ h => (by cases h)⟩

example := C103_no_replay sampleTable _ _ [] _ _ sampleLife () 0x01020304 0x01020305 rfl rfl
  ⟨_, _, rfl, rfl, rfl, by decide⟩ ⟨_, _, rfl, rfl, rfl, by decide⟩ (by decide)
  (fun d hd => (stored_between _ hd).1 d rfl) (fun t t' ht => (stored_between _ ht).2 t t' rfl)
example := C103_lives_follow sampleLife (.none _)
example := C103_reads_as_after sampleSender.euid .none (sampleReceivedAt 5) node₂.memory _ _ _
  (changing_first (p := readProg sampleCfg .none (sampleReceivedAt 5)) (by decide +kernel) node₂.memory node₁.dev
      (liveRead node₁ 3 5))
example := C103_no_wrap (κ := Nat) (cfg := dCfg) (lookup := sampleLookup)
  (.read (s := node₀) .none (sampleReceivedAt 4) _ (live_of_steps (C81_cuts_are_steps sampleAead sampleSender.keyProvider sampleLookup 9
    (readProg dCfg .none (sampleReceivedAt 4)) node₀.memory)) (.none _)) rfl
example := C103_read_call (cfg := sampleCfg) (lookup := sampleLookup) sampleAead node₀ sampleSender.keyProvider .none (sampleReceivedAt 4)
example := C103_write_call (cfg := sampleCfg) (lookup := sampleLookup) sampleAead node₀ sampleSender.keyProvider
  ⟨sampleSecured, .none, List.replicate 40 0⟩

/-- The same address after another, its counter raised; and another address. -/
def node₅ : Snap DeviceDescriptor := ⟨77, 0, ⟨3, false⟩⟩
def node₆ : Snap DeviceDescriptor := ⟨sampleSender.euid, 0x01020310, ⟨3, false⟩⟩
theorem liveWrite (s : Snap DeviceDescriptor) (he : s.euid = sampleSender.euid) (n : Nat) :
    LiveSteps s.euid sampleLookup (writeProg sampleCfg s.euid s.memory ⟨sampleSecured, .none, List.replicate 40 0⟩) s.memory
      ((sampleCutWrite n s.memory).1.map .effect) (sampleCutWrite n s.memory).2.1 (sampleCutWrite n s.memory).2.2 := by
  rw [he]
  exact live_of_steps (C81_cuts_are_steps ..)

/-- A write cut right after the cipher was called; the application takes another address and comes back with a raised
counter; then the write again. -/
theorem sampleWrites : ∃ s, Life Nat sampleCfg sampleLookup node₀
    ([.effect (.counter 0x01020305), .effect .key] ++ .effect (.encrypted (nonceOctets sampleSender.euid 0x01020304 .encmic32)) ::
      ([.changed ⟨sampleSender.euid, 0x01020305, ⟨3, false⟩⟩ node₅, .changed node₅ node₆, .effect (.counter 0x01020311), .effect .key] ++
        .effect (.encrypted (nonceOctets sampleSender.euid 0x01020310 .encmic32)) :: [])) s := by
  have e1 : (sampleCutWrite 3 node₀.memory).1 = [.counter 0x01020305, .key,
      .encrypted (nonceOctets sampleSender.euid 0x01020304 .encmic32)] := by decide +kernel
  have e2 : (sampleCutWrite 9 node₆.memory).1 = [.counter 0x01020311, .key,
      .encrypted (nonceOctets sampleSender.euid 0x01020310 .encmic32)] := by decide +kernel
  have c1 : (sampleCutWrite 3 node₀.memory).2.2.counter = 0x01020305 := by decide +kernel
  have d1 : (sampleCutWrite 3 node₀.memory).2.2.dev = ⟨3, false⟩ := by decide +kernel
  have hl := Life.write (κ := Nat) (cfg := sampleCfg) ⟨sampleSecured, .none, List.replicate 40 0⟩ _ (liveWrite node₆ rfl 9) (.none _)
  have hf := Life.write (κ := Nat) (cfg := sampleCfg) ⟨sampleSecured, .none, List.replicate 40 0⟩ _ (liveWrite node₀ rfl 3)
    (by rw [c1, d1]; exact .change _ node₅ (.change node₅ node₆ hl))
  rw [e1, e2] at hf
  exact ⟨_, hf⟩

example := C103_no_nonce_twice _ _ _ _ _ sampleWrites.choose_spec sampleSender.euid 0x01020304 .encmic32 rfl
  (fun t t' ht => by
    simp only [List.mem_cons, Live.changed.injEq, reduceCtorEq, List.not_mem_nil, or_false] at ht
    rcases ht with ⟨rfl, rfl⟩ | ⟨rfl, rfl⟩
    · intro h; exact absurd h (by decide)
    · exact fun _ => .inr (by decide))
example := C103_nonces_made sampleWrites.choose_spec _ (.tail _ (.tail _ (.head _)))
example := C103_writes_as_without (cfg := sampleCfg) node₀.euid _ _ _ _ _ (liveWrite node₀ rfl 3)

end Verif.Witness
