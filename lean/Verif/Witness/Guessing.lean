import Verif.Props.Guessing
import Verif.Witness.Securing
import Verif.Witness.Games

/-!
# The theorems about guessing tags, applied
-/

namespace Verif.Witness
open Spec

/-- A receiver with one of sixteen keys for the sender. -/
def gRcv : SecCtx (Fin 16) := ⟨0, 0, fun m _ _ => if m = .src then some (0x0102030405060708, 5) else none⟩

/-- The head of a frame that is only authenticated, with a tag of four octets; all devices encrypt. -/
def gHead : List UInt8 := micAir.take 25

def xGuess : Incoming (Fin 16) DeviceDescriptor :=
  ⟨xMic.header, 25, micAux, 0x0102030405060708, 5, xMic.source, ⟨3, false⟩, ⟨3, false⟩, fun d => d⟩

theorem gHead_good : GoodHead sCfg gRcv oneDev ⟨3, false⟩ gHead xGuess where
  passes := ⟨by decide +kernel, rfl, by decide, rfl, by decide, rfl, rfl, rfl, by decide, by decide⟩
  whole := by decide +kernel
  noPanic := by decide

/-- The devices write at another level only. -/
theorem gFleet_other (a b : List UInt8) : ∀ s ∈ sampleFleet a b, ∀ c ∈ s.calls, ∀ aux,
    c.frame.header.auxSec = some aux → aux.control.securityLevel ≠ .mic32 := by
  intro s hs c hc aux ha
  rw [sampleFleet, List.mem_singleton] at hs
  subst hs
  simp only [samplePair, List.mem_cons, List.not_mem_nil, or_false] at hc
  rcases hc with rfl | rfl
  · have : sampleAux = aux := Option.some.inj ha
    subst this; decide
  · have : sampleAux = aux := Option.some.inj ha
    subst this; decide

theorem gFleet_never (e : BlockCipher (Fin 16)) (payload : List UInt8) :
    ¬ Sent e (sampleFleet [1] [2]) xGuess.key xGuess.level xGuess.nonce payload :=
  C106_other_levels e _ .mic32 (gFleet_other _ _) _ _ _

/-- Two hundred tags. -/
def gTags : List (List UInt8) := (List.range 200).map fun i => [7, 7, 7, UInt8.ofNat i]
theorem gTags_nodup : gTags.Nodup := by decide +kernel
theorem gTags_length : ∀ t ∈ gTags, t.length = tagLength xGuess.level := by
  intro t ht
  obtain ⟨i, _, rfl⟩ := List.mem_map.1 ht
  rfl

/-- All strings of a length. -/
def allStrings : Nat → List (List UInt8)
  | 0 => [[]]
  | n + 1 => (List.range 256).flatMap fun i => (allStrings n).map (UInt8.ofNat i :: ·)

theorem mem_allStrings (n : Nat) : ∀ t, t ∈ allStrings n ↔ t.length = n := by
  induction n with
  | zero => intro t; simp [allStrings]
  | succ n ih =>
    intro t
    simp only [allStrings, List.mem_flatMap, List.mem_range, List.mem_map]
    constructor
    · rintro ⟨i, _, u, hu, rfl⟩
      rw [List.length_cons, (ih u).1 hu]
    · intro ht
      cases t with
      | nil => simp at ht
      | cons b u =>
        exact ⟨b.toNat, b.toNat_lt, u, (ih u).2 (by simpa using ht), by simp⟩

/-- The chance is 200 in 2³². -/
example := C106_guessing_empty oneTable gHead_good (sampleFleet [1] [2]) (fun e => gFleet_never e []) gTags gTags_nodup gTags_length
example := C106_guessing_payload oneTable gHead_good (sampleFleet [1] [2]) [1, 2, 3] (by decide) trivial
  (fun e => gFleet_never e _) gTags gTags_nodup gTags_length
/-- A head of an encrypted frame from an address that no device has. -/
def eHead : List UInt8 := sAir.take 25
def eRcv : SecCtx (Fin 16) := ⟨0, 0, fun m _ _ => if m = .src then some (77, 5) else none⟩
def xEnc : Incoming (Fin 16) DeviceDescriptor := ⟨rH, 25, rAux, 77, 5, xIn.source, ⟨3, false⟩, ⟨3, false⟩, fun d => d⟩
theorem eHead_good : GoodHead sCfg eRcv oneDev ⟨3, false⟩ eHead xEnc where
  passes := ⟨by decide +kernel, rfl, by decide, rfl, by decide, rfl, rfl, rfl, by decide, by decide⟩
  whole := by decide +kernel
  noPanic := by decide
theorem fleet_contents (a b : List UInt8) : ∀ s ∈ sampleFleet a b, ∀ c ∈ s.calls, ContentFromApi c.frame.content := by
  intro s hs c hc
  rw [sampleFleet, List.mem_singleton] at hs
  subst hs
  simp only [samplePair, List.mem_cons, List.not_mem_nil, or_false] at hc
  rcases hc with rfl | rfl <;> trivial
example := C106_guessing_body oneTable eHead_good (sampleFleet [1] [2]) [1, 2, 3] (by decide)
  (fun e payload => C106_other_address e (sampleFleet [1] [2]) 77 0x01020304 (fleet_contents _ _)
    (by
      intro s hs
      rw [sampleFleet, List.mem_singleton] at hs
      subst hs
      exact .inl (by decide)) 5 .encmic32 payload) gTags gTags_nodup gTags_length
example (e : BlockCipher (Fin 16)) := C106_exhausting oneTable gHead_good e (sampleFleet [1] [2]) [1, 2, 3] (by decide)
  (gFleet_never e) (allStrings 4) (mem_allStrings 4)
example := C106_within_limits sCfg gRcv oneDev ⟨3, false⟩ gHead gTags 4 gTags_length
example := C106_other_levels (fun _ b => b) (sampleFleet [1] [2]) .mic32 (gFleet_other _ _)
example := C106_other_address (fun _ b => b) (sampleFleet [1] [2]) 9 5
  (by
    intro s hs c hc
    rw [sampleFleet, List.mem_singleton] at hs
    subst hs
    simp only [samplePair, List.mem_cons, List.not_mem_nil, or_false] at hc
    rcases hc with rfl | rfl <;> trivial)
  (by
    intro s hs
    rw [sampleFleet, List.mem_singleton] at hs
    subst hs
    exact .inl (by decide))
end Verif.Witness
