import Verif.Props.Copies

/-!
# C73: applications that change a sender's context
-/

namespace Verif
open Spec

section Sending

variable {κ : Type} (cfg : Cfg) (aead : Aead κ)

theorem contextAfterEvents_append (sc : SecCtx κ) (a b : List (SendEvent κ)) :
    contextAfterEvents cfg aead sc (a ++ b) = contextAfterEvents cfg aead (contextAfterEvents cfg aead sc a) b := by
  simp [contextAfterEvents, List.foldl_append]

/-- An address above `c` stays so. -/
theorem address_above_kept (ht : AeadTyped aead) (e : UInt64) (c : UInt32) (events : List (SendEvent κ))
    (sc : SecCtx κ) (h0 : sc.euid = e → c < sc.frameCounter)
    (hc : ∀ earlier update later, events = earlier ++ .change update :: later →
      KeepsAddressAbove e c (contextAfterEvents cfg aead sc earlier)
        (update (contextAfterEvents cfg aead sc earlier))) :
    (contextAfterEvents cfg aead sc events).euid = e →
      c < (contextAfterEvents cfg aead sc events).frameCounter := by
  induction events generalizing sc with
  | nil => exact h0
  | cons ev events ih =>
    refine ih (contextAfterEvent cfg aead sc ev) ?_ ?_
    · intro he
      cases ev with
      | change update =>
        rcases hc [] update events rfl he with ⟨h, hle⟩ | h
        · exact UInt32.lt_of_lt_of_le (h0 h) hle
        · exact h
      | write call =>
        obtain ⟨h1, -, h3, -⟩ := C31_counter_monotone cfg aead ht [call] sc
        have h1 : sc.frameCounter.toNat ≤ (contextAfterCall cfg aead sc call).frameCounter.toNat := h1
        have h3 : (contextAfterCall cfg aead sc call).euid = sc.euid := h3
        exact UInt32.lt_of_lt_of_le (h0 (h3.symm.trans he)) (UInt32.le_iff_toNat_le.2 h1)
    · exact fun earlier update later hx => hc (ev :: earlier) update later (by rw [hx]; rfl)

/-- **C73** Nonces while the application changes the context: between two writes it may exchange the key
lookup, switch to other addresses and back and raise the counter as it likes, as long as each change
after which the address is that of the first write does not lower the counter of that address, or sets
it above the counter of the first write; then the two writes use no common nonce. -/
theorem C73_nonce_never_reused (ht : AeadTyped aead) (sc : SecCtx κ) (before between : List (SendEvent κ))
    (first second : WriteCall) (n₁ n₂ : List UInt8)
    (h₁ : UsesNonce cfg (contextAfterEvents cfg aead sc before) first n₁)
    (h₂ : UsesNonce cfg (contextAfterEvents cfg aead sc (before ++ .write first :: between)) second n₂)
    (hc : ∀ earlier update later, between = earlier ++ .change update :: later →
      KeepsAddressAbove (contextAfterEvents cfg aead sc before).euid (contextAfterEvents cfg aead sc before).frameCounter
        (contextAfterEvents cfg aead sc (before ++ .write first :: earlier))
        (update (contextAfterEvents cfg aead sc (before ++ .write first :: earlier)))) :
    n₁ ≠ n₂ := by
  have hsplit : ∀ l, contextAfterEvents cfg aead sc (before ++ .write first :: l) = contextAfterEvents cfg aead
      (contextAfterCall cfg aead (contextAfterEvents cfg aead sc before) first) l := by
    intro l; rw [contextAfterEvents_append]; rfl
  obtain ⟨⟨a₁, -, -, e₁⟩, hnext⟩ := C31_nonce_of_call cfg _ first n₁ h₁
  obtain ⟨⟨a₂, -, -, e₂⟩, -⟩ := C31_nonce_of_call cfg _ second n₂ h₂
  have hnext := hnext aead ht
  have habove := address_above_kept cfg aead ht (contextAfterEvents cfg aead sc before).euid
    (contextAfterEvents cfg aead sc before).frameCounter between
    (contextAfterCall cfg aead (contextAfterEvents cfg aead sc before) first)
    (fun _ => UInt32.lt_iff_toNat_lt.2 (by omega))
    (fun earlier update later he => by
      have := hc earlier update later he
      rw [hsplit] at this
      exact this)
  rw [← hsplit] at habove
  intro heq
  rw [e₁, e₂] at heq
  obtain ⟨h1, h2, -⟩ := nonceOctets_inj heq
  have := habove h1.symm
  rw [h2] at this
  exact absurd this (UInt32.lt_irrefl _)

/-- **C73** The bound is tight: if after some change the address is that of an earlier successful write
and the counter is that write's counter, then a successful write of a frame at the same level does use
the same nonce. -/
theorem C73_lowered_reuses (ht : AeadTyped aead) (sc : SecCtx κ) (before between : List (SendEvent κ))
    (first second : WriteCall) (aux₁ aux₂ : AuxHeader)
    (hf₁ : SecuredData first.frame aux₁) (hf₂ : SecuredData second.frame aux₂)
    (hl : Authenticating aux₁.control.securityLevel)
    (hlevel : aux₂.control.securityLevel = aux₁.control.securityLevel)
    (hm₁ : first.mode = .none) (hm₂ : second.mode = .none) (n₁ n₂ : Nat)
    (hok₁ : (first.frame.tryWrite cfg aead ⟨first.mode, some (contextAfterEvents cfg aead sc before)⟩
      first.buf).1 = .ok n₁)
    (hok₂ : (second.frame.tryWrite cfg aead
      ⟨second.mode, some (contextAfterEvents cfg aead sc (before ++ .write first :: between))⟩
      second.buf).1 = .ok n₂)
    (he : (contextAfterEvents cfg aead sc (before ++ .write first :: between)).euid =
      (contextAfterEvents cfg aead sc before).euid)
    (hcnt : (contextAfterEvents cfg aead sc (before ++ .write first :: between)).frameCounter =
      (contextAfterEvents cfg aead sc before).frameCounter) :
    ∃ nonce, UsesNonce cfg (contextAfterEvents cfg aead sc before) first nonce ∧
      UsesNonce cfg (contextAfterEvents cfg aead sc (before ++ .write first :: between)) second nonce := by
  refine ⟨_, C31_success_uses cfg aead ht _ first aux₁ hf₁ hl hm₁ n₁ hok₁, ?_⟩
  rw [← he, ← hcnt, ← hlevel]
  exact C31_success_uses cfg aead ht _ second aux₂ hf₂ (by rw [hlevel]; exact hl) hm₂ n₂ hok₂

/-- Witness for C73: after writing the sample frame the application takes another address, exchanges the
key lookup, comes back with a raised counter, and writes the frame again. -/
example : (sampleSecured.tryWrite sampleCfg sampleAead ⟨.none, some sampleSender⟩ (List.replicate 40 0)).1 = .ok 31 ∧
    (sampleSecured.tryWrite sampleCfg sampleAead
      ⟨.none, some (contextAfterEvents sampleCfg sampleAead sampleSender
        [.write ⟨sampleSecured, .none, List.replicate 40 0⟩,
         .change fun s => { s with euid := 7, frameCounter := 0 },
         .change fun s => { s with euid := sampleSender.euid, frameCounter := 0x02000000 }])⟩
      (List.replicate 40 0)).1 = .ok 31 ∧
    sampleSender.frameCounter < 0x02000000 ∧
    (∀ s : SecCtx Nat, KeepsAddressAbove sampleSender.euid sampleSender.frameCounter s
      { s with euid := sampleSender.euid, frameCounter := 0x02000000 }) ∧
    (∀ s : SecCtx Nat, KeepsAddressAbove sampleSender.euid sampleSender.frameCounter s
      { s with euid := 7, frameCounter := 0 }) :=
  ⟨by decide +kernel, by decide +kernel, by decide, fun _ _ => .inr (show sampleSender.frameCounter < 0x02000000 by decide),
    fun _ h => absurd h (show ¬ (7 : UInt64) = sampleSender.euid by decide)⟩

/-- Witness for the second part: setting the counter back. -/
example : (contextAfterEvents sampleCfg sampleAead sampleSender
      ([] ++ .write ⟨sampleSecured, .none, List.replicate 40 0⟩ ::
        [.change fun s => { s with frameCounter := s.frameCounter - 1 }])).frameCounter =
      (contextAfterEvents sampleCfg sampleAead sampleSender []).frameCounter ∧
    (sampleSecured.tryWrite sampleCfg sampleAead ⟨.none, some (contextAfterEvents sampleCfg sampleAead sampleSender
      ([] ++ .write ⟨sampleSecured, .none, List.replicate 40 0⟩ ::
        [.change fun s => { s with frameCounter := s.frameCounter - 1 }]))⟩ (List.replicate 40 0)).1 = .ok 31 :=
  ⟨by decide +kernel, by decide +kernel⟩

end Sending

end Verif
