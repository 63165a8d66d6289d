import Verif.Lemmas.Receive
import Verif.Lemmas.SecureHistory
import Verif.Spec.ReceiveSpec

/-!
# Lemmas: reception of secured frames in terms of the specification
-/

namespace Verif
open Spec

theorem data_head {cfg : Cfg} {buf : List UInt8} {h : Header} {n : Nat}
    (hr : Header.tryRead cfg buf = .ok (h, n)) (hd : h.frameType = .data) :
    HeadReadable cfg buf h n .data 0 := by
  refine ⟨hr, ?_⟩
  unfold FrameContent.tryRead
  rw [hd]
  rfl

theorem data_head_unique {cfg : Cfg} {buf : List UInt8} {h : Header} {n : Nat} {c : FrameContent} {m : Nat}
    (hr : HeadReadable cfg buf h n c m) (hd : h.frameType = .data) : c = .data ∧ m = 0 := by
  have := Frame.headReadable_unique hr (data_head hr.1 hd)
  exact ⟨this.2.2.1, this.2.2.2⟩

theorem Spec.PassesChecks.unique {κ σ : Type} {cfg : Cfg} {sc : SecCtx κ} {lookup : DevLookup σ} {dev : σ}
    {buf : List UInt8} {x y : Incoming κ σ} (hx : PassesChecks cfg sc lookup dev buf x)
    (hy : PassesChecks cfg sc lookup dev buf y) : x = y := by
  rcases x with ⟨h, n, aux, eui, key, src, lk, d, st⟩
  rcases y with ⟨h', n', aux', eui', key', src', lk', d', st'⟩
  have h1 := hx.read.symm.trans hy.read
  simp only [Out.ok.injEq, Prod.mk.injEq] at h1
  obtain ⟨rfl, rfl⟩ := h1
  have h2 := hx.aux.symm.trans hy.aux
  simp only [Option.some.injEq] at h2
  subst h2
  have h3 := hx.key.symm.trans hy.key
  simp only [Option.some.injEq, Prod.mk.injEq] at h3
  obtain ⟨rfl, rfl⟩ := h3
  have h4 := hx.source.symm.trans hy.source
  simp only [Option.some.injEq] at h4
  subst h4
  have h5 := hx.device.symm.trans hy.device
  simp only [Prod.mk.injEq, Option.some.injEq] at h5
  obtain ⟨rfl, rfl, rfl⟩ := h5
  rfl

namespace Frame

/-- A frame that passes the checks. -/
theorem receive_passed {κ σ : Type} (cfg : Cfg) {aead : Aead κ} (ht : AeadTyped aead) (buf : List UInt8)
    (sc : SecCtx κ) (lookup : DevLookup σ) (dev : σ) {x : Incoming κ σ}
    (hx : PassesChecks cfg sc lookup dev buf x) :
    tryReadAndUnsecure cfg aead buf ⟨.none, some sc⟩ lookup dev =
      let rest := buf.drop x.headLength
      let t := tagLength x.level
      let body := rest.take (rest.length - t)
      let tag := rest.drop (rest.length - t)
      if rest.length < t then (.panic, buf, ⟨.none, some sc⟩, x.looked)
      else match unprotect aead x.level x.key x.nonce body tag with
        | none => (.err .transformationError,
            buf.take x.headLength ++ (checkArea aead x.level x.key x.nonce body tag ++ tag),
            ⟨.none, some sc⟩, x.looked)
        | some payload =>
          if x.aux.frameCounter = maxCounter ∧ cfg.overflowChecks = true then
            (.panic, buf.take x.headLength ++ (payload ++ tag), ⟨.none, some sc⟩, x.looked)
          else (.ok (⟨x.header, .data, payload, (0, 0)⟩, x.headLength + payload.length),
            buf.take x.headLength ++ (payload ++ tag), ⟨.none, some sc⟩, x.store x.advanced) := by
  have hne : x.aux.control.securityLevel ≠ .none := by
    intro h; have := hx.level; unfold Incoming.level at this; rw [h] at this
    simp [Authenticating, MicOnly, EncMic] at this
  have hnenc : x.aux.control.securityLevel ≠ .enc := by
    intro h; have := hx.level; unfold Incoming.level at this; rw [h] at this
    simp [Authenticating, MicOnly, EncMic] at this
  have hcnt : ¬ (x.device.frameCounter = 0xFFFFFFFF ∨ x.aux.frameCounter < x.device.frameCounter) := by
    rintro (h | h)
    · exact hx.notExhausted h
    · have := hx.fresh
      exact absurd h (UInt32.not_lt.2 this)
  have hd := data_head hx.read hx.data
  have hb := headReadable_bound hd
  rw [receive_secured cfg ht buf sc lookup dev hd hx.aux]
  rw [if_neg (by simpa using hx.data), if_neg hx.version]
  simp only [Nat.add_zero]
  have hkey := hx.key
  rw [hx.source] at hkey
  unfold unsecureData
  simp only [if_neg hne, hx.source, hkey, hx.device, if_neg hcnt, if_neg hnenc, calculateNonce_eq]
  have hl : (buf.take x.headLength).length = x.headLength := by simp; omega
  show _ = if _ then _ else _
  by_cases hs : (buf.drop x.headLength).length < tagLength x.level
  · have hs' : (buf.drop x.headLength).length < tagLength x.aux.control.securityLevel := hs
    simp only [if_pos hs, if_pos hs', receivedResult, List.take_append_drop]
  · have hs' : ¬ (buf.drop x.headLength).length < tagLength x.aux.control.securityLevel := hs
    simp only [if_neg hs, if_neg hs']
    unfold Incoming.nonce Incoming.level
    cases hu : unprotect aead x.aux.control.securityLevel x.key
        (nonceOctets x.eui x.aux.frameCounter x.aux.control.securityLevel)
        ((buf.drop x.headLength).take ((buf.drop x.headLength).length - tagLength x.aux.control.securityLevel))
        ((buf.drop x.headLength).drop ((buf.drop x.headLength).length - tagLength x.aux.control.securityLevel)) with
    | none => simp only [receivedResult]
    | some payload =>
      have harea := unprotect_area hu
      have hplen := unprotect_length ht hu
      simp only [harea]
      by_cases hm : x.aux.frameCounter = maxCounter ∧ cfg.overflowChecks = true
      · have hm' : x.aux.frameCounter = 0xFFFFFFFF ∧ cfg.overflowChecks = true := hm
        simp only [if_pos hm, if_pos hm', receivedResult]
      · have hm' : ¬ (x.aux.frameCounter = 0xFFFFFFFF ∧ cfg.overflowChecks = true) := hm
        simp only [if_neg hm, if_neg hm', receivedResult, hl]
        generalize hrest : buf.drop x.headLength = rest at *
        have e : (payload ++ rest.drop (rest.length - tagLength x.aux.control.securityLevel)).length
            - tagLength x.aux.control.securityLevel = payload.length := by
          simp; omega
        rw [e, List.take_left]
        rfl

/-- A secured frame that does not pass the checks: an error; buffer and context are as before, and
the device lookup was at most asked. -/
theorem receive_not_passed {κ σ : Type} (cfg : Cfg) {aead : Aead κ} (ht : AeadTyped aead) (buf : List UInt8)
    (sc : SecCtx κ) (lookup : DevLookup σ) (dev : σ) {h : Header} {c : FrameContent} {n m : Nat}
    (hd : HeadReadable cfg buf h n c m) (hs : h.auxSec.isSome = true)
    (hno : ∀ x, ¬ PassesChecks cfg sc lookup dev buf x) :
    ∃ e dev', tryReadAndUnsecure cfg aead buf ⟨.none, some sc⟩ lookup dev =
      (.err e, buf, ⟨.none, some sc⟩, dev') ∧
      (dev' = dev ∨ ∃ src, h.source = some src ∧ dev' = (lookup dev .src src).1) := by
  obtain ⟨aux, ha⟩ := Option.isSome_iff_exists.1 hs
  rw [receive_secured cfg ht buf sc lookup dev hd ha]
  by_cases h1 : h.frameType ≠ .data
  · rw [if_pos h1]; exact ⟨_, _, rfl, .inl rfl⟩
  rw [if_neg h1]
  have h1 : h.frameType = .data := by simpa using h1
  by_cases h2 : h.version = .ieee802154_2003
  · rw [if_pos h2]; exact ⟨_, _, rfl, .inl rfl⟩
  rw [if_neg h2]
  unfold unsecureData
  simp only
  by_cases h3 : aux.control.securityLevel = .none
  · simp only [if_pos h3, receivedResult, List.take_append_drop]; exact ⟨_, _, rfl, .inl rfl⟩
  simp only [if_neg h3]
  cases hk : sc.keyProvider .src aux.keyIdentifier h.source with
  | none => simp only [receivedResult, List.take_append_drop]; exact ⟨_, _, rfl, .inl rfl⟩
  | some ek =>
    obtain ⟨eui, key⟩ := ek
    simp only
    cases hsrc : h.source with
    | none => simp only [receivedResult, List.take_append_drop]; exact ⟨_, _, rfl, .inl rfl⟩
    | some src =>
      simp only
      rcases hlk : lookup dev .src src with ⟨dev1, _ | ⟨device, store⟩⟩
      · simp only [receivedResult, List.take_append_drop]
        exact ⟨_, _, rfl, .inr ⟨src, rfl, by rw [hlk]⟩⟩
      · simp only
        by_cases h4 : device.frameCounter = 0xFFFFFFFF ∨ aux.frameCounter < device.frameCounter
        · simp only [if_pos h4, receivedResult, List.take_append_drop]
          exact ⟨_, _, rfl, .inr ⟨src, rfl, by rw [hlk]⟩⟩
        simp only [if_neg h4]
        by_cases h5 : aux.control.securityLevel = .enc
        · simp only [if_pos h5, receivedResult, List.take_append_drop]
          exact ⟨_, _, rfl, .inr ⟨src, rfl, by rw [hlk]⟩⟩
        exfalso
        refine hno ⟨h, n, aux, eui, key, src, dev1, device, store⟩ ⟨hd.1, h1, h2, ha, ?_, ?_, hsrc, hlk, ?_, ?_⟩
        · show Authenticating aux.control.securityLevel
          revert h3 h5
          cases aux.control.securityLevel <;> simp [Authenticating, MicOnly, EncMic]
        · exact hk
        · exact fun h => h4 (.inl h)
        · exact UInt32.not_lt.1 fun h => h4 (.inr h)

/-- Every case of a call. -/
theorem receive_cases {κ σ : Type} (cfg : Cfg) {aead : Aead κ} (ht : AeadTyped aead) (buf : List UInt8)
    (sc : SecCtx κ) (lookup : DevLookup σ) (dev : σ) :
    (∃ x, PassesChecks cfg sc lookup dev buf x) ∨
    (∃ e dev', tryReadAndUnsecure cfg aead buf ⟨.none, some sc⟩ lookup dev =
      (.err e, buf, ⟨.none, some sc⟩, dev') ∧ (dev' = dev ∨ ∃ src, dev' = (lookup dev .src src).1)) ∨
    (∃ h n c m, HeadReadable cfg buf h n c m ∧ h.auxSec = none ∧
      tryReadAndUnsecure cfg aead buf ⟨.none, some sc⟩ lookup dev =
      (.ok (⟨h, c, buf.drop (n + m), (0, 0)⟩, buf.length), buf, ⟨.none, some sc⟩, dev)) := by
  by_cases hh : ∃ h n c m, HeadReadable cfg buf h n c m
  · obtain ⟨h, n, c, m, hd⟩ := hh
    cases ha : h.auxSec with
    | none => exact .inr (.inr ⟨h, n, c, m, hd, ha, receive_unsecured cfg aead buf _ lookup dev hd ha⟩)
    | some aux =>
      by_cases hp : ∃ x, PassesChecks cfg sc lookup dev buf x
      · exact .inl hp
      · obtain ⟨e, dev', h1, h2⟩ := receive_not_passed cfg ht buf sc lookup dev hd (by rw [ha]; rfl)
          (fun x hx => hp ⟨x, hx⟩)
        refine .inr (.inl ⟨e, dev', h1, ?_⟩)
        rcases h2 with h2 | ⟨src, _, h2⟩
        · exact .inl h2
        · exact .inr ⟨src, h2⟩
  · obtain ⟨e, he⟩ := receive_bad_head cfg aead buf ⟨.none, some sc⟩ lookup dev
      (fun h n c m hd => hh ⟨h, n, c, m, hd⟩)
    exact .inr (.inl ⟨_, dev, he, .inl rfl⟩)

end Frame

end Verif
