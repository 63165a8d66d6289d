import Verif.Lemmas.SecureHistory
import Verif.Props.Writers

/-!
# Properties of secured writing: C30–C33, C40–C42, C44, C46, C47

`SecuredData f aux`: `f` is a data frame with auxiliary header `aux`, encodable header and API
content.  `securedHead cfg c f`: its header and content octets.  `protect`: what the cipher makes of
the payload.  `advance sc`: `sc` with its counter one higher.
-/

namespace Verif
open Spec

/-- A context that knows a key. -/
def sampleSender : SecCtx Nat := ⟨0x0102030405060708, 0x01020304, fun _ _ _ => some (9, 5)⟩

/-- A secured frame. -/
def sampleSecured : Frame := { sampleFrame with header := sampleHeader }

/-- Its auxiliary header. -/
def sampleAux : AuxHeader := ⟨⟨.encmic32, .none⟩, 5, some ⟨some (.short 0xA1B2C3D4), 9⟩⟩

theorem sampleSecured_ok : SecuredData sampleSecured sampleAux := ⟨by decide, trivial, rfl, rfl⟩

/-! ## C30 Nonces -/

/-- **C30** The nonce is EUI-64 and counter little-endian, then the level: 13 octets. -/
theorem C30_nonce (eui : UInt64) (c : UInt32) (l : SecurityLevel) :
    calculateNonce eui c l = nonceOctets eui c l ∧ (calculateNonce eui c l).length = 13 := by
  rw [calculateNonce_eq]
  exact ⟨rfl, by simp [nonceOctets]⟩

/-- **C30** Different addresses, counters or levels have different nonces. -/
theorem C30_nonce_injective (e e' : UInt64) (c c' : UInt32) (l l' : SecurityLevel)
    (h : calculateNonce e c l = calculateNonce e' c' l') : e = e' ∧ c = c' ∧ l = l' := by
  rw [calculateNonce_eq, calculateNonce_eq] at h
  exact nonceOctets_inj h

example : calculateNonce 0x08070605040302FF 0x44332211 .encmic32 =
    [0xFF, 2, 3, 4, 5, 6, 7, 8, 0x11, 0x22, 0x33, 0x44, 5] := by decide

/-! ## C40 Wire format -/

/-- **C40** At a level with a tag, a write succeeds if and only if the context knows a key, the
counter is not exhausted, the size limit is met, the cipher does not refuse, and there is room;
then the octets are header, content, the protected payload and the tag, and the context's counter
has advanced by one. -/
theorem C40_secured_write_iff {κ : Type} (cfg : Cfg) (aead : Aead κ) (ht : AeadTyped aead) (f : Frame)
    (aux : AuxHeader) (hf : SecuredData f aux) (hl : Authenticating aux.control.securityLevel)
    (sc : SecCtx κ) (buf buf' : List UInt8) (n : Nat) (ctx' : SerDesCtx κ) :
    f.tryWrite cfg aead ⟨.none, some sc⟩ buf = (.ok n, buf', ctx') ↔
      sc.frameCounter ≠ maxCounter ∧ securedSize f aux ≤ 125 ∧
      ∃ eui key body tag,
        sc.keyProvider .dst aux.keyIdentifier f.header.destination = some (eui, key) ∧
        protect aead aux.control.securityLevel key
          (nonceOctets sc.euid sc.frameCounter aux.control.securityLevel) f.payload = some (body, tag) ∧
        n = (securedHead cfg sc.frameCounter f).length + body.length + tag.length ∧
        n ≤ buf.length ∧
        buf' = securedHead cfg sc.frameCounter f ++ body ++ tag ++ buf.drop n ∧
        ctx' = ⟨.none, some (advance sc)⟩ := by
  have hne : aux.control.securityLevel ≠ .none := by
    intro h; rw [h] at hl; simp [Authenticating, MicOnly, EncMic] at hl
  have hnenc : aux.control.securityLevel ≠ .enc := by
    intro h; rw [h] at hl; simp [Authenticating, MicOnly, EncMic] at hl
  by_cases hfit : (securedHead cfg sc.frameCounter f).length ≤ buf.length
  · rw [Frame.tryWrite_secured cfg ht f aux sc hf.encodable hf.content hf.aux hf.data buf hfit]
    generalize hhd : securedHead cfg sc.frameCounter f = head at *
    constructor
    · intro h
      rcases hr : secureData aead f aux sc (buf.drop head.length) with ⟨r, sc', sub⟩
      rw [hr] at h
      cases r with
      | err e => simp [Frame.securedResult] at h
      | panic => simp [Frame.securedResult] at h
      | ok k =>
        simp only [Frame.securedResult, Prod.mk.injEq, Out.ok.injEq] at h
        obtain ⟨rfl, rfl, rfl⟩ := h
        obtain ⟨hc, rfl, _, eui, key, body, tag, hk, hp, rfl, hroom, rfl⟩ := secureData_ok hne hr
        obtain ⟨hbl, _⟩ := protect_lengths ht hp
        simp only [List.length_drop] at hroom
        refine ⟨hc.2.2.2, Nat.le_of_not_lt hc.1, eui, key, body, tag, hk, hp, by omega, by omega, ?_, rfl⟩
        rw [List.drop_drop]
        simp only [List.append_assoc]
    · rintro ⟨hmax, hsz, eui, key, body, tag, hk, hp, rfl, hroom, rfl, rfl⟩
      obtain ⟨hbl, _⟩ := protect_lengths ht hp
      have : secureData aead f aux sc (buf.drop head.length) =
          (.ok (f.payload.length + tag.length), sc.next,
            body ++ (tag ++ ((buf.drop head.length).drop f.payload.length).drop tag.length)) := by
        unfold secureData
        simp only [calculateNonce_eq]
        rw [if_neg (Nat.not_lt.2 hsz), if_neg (by simp; omega), if_neg hne, if_neg hmax]
        simp only [hk, if_neg hnenc, hp]
        rw [if_neg (by simp; omega)]
      rw [this]
      simp only [Frame.securedResult, Prod.mk.injEq, Out.ok.injEq]
      refine ⟨by omega, ?_, rfl⟩
      rw [List.drop_drop, List.drop_drop, hbl]
      simp only [List.append_assoc, Nat.add_assoc]
  · obtain ⟨buf2, h2⟩ := Frame.tryWrite_secured_short cfg aead f .none sc hf.encodable hf.content buf
      (by omega)
    rw [h2]
    constructor
    · intro h; simp at h
    · rintro ⟨_, _, _, _, body, tag, _, _, rfl, hroom, _, _⟩
      omega

/-- **C40** The part behind the content: MIC levels leave the payload in clear, ENC-MIC levels
replace it by as many octets, and the tag has 4, 8 or 16 octets according to the level. -/
theorem C40_protected_part {κ : Type} (aead : Aead κ) (ht : AeadTyped aead) (l : SecurityLevel) (key : κ)
    (nonce payload body tag : List UInt8) (h : protect aead l key nonce payload = some (body, tag)) :
    (MicOnly l → body = payload) ∧ body.length = payload.length ∧ tag.length = tagLength l ∧
    (l = .mic32 ∨ l = .encmic32 → tag.length = 4) ∧ (l = .mic64 ∨ l = .encmic64 → tag.length = 8) ∧
    (l = .mic128 ∨ l = .encmic128 → tag.length = 16) := by
  obtain ⟨h1, h2⟩ := protect_lengths ht h
  refine ⟨?_, h1, h2, ?_, ?_, ?_⟩
  · intro hm
    unfold protect at h
    rw [if_pos hm] at h
    simp only [Option.map_eq_some_iff, Prod.mk.injEq] at h
    obtain ⟨_, _, rfl, _⟩ := h
    rfl
  · rintro (rfl | rfl) <;> exact h2
  · rintro (rfl | rfl) <;> exact h2
  · rintro (rfl | rfl) <;> exact h2

example : SecuredData sampleSecured sampleAux ∧ Authenticating sampleAux.control.securityLevel ∧
    (sampleSecured.tryWrite sampleCfg sampleAead ⟨.none, some sampleSender⟩ (List.replicate 40 0)).1
      = .ok 31 ∧
    (sampleSecured.tryWrite sampleCfg sampleAead ⟨.none, some sampleSender⟩ (List.replicate 40 0)).2.1.drop 25
      = [0xde, 0xf0, 0xAA, 0xAA, 0xAA, 0xAA] ++ List.replicate 9 0 :=
  ⟨sampleSecured_ok, by decide, by decide, by decide⟩

/-! ## C32 Counter consumption -/

/-- **C32** With the counter exhausted, no write at a level other than None succeeds, and the
counter stays where it is — for every frame, cipher, footer mode and buffer. -/
theorem C32_exhausted {κ : Type} (cfg : Cfg) (aead : Aead κ) (ht : AeadTyped aead) (f : Frame)
    (aux : AuxHeader) (ha : f.header.auxSec = some aux) (hl : aux.control.securityLevel ≠ .none)
    (mode : FooterMode) (sc : SecCtx κ) (hmax : sc.frameCounter = maxCounter) (buf : List UInt8) :
    (∀ n, (f.tryWrite cfg aead ⟨mode, some sc⟩ buf).1 ≠ .ok n) ∧
    (f.tryWrite cfg aead ⟨mode, some sc⟩ buf).2.2 = ⟨mode, some sc⟩ := by
  refine ⟨?_, ?_⟩
  · intro n hok
    rw [Frame.tryWrite_eq] at hok
    rcases hw : f.writeHead cfg (some sc) buf 0 with ⟨⟨⟩ | e | _, bytes, off⟩
    · simp only [hw] at hok
      unfold Frame.afterHead at hok
      simp only at hok
      rw [secureFrame_cases ht] at hok
      cases mode with
      | explicit => simp at hok
      | none =>
        simp only [ha] at hok
        by_cases hd : f.header.frameType = .data
        · simp only [if_pos hd] at hok
          have hn := Frame.secureData_enabled aead f aux sc (bytes.drop off)
          rcases hr : secureData aead f aux sc (bytes.drop off) with ⟨r, sc', sub⟩
          rw [hr] at hn hok
          cases r with
          | ok k => exact absurd hmax (secureData_ok hl hr).1.2.2.2
          | panic => exact hn.2 rfl
          | err e => cases e <;> first | exact hn.1 rfl | (simp at hok; done)
        · simp [if_neg hd] at hok
    · simp [hw] at hok
    · simp [hw] at hok
  · rcases Frame.tryWrite_ctx cfg ht f mode sc buf with h | ⟨h, _⟩
    · exact h
    · exact absurd hmax h

/-- **C32** Its error when nothing else is wrong. -/
theorem C32_exhausted_error {κ : Type} (cfg : Cfg) (aead : Aead κ) (ht : AeadTyped aead) (f : Frame)
    (aux : AuxHeader) (hf : SecuredData f aux) (hl : aux.control.securityLevel ≠ .none)
    (sc : SecCtx κ) (hmax : sc.frameCounter = maxCounter) (buf : List UInt8)
    (hsz : securedSize f aux ≤ 125)
    (hroom : (securedHead cfg sc.frameCounter f).length + f.payload.length ≤ buf.length) :
    (f.tryWrite cfg aead ⟨.none, some sc⟩ buf).1 = .err (.badInput "CounterError") := by
  rw [Frame.tryWrite_secured cfg ht f aux sc hf.encodable hf.content hf.aux hf.data buf (by omega)]
  unfold secureData
  simp only
  rw [if_neg (Nat.not_lt.2 hsz), if_neg (by simp; omega), if_neg hl, if_pos hmax]
  rfl

/-- **C32** A write takes at most one counter value: afterwards the context is as before, or its
counter has advanced by one without wrapping; address and keys never change. -/
theorem C32_at_most_one {κ : Type} (cfg : Cfg) (aead : Aead κ) (ht : AeadTyped aead) (f : Frame)
    (mode : FooterMode) (sc : SecCtx κ) (buf : List UInt8) :
    (f.tryWrite cfg aead ⟨mode, some sc⟩ buf).2.2 = ⟨mode, some sc⟩ ∨
    (sc.frameCounter ≠ maxCounter ∧ (advance sc).frameCounter.toNat = sc.frameCounter.toNat + 1 ∧
      (f.tryWrite cfg aead ⟨mode, some sc⟩ buf).2.2 = ⟨mode, some (advance sc)⟩) := by
  rcases Frame.tryWrite_ctx cfg ht f mode sc buf with h | ⟨h, h'⟩
  · exact .inl h
  · exact .inr ⟨h, sc.next_toNat h, h'⟩

/-- **C32** Exactly when a value is taken: the frame meets the size limit, header, content and
payload fit, the level is not None and the counter is not exhausted — whether or not the context
then has a key, the cipher works and the tag fits. -/
theorem C32_taken_iff {κ : Type} (cfg : Cfg) (aead : Aead κ) (ht : AeadTyped aead) (f : Frame)
    (aux : AuxHeader) (hf : SecuredData f aux) (sc : SecCtx κ) (buf : List UInt8) :
    (f.tryWrite cfg aead ⟨.none, some sc⟩ buf).2.2 = ⟨.none, some (advance sc)⟩ ↔
      securedSize f aux ≤ 125 ∧ aux.control.securityLevel ≠ .none ∧ sc.frameCounter ≠ maxCounter ∧
      (securedHead cfg sc.frameCounter f).length + f.payload.length ≤ buf.length := by
  have hne : sc ≠ advance sc := by
    intro h
    have := congrArg SecCtx.frameCounter h
    simp [advance] at this
  by_cases hfit : (securedHead cfg sc.frameCounter f).length ≤ buf.length
  · rw [Frame.tryWrite_secured cfg ht f aux sc hf.encodable hf.content hf.aux hf.data buf hfit]
    have hctx : (Frame.securedResult .none (securedHead cfg sc.frameCounter f)
        (secureData aead f aux sc (buf.drop (securedHead cfg sc.frameCounter f).length))).2.2
        = ⟨.none, some (secureData aead f aux sc
            (buf.drop (securedHead cfg sc.frameCounter f).length)).2.1⟩ := by
      rcases secureData aead f aux sc (buf.drop (securedHead cfg sc.frameCounter f).length)
        with ⟨_ | _ | _, _, _⟩ <;> rfl
    rw [hctx]
    simp only [SerDesCtx.mk.injEq, Option.some.injEq, true_and]
    by_cases hc : Consumes f aux sc (buf.drop (securedHead cfg sc.frameCounter f).length)
    · rw [secureData_consumes aead f aux sc _ hc]
      have hlen := hc.2.1
      simp only [List.length_drop] at hlen
      exact ⟨fun _ => ⟨Nat.le_of_not_lt hc.1, hc.2.2.1, hc.2.2.2, by omega⟩, fun _ => rfl⟩
    · rw [secureData_keeps aead f aux sc _ hc]
      refine ⟨fun h => absurd h hne, fun ⟨h1, h2, h3, h4⟩ => ?_⟩
      exact absurd ⟨Nat.not_lt.2 h1, by simp; omega, h2, h3⟩ hc
  · obtain ⟨buf2, h2⟩ := Frame.tryWrite_secured_short cfg aead f .none sc hf.encodable hf.content buf
      (by omega)
    rw [h2]
    simp only [SerDesCtx.mk.injEq, Option.some.injEq, true_and]
    exact ⟨fun h => absurd h hne, fun h => by omega⟩

/-- Witness: the tag does not fit, the counter is taken all the same. -/
example : (sampleSecured.tryWrite sampleCfg sampleAead ⟨.none, some sampleSender⟩
    (List.replicate 29 0)).1 = .err .incomplete ∧
    (sampleSecured.tryWrite sampleCfg sampleAead ⟨.none, some sampleSender⟩
      (List.replicate 29 0)).2.2.securityCtx.map (·.frameCounter) = some 0x01020305 ∧
    (sampleSecured.tryWrite sampleCfg sampleAead
      ⟨.none, some { sampleSender with frameCounter := maxCounter }⟩ (List.replicate 40 0)).1
      = .err (.badInput "CounterError") := by decide

/-! ## C31 Histories -/

theorem contextAfterCall_spec {κ : Type} (cfg : Cfg) {aead : Aead κ} (ht : AeadTyped aead) (sc : SecCtx κ)
    (call : WriteCall) : contextAfterCall cfg aead sc call = sc ∨
      (sc.frameCounter ≠ 0xFFFFFFFF ∧ contextAfterCall cfg aead sc call = sc.next) := by
  unfold contextAfterCall
  rcases Frame.tryWrite_ctx cfg ht call.frame call.mode sc call.buf with h | ⟨h, h'⟩
  · rw [h]; exact .inl rfl
  · rw [h']; exact .inr ⟨h, rfl⟩

/-- **C31** Over any sequence of calls, successful or not, the counter never decreases (so never
wraps), advances by at most one per call, and address and keys stay. -/
theorem C31_counter_monotone {κ : Type} (cfg : Cfg) (aead : Aead κ) (ht : AeadTyped aead)
    (calls : List WriteCall) (sc : SecCtx κ) :
    sc.frameCounter.toNat ≤ (contextAfter cfg aead sc calls).frameCounter.toNat ∧
    (contextAfter cfg aead sc calls).frameCounter.toNat ≤ sc.frameCounter.toNat + calls.length ∧
    (contextAfter cfg aead sc calls).euid = sc.euid ∧
    (contextAfter cfg aead sc calls).keyProvider = sc.keyProvider := by
  induction calls generalizing sc with
  | nil => exact ⟨Nat.le_refl _, Nat.le_refl _, rfl, rfl⟩
  | cons call calls ih =>
    obtain ⟨h1, h2, h3, h4⟩ := ih (contextAfterCall cfg aead sc call)
    show sc.frameCounter.toNat ≤ (contextAfter cfg aead (contextAfterCall cfg aead sc call) calls).frameCounter.toNat
      ∧ (contextAfter cfg aead (contextAfterCall cfg aead sc call) calls).frameCounter.toNat ≤ _ ∧
      (contextAfter cfg aead (contextAfterCall cfg aead sc call) calls).euid = _ ∧
      (contextAfter cfg aead (contextAfterCall cfg aead sc call) calls).keyProvider = _
    rcases contextAfterCall_spec cfg ht sc call with h | ⟨h, h'⟩
    · rw [h] at h1 h2 h3 h4 ⊢
      simp only [List.length_cons]
      exact ⟨h1, by omega, h3, h4⟩
    · rw [h'] at h1 h2 h3 h4 ⊢
      rw [sc.next_toNat h] at h1 h2
      simp only [List.length_cons]
      exact ⟨by omega, by omega, h3, h4⟩

/-- **C31** The only nonce a call can use is the one made of the context's address, its counter
before the call and the level of the frame; and then the call takes that counter value. -/
theorem C31_nonce_of_call {κ : Type} (cfg : Cfg) (sc : SecCtx κ) (call : WriteCall) (nonce : List UInt8)
    (hu : UsesNonce cfg sc call nonce) :
    (∃ aux, call.frame.header.auxSec = some aux ∧ aux.control.securityLevel ≠ .none ∧
      nonce = nonceOctets sc.euid sc.frameCounter aux.control.securityLevel) ∧
    ∀ aead : Aead κ, AeadTyped aead → (contextAfterCall cfg aead sc call).frameCounter.toNat
      = sc.frameCounter.toNat + 1 := by
  obtain ⟨a, b, ha, hb, hs, hne⟩ := hu
  rcases Frame.tryWrite_same cfg ha hb hs call.frame call.mode sc call.buf with h | ⟨h1, h2, h3⟩
  · exact absurd h hne
  · refine ⟨h2, fun aead ht => ?_⟩
    unfold contextAfterCall
    rw [h3 aead ht]
    exact sc.next_toNat h1

/-- **C31** No nonce is used by two calls of a history with one context. -/
theorem C31_nonce_never_reused {κ : Type} (cfg : Cfg) (aead : Aead κ) (ht : AeadTyped aead) (sc : SecCtx κ)
    (before between : List WriteCall) (first second : WriteCall) (n₁ n₂ : List UInt8)
    (h₁ : UsesNonce cfg (contextAfter cfg aead sc before) first n₁)
    (h₂ : UsesNonce cfg (contextAfter cfg aead sc (before ++ first :: between)) second n₂) : n₁ ≠ n₂ := by
  obtain ⟨⟨l₁, -, -, e₁⟩, ha₁⟩ := C31_nonce_of_call cfg _ first n₁ h₁
  obtain ⟨⟨l₂, -, -, e₂⟩, _⟩ := C31_nonce_of_call cfg _ second n₂ h₂
  intro heq
  rw [e₁, e₂] at heq
  have hc := (nonceOctets_inj heq).2.1
  have hstep := ha₁ aead ht
  have hsplit : contextAfter cfg aead sc (before ++ first :: between) =
      contextAfter cfg aead (contextAfterCall cfg aead (contextAfter cfg aead sc before) first) between := by
    simp [contextAfter, List.foldl_append]
  rw [hsplit] at hc
  have hmono := (C31_counter_monotone cfg aead ht between
    (contextAfterCall cfg aead (contextAfter cfg aead sc before) first)).1
  rw [← hc] at hmono
  omega

/-- **C31** Nor by calls with contexts of different addresses. -/
theorem C31_nonce_other_device {κ : Type} (cfg cfg' : Cfg) (sc sc' : SecCtx κ) (hne : sc.euid ≠ sc'.euid)
    (call call' : WriteCall) (n n' : List UInt8) (h : UsesNonce cfg sc call n)
    (h' : UsesNonce cfg' sc' call' n') : n ≠ n' := by
  obtain ⟨⟨l₁, -, -, e₁⟩, _⟩ := C31_nonce_of_call cfg sc call n h
  obtain ⟨⟨l₂, -, -, e₂⟩, _⟩ := C31_nonce_of_call cfg' sc' call' n' h'
  intro heq
  rw [e₁, e₂] at heq
  exact hne (nonceOctets_inj heq).1

/-- **C31** Every successful write at a level with a tag does use the nonce of the context's
counter. -/
theorem C31_success_uses {κ : Type} (cfg : Cfg) (aead : Aead κ) (ht : AeadTyped aead) (sc : SecCtx κ)
    (call : WriteCall) (aux : AuxHeader) (hf : SecuredData call.frame aux)
    (hl : Authenticating aux.control.securityLevel) (hm : call.mode = .none) (n : Nat)
    (hok : (call.frame.tryWrite cfg aead ⟨call.mode, some sc⟩ call.buf).1 = .ok n) :
    UsesNonce cfg sc call (nonceOctets sc.euid sc.frameCounter aux.control.securityLevel) := by
  classical
  rcases call with ⟨f, mode, buf⟩
  simp only at hf hm hok
  subst hm
  refine ⟨aead, ⟨fun t k nn aad b => if nn = nonceOctets sc.euid sc.frameCounter aux.control.securityLevel
      then (none, b) else aead.encrypt t k nn aad b, aead.decrypt⟩, ht, ⟨?_, ?_, ht.decrypt_length⟩,
      ⟨rfl, ?_⟩, ?_⟩
  · intro t k nn a b
    simp only
    split
    · rfl
    · exact ht.encrypt_length ..
  · intro t k nn a b tag htt h
    simp only at h
    split at h
    · simp at h
    · exact ht.tag_length _ _ _ _ _ _ htt h
  · intro t k nn aad b hn
    simp only [if_neg hn]
  · have hok' : f.tryWrite cfg aead ⟨.none, some sc⟩ buf = (.ok n,
        (f.tryWrite cfg aead ⟨.none, some sc⟩ buf).2.1,
        (f.tryWrite cfg aead ⟨.none, some sc⟩ buf).2.2) := by rw [← hok]
    intro heq
    simp only at heq
    rw [heq] at hok'
    have ht' : AeadTyped (⟨fun t k nn aad b => if nn = nonceOctets sc.euid sc.frameCounter
        aux.control.securityLevel then (none, b) else aead.encrypt t k nn aad b, aead.decrypt⟩ : Aead κ) := by
      refine ⟨?_, ?_, ht.decrypt_length⟩
      · intro t k nn a b
        simp only
        split
        · rfl
        · exact ht.encrypt_length ..
      · intro t k nn a b tag htt h
        simp only at h
        split at h
        · simp at h
        · exact ht.tag_length _ _ _ _ _ _ htt h
    obtain ⟨_, _, _, _, body, tag, _, hp, _⟩ := (C40_secured_write_iff cfg _ ht' f aux hf hl sc buf _ n _).1 hok'
    unfold protect at hp
    simp only [if_true, Option.map_none, reduceCtorEq, ite_self] at hp

example : (sampleSecured.tryWrite sampleCfg sampleAead ⟨.none, some (contextAfter sampleCfg sampleAead
    sampleSender [⟨sampleSecured, .none, List.replicate 40 0⟩, ⟨sampleFrame, .none, List.replicate 40 0⟩,
      ⟨sampleSecured, .none, List.replicate 28 0⟩])⟩ (List.replicate 40 0)).1 = .ok 31 ∧
    (contextAfter sampleCfg sampleAead
    sampleSender [⟨sampleSecured, .none, List.replicate 40 0⟩, ⟨sampleFrame, .none, List.replicate 40 0⟩,
      ⟨sampleSecured, .none, List.replicate 28 0⟩]).frameCounter = sampleSender.frameCounter + 2 := by decide

/-! ## C33 The counter on the air -/

/-- **C33** The octets of a secured frame start with a header that reads back with the counter of
the context as it left the host, while the nonce was computed with the counter of the context. -/
theorem C33_counter_on_air {κ : Type} (cfg : Cfg) (aead : Aead κ) (ht : AeadTyped aead) (f : Frame)
    (aux : AuxHeader) (hf : SecuredData f aux) (hl : Authenticating aux.control.securityLevel)
    (sc : SecCtx κ) (buf buf' : List UInt8) (n : Nat) (ctx' : SerDesCtx κ)
    (hw : f.tryWrite cfg aead ⟨.none, some sc⟩ buf = (.ok n, buf', ctx')) :
    ∃ h k a, Header.tryRead cfg (buf'.take n) = .ok (h, k) ∧ h.auxSec = some a ∧
      a.frameCounter = counterOnAir cfg sc.frameCounter ∧
      ∃ eui key body tag, sc.keyProvider .dst aux.keyIdentifier f.header.destination = some (eui, key) ∧
        protect aead aux.control.securityLevel key
          (nonceOctets sc.euid sc.frameCounter aux.control.securityLevel) f.payload = some (body, tag) ∧
        buf'.take n = securedHead cfg sc.frameCounter f ++ body ++ tag := by
  obtain ⟨_, _, eui, key, body, tag, hk, hp, hn, hroom, hb, _⟩ :=
    (C40_secured_write_iff cfg aead ht f aux hf hl sc buf buf' n ctx').1 hw
  have htake : buf'.take n = securedHead cfg sc.frameCounter f ++ body ++ tag := by
    rw [hb, hn]
    have : (securedHead cfg sc.frameCounter f).length + body.length + tag.length =
        (securedHead cfg sc.frameCounter f ++ body ++ tag).length := by simp; omega
    rw [this, List.take_left]
  refine ⟨headerAsRead cfg sc.frameCounter f.header,
    (headerOctets f.header false false false (auxAsWritten cfg sc.frameCounter f.header.auxSec)).length,
    auxAsRead cfg sc.frameCounter aux, ?_, ?_, rfl, eui, key, body, tag, hk, hp, htake⟩
  · rw [htake]
    refine (Header.decodes cfg _ _ _).2 ⟨_, contentOctets f.content ++ body ++ tag, ?_,
      Header.headerAsRead_onWire cfg _ f.header hf.encodable, rfl⟩
    simp [securedHead]
  · show Option.map _ f.header.auxSec = _
    rw [hf.aux]; rfl

/-- **C33** On a little-endian host both are the same. -/
theorem C33_little (cfg : Cfg) (hle : cfg.native = .little) (c : UInt32) : counterOnAir cfg c = c := by
  unfold counterOnAir; rw [hle]

/-- **C33** On a big-endian host the counter on the air has its octets reversed, so unless the
counter is a palindrome the nonce a receiver computes from it is another one, for every address and
level. -/
theorem C33_big (cfg : Cfg) (hbe : cfg.native = .big) (c : UInt32) :
    le 4 (counterOnAir cfg c).toNat = (le 4 c.toNat).reverse ∧
    (counterOnAir cfg c = c ↔ le 4 c.toNat = (le 4 c.toNat).reverse) ∧
    ∀ e e' l l', le 4 c.toNat ≠ (le 4 c.toNat).reverse →
      nonceOctets e (counterOnAir cfg c) l ≠ nonceOctets e' c l' := by
  have h1 : le 4 (counterOnAir cfg c).toNat = (le 4 c.toNat).reverse := by
    have := inOrder_counter cfg c
    rw [hbe] at this
    exact this.symm
  refine ⟨h1, ?_, ?_⟩
  · rw [← h1]
    constructor
    · intro h; rw [h]
    · intro h; exact (UInt32.toNat_inj.1 (le_inj c.toNat_lt (counterOnAir cfg c).toNat_lt h)).symm
  · intro e e' l l' hne heq
    have := (nonceOctets_inj heq).2.1
    rw [this] at h1
    exact hne h1

example : counterOnAir ⟨false, .w32, .big⟩ 0x01020304 = 0x04030201 := by decide

/-! ## C41 Size limit -/

/-- **C41** Given room for header and content, a secured write fails with `FrameTooLong` exactly
when the sizes add up to more than 125; then context, payload area and everything behind the
content are as before. -/
theorem C41_too_long {κ : Type} (cfg : Cfg) (aead : Aead κ) (ht : AeadTyped aead) (f : Frame)
    (aux : AuxHeader) (hf : SecuredData f aux) (sc : SecCtx κ) (buf : List UInt8)
    (hl : (securedHead cfg sc.frameCounter f).length ≤ buf.length) :
    ((f.tryWrite cfg aead ⟨.none, some sc⟩ buf).1 = .err (.badInput "FrameTooLong") ↔
      125 < securedSize f aux) ∧
    (125 < securedSize f aux → f.tryWrite cfg aead ⟨.none, some sc⟩ buf =
      (.err (.badInput "FrameTooLong"), securedHead cfg sc.frameCounter f ++
        buf.drop (securedHead cfg sc.frameCounter f).length, ⟨.none, some sc⟩)) := by
  rw [Frame.tryWrite_secured cfg ht f aux sc hf.encodable hf.content hf.aux hf.data buf hl]
  generalize securedHead cfg sc.frameCounter f = head at *
  by_cases h : 125 < securedSize f aux
  · have : secureData aead f aux sc (buf.drop head.length) =
        (.err .frameTooLong, sc, buf.drop head.length) := by
      unfold secureData; simp only; rw [if_pos h]
    rw [this]
    exact ⟨⟨fun _ => h, fun _ => rfl⟩, fun _ => rfl⟩
  · refine ⟨⟨?_, fun h' => absurd h' h⟩, fun h' => absurd h' h⟩
    intro hc
    exfalso
    revert hc
    unfold secureData
    simp only
    rw [if_neg h]
    repeat' split
    all_goals simp [Frame.securedResult, SecErr.toByteErr]

/-- **C41** A data frame that is written occupies at most 125 octets: with the two footer octets the
radio adds, at most the 127 of the PHY.  (At every level, None included.) -/
theorem C41_fits_phy {κ : Type} (cfg : Cfg) (aead : Aead κ) (ht : AeadTyped aead) (f : Frame)
    (aux : AuxHeader) (hf : SecuredData f aux) (hc : f.content = .data) (sc : SecCtx κ)
    (buf : List UInt8) (n : Nat) (hok : (f.tryWrite cfg aead ⟨.none, some sc⟩ buf).1 = .ok n) :
    n ≤ 125 := by
  by_cases hl : (securedHead cfg sc.frameCounter f).length ≤ buf.length
  · have htl := C41_too_long cfg aead ht f aux hf sc buf hl
    have hsz : securedSize f aux ≤ 125 := by
      apply Nat.le_of_not_lt
      intro h
      rw [(htl.2 h)] at hok
      simp at hok
    have hlen : (securedHead cfg sc.frameCounter f).length ≤
        uncompressedLength f.header + auxLength aux.keyIdentifier := by
      rw [← Header.octetSize_eq]
      have h1 := Header.headerOctets_length f.header false false false
        (auxAsWritten cfg sc.frameCounter f.header.auxSec) hf.encodable
      have h2 : (auxAsWritten cfg sc.frameCounter f.header.auxSec).length = auxLength aux.keyIdentifier := by
        rw [hf.aux]; exact auxOctets_length ..
      simp only [securedHead, hc, contentOctets, List.append_nil]
      omega
    rw [Frame.tryWrite_secured cfg ht f aux sc hf.encodable hf.content hf.aux hf.data buf hl] at hok
    generalize securedHead cfg sc.frameCounter f = head at *
    unfold securedSize at hsz
    rcases hr : secureData aead f aux sc (buf.drop head.length) with ⟨r, sc', sub⟩
    rw [hr] at hok
    cases r with
    | err e => simp [Frame.securedResult] at hok
    | panic => simp [Frame.securedResult] at hok
    | ok k =>
      simp only [Frame.securedResult, Out.ok.injEq] at hok
      subst hok
      by_cases hlv : aux.control.securityLevel = .none
      · unfold secureData at hr
        simp only [hlv, if_true] at hr
        rw [hlv] at hsz
        split at hr
        · simp at hr
        · split at hr
          · simp at hr
          · simp only [Prod.mk.injEq, Out.ok.injEq] at hr
            obtain ⟨rfl, _, _⟩ := hr
            omega
      · obtain ⟨_, _, _, _, _, _, tag, _, hp, rfl, _, _⟩ := secureData_ok hlv hr
        have := (protect_lengths ht hp).2
        omega
  · obtain ⟨buf2, h2⟩ := Frame.tryWrite_secured_short cfg aead f .none sc hf.encodable hf.content buf
      (by omega)
    rw [h2] at hok
    simp at hok

/-- **C41** The size used by the check exceeds the true size by two for compressed headers, and is
exact otherwise. -/
theorem C41_compressed_early (cfg : Cfg) (f : Frame) (aux : AuxHeader) (hf : SecuredData f aux)
    (hc : f.content = .data) (c : UInt32) :
    securedSize f aux = (securedHead cfg c f).length + f.payload.length
      + tagLength aux.control.securityLevel + (if f.header.panIdCompress then 2 else 0) := by
  have h1 := Header.headerOctets_length f.header false false false
    (auxAsWritten cfg c f.header.auxSec) hf.encodable
  have h2 : (auxAsWritten cfg c f.header.auxSec).length = auxLength aux.keyIdentifier := by
    rw [hf.aux]; exact auxOctets_length ..
  simp only [securedHead, hc, contentOctets, List.append_nil, securedSize, ← Header.octetSize_eq]
  cases hp : f.header.panIdCompress <;> simp [hp, bit] at h1 ⊢ <;> omega

example : ({ sampleSecured with payload := List.replicate 95 0 }.tryWrite sampleCfg sampleAead
      ⟨.none, some sampleSender⟩ (List.replicate 200 0)).1 = .err (.badInput "FrameTooLong") ∧
    ({ sampleSecured with payload := List.replicate 94 0 }.tryWrite sampleCfg sampleAead
      ⟨.none, some sampleSender⟩ (List.replicate 200 0)).1 = .ok 123 := by decide +kernel

/-! ## C42 Levels None and ENC -/

/-- **C42** At level None a frame is written in clear, without tag and without taking a counter
value, whatever keys the context has. -/
theorem C42_none_in_clear {κ : Type} (cfg : Cfg) (aead : Aead κ) (ht : AeadTyped aead) (f : Frame)
    (aux : AuxHeader) (hf : SecuredData f aux) (hl : aux.control.securityLevel = .none) (sc : SecCtx κ)
    (buf : List UInt8) (hsz : securedSize f aux ≤ 125)
    (hroom : (securedHead cfg sc.frameCounter f).length + f.payload.length ≤ buf.length) :
    f.tryWrite cfg aead ⟨.none, some sc⟩ buf =
      (.ok ((securedHead cfg sc.frameCounter f).length + f.payload.length),
        securedHead cfg sc.frameCounter f ++ f.payload ++
          buf.drop ((securedHead cfg sc.frameCounter f).length + f.payload.length), ⟨.none, some sc⟩) := by
  rw [Frame.tryWrite_secured cfg ht f aux sc hf.encodable hf.content hf.aux hf.data buf (by omega)]
  unfold secureData
  simp only
  rw [if_neg (Nat.not_lt.2 hsz), if_neg (by simp; omega), if_pos hl]
  simp [Frame.securedResult, List.drop_drop]

/-- **C42** At level ENC no frame is ever written; when nothing else is wrong the write fails with
`NotImplemented`, having taken a counter value and put the payload in clear into the buffer. -/
theorem C42_enc_refused {κ : Type} (cfg : Cfg) (aead : Aead κ) (ht : AeadTyped aead) (f : Frame)
    (aux : AuxHeader) (hf : SecuredData f aux) (hl : aux.control.securityLevel = .enc) (sc : SecCtx κ)
    (buf : List UInt8) :
    (∀ n, (f.tryWrite cfg aead ⟨.none, some sc⟩ buf).1 ≠ .ok n) ∧
    (securedSize f aux ≤ 125 → sc.frameCounter ≠ maxCounter →
      (sc.keyProvider .dst aux.keyIdentifier f.header.destination).isSome = true →
      (securedHead cfg sc.frameCounter f).length + f.payload.length ≤ buf.length →
      f.tryWrite cfg aead ⟨.none, some sc⟩ buf = (.err (.badInput "NotImplemented"),
        securedHead cfg sc.frameCounter f ++ f.payload ++
          buf.drop ((securedHead cfg sc.frameCounter f).length + f.payload.length),
        ⟨.none, some (advance sc)⟩)) := by
  constructor
  · intro n hok
    by_cases hfit : (securedHead cfg sc.frameCounter f).length ≤ buf.length
    · rw [Frame.tryWrite_secured cfg ht f aux sc hf.encodable hf.content hf.aux hf.data buf hfit] at hok
      rcases hr : secureData aead f aux sc (buf.drop (securedHead cfg sc.frameCounter f).length)
        with ⟨r, sc', sub⟩
      rw [hr] at hok
      cases r with
      | err e => simp [Frame.securedResult] at hok
      | panic => simp [Frame.securedResult] at hok
      | ok k => exact (secureData_ok (by rw [hl]; decide) hr).2.2.1 hl
    · obtain ⟨buf2, h2⟩ := Frame.tryWrite_secured_short cfg aead f .none sc hf.encodable hf.content buf
        (by omega)
      rw [h2] at hok
      simp at hok
  · intro hsz hmax hk hroom
    rw [Frame.tryWrite_secured cfg ht f aux sc hf.encodable hf.content hf.aux hf.data buf (by omega)]
    obtain ⟨⟨e, k⟩, hk⟩ := Option.isSome_iff_exists.1 hk
    unfold secureData
    simp only
    rw [if_neg (Nat.not_lt.2 hsz), if_neg (by simp; omega), if_neg (by rw [hl]; decide), if_neg hmax]
    simp only [hk, if_pos hl]
    simp [Frame.securedResult, List.drop_drop, SecErr.toByteErr, SecCtx.next, advance]

example : let aux : AuxHeader := ⟨⟨.enc, .none⟩, 5, none⟩
    let f : Frame := { sampleSecured with header := { sampleHeader with auxSec := some aux } }
    SecuredData f aux ∧ securedSize f aux ≤ 125 ∧
    (f.tryWrite sampleCfg sampleAead ⟨.none, some sampleSender⟩ (List.replicate 40 0)).1 =
      .err (.badInput "NotImplemented") :=
  ⟨⟨by decide, trivial, rfl, rfl⟩, by decide, by decide⟩

/-! ## C44 Panics of writing -/

/-- **C44** Without explicit footer, writing a frame with API content never panics — any header,
secured or not, with or without context. -/
theorem C44_none_never_panics {κ : Type} (cfg : Cfg) (aead : Aead κ) (ht : AeadTyped aead) (f : Frame)
    (hc : ContentFromApi f.content) (sc : Option (SecCtx κ)) (buf : List UInt8) :
    (f.tryWrite cfg aead ⟨.none, sc⟩ buf).1 ≠ .panic := by
  by_cases he : Encodable f.header
  · cases ha : f.header.auxSec with
    | none =>
      have hp := Frame.tryWrite_plain cfg aead f ⟨.none, sc⟩ ha he hc (.inr rfl) buf
      by_cases hl : (plainFrameOctets .none f).length ≤ buf.length
      · rw [hp.1 hl]; simp
      · obtain ⟨k, _, hk⟩ := hp.2 (Nat.lt_of_not_le hl)
        rw [hk]; simp
    | some aux =>
      have hs : f.header.auxSec.isSome = true := by rw [ha]; rfl
      cases sc with
      | none =>
        have hm := Frame.writeHead_missing (κ := κ) cfg f he hs
        by_cases hl : (headerOctets f.header false false false []).length ≤ buf.length
        · rw [Frame.tryWrite_err cfg aead f ⟨.none, none⟩ hm buf hl]; simp
        · obtain ⟨k, _, hk⟩ := Frame.tryWrite_short cfg aead f ⟨.none, none⟩ hm buf (by omega)
          rw [hk]; simp
      | some sc =>
        by_cases hl : (securedHead cfg sc.frameCounter f).length ≤ buf.length
        · by_cases hd : f.header.frameType = .data
          · rw [Frame.tryWrite_secured cfg ht f aux sc he hc ha hd buf hl]
            have hn := Frame.secureData_enabled aead f aux sc
              (buf.drop (securedHead cfg sc.frameCounter f).length)
            rcases hr : secureData aead f aux sc (buf.drop (securedHead cfg sc.frameCounter f).length)
              with ⟨_ | _ | _, _, _⟩
            · simp [Frame.securedResult]
            · simp [Frame.securedResult]
            · rw [hr] at hn; exact absurd rfl hn.2
          · rw [Frame.tryWrite_not_data cfg aead f sc he hc hs hd buf hl]; simp
        · obtain ⟨buf2, h2⟩ := Frame.tryWrite_secured_short cfg aead f .none sc he hc buf (by omega)
          rw [h2]; simp
  · have hm := Frame.writeHead_refused cfg f sc he
    by_cases hl : (le 2 (frameControl f.header false false false) ++ [f.header.seq]).length ≤ buf.length
    · rw [Frame.tryWrite_err cfg aead f ⟨.none, sc⟩ hm buf hl]; simp
    · obtain ⟨k, _, hk⟩ := Frame.tryWrite_short cfg aead f ⟨.none, sc⟩ hm buf (by omega)
      rw [hk]; simp

/-- **C44** With explicit footer and a context, writing a frame with API content panics exactly
when its header has an encoding and header and content fit — secured or not.  (`securedHead` of an
unsecured frame is its plain header and content.) -/
theorem C44_explicit_panics_iff {κ : Type} (cfg : Cfg) (aead : Aead κ) (f : Frame)
    (hc : ContentFromApi f.content) (sc : SecCtx κ) (buf : List UInt8) :
    (f.tryWrite cfg aead ⟨.explicit, some sc⟩ buf).1 = .panic ↔
      Encodable f.header ∧ (securedHead cfg sc.frameCounter f).length ≤ buf.length := by
  by_cases he : Encodable f.header
  · have hh := Frame.writeHead_ok cfg f (some sc) he hc (by simp)
    by_cases hl : (securedHead cfg sc.frameCounter f).length ≤ buf.length
    · rw [Frame.tryWrite_head cfg aead f ⟨.explicit, some sc⟩ hh buf hl]
      simp only [he, hl, and_self, iff_true]
      unfold Frame.afterHead
      simp [secureFrame]
    · obtain ⟨k, _, hk⟩ := Frame.tryWrite_short cfg aead f ⟨.explicit, some sc⟩ hh buf
        (Nat.lt_of_not_le hl)
      rw [hk]
      simp [hl]
  · have hm := Frame.writeHead_refused cfg f (some sc) he
    simp only [he, false_and, iff_false]
    by_cases hl : (le 2 (frameControl f.header false false false) ++ [f.header.seq]).length ≤ buf.length
    · rw [Frame.tryWrite_err cfg aead f ⟨.explicit, some sc⟩ hm buf hl]; simp
    · obtain ⟨k, _, hk⟩ := Frame.tryWrite_short cfg aead f ⟨.explicit, some sc⟩ hm buf (by omega)
      rw [hk]; simp

/-- **C44** With explicit footer and no context, writing a frame with API content never panics. -/
theorem C44_explicit_no_context {κ : Type} (cfg : Cfg) (aead : Aead κ) (f : Frame)
    (hc : ContentFromApi f.content) (buf : List UInt8) :
    (f.tryWrite cfg aead ⟨.explicit, none⟩ buf).1 ≠ .panic := by
  by_cases he : Encodable f.header
  · cases ha : f.header.auxSec with
    | none =>
      have hp := Frame.tryWrite_plain cfg aead f ⟨.explicit, none⟩ ha he hc (.inl rfl) buf
      by_cases hl : (plainFrameOctets .explicit f).length ≤ buf.length
      · rw [hp.1 hl]; simp
      · obtain ⟨k, _, hk⟩ := hp.2 (Nat.lt_of_not_le hl)
        rw [hk]; simp
    | some aux =>
      have hm := Frame.writeHead_missing (κ := κ) cfg f he (by rw [ha]; rfl)
      by_cases hl : (headerOctets f.header false false false []).length ≤ buf.length
      · rw [Frame.tryWrite_err cfg aead f ⟨.explicit, none⟩ hm buf hl]; simp
      · obtain ⟨k, _, hk⟩ := Frame.tryWrite_short cfg aead f ⟨.explicit, none⟩ hm buf (by omega)
        rw [hk]; simp
  · have hm := Frame.writeHead_refused cfg f (none : Option (SecCtx κ)) he
    by_cases hl : (le 2 (frameControl f.header false false false) ++ [f.header.seq]).length ≤ buf.length
    · rw [Frame.tryWrite_err cfg aead f ⟨.explicit, none⟩ hm buf hl]; simp
    · obtain ⟨k, _, hk⟩ := Frame.tryWrite_short cfg aead f ⟨.explicit, none⟩ hm buf (by omega)
      rw [hk]; simp

/-- Witness: an unsecured frame, a context and an explicit footer. -/
example : (sampleFrame.tryWrite sampleCfg sampleAead ⟨.explicit, some sampleSender⟩
    (List.replicate 40 0)).1 = .panic ∧ ContentFromApi sampleFrame.content ∧
    Encodable sampleFrame.header := ⟨by decide, trivial, by decide⟩

/-! ## C46, C47 -/

/-- **C46** (sending) A secured frame that is not a data frame is never written; given room for
header and content the write fails with `NotImplemented` and takes no counter value. -/
theorem C46_write_not_data {κ : Type} (cfg : Cfg) (aead : Aead κ) (f : Frame)
    (he : Encodable f.header) (hc : ContentFromApi f.content) (ha : Secured f.header)
    (hd : f.header.frameType ≠ .data) (sc : SecCtx κ) (buf : List UInt8) :
    (∀ n, (f.tryWrite cfg aead ⟨.none, some sc⟩ buf).1 ≠ .ok n) ∧
    (f.tryWrite cfg aead ⟨.none, some sc⟩ buf).2.2 = ⟨.none, some sc⟩ ∧
    ((securedHead cfg sc.frameCounter f).length ≤ buf.length →
      (f.tryWrite cfg aead ⟨.none, some sc⟩ buf).1 = .err (.badInput "NotImplemented")) := by
  by_cases hl : (securedHead cfg sc.frameCounter f).length ≤ buf.length
  · rw [Frame.tryWrite_not_data cfg aead f sc he hc ha hd buf hl]
    exact ⟨by simp, rfl, fun _ => rfl⟩
  · obtain ⟨buf2, h2⟩ := Frame.tryWrite_secured_short cfg aead f .none sc he hc buf (by omega)
    rw [h2]
    exact ⟨by simp, rfl, fun h => absurd h hl⟩

/-- **C46, C47** (sending) Without key no write at a level other than None succeeds, with any
footer mode; when nothing else is wrong it fails with `UnavailableKey`. -/
theorem C47_write_needs_key {κ : Type} (cfg : Cfg) (aead : Aead κ) (ht : AeadTyped aead) (f : Frame)
    (aux : AuxHeader) (hf : SecuredData f aux) (hl : aux.control.securityLevel ≠ .none) (sc : SecCtx κ)
    (hk : sc.keyProvider .dst aux.keyIdentifier f.header.destination = none) (mode : FooterMode)
    (buf : List UInt8) :
    (∀ n, (f.tryWrite cfg aead ⟨mode, some sc⟩ buf).1 ≠ .ok n) ∧
    (securedSize f aux ≤ 125 → sc.frameCounter ≠ maxCounter → mode = .none →
      (securedHead cfg sc.frameCounter f).length + f.payload.length ≤ buf.length →
      (f.tryWrite cfg aead ⟨mode, some sc⟩ buf).1 = .err (.badInput "UnavailableKey")) := by
  cases mode with
  | explicit =>
    refine ⟨?_, by simp⟩
    intro n hok
    have hh := Frame.writeHead_ok cfg f (some sc) hf.encodable hf.content (by simp)
    by_cases hfit : (securedHead cfg sc.frameCounter f).length ≤ buf.length
    · rw [(C44_explicit_panics_iff cfg aead f hf.content sc buf).2 ⟨hf.encodable, hfit⟩] at hok
      cases hok
    · obtain ⟨buf2, h2⟩ := Frame.tryWrite_secured_short cfg aead f .explicit sc hf.encodable hf.content buf
        (by omega)
      rw [h2] at hok
      simp at hok
  | none =>
    constructor
    · intro n hok
      by_cases hfit : (securedHead cfg sc.frameCounter f).length ≤ buf.length
      · rw [Frame.tryWrite_secured cfg ht f aux sc hf.encodable hf.content hf.aux hf.data buf hfit] at hok
        rcases hr : secureData aead f aux sc (buf.drop (securedHead cfg sc.frameCounter f).length)
          with ⟨r, sc', sub⟩
        rw [hr] at hok
        cases r with
        | err e => simp [Frame.securedResult] at hok
        | panic => simp [Frame.securedResult] at hok
        | ok k =>
          obtain ⟨_, _, _, _, _, _, _, h, _⟩ := secureData_ok hl hr
          rw [hk] at h
          cases h
      · obtain ⟨buf2, h2⟩ := Frame.tryWrite_secured_short cfg aead f .none sc hf.encodable hf.content buf
          (by omega)
        rw [h2] at hok
        simp at hok
    · intro hsz hmax _ hroom
      rw [Frame.tryWrite_secured cfg ht f aux sc hf.encodable hf.content hf.aux hf.data buf (by omega)]
      unfold secureData
      simp only
      rw [if_neg (Nat.not_lt.2 hsz), if_neg (by simp; omega), if_neg hl, if_neg hmax]
      simp only [hk]
      rfl

/-- **C47** (sending) In particular the no-security context writes no secured frame. -/
theorem C47_no_security_write {κ : Type} (cfg : Cfg) (aead : Aead κ) (ht : AeadTyped aead) (f : Frame)
    (aux : AuxHeader) (hf : SecuredData f aux) (hl : aux.control.securityLevel ≠ .none)
    (mode : FooterMode) (buf : List UInt8) (n : Nat) :
    (f.tryWrite cfg aead ⟨mode, some SecCtx.noSecurity⟩ buf).1 ≠ .ok n :=
  (C47_write_needs_key cfg aead ht f aux hf hl _ rfl mode buf).1 n

example : (sampleSecured.tryWrite sampleCfg sampleAead ⟨.none, some SecCtx.noSecurity⟩
    (List.replicate 40 0)).1 = .err (.badInput "UnavailableKey") := by decide

end Verif
