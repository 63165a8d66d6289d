import Verif.Lemmas.Unsecure

/-!
# Lemmas: `Frame::try_read_and_unsecure`
-/

namespace Verif
open Spec

namespace Frame

theorem readPayload_eq (cfg : Cfg) (h : Header) (c : FrameContent) (t : Nat) (pre body tag : List UInt8)
    (ht : tag.length = t) :
    readPayload cfg h c t (pre ++ (body ++ tag)) pre.length =
      .ok (⟨h, c, body, (0, 0)⟩, pre.length + body.length) := by
  have h1 : (usub cfg (pre ++ (body ++ tag)).length pre.length : Out ByteErr Nat)
      = .ok (body ++ tag).length := by
    unfold usub; rw [if_pos (by simp)]; simp
  have h2 : (usub cfg (body ++ tag).length t : Out ByteErr Nat) = .ok body.length := by
    unfold usub; rw [if_pos (by simp; omega)]; simp; omega
  have h3 := read_bytes pre (body ++ tag) body.length
  rw [if_neg (by simp), List.take_left] at h3
  unfold readPayload
  simp only [R.bind_apply, R.len, R.offset, R.lift, h1, h2, h3]
  rfl

/-- Header or content unreadable: an error, nothing changes. -/
theorem receive_bad_head {κ σ : Type} (cfg : Cfg) (aead : Aead κ) (buf : List UInt8) (ctx : SerDesCtx κ)
    (lookup : DevLookup σ) (dev : σ) (hn : ∀ h n c m, ¬ HeadReadable cfg buf h n c m) :
    ∃ e, tryReadAndUnsecure cfg aead buf ctx lookup dev = (.err (SecErr.ofByteErr e), buf, ctx, dev) := by
  unfold tryReadAndUnsecure
  cases hr : readHead cfg buf 0 with
  | ok x =>
    obtain ⟨⟨h, c⟩, off⟩ := x
    obtain ⟨n, m, hh, rfl⟩ := readHead_ok.1 hr
    exact absurd hh (hn h n c m)
  | err e => exact ⟨e, rfl⟩
  | panic => exact absurd hr (readHead_no_panic cfg buf)

/-- An unsecured frame. -/
theorem receive_unsecured {κ σ : Type} (cfg : Cfg) (aead : Aead κ) (buf : List UInt8) (ctx : SerDesCtx κ)
    (lookup : DevLookup σ) (dev : σ) {h : Header} {c : FrameContent} {n m : Nat}
    (hd : HeadReadable cfg buf h n c m) (ha : h.auxSec = none) :
    tryReadAndUnsecure cfg aead buf ctx lookup dev =
      (.ok (⟨h, c, buf.drop (n + m), (0, 0)⟩, buf.length), buf, ctx, dev) := by
  have hs : h.hasSecurity = false := by simp [Header.hasSecurity, ha]
  have hb := headReadable_bound hd
  have hp := readPayload_eq cfg h c 0 (buf.take (n + m)) (buf.drop (n + m)) [] rfl
  have hl : (buf.take (n + m)).length = n + m := by simp; omega
  rw [List.append_nil, List.take_append_drop, hl] at hp
  unfold tryReadAndUnsecure
  rw [readHead_ok.2 ⟨n, m, hd, rfl⟩]
  simp only [hs, Bool.false_eq_true, if_false]
  rw [hp]
  simp only [Out.mapErr, List.length_drop]
  congr 3; congr 1; omega

/-- A secured frame without context. -/
theorem receive_no_context {κ σ : Type} (cfg : Cfg) (aead : Aead κ) (buf : List UInt8) (mode : FooterMode)
    (lookup : DevLookup σ) (dev : σ) {h : Header} {c : FrameContent} {n m : Nat}
    (hd : HeadReadable cfg buf h n c m) (ha : h.auxSec.isSome = true) :
    tryReadAndUnsecure cfg aead buf ⟨mode, none⟩ lookup dev =
      (.err .invalidSecContext, buf, ⟨mode, none⟩, dev) := by
  have hs : h.hasSecurity = true := ha
  unfold tryReadAndUnsecure
  rw [readHead_ok.2 ⟨n, m, hd, rfl⟩]
  simp only [hs, if_true]

/-- A secured frame with a context and an explicit footer. -/
theorem receive_explicit {κ σ : Type} (cfg : Cfg) (aead : Aead κ) (buf : List UInt8) (sc : SecCtx κ)
    (lookup : DevLookup σ) (dev : σ) {h : Header} {c : FrameContent} {n m : Nat}
    (hd : HeadReadable cfg buf h n c m) (ha : h.auxSec.isSome = true) :
    tryReadAndUnsecure cfg aead buf ⟨.explicit, some sc⟩ lookup dev =
      (.panic, buf, ⟨.explicit, some sc⟩, dev) := by
  have hs : h.hasSecurity = true := ha
  unfold tryReadAndUnsecure
  rw [readHead_ok.2 ⟨n, m, hd, rfl⟩]
  simp only [hs, if_true, unsecureFrame, List.take_append_drop]

/-- Result of reading in terms of the result of unsecuring. -/
def receivedResult {κ σ : Type} (h : Header) (c : FrameContent) (head : List UInt8) :
    Out SecErr Nat × List UInt8 × SecCtx κ × σ → Out SecErr (Frame × Nat) × List UInt8 × SerDesCtx κ × σ
  | (.ok t, sub, sc, dev) =>
      (.ok (⟨h, c, sub.take (sub.length - t), (0, 0)⟩, head.length + (sub.length - t)), head ++ sub,
        ⟨.none, some sc⟩, dev)
  | (.err e, sub, sc, dev) => (.err e, head ++ sub, ⟨.none, some sc⟩, dev)
  | (.panic, sub, sc, dev) => (.panic, head ++ sub, ⟨.none, some sc⟩, dev)

theorem unsecureData_facts {κ σ : Type} (cfg : Cfg) {aead : Aead κ} (ht : AeadTyped aead) (h : Header)
    (aux : AuxHeader) (buf : List UInt8) (sc : SecCtx κ) (lookup : DevLookup σ) (dev : σ) :
    let r := unsecureData cfg aead h aux buf sc lookup dev
    r.1 ≠ .err .securityNotEnabled ∧ r.2.1.length = buf.length ∧ r.2.2.1 = sc ∧
      ∀ t, r.1 = .ok t → t = tagLength aux.control.securityLevel ∧ t ≤ buf.length := by
  have hlen : ∀ level key nonce, ¬ buf.length < tagLength level →
      (checkArea aead level key nonce (buf.take (buf.length - tagLength level))
        (buf.drop (buf.length - tagLength level)) ++ buf.drop (buf.length - tagLength level)).length
      = buf.length := by
    intro level key nonce hb
    rw [List.length_append, checkArea_length ht]
    simp
  unfold unsecureData
  simp only
  repeat' split
  all_goals
    first
      | (refine ⟨by simp, rfl, rfl, ?_⟩
         intro t h
         simp at h
         done)
      | (refine ⟨by simp, hlen _ _ _ (by assumption), rfl, ?_⟩
         intro t h
         simp at h
         done)
      | (refine ⟨by simp, hlen _ _ _ (by assumption), rfl, ?_⟩
         intro t h
         simp only [Out.ok.injEq] at h
         subst h
         refine ⟨rfl, ?_⟩
         apply Nat.le_of_not_lt
         assumption)

/-- A secured frame with a context. -/
theorem receive_secured {κ σ : Type} (cfg : Cfg) {aead : Aead κ} (ht : AeadTyped aead) (buf : List UInt8)
    (sc : SecCtx κ) (lookup : DevLookup σ) (dev : σ) {h : Header} {c : FrameContent} {n m : Nat}
    {aux : AuxHeader} (hd : HeadReadable cfg buf h n c m) (ha : h.auxSec = some aux) :
    tryReadAndUnsecure cfg aead buf ⟨.none, some sc⟩ lookup dev =
      if h.frameType ≠ .data then (.err .notImplemented, buf, ⟨.none, some sc⟩, dev)
      else if h.version = .ieee802154_2003 then (.err .unsupportedLegacy, buf, ⟨.none, some sc⟩, dev)
      else receivedResult h c (buf.take (n + m))
        (unsecureData cfg aead h aux (buf.drop (n + m)) sc lookup dev) := by
  have hs : h.hasSecurity = true := by simp [Header.hasSecurity, ha]
  have hb := headReadable_bound hd
  have hl : (buf.take (n + m)).length = n + m := by simp; omega
  unfold tryReadAndUnsecure
  rw [readHead_ok.2 ⟨n, m, hd, rfl⟩]
  simp only [hs, if_true]
  rw [unsecureFrame_cases cfg aead h aux ha]
  simp only
  by_cases h1 : h.frameType ≠ .data
  · simp only [if_pos h1, List.take_append_drop]
  simp only [if_neg h1]
  by_cases h2 : h.version = .ieee802154_2003
  · simp only [if_pos h2, List.take_append_drop]
  simp only [if_neg h2]
  have hf := unsecureData_facts cfg ht h aux (buf.drop (n + m)) sc lookup dev
  rcases hr : unsecureData cfg aead h aux (buf.drop (n + m)) sc lookup dev with ⟨r, sub, sc', dev'⟩
  rw [hr] at hf
  simp only at hf
  obtain ⟨hne, hsub, hsc, hok⟩ := hf
  cases r with
  | ok t =>
    obtain ⟨_, htl⟩ := hok t rfl
    have hp := readPayload_eq cfg h c t (buf.take (n + m)) (sub.take (sub.length - t))
      (sub.drop (sub.length - t)) (by simp; omega)
    rw [List.take_append_drop, hl] at hp
    simp only [receivedResult]
    rw [hp]
    simp only [Out.mapErr, hl]
    congr 4
    simp
  | panic => rfl
  | err e => cases e <;> first | rfl | exact absurd (by rfl) hne

end Frame

end Verif
