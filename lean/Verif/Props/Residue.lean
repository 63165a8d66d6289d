import Verif.Props.Node
import Verif.Props.Accounts
import Verif.Props.Ccm

/-!
# C75: what a refused reception and a refused write leave in the buffer
-/

namespace Verif
open Spec

/-- An AEAD refuses to protect no payload of at most 65535 octets. -/
theorem protect_some_of_laws {κ : Type} (aead : Aead κ) (hlaws : AeadLaws aead) (l : SecurityLevel)
    (hl : EncMic l) (key : κ) (nonce payload : List UInt8) (hp : payload.length ≤ 65535) :
    ∃ body tag, protect aead l key nonce payload = some (body, tag) := by
  have hM : ¬ MicOnly l := by cases l <;> simp_all [EncMic, MicOnly]
  unfold protect
  rw [if_neg hM, if_pos hl]
  have := hlaws.encrypts (tagLength l) key nonce [] payload (tagLength_size (.inr hl)) hp
  rcases h1 : aead.encrypt (tagLength l) key nonce [] payload with ⟨_ | t, b⟩
  · rw [h1] at this; cases this
  · exact ⟨_, _, rfl⟩

/-- What the receiving table leaves in the buffer when it refuses. -/
theorem receivingAccount_residue {κ σ : Type} (cfg : Cfg) (cipher : BlockCipher κ) (buf : List UInt8) (sc : SecCtx κ)
    (lookup : DevLookup σ) (dev : σ) (h : Header) (aux : AuxHeader) (c : FrameContent) (m : Nat) (e : SecErr)
    (hlen : buf.length ≤ 65535) (out : List UInt8) (d : σ)
    (hr : receivingAccount cfg (Ccm.aead cipher) buf sc lookup dev h aux c m = (.err e, out, d)) :
    (∃ k j, out = buf.take k ++ List.replicate j 0 ++ buf.drop (k + j)) ∧
    (e ≠ .transformationError → out = buf) := by
  have same : (∃ k j, buf = buf.take k ++ List.replicate j 0 ++ buf.drop (k + j)) ∧
      (e ≠ .transformationError → buf = buf) := ⟨⟨0, 0, by simp⟩, fun _ => rfl⟩
  unfold receivingAccount at hr
  simp only at hr
  split at hr
  · cases hr; exact same
  split at hr
  · cases hr; exact same
  split at hr
  · cases hr; exact same
  split at hr
  · cases hr; exact same
  rename_i eui key _
  split at hr
  · cases hr; exact same
  split at hr
  · cases hr; exact same
  split at hr
  · cases hr; exact same
  split at hr
  · cases hr; exact same
  split at hr
  · cases hr
  rename_i hroom
  split at hr
  · rename_i hun
    simp only [Prod.mk.injEq, Out.err.injEq] at hr
    obtain ⟨rfl, rfl, -⟩ := hr
    refine ⟨?_, fun hne => absurd rfl hne⟩
    by_cases hE : EncMic aux.control.securityLevel
    · have hM : ¬ MicOnly aux.control.securityLevel := by
        cases hx : aux.control.securityLevel <;> rw [hx] at hE <;> simp_all [EncMic, MicOnly]
      refine ⟨m, buf.length - m - tagLength aux.control.securityLevel, ?_⟩
      unfold bodyPlace
      unfold unprotect at hun
      rw [if_pos hE]
      rw [if_neg hM, if_pos hE] at hun
      have hbl : ((buf.drop m).take (buf.length - m - tagLength aux.control.securityLevel)).length =
          buf.length - m - tagLength aux.control.securityLevel := by
        rw [List.length_take, List.length_drop]; omega
      have hz : ((Ccm.aead cipher).decrypt (tagLength aux.control.securityLevel) key
          (nonceOctets eui aux.frameCounter aux.control.securityLevel) []
          ((buf.drop m).take (buf.length - m - tagLength aux.control.securityLevel))
          (buf.drop (m + (buf.length - m - tagLength aux.control.securityLevel)))).2 =
          List.replicate (buf.length - m - tagLength aux.control.securityLevel) 0 := by
        simp only [Ccm.aead, Ccm.decrypt] at hun ⊢
        rw [if_neg (by rw [hbl]; unfold Ccm.maxLen; omega)] at hun ⊢
        split at hun
        · cases hun
        · rename_i hd
          split at hd
          · cases hd
          · rename_i hne
            rw [if_neg hne, hbl]
      rw [hz]
    · refine ⟨0, 0, ?_⟩
      unfold bodyPlace
      rw [if_neg hE]
      simp only [List.take_zero, List.replicate_zero, List.append_nil, List.nil_append, Nat.add_zero, List.drop_zero]
      rw [← List.drop_drop, List.append_assoc, List.take_append_drop, List.take_append_drop]
  · split at hr <;> cases hr

/-- **C75** A refused reception reveals nothing: after an error each octet of the buffer is as received
or zero; and only a tag that does not verify (`TransformationError`) makes any of them zero.  (For CCM with
any block cipher, and slices of at most 65535 octets.) -/
theorem C75_refused_reception {κ σ : Type} (cfg : Cfg) (cipher : BlockCipher κ)
    (buf : List UInt8) (hfit : SliceFits cfg buf) (hlen : buf.length ≤ 65535) (ctx : SerDesCtx κ)
    (lookup : DevLookup σ) (dev : σ) (e : SecErr)
    (hr : (Frame.tryReadAndUnsecure cfg (Ccm.aead cipher) buf ctx lookup dev).1 = .err e) :
    (∃ k j, (Frame.tryReadAndUnsecure cfg (Ccm.aead cipher) buf ctx lookup dev).2.1 =
      buf.take k ++ List.replicate j 0 ++ buf.drop (k + j)) ∧
    (e ≠ .transformationError →
      (Frame.tryReadAndUnsecure cfg (Ccm.aead cipher) buf ctx lookup dev).2.1 = buf) := by
  have ht : AeadTyped (Ccm.aead cipher) := (C50_ccm_laws cipher).toAeadTyped
  by_cases hex : ∃ h n c m, HeadReadable cfg buf h n c m ∧ Secured h
  · obtain ⟨h, n, c, m, hd, hs⟩ := hex
    obtain ⟨mode, sc⟩ := ctx
    cases sc with
    | none =>
      rw [C45_no_context cfg (Ccm.aead cipher) buf mode lookup dev h n c m hd hs]
      exact ⟨⟨0, 0, by simp⟩, fun _ => rfl⟩
    | some sc =>
      cases mode with
      | explicit =>
        rw [(C43_explicit_panic_iff cfg (Ccm.aead cipher) buf sc lookup dev).2 ⟨h, n, c, m, hd, hs⟩] at hr
        cases hr
      | none =>
        obtain ⟨aux, ha⟩ := Option.isSome_iff_exists.1 hs
        have hacc := C56_receiving_account cfg (Ccm.aead cipher) ht buf sc lookup dev h n c m hd aux ha
        simp only at hacc
        rw [hacc] at hr ⊢
        exact receivingAccount_residue cfg cipher buf sc lookup dev h aux c (n + m) e hlen _
          (receivingAccount cfg (Ccm.aead cipher) buf sc lookup dev h aux c (n + m)).2.2 (Prod.ext hr rfl)
  · rw [C45_unsecured_alike cfg (Ccm.aead cipher) buf hfit ctx lookup dev
      (fun h n c m hd hs => hex ⟨h, n, c, m, hd, hs⟩)]
    exact ⟨⟨0, 0, by simp⟩, fun _ => rfl⟩

/-- **C75** A refused write may leave the payload in clear: with the counter exhausted, without key, or at
level ENC, the buffer holds header, content and the payload as it is, although the write failed. -/
theorem C75_refused_write_in_clear {κ : Type} (cfg : Cfg) (aead : Aead κ) (ht : AeadTyped aead) (f : Frame)
    (aux : AuxHeader) (hf : SecuredData f aux) (sc : SecCtx κ) (buf : List UInt8)
    (hl : aux.control.securityLevel ≠ .none) (hsz : securedSize f aux ≤ 125)
    (hroom : (securedHead cfg sc.frameCounter f).length + f.payload.length ≤ buf.length)
    (hwhy : sc.frameCounter = maxCounter ∨ aux.control.securityLevel = .enc ∨
      sc.keyProvider .dst aux.keyIdentifier f.header.destination = none) :
    ∃ e, (f.tryWrite cfg aead ⟨.none, some sc⟩ buf).1 = .err e ∧
      (f.tryWrite cfg aead ⟨.none, some sc⟩ buf).2.1 =
        securedHead cfg sc.frameCounter f ++ f.payload ++
          buf.drop ((securedHead cfg sc.frameCounter f).length + f.payload.length) := by
  have hacc := C55_sending_account cfg aead ht f aux hf sc buf (by omega)
  simp only at hacc
  rw [hacc]
  show ∃ e, (sendingAccount cfg aead f aux sc buf).1 = .err e ∧ (sendingAccount cfg aead f aux sc buf).2.1 = _
  rcases hs : sendingAccount cfg aead f aux sc buf with ⟨o, out, sc'⟩
  unfold sendingAccount at hs
  simp only [if_neg (show ¬ 125 < securedSize f aux by omega),
    if_neg (show ¬ buf.length < (securedHead cfg sc.frameCounter f).length + f.payload.length by omega), if_neg hl] at hs
  by_cases hm : sc.frameCounter = maxCounter
  · rw [if_pos hm] at hs; cases hs; exact ⟨_, rfl, rfl⟩
  · rw [if_neg hm] at hs
    rcases hk : sc.keyProvider .dst aux.keyIdentifier f.header.destination with _ | ⟨eui, key⟩
    · simp only [hk] at hs; cases hs; exact ⟨_, rfl, rfl⟩
    · rcases hwhy with h | h | h
      · exact absurd h hm
      · simp only [hk, if_pos h] at hs; cases hs; exact ⟨_, rfl, rfl⟩
      · rw [hk] at h; cases h

/-- **C75** Otherwise a refused write at an ENC-MIC level leaves no payload: its place is as before, or
holds the protected octets that would have been sent had the tag found room. -/
theorem C75_refused_write_protected {κ : Type} (cfg : Cfg) (aead : Aead κ) (hlaws : AeadLaws aead) (f : Frame)
    (aux : AuxHeader) (hf : SecuredData f aux) (sc : SecCtx κ) (buf : List UInt8)
    (hl : EncMic aux.control.securityLevel) (hc : sc.frameCounter ≠ maxCounter) (eui : UInt64) (key : κ)
    (hk : sc.keyProvider .dst aux.keyIdentifier f.header.destination = some (eui, key)) (e : ByteErr)
    (hr : (f.tryWrite cfg aead ⟨.none, some sc⟩ buf).1 = .err e) :
    (∃ k, k ≤ (securedHead cfg sc.frameCounter f).length ∧
      (f.tryWrite cfg aead ⟨.none, some sc⟩ buf).2.1 = (securedHead cfg sc.frameCounter f).take k ++ buf.drop k) ∨
    (∃ body tag, protect aead aux.control.securityLevel key
        (nonceOctets sc.euid sc.frameCounter aux.control.securityLevel) f.payload = some (body, tag) ∧
      (f.tryWrite cfg aead ⟨.none, some sc⟩ buf).2.1 = securedHead cfg sc.frameCounter f ++ body ++
        buf.drop ((securedHead cfg sc.frameCounter f).length + f.payload.length)) := by
  by_cases hhead : (securedHead cfg sc.frameCounter f).length ≤ buf.length
  · have hacc := C55_sending_account cfg aead hlaws.toAeadTyped f aux hf sc buf hhead
    simp only at hacc
    rw [hacc] at hr ⊢
    have hn : aux.control.securityLevel ≠ .none := by
      intro hx; rw [hx] at hl; exact hl
    have he : aux.control.securityLevel ≠ .enc := by
      intro hx; rw [hx] at hl; exact hl
    rcases hs : sendingAccount cfg aead f aux sc buf with ⟨o, out, sc'⟩
    rw [hs] at hr
    simp only at hr ⊢
    subst hr
    unfold sendingAccount at hs
    simp only at hs
    split at hs
    · cases hs
      exact .inl ⟨_, Nat.le_refl _, by rw [List.take_length]⟩
    rename_i h1
    split at hs
    · cases hs
      exact .inl ⟨_, Nat.le_refl _, by rw [List.take_length]⟩
    simp only [if_neg hn, if_neg hc, hk, if_neg he] at hs
    obtain ⟨body, tag, hp⟩ := protect_some_of_laws aead hlaws aux.control.securityLevel hl key
      (nonceOctets sc.euid sc.frameCounter aux.control.securityLevel) f.payload
      (by have : securedSize f aux ≤ 125 := by omega
          unfold securedSize at this; omega)
    simp only [hp] at hs
    split at hs
    · cases hs
      exact .inr ⟨body, tag, hp, rfl⟩
    · cases hs
  · obtain ⟨k, hk', hw⟩ := C55_no_room_for_head cfg aead f aux hf sc .none buf (by omega)
    rw [hw]
    exact .inl ⟨k, by omega, rfl⟩

/-! ## Witnesses -/

/-- A frame whose tag does not verify (CCM over a toy block cipher): `TransformationError`, and the two octets
of the body are zero, everything else as received. -/
example :
    (Frame.tryReadAndUnsecure sampleCfg (Ccm.aead (fun (_ : Nat) b => b)) sampleReceived
      ⟨.none, some sampleReceiver⟩ sampleLookup ⟨3, false⟩).1 = .err .transformationError ∧
    (Frame.tryReadAndUnsecure sampleCfg (Ccm.aead (fun (_ : Nat) b => b)) sampleReceived
      ⟨.none, some sampleReceiver⟩ sampleLookup ⟨3, false⟩).2.1 =
      sampleReceived.take 25 ++ [0, 0] ++ sampleReceived.drop 27 :=
  ⟨by decide +kernel, by decide +kernel⟩

/-- A frame refused as a replay: the buffer is as received. -/
example :
    (Frame.tryReadAndUnsecure sampleCfg (Ccm.aead (fun (_ : Nat) b => b)) sampleReceived
      ⟨.none, some sampleReceiver⟩ sampleLookup ⟨0x01020305, false⟩).1 = .err .counterError ∧
    (Frame.tryReadAndUnsecure sampleCfg (Ccm.aead (fun (_ : Nat) b => b)) sampleReceived
      ⟨.none, some sampleReceiver⟩ sampleLookup ⟨0x01020305, false⟩).2.1 = sampleReceived :=
  ⟨by decide +kernel, by decide +kernel⟩

/-- Counter exhausted, and no key: the payload stands in the buffer in clear. -/
example : SecuredData sampleSecured sampleAux ∧ securedSize sampleSecured sampleAux ≤ 125 ∧
    (sampleSecured.tryWrite sampleCfg sampleAead ⟨.none, some { sampleSender with frameCounter := maxCounter }⟩
      (List.replicate 40 0)).2.1.take 27 =
      securedHead sampleCfg maxCounter sampleSecured ++ sampleSecured.payload ∧
    (sampleSecured.tryWrite sampleCfg sampleAead ⟨.none, some { sampleSender with keyProvider := fun _ _ _ => none }⟩
      (List.replicate 40 0)).2.1.take 27 =
      securedHead sampleCfg sampleSender.frameCounter sampleSecured ++ sampleSecured.payload :=
  ⟨sampleSecured_ok, by decide, by decide +kernel, by decide +kernel⟩

/-- No room for the tag: refused, and the payload has been encrypted. -/
example : EncMic sampleAux.control.securityLevel ∧
    ((sampleSecured.tryWrite sampleCfg (Ccm.aead (fun (_ : Nat) b => b.map (· + 1)))
      ⟨.none, some sampleSender⟩ (List.replicate 29 0)).1 = .err .incomplete) ∧
    ((sampleSecured.tryWrite sampleCfg (Ccm.aead (fun (_ : Nat) b => b.map (· + 1)))
      ⟨.none, some sampleSender⟩ (List.replicate 29 0)).2.1.drop 25).take 2 ≠ sampleSecured.payload :=
  ⟨trivial, by decide +kernel, by decide +kernel⟩

end Verif
