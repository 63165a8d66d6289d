import Verif.Spec.Accounts
import Verif.Props.SecureRead

/-!
# Complete accounts: C55 (sending), C56 (receiving)
-/

namespace Verif
open Spec

/-! ## C55 Sending -/

/-- **C55** Everything a caller sees of a write of a secured data frame, in every case in which
header and content fit: result, buffer and context are those of the table `sendingAccount`. -/
theorem C55_sending_account {κ : Type} (cfg : Cfg) (aead : Aead κ) (ht : AeadTyped aead) (f : Frame)
    (aux : AuxHeader) (hf : SecuredData f aux) (sc : SecCtx κ) (buf : List UInt8)
    (hl : (securedHead cfg sc.frameCounter f).length ≤ buf.length) :
    let r := sendingAccount cfg aead f aux sc buf
    f.tryWrite cfg aead ⟨.none, some sc⟩ buf = (r.1, r.2.1, ⟨.none, some r.2.2⟩) := by
  intro r
  rw [Frame.tryWrite_secured cfg ht f aux sc hf.encodable hf.content hf.aux hf.data buf hl]
  unfold secureData
  show _ = ((sendingAccount cfg aead f aux sc buf).1, (sendingAccount cfg aead f aux sc buf).2.1,
    (⟨.none, some (sendingAccount cfg aead f aux sc buf).2.2⟩ : SerDesCtx κ))
  unfold sendingAccount
  generalize securedHead cfg sc.frameCounter f = head at *
  simp only [calculateNonce_eq]
  have hshort : (buf.drop head.length).length < f.payload.length ↔
      buf.length < head.length + f.payload.length := by simp; omega
  by_cases h1 : 125 < securedSize f aux
  · have h1' : 125 < f.payload.length + uncompressedLength f.header + auxLength aux.keyIdentifier +
        tagLength aux.control.securityLevel := h1
    simp only [if_pos h1, if_pos h1', Frame.securedResult]; rfl
  have h1' : ¬ 125 < f.payload.length + uncompressedLength f.header + auxLength aux.keyIdentifier +
        tagLength aux.control.securityLevel := h1
  simp only [if_neg h1, if_neg h1', hshort]
  by_cases h2 : buf.length < head.length + f.payload.length
  · simp only [if_pos h2, Frame.securedResult]; rfl
  simp only [if_neg h2, List.drop_drop]
  have hclear : head ++ (f.payload ++ buf.drop (head.length + f.payload.length)) =
      head ++ f.payload ++ buf.drop (head.length + f.payload.length) := by simp
  by_cases h3 : aux.control.securityLevel = .none
  · simp only [if_pos h3, Frame.securedResult, hclear]
  simp only [if_neg h3]
  by_cases h4 : sc.frameCounter = 0xFFFFFFFF
  · simp only [if_pos h4, Frame.securedResult, hclear]; rfl
  simp only [if_neg h4]
  cases hk : sc.keyProvider .dst aux.keyIdentifier f.header.destination with
  | none => simp only [Frame.securedResult, hclear]; rfl
  | some ek =>
    obtain ⟨eui, key⟩ := ek
    simp only
    by_cases h5 : aux.control.securityLevel = .enc
    · simp only [if_pos h5, Frame.securedResult, hclear]; rfl
    simp only [if_neg h5]
    cases hp : protect aead aux.control.securityLevel key
        (nonceOctets sc.euid sc.frameCounter aux.control.securityLevel) f.payload with
    | none => simp only [Frame.securedResult, List.append_assoc]; rfl
    | some bt =>
      obtain ⟨body, tag⟩ := bt
      obtain ⟨hb, htag⟩ := protect_lengths ht hp
      simp only
      have hroom : (buf.drop (head.length + f.payload.length)).length < tag.length ↔
          buf.length < head.length + f.payload.length + tagLength aux.control.securityLevel := by
        rw [htag]; simp; omega
      simp only [hroom]
      by_cases h6 : buf.length < head.length + f.payload.length + tagLength aux.control.securityLevel
      · simp only [if_pos h6, Frame.securedResult, List.append_assoc]; rfl
      · simp only [if_neg h6]
        simp only [Frame.securedResult, htag, List.append_assoc, Nat.add_assoc]; rfl

/-- **C55** When header and content do not fit: `Incomplete`, the context is untouched, and the
buffer holds the first octets of header and content, the rest unchanged. -/
theorem C55_no_room_for_head {κ : Type} (cfg : Cfg) (aead : Aead κ) (f : Frame)
    (aux : AuxHeader) (hf : SecuredData f aux) (sc : SecCtx κ) (mode : FooterMode) (buf : List UInt8)
    (hl : buf.length < (securedHead cfg sc.frameCounter f).length) :
    ∃ k, k ≤ buf.length ∧ f.tryWrite cfg aead ⟨mode, some sc⟩ buf =
      (.err .incomplete, (securedHead cfg sc.frameCounter f).take k ++ buf.drop k, ⟨mode, some sc⟩) := by
  have hh := Frame.writeHead_ok cfg f (some sc) hf.encodable hf.content (by simp)
  obtain ⟨k, hk, h⟩ := Frame.tryWrite_short cfg aead f ⟨mode, some sc⟩ hh buf hl
  exact ⟨k, hk, h⟩

/-- A cipher that refuses everything, overwriting its input. -/
def refusingAead : Aead Nat where
  encrypt _ _ _ _ b := (none, b.map fun _ => 0xEE)
  decrypt _ _ _ _ b _ := (false, b.map fun _ => 0xDD)

/-- Witnesses: the sample frame (25 octets of header, 3 of payload, 4 of tag) with a refusing cipher,
and with too little room for the tag. -/
example : (securedHead sampleCfg sampleSender.frameCounter sampleSecured).length = 25 ∧
    (sendingAccount sampleCfg refusingAead sampleSecured sampleAux sampleSender (List.replicate 40 7)).1
      = .err (.badInput "TransformationError") ∧
    (sampleSecured.tryWrite sampleCfg refusingAead ⟨.none, some sampleSender⟩
      (List.replicate 40 7)).2.1.drop 25 = List.replicate sampleSecured.payload.length 0xEE ++
        List.replicate (15 - sampleSecured.payload.length) 7 ∧
    (sampleSecured.tryWrite sampleCfg sampleAead ⟨.none, some sampleSender⟩
      (List.replicate (25 + sampleSecured.payload.length + 3) 7)).1 = .err .incomplete := by decide +kernel

/-! ## C56 Receiving -/

/-- **C56** Everything a caller sees of the reception of a secured frame, in every case: result,
buffer and device state are those of the table `receivingAccount`; the context never changes. -/
theorem C56_receiving_account {κ σ : Type} (cfg : Cfg) (aead : Aead κ) (ht : AeadTyped aead)
    (buf : List UInt8) (sc : SecCtx κ) (lookup : DevLookup σ) (dev : σ) (h : Header) (n : Nat)
    (c : FrameContent) (m : Nat) (hd : HeadReadable cfg buf h n c m) (aux : AuxHeader)
    (ha : h.auxSec = some aux) :
    let r := receivingAccount cfg aead buf sc lookup dev h aux c (n + m)
    Frame.tryReadAndUnsecure cfg aead buf ⟨.none, some sc⟩ lookup dev =
      (r.1, r.2.1, ⟨.none, some sc⟩, r.2.2) := by
  intro r
  have hb := Frame.headReadable_bound hd
  rw [Frame.receive_secured cfg ht buf sc lookup dev hd ha]
  show _ = ((receivingAccount cfg aead buf sc lookup dev h aux c (n + m)).1,
    (receivingAccount cfg aead buf sc lookup dev h aux c (n + m)).2.1,
    (⟨.none, some sc⟩ : SerDesCtx κ), (receivingAccount cfg aead buf sc lookup dev h aux c (n + m)).2.2)
  unfold receivingAccount unsecureData
  simp only [calculateNonce_eq]
  have hl : (buf.take (n + m)).length = n + m := by simp; omega
  by_cases h1 : h.frameType ≠ .data
  · simp only [if_pos h1]
  simp only [if_neg h1]
  by_cases h2 : h.version = .ieee802154_2003
  · simp only [if_pos h2]
  simp only [if_neg h2]
  by_cases h3 : aux.control.securityLevel = .none
  · simp only [if_pos h3, Frame.receivedResult, List.take_append_drop]
  simp only [if_neg h3]
  cases hk : sc.keyProvider .src aux.keyIdentifier h.source with
  | none => simp only [Frame.receivedResult, List.take_append_drop]
  | some ek =>
    obtain ⟨eui, key⟩ := ek
    simp only
    cases hs : h.source with
    | none => simp only [Frame.receivedResult, List.take_append_drop]
    | some src =>
      simp only
      rcases hlk : lookup dev .src src with ⟨looked, _ | ⟨device, store⟩⟩
      · simp only [Frame.receivedResult, List.take_append_drop]
      · simp only
        by_cases h4 : device.frameCounter = 0xFFFFFFFF ∨ aux.frameCounter < device.frameCounter
        · simp only [if_pos h4, Frame.receivedResult, List.take_append_drop]
        simp only [if_neg h4]
        by_cases h5 : aux.control.securityLevel = .enc
        · simp only [if_pos h5, Frame.receivedResult, List.take_append_drop]
        simp only [if_neg h5]
        have hshort : (buf.drop (n + m)).length < tagLength aux.control.securityLevel ↔
            buf.length < n + m + tagLength aux.control.securityLevel := by simp; omega
        simp only [hshort]
        by_cases h6 : buf.length < n + m + tagLength aux.control.securityLevel
        · simp only [if_pos h6, Frame.receivedResult, List.take_append_drop]
        simp only [if_neg h6, List.length_drop, List.drop_drop]
        generalize hbody : (buf.drop (n + m)).take
          (buf.length - (n + m) - tagLength aux.control.securityLevel) = body
        have hbl : body.length = buf.length - (n + m) - tagLength aux.control.securityLevel := by
          rw [← hbody]; simp
        generalize htag : buf.drop (n + m + (buf.length - (n + m) -
          tagLength aux.control.securityLevel)) = tag
        have htl : tag.length = tagLength aux.control.securityLevel := by
          rw [← htag]; simp; omega
        cases hu : unprotect aead aux.control.securityLevel key
            (nonceOctets eui aux.frameCounter aux.control.securityLevel) body tag with
        | none => simp only [Frame.receivedResult, List.append_assoc]; rfl
        | some payload =>
          simp only
          by_cases h7 : aux.frameCounter = 0xFFFFFFFF ∧ cfg.overflowChecks = true
          · simp only [if_pos h7, Frame.receivedResult, List.append_assoc]; rfl
          · have hpa := unprotect_area hu
            have hpl := unprotect_length ht hu
            simp only [if_neg h7]
            simp only [Frame.receivedResult, hpa, hl, List.append_assoc, List.length_append, htl,
              Nat.add_sub_cancel, List.take_left]
            rw [show bodyPlace aead aux.control.securityLevel key
              (nonceOctets eui aux.frameCounter aux.control.securityLevel) body tag = payload from hpa]

/-- Witness: the sample frame received by a refusing cipher: the protected octets are replaced by what
the cipher left, the tag stays, nothing is stored. -/
example : (∃ h c aux, HeadReadable sampleCfg sampleReceived h 25 c 0 ∧ h.auxSec = some aux) ∧
    (Frame.tryReadAndUnsecure sampleCfg refusingAead sampleReceived ⟨.none, some sampleSender⟩
      sampleLookup ⟨3, false⟩).1 = .err .transformationError ∧
    ((Frame.tryReadAndUnsecure sampleCfg refusingAead sampleReceived ⟨.none, some sampleSender⟩
      sampleLookup ⟨3, false⟩).2.1.drop 25).take 1 = [0xDD] ∧
    (Frame.tryReadAndUnsecure sampleCfg refusingAead sampleReceived ⟨.none, some sampleSender⟩
      sampleLookup ⟨3, false⟩).2.2.2.1 = 3 :=
  ⟨⟨_, _, _, data_head sampleIncoming_passes.read rfl, rfl⟩, by decide +kernel⟩

/-! ## C39 without the checks -/

/-- **C39** In full: two secured data frames (not of the 2003 version) with the same level, counter, key identifier and
source and the same octets behind the header are treated alike, whether they pass the checks or not — the same error or
panic, or the same payload with the header that came with it; the same octets are left behind the header; the same is
stored. -/
theorem C39_treated_alike {κ σ : Type} (cfg : Cfg) (aead : Aead κ) (ht : AeadTyped aead)
    (buf₁ buf₂ : List UInt8) (sc : SecCtx κ) (lookup : DevLookup σ) (dev : σ) (h₁ h₂ : Header) (n₁ n₂ : Nat)
    (aux₁ aux₂ : AuxHeader) (hr₁ : Header.tryRead cfg buf₁ = .ok (h₁, n₁)) (hr₂ : Header.tryRead cfg buf₂ = .ok (h₂, n₂))
    (hdata₁ : h₁.frameType = .data) (hdata₂ : h₂.frameType = .data)
    (hver₁ : h₁.version ≠ .ieee802154_2003) (hver₂ : h₂.version ≠ .ieee802154_2003)
    (haux₁ : h₁.auxSec = some aux₁) (haux₂ : h₂.auxSec = some aux₂)
    (hlevel : aux₂.control.securityLevel = aux₁.control.securityLevel)
    (hcounter : aux₂.frameCounter = aux₁.frameCounter) (hkeyid : aux₂.keyIdentifier = aux₁.keyIdentifier)
    (hsource : h₂.source = h₁.source) (hrest : buf₂.drop n₂ = buf₁.drop n₁) :
    let r₁ := Frame.tryReadAndUnsecure cfg aead buf₁ ⟨.none, some sc⟩ lookup dev
    let r₂ := Frame.tryReadAndUnsecure cfg aead buf₂ ⟨.none, some sc⟩ lookup dev
    (r₂.1 = match r₁.1 with
      | .ok (f, k) => .ok ({ f with header := h₂ }, n₂ + (k - n₁))
      | .err e => .err e
      | .panic => .panic) ∧
    r₂.2.1.drop n₂ = r₁.2.1.drop n₁ ∧ r₂.2.2.2 = r₁.2.2.2 := by
  have hd₁ := data_head hr₁ hdata₁
  have hd₂ := data_head hr₂ hdata₂
  have hb₁ := Frame.headReadable_bound hd₁
  have hb₂ := Frame.headReadable_bound hd₂
  intro r₁ r₂
  have e₁ := C56_receiving_account cfg aead ht buf₁ sc lookup dev h₁ n₁ _ 0 hd₁ aux₁ haux₁
  have e₂ := C56_receiving_account cfg aead ht buf₂ sc lookup dev h₂ n₂ _ 0 hd₂ aux₂ haux₂
  dsimp only [Nat.add_zero] at e₁ e₂ hb₁ hb₂
  have hlen : buf₂.length - n₂ = buf₁.length - n₁ := by
    have := congrArg List.length hrest
    simpa using this
  show (r₂.1 = match r₁.1 with
      | .ok (f, k) => .ok ({ f with header := h₂ }, n₂ + (k - n₁))
      | .err e => .err e
      | .panic => .panic) ∧ _
  have hr₁ : r₁ = _ := e₁
  have hr₂ : r₂ = _ := e₂
  clear_value r₁ r₂
  subst hr₁ hr₂
  clear e₁ e₂
  unfold receivingAccount
  simp only [hdata₁, hdata₂, hver₁, hver₂, hlevel, hcounter, hkeyid, hsource, ne_eq, not_true_eq_false, if_false]
  by_cases h1 : aux₁.control.securityLevel = .none
  · simp only [if_pos h1]
    exact ⟨trivial, hrest, trivial⟩
  simp only [if_neg h1]
  rcases sc.keyProvider .src aux₁.keyIdentifier h₁.source with _ | ⟨eui, key⟩
  · exact ⟨rfl, hrest, rfl⟩
  rcases h₁.source with _ | src
  · exact ⟨rfl, hrest, rfl⟩
  dsimp only
  rcases lookup dev .src src with ⟨looked, _ | ⟨device, store⟩⟩
  · exact ⟨rfl, hrest, rfl⟩
  dsimp only
  split
  · exact ⟨rfl, hrest, rfl⟩
  split
  · exact ⟨rfl, hrest, rfl⟩
  have hshort : buf₂.length < n₂ + tagLength aux₁.control.securityLevel ↔
      buf₁.length < n₁ + tagLength aux₁.control.securityLevel := by omega
  simp only [hshort]
  split
  · exact ⟨rfl, hrest, rfl⟩
  simp only [hlen, hrest, ← List.drop_drop]
  have hdrop : ∀ (b : List UInt8) (n : Nat) (l : List UInt8), n ≤ b.length → (b.take n ++ l).drop n = l := by
    intro b n l hn
    have : (b.take n).length = n := by simp; omega
    conv => lhs; rw [← this]
    rw [this, List.drop_left' this]
  split
  · refine ⟨rfl, ?_, rfl⟩
    simp only [List.append_assoc]
    rw [hdrop _ _ _ hb₂.2, hdrop _ _ _ hb₁.2]
  split
  · refine ⟨rfl, ?_, rfl⟩
    simp only [List.append_assoc]
    rw [hdrop _ _ _ hb₂.2, hdrop _ _ _ hb₁.2]
  · refine ⟨?_, ?_, rfl⟩
    · simp
    · simp only [List.append_assoc]
      rw [hdrop _ _ _ hb₂.2, hdrop _ _ _ hb₁.2]

end Verif
