import Verif.Lemmas.ReceiveChecks
import Verif.Props.SecureWrite
import Verif.Props.Ccm

/-!
# Properties of secured reading: C34, C36–C39, C43, C45–C47

`PassesChecks cfg sc lookup dev buf x`: the slice passes every check before decryption, with the
values in `x`.  `Verifies aead buf x body tag payload`: what stands behind the header is `body` and a
tag that verifies, revealing `payload`.
-/

namespace Verif
open Spec

/-- The sample cipher with tag `AA…` satisfies the laws of an AEAD. -/
theorem sampleAead_laws : AeadLaws sampleAead := by
  refine ⟨sampleAead_typed, ?_, ?_, ?_, ?_⟩
  · intros; rfl
  · intro t k n a b tag c _ h
    simp only [sampleAead, Prod.mk.injEq, Option.some.injEq] at h
    obtain ⟨rfl, rfl⟩ := h
    simp [sampleAead]
  · intro t k n a b tag c _ _ h
    simp only [sampleAead, Prod.mk.injEq, beq_iff_eq] at h
    obtain ⟨rfl, rfl⟩ := h
    rfl
  · intro t k n a c tag tag' h h'
    simp only [sampleAead, beq_iff_eq] at h h'
    rw [h, h']

/-- A device lookup with one descriptor, whatever the address (as in the crate's documentation,
security/mod.rs:58-80). -/
def sampleLookup : DevLookup DeviceDescriptor := fun s _ _ => (s, some (s, fun d => d))

/-- A receiver that knows the sample sender's key and EUI-64. -/
def sampleReceiver : SecCtx Nat := ⟨0, 0, fun _ _ _ => some (0x0102030405060708, 5)⟩

/-- It is a device table with one device. -/
def sampleTable : DeviceTable Unit sampleLookup where
  identify := fun _ => ()
  get := fun s _ => some s
  looking := fun _ _ _ => rfl
  found := fun _ _ => rfl
  stored := by
    intro s a d store h d'
    simp only [sampleLookup, Option.some.injEq, Prod.mk.injEq] at h
    obtain ⟨_, rfl⟩ := h
    rfl
  others := fun _ _ _ _ _ _ i hi => absurd rfl hi

/-- A secured frame as received, counter 0x01020304, at level ENC-MIC-32. -/
def sampleReceived : List UInt8 :=
  [0x59, 0xD8, 0x4D, 0x34, 0x12, 0x78, 0x56, 8, 7, 6, 5, 4, 3, 2, 1,
    0x15, 4, 3, 2, 1, 0xD4, 0xC3, 0xB2, 0xA1, 9, 0xde, 0xf0, 0xAA, 0xAA, 0xAA, 0xAA]

/-- What its receiver has in hand. -/
def sampleIncoming : Incoming Nat DeviceDescriptor where
  header := { sampleHeader with seqNoSuppress := false, source := some (.extended 0x1234 0x0102030405060708),
                                auxSec := some ⟨⟨.encmic32, .keySource4⟩, 0x01020304, some ⟨some (.short 0xA1B2C3D4), 9⟩⟩ }
  headLength := 25
  aux := ⟨⟨.encmic32, .keySource4⟩, 0x01020304, some ⟨some (.short 0xA1B2C3D4), 9⟩⟩
  eui := 9
  key := 5
  source := .extended 0x1234 0x0102030405060708
  looked := ⟨3, false⟩
  device := ⟨3, false⟩
  store := fun d => d

theorem sampleIncoming_passes :
    PassesChecks sampleCfg sampleSender sampleLookup ⟨3, false⟩ sampleReceived sampleIncoming := by
  refine ⟨by decide +kernel, rfl, by decide, rfl, by decide, rfl, rfl, rfl, by decide, by decide⟩

/-! ## C38 Acceptance -/

/-- **C38** A secured frame is accepted if and only if it passes the checks and its tag verifies
(and, with overflow checks, its counter is not the greatest); then the frame returned has the
header read and the revealed payload, the buffer holds the revealed payload in place, the context is
untouched and the device's counter is one above the frame's. -/
theorem C38_accept_iff {κ σ : Type} (cfg : Cfg) (aead : Aead κ) (ht : AeadTyped aead) (buf buf' : List UInt8)
    (sc : SecCtx κ) (lookup : DevLookup σ) (dev dev' : σ) (f : Frame) (k : Nat) (ctx' : SerDesCtx κ) :
    (Frame.tryReadAndUnsecure cfg aead buf ⟨.none, some sc⟩ lookup dev = (.ok (f, k), buf', ctx', dev') ∧
      Secured f.header) ↔
    ∃ x body tag payload, PassesChecks cfg sc lookup dev buf x ∧ Verifies aead buf x body tag payload ∧
      (cfg.overflowChecks = true → x.aux.frameCounter ≠ maxCounter) ∧
      f = ⟨x.header, .data, payload, (0, 0)⟩ ∧ k = x.headLength + payload.length ∧
      buf' = buf.take x.headLength ++ payload ++ tag ∧ ctx' = ⟨.none, some sc⟩ ∧
      dev' = x.store x.advanced := by
  constructor
  · rintro ⟨hr, hs⟩
    rcases Frame.receive_cases cfg ht buf sc lookup dev with ⟨x, hx⟩ | ⟨e, d, he, _⟩ | ⟨h, n, c, m, _, ha, hu⟩
    · rw [Frame.receive_passed cfg ht buf sc lookup dev hx] at hr
      simp only at hr
      split at hr
      · simp at hr
      rename_i hlen
      split at hr
      · simp at hr
      rename_i payload hu
      split at hr
      · simp at hr
      rename_i hm
      simp only [Prod.mk.injEq, Out.ok.injEq] at hr
      obtain ⟨⟨rfl, rfl⟩, rfl, rfl, rfl⟩ := hr
      refine ⟨x, _, _, payload, hx, ⟨(List.take_append_drop _ _).symm, ?_, hu⟩, fun ho hc => hm ⟨hc, ho⟩, rfl,
        rfl, by simp, rfl, rfl⟩
      rw [List.length_drop]; omega
    · rw [he] at hr; simp at hr
    · rw [hu] at hr
      simp only [Prod.mk.injEq, Out.ok.injEq] at hr
      obtain ⟨⟨rfl, _⟩, _⟩ := hr
      simp [Secured, ha] at hs
  · rintro ⟨x, body, tag, payload, hx, hv, hm, rfl, rfl, rfl, rfl, rfl⟩
    refine ⟨?_, by show x.header.auxSec.isSome = true; rw [hx.aux]; rfl⟩
    rw [Frame.receive_passed cfg ht buf sc lookup dev hx]
    have htl := hv.tagLength
    have hlen : (body ++ tag).length - tagLength x.level = body.length := by simp; omega
    simp only [hv.split, hlen, List.take_left, List.drop_left, hv.verifies]
    rw [if_neg (by simp; omega), if_neg (fun h => hm h.2 h.1)]
    simp

/-- **C38** With the laws of an AEAD, the tag verifies and reveals `payload` exactly when the octets
behind the header are what protecting `payload` produces. -/
theorem C38_verifies_iff {κ σ : Type} (aead : Aead κ) (hl : AeadLaws aead) (buf : List UInt8)
    (x : Incoming κ σ) (body tag payload : List UInt8) :
    Verifies aead buf x body tag payload ↔
      buf.drop x.headLength = body ++ tag ∧
      protect aead x.level x.key x.nonce payload = some (body, tag) := by
  constructor
  · intro hv; exact ⟨hv.split, protect_of_unprotect hl hv.tagLength hv.verifies⟩
  · rintro ⟨h1, h2⟩
    exact ⟨h1, (protect_lengths hl.toAeadTyped h2).2, unprotect_protect hl h2⟩

theorem passes_local {κ σ : Type} {cfg : Cfg} {sc : SecCtx κ} {lookup : DevLookup σ} {dev : σ}
    {buf : List UInt8} {x : Incoming κ σ} (hx : PassesChecks cfg sc lookup dev buf x) (rest : List UInt8) :
    PassesChecks cfg sc lookup dev (buf.take x.headLength ++ rest) x ∧
    (buf.take x.headLength ++ rest).drop x.headLength = rest ∧
    (buf.take x.headLength ++ rest).take x.headLength = buf.take x.headLength := by
  obtain ⟨hn, _, hloc⟩ := Decodes.local_ (Header.decodes cfg) hx.read
  have hl : (buf.take x.headLength).length = x.headLength := by simp; omega
  refine ⟨⟨hloc rest, hx.data, hx.version, hx.aux, hx.level, hx.key, hx.source, hx.device, hx.notExhausted,
    hx.fresh⟩, ?_, ?_⟩
  · have := List.drop_left (l₁ := buf.take x.headLength) (l₂ := rest)
    rwa [hl] at this
  · have := List.take_left (l₁ := buf.take x.headLength) (l₂ := rest)
    rwa [hl] at this

/-- **C38** Changing only the tag of a frame whose tag verifies gives a frame that is rejected with
`TransformationError`, without storing anything. -/
theorem C38_other_tag_rejected {κ σ : Type} (cfg : Cfg) (aead : Aead κ) (hl : AeadLaws aead)
    (buf : List UInt8) (sc : SecCtx κ) (lookup : DevLookup σ) (dev : σ) (x : Incoming κ σ)
    (body tag tag' payload : List UInt8) (hx : PassesChecks cfg sc lookup dev buf x)
    (hv : Verifies aead buf x body tag payload) (hlen : tag'.length = tag.length) (hne : tag' ≠ tag) :
    let r := Frame.tryReadAndUnsecure cfg aead (buf.take x.headLength ++ (body ++ tag')) ⟨.none, some sc⟩
      lookup dev
    r.1 = .err .transformationError ∧ r.2.2.1 = ⟨.none, some sc⟩ ∧ r.2.2.2 = x.looked := by
  obtain ⟨hx', hd, _⟩ := passes_local hx (body ++ tag')
  have hn : unprotect aead x.level x.key x.nonce body tag' = none := by
    have h1 := hv.verifies
    unfold unprotect at h1 ⊢
    split
    · rename_i hm
      rw [if_pos hm] at h1
      split at h1
      · rename_i h2
        split
        · rename_i h3; exact absurd (hl.tag_unique _ _ _ _ _ _ _ h3 h2) hne
        · rfl
      · cases h1
    · rename_i hm
      rw [if_neg hm] at h1
      split
      · rename_i he
        rw [if_pos he] at h1
        rcases h2 : aead.decrypt (tagLength x.level) x.key x.nonce [] body tag with ⟨_ | _, b⟩
        · simp [h2] at h1
        · rcases h3 : aead.decrypt (tagLength x.level) x.key x.nonce [] body tag' with ⟨_ | _, b'⟩
          · rfl
          · exact absurd (hl.tag_unique _ _ _ _ _ _ _ (by rw [h3]) (by rw [h2])) hne
      · rfl
  simp only
  rw [Frame.receive_passed cfg hl.toAeadTyped _ sc lookup dev hx']
  have htl := hv.tagLength
  have hlen' : (body ++ tag').length - tagLength x.level = body.length := by simp; omega
  simp only [hd, hlen', List.take_left, List.drop_left, hn]
  rw [if_neg (by simp; omega)]
  exact ⟨rfl, rfl, rfl⟩

/-- **C38** At a MIC level, a payload changed on the way is accepted only if the tag is, by chance,
the one the cipher computes for the changed payload. -/
theorem C38_mic_payload {κ σ : Type} (cfg : Cfg) (aead : Aead κ) (hl : AeadLaws aead)
    (buf : List UInt8) (sc : SecCtx κ) (lookup : DevLookup σ) (dev : σ) (x : Incoming κ σ)
    (other tag : List UInt8) (hm : MicOnly x.level) (htag : tag.length = tagLength x.level)
    (hx : PassesChecks cfg sc lookup dev buf x)
    (hne : (aead.encrypt (tagLength x.level) x.key x.nonce other []).1 ≠ some tag) :
    (Frame.tryReadAndUnsecure cfg aead (buf.take x.headLength ++ (other ++ tag)) ⟨.none, some sc⟩
      lookup dev).1 = .err .transformationError := by
  obtain ⟨hx', hd, _⟩ := passes_local hx (other ++ tag)
  rw [Frame.receive_passed cfg hl.toAeadTyped _ sc lookup dev hx']
  have hlen' : (other ++ tag).length - tagLength x.level = other.length := by simp; omega
  have hn : unprotect aead x.level x.key x.nonce other tag = none := by
    cases hu : unprotect aead x.level x.key x.nonce other tag with
    | none => rfl
    | some p =>
      have hp := protect_of_unprotect hl htag hu
      unfold protect at hp
      rw [if_pos hm] at hp
      simp only [Option.map_eq_some_iff, Prod.mk.injEq] at hp
      obtain ⟨t, h1, rfl, rfl⟩ := hp
      exact absurd h1 hne
  simp only [hd, hlen', List.take_left, List.drop_left, hn]
  rw [if_neg (by simp; omega)]

example : PassesChecks sampleCfg sampleSender sampleLookup ⟨3, false⟩ sampleReceived sampleIncoming ∧
    Verifies sampleAead sampleReceived sampleIncoming [0xde, 0xf0] [0xAA, 0xAA, 0xAA, 0xAA] [0xde, 0xf0] ∧
    AeadLaws sampleAead ∧
    (Frame.tryReadAndUnsecure sampleCfg sampleAead sampleReceived ⟨.none, some sampleSender⟩ sampleLookup
      ⟨3, false⟩).2.2.2 = ⟨0x01020305, false⟩ :=
  ⟨sampleIncoming_passes, ⟨by decide, by decide, by decide⟩, sampleAead_laws, by decide +kernel⟩

/-! ## C34 Round trip -/

/-- **C34** The header of a secured frame as a receiver reads it. -/
theorem C34_header_read {κ : Type} (cfg rcfg : Cfg) (hle : cfg.native = .little)
    (hrle : rcfg.native = .little) (aead : Aead κ) (hlaws : AeadLaws aead) (f : Frame) (aux : AuxHeader)
    (hf : SecuredData f aux) (hc : f.content = .data) (hl : Authenticating aux.control.securityLevel)
    (sc : SecCtx κ) (buf buf' : List UInt8) (n : Nat)
    (ctx' : SerDesCtx κ) (hw : f.tryWrite cfg aead ⟨.none, some sc⟩ buf = (.ok n, buf', ctx')) :
    Header.tryRead rcfg (buf'.take n) = .ok (headerAsRead cfg sc.frameCounter f.header,
      (securedHead cfg sc.frameCounter f).length) ∧
    ∃ rest, buf'.take n = securedHead cfg sc.frameCounter f ++ rest := by
  obtain ⟨hmax, hsz, eui', key', body, tag, hk, hp, hn, hroom, hb, _⟩ :=
    (C40_secured_write_iff cfg aead hlaws.toAeadTyped f aux hf hl sc buf buf' n ctx').1 hw
  have hhead : securedHead cfg sc.frameCounter f =
      headerOctets f.header false false false (auxAsWritten cfg sc.frameCounter f.header.auxSec) := by
    simp [securedHead, hc, contentOctets]
  have htake : buf'.take n = securedHead cfg sc.frameCounter f ++ (body ++ tag) := by
    rw [hb, hn]
    have : (securedHead cfg sc.frameCounter f).length + body.length + tag.length =
        (securedHead cfg sc.frameCounter f ++ body ++ tag).length := by simp; omega
    rw [this, List.take_left, List.append_assoc]
  have hcount : ∀ c, counterOnAir rcfg c = c ∧ counterOnAir cfg c = c := fun c =>
    ⟨C33_little rcfg hrle c, C33_little cfg hle c⟩
  have hhar : headerAsRead rcfg sc.frameCounter f.header = headerAsRead cfg sc.frameCounter f.header := by
    unfold headerAsRead
    have : auxAsRead rcfg sc.frameCounter = auxAsRead cfg sc.frameCounter := by
      funext a; unfold auxAsRead; rw [(hcount _).1, (hcount _).2]
    rw [this]
  have haw : auxAsWritten rcfg sc.frameCounter f.header.auxSec = auxAsWritten cfg sc.frameCounter f.header.auxSec := by
    unfold auxAsWritten; rw [hle, hrle]
  refine ⟨?_, _, htake⟩
  rw [htake, hhead]
  refine (Header.decodes rcfg _ _ _).2 ⟨_, body ++ tag, rfl, ?_, rfl⟩
  have := Header.headerAsRead_onWire rcfg sc.frameCounter f.header hf.encodable
  rwa [hhar, haw] at this

/-- **C34** A data frame written at a level with a tag on a little-endian host is accepted by a
little-endian receiver (of any word size and profile) that knows the sender's key and address and
whose counter for the device is not above the frame's: payload and header come back, the device's
counter is then one above the frame's. -/
theorem C34_secured_round_trip {κ σ : Type} (cfg rcfg : Cfg) (hle : cfg.native = .little)
    (hrle : rcfg.native = .little) (aead : Aead κ) (hlaws : AeadLaws aead) (f : Frame) (aux : AuxHeader)
    (hf : SecuredData f aux) (hc : f.content = .data) (hl : Authenticating aux.control.securityLevel)
    (hv : f.header.version ≠ .ieee802154_2003) (sc : SecCtx κ) (buf buf' : List UInt8) (n : Nat)
    (ctx' : SerDesCtx κ) (hw : f.tryWrite cfg aead ⟨.none, some sc⟩ buf = (.ok n, buf', ctx'))
    (key : κ) (eui : UInt64)
    (hkey : sc.keyProvider .dst aux.keyIdentifier f.header.destination = some (eui, key))
    (rc : SecCtx κ) (lookup : DevLookup σ) (dev looked : σ) (src : Address) (d : DeviceDescriptor)
    (store : DeviceDescriptor → σ) (hsrc : sourceAsRead f.header = some src)
    (hrkey : rc.keyProvider .src aux.keyIdentifier (some src) = some (sc.euid, key))
    (hdev : lookup dev .src src = (looked, some (d, store))) (hfresh : d.frameCounter ≤ sc.frameCounter) :
    ∃ k out, Frame.tryReadAndUnsecure rcfg aead (buf'.take n) ⟨.none, some rc⟩ lookup dev =
      (.ok (⟨headerAsRead cfg sc.frameCounter f.header, .data, f.payload, (0, 0)⟩, k), out,
        ⟨.none, some rc⟩, store { d with frameCounter := sc.frameCounter + 1 }) ∧
      k + tagLength aux.control.securityLevel = n ∧
      out.take k = securedHead cfg sc.frameCounter f ++ f.payload := by
  obtain ⟨hmax, hsz, eui', key', body, tag, hk, hp, hn, hroom, hb, _⟩ :=
    (C40_secured_write_iff cfg aead hlaws.toAeadTyped f aux hf hl sc buf buf' n ctx').1 hw
  rw [hkey] at hk
  simp only [Option.some.injEq, Prod.mk.injEq] at hk
  obtain ⟨rfl, rfl⟩ := hk
  obtain ⟨hbl, htl⟩ := protect_lengths hlaws.toAeadTyped hp
  have hhead : securedHead cfg sc.frameCounter f =
      headerOctets f.header false false false (auxAsWritten cfg sc.frameCounter f.header.auxSec) := by
    simp [securedHead, hc, contentOctets]
  have htake : buf'.take n = securedHead cfg sc.frameCounter f ++ (body ++ tag) := by
    rw [hb, hn]
    have : (securedHead cfg sc.frameCounter f).length + body.length + tag.length =
        (securedHead cfg sc.frameCounter f ++ body ++ tag).length := by simp; omega
    rw [this, List.take_left, List.append_assoc]
  have hcount : ∀ c, counterOnAir rcfg c = c ∧ counterOnAir cfg c = c := fun c =>
    ⟨C33_little rcfg hrle c, C33_little cfg hle c⟩
  have hread := (C34_header_read cfg rcfg hle hrle aead hlaws f aux hf hc hl sc buf buf' n ctx' hw).1
  let x : Incoming κ σ := ⟨headerAsRead cfg sc.frameCounter f.header, (securedHead cfg sc.frameCounter f).length,
    auxAsRead cfg sc.frameCounter aux, sc.euid, key, src, looked, d, store⟩
  have hxfc : x.aux.frameCounter = sc.frameCounter := (hcount sc.frameCounter).2
  have hx : PassesChecks rcfg rc lookup dev (buf'.take n) x := by
    refine ⟨hread, hf.data, hv, ?_, hl, ?_, hsrc, hdev, ?_, ?_⟩
    · show Option.map _ f.header.auxSec = _
      rw [hf.aux]; rfl
    · show rc.keyProvider .src aux.keyIdentifier (sourceAsRead f.header) = _
      rw [hsrc]; exact hrkey
    · intro hd
      have hd : d.frameCounter = maxCounter := hd
      rw [hd] at hfresh
      apply hmax
      have h1 := sc.frameCounter.toNat_lt
      have h2 : maxCounter.toNat ≤ sc.frameCounter.toNat := UInt32.le_iff_toNat_le.1 hfresh
      apply UInt32.toNat_inj.1
      have : maxCounter.toNat = 4294967295 := rfl
      omega
    · rw [hxfc]; exact hfresh
  have hdrop : (buf'.take n).drop x.headLength = body ++ tag := by
    rw [htake]; exact List.drop_left
  have hnonce : x.nonce = nonceOctets sc.euid sc.frameCounter aux.control.securityLevel := by
    show nonceOctets sc.euid x.aux.frameCounter _ = _
    rw [hxfc]; rfl
  have hver : Verifies aead (buf'.take n) x body tag f.payload := by
    refine (C38_verifies_iff aead hlaws _ x body tag f.payload).2 ⟨hdrop, ?_⟩
    rw [hnonce]; exact hp
  have hacc := (C38_accept_iff rcfg aead hlaws.toAeadTyped (buf'.take n)
    ((buf'.take n).take x.headLength ++ f.payload ++ tag) rc lookup dev (x.store x.advanced)
    ⟨x.header, .data, f.payload, (0, 0)⟩ (x.headLength + f.payload.length) ⟨.none, some rc⟩).2
    ⟨x, body, tag, f.payload, hx, hver, fun _ => by rw [hxfc]; exact hmax, rfl, rfl, rfl, rfl, rfl⟩
  refine ⟨x.headLength + f.payload.length, (buf'.take n).take x.headLength ++ f.payload ++ tag, ?_, ?_, ?_⟩
  · have hadv : x.store x.advanced = store { d with frameCounter := sc.frameCounter + 1 } := by
      show store { d with frameCounter := x.aux.frameCounter + 1 } = _
      rw [hxfc]
    rw [hacc.1, hadv]
  · show (securedHead cfg sc.frameCounter f).length + f.payload.length + _ = n
    omega
  · have h1 : (buf'.take n).take x.headLength = securedHead cfg sc.frameCounter f := by
      rw [htake]; exact List.take_left
    rw [h1]
    have : x.headLength + f.payload.length = (securedHead cfg sc.frameCounter f ++ f.payload).length := by
      simp [x]
    rw [this, List.take_left]

/-- **C34** Such a write always succeeds given key, room, size limit and a counter left: the cipher
never refuses. -/
theorem C34_write_succeeds {κ : Type} (cfg : Cfg) (aead : Aead κ) (hlaws : AeadLaws aead) (f : Frame)
    (aux : AuxHeader) (hf : SecuredData f aux) (hl : Authenticating aux.control.securityLevel)
    (sc : SecCtx κ) (hmax : sc.frameCounter ≠ maxCounter) (hsz : securedSize f aux ≤ 125)
    (key : κ) (eui : UInt64)
    (hkey : sc.keyProvider .dst aux.keyIdentifier f.header.destination = some (eui, key))
    (buf : List UInt8) (hroom : (securedHead cfg sc.frameCounter f).length + f.payload.length
      + tagLength aux.control.securityLevel ≤ buf.length) :
    ∃ buf', f.tryWrite cfg aead ⟨.none, some sc⟩ buf = (.ok ((securedHead cfg sc.frameCounter f).length
      + f.payload.length + tagLength aux.control.securityLevel), buf', ⟨.none, some (advance sc)⟩) := by
  obtain ⟨⟨body, tag⟩, hp⟩ : ∃ bt, protect aead aux.control.securityLevel key
      (nonceOctets sc.euid sc.frameCounter aux.control.securityLevel) f.payload = some bt := by
    unfold protect
    unfold securedSize at hsz
    split
    · rename_i hm
      have := hlaws.encrypts (tagLength aux.control.securityLevel) key
        (nonceOctets sc.euid sc.frameCounter aux.control.securityLevel) f.payload []
        (tagLength_size (.inl hm)) (by simp)
      obtain ⟨t, ht⟩ := Option.isSome_iff_exists.1 this
      exact ⟨_, by rw [ht]; rfl⟩
    · rename_i hm
      have he : EncMic aux.control.securityLevel := by
        rcases hl with h | h
        · exact absurd h hm
        · exact h
      rw [if_pos he]
      have := hlaws.encrypts (tagLength aux.control.securityLevel) key
        (nonceOctets sc.euid sc.frameCounter aux.control.securityLevel) [] f.payload
        (tagLength_size (.inr he)) (by omega)
      rcases h1 : aead.encrypt (tagLength aux.control.securityLevel) key
        (nonceOctets sc.euid sc.frameCounter aux.control.securityLevel) [] f.payload with ⟨_ | t, b⟩
      · rw [h1] at this; cases this
      · exact ⟨_, rfl⟩
  obtain ⟨hbl, htl⟩ := protect_lengths hlaws.toAeadTyped hp
  refine ⟨_, (C40_secured_write_iff cfg aead hlaws.toAeadTyped f aux hf hl sc buf _ _ _).2
    ⟨hmax, hsz, eui, key, body, tag, hkey, hp, ?_, hroom, rfl, rfl⟩⟩
  omega

/-- **C34** The header that comes back is the one sent, but for the counter and key-id mode of its
auxiliary header, when the flags the encoder drops are clear and a compressed source is in the
destination's PAN. -/
theorem C34_header_back (cfg : Cfg) (c : UInt32) (h : Header) (h1 : h.seqNoSuppress = false)
    (h2 : h.iePresent = false) (h3 : h.panIdCompress = true → SamePan h) :
    headerAsRead cfg c h = { h with auxSec := h.auxSec.map (auxAsRead cfg c) } := by
  have := headerAsRead_same cfg c { h with auxSec := none } rfl h1 h2 (fun hp => h3 hp)
  have h4 := congrArg Header.source this
  have h4 : sourceAsRead h = h.source := h4
  rcases h with ⟨_, _, _, _, _, _, _, _, _, _, _⟩
  simp only at h1 h2
  subst h1 h2
  unfold headerAsRead
  rw [h4]

/-- Witness: the sample sender's frame at its receiver. -/
example : SecuredData sampleSecured sampleAux ∧ AeadLaws sampleAead ∧
    sourceAsRead sampleSecured.header = some (.extended 0x1234 0x0102030405060708) ∧
    sampleReceiver.keyProvider .src sampleAux.keyIdentifier (some (.extended 0x1234 0x0102030405060708))
      = some (sampleSender.euid, 5) ∧
    (sampleSecured.tryWrite sampleCfg sampleAead ⟨.none, some sampleSender⟩ (List.replicate 40 0)).2.1.take 31
      = sampleReceived ∧
    ((Frame.tryReadAndUnsecure sampleCfg sampleAead sampleReceived ⟨.none, some sampleReceiver⟩ sampleLookup
      ⟨3, false⟩).1.holds fun (f, k) => f.payload = [0xde, 0xf0] ∧ k = 27) :=
  ⟨sampleSecured_ok, sampleAead_laws, rfl, rfl, by decide +kernel, by decide +kernel⟩

/-! ## C36, C37 What reception does to the device table -/

/-- **C37** Reception never changes the context, whatever happens and whatever the footer mode. -/
theorem C37_context_unchanged {κ σ : Type} (cfg : Cfg) (aead : Aead κ) (ht : AeadTyped aead)
    (buf : List UInt8) (ctx : SerDesCtx κ) (lookup : DevLookup σ) (dev : σ) :
    (Frame.tryReadAndUnsecure cfg aead buf ctx lookup dev).2.2.1 = ctx := by
  rcases ctx with ⟨mode, _ | sc⟩
  · by_cases hh : ∃ h n c m, HeadReadable cfg buf h n c m
    · obtain ⟨h, n, c, m, hd⟩ := hh
      cases ha : h.auxSec with
      | none => rw [Frame.receive_unsecured cfg aead buf _ lookup dev hd ha]
      | some aux => rw [Frame.receive_no_context cfg aead buf mode lookup dev hd (by rw [ha]; rfl)]
    · obtain ⟨e, he⟩ := Frame.receive_bad_head cfg aead buf ⟨mode, none⟩ lookup dev
        (fun h n c m hd => hh ⟨h, n, c, m, hd⟩)
      rw [he]
  · cases mode with
    | explicit =>
      by_cases hh : ∃ h n c m, HeadReadable cfg buf h n c m
      · obtain ⟨h, n, c, m, hd⟩ := hh
        cases ha : h.auxSec with
        | none => rw [Frame.receive_unsecured cfg aead buf _ lookup dev hd ha]
        | some aux => rw [Frame.receive_explicit cfg aead buf sc lookup dev hd (by rw [ha]; rfl)]
      · obtain ⟨e, he⟩ := Frame.receive_bad_head cfg aead buf ⟨.explicit, some sc⟩ lookup dev
          (fun h n c m hd => hh ⟨h, n, c, m, hd⟩)
        rw [he]
    | none =>
      rcases Frame.receive_cases cfg ht buf sc lookup dev with ⟨x, hx⟩ | ⟨e, d, he, _⟩ | ⟨h, n, c, m, _, _, hu⟩
      · rw [Frame.receive_passed cfg ht buf sc lookup dev hx]
        simp only
        split
        · rfl
        · split
          · rfl
          · split <;> rfl
      · rw [he]
      · rw [hu]

/-- **C37** Whenever the result is not an accepted secured frame — an error, a panic or an unsecured
frame — the device lookup was at most asked: nothing was stored through it. -/
theorem C37_nothing_stored {κ σ : Type} (cfg : Cfg) (aead : Aead κ) (ht : AeadTyped aead)
    (buf : List UInt8) (ctx : SerDesCtx κ) (lookup : DevLookup σ) (dev : σ)
    (hno : ∀ f k, (Frame.tryReadAndUnsecure cfg aead buf ctx lookup dev).1 = .ok (f, k) → ¬ Secured f.header) :
    (Frame.tryReadAndUnsecure cfg aead buf ctx lookup dev).2.2.2 = dev ∨
    ∃ src, (Frame.tryReadAndUnsecure cfg aead buf ctx lookup dev).2.2.2 = (lookup dev .src src).1 := by
  rcases ctx with ⟨mode, _ | sc⟩
  · left
    by_cases hh : ∃ h n c m, HeadReadable cfg buf h n c m
    · obtain ⟨h, n, c, m, hd⟩ := hh
      cases ha : h.auxSec with
      | none => rw [Frame.receive_unsecured cfg aead buf _ lookup dev hd ha]
      | some aux => rw [Frame.receive_no_context cfg aead buf mode lookup dev hd (by rw [ha]; rfl)]
    · obtain ⟨e, he⟩ := Frame.receive_bad_head cfg aead buf ⟨mode, none⟩ lookup dev
        (fun h n c m hd => hh ⟨h, n, c, m, hd⟩)
      rw [he]
  · cases mode with
    | explicit =>
      left
      by_cases hh : ∃ h n c m, HeadReadable cfg buf h n c m
      · obtain ⟨h, n, c, m, hd⟩ := hh
        cases ha : h.auxSec with
        | none => rw [Frame.receive_unsecured cfg aead buf _ lookup dev hd ha]
        | some aux => rw [Frame.receive_explicit cfg aead buf sc lookup dev hd (by rw [ha]; rfl)]
      · obtain ⟨e, he⟩ := Frame.receive_bad_head cfg aead buf ⟨.explicit, some sc⟩ lookup dev
          (fun h n c m hd => hh ⟨h, n, c, m, hd⟩)
        rw [he]
    | none =>
      rcases Frame.receive_cases cfg ht buf sc lookup dev with ⟨x, hx⟩ | ⟨e, d, he, hd⟩ | ⟨h, n, c, m, _, _, hu⟩
      · right
        refine ⟨x.source, ?_⟩
        have hlk : (lookup dev .src x.source).1 = x.looked := by rw [hx.device]
        have hp := Frame.receive_passed cfg ht buf sc lookup dev hx
        rw [hp] at hno ⊢
        rw [hlk]
        simp only at hno ⊢
        split
        · rfl
        · rename_i h1
          rw [if_neg h1] at hno
          split
          · rfl
          · rename_i payload hu
            simp only [hu] at hno
            split
            · rfl
            · rename_i h2
              rw [if_neg h2] at hno
              exact absurd (show x.header.auxSec.isSome = true by rw [hx.aux]; rfl) (hno _ _ rfl)
      · rw [he]; exact hd
      · rw [hu]; exact .inl rfl

/-- **C37** In a device table: then no device's descriptor changed. -/
theorem C37_descriptors_unchanged {κ σ ι : Type} (cfg : Cfg) (aead : Aead κ) (ht : AeadTyped aead)
    (buf : List UInt8) (ctx : SerDesCtx κ) (lookup : DevLookup σ) (table : DeviceTable ι lookup) (dev : σ)
    (hno : ∀ f k, (Frame.tryReadAndUnsecure cfg aead buf ctx lookup dev).1 = .ok (f, k) → ¬ Secured f.header)
    (i : ι) :
    table.get (Frame.tryReadAndUnsecure cfg aead buf ctx lookup dev).2.2.2 i = table.get dev i := by
  rcases C37_nothing_stored cfg aead ht buf ctx lookup dev hno with h | ⟨src, h⟩
  · rw [h]
  · rw [h]; exact table.looking ..

/-- **C36** Accepting a frame stores its counter plus one (modulo 2³²) for its device and touches no
other device; the counter stored was not above the frame's before. -/
theorem C36_accept_stores {κ σ ι : Type} (cfg : Cfg) (aead : Aead κ) (ht : AeadTyped aead)
    (buf : List UInt8) (sc : SecCtx κ) (lookup : DevLookup σ) (table : DeviceTable ι lookup) (dev : σ)
    (f : Frame) (k : Nat)
    (hr : (Frame.tryReadAndUnsecure cfg aead buf ⟨.none, some sc⟩ lookup dev).1 = .ok (f, k))
    (hs : Secured f.header) :
    ∃ src aux d, f.header.source = some src ∧ f.header.auxSec = some aux ∧
      table.get dev (table.identify src) = some d ∧ d.frameCounter ≤ aux.frameCounter ∧
      (cfg.overflowChecks = true → aux.frameCounter ≠ maxCounter) ∧
      table.get (Frame.tryReadAndUnsecure cfg aead buf ⟨.none, some sc⟩ lookup dev).2.2.2 (table.identify src)
        = some { d with frameCounter := aux.frameCounter + 1 } ∧
      ∀ i, i ≠ table.identify src →
        table.get (Frame.tryReadAndUnsecure cfg aead buf ⟨.none, some sc⟩ lookup dev).2.2.2 i = table.get dev i := by
  obtain ⟨x, body, tag, payload, hx, hv, hm, rfl, _, _, _, hdev⟩ :=
    (C38_accept_iff cfg aead ht buf (Frame.tryReadAndUnsecure cfg aead buf ⟨.none, some sc⟩ lookup dev).2.1
      sc lookup dev (Frame.tryReadAndUnsecure cfg aead buf ⟨.none, some sc⟩ lookup dev).2.2.2 f k
      (Frame.tryReadAndUnsecure cfg aead buf ⟨.none, some sc⟩ lookup dev).2.2.1).1 ⟨by rw [← hr], hs⟩
  rw [hdev]
  have hlk : (lookup dev .src x.source).2 = some (x.device, x.store) := by rw [hx.device]
  have hd := table.found dev x.source
  rw [hlk] at hd
  refine ⟨x.source, x.aux, x.device, hx.source, hx.aux, hd.symm, hx.fresh, hm, ?_, ?_⟩
  · rw [table.stored _ _ _ _ hlk]; rfl
  · intro i hi; exact table.others _ _ _ _ hlk _ i hi

theorem u32_succ_toNat (c : UInt32) (h : c ≠ maxCounter) : (c + 1).toNat = c.toNat + 1 := by
  have h1 := c.toNat_lt
  have h2 : c.toNat ≠ 4294967295 := fun hc => h (UInt32.toNat_inj.1 hc)
  rw [UInt32.toNat_add]
  simp
  omega

/-- A secured frame is accepted only with a security context and footer mode None. -/
theorem accept_ctx {κ σ : Type} {cfg : Cfg} {aead : Aead κ} {buf : List UInt8} {ctx : SerDesCtx κ}
    {lookup : DevLookup σ} {dev : σ} {f : Frame} {k : Nat}
    (hr : (Frame.tryReadAndUnsecure cfg aead buf ctx lookup dev).1 = .ok (f, k)) (hs : Secured f.header) :
    ∃ sc, ctx = ⟨.none, some sc⟩ := by
    rcases ctx with ⟨mode, _ | sc⟩
    · exfalso
      by_cases hh : ∃ h n c m, HeadReadable cfg buf h n c m
      · obtain ⟨h, n, c, m, hd⟩ := hh
        cases ha : h.auxSec with
        | none =>
          rw [Frame.receive_unsecured cfg aead buf _ lookup dev hd ha] at hr
          simp only [Out.ok.injEq, Prod.mk.injEq] at hr
          obtain ⟨rfl, _⟩ := hr
          simp [Secured, ha] at hs
        | some aux =>
          rw [Frame.receive_no_context cfg aead buf mode lookup dev hd (by rw [ha]; rfl)] at hr
          simp at hr
      · obtain ⟨e, he⟩ := Frame.receive_bad_head cfg aead buf ⟨mode, none⟩ lookup dev
          (fun h n c m hd => hh ⟨h, n, c, m, hd⟩)
        rw [he] at hr; simp at hr
    · cases mode with
      | none => exact ⟨sc, rfl⟩
      | explicit =>
        exfalso
        by_cases hh : ∃ h n c m, HeadReadable cfg buf h n c m
        · obtain ⟨h, n, c, m, hd⟩ := hh
          cases ha : h.auxSec with
          | none =>
            rw [Frame.receive_unsecured cfg aead buf _ lookup dev hd ha] at hr
            simp only [Out.ok.injEq, Prod.mk.injEq] at hr
            obtain ⟨rfl, _⟩ := hr
            simp [Secured, ha] at hs
          | some aux =>
            rw [Frame.receive_explicit cfg aead buf sc lookup dev hd (by rw [ha]; rfl)] at hr
            simp at hr
        · obtain ⟨e, he⟩ := Frame.receive_bad_head cfg aead buf ⟨.explicit, some sc⟩ lookup dev
            (fun h n c m hd => hh ⟨h, n, c, m, hd⟩)
          rw [he] at hr; simp at hr

/-- **C36** A device's counter decreases only when an authentic frame of that device with the greatest
counter is accepted without overflow checks, and then it becomes 0. -/
theorem C36_decrease_only_by_wrap {κ σ ι : Type} (cfg : Cfg) (aead : Aead κ) (ht : AeadTyped aead)
    (buf : List UInt8) (ctx : SerDesCtx κ) (lookup : DevLookup σ) (table : DeviceTable ι lookup) (dev : σ) (i : ι)
    (d d' : DeviceDescriptor) (hd : table.get dev i = some d)
    (hd' : table.get (Frame.tryReadAndUnsecure cfg aead buf ctx lookup dev).2.2.2 i = some d')
    (hdec : d'.frameCounter < d.frameCounter) :
    cfg.overflowChecks = false ∧ d'.frameCounter = 0 ∧
    ∃ f k src aux, (Frame.tryReadAndUnsecure cfg aead buf ctx lookup dev).1 = .ok (f, k) ∧
      f.header.source = some src ∧ table.identify src = i ∧
      f.header.auxSec = some aux ∧ aux.frameCounter = maxCounter := by
  by_cases hacc : ∃ f k, (Frame.tryReadAndUnsecure cfg aead buf ctx lookup dev).1 = .ok (f, k) ∧ Secured f.header
  · obtain ⟨f, k, hr, hs⟩ := hacc
    obtain ⟨sc, rfl⟩ := accept_ctx hr hs
    obtain ⟨src, aux, d₀, hsrc, haux, hg, hle, hov, hst, hot⟩ :=
      C36_accept_stores cfg aead ht buf sc lookup table dev f k hr hs
    by_cases hi : i = table.identify src
    · subst hi
      rw [hg] at hd
      rw [hst] at hd'
      simp only [Option.some.injEq] at hd hd'
      subst hd hd'
      have hmax : aux.frameCounter = maxCounter := by
        apply Classical.byContradiction
        intro hm
        have h1 : aux.frameCounter + 1 < d₀.frameCounter := hdec
        have h1 := UInt32.lt_iff_toNat_lt.1 h1
        rw [u32_succ_toNat _ hm] at h1
        have h2 := UInt32.le_iff_toNat_le.1 hle
        omega
      refine ⟨?_, ?_, f, k, src, aux, hr, hsrc, rfl, haux, hmax⟩
      · cases ho : cfg.overflowChecks
        · rfl
        · exact absurd hmax (hov ho)
      · show aux.frameCounter + 1 = 0
        rw [hmax]; decide
    · rw [hot i hi, hd] at hd'
      simp only [Option.some.injEq] at hd'
      subst hd'
      exact absurd hdec (UInt32.lt_irrefl _)
  · rw [C37_descriptors_unchanged cfg aead ht buf ctx lookup table dev
      (fun f k h hs => hacc ⟨f, k, h, hs⟩) i, hd] at hd'
    simp only [Option.some.injEq] at hd'
    subst hd'
    exact absurd hdec (UInt32.lt_irrefl _)

/-- **C36, C37** Reception never makes a device known or unknown. -/
theorem C37_same_devices {κ σ ι : Type} (cfg : Cfg) (aead : Aead κ) (ht : AeadTyped aead)
    (buf : List UInt8) (ctx : SerDesCtx κ) (lookup : DevLookup σ) (table : DeviceTable ι lookup) (dev : σ) (i : ι) :
    (table.get (Frame.tryReadAndUnsecure cfg aead buf ctx lookup dev).2.2.2 i).isSome = (table.get dev i).isSome := by
  by_cases hacc : ∃ f k, (Frame.tryReadAndUnsecure cfg aead buf ctx lookup dev).1 = .ok (f, k) ∧ Secured f.header
  · obtain ⟨f, k, hr, hs⟩ := hacc
    obtain ⟨sc, rfl⟩ := accept_ctx hr hs
    obtain ⟨src, aux, d₀, _, haux, hg, hle, hov, hst, hot⟩ :=
      C36_accept_stores cfg aead ht buf sc lookup table dev f k hr hs
    by_cases hi : i = table.identify src
    · subst hi; rw [hst, hg]; rfl
    · rw [hot i hi]
  · rw [C37_descriptors_unchanged cfg aead ht buf ctx lookup table dev
      (fun f k h hs => hacc ⟨f, k, h, hs⟩) i]

/-- **C36** An authentic frame with the greatest counter: with overflow checks the receiver panics,
without it accepts and stores 0, so that every counter is fresh again. -/
theorem C36_wrap {κ σ : Type} (cfg : Cfg) (aead : Aead κ) (ht : AeadTyped aead) (buf : List UInt8)
    (sc : SecCtx κ) (lookup : DevLookup σ) (dev : σ) (x : Incoming κ σ) (body tag payload : List UInt8)
    (hx : PassesChecks cfg sc lookup dev buf x) (hv : Verifies aead buf x body tag payload)
    (hmax : x.aux.frameCounter = maxCounter) :
    (cfg.overflowChecks = true →
      (Frame.tryReadAndUnsecure cfg aead buf ⟨.none, some sc⟩ lookup dev).1 = .panic) ∧
    (cfg.overflowChecks = false →
      (Frame.tryReadAndUnsecure cfg aead buf ⟨.none, some sc⟩ lookup dev).1 =
        .ok (⟨x.header, .data, payload, (0, 0)⟩, x.headLength + payload.length) ∧
      (Frame.tryReadAndUnsecure cfg aead buf ⟨.none, some sc⟩ lookup dev).2.2.2 =
        x.store { x.device with frameCounter := 0 }) := by
  have htl := hv.tagLength
  have hlen : (body ++ tag).length - tagLength x.level = body.length := by simp; omega
  rw [Frame.receive_passed cfg ht buf sc lookup dev hx]
  simp only [hv.split, hlen, List.take_left, List.drop_left, hv.verifies]
  rw [if_neg (by simp; omega)]
  constructor
  · intro ho; rw [if_pos ⟨hmax, ho⟩]
  · intro ho
    rw [if_neg (by simp [ho])]
    refine ⟨rfl, ?_⟩
    show x.store { x.device with frameCounter := x.aux.frameCounter + 1 } = _
    rw [hmax]; rfl

/-- Witness: the sample frame with counter 0xFFFFFFFF. -/
example : (Frame.tryReadAndUnsecure sampleCfg sampleAead
    (sampleReceived.take 16 ++ [0xFF, 0xFF, 0xFF, 0xFF] ++ sampleReceived.drop 20)
    ⟨.none, some sampleSender⟩ sampleLookup ⟨3, false⟩).2.2.2 = ⟨0, false⟩ ∧
    (Frame.tryReadAndUnsecure { sampleCfg with overflowChecks := true } sampleAead
    (sampleReceived.take 16 ++ [0xFF, 0xFF, 0xFF, 0xFF] ++ sampleReceived.drop 20)
    ⟨.none, some sampleSender⟩ sampleLookup ⟨3, false⟩).1 = .panic := by decide +kernel

/-! ## C39 The header is not authenticated -/

/-- **C39** Two frames with the same source, key identifier, counter, level and trailing octets are
treated alike, whatever else their headers say (sequence number, destination, flags, version 2006
or later, key-id mode bits): the same verdict, the same payload, the same device state. -/
theorem C39_header_unauthenticated {κ σ : Type} (cfg : Cfg) (aead : Aead κ) (ht : AeadTyped aead)
    (buf₁ buf₂ : List UInt8) (sc : SecCtx κ) (lookup : DevLookup σ) (dev : σ) (x : Incoming κ σ)
    (hx : PassesChecks cfg sc lookup dev buf₁ x) (h₂ : Header) (n₂ : Nat) (aux₂ : AuxHeader)
    (hr₂ : Header.tryRead cfg buf₂ = .ok (h₂, n₂)) (hdata : h₂.frameType = .data)
    (hver : h₂.version ≠ .ieee802154_2003) (haux : h₂.auxSec = some aux₂)
    (hlevel : aux₂.control.securityLevel = x.level) (hcounter : aux₂.frameCounter = x.aux.frameCounter)
    (hkeyid : aux₂.keyIdentifier = x.aux.keyIdentifier) (hsource : h₂.source = some x.source)
    (hrest : buf₂.drop n₂ = buf₁.drop x.headLength) :
    (∀ payload k, (Frame.tryReadAndUnsecure cfg aead buf₁ ⟨.none, some sc⟩ lookup dev).1 =
        .ok (⟨x.header, .data, payload, (0, 0)⟩, k) →
      ∃ k', (Frame.tryReadAndUnsecure cfg aead buf₂ ⟨.none, some sc⟩ lookup dev).1 =
        .ok (⟨h₂, .data, payload, (0, 0)⟩, k')) ∧
    (∀ e, (Frame.tryReadAndUnsecure cfg aead buf₁ ⟨.none, some sc⟩ lookup dev).1 = .err e →
      (Frame.tryReadAndUnsecure cfg aead buf₂ ⟨.none, some sc⟩ lookup dev).1 = .err e) ∧
    (Frame.tryReadAndUnsecure cfg aead buf₂ ⟨.none, some sc⟩ lookup dev).2.2.2 =
      (Frame.tryReadAndUnsecure cfg aead buf₁ ⟨.none, some sc⟩ lookup dev).2.2.2 := by
  let y : Incoming κ σ := { x with header := h₂, headLength := n₂, aux := aux₂ }
  have hlv : y.level = x.level := hlevel
  have hy : PassesChecks cfg sc lookup dev buf₂ y := by
    refine ⟨hr₂, hdata, hver, haux, by rw [hlv]; exact hx.level, ?_, hsource, hx.device, hx.notExhausted, ?_⟩
    · show sc.keyProvider .src aux₂.keyIdentifier h₂.source = some (x.eui, x.key)
      rw [hkeyid, hsource, ← hx.source]; exact hx.key
    · show x.device.frameCounter ≤ aux₂.frameCounter
      rw [hcounter]; exact hx.fresh
  have hn : y.nonce = x.nonce := by
    show nonceOctets x.eui aux₂.frameCounter y.level = nonceOctets x.eui x.aux.frameCounter x.level
    rw [hlv, hcounter]
  have hadv : y.store y.advanced = x.store x.advanced := by
    show x.store { x.device with frameCounter := aux₂.frameCounter + 1 } = _
    rw [hcounter]; rfl
  have hdr : buf₂.drop y.headLength = buf₁.drop x.headLength := hrest
  have hkey : y.key = x.key := rfl
  have hfc : y.aux.frameCounter = x.aux.frameCounter := hcounter
  rw [Frame.receive_passed cfg ht buf₁ sc lookup dev hx, Frame.receive_passed cfg ht buf₂ sc lookup dev hy]
  simp only [hdr, hlv, hn, hkey, hfc, hadv]
  by_cases h1 : (buf₁.drop x.headLength).length < tagLength x.level
  · simp only [if_pos h1]
    exact ⟨by simp, by simp, rfl⟩
  · simp only [if_neg h1]
    cases hu : unprotect aead x.level x.key x.nonce
      ((buf₁.drop x.headLength).take ((buf₁.drop x.headLength).length - tagLength x.level))
      ((buf₁.drop x.headLength).drop ((buf₁.drop x.headLength).length - tagLength x.level)) with
    | none => exact ⟨by simp, by simp, rfl⟩
    | some p =>
      simp only
      by_cases h2 : x.aux.frameCounter = maxCounter ∧ cfg.overflowChecks = true
      · simp only [if_pos h2]
        exact ⟨by simp, by simp, rfl⟩
      · simp only [if_neg h2]
        refine ⟨?_, by simp, trivial⟩
        intro payload k hk
        simp only [Out.ok.injEq, Prod.mk.injEq, Frame.mk.injEq, true_and, and_true] at hk
        obtain ⟨rfl, _⟩ := hk
        exact ⟨_, rfl⟩

/-- Witness: the sample frame with another sequence number, destination and ack request. -/
example : ((Frame.tryReadAndUnsecure sampleCfg sampleAead
    ([0x79, 0xD8, 0x4E, 0x34, 0x12, 0xFF, 0xFF] ++ sampleReceived.drop 7)
    ⟨.none, some sampleSender⟩ sampleLookup ⟨3, false⟩).1.holds fun (f, _) =>
      f.payload = [0xde, 0xf0] ∧ f.header.seq = 0x4E) := by decide +kernel

/-! ## C43 Panics -/

/-- **C43** Without explicit footer and with a context, reading panics exactly when every check
before decryption passes and either fewer octets than the tag remain, or, with overflow checks, the
frame is authentic and its counter is the greatest. -/
theorem C43_panic_iff {κ σ : Type} (cfg : Cfg) (aead : Aead κ) (ht : AeadTyped aead) (buf : List UInt8)
    (sc : SecCtx κ) (lookup : DevLookup σ) (dev : σ) :
    (Frame.tryReadAndUnsecure cfg aead buf ⟨.none, some sc⟩ lookup dev).1 = .panic ↔
      ∃ x, PassesChecks cfg sc lookup dev buf x ∧
        (buf.length < x.headLength + tagLength x.level ∨
          (cfg.overflowChecks = true ∧ x.aux.frameCounter = maxCounter ∧
            ∃ body tag payload, Verifies aead buf x body tag payload)) := by
  constructor
  · intro hp
    rcases Frame.receive_cases cfg ht buf sc lookup dev with ⟨x, hx⟩ | ⟨e, d, he, _⟩ | ⟨h, n, c, m, _, _, hu⟩
    · refine ⟨x, hx, ?_⟩
      have hb := (Frame.headReadable_bound (data_head hx.read hx.data)).2
      rw [Frame.receive_passed cfg ht buf sc lookup dev hx] at hp
      simp only at hp
      split at hp
      · rename_i h1
        simp only [List.length_drop] at h1
        exact .inl (by omega)
      · rename_i h1
        split at hp
        · simp at hp
        · rename_i payload hu
          split at hp
          · rename_i h2
            refine .inr ⟨h2.2, h2.1, _, _, payload, (List.take_append_drop _ _).symm, ?_, hu⟩
            rw [List.length_drop]; omega
          · simp at hp
    · rw [he] at hp; simp at hp
    · rw [hu] at hp; simp at hp
  · rintro ⟨x, hx, h | ⟨ho, hm, body, tag, payload, hv⟩⟩
    · rw [Frame.receive_passed cfg ht buf sc lookup dev hx]
      simp only
      rw [if_pos (by simp only [List.length_drop]; have := (Frame.headReadable_bound (data_head hx.read hx.data)).2; omega)]
    · exact (C36_wrap cfg aead ht buf sc lookup dev x body tag payload hx hv hm).1 ho

/-- **C43** With explicit footer and a context, reading panics exactly on readable secured frames. -/
theorem C43_explicit_panic_iff {κ σ : Type} (cfg : Cfg) (aead : Aead κ) (buf : List UInt8)
    (sc : SecCtx κ) (lookup : DevLookup σ) (dev : σ) :
    (Frame.tryReadAndUnsecure cfg aead buf ⟨.explicit, some sc⟩ lookup dev).1 = .panic ↔
      ∃ h n c m, HeadReadable cfg buf h n c m ∧ Secured h := by
  constructor
  · intro hp
    by_cases hh : ∃ h n c m, HeadReadable cfg buf h n c m
    · obtain ⟨h, n, c, m, hd⟩ := hh
      cases ha : h.auxSec with
      | none => rw [Frame.receive_unsecured cfg aead buf _ lookup dev hd ha] at hp; simp at hp
      | some aux => exact ⟨h, n, c, m, hd, by simp [Secured, ha]⟩
    · obtain ⟨e, he⟩ := Frame.receive_bad_head cfg aead buf ⟨.explicit, some sc⟩ lookup dev
        (fun h n c m hd => hh ⟨h, n, c, m, hd⟩)
      rw [he] at hp; simp at hp
  · rintro ⟨h, n, c, m, hd, hs⟩
    rw [Frame.receive_explicit cfg aead buf sc lookup dev hd hs]

/-- **C43** Without context reading never panics, in either footer mode. -/
theorem C43_no_context {κ σ : Type} (cfg : Cfg) (aead : Aead κ) (buf : List UInt8) (mode : FooterMode)
    (lookup : DevLookup σ) (dev : σ) :
    (Frame.tryReadAndUnsecure cfg aead buf ⟨mode, none⟩ lookup dev).1 ≠ .panic := by
  by_cases hh : ∃ h n c m, HeadReadable cfg buf h n c m
  · obtain ⟨h, n, c, m, hd⟩ := hh
    cases ha : h.auxSec with
    | none => rw [Frame.receive_unsecured cfg aead buf _ lookup dev hd ha]; simp
    | some aux => rw [Frame.receive_no_context cfg aead buf mode lookup dev hd (by rw [ha]; rfl)]; simp
  · obtain ⟨e, he⟩ := Frame.receive_bad_head cfg aead buf ⟨mode, none⟩ lookup dev
      (fun h n c m hd => hh ⟨h, n, c, m, hd⟩)
    rw [he]; simp

/-- Witness: a frame cut short in its tag makes the receiver panic, in both profiles. -/
example : (Frame.tryReadAndUnsecure sampleCfg sampleAead (sampleReceived.take 28)
      ⟨.none, some sampleSender⟩ sampleLookup ⟨3, false⟩).1 = .panic ∧
    (Frame.tryReadAndUnsecure { sampleCfg with overflowChecks := true } sampleAead (sampleReceived.take 28)
      ⟨.none, some sampleSender⟩ sampleLookup ⟨3, false⟩).1 = .panic := by decide +kernel

/-! ## C45–C47 -/

/-- **C45** A slice that is not a secured frame is read as by the plain reader without footer,
whatever context and footer mode, and nothing changes. -/
theorem C45_unsecured_alike {κ σ : Type} (cfg : Cfg) (aead : Aead κ) (buf : List UInt8)
    (hfit : SliceFits cfg buf) (ctx : SerDesCtx κ) (lookup : DevLookup σ) (dev : σ)
    (hns : ∀ h n c m, HeadReadable cfg buf h n c m → ¬ Secured h) :
    Frame.tryReadAndUnsecure cfg aead buf ctx lookup dev =
      ((Frame.tryRead cfg .none buf).mapErr SecErr.writeError, buf, ctx, dev) := by
  rw [Frame.tryRead_eq cfg .none buf hfit]
  by_cases hh : ∃ h n c m, HeadReadable cfg buf h n c m
  · obtain ⟨h, n, c, m, hd⟩ := hh
    have ha : h.auxSec = none := by
      have := hns h n c m hd
      unfold Secured at this
      cases h1 : h.auxSec
      · rfl
      · rw [h1] at this; exact absurd rfl this
    rw [Frame.receive_unsecured cfg aead buf _ lookup dev hd ha, Frame.readHead_ok.2 ⟨n, m, hd, rfl⟩]
    simp [Out.bind, Frame.tailVerdict, ha, Out.mapErr]
  · unfold Frame.tryReadAndUnsecure
    cases hr : Frame.readHead cfg buf 0 with
    | ok y =>
      obtain ⟨⟨h, c⟩, off⟩ := y
      obtain ⟨n, m, hd, rfl⟩ := Frame.readHead_ok.1 hr
      exact absurd ⟨h, n, c, m, hd⟩ hh
    | err e => rfl
    | panic => exact absurd hr (Frame.readHead_no_panic cfg buf)

/-- **C45** A secured frame without context gives `InvalidSecContext`; nothing changes. -/
theorem C45_no_context {κ σ : Type} (cfg : Cfg) (aead : Aead κ) (buf : List UInt8) (mode : FooterMode)
    (lookup : DevLookup σ) (dev : σ) (h : Header) (n : Nat) (c : FrameContent) (m : Nat)
    (hd : HeadReadable cfg buf h n c m) (hs : Secured h) :
    Frame.tryReadAndUnsecure cfg aead buf ⟨mode, none⟩ lookup dev =
      (.err .invalidSecContext, buf, ⟨mode, none⟩, dev) :=
  Frame.receive_no_context cfg aead buf mode lookup dev hd hs

example : (∃ h c, HeadReadable sampleCfg sampleReceived h 25 c 0 ∧ Secured h) :=
  ⟨_, _, data_head sampleIncoming_passes.read rfl, rfl⟩

/-- **C46** (reception) The refusals in the order they are made; buffer and context never change, and
the device state at most by looking up. -/
theorem C46_read_refusals {κ σ : Type} (cfg : Cfg) (aead : Aead κ) (ht : AeadTyped aead) (buf : List UInt8)
    (sc : SecCtx κ) (lookup : DevLookup σ) (dev : σ) (h : Header) (n : Nat) (c : FrameContent) (m : Nat)
    (hd : HeadReadable cfg buf h n c m) (aux : AuxHeader) (ha : h.auxSec = some aux) :
    let r := Frame.tryReadAndUnsecure cfg aead buf ⟨.none, some sc⟩ lookup dev
    let refuse (e : SecErr) (d : σ) : Prop := r = (.err e, buf, ⟨.none, some sc⟩, d)
    (h.frameType ≠ .data → refuse .notImplemented dev) ∧
    (h.frameType = .data → h.version = .ieee802154_2003 → refuse .unsupportedLegacy dev) ∧
    (h.frameType = .data → h.version ≠ .ieee802154_2003 → aux.control.securityLevel = .none →
      refuse .unsupportedSecurity dev) ∧
    (h.frameType = .data → h.version ≠ .ieee802154_2003 → aux.control.securityLevel ≠ .none →
      sc.keyProvider .src aux.keyIdentifier h.source = none → refuse .unavailableKey dev) ∧
    (h.frameType = .data → h.version ≠ .ieee802154_2003 → aux.control.securityLevel ≠ .none →
      (sc.keyProvider .src aux.keyIdentifier h.source).isSome = true →
      (h.source = none → refuse .noSourceAddress dev) ∧
      ∀ src, h.source = some src →
        ((lookup dev .src src).2 = none → refuse .unavailableDevice (lookup dev .src src).1) ∧
        ∀ d store, (lookup dev .src src).2 = some (d, store) →
          (d.frameCounter = maxCounter ∨ aux.frameCounter < d.frameCounter →
            refuse .counterError (lookup dev .src src).1) ∧
          (¬ (d.frameCounter = maxCounter ∨ aux.frameCounter < d.frameCounter) →
            aux.control.securityLevel = .enc → refuse .notImplemented (lookup dev .src src).1)) := by
  simp only
  rw [Frame.receive_secured cfg ht buf sc lookup dev hd ha]
  refine ⟨?_, ?_, ?_, ?_, ?_⟩
  · intro h1; rw [if_pos h1]
  · intro h1 h2; rw [if_neg (by simpa using h1), if_pos h2]
  · intro h1 h2 h3
    rw [if_neg (by simpa using h1), if_neg h2]
    simp only [unsecureData, if_pos h3, Frame.receivedResult, List.take_append_drop]
  · intro h1 h2 h3 h4
    rw [if_neg (by simpa using h1), if_neg h2]
    simp only [unsecureData, if_neg h3, h4, Frame.receivedResult, List.take_append_drop]
  · intro h1 h2 h3 h4
    rw [if_neg (by simpa using h1), if_neg h2]
    obtain ⟨⟨eui, key⟩, hk⟩ := Option.isSome_iff_exists.1 h4
    refine ⟨?_, ?_⟩
    · intro hs
      rw [hs] at hk
      simp only [unsecureData, if_neg h3, hs, hk, Frame.receivedResult, List.take_append_drop]
    · intro src hs
      rw [hs] at hk
      rcases hlk : lookup dev .src src with ⟨dev1, _ | ⟨d, store⟩⟩
      · refine ⟨fun _ => ?_, by simp⟩
        simp only [unsecureData, if_neg h3, hs, hk, hlk, Frame.receivedResult, List.take_append_drop]
      · refine ⟨by simp, ?_⟩
        intro d' store' hds
        simp only [Option.some.injEq, Prod.mk.injEq] at hds
        obtain ⟨rfl, rfl⟩ := hds
        refine ⟨fun hc => ?_, fun hc he => ?_⟩
        · simp only [unsecureData, if_neg h3, hs, hk, hlk, if_pos hc, Frame.receivedResult,
            List.take_append_drop]
        · simp only [unsecureData, if_neg h3, hs, hk, hlk, if_neg hc, if_pos he, Frame.receivedResult,
            List.take_append_drop]

/-- **C42** (reception) No frame at level None or ENC is ever accepted, by any receiver. -/
theorem C42_never_accepted {κ σ : Type} (cfg : Cfg) (aead : Aead κ) (ht : AeadTyped aead) (buf : List UInt8)
    (sc : SecCtx κ) (lookup : DevLookup σ) (dev : σ) (f : Frame) (k : Nat)
    (hr : (Frame.tryReadAndUnsecure cfg aead buf ⟨.none, some sc⟩ lookup dev).1 = .ok (f, k))
    (aux : AuxHeader) (ha : f.header.auxSec = some aux) :
    aux.control.securityLevel ≠ .none ∧ aux.control.securityLevel ≠ .enc ∧
    f.header.frameType = .data ∧ f.header.version ≠ .ieee802154_2003 := by
  obtain ⟨x, _, _, _, hx, _, _, rfl, _⟩ :=
    (C38_accept_iff cfg aead ht buf (Frame.tryReadAndUnsecure cfg aead buf ⟨.none, some sc⟩ lookup dev).2.1
      sc lookup dev (Frame.tryReadAndUnsecure cfg aead buf ⟨.none, some sc⟩ lookup dev).2.2.2 f k
      (Frame.tryReadAndUnsecure cfg aead buf ⟨.none, some sc⟩ lookup dev).2.2.1).1
      ⟨by rw [← hr], by simp [Secured, ha]⟩
  have : x.aux = aux := by
    have := hx.aux.symm.trans ha
    simpa using this
  subst this
  have hl := hx.level
  refine ⟨?_, ?_, hx.data, hx.version⟩
  · intro h; unfold Incoming.level at hl; rw [h] at hl; simp [Authenticating, MicOnly, EncMic] at hl
  · intro h; unfold Incoming.level at hl; rw [h] at hl; simp [Authenticating, MicOnly, EncMic] at hl

/-- **C47** (reception) With the no-security context, or with any key lookup that knows no key, no
secured frame is ever accepted; nor with the no-security device lookup. -/
theorem C47_no_security_read {κ σ : Type} (cfg : Cfg) (aead : Aead κ) (ht : AeadTyped aead) (buf : List UInt8)
    (sc : SecCtx κ) (lookup : DevLookup σ) (dev : σ)
    (hno : sc.keyProvider = unimplementedKeyLookup ∨ lookup = unimplementedDevLookup)
    (f : Frame) (k : Nat)
    (hr : (Frame.tryReadAndUnsecure cfg aead buf ⟨.none, some sc⟩ lookup dev).1 = .ok (f, k)) :
    ¬ Secured f.header := by
  intro hs
  obtain ⟨x, _, _, _, hx, _⟩ :=
    (C38_accept_iff cfg aead ht buf (Frame.tryReadAndUnsecure cfg aead buf ⟨.none, some sc⟩ lookup dev).2.1
      sc lookup dev (Frame.tryReadAndUnsecure cfg aead buf ⟨.none, some sc⟩ lookup dev).2.2.2 f k
      (Frame.tryReadAndUnsecure cfg aead buf ⟨.none, some sc⟩ lookup dev).2.2.1).1 ⟨by rw [← hr], hs⟩
  rcases hno with h | h
  · have := hx.key
    rw [h] at this
    simp [unimplementedKeyLookup] at this
  · have := hx.device
    rw [h] at this
    simp [unimplementedDevLookup] at this

example : (Frame.tryReadAndUnsecure sampleCfg sampleAead sampleReceived ⟨.none, some SecCtx.noSecurity⟩
    sampleLookup ⟨3, false⟩).1 = .err .unavailableKey ∧
    (Frame.tryReadAndUnsecure sampleCfg sampleAead sampleReceived ⟨.none, some sampleSender⟩
    unimplementedDevLookup ()).1 = .err .unavailableDevice := by decide +kernel

end Verif
