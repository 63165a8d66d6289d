import Verif.Spec.HostSpec
import Verif.Props.Accounts

/-!
# Sizes, and hosts of different byte order: C60, C61
-/

namespace Verif
open Spec

/-! ## C60 Sizes -/

theorem dstOctets_length_le (a : Option Address) : (dstOctets a).length ≤ 10 := by
  rcases a with _ | ⟨p, a⟩ | ⟨p, a⟩ <;> simp [dstOctets, fullAddrOctets, addrOctets]

theorem srcOctets_length_le (c : Bool) (a : Option Address) : (srcOctets c a).length ≤ 10 := by
  rcases a with _ | ⟨p, a⟩ | ⟨p, a⟩ <;> cases c <;> simp [srcOctets, fullAddrOctets, addrOctets]

theorem auxLength_bounds (k : Option KeyIdentifier) : 5 ≤ auxLength k ∧ auxLength k ≤ 14 := by
  rcases k with _ | ⟨_ | ⟨s⟩ | ⟨s⟩, i⟩ <;> simp [auxLength]

theorem flatMap_length {α β : Type} (l : List α) (f : α → List β) (k : Nat) (h : ∀ a, (f a).length = k) :
    (l.flatMap f).length = l.length * k := by
  induction l with
  | nil => simp
  | cons a l ih => simp [ih, h, Nat.succ_mul, Nat.add_comm]

/-- **C60** Whatever is written successfully, no header takes less than 3 or more than 37 octets, no
auxiliary header less than 5 or more than 14, no beacon (built from API values) less than 4 or more
than 96, no command less than 1 or more than 9. -/
theorem C60_sizes {κ : Type} (cfg : Cfg) (buf buf' : List UInt8) (n : Nat) :
    (∀ (h : Header) (ctx : Option (SecCtx κ)), h.tryWrite cfg ctx buf = (.ok n, buf') → 3 ≤ n ∧ n ≤ 37) ∧
    (∀ (a : AuxHeader) (ctx : SecCtx κ), a.tryWrite cfg ctx buf = (.ok n, buf') → 5 ≤ n ∧ n ≤ 14) ∧
    (∀ b : Beacon, BeaconFromApi b → b.tryWrite buf = (.ok n, buf') → 4 ≤ n ∧ n ≤ 96) ∧
    (∀ c : Command, c.tryWrite buf = (.ok n, buf') → 1 ≤ n ∧ n ≤ 9) := by
  have key : ∀ {w : TryWrite} {enc : List UInt8}, Encodes w enc → w buf = (.ok n, buf') → n = enc.length := by
    intro w enc he hw
    by_cases hl : enc.length ≤ buf.length
    · rw [he.fits buf hl] at hw
      simp only [Prod.mk.injEq, Out.ok.injEq] at hw
      exact hw.1.symm
    · obtain ⟨k, _, h⟩ := he.short buf (by omega)
      rw [h] at hw; cases hw
  refine ⟨?_, ?_, ?_, ?_⟩
  · intro h ctx hw
    by_cases he : Encodable h
    · by_cases hc : h.auxSec.isSome = true → ctx.isSome = true
      · have := key ((C11_encodes (κ := κ) cfg).1 h ctx he hc) hw
        have hd := dstOctets_length_le h.destination
        have hs := srcOctets_length_le h.panIdCompress h.source
        have ha : (auxAsWritten cfg (ctxCounter ctx) h.auxSec).length ≤ 14 := by
          cases h.auxSec with
          | none => simp [auxAsWritten]
          | some a =>
            show (auxOctets _ _ _ _ _ _).length ≤ 14
            rw [auxOctets_length]
            exact (auxLength_bounds _).2
        simp only [headerOctets, List.length_append, le_length, List.length_singleton] at this
        omega
      · have hs : h.auxSec.isSome = true := by
          apply Classical.byContradiction; intro hx; exact hc fun hy => absurd hy hx
        have hctx : ctx = none := by
          cases ctx with
          | none => rfl
          | some c => exact absurd (fun _ => rfl) hc
        subst hctx
        have hr := (C11_header_refusals (κ := κ) cfg h).2 he hs
        by_cases hl : (headerOctets h false false false []).length ≤ buf.length
        · rw [hr.fits buf hl] at hw; cases hw
        · obtain ⟨k, _, h⟩ := hr.short buf (by omega)
          rw [h] at hw; cases hw
    · have hr := (C11_header_refusals (κ := κ) cfg h).1 ctx he
      by_cases hl : (le 2 (frameControl h false false false) ++ [h.seq]).length ≤ buf.length
      · rw [hr.fits buf hl] at hw; cases hw
      · obtain ⟨k, _, h⟩ := hr.short buf (by omega)
        rw [h] at hw; cases hw
  · intro a ctx hw
    have := key ((C11_encodes (κ := κ) cfg).2.1 a ctx) hw
    rw [this]
    show 5 ≤ (auxOctets _ _ _ _ _ _).length ∧ (auxOctets _ _ _ _ _ _).length ≤ 14
    rw [auxOctets_length]
    exact auxLength_bounds _
  · intro b hb hw
    have := key ((C11_encodes (κ := κ) cfg).2.2.1 b hb) hw
    obtain ⟨hg, hp⟩ := hb.shape
    have h1 : ((activeSlots b.gtsInfo).flatMap slotOctets).length ≤ 21 := by
      rw [flatMap_length _ _ 3 (fun d => by simp [slotOctets])]
      have : (activeSlots b.gtsInfo).length ≤ 7 := by
        have := hg.1; simp [activeSlots]; omega
      omega
    have h2 : ((b.pendingAddress.shorts.toList.take b.pendingAddress.shortCount).flatMap
        (fun a => le 2 a.toNat)).length ≤ 14 := by
      rw [flatMap_length _ _ 2 (fun d => by simp)]
      have : (b.pendingAddress.shorts.toList.take b.pendingAddress.shortCount).length ≤ 7 := by simp; omega
      omega
    have h3 : ((b.pendingAddress.extendeds.toList.take b.pendingAddress.extendedCount).flatMap
        (fun a => le 8 a.toNat)).length ≤ 56 := by
      rw [flatMap_length _ _ 8 (fun d => by simp)]
      have : (b.pendingAddress.extendeds.toList.take b.pendingAddress.extendedCount).length ≤ 7 := by simp; omega
      omega
    have h4 : 1 ≤ (gtsOctets b.gtsInfo 0 0).length ∧ (gtsOctets b.gtsInfo 0 0).length ≤ 23 := by
      unfold gtsOctets
      split
      · simp
      · simp only [List.length_append, List.length_singleton]; omega
    simp only [beaconOctets, superframeOctets, pendingOctets, List.length_append, List.length_cons,
      List.length_nil] at this
    omega
  · intro c hw
    have := key ((C11_encodes (κ := κ) cfg).2.2.2.2.2.2.1 c) hw
    rw [this]
    cases c <;> simp [commandOctets]
    rename_i d
    cases d.channelPage <;> simp [pageOctets]

/-- **C60** Nothing limits an unsecured frame to what a radio can send: for every length there is a
longer one that is written. -/
theorem C60_unsecured_unlimited {κ : Type} (cfg : Cfg) (aead : Aead κ) (h : Header) (he : Encodable h)
    (hs : h.auxSec = none) (m : Nat) :
    ∃ (f : Frame) (n : Nat) (buf : List UInt8), f.header = h ∧ m < n ∧
      (f.tryWrite cfg aead ⟨.none, none⟩ buf).1 = .ok n := by
  refine ⟨⟨h, .data, List.replicate m 0, (0, 0)⟩,
    (plainFrameOctets .none ⟨h, .data, List.replicate m 0, (0, 0)⟩).length,
    plainFrameOctets .none ⟨h, .data, List.replicate m 0, (0, 0)⟩, rfl, ?_, ?_⟩
  · simp [plainFrameOctets, headerOctets]; omega
  · rw [C23_C24_plain_write cfg aead ⟨h, .data, List.replicate m 0, (0, 0)⟩ ⟨.none, none⟩ hs he trivial (.inl rfl) _ (Nat.le_refl _)]

/-- Witness: the bounds for headers are met. -/
example : (({ sampleHeader with
      panIdCompress := false
      destination := some (.extended 1 2), source := some (.extended 3 4)
      auxSec := some ⟨⟨.mic32, .none⟩, 0, some ⟨some (.long 5), 6⟩⟩ }).tryWrite sampleCfg (some sampleCtx)
      (List.replicate 40 0)).1 = .ok 37 := by decide +kernel

/-! ## C61 Hosts of different byte order -/

theorem bigValue_eq (l : List UInt8) : bigValue l = leToNat l.reverse := by
  have : ∀ (l : List UInt8) (a : Nat), l.foldl (fun a b => 256 * a + b.toNat) a =
      leToNat l.reverse + 256 ^ l.length * a := by
    intro l
    induction l with
    | nil => intro a; simp [leToNat]
    | cons b l ih =>
      intro a
      have happ : ∀ (x : List UInt8), leToNat (x ++ [b]) = leToNat x + 256 ^ x.length * b.toNat := by
        intro x
        induction x with
        | nil => simp [leToNat]
        | cons y x ihx =>
          simp only [List.cons_append, leToNat, ihx, List.length_cons, Nat.pow_succ, Nat.mul_add]
          rw [← Nat.mul_assoc, Nat.mul_comm 256 (256 ^ x.length)]
          omega
      simp only [List.foldl_cons, ih, List.reverse_cons, happ, List.length_reverse, List.length_cons,
        Nat.pow_succ, Nat.mul_add]
      rw [← Nat.mul_assoc]
      omega
  have := this l 0
  simpa [bigValue] using this

theorem le8_swap (v : UInt64) : (le 8 v.toNat).reverse = le 8 (swap64 v).toNat := by
  unfold swap64
  rw [bigValue_eq]
  have h := leToNat_lt (le 8 v.toNat).reverse
  simp only [List.length_reverse, le_length] at h
  rw [UInt64.toNat_ofNat', Nat.mod_eq_of_lt (by simpa using h)]
  have := le_leToNat (le 8 v.toNat).reverse
  simp only [List.length_reverse, le_length] at this
  exact this.symm

theorem keyIdentifier_across (w r : Endian) (k : Option KeyIdentifier) :
    keyIdentifierOctets w k = keyIdentifierOctets r (k.map (keyIdentifierAcross w r)) ∧
    keyIdModeOf k = keyIdModeOf (k.map (keyIdentifierAcross w r)) ∧
    keyModeCode k = keyModeCode (k.map (keyIdentifierAcross w r)) := by
  rcases k with _ | ⟨_ | ⟨s⟩ | ⟨s⟩, i⟩
  · exact ⟨rfl, rfl, rfl⟩
  · exact ⟨rfl, rfl, rfl⟩
  · refine ⟨?_, rfl, rfl⟩
    have h4 := le4_swap s
    cases w <;> cases r <;>
      simp [keyIdentifierOctets, keyIdentifierAcross, keySourceAcross, inOrder] at h4 ⊢ <;> simp [← h4]
  · refine ⟨?_, rfl, rfl⟩
    have h8 := le8_swap s
    cases w <;> cases r <;>
      simp [keyIdentifierOctets, keyIdentifierAcross, keySourceAcross, inOrder] at h8 ⊢ <;> simp [← h8]

theorem headerAcross_onWire (cfg rcfg : Cfg) (c : UInt32) (h : Header) (he : Encodable h) :
    HeaderOnWire rcfg (headerAcross cfg rcfg c h)
      (headerOctets h false false false (auxAsWritten cfg c h.auxSec)) := by
  obtain ⟨h1, b7, aux, h2, h3⟩ := Header.headerAsRead_onWire cfg c h he
  refine ⟨h1, b7, aux, ?_, ?_⟩
  · unfold AuxOnWire headerAcross
    unfold AuxOnWire headerAsRead at h2
    cases ha : h.auxSec with
    | none => rw [ha] at h2; exact h2
    | some a =>
      rw [ha] at h2
      obtain ⟨_, r, hr, h2⟩ := h2
      obtain ⟨k1, k2, k3⟩ := keyIdentifier_across cfg.native rcfg.native a.keyIdentifier
      refine ⟨k2, r, hr, ?_⟩
      simp only [auxAsRead] at h2
      rw [h2]
      simp only [auxOctets, ← k1, ← k3]
  · rw [h3]
    cases ha : h.auxSec <;> simp [headerOctets, frameControl, headerAcross, headerAsRead, ha]

/-- **C61** A header written by one host and read by another, of any byte orders: the counter read is
the one on the air, the key source has its octets reversed exactly when the byte orders differ, and
everything else is as between equal hosts. -/
theorem C61_header_across {κ : Type} (cfg rcfg : Cfg) (h : Header) (ctx : Option (SecCtx κ))
    (buf buf' : List UInt8) (n : Nat) (hw : h.tryWrite cfg ctx buf = (.ok n, buf')) (suffix : List UInt8) :
    Header.tryRead rcfg (buf'.take n ++ suffix) = .ok (headerAcross cfg rcfg (ctxCounter ctx) h, n) := by
  obtain ⟨he, _, _, hn, hb⟩ := Header.tryWrite_ok hw
  refine (Header.decodes rcfg _ _ _).2 ⟨_, suffix, ?_, headerAcross_onWire cfg rcfg _ h he, hn⟩
  rw [hb, hn]; simp

/-- **C61** Unsecured headers do not depend on the hosts. -/
theorem C61_unsecured_across (cfg rcfg : Cfg) (c : UInt32) (h : Header) (hs : h.auxSec = none) :
    headerAcross cfg rcfg c h = headerAsRead cfg c h := by
  simp [headerAcross, headerAsRead, hs]

/-- **C61** Reversed octets: a key source is found unchanged by a host of the other byte order exactly
when its octets are a palindrome. -/
theorem C61_key_source_across (w r : Endian) (hne : w ≠ r) :
    (∀ v, keySourceAcross w r (.short v) = .short v ↔ (le 4 v.toNat).reverse = le 4 v.toNat) ∧
    (∀ v, keySourceAcross w r (.long v) = .long v ↔ (le 8 v.toNat).reverse = le 8 v.toNat) := by
  constructor
  · intro v
    simp only [keySourceAcross, if_neg hne, KeySource.short.injEq, le4_swap]
    constructor
    · intro h; rw [h]
    · intro h
      exact UInt32.toNat_inj.1 (le_inj (swap32 v).toNat_lt v.toNat_lt h)
  · intro v
    simp only [keySourceAcross, if_neg hne, KeySource.long.injEq, le8_swap]
    constructor
    · intro h; rw [h]
    · intro h
      exact UInt64.toNat_inj.1 (le_inj (swap64 v).toNat_lt v.toNat_lt h)

/-- **C61** A secured data frame from one host at another is refused with `UnavailableKey` if the
receiver has no key for the key identifier as it finds it — whether or not it has the key the sender
used. -/
theorem C61_key_not_found {κ σ : Type} (cfg rcfg : Cfg) (aead : Aead κ) (ht : AeadTyped aead) (f : Frame)
    (aux : AuxHeader) (hf : SecuredData f aux) (hc : f.content = .data)
    (hl : Authenticating aux.control.securityLevel) (hv : f.header.version ≠ .ieee802154_2003)
    (sc : SecCtx κ) (buf buf' : List UInt8) (n : Nat) (ctx' : SerDesCtx κ)
    (hw : f.tryWrite cfg aead ⟨.none, some sc⟩ buf = (.ok n, buf', ctx'))
    (rc : SecCtx κ) (lookup : DevLookup σ) (dev : σ)
    (hk : rc.keyProvider .src (aux.keyIdentifier.map (keyIdentifierAcross cfg.native rcfg.native))
      (sourceAsRead f.header) = none) :
    Frame.tryReadAndUnsecure rcfg aead (buf'.take n) ⟨.none, some rc⟩ lookup dev =
      (.err .unavailableKey, buf'.take n, ⟨.none, some rc⟩, dev) := by
  obtain ⟨_, _, _, _, body, tag, _, _, hn, _, hb, _⟩ :=
    (C40_secured_write_iff cfg aead ht f aux hf hl sc buf buf' n ctx').1 hw
  have hhead : securedHead cfg sc.frameCounter f =
      headerOctets f.header false false false (auxAsWritten cfg sc.frameCounter f.header.auxSec) := by
    simp [securedHead, hc, contentOctets]
  have htake : buf'.take n = securedHead cfg sc.frameCounter f ++ (body ++ tag) := by
    rw [hb, hn]
    have : (securedHead cfg sc.frameCounter f).length + body.length + tag.length =
        (securedHead cfg sc.frameCounter f ++ body ++ tag).length := by simp; omega
    rw [this, List.take_left, List.append_assoc]
  have hread : Header.tryRead rcfg (buf'.take n) = .ok (headerAcross cfg rcfg sc.frameCounter f.header,
      (securedHead cfg sc.frameCounter f).length) := by
    rw [htake, hhead]
    exact (Header.decodes rcfg _ _ _).2 ⟨_, body ++ tag, rfl, headerAcross_onWire cfg rcfg _ _ hf.encodable, rfl⟩
  have hcont : FrameContent.tryRead (headerAcross cfg rcfg sc.frameCounter f.header)
      ((buf'.take n).drop (securedHead cfg sc.frameCounter f).length) = .ok (.data, 0) := by
    have : (headerAcross cfg rcfg sc.frameCounter f.header).frameType = .data := hf.data
    unfold FrameContent.tryRead
    rw [this]; rfl
  have haux : (headerAcross cfg rcfg sc.frameCounter f.header).auxSec = some
      ⟨⟨aux.control.securityLevel, keyIdModeOf aux.keyIdentifier⟩, counterOnAir cfg sc.frameCounter,
        aux.keyIdentifier.map (keyIdentifierAcross cfg.native rcfg.native)⟩ := by
    show Option.map _ f.header.auxSec = _
    rw [hf.aux]; rfl
  have hnone : aux.control.securityLevel ≠ .none := by
    intro h; rw [h] at hl; revert hl; decide
  have := C56_receiving_account rcfg aead ht (buf'.take n) rc lookup dev _ _ _ _ ⟨hread, hcont⟩ _ haux
  rw [this]
  unfold receivingAccount
  have h1 : (headerAcross cfg rcfg sc.frameCounter f.header).frameType = .data := hf.data
  have h2 : (headerAcross cfg rcfg sc.frameCounter f.header).version ≠ .ieee802154_2003 := hv
  have h3 : (headerAcross cfg rcfg sc.frameCounter f.header).source = sourceAsRead f.header := rfl
  simp only [h1, ne_eq, not_true, if_false, if_neg h2, if_neg hnone, h3, hk]

/-- **C61** A secured data frame from one host at another whose lookups know key and device for what it
finds there, at a device counter not above the counter found: it is accepted with `payload` exactly when
protecting `payload` under the receiver's key and the nonce of the counter *as found on the air* gives
the octets the sender got for its own payload under its own key and nonce. -/
theorem C61_accepted_across_iff {κ σ : Type} (cfg rcfg : Cfg) (aead : Aead κ) (hlaws : AeadLaws aead) (f : Frame)
    (aux : AuxHeader) (hf : SecuredData f aux) (hc : f.content = .data)
    (hl : Authenticating aux.control.securityLevel) (hv : f.header.version ≠ .ieee802154_2003)
    (sc : SecCtx κ) (buf buf' : List UInt8) (n : Nat) (ctx' : SerDesCtx κ)
    (hw : f.tryWrite cfg aead ⟨.none, some sc⟩ buf = (.ok n, buf', ctx'))
    (key : κ) (eui : UInt64)
    (hkey : sc.keyProvider .dst aux.keyIdentifier f.header.destination = some (eui, key))
    (rc : SecCtx κ) (lookup : DevLookup σ) (dev looked : σ) (src : Address) (d : DeviceDescriptor)
    (store : DeviceDescriptor → σ) (hsrc : sourceAsRead f.header = some src) (rkey : κ) (reui : UInt64)
    (hrkey : rc.keyProvider .src (aux.keyIdentifier.map (keyIdentifierAcross cfg.native rcfg.native)) (some src)
      = some (reui, rkey))
    (hdev : lookup dev .src src = (looked, some (d, store))) (hd : d.frameCounter ≠ maxCounter)
    (hfresh : d.frameCounter ≤ counterOnAir cfg sc.frameCounter)
    (hlast : counterOnAir cfg sc.frameCounter ≠ maxCounter) (payload : List UInt8) :
    (∃ g k, (Frame.tryReadAndUnsecure rcfg aead (buf'.take n) ⟨.none, some rc⟩ lookup dev).1 = .ok (g, k) ∧
      g.payload = payload) ↔
    protect aead aux.control.securityLevel rkey
      (nonceOctets reui (counterOnAir cfg sc.frameCounter) aux.control.securityLevel) payload =
    protect aead aux.control.securityLevel key
      (nonceOctets sc.euid sc.frameCounter aux.control.securityLevel) f.payload := by
  have ht := hlaws.toAeadTyped
  obtain ⟨_, _, eui', key', body, tag, hk, hp, hn, _, hb, _⟩ :=
    (C40_secured_write_iff cfg aead ht f aux hf hl sc buf buf' n ctx').1 hw
  rw [hkey] at hk
  simp only [Option.some.injEq, Prod.mk.injEq] at hk
  obtain ⟨rfl, rfl⟩ := hk
  rw [hp]
  have hhead : securedHead cfg sc.frameCounter f =
      headerOctets f.header false false false (auxAsWritten cfg sc.frameCounter f.header.auxSec) := by
    simp [securedHead, hc, contentOctets]
  have htake : buf'.take n = securedHead cfg sc.frameCounter f ++ (body ++ tag) := by
    rw [hb, hn]
    have : (securedHead cfg sc.frameCounter f).length + body.length + tag.length =
        (securedHead cfg sc.frameCounter f ++ body ++ tag).length := by simp; omega
    rw [this, List.take_left, List.append_assoc]
  have hread : Header.tryRead rcfg (buf'.take n) = .ok (headerAcross cfg rcfg sc.frameCounter f.header,
      (securedHead cfg sc.frameCounter f).length) := by
    rw [htake, hhead]
    exact (Header.decodes rcfg _ _ _).2 ⟨_, body ++ tag, rfl, headerAcross_onWire cfg rcfg _ _ hf.encodable, rfl⟩
  let xa : AuxHeader := ⟨⟨aux.control.securityLevel, keyIdModeOf aux.keyIdentifier⟩, counterOnAir cfg sc.frameCounter,
        aux.keyIdentifier.map (keyIdentifierAcross cfg.native rcfg.native)⟩
  have haux : (headerAcross cfg rcfg sc.frameCounter f.header).auxSec = some xa := by
    show Option.map _ f.header.auxSec = _
    rw [hf.aux]; rfl
  let x : Incoming κ σ := ⟨headerAcross cfg rcfg sc.frameCounter f.header, (securedHead cfg sc.frameCounter f).length,
    xa, reui, rkey, src, looked, d, store⟩
  have hx : PassesChecks rcfg rc lookup dev (buf'.take n) x := by
    refine ⟨hread, hf.data, hv, haux, hl, ?_, hsrc, hdev, hd, hfresh⟩
    show rc.keyProvider .src _ (sourceAsRead f.header) = _
    rw [hsrc]; exact hrkey
  have hdrop : (buf'.take n).drop x.headLength = body ++ tag := by
    rw [htake]; exact List.drop_left
  have huniq : ∀ y : Incoming κ σ, PassesChecks rcfg rc lookup dev (buf'.take n) y → y = x := by
    intro y hy
    obtain ⟨yh, yn, ya, ye, yk, ysrc, yl, yd, yst⟩ := y
    obtain ⟨y1, _, _, y4, _, y6, y7, y8, _, _⟩ := hy
    simp only at y1 y4 y6 y7 y8
    rw [hread] at y1
    simp only [Out.ok.injEq, Prod.mk.injEq] at y1
    obtain ⟨rfl, rfl⟩ := y1
    rw [haux] at y4
    cases Option.some.inj y4
    have hs' : (headerAcross cfg rcfg sc.frameCounter f.header).source = some src := hsrc
    rw [hs'] at y7 y6
    cases Option.some.inj y7
    rw [hrkey] at y6
    cases Option.some.inj y6
    rw [hdev] at y8
    cases y8
    rfl
  constructor
  · rintro ⟨g, k, hok, rfl⟩
    rcases hr : Frame.tryReadAndUnsecure rcfg aead (buf'.take n) ⟨.none, some rc⟩ lookup dev
      with ⟨r, out, c', dev'⟩
    rw [hr] at hok
    simp only at hok
    subst hok
    have hs : Secured g.header := by
      rcases Frame.receive_cases rcfg ht (buf'.take n) rc lookup dev with ⟨y, hy⟩ | ⟨e, dd, he, _⟩ | ⟨h, m, c, m', hh, ha, hu⟩
      · rw [Frame.receive_passed rcfg ht _ rc lookup dev hy] at hr
        have := huniq y hy
        subst this
        simp only at hr
        split at hr
        · simp at hr
        split at hr
        · simp at hr
        split at hr
        · simp at hr
        simp only [Prod.mk.injEq, Out.ok.injEq] at hr
        obtain ⟨⟨rfl, _⟩, _⟩ := hr
        show (headerAcross cfg rcfg sc.frameCounter f.header).auxSec.isSome = true
        rw [haux]; rfl
      · rw [he] at hr; simp at hr
      · rw [hu] at hr
        simp only [Prod.mk.injEq, Out.ok.injEq] at hr
        have := hh.1
        rw [hread] at this
        simp only [Out.ok.injEq, Prod.mk.injEq] at this
        rw [← this.1, haux] at ha
        cases ha
    obtain ⟨y, body', tag', payload, hy, hver, _, rfl, _⟩ :=
      (C38_accept_iff rcfg aead ht (buf'.take n) out rc lookup dev dev' g k c').1 ⟨hr, hs⟩
    have := huniq y hy
    subst this
    obtain ⟨h1, h2⟩ := (C38_verifies_iff aead hlaws _ _ _ _ _).1 hver
    rw [hdrop] at h1
    have hl1 := (protect_lengths ht h2).2
    have hl2 := (protect_lengths ht hp).2
    have hlv : x.level = aux.control.securityLevel := rfl
    obtain ⟨rfl, rfl⟩ := List.append_inj' h1 (by rw [hl1, hl2, hlv])
    exact h2
  · intro hpr
    have hver := (C38_verifies_iff aead hlaws (buf'.take n) x body tag payload).2 ⟨hdrop, hpr⟩
    have := (C38_accept_iff rcfg aead ht (buf'.take n) _ rc lookup dev _ _ _ _).2
      ⟨x, body, tag, payload, hx, hver, fun _ => hlast, rfl, rfl, rfl, rfl, rfl⟩
    exact ⟨_, _, congrArg Prod.fst this.1, rfl⟩

/-- **C61** So between any two hosts a frame arrives with its payload if its counter reads the same both
ways (or the sender is little-endian), the receiver's lookup gives the sender's address and key for the
key identifier as found, and its device counter is not above the frame's. -/
theorem C61_round_trip_across {κ σ : Type} (cfg rcfg : Cfg) (aead : Aead κ) (hlaws : AeadLaws aead) (f : Frame)
    (aux : AuxHeader) (hf : SecuredData f aux) (hc : f.content = .data)
    (hl : Authenticating aux.control.securityLevel) (hv : f.header.version ≠ .ieee802154_2003)
    (sc : SecCtx κ) (buf buf' : List UInt8) (n : Nat) (ctx' : SerDesCtx κ)
    (hw : f.tryWrite cfg aead ⟨.none, some sc⟩ buf = (.ok n, buf', ctx'))
    (hpal : cfg.native = .little ∨ le 4 sc.frameCounter.toNat = (le 4 sc.frameCounter.toNat).reverse)
    (key : κ) (eui : UInt64)
    (hkey : sc.keyProvider .dst aux.keyIdentifier f.header.destination = some (eui, key))
    (rc : SecCtx κ) (lookup : DevLookup σ) (dev looked : σ) (src : Address) (d : DeviceDescriptor)
    (store : DeviceDescriptor → σ) (hsrc : sourceAsRead f.header = some src)
    (hrkey : rc.keyProvider .src (aux.keyIdentifier.map (keyIdentifierAcross cfg.native rcfg.native)) (some src)
      = some (sc.euid, key))
    (hdev : lookup dev .src src = (looked, some (d, store))) (hfresh : d.frameCounter ≤ sc.frameCounter) :
    ∃ g k, (Frame.tryReadAndUnsecure rcfg aead (buf'.take n) ⟨.none, some rc⟩ lookup dev).1 = .ok (g, k) ∧
      g.payload = f.payload := by
  have hmax := ((C40_secured_write_iff cfg aead hlaws.toAeadTyped f aux hf hl sc buf buf' n ctx').1 hw).1
  have hair : counterOnAir cfg sc.frameCounter = sc.frameCounter := by
    rcases hpal with h | h
    · exact C33_little cfg h _
    · cases hn : cfg.native with
      | little => exact C33_little cfg hn _
      | big => exact (C33_big cfg hn _).2.1.2 h
  have hd : d.frameCounter ≠ maxCounter := by
    intro hd
    rw [hd] at hfresh
    apply hmax
    have h1 := sc.frameCounter.toNat_lt
    have h2 : maxCounter.toNat ≤ sc.frameCounter.toNat := UInt32.le_iff_toNat_le.1 hfresh
    apply UInt32.toNat_inj.1
    have : maxCounter.toNat = 4294967295 := rfl
    omega
  refine (C61_accepted_across_iff cfg rcfg aead hlaws f aux hf hc hl hv sc buf buf' n ctx' hw key eui hkey rc lookup
    dev looked src d store hsrc key sc.euid hrkey hdev hd (by rw [hair]; exact hfresh) (by rw [hair]; exact hmax)
    f.payload).2 (by rw [hair])

/-- Witness: a key source found reversed. -/
example : (headerAcross ⟨false, .w64, .big⟩ sampleCfg 7 { sampleHeader with
      auxSec := some ⟨⟨.mic32, .none⟩, 0, some ⟨some (.short 0x01020304), 6⟩⟩ }).auxSec =
    some ⟨⟨.mic32, .keySource4⟩, 0x07000000, some ⟨some (.short 0x04030201), 6⟩⟩ ∧
    swap64 0x0102030405060708 = 0x0807060504030201 := by decide +kernel

end Verif
