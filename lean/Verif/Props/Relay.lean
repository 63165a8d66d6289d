import Verif.Props.DecodeFrame
import Verif.Spec.RelaySpec

/-!
# C63: receiving a frame and sending it on
-/

namespace Verif
open Spec

theorem clearPending_octets (p : PendingAddress) (r3 r7 : Bool) (hs : p.shortCount ≤ 7)
    (he : p.extendedCount ≤ 7) : clearPending (pendingOctets p r3 r7) = pendingOctets p false false := by
  simp only [pendingOctets, List.cons_append, List.nil_append, clearPending]
  congr 1
  obtain ⟨s, _, e, _⟩ := p
  simp only at hs he
  revert r3 r7
  have : ∀ s ≤ 7, ∀ e ≤ 7, ∀ r3 r7,
    UInt8.ofNat ((UInt8.ofNat (s + 8 * bit r3 + 16 * e + 128 * bit r7)).toNat % 8 +
        (UInt8.ofNat (s + 8 * bit r3 + 16 * e + 128 * bit r7)).toNat / 16 % 8 * 16) =
      UInt8.ofNat (s + 8 * bit false + 16 * e + 128 * bit false) := by decide +kernel
  exact this s hs e he

theorem slots_length (l : List GtsDescriptor) : (l.flatMap slotOctets).length = 3 * l.length := by
  induction l with
  | nil => rfl
  | cons a l ih => simp only [List.flatMap_cons, List.length_append, ih, List.length_cons]; simp [slotOctets, le]; omega

theorem directionsValue_lt (l : List GtsDescriptor) : directionsValue l < 2 ^ l.length := by
  induction l with
  | nil => simp [directionsValue]
  | cons a l ih =>
    simp only [directionsValue, List.length_cons, Nat.pow_succ]
    split <;> omega

theorem activeSlots_length (g : GtsInfo) (h : g.slotCount ≤ 7) : (activeSlots g).length = g.slotCount := by
  simp [activeSlots]; omega

theorem clearGts_octets (g : GtsInfo) (r q : Nat) (hr : r < 16) (hq : q < 2 ^ (8 - g.slotCount))
    (hc : g.slotCount ≤ 7) (rest : List UInt8) :
    clearGts (gtsOctets g r q ++ rest) = gtsOctets g 0 0 ++ clearPending rest := by
  simp only [gtsOctets, List.cons_append, List.nil_append, clearGts]
  have hb : bit g.permit ≤ 1 := by unfold bit; split <;> omega
  have h0 : (UInt8.ofNat (g.slotCount + 8 * r + 128 * bit g.permit)).toNat
      = g.slotCount + 8 * r + 128 * bit g.permit := by
    rw [UInt8.toNat_ofNat_of_lt' (by simp [UInt8.size]; omega)]
  have hn : (g.slotCount + 8 * r + 128 * bit g.permit) % 8 = g.slotCount := by omega
  rw [h0, hn]
  congr 1
  · congr 1; omega
  · by_cases hz : g.slotCount = 0
    · simp [hz]
    · simp only [hz, if_false, List.cons_append]
      have hd := directionsValue_lt (activeSlots g)
      rw [activeSlots_length g hc] at hd
      have hp : 2 ^ g.slotCount * 2 ^ (8 - g.slotCount) = 256 := by
        rw [← Nat.pow_add, show g.slotCount + (8 - g.slotCount) = 8 by omega]
      have hlt : directionsValue (activeSlots g) + 2 ^ g.slotCount * q < 256 := by
        calc _ < 2 ^ g.slotCount + 2 ^ g.slotCount * q := by omega
          _ = 2 ^ g.slotCount * (q + 1) := by rw [Nat.mul_add]; omega
          _ ≤ 2 ^ g.slotCount * 2 ^ (8 - g.slotCount) := Nat.mul_le_mul_left _ hq
          _ = 256 := hp
      rw [UInt8.toNat_ofNat_of_lt' (by simpa [UInt8.size] using hlt), Nat.add_mul_mod_self_left,
        Nat.mod_eq_of_lt hd]
      have hl : 3 * g.slotCount = ((activeSlots g).flatMap slotOctets).length := by
        rw [slots_length, activeSlots_length g hc]
      rw [hl, List.take_left, List.drop_left]
      rfl

theorem clearSuperframe_octet (s : SuperframeSpec) (b13 : Bool) (rest : List UInt8) :
    clearBeacon (superframeOctets s b13 ++ rest) = superframeOctets s false ++ clearGts rest := by
  simp only [superframeOctets, List.cons_append, List.nil_append, clearBeacon]
  congr 2
  have hb : ∀ b, bit b ≤ 1 := fun b => by unfold bit; split <;> omega
  have h1 := hb b13
  have h2 := hb s.batteryLifeExtension
  have h3 := hb s.panCoordinator
  have h4 := hb s.associationPermit
  have h5 : s.finalCapSlot.toNat % 16 < 16 := Nat.mod_lt _ (by omega)
  rw [UInt8.toNat_ofNat_of_lt' (by simp [UInt8.size]; omega)]
  congr 1
  simp only [bit, Bool.false_eq_true, if_false]
  simp only [bit] at h1 h2 h3 h4
  omega

theorem clearBeacon_onWire {b : Beacon} {l : List UInt8} (h : BeaconOnWire b l) :
    clearBeacon l = beaconOctets b := by
  obtain ⟨l₁, l₂, l₃, rfl, ⟨hs, b13, rfl⟩, ⟨hg, _, _, _, r, hr, q, hq, rfl⟩, hp1, hp2, _, _, r3, r7, rfl⟩ := h
  rw [List.append_assoc, clearSuperframe_octet, clearGts_octets _ _ _ hr hq hg,
    clearPending_octets _ _ _ hp1 hp2, beaconOctets, List.append_assoc]

theorem clearCommand_onWire {c : Command} {l rest : List UInt8} (h : CommandOnWire c l rest) :
    clearCommand l = commandOctets c := by
  cases c with
  | associationRequest a =>
    obtain ⟨b0, b4, b5, rfl⟩ := h
    obtain ⟨x, y, z, u, v⟩ := a
    revert b0 b4 b5 x y z u v; decide +kernel
  | guaranteedTimeSlotRequest g =>
    obtain ⟨hc, r, hr, rfl⟩ := h
    obtain ⟨c, x, y⟩ := g
    have : ∀ c : UInt8, c.toNat ≤ 15 → ∀ r < 4, ∀ x y,
        clearCommand [9, UInt8.ofNat (characteristicsValue ⟨c, x, y⟩ + 64 * r)]
          = commandOctets (.guaranteedTimeSlotRequest ⟨c, x, y⟩) := by
      apply forall_u8; decide +kernel
    exact this c hc r hr x y
  | coordinatorRealignment d => obtain ⟨rfl, _⟩ := h; simp [commandOctets, clearCommand, le2_eq]
  | associationResponse a s => obtain rfl := h; simp [commandOctets, clearCommand, le2_eq]
  | disassociationNotification r => obtain rfl := h; simp [commandOctets, clearCommand]
  | _ => obtain rfl := h; rfl

theorem clearContent_onWire {t : FrameType} {c : FrameContent} {l rest : List UInt8}
    (h : ContentOnWire t c l rest) : clearContent t l = contentOctets c := by
  cases t with
  | beacon => obtain ⟨b, rfl, h⟩ := h; exact clearBeacon_onWire h
  | macCommand => obtain ⟨b, rfl, h⟩ := h; exact clearCommand_onWire h
  | _ => obtain ⟨rfl, rfl⟩ := h; rfl

theorem beaconOnWire_fromApi {b : Beacon} {l : List UInt8} (h : BeaconOnWire b l) : BeaconFromApi b :=
  .read (l ++ []) b l.length ((C51_beacon _ _ _).2 ⟨l, [], rfl, h, rfl⟩)

theorem contentOnWire_fromApi {t : FrameType} {c : FrameContent} {l rest : List UInt8}
    (h : ContentOnWire t c l rest) : ContentFromApi c := by
  cases t with
  | beacon => obtain ⟨b, rfl, h⟩ := h; exact beaconOnWire_fromApi h
  | macCommand => obtain ⟨b, rfl, h⟩ := h; trivial
  | _ => obtain ⟨rfl, rfl⟩ := h; trivial

theorem contentOnWire_matches {t : FrameType} {c : FrameContent} {l rest : List UInt8}
    (h : ContentOnWire t c l rest) : ContentMatches t c := by
  cases t with
  | beacon => obtain ⟨b, rfl, h⟩ := h; exact ⟨_, rfl⟩
  | macCommand => obtain ⟨b, rfl, h⟩ := h; exact ⟨_, rfl⟩
  | _ => obtain ⟨rfl, rfl⟩ := h; rfl

theorem contentOnWire_survives {t : FrameType} {c : FrameContent} {l rest : List UInt8}
    (h : ContentOnWire t c l rest) : ContentSurvives rest c := by
  cases t with
  | beacon =>
    obtain ⟨b, rfl, _, _, _, _, ⟨hs, _⟩, _⟩ := h; exact hs
  | macCommand =>
    obtain ⟨b, rfl, h⟩ := h
    cases b with
    | coordinatorRealignment d => exact ⟨trivial, fun hn => h.2 hn⟩
    | guaranteedTimeSlotRequest g => exact ⟨h.1, fun hn => False.elim hn⟩
    | _ => exact ⟨trivial, fun hn => False.elim hn⟩
  | _ => obtain ⟨rfl, rfl⟩ := h; trivial

theorem clearPending_length (l : List UInt8) : (clearPending l).length = l.length := by
  cases l <;> rfl

theorem clearGts_length (l : List UInt8) : (clearGts l).length = l.length := by
  cases l with
  | nil => rfl
  | cons g rest =>
    simp only [clearGts, List.length_cons]
    split
    · rw [clearPending_length]
    · cases rest with
      | nil => rfl
      | cons d rest =>
        simp only [List.length_cons, List.length_append, clearPending_length, List.length_take,
          List.length_drop]
        omega

theorem clearContent_length (t : FrameType) (l : List UInt8) : (clearContent t l).length = l.length := by
  cases t with
  | beacon =>
    simp only [clearContent]
    unfold clearBeacon
    split
    · simp only [List.length_cons, clearGts_length]
    · rfl
  | macCommand =>
    simp only [clearContent]
    unfold clearCommand
    split
    · split
      · rfl
      · split <;> rfl
    · rfl
  | _ => rfl

/-- **C63** A frame that was received and is written again (no security context, or no footer) puts
out as many octets as came in, the same ones up to the bits the crate does not represent: bits 7-9
of the frame control field and the reserved bits of the content are cleared. -/
theorem C63_relay {κ : Type} (cfg : Cfg) (aead : Aead κ) (ctx : SerDesCtx κ) (bytes : List UInt8)
    (hfit : SliceFits cfg bytes) (f : Frame) (k : Nat)
    (hr : Frame.tryRead cfg ctx.footerMode bytes = .ok (f, k)) (he : Encodable f.header)
    (hmode : ctx.securityCtx = none ∨ ctx.footerMode = .none) (buf : List UInt8)
    (hl : k ≤ buf.length) :
    ∃ hd ct, HeadReadable cfg bytes f.header hd.length f.content ct.length ∧
      bytes = hd ++ ct ++ f.payload ++ footerOctets ctx.footerMode f.footer ∧
      f.tryWrite cfg aead ctx buf = (.ok k,
        clear789 hd ++ clearContent f.header.frameType ct ++ f.payload
          ++ footerOctets ctx.footerMode f.footer ++ buf.drop k, ctx) ∧
      (clear789 hd).length = hd.length ∧ (clearContent f.header.frameType ct).length = ct.length := by
  obtain ⟨rfl, hs, hf, hd, ct, hb, hh, hc⟩ := (C62_frame cfg _ bytes hfit f k).1 hr
  have hd1 : Header.tryRead cfg bytes = .ok (f.header, hd.length) :=
    (C51_header cfg _ _ _).2 ⟨hd, _, by rw [hb]; simp only [List.append_assoc]; rfl, hh, rfl⟩
  have hd2 : FrameContent.tryRead f.header (bytes.drop hd.length) = .ok (f.content, ct.length) :=
    (C62_content _ _ _ _).2 ⟨ct, f.payload ++ footerOctets ctx.footerMode f.footer, by
      rw [hb]; simp only [List.append_assoc, List.drop_left], hc, rfl⟩
  have e1 : clear789 hd = headerOctets f.header false false false [] := by
    obtain ⟨_, b7, aux, haux, rfl⟩ := hh
    rw [hs] at haux
    obtain rfl : aux = [] := haux
    exact Header.clear789_octets ..
  have e2 := clearContent_onWire hc
  have l1 : (clear789 hd).length = hd.length := by
    unfold clear789; split <;> simp
  have l2 : (clearContent f.header.frameType ct).length = ct.length :=
    clearContent_length ..
  refine ⟨hd, ct, ⟨hd1, hd2⟩, hb, ?_, l1, l2⟩
  have e3 : plainFrameOctets ctx.footerMode f = clear789 hd ++ clearContent f.header.frameType ct
      ++ f.payload ++ footerOctets ctx.footerMode f.footer := by
    rw [e1, e2]; rfl
  have e4 : (plainFrameOctets ctx.footerMode f).length = bytes.length := by
    rw [e3, hb]; simp only [List.length_append, l1, l2]
  rw [C23_C24_plain_write cfg aead f ctx hs he (contentOnWire_fromApi hc) hmode buf (by omega), e4, e3]

/-- **C63** What was sent on reads as the frame received, up to the two header flags that are never
written, and sending that on again changes nothing more. -/
theorem C63_relay_stable {κ : Type} (cfg : Cfg) (aead : Aead κ) (ctx : SerDesCtx κ) (bytes : List UInt8)
    (hfit : SliceFits cfg bytes) (f : Frame) (k : Nat)
    (hr : Frame.tryRead cfg ctx.footerMode bytes = .ok (f, k)) (he : Encodable f.header)
    (hmode : ctx.securityCtx = none ∨ ctx.footerMode = .none) (buf : List UInt8)
    (hl : k ≤ buf.length) (hfit' : SliceFits cfg buf) :
    let f' := { f with header := { f.header with seqNoSuppress := false, iePresent := false } }
    ∃ buf', f.tryWrite cfg aead ctx buf = (.ok k, buf', ctx) ∧
      Frame.tryRead cfg ctx.footerMode (buf'.take k) = .ok (f', k) ∧
      f'.tryWrite cfg aead ctx buf = (.ok k, buf', ctx) := by
  obtain ⟨hd, ct, _, _, hw, _, _⟩ := C63_relay cfg aead ctx bytes hfit f k hr he hmode buf hl
  obtain ⟨rfl, hs, hf, hd', ct', hb, hh, hc⟩ := (C62_frame cfg _ bytes hfit f k).1 hr
  refine ⟨_, hw, ?_, ?_⟩
  · rw [(C23_C24_frame_round_trip cfg aead f ctx ctx buf _ _ hs hmode (contentOnWire_fromApi hc)
      (contentOnWire_matches hc) (contentOnWire_survives hc) hfit' hw).1]
    have e1 : footerAsRead ctx.footerMode f.footer = f.footer := by
      cases hm : ctx.footerMode with
      | none => rw [hf hm]; rfl
      | explicit => rfl
    have e2 : headerAsRead cfg 0 f.header =
        { f.header with seqNoSuppress := false, iePresent := false } := by
      have : sourceAsRead f.header = f.header.source := by
        unfold sourceAsRead
        split
        · rename_i d s hc hd hs
          have := ((hh.1 hc).2 d s hd hs).symm
          rw [hs, this]; cases s <;> rfl
        · rfl
      simp only [headerAsRead, this, hs, Option.map_none]
    rw [e1, e2]
  · rw [← hw]
    have hp : plainFrameOctets ctx.footerMode
        { f with header := { f.header with seqNoSuppress := false, iePresent := false } } =
        plainFrameOctets ctx.footerMode f := rfl
    have hlen : (plainFrameOctets ctx.footerMode f).length ≤ buf.length := by
      have h2 := (Frame.tryWrite_plain cfg aead f ctx hs he (contentOnWire_fromApi hc) hmode buf).2
      apply Classical.byContradiction
      intro hn
      obtain ⟨k, _, hk⟩ := h2 (by omega)
      rw [hk] at hw
      cases hw
    rw [C23_C24_plain_write cfg aead f ctx hs he (contentOnWire_fromApi hc) hmode buf hlen,
      C23_C24_plain_write cfg aead { f with header := { f.header with seqNoSuppress := false, iePresent := false } }
        ctx hs he (contentOnWire_fromApi hc) hmode buf hlen, hp]

/-- **C63** The only received frames that cannot be sent on are those with compression and no source
address. -/
theorem C63_refused_iff (cfg : Cfg) (mode : FooterMode) (bytes : List UInt8) (hfit : SliceFits cfg bytes)
    (f : Frame) (k : Nat) (hr : Frame.tryRead cfg mode bytes = .ok (f, k)) :
    ¬ Encodable f.header ↔ f.header.panIdCompress = true ∧ f.header.source = none := by
  obtain ⟨_, _, _, n, m, ⟨h1, _⟩, _⟩ := C26_accounts cfg mode bytes hfit f k hr
  exact C08_refused_iff cfg bytes _ _ h1

/-- A beacon frame with every reserved bit set, and what becomes of it. -/
example :
    ∃ f : Frame, Frame.tryRead sampleCfg .none [0x80, 0x83, 9, 0x34, 0x12, 0x78, 0x56,
        0x5F, 0xFF, 0x79, 0xFF, 1, 2, 0x43, 0x88, 0xAA] = .ok (f, 16) ∧ Encodable f.header ∧
      clear789 [0x80, 0x83, 9, 0x34, 0x12, 0x78, 0x56] = [0, 0x80, 9, 0x34, 0x12, 0x78, 0x56] ∧
      clearContent f.header.frameType [0x5F, 0xFF, 0x79, 0xFF, 1, 2, 0x43, 0x88] =
        [0x5F, 0xDF, 1, 1, 1, 2, 0x43, 0] ∧ f.payload = [0xAA] :=
  ⟨⟨⟨.beacon, false, false, false, true, true, .ieee802154_2003, 9, none, some (.short 0x1234 0x5678), none⟩,
    .beacon ⟨⟨.onDemand, .superframeOrder 5, 15, true, true, true⟩,
      ⟨false, 1, #v[⟨0x0201, 3, 4, .transmit⟩, .new, .new, .new, .new, .new, .new]⟩, .new⟩, [0xAA], (0, 0)⟩,
    by decide, by decide, by decide, by decide, rfl⟩

end Verif
