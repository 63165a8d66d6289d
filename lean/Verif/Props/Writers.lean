import Verif.Lemmas.SecureWrite
import Verif.Props.Frame

/-!
# Properties of writers: C10, C11, C48

`Contained` and `Encodes` (in `Verif/Spec/WriterSpec.lean`) say what a writer may do to the buffer
it is given; they do not mention how writers are built.
-/

namespace Verif
open Spec

/-- **C10** Every writer of the crate keeps the buffer's length and, on success, everything behind
the octets it reports — for any value, also ones that are refused or make it panic.  For frames
the in-place cipher must not change a slice's length, which Rust's types guarantee. -/
theorem C10_contained {κ : Type} (cfg : Cfg) (aead : Aead κ) (haead : AeadTyped aead) :
    (∀ (h : Header) (ctx : Option (SecCtx κ)), Contained (h.tryWrite cfg ctx)) ∧
    (∀ (a : AuxHeader) (ctx : SecCtx κ), Contained (a.tryWrite cfg ctx)) ∧
    (∀ b : Beacon, Contained b.tryWrite) ∧
    (∀ s : SuperframeSpec, Contained s.tryWrite) ∧
    (∀ g : GtsInfo, Contained g.tryWrite) ∧
    (∀ g : GtsDescriptor, Contained g.tryWrite) ∧
    (∀ p : PendingAddress, Contained p.tryWrite) ∧
    (∀ c : Command, Contained c.tryWrite) ∧
    (∀ c : FrameContent, Contained c.tryWrite) ∧
    (∀ p : PanId, Contained p.tryWrite) ∧
    (∀ a : ShortAddress, Contained a.tryWrite) ∧
    (∀ a : ExtendedAddress, Contained a.tryWrite) ∧
    (∀ (a : Address) (e : AddressEncoding), Contained (a.tryWrite e)) ∧
    (∀ c : SecurityControl, Contained c.tryWrite) ∧
    (∀ k : KeyIdentifier, Contained (k.tryWrite cfg)) ∧
    (∀ d : CoordinatorRealignmentData, Contained d.tryWrite) ∧
    (∀ (f : Frame) (ctx : SerDesCtx κ), Contained (frameWriter cfg aead f ctx)) :=
  ⟨fun h ctx => h.contained cfg ctx, fun a ctx => (AuxHeader.writes cfg a ctx).contained,
   fun b => b.contained, fun s => (SuperframeSpec.writes s).contained, fun g => g.contained,
   fun g => g.contained, fun p => p.contained, fun c => (Command.writes c).contained,
   fun c => c.contained, fun p => (PanId.writes p).contained, fun a => (ShortAddress.writes a).contained,
   fun a => (ExtendedAddress.writes a).contained,
   fun a e => by
     cases e
     · exact (Address.writes_normal a).contained
     · exact (Address.writes_compressed a).contained,
   fun c => (SecurityControl.writes c).contained, fun k => (KeyIdentifier.writes cfg k).contained,
   fun d => (CoordinatorRealignmentData.writes d).contained,
   fun f ctx => f.contained cfg haead ctx⟩

/-- **C10** Writing at an offset through the buffer leaves everything in front of the offset as it
was, and the length of the buffer, whether it succeeds or not; on success also everything behind
the new offset. -/
theorem C10_at_offset (w : TryWrite) (hw : Contained w) (buf : List UInt8) (o : Nat) :
    (W.write w buf o).2.1.length = buf.length ∧
    (W.write w buf o).2.1.take o = buf.take o ∧
    (∀ a, (W.write w buf o).1 = .ok a →
      o ≤ (W.write w buf o).2.2 ∧ (W.write w buf o).2.2 ≤ buf.length ∧
      (W.write w buf o).2.1.drop (W.write w buf o).2.2 = buf.drop (W.write w buf o).2.2) := by
  by_cases ho : o ≤ buf.length
  · exact WCont.write hw buf o ho _ _ _ rfl
  · have : W.write w buf o = (.err (.badOffset o), buf, o) := by
      unfold W.write; rw [if_pos (by omega)]
    rw [this]
    exact ⟨rfl, rfl, by simp⟩

theorem sampleAead_typed : AeadTyped sampleAead := by
  refine ⟨?_, ?_, ?_⟩
  · intros; simp [sampleAead]
  · intro t k n a b tag _ h
    simp only [sampleAead, Option.some.injEq] at h
    rw [← h]; simp
  · intros; simp [sampleAead]

example : ∃ n, (sampleFrame.tryWrite sampleCfg sampleAead ⟨.explicit, none⟩ (List.replicate 30 0)).1
    = .ok n ∧ 0 < n ∧ n < 30 ∧ AeadTyped sampleAead := ⟨19, by decide, by decide, by decide, sampleAead_typed⟩

/-- **C11** Every value with an encoding is written if and only if there is room, as exactly those
octets whatever the buffer held, and otherwise fails with `Incomplete`, leaving at most a first part
of them. -/
theorem C11_encodes {κ : Type} (cfg : Cfg) :
    (∀ (h : Header) (ctx : Option (SecCtx κ)), Encodable h → (h.auxSec.isSome = true → ctx.isSome = true) →
      Encodes (h.tryWrite cfg ctx)
        (headerOctets h false false false (auxAsWritten cfg (ctxCounter ctx) h.auxSec))) ∧
    (∀ (a : AuxHeader) (ctx : SecCtx κ), Encodes (a.tryWrite cfg ctx)
      (auxAsWritten cfg ctx.frameCounter (some a))) ∧
    (∀ b : Beacon, BeaconFromApi b → Encodes b.tryWrite (beaconOctets b)) ∧
    (∀ s : SuperframeSpec, Encodes s.tryWrite (superframeOctets s false)) ∧
    (∀ g : GtsInfo, GtsFromApi g → Encodes g.tryWrite (gtsOctets g 0 0)) ∧
    (∀ p : PendingAddress, PendingFromApi p → Encodes p.tryWrite (pendingOctets p false false)) ∧
    (∀ c : Command, Encodes c.tryWrite (commandOctets c)) ∧
    (∀ c : FrameContent, ContentFromApi c → Encodes c.tryWrite (contentOctets c)) := by
  refine ⟨?_, fun a ctx => (AuxHeader.writes cfg a ctx).encodes, ?_,
    fun s => (SuperframeSpec.writes s).encodes, ?_, ?_, fun c => (Command.writes c).encodes,
    fun c hc => (FrameContent.writes c hc).encodes⟩
  · intro h ctx he hc
    have hr : Header.auxResult h ctx = .ok () := by
      unfold Header.auxResult
      cases h1 : h.auxSec <;> cases h2 : ctx <;> simp_all
    have hw := Header.writes cfg h ctx he
    have ha : Header.auxWritten cfg h ctx = auxAsWritten cfg (ctxCounter ctx) h.auxSec := by
      unfold Header.auxWritten
      cases h1 : h.auxSec <;> cases h2 : ctx <;> simp_all [auxAsWritten, ctxCounter]
    rw [hr, ha] at hw
    exact hw.encodes
  · intro b hb
    exact (Beacon.writes b hb.shape.1 hb.shape.2).encodes
  · intro g hg; exact (GtsInfo.writes g hg.shape).encodes
  · intro p hp
    exact (PendingAddress.writes p hp.shape.1 hp.shape.2.1).encodes

/-- **C11** The parts: addresses, security controls, key identifiers, realignment data, single slots. -/
theorem C11_parts (cfg : Cfg) :
    (∀ p : PanId, Encodes p.tryWrite (le 2 p.toNat)) ∧
    (∀ a : ShortAddress, Encodes a.tryWrite (le 2 a.toNat)) ∧
    (∀ a : ExtendedAddress, Encodes a.tryWrite (le 8 a.toNat)) ∧
    (∀ a : Address, Encodes (a.tryWrite .normal) (le 2 (panOf a).toNat ++ addrOctets a)) ∧
    (∀ a : Address, Encodes (a.tryWrite .compressed) (addrOctets a)) ∧
    (∀ c : SecurityControl, Encodes c.tryWrite
      [UInt8.ofNat (levelCode c.securityLevel + 8 * keyIdModeCode c.keyIdMode)]) ∧
    (∀ k : KeyIdentifier, Encodes (k.tryWrite cfg) (keyIdentifierOctets cfg.native (some k))) ∧
    (∀ d : CoordinatorRealignmentData, Encodes d.tryWrite
      (le 2 d.panId.toNat ++ le 2 d.coordinatorAddress.toNat ++ [d.channel] ++
        le 2 d.deviceAddress.toNat ++ pageOctets d.channelPage)) ∧
    (∀ d : GtsDescriptor, SlotInRange d → Encodes d.tryWrite (slotOctets d)) :=
  ⟨fun p => (PanId.writes p).encodes, fun a => (ShortAddress.writes a).encodes,
   fun a => (ExtendedAddress.writes a).encodes, fun a => (Address.writes_normal a).encodes,
   fun a => (Address.writes_compressed a).encodes, fun c => (SecurityControl.writes c).encodes,
   fun k => (KeyIdentifier.writes cfg k).encodes,
   fun d => by simpa using (CoordinatorRealignmentData.writes d).encodes,
   fun d h => (GtsDescriptor.writes d h).encodes⟩

/-- **C11** The headers without an encoding: with compression and an address missing, frame control
and sequence number are written, then `DisallowedPanIdCompress`; secured without context, everything
but the auxiliary header is written, then `MissingSecurityCtx`.  With `C11_encodes` this accounts for
every header, context and buffer. -/
theorem C11_header_refusals {κ : Type} (cfg : Cfg) (h : Header) :
    (∀ ctx : Option (SecCtx κ), ¬ Encodable h →
      Refuses (h.tryWrite cfg ctx) (le 2 (frameControl h false false false) ++ [h.seq])
        (.badInput "DisallowedPanIdCompress")) ∧
    (Encodable h → h.auxSec.isSome = true →
      Refuses (h.tryWrite cfg (none : Option (SecCtx κ))) (headerOctets h false false false [])
        (.badInput "MissingSecurityCtx")) := by
  refine ⟨fun ctx hne => (Header.writes_refused cfg h ctx hne).refuses, fun he hs => ?_⟩
  have hw := Header.writes cfg h (none : Option (SecCtx κ)) he
  obtain ⟨a, ha⟩ := Option.isSome_iff_exists.mp hs
  have h1 : Header.auxResult h (none : Option (SecCtx κ)) = .err (.badInput "MissingSecurityCtx") := by
    unfold Header.auxResult; rw [ha]
  have h2 : Header.auxWritten cfg h (none : Option (SecCtx κ)) = [] := by
    unfold Header.auxWritten; rw [ha]
  rw [h1, h2] at hw
  exact hw.refuses

example : Refuses (sampleHeader.tryWrite sampleCfg (none : Option (SecCtx Nat)))
    [0x59, 0xD8, 77, 0x34, 0x12, 0x78, 0x56, 8, 7, 6, 5, 4, 3, 2, 1] (.badInput "MissingSecurityCtx") ∧
    ¬ Encodable { sampleHeader with source := none } :=
  ⟨(C11_header_refusals (κ := Nat) sampleCfg sampleHeader).2 (by decide) rfl, by decide⟩

/-- **C11** The same for unsecured frames. -/
theorem C11_frames {κ : Type} (cfg : Cfg) (aead : Aead κ) (f : Frame) (ctx : SerDesCtx κ)
    (hs : f.header.auxSec = none) (he : Encodable f.header) (ha : ContentFromApi f.content)
    (hm : ctx.securityCtx = none ∨ ctx.footerMode = .none) :
    Encodes (frameWriter cfg aead f ctx) (plainFrameOctets ctx.footerMode f) := by
  have h := fun buf => Frame.tryWrite_plain cfg aead f ctx hs he ha hm buf
  refine ⟨fun buf hl => ?_, fun buf hl => ?_⟩
  · unfold frameWriter
    rw [(h buf).1 hl]
  · obtain ⟨k, h1, hk⟩ := (h buf).2 hl
    refine ⟨k, h1, ?_⟩
    unfold frameWriter
    rw [hk]

/-- **C11** Consequence: success is decided by room alone, and the octets written do not depend on
what the buffer held. -/
theorem C11_iff_room (w : TryWrite) (enc : List UInt8) (hw : Encodes w enc) (buf : List UInt8) :
    ((∃ n, (w buf).1 = .ok n) ↔ enc.length ≤ buf.length) ∧ (w buf).1 ≠ .panic ∧
    (∀ n, (w buf).1 = .ok n → n = enc.length ∧ (w buf).2.take n = enc) := by
  by_cases hl : enc.length ≤ buf.length
  · rw [hw.fits buf hl]
    exact ⟨⟨fun _ => hl, fun _ => ⟨_, rfl⟩⟩, by simp, fun n hn => by cases hn; simp⟩
  · obtain ⟨k, _, hk⟩ := hw.short buf (by omega)
    rw [hk]
    exact ⟨⟨(fun ⟨_, h⟩ => nomatch h), fun h => absurd h hl⟩, by simp, fun n hn => by cases hn⟩

example : Encodes (Command.tryWrite (.associationResponse 0x1234 .accessDenied)) [2, 0x34, 0x12, 2] ∧
    (Command.tryWrite (.associationResponse 0x1234 .accessDenied) [9, 9, 9, 9, 9]).1 = .ok 4 :=
  ⟨(Command.writes (.associationResponse 0x1234 .accessDenied)).encodes, by decide⟩

/-- **C48** An auxiliary header that was written reads back, followed by anything, with the same
level and key identifier, the key-id mode of the key identifier, and the counter of the context as
a little-endian reader sees it; what was written is `get_octet_size` octets long.  The counter and
the key-id mode stored in the header value play no part. -/
theorem C48_aux_round_trip {κ : Type} (cfg : Cfg) (a : AuxHeader) (ctx : SecCtx κ)
    (buf buf' : List UInt8) (n : Nat) (hw : a.tryWrite cfg ctx buf = (.ok n, buf'))
    (suffix : List UInt8) :
    AuxHeader.tryRead cfg (buf'.take n ++ suffix) = .ok (auxAsRead cfg ctx.frameCounter a, n) ∧
    n = a.octetSize := by
  have h := AuxHeader.writes cfg a ctx
  obtain ⟨_, _, hn, _⟩ := h.ok_inv hw
  have ht := h.ok_take hw
  constructor
  · rw [ht]
    refine (AuxHeader.decodes cfg _ _ _).2 ⟨_, suffix, rfl, ?_, hn⟩
    refine ⟨rfl, 0, by decide, ?_⟩
    simp only [auxOctets, inOrder_counter, auxAsRead]
  · rw [hn, AuxHeader.octetSize_eq]
    exact auxOctets_length ..

/-- **C48** On a little-endian host the counter that comes back is the context's. -/
theorem C48_counter_little (cfg : Cfg) (hle : cfg.native = .little) (c : UInt32) (a : AuxHeader) :
    (auxAsRead cfg c a).frameCounter = c := by
  unfold auxAsRead counterOnAir; rw [hle]

/-- **C48** The counter and key-id mode stored in the value are ignored. -/
theorem C48_stored_counter_ignored {κ : Type} (cfg : Cfg) (a : AuxHeader) (ctx : SecCtx κ) (c : UInt32)
    (m : KeyIdMode) :
    ({ a with frameCounter := c, control := ⟨a.control.securityLevel, m⟩ } : AuxHeader).tryWrite cfg ctx
      = a.tryWrite cfg ctx := rfl

example : ((AuxHeader.mk ⟨.encmic64, .none⟩ 99 (some ⟨some (.long 5), 3⟩)).tryWrite sampleCfg sampleCtx
    (List.replicate 20 0)).1 = .ok 14 := by decide

end Verif
