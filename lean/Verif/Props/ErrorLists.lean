import Verif.Spec.ErrorLists
import Verif.Props.Total
import Verif.Props.Ccm

/-!
# C97: exactly which errors each call can return
-/

namespace Verif
open Spec

theorem small_fits (cfg : Cfg) (l : List UInt8) (h : l.length < 2 ^ 15) : SliceFits cfg l := by
  unfold SliceFits
  refine Nat.lt_of_lt_of_le h (Nat.pow_le_pow_right (by decide) ?_)
  cases cfg.usize <;> decide

/-! ## Reading parts -/

theorem headerVerdict_errors {bytes : List UInt8} {e : ByteErr} (h : headerVerdict bytes = .err e) :
    e ∈ headerErrors := by
  unfold headerVerdict at h
  simp only at h
  repeat' split at h
  all_goals first
    | (cases h; decide)
    | cases h

theorem commandRead_errors {bytes : List UInt8} {e : ByteErr} (h : commandRead bytes = .err e) :
    e ∈ commandErrors := by
  rw [← C21_command_read] at h
  rcases (C21_command_acceptance bytes).2.2.2.1 e h with rfl | rfl <;> decide

theorem headVerdict_errors {bytes : List UInt8} {e : ByteErr} (h : headVerdict bytes = .err e) :
    e ∈ headErrors := by
  have h1 : ∀ x ∈ headerErrors, x ∈ headErrors := by decide
  have h2 : ∀ x ∈ commandErrors, x ∈ headErrors := by decide
  unfold headVerdict at h
  split at h
  · split at h <;> cases h
    rename_i hc
    unfold contentVerdict at hc
    split at hc
    · split at hc <;> cases hc
      decide
    split at hc
    · split at hc <;> cases hc
      rename_i hr
      exact h2 _ (commandRead_errors hr)
    · cases hc
  · cases h
    rename_i hv
    exact h1 _ (headerVerdict_errors hv)
  · cases h

/-- **C97** Parts of a frame, on every host: a header is refused for exactly four reasons, a command for two, a
beacon and an auxiliary security header only for want of octets. -/
theorem C97_parts (cfg : Cfg) (e : ByteErr) :
    ((∃ bytes, Header.tryRead cfg bytes = .err e) ↔ e ∈ headerErrors) ∧
    ((∃ bytes, Command.tryRead bytes = .err e) ↔ e ∈ commandErrors) ∧
    ((∃ bytes, Beacon.tryRead bytes = .err e) ↔ e = .incomplete) ∧
    ((∃ bytes, AuxHeader.tryRead cfg bytes = .err e) ↔ e = .incomplete) := by
  refine ⟨⟨?_, ?_⟩, ⟨?_, ?_⟩, ⟨?_, ?_⟩, ⟨?_, ?_⟩⟩
  · rintro ⟨bytes, h⟩
    exact headerVerdict_errors (((C07_header_read_verdict cfg bytes).2 e).1 h)
  · intro h
    have key : ∀ e ∈ headerErrors, ∃ bytes, headerVerdict bytes = .err e := by
      intro e he
      simp only [headerErrors, reasons, List.map, List.mem_cons, List.not_mem_nil, or_false] at he
      rcases he with rfl | rfl | rfl | rfl
      · exact ⟨[], rfl⟩
      · exact ⟨[0, 0x30, 0], by decide +kernel⟩
      · exact ⟨[4, 0, 0], by decide +kernel⟩
      · exact ⟨[0, 4, 0], by decide +kernel⟩
    obtain ⟨bytes, hb⟩ := key e h
    exact ⟨bytes, ((C07_header_read_verdict cfg bytes).2 e).2 hb⟩
  · rintro ⟨bytes, h⟩
    rw [C21_command_read] at h
    exact commandRead_errors h
  · intro h
    simp only [commandErrors, reasons, List.map, List.mem_cons, List.not_mem_nil, or_false] at h
    rcases h with rfl | rfl
    · exact ⟨[], by decide +kernel⟩
    · exact ⟨[0], by decide +kernel⟩
  · rintro ⟨bytes, h⟩
    by_cases hl : bytes.length < beaconLength bytes
    · rw [(C17_beacon_read_total bytes).2 hl] at h; cases h; rfl
    · obtain ⟨b, hb, _⟩ := (C17_beacon_read_total bytes).1 (by omega)
      rw [hb] at h; cases h
  · rintro rfl; exact ⟨[], by decide +kernel⟩
  · rintro ⟨bytes, h⟩
    by_cases hl : auxNeed bytes ≤ bytes.length
    · obtain ⟨a, ha⟩ := (AuxHeader.needs cfg bytes).1 hl
      rw [ha] at h; cases h
    · rw [(AuxHeader.needs cfg bytes).2 (by omega)] at h; cases h; rfl
  · rintro rfl
    exact ⟨[], by rcases cfg with ⟨_ | _, _ | _ | _, _ | _⟩ <;> decide +kernel⟩

/-! ## Reading frames -/

theorem headVerdict_all {e : ByteErr} (he : e ∈ headErrors) :
    ∃ bytes, bytes.length < 2 ^ 15 ∧ headVerdict bytes = .err e := by
  simp only [headErrors, reasons, List.map, List.mem_cons, List.not_mem_nil, or_false] at he
  rcases he with rfl | rfl | rfl | rfl | rfl
  · exact ⟨[], by decide, rfl⟩
  · exact ⟨[0, 0x30, 0], by decide, by decide +kernel⟩
  · exact ⟨[4, 0, 0], by decide, by decide +kernel⟩
  · exact ⟨[0, 4, 0], by decide, by decide +kernel⟩
  · exact ⟨[3, 0, 0, 0], by decide, by decide +kernel⟩

/-- **C97** `Frame::try_read` returns exactly these errors, on every host, in either footer mode. -/
theorem C97_plain_read (cfg : Cfg) (mode : FooterMode) (e : ByteErr) :
    (∃ bytes, SliceFits cfg bytes ∧ Frame.tryRead cfg mode bytes = .err e) ↔ e ∈ plainReadErrors := by
  constructor
  · rintro ⟨bytes, hf, h⟩
    have h := ((C77_every_plain_read cfg mode bytes hf).2.1 e).1 h
    unfold plainVerdict at h
    repeat' split at h
    all_goals first
      | (cases h; done)
      | (cases h; rename_i hv; exact List.mem_append_left _ (headVerdict_errors hv))
      | (cases h; decide)
  · intro he
    rcases List.mem_append.1 he with he | he
    · obtain ⟨bytes, hl, hb⟩ := headVerdict_all he
      have hf := small_fits cfg bytes hl
      refine ⟨bytes, hf, ((C77_every_plain_read cfg mode bytes hf).2.1 e).2 ?_⟩
      unfold plainVerdict
      rw [hb]
    · simp only [reasons, List.map, List.mem_cons, List.not_mem_nil, or_false] at he
      subst he
      have hf := small_fits cfg [9, 0, 0, 0, 0, 0, 0, 0] (by decide)
      refine ⟨_, hf, ((C77_every_plain_read cfg mode _ hf).2.1 _).2 ?_⟩
      unfold plainVerdict
      rw [show headVerdict [9, 0, 0, 0, 0, 0, 0, 0] = .ok 8 by decide +kernel]
      rfl

theorem receivingAccount_errors {κ σ : Type} {cfg : Cfg} {aead : Aead κ} {buf : List UInt8} {sc : SecCtx κ}
    {lookup : DevLookup σ} {dev : σ} {h : Header} {aux : AuxHeader} {c : FrameContent} {k : Nat} {e : SecErr}
    (he : (receivingAccount cfg aead buf sc lookup dev h aux c k).1 = .err e) : e ∈ receiveErrors := by
  unfold receivingAccount at he
  simp only at he
  repeat' split at he
  all_goals first
    | (cases he; done)
    | (cases he; decide)

theorem receive_errors {κ σ : Type} {cfg : Cfg} {aead : Aead κ} (ht : AeadTyped aead) {buf : List UInt8}
    (hfit : SliceFits cfg buf) {ctx : SerDesCtx κ} {lookup : DevLookup σ} {dev : σ} {e : SecErr}
    (he : (Frame.tryReadAndUnsecure cfg aead buf ctx lookup dev).1 = .err e) : e ∈ receiveErrors := by
  have hm : ∀ x ∈ headErrors, SecErr.writeError x ∈ receiveErrors := by decide
  obtain ⟨h1, h2⟩ := C77_every_reception cfg aead ht buf hfit ctx lookup dev
  cases hv : headVerdict buf with
  | panic =>
    rw [← headVerdict_eq cfg] at hv
    cases hr : Frame.readHead cfg buf 0 with
    | panic => exact absurd hr (Frame.readHead_no_panic _ _)
    | err _ => rw [hr] at hv; cases hv
    | ok _ => rw [hr] at hv; cases hv
  | err x =>
    rw [h1 x hv] at he
    cases he
    exact hm _ (headVerdict_errors hv)
  | ok k =>
    obtain ⟨h, c, rest, _, hr⟩ := h2 k hv
    split at hr
    · rw [hr] at he; cases he
    · rw [hr] at he; cases he; decide
    · rw [hr] at he; cases he
    · simp only at hr
      rw [hr] at he
      exact receivingAccount_errors he

/-- A lookup that knows no device. -/
def nobody : DevLookup Unit := fun s _ _ => (s, none)
/-- A lookup with one device, whose counter is `c`. -/
def oneDevice (c : UInt32) : DevLookup Unit := fun s _ _ => (s, some (⟨c, false⟩, fun _ => s))

/-- A context with a key for everyone. -/
def keyed {κ : Type} (k : κ) : SecCtx κ := ⟨0, 0, fun _ _ _ => some (0, k)⟩

/-- A frame with source, level MIC-32, counter 0, empty payload and tag `t, 0, 0, 0`. -/
def tagged (t : UInt8) : List UInt8 := [0x09, 0x90, 0, 1, 0, 2, 0, 1, 0, 0, 0, 0, t, 0, 0, 0]

/-- Its header. -/
def taggedHeader : Header :=
  ⟨.data, false, false, false, false, false, .ieee802154_2006, 0, none, some (.short ⟨1⟩ ⟨2⟩),
    some ⟨⟨.mic32, .none⟩, 0, none⟩⟩

theorem receive_tagged {κ : Type} (cfg : Cfg) (aead : Aead κ) (k : κ) (t : UInt8) (h01 : t = 0 ∨ t = 1)
    (h : (aead.decrypt 4 k (calculateNonce 0 0 .mic32) [] [] [t, 0, 0, 0]).1 = false) :
    (Frame.tryReadAndUnsecure cfg aead (tagged t) ⟨.none, some (keyed k)⟩ (oneDevice 0) ()).1 =
      .err .transformationError := by
  have hr : Frame.readHead cfg (tagged t) 0 = .ok ((taggedHeader, .data), 12) := by
    rcases cfg with ⟨_ | _, _ | _ | _, _ | _⟩ <;> rcases h01 with rfl | rfl <;> decide +kernel
  have hd : doUnsecure cfg aead k (calculateNonce 0 0 .mic32) 0 .mic32 4 .mic32 .encmic32 [t, 0, 0, 0] =
      (.err .transformationError, [t, 0, 0, 0]) := by
    have hs : (usub cfg [t, 0, 0, 0].length SecurityLevel.mic32.micOctetSize : Out SecErr Nat) = .ok 0 := by
      rcases cfg with ⟨_ | _, _ | _ | _, _ | _⟩ <;> rfl
    unfold doUnsecure
    simp only [hs]
    simp [h]
  have hu : unsecureFrame cfg aead taggedHeader [t, 0, 0, 0] (keyed k) .none (oneDevice 0) () =
      (.err .transformationError, [t, 0, 0, 0], keyed k, ()) := by
    simp [unsecureFrame, taggedHeader, keyed, oneDevice, Header.hasSecurity, hd]
  unfold Frame.tryReadAndUnsecure
  rw [hr]
  have hs : taggedHeader.hasSecurity = true := rfl
  simp [tagged, hu, hs]

/-- **C97** `Frame::try_read_and_unsecure` returns exactly these errors, on every host and over every block cipher:
`SecurityNotEnabled`, `FrameTooLong`, `KeyFailure`, `NoDestinationAddress`, `TagWriteError`, `AuxSecHeaderAbsent`,
`KeyIdentifierMismatch` and `KeyLookupAddressTypeMismatch` never. -/
theorem C97_receive {κ : Type} (cfg : Cfg) (cipher : BlockCipher κ) (k : κ) (e : SecErr) :
    (∃ (σ : Type) (buf : List UInt8) (ctx : SerDesCtx κ) (lookup : DevLookup σ) (dev : σ), SliceFits cfg buf ∧
      (Frame.tryReadAndUnsecure cfg (Ccm.aead cipher) buf ctx lookup dev).1 = .err e) ↔ e ∈ receiveErrors := by
  constructor
  · rintro ⟨σ, buf, ctx, lookup, dev, hf, he⟩
    exact receive_errors (C50_ccm_laws cipher).toAeadTyped hf he
  · intro he
    rcases List.mem_append.1 he with he | he
    · obtain ⟨x, hx, rfl⟩ := List.mem_map.1 he
      obtain ⟨bytes, hl, hb⟩ := headVerdict_all hx
      have hf := small_fits cfg bytes hl
      refine ⟨Unit, bytes, ⟨.none, none⟩, nobody, (), hf, ?_⟩
      rw [(C77_every_reception cfg (Ccm.aead cipher) (C50_ccm_laws cipher).toAeadTyped bytes hf _ _ _).1 x hb]
    · have go : ∀ {e : SecErr} (buf : List UInt8) (ctx : SerDesCtx κ) (lookup : DevLookup Unit), buf.length < 2 ^ 15 →
          (Frame.tryReadAndUnsecure cfg (Ccm.aead cipher) buf ctx lookup ()).1 = .err e →
          ∃ (σ : Type) (buf : List UInt8) (ctx : SerDesCtx κ) (lookup : DevLookup σ) (dev : σ), SliceFits cfg buf ∧
            (Frame.tryReadAndUnsecure cfg (Ccm.aead cipher) buf ctx lookup dev).1 = .err e :=
        fun buf ctx lookup hl h => ⟨Unit, buf, ctx, lookup, (), small_fits cfg buf hl, h⟩
      simp only [List.mem_cons, List.not_mem_nil, or_false] at he
      rcases he with rfl | rfl | rfl | rfl | rfl | rfl | rfl | rfl | rfl
      · exact go [0x09, 0x10, 0, 1, 0, 0, 0, 0] ⟨.none, none⟩ nobody (by decide) rfl
      · exact go [0x0a, 0x10, 0, 1, 0, 0, 0, 0] ⟨.none, some (keyed k)⟩ nobody (by decide) rfl
      · exact go [0x09, 0x00, 0, 1, 0, 0, 0, 0] ⟨.none, some (keyed k)⟩ nobody (by decide) rfl
      · exact go [0x09, 0x10, 0, 0, 0, 0, 0, 0] ⟨.none, some (keyed k)⟩ nobody (by decide) rfl
      · exact go [0x09, 0x10, 0, 1, 0, 0, 0, 0] ⟨.none, some SecCtx.noSecurity⟩ nobody (by decide) rfl
      · exact go [0x09, 0x10, 0, 1, 0, 0, 0, 0] ⟨.none, some (keyed k)⟩ nobody (by decide) rfl
      · exact go (tagged 0) ⟨.none, some (keyed k)⟩ nobody (by decide) rfl
      · exact go (tagged 0) ⟨.none, some (keyed k)⟩ (oneDevice 1) (by decide) rfl
      · by_cases h0 : ((Ccm.aead cipher).decrypt 4 k (calculateNonce 0 0 .mic32) [] [] [0, 0, 0, 0]).1 = false
        · exact go (tagged 0) ⟨.none, some (keyed k)⟩ (oneDevice 0) (by decide) (receive_tagged cfg _ k 0 (.inl rfl) h0)
        · refine go (tagged 1) ⟨.none, some (keyed k)⟩ (oneDevice 0) (by decide) (receive_tagged cfg _ k 1 (.inr rfl) ?_)
          simp only [Bool.not_eq_false] at h0
          cases h1 : ((Ccm.aead cipher).decrypt 4 k (calculateNonce 0 0 .mic32) [] [] [1, 0, 0, 0]).1 with
          | false => rfl
          | true =>
            have := C50_ccm_tag_unique cipher 4 k _ [] [] _ _ h0 h1
            revert this
            decide

/-! ## Writing frames -/

theorem PutsDown.error {κ : Type} {enc buf : List UInt8} {ctx : SerDesCtx κ}
    {done r : Out ByteErr Nat × List UInt8 × SerDesCtx κ} {e : ByteErr} (h : PutsDown enc buf ctx done r)
    (he : r.1 = .err e) : e = .incomplete ∨ done.1 = .err e := by
  by_cases hl : enc.length ≤ buf.length
  · rw [h.1 hl] at he
    exact .inr he
  · obtain ⟨k, _, hr⟩ := h.2 (by omega)
    rw [hr] at he
    cases he
    exact .inl rfl

theorem protect_some {κ : Type} {aead : Aead κ} (hl : AeadLaws aead) {level : SecurityLevel} (h0 : level ≠ .none)
    (h1 : level ≠ .enc) (key : κ) (nonce payload : List UInt8) (hp : payload.length ≤ 65535) :
    protect aead level key nonce payload ≠ none := by
  unfold protect
  have ht : tagLength level = 4 ∨ tagLength level = 8 ∨ tagLength level = 16 := by
    cases level <;> simp_all [tagLength]
  have e1 := hl.encrypts (tagLength level) key nonce payload [] ht (by simp)
  have e2 := hl.encrypts (tagLength level) key nonce [] payload ht hp
  split
  · intro h
    rw [Option.map_eq_none_iff] at h
    rw [h] at e1
    cases e1
  split
  · split
    · simp
    · rename_i h
      rw [h] at e2
      cases e2
  · cases level <;> simp_all [MicOnly, EncMic]

theorem sendingAccount_errors {κ : Type} {cfg : Cfg} {aead : Aead κ} {f : Frame} {aux : AuxHeader} {sc : SecCtx κ}
    {buf : List UInt8} {e : ByteErr} (he : (sendingAccount cfg aead f aux sc buf).1 = .err e) :
    e ∈ secureWriteErrors ∨ (e = refusedByCipher ∧ ¬ AeadLaws aead) := by
  unfold sendingAccount at he
  simp only at he
  repeat' split at he
  all_goals first
    | (cases he; done)
    | (cases he; left; decide)
    | skip
  rename ¬ 125 < securedSize f aux => hs
  rename ¬ aux.control.securityLevel = .none => h0
  rename ¬ aux.control.securityLevel = .enc => h1
  rename protect _ _ _ _ _ = none => hp
  refine .inr ⟨by cases he; rfl, fun hl => protect_some hl h0 h1 _ _ _ ?_ hp⟩
  have : f.payload.length ≤ securedSize f aux := by unfold securedSize; omega
  omega

theorem write_errors {κ : Type} {cfg : Cfg} {aead : Aead κ} (ht : AeadTyped aead) {f : Frame}
    (hc : ContentFromApi f.content) {ctx : SerDesCtx κ} {buf : List UInt8} {e : ByteErr}
    (he : (f.tryWrite cfg aead ctx buf).1 = .err e) :
    (ctx.securityCtx = none → e ∈ plainWriteErrors) ∧
    (ctx.securityCtx ≠ none → e ∈ secureWriteErrors ∨ (e = refusedByCipher ∧ ¬ AeadLaws aead)) := by
  obtain ⟨h1, h2⟩ := C76_every_write cfg aead ht f hc ctx buf
  by_cases hen : Encodable f.header
  · replace h2 := h2 hen
    split at h2
    · rename ctx.securityCtx = none => hsc
      refine ⟨fun _ => ?_, fun h => absurd hsc h⟩
      rcases PutsDown.error h2 he with rfl | hd
      · decide
      · cases hd; decide
    · rename ctx.securityCtx = some _ => hsc
      refine ⟨fun h => absurd (hsc.symm.trans h) (by simp), fun _ => .inl ?_⟩
      rcases PutsDown.error h2 he with rfl | hd
      · decide
      · cases hd
    · rcases PutsDown.error h2 he with rfl | hd
      · exact ⟨fun _ => by decide, fun _ => .inl (by decide)⟩
      · cases hd
    · rename ctx.securityCtx = some _ => hsc
      refine ⟨fun h => absurd (hsc.symm.trans h) (by simp), fun _ => ?_⟩
      rcases PutsDown.error h2 he with rfl | hd
      · exact .inl (by decide)
      · split at hd
        · exact sendingAccount_errors hd
        · cases hd
          exact .inl (by decide)
  · have : e = .incomplete ∨ e = .badInput "DisallowedPanIdCompress" := by
      rcases PutsDown.error (h1 hen) he with h | h
      · exact .inl h
      · cases h; exact .inr rfl
    rcases this with rfl | rfl
    · exact ⟨fun _ => by decide, fun _ => .inl (by decide)⟩
    · exact ⟨fun _ => by decide, fun _ => .inl (by decide)⟩

/-- Frames of the witnesses: a data frame of version 2006 without payload. -/
def bareFrame (t : FrameType) (compress : Bool) (aux : Option AuxHeader) (payload : List UInt8) : Frame :=
  ⟨⟨t, false, false, compress, false, false, .ieee802154_2006, 0, none, none, aux⟩, .data, payload, (0, 0)⟩

/-- **C97** `Frame::try_write` without a security context returns exactly these errors, on every host, over every
cipher, in either footer mode. -/
theorem C97_plain_write {κ : Type} (cfg : Cfg) (aead : Aead κ) (ht : AeadTyped aead) (mode : FooterMode)
    (e : ByteErr) :
    (∃ (f : Frame) (buf : List UInt8), ContentFromApi f.content ∧
      (f.tryWrite cfg aead ⟨mode, none⟩ buf).1 = .err e) ↔ e ∈ plainWriteErrors := by
  constructor
  · rintro ⟨f, buf, hc, he⟩
    exact (write_errors ht hc he).1 rfl
  · intro he
    simp only [plainWriteErrors, reasons, List.map, List.mem_cons, List.not_mem_nil, or_false] at he
    rcases he with rfl | rfl | rfl
    · exact ⟨bareFrame .data false none [], [], trivial, rfl⟩
    · exact ⟨bareFrame .data true none [], [0, 0, 0], trivial, rfl⟩
    · exact ⟨bareFrame .data false (some ⟨⟨.mic32, .none⟩, 0, none⟩) [], [0, 0, 0], trivial, rfl⟩

set_option maxRecDepth 10000 in
/-- **C97** `Frame::try_write` with a security context returns exactly these errors, on every host, over every
cipher that keeps its promises (CCM over any block cipher, C50). -/
theorem C97_secure_write {κ : Type} (cfg : Cfg) (aead : Aead κ) (hl : AeadLaws aead) (key : κ) (e : ByteErr) :
    (∃ (f : Frame) (mode : FooterMode) (sc : SecCtx κ) (buf : List UInt8), ContentFromApi f.content ∧
      (f.tryWrite cfg aead ⟨mode, some sc⟩ buf).1 = .err e) ↔ e ∈ secureWriteErrors := by
  constructor
  · rintro ⟨f, mode, sc, buf, hc, he⟩
    rcases (write_errors hl.toAeadTyped hc he).2 (by simp) with h | h
    · exact h
    · exact absurd hl h.2
  · intro he
    simp only [secureWriteErrors, reasons, List.map, List.mem_cons, List.not_mem_nil, or_false] at he
    rcases he with rfl | rfl | rfl | rfl | rfl | rfl
    · exact ⟨bareFrame .data false none [], .none, keyed key, [], trivial, rfl⟩
    · exact ⟨bareFrame .data true none [], .none, keyed key, [0, 0, 0], trivial, rfl⟩
    · exact ⟨bareFrame .acknowledgement false (some ⟨⟨.mic32, .none⟩, 0, none⟩) [], .none, keyed key,
        List.replicate 8 0, trivial, by rcases cfg with ⟨_ | _, _ | _ | _, _ | _⟩ <;> rfl⟩
    · exact ⟨bareFrame .data false (some ⟨⟨.mic32, .none⟩, 0, none⟩) (List.replicate 128 0), .none, keyed key,
        List.replicate 8 0, trivial, by rcases cfg with ⟨_ | _, _ | _ | _, _ | _⟩ <;> rfl⟩
    · exact ⟨bareFrame .data false (some ⟨⟨.mic32, .none⟩, 0, none⟩) [], .none, ⟨0, 0xFFFFFFFF, fun _ _ _ => none⟩,
        List.replicate 8 0, trivial, by rcases cfg with ⟨_ | _, _ | _ | _, _ | _⟩ <;> rfl⟩
    · exact ⟨bareFrame .data false (some ⟨⟨.mic32, .none⟩, 0, none⟩) [], .none, ⟨0, 0, fun _ _ _ => none⟩,
        List.replicate 8 0, trivial, by rcases cfg with ⟨_ | _, _ | _ | _, _ | _⟩ <;> rfl⟩

/-- A cipher that refuses everything. -/
def refusing {κ : Type} : Aead κ := ⟨fun _ _ _ _ b => (none, b), fun _ _ _ _ b _ => (false, b)⟩

/-- **C97** Over any cipher whatsoever the same errors and `TransformationError`, which an implementation that refuses
data does cause. -/
theorem C97_secure_write_any (cfg : Cfg) (κ : Type) (key : κ) (e : ByteErr) :
    (∃ (aead : Aead κ) (f : Frame) (mode : FooterMode) (sc : SecCtx κ) (buf : List UInt8), AeadTyped aead ∧
      ContentFromApi f.content ∧ (f.tryWrite cfg aead ⟨mode, some sc⟩ buf).1 = .err e) ↔
      e ∈ secureWriteErrors ∨ e = refusedByCipher := by
  constructor
  · rintro ⟨aead, f, mode, sc, buf, ht, hc, he⟩
    rcases (write_errors ht hc he).2 (by simp) with h | h
    · exact .inl h
    · exact .inr h.1
  · rintro (he | rfl)
    · obtain ⟨f, mode, sc, buf, hc, h⟩ := (C97_secure_write cfg (Ccm.aead (fun _ b => b)) (C50_ccm_laws _) key e).2 he
      exact ⟨_, f, mode, sc, buf, (C50_ccm_laws _).toAeadTyped, hc, h⟩
    · exact ⟨refusing, bareFrame .data false (some ⟨⟨.mic32, .none⟩, 0, none⟩) [], .none, keyed key,
        List.replicate 8 0, ⟨by simp [refusing], by simp [refusing], by simp [refusing]⟩, trivial,
        by rcases cfg with ⟨_ | _, _ | _ | _, _ | _⟩ <;> rfl⟩

end Verif
