import Verif.Spec.TotalSpec
import Verif.Props.Accounts
import Verif.Props.DecodeFrame

/-!
# C76, C77: every write and every read
-/

namespace Verif
open Spec

theorem putsDown {κ : Type} {cfg : Cfg} {aead : Aead κ} {f : Frame} {ctx : SerDesCtx κ} {enc : List UInt8}
    {w : Out ByteErr Unit} (hh : WSpec (f.writeHead cfg ctx.securityCtx) w enc) (buf : List UInt8)
    {done : Out ByteErr Nat × List UInt8 × SerDesCtx κ}
    (hd : enc.length ≤ buf.length → f.tryWrite cfg aead ctx buf = done) :
    PutsDown enc buf ctx done (f.tryWrite cfg aead ctx buf) :=
  ⟨hd, fun hl => Frame.tryWrite_short cfg aead f ctx hh buf hl⟩

/-- **C76** Every write is in the table: any frame with API content, any context, any buffer. -/
theorem C76_every_write {κ : Type} (cfg : Cfg) (aead : Aead κ) (ht : AeadTyped aead) (f : Frame)
    (hc : ContentFromApi f.content) (ctx : SerDesCtx κ) (buf : List UInt8) :
    WriteTable cfg aead f ctx buf (f.tryWrite cfg aead ctx buf) := by
  obtain ⟨mode, sc⟩ := ctx
  unfold WriteTable
  dsimp only
  constructor
  · intro he
    have hm := Frame.writeHead_refused cfg f sc he
    exact putsDown (ctx := ⟨mode, sc⟩) hm buf (Frame.tryWrite_err cfg aead f ⟨mode, sc⟩ hm buf)
  · intro he
    have explicit : ∀ sc : SecCtx κ, PutsDown (securedHead cfg sc.frameCounter f) buf ⟨.explicit, some sc⟩
        (.panic, securedHead cfg sc.frameCounter f ++ buf.drop (securedHead cfg sc.frameCounter f).length,
          ⟨.explicit, some sc⟩) (f.tryWrite cfg aead ⟨.explicit, some sc⟩ buf) := by
      intro sc
      have hh := Frame.writeHead_ok cfg f (some sc) he hc (by simp)
      refine putsDown (ctx := ⟨.explicit, some sc⟩) hh buf (fun hl => ?_)
      have := Frame.tryWrite_head cfg aead f ⟨.explicit, some sc⟩ hh buf hl
      rw [this]
      show Frame.afterHead aead f _ (securedHead cfg sc.frameCounter f ++
        buf.drop (securedHead cfg sc.frameCounter f).length) (securedHead cfg sc.frameCounter f).length = _
      unfold Frame.afterHead
      simp only [secureFrame, List.take_left, List.drop_left]
    have plain : ∀ mode (sc : Option (SecCtx κ)), f.header.auxSec = none → (sc = none ∨ mode = .none) →
        PutsDown (plainFrameOctets mode f) buf ⟨mode, sc⟩ (.ok (plainFrameOctets mode f).length,
          plainFrameOctets mode f ++ buf.drop (plainFrameOctets mode f).length, ⟨mode, sc⟩)
          (f.tryWrite cfg aead ⟨mode, sc⟩ buf) :=
      fun mode sc ha hm => Frame.tryWrite_plain cfg aead f ⟨mode, sc⟩ ha he hc hm buf
    cases ha : f.header.auxSec with
    | none =>
      cases sc with
      | none => cases mode <;> exact plain _ _ ha (.inl rfl)
      | some sc =>
        cases mode with
        | none => exact plain _ _ ha (.inr rfl)
        | explicit => exact explicit sc
    | some aux =>
      cases sc with
      | none =>
        have hm := Frame.writeHead_missing (κ := κ) cfg f he (by rw [ha]; rfl)
        cases mode <;> exact putsDown (ctx := ⟨_, none⟩) hm buf (Frame.tryWrite_err cfg aead f ⟨_, none⟩ hm buf)
      | some sc =>
        cases mode with
        | explicit => exact explicit sc
        | none =>
          have hh := Frame.writeHead_ok cfg f (some sc) he hc (by simp)
          refine putsDown (ctx := ⟨.none, some sc⟩) hh buf (fun hl => ?_)
          by_cases hd : f.header.frameType = .data
          · rw [if_pos hd]
            exact C55_sending_account cfg aead ht f aux ⟨he, hc, ha, hd⟩ sc buf hl
          · rw [if_neg hd]
            exact Frame.tryWrite_not_data cfg aead f sc he hc (by rw [ha]; rfl) hd buf hl

theorem headOnWire_iff (cfg : Cfg) (h : Header) (c : FrameContent) (k : Nat) (bytes : List UInt8) :
    (∃ rest, HeadOnWire cfg h c k bytes rest) ↔ ∃ n m, HeadReadable cfg bytes h n c m ∧ k = n + m := by
  constructor
  · rintro ⟨rest, hd, ct, rfl, hh, hc, rfl⟩
    refine ⟨hd.length, ct.length, ⟨?_, ?_⟩, rfl⟩
    · exact (C51_header cfg _ _ _).2 ⟨hd, ct ++ rest, by rw [List.append_assoc], hh, rfl⟩
    · exact (C62_content _ _ _ _).2 ⟨ct, rest, by rw [List.append_assoc, List.drop_left], hc, rfl⟩
  · rintro ⟨n, m, ⟨h1, h2⟩, rfl⟩
    obtain ⟨hd, r1, rfl, hh, rfl⟩ := (C51_header cfg _ _ _).1 h1
    obtain ⟨ct, rest, h3, hc, rfl⟩ := (C62_content _ _ _ _).1 h2
    rw [List.drop_left] at h3
    exact ⟨rest, hd, ct, by rw [h3, List.append_assoc], hh, hc, rfl⟩

theorem typeBits {cfg : Cfg} {bytes : List UInt8} {h : Header} {n : Nat}
    (hr : Header.tryRead cfg bytes = .ok (h, n)) :
    typeCode h.frameType = (bytes.headD 0).toNat % 8 ∧ h.auxSec.isSome = (bytes.headD 0).toNat.testBit 3 := by
  have hb := (C01_header_read_total cfg bytes).2 h n hr
  match bytes, hr, hb with
  | [], _, hb => simp at hb; omega
  | [_], _, hb => simp at hb; omega
  | [_, _], _, hb => simp at hb; omega
  | b0 :: b1 :: b2 :: rest, hr, _ =>
    have h1 := C51_header_fields cfg b0 b1 b2 rest h n hr
    simp only at h1
    refine ⟨?_, ?_⟩
    · rw [h1.1]; show _ = b0.toNat % 8; omega
    · exact C27_security_bit cfg b0 b1 _ h n hr

theorem contentVerdict_eq (h : Header) (bytes : List UInt8) :
    (FrameContent.tryRead h bytes).bind (fun x => .ok x.2) = contentVerdict (typeCode h.frameType) bytes := by
  rw [FrameContent.tryRead_eq]
  unfold contentVerdict
  cases h.frameType <;> try rfl
  · show ((Beacon.tryRead bytes).bind _).bind _ = if bytes.length < beaconLength bytes then _ else _
    have hb := C17_beacon_read_total bytes
    by_cases hl : bytes.length < beaconLength bytes
    · rw [hb.2 hl, if_pos hl]; rfl
    · obtain ⟨b, e, _⟩ := hb.1 (by omega)
      rw [e, if_neg hl]; rfl
  · show ((Command.tryRead bytes).bind _).bind _ = _
    rw [C21_command_read]
    rcases commandRead bytes with ⟨c, n⟩ | e | _ <;> rfl

theorem headVerdict_eq (cfg : Cfg) (bytes : List UInt8) :
    (Frame.readHead cfg bytes 0).bind (fun x => .ok x.2) = headVerdict bytes := by
  have hv := C07_header_read_verdict cfg bytes
  have ht := (C01_header_read_total cfg bytes).1
  unfold headVerdict
  rw [Frame.readHead_eq]
  cases hr : Header.tryRead cfg bytes with
  | panic => exact absurd hr ht
  | err e =>
    rw [(hv.2 e).1 hr]; rfl
  | ok x =>
    obtain ⟨h, n⟩ := x
    rw [(hv.1 n).1 ⟨h, hr⟩]
    simp only
    rw [← (typeBits hr).1, ← contentVerdict_eq h]
    cases hc : FrameContent.tryRead h (bytes.drop n) with
    | panic => exact absurd hc (FrameContent.tryRead_no_panic _ _)
    | err e => simp only [Out.bind, hc]
    | ok y => 
      obtain ⟨c, m⟩ := y
      simp only [Out.bind, hc]

/-- **C77** A plain read: octets consumed, error or panic are decided by the table `plainVerdict` of the octets,
the footer mode and the build profile; what is returned on success is fixed by C62. -/
theorem C77_every_plain_read (cfg : Cfg) (mode : FooterMode) (bytes : List UInt8) (hfit : SliceFits cfg bytes) :
    (∀ n, (∃ f, Frame.tryRead cfg mode bytes = .ok (f, n)) ↔ plainVerdict cfg mode bytes = .ok n) ∧
    (∀ e, Frame.tryRead cfg mode bytes = .err e ↔ plainVerdict cfg mode bytes = .err e) ∧
    (Frame.tryRead cfg mode bytes = .panic ↔ plainVerdict cfg mode bytes = .panic) := by
  have key : (Frame.tryRead cfg mode bytes).bind (fun x => .ok x.2) = plainVerdict cfg mode bytes := by
    unfold plainVerdict
    rw [← headVerdict_eq cfg]
    cases hr : Frame.readHead cfg bytes 0 with
    | panic => exact absurd hr (Frame.readHead_no_panic _ _)
    | err e => rw [Frame.tryRead_eq cfg mode bytes hfit, hr]; rfl
    | ok x =>
      obtain ⟨⟨h, c⟩, k⟩ := x
      obtain ⟨n, m, hd, rfl⟩ := Frame.readHead_ok.1 hr
      have hb := Frame.headReadable_bound hd
      simp only [Out.bind]
      have hbit := (typeBits hd.1).2
      by_cases hs : h.auxSec.isSome = true
      · rw [if_pos (by rw [← hbit, hs]), C27_security_enabled cfg mode bytes hfit h n c m hd hs]
      · have hs' : h.auxSec = none := by simpa using hs
        rw [if_neg (by rw [← hbit]; exact hs)]
        by_cases hl : mode = .explicit → n + m + 2 ≤ bytes.length
        · obtain ⟨f, hf, _⟩ := C26_accepts cfg mode bytes hfit h n c m hd hs' hl
          rw [hf]
          cases mode with
          | none => rfl
          | explicit => simp only; rw [if_neg (by have := hl rfl; omega)]
        · cases mode with
          | none => exact absurd (fun h => nomatch h) hl
          | explicit =>
            have hl' : bytes.length < n + m + 2 := Nat.lt_of_not_le fun h => hl fun _ => h
            have h25 := C25_explicit_panic_iff cfg bytes hfit
            simp only
            rw [if_pos hl']
            cases ho : cfg.overflowChecks with
            | true => rw [h25.1.2 ⟨ho, h, n, c, m, hd, hs', hl'⟩]; rfl
            | false => rw [h25.2 ho ⟨h, n, c, m, hd, hs', hl'⟩]; rfl
  rw [← key]
  cases Frame.tryRead cfg mode bytes with
  | ok x =>
    obtain ⟨f, n⟩ := x
    refine ⟨fun n' => ⟨?_, ?_⟩, fun e => ⟨nofun, nofun⟩, ⟨nofun, nofun⟩⟩
    · rintro ⟨f', e⟩; cases e; rfl
    · intro e; cases e; exact ⟨f, rfl⟩
  | err e =>
    refine ⟨fun n' => ⟨?_, nofun⟩, fun e' => ⟨?_, ?_⟩, ⟨nofun, nofun⟩⟩
    · rintro ⟨f', e⟩; cases e
    · intro e; cases e; rfl
    · intro e; cases e; rfl
  | panic =>
    refine ⟨fun n' => ⟨?_, nofun⟩, fun e' => ⟨nofun, nofun⟩, ⟨fun _ => rfl, fun _ => rfl⟩⟩
    rintro ⟨f', e⟩; cases e

/-- **C77** Every reception is in the table: any slice, context, footer mode and device lookup. -/
theorem C77_every_reception {κ σ : Type} (cfg : Cfg) (aead : Aead κ) (ht : AeadTyped aead) (buf : List UInt8)
    (hfit : SliceFits cfg buf) (ctx : SerDesCtx κ) (lookup : DevLookup σ) (dev : σ) :
    ReceiveTable cfg aead buf ctx lookup dev (Frame.tryReadAndUnsecure cfg aead buf ctx lookup dev) := by
  constructor
  · intro e he
    have hno : ∀ h n c m, ¬ HeadReadable cfg buf h n c m := by
      intro h n c m hd
      rw [← headVerdict_eq cfg, Frame.readHead_ok.2 ⟨n, m, hd, rfl⟩] at he
      cases he
    rw [C45_unsecured_alike cfg aead buf hfit ctx lookup dev (fun h n c m hd => absurd hd (hno h n c m))]
    have : plainVerdict cfg .none buf = .err e := by unfold plainVerdict; rw [he]
    rw [((C77_every_plain_read cfg .none buf hfit).2.1 e).2 this]
    rfl
  · intro k hk
    rw [← headVerdict_eq cfg] at hk
    cases hr : Frame.readHead cfg buf 0 with
    | panic => exact absurd hr (Frame.readHead_no_panic _ _)
    | err e => rw [hr] at hk; cases hk
    | ok x =>
      obtain ⟨⟨h, c⟩, k'⟩ := x
      rw [hr] at hk
      cases hk
      obtain ⟨n, m, hd, rfl⟩ := Frame.readHead_ok.1 hr
      obtain ⟨rest, hw⟩ := (headOnWire_iff cfg h c (n + m) buf).2 ⟨n, m, hd, rfl⟩
      refine ⟨h, c, rest, hw, ?_⟩
      obtain ⟨mode, sc⟩ := ctx
      cases ha : h.auxSec with
      | none =>
        simp only
        rw [C45_unsecured_alike cfg aead buf hfit ⟨mode, sc⟩ lookup dev (by
          intro h' n' c' m' hd' hs
          obtain ⟨rfl, -⟩ := Frame.headReadable_unique hd hd'
          unfold Secured at hs
          rw [ha] at hs
          cases hs)]
        obtain ⟨hdo, ct, hb, hh, hct, _⟩ := hw
        rw [(C62_frame cfg .none buf hfit ⟨h, c, rest, (0, 0)⟩ buf.length).2 ⟨rfl, ha, fun _ => rfl, hdo, ct, by
          simpa [footerOctets] using hb, hh, by simpa [footerOctets] using hct⟩]
        rfl
      | some aux =>
        have hs : Secured h := by unfold Secured; rw [ha]; rfl
        cases sc with
        | none => exact C45_no_context cfg aead buf mode lookup dev h n c m hd hs
        | some sc =>
          cases mode with
          | none => exact C56_receiving_account cfg aead ht buf sc lookup dev h n c m hd aux ha
          | explicit =>
            simp only
            unfold Frame.tryReadAndUnsecure
            have hsec : h.hasSecurity = true := hs
            simp only [hr, hsec, if_true, unsecureFrame, List.take_append_drop]

/-! ## Witnesses: every row of the tables is met -/

/-- Writing: refused compression, missing context, explicit footer with context, plain, secured non-data. -/
example :
    ((⟨{ sampleHeader with source := none }, .data, [1], (0, 0)⟩ : Frame).tryWrite sampleCfg sampleAead ⟨.none, none⟩
      [9, 9, 9, 9]).1 = .err (.badInput "DisallowedPanIdCompress") ∧
    (sampleSecured.tryWrite sampleCfg sampleAead ⟨.explicit, none⟩ (List.replicate 40 9)).1 =
      .err (.badInput "MissingSecurityCtx") ∧
    (sampleSecured.tryWrite sampleCfg sampleAead ⟨.explicit, some sampleSender⟩ (List.replicate 40 9)).1 = .panic ∧
    (∃ n, (sampleFrame.tryWrite sampleCfg sampleAead ⟨.explicit, none⟩ (List.replicate 40 9)).1 = .ok n) ∧
    ({ sampleSecured with header := { sampleHeader with frameType := .beacon } }.tryWrite sampleCfg sampleAead
      ⟨.none, some sampleSender⟩ (List.replicate 40 9)).1 = .err (.badInput "NotImplemented") ∧
    (sampleSecured.tryWrite sampleCfg sampleAead ⟨.none, some sampleSender⟩ (List.replicate 20 9)).1 =
      .err .incomplete := by
  refine ⟨by decide +kernel, by decide +kernel, by decide +kernel, ⟨_, rfl⟩, by decide +kernel, by decide +kernel⟩

/-- Reading: bad header, incomplete beacon, bad command, secured, missing footer, frames. -/
example :
    plainVerdict sampleCfg .none [0x04, 0, 1] = .err (.badInput "InvalidFrameType") ∧
    plainVerdict sampleCfg .none [0x00, 0, 1, 0xFF] = .err .incomplete ∧
    plainVerdict sampleCfg .none [0x03, 0, 1, 77] = .err (.badInput "InvalidValue") ∧
    plainVerdict sampleCfg .none sampleReceived =
      .err (.badInput "SecurityEnabled (use Frame::try_read_and_unsecure)") ∧
    plainVerdict { sampleCfg with overflowChecks := true } .explicit [0x01, 0, 1, 5] = .panic ∧
    plainVerdict { sampleCfg with overflowChecks := false } .explicit [0x01, 0, 1, 5] = .err .incomplete ∧
    plainVerdict sampleCfg .explicit [0x01, 0, 1, 5, 6] = .ok 5 ∧
    plainVerdict sampleCfg .none [0x03, 0, 1, 7, 6] = .ok 5 := by
  refine ⟨by decide +kernel, by decide +kernel, by decide +kernel, by decide +kernel, by decide +kernel,
    by decide +kernel, by decide +kernel, by decide +kernel⟩

/-- Receiving: the four kinds of outcome of a readable head. -/
example : headVerdict sampleReceived = .ok 25 ∧ headVerdict [0x01, 0, 1, 5] = .ok 3 ∧
    (Frame.tryReadAndUnsecure sampleCfg sampleAead sampleReceived ⟨.none, none⟩ sampleLookup ⟨3, false⟩).1 =
      .err .invalidSecContext ∧
    (Frame.tryReadAndUnsecure sampleCfg sampleAead sampleReceived ⟨.explicit, some sampleReceiver⟩ sampleLookup
      ⟨3, false⟩).1 = .panic ∧
    (∃ x, (Frame.tryReadAndUnsecure sampleCfg sampleAead [0x01, 0, 1, 5] ⟨.explicit, some sampleReceiver⟩ sampleLookup
      ⟨3, false⟩).1 = .ok x) ∧
    (∃ x, (Frame.tryReadAndUnsecure sampleCfg sampleAead sampleReceived ⟨.none, some sampleReceiver⟩ sampleLookup
      ⟨3, false⟩).1 = .ok x) := by
  refine ⟨by decide +kernel, by decide +kernel, by decide +kernel, by decide +kernel, ⟨_, rfl⟩, ⟨_, rfl⟩⟩

end Verif
