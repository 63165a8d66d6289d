import Verif.Lemmas.FrameWrite

/-!
# Properties of plain frames: C23–C29

`HeadReadable cfg bytes h n c m`: the slice starts with a readable header `h` of `n` octets and,
behind it, content `c` of `m` octets.  `SliceFits`: the slice is one Rust can hold.
-/

namespace Verif
open Spec

/-- An arbitrary cipher, to instantiate the parameter in examples. -/
def sampleAead : Aead Nat where
  encrypt tagLen _ _ _ buf := (some (List.replicate tagLen 0xAA), buf)
  decrypt tagLen _ _ _ buf tag := (tag == List.replicate tagLen 0xAA, buf)

/-- A concrete unsecured data frame. -/
def sampleFrame : Frame where
  header := { sampleHeader with auxSec := none, seqNoSuppress := false,
                                source := some (.extended 0x1234 0x0102030405060708) }
  content := .data
  payload := [0xde, 0xf0]
  footer := (0x12, 0x34)

theorem plainFrame_reads (cfg : Cfg) (mode : FooterMode) (f : Frame) (hs : f.header.auxSec = none)
    (he : Encodable f.header) (hm : ContentMatches f.header.frameType f.content)
    (ha : ContentFromApi f.content)
    (hv : ContentSurvives (f.payload ++ footerOctets mode f.footer) f.content)
    (hfit : SliceFits cfg (plainFrameOctets mode f)) :
    Frame.tryRead cfg mode (plainFrameOctets mode f) =
      .ok ({ f with header := headerAsRead cfg 0 f.header, footer := footerAsRead mode f.footer },
        (plainFrameOctets mode f).length) := by
  rw [Frame.tryRead_eq cfg mode _ hfit]
  have hp : plainFrameOctets mode f = headerOctets f.header false false false [] ++
      (contentOctets f.content ++ (f.payload ++ footerOctets mode f.footer)) := by
    simp [plainFrameOctets]
  have haux : auxAsWritten cfg 0 f.header.auxSec = [] := by rw [hs]; rfl
  have hh : Header.tryRead cfg (plainFrameOctets mode f) = .ok (headerAsRead cfg 0 f.header,
      (headerOctets f.header false false false []).length) := by
    refine (Header.decodes cfg _ _ _).2 ⟨_, _, hp, ?_, rfl⟩
    have := Header.headerAsRead_onWire cfg 0 f.header he
    rwa [haux] at this
  have hc : FrameContent.tryRead (headerAsRead cfg 0 f.header)
      ((plainFrameOctets mode f).drop (headerOctets f.header false false false []).length)
      = .ok (f.content, (contentOctets f.content).length) := by
    rw [hp, List.drop_left]
    exact FrameContent.tryRead_octets (headerAsRead cfg 0 f.header) f.content hm ha _ hv
  rw [Frame.readHead_ok.2 ⟨_, _, ⟨hh, hc⟩, rfl⟩]
  simp only [Out.bind]
  have hd : (plainFrameOctets mode f).drop ((headerOctets f.header false false false []).length
      + (contentOctets f.content).length) = f.payload ++ footerOctets mode f.footer := by
    rw [hp, ← List.append_assoc, ← List.length_append, List.drop_left]
  unfold Frame.tailVerdict
  rw [hd]
  have hn : (headerAsRead cfg 0 f.header).auxSec.isSome = false := by simp [headerAsRead, hs]
  rw [hn]
  cases mode with
  | none => simp [footerOctets, footerAsRead]
  | explicit => simp [footerOctets, footerAsRead]

/-- **C23, C24** (general) An unsecured frame whose content matches its type and survives in front
of payload and footer reads back from exactly the octets written, with its payload, and in
explicit mode its footer, unchanged; the context is untouched. -/
theorem C23_C24_frame_round_trip {κ : Type} (cfg : Cfg) (aead : Aead κ) (f : Frame) (ctx ctx' : SerDesCtx κ)
    (buf buf' : List UInt8) (n : Nat) (hs : f.header.auxSec = none)
    (hmode : ctx.securityCtx = none ∨ ctx.footerMode = .none)
    (ha : ContentFromApi f.content) (hm : ContentMatches f.header.frameType f.content)
    (hv : ContentSurvives (f.payload ++ footerOctets ctx.footerMode f.footer) f.content)
    (hfit : SliceFits cfg buf) (hw : f.tryWrite cfg aead ctx buf = (.ok n, buf', ctx')) :
    Frame.tryRead cfg ctx.footerMode (buf'.take n) =
      .ok ({ f with header := headerAsRead cfg 0 f.header,
                    footer := footerAsRead ctx.footerMode f.footer }, n) ∧ ctx' = ctx := by
  have he := (Frame.tryWrite_ok_head hw).1
  have hp := Frame.tryWrite_plain cfg aead f ctx hs he ha hmode buf
  by_cases hl : (plainFrameOctets ctx.footerMode f).length ≤ buf.length
  · rw [hp.1 hl] at hw
    simp only [Prod.mk.injEq, Out.ok.injEq] at hw
    obtain ⟨rfl, rfl, rfl⟩ := hw
    rw [List.take_left]
    refine ⟨plainFrame_reads cfg ctx.footerMode f hs he hm ha hv ?_, rfl⟩
    unfold SliceFits at hfit ⊢; omega
  · obtain ⟨k, _, hk⟩ := hp.2 (by omega)
    rw [hk] at hw; simp at hw

/-- A header with nothing to lose comes back as it was. -/
theorem headerAsRead_same (cfg : Cfg) (c : UInt32) (h : Header) (hs : h.auxSec = none)
    (h1 : h.seqNoSuppress = false) (h2 : h.iePresent = false)
    (h3 : h.panIdCompress = true → SamePan h) : headerAsRead cfg c h = h := by
  rcases h with ⟨ft, fp, ar, pc, sns, ie, v, sq, de, so, au⟩
  simp only at hs h1 h2
  subst hs h1 h2
  cases pc
  · rfl
  · rcases de with _ | d <;> rcases so with _ | s <;> try rfl
    have := h3 rfl d s rfl rfl
    simp only [headerAsRead, sourceAsRead, Option.map_none, Header.mk.injEq, Option.some.injEq,
      true_and, and_true]
    rw [← this]
    cases s <;> rfl

/-- **C23** Without footer, a frame with a plain header is the same frame, footer zero. -/
theorem C23_round_trip_no_footer {κ : Type} (cfg : Cfg) (aead : Aead κ) (f : Frame)
    (sc : Option (SecCtx κ)) (buf buf' : List UInt8) (n : Nat) (ctx' : SerDesCtx κ)
    (hs : f.header.auxSec = none) (h1 : f.header.seqNoSuppress = false) (h2 : f.header.iePresent = false)
    (h3 : f.header.panIdCompress = true → SamePan f.header)
    (ha : ContentFromApi f.content) (hm : ContentMatches f.header.frameType f.content)
    (hv : ContentSurvives f.payload f.content) (hfit : SliceFits cfg buf)
    (hw : f.tryWrite cfg aead ⟨.none, sc⟩ buf = (.ok n, buf', ctx')) :
    Frame.tryRead cfg .none (buf'.take n) = .ok ({ f with footer := (0, 0) }, n) := by
  have := (C23_C24_frame_round_trip cfg aead f ⟨.none, sc⟩ ctx' buf buf' n hs (.inr rfl) ha hm
    (by simpa [footerOctets] using hv) hfit hw).1
  rw [headerAsRead_same cfg 0 f.header hs h1 h2 h3] at this
  exact this

/-- **C24** With explicit footer, exactly the same frame. -/
theorem C24_round_trip_explicit {κ : Type} (cfg : Cfg) (aead : Aead κ) (f : Frame)
    (buf buf' : List UInt8) (n : Nat) (ctx' : SerDesCtx κ)
    (hs : f.header.auxSec = none) (h1 : f.header.seqNoSuppress = false) (h2 : f.header.iePresent = false)
    (h3 : f.header.panIdCompress = true → SamePan f.header)
    (ha : ContentFromApi f.content) (hm : ContentMatches f.header.frameType f.content)
    (hv : ContentSurvives (f.payload ++ [f.footer.1, f.footer.2]) f.content) (hfit : SliceFits cfg buf)
    (hw : f.tryWrite cfg aead ⟨.explicit, none⟩ buf = (.ok n, buf', ctx')) :
    Frame.tryRead cfg .explicit (buf'.take n) = .ok (f, n) := by
  have := (C23_C24_frame_round_trip cfg aead f ⟨.explicit, none⟩ ctx' buf buf' n hs (.inl rfl) ha hm
    hv hfit hw).1
  rw [headerAsRead_same cfg 0 f.header hs h1 h2 h3] at this
  exact this

/-- **C23, C24** Which frames are written, and how. -/
theorem C23_C24_plain_write {κ : Type} (cfg : Cfg) (aead : Aead κ) (f : Frame) (ctx : SerDesCtx κ)
    (hs : f.header.auxSec = none) (he : Encodable f.header) (ha : ContentFromApi f.content)
    (hmode : ctx.securityCtx = none ∨ ctx.footerMode = .none) (buf : List UInt8)
    (hl : (plainFrameOctets ctx.footerMode f).length ≤ buf.length) :
    f.tryWrite cfg aead ctx buf = (.ok (plainFrameOctets ctx.footerMode f).length,
      plainFrameOctets ctx.footerMode f ++ buf.drop (plainFrameOctets ctx.footerMode f).length, ctx) :=
  (Frame.tryWrite_plain cfg aead f ctx hs he ha hmode buf).1 hl

example : (sampleFrame.tryWrite sampleCfg sampleAead ⟨.explicit, none⟩ (List.replicate 30 0)).1 = .ok 19 ∧
    ContentFromApi sampleFrame.content ∧
    ContentMatches sampleFrame.header.frameType sampleFrame.content ∧
    (∀ l, ContentSurvives l sampleFrame.content) ∧ Encodable sampleFrame.header ∧
    sampleFrame.header.auxSec = none ∧ SliceFits sampleCfg (List.replicate 30 0) :=
  ⟨by decide, trivial, rfl, fun _ => trivial, by decide, rfl, by unfold SliceFits; decide⟩

/-- **C25** Reading without footer never panics. -/
theorem C25_no_footer_no_panic (cfg : Cfg) (bytes : List UInt8) (hfit : SliceFits cfg bytes) :
    Frame.tryRead cfg .none bytes ≠ .panic := by
  rw [Frame.tryRead_eq cfg .none bytes hfit]
  cases hr : Frame.readHead cfg bytes 0 with
  | ok x => simp only [Out.bind, Frame.tailVerdict]; split <;> simp
  | err e => simp [Out.bind]
  | panic => exact absurd hr (Frame.readHead_no_panic cfg bytes)

/-- **C25** Reading with explicit footer panics exactly when overflow checks are on and an unsecured
header and content are followed by fewer than two octets; without overflow checks such a slice
is `Incomplete`. -/
theorem C25_explicit_panic_iff (cfg : Cfg) (bytes : List UInt8) (hfit : SliceFits cfg bytes) :
    (Frame.tryRead cfg .explicit bytes = .panic ↔
      cfg.overflowChecks = true ∧ ∃ h n c m, HeadReadable cfg bytes h n c m ∧ h.auxSec = none ∧
        bytes.length < n + m + 2) ∧
    (cfg.overflowChecks = false → (∃ h n c m, HeadReadable cfg bytes h n c m ∧ h.auxSec = none ∧
        bytes.length < n + m + 2) → Frame.tryRead cfg .explicit bytes = .err .incomplete) := by
  rw [Frame.tryRead_eq cfg .explicit bytes hfit]
  have short : ∀ k, k ≤ bytes.length → ((∃ f2 f1 t, (bytes.drop k).reverse = f2 :: f1 :: t) ↔
      ¬ bytes.length < k + 2) := by
    intro k hk
    constructor
    · rintro ⟨f2, f1, t, h⟩
      have := congrArg List.length h
      simp at this; omega
    · intro h
      rcases hc : (bytes.drop k).reverse with _ | ⟨a, _ | ⟨b, t⟩⟩
      · have := congrArg List.length hc; simp at this; omega
      · have := congrArg List.length hc; simp at this; omega
      · exact ⟨_, _, _, rfl⟩
  cases hr : Frame.readHead cfg bytes 0 with
  | ok x =>
    obtain ⟨⟨h, c⟩, off⟩ := x
    obtain ⟨n, m, hh, rfl⟩ := Frame.readHead_ok.1 hr
    have hb := Frame.headReadable_bound hh
    have huniq : (∃ h' n' c' m', HeadReadable cfg bytes h' n' c' m' ∧ h'.auxSec = none ∧
        bytes.length < n' + m' + 2) ↔ (h.auxSec = none ∧ bytes.length < n + m + 2) := by
      constructor
      · rintro ⟨h', n', c', m', hr', h1, h2⟩
        obtain ⟨rfl, rfl, rfl, rfl⟩ := Frame.headReadable_unique hh hr'
        exact ⟨h1, h2⟩
      · rintro ⟨h1, h2⟩; exact ⟨h, n, c, m, hh, h1, h2⟩
    rw [huniq]
    simp only [Out.bind, Frame.tailVerdict]
    cases hs : h.auxSec with
    | some a => simp
    | none =>
      simp only [Option.isSome_none, Bool.false_eq_true, if_false, true_and]
      have hsh := short (n + m) hb.2
      split
      · rename_i f2 f1 t hrev
        have := hsh.1 ⟨_, _, _, hrev⟩
        simp; omega
      · rename_i hno
        have : bytes.length < n + m + 2 := by
          apply Classical.byContradiction
          intro hcon
          obtain ⟨_, _, _, h⟩ := hsh.2 hcon
          exact hno _ _ _ h
        cases cfg.overflowChecks <;> simp [this]
  | err e =>
    have hno : ¬ ∃ h n c m, HeadReadable cfg bytes h n c m ∧ h.auxSec = none ∧
        bytes.length < n + m + 2 := by
      rintro ⟨h, n, c, m, hh, _, _⟩
      rw [Frame.readHead_ok.2 ⟨n, m, hh, rfl⟩] at hr; cases hr
    simp [Out.bind, hno]
  | panic => exact absurd hr (Frame.readHead_no_panic cfg bytes)

example : ∃ h c, HeadReadable ⟨true, .w32, .little⟩ [0x01, 0x00, 0x07, 0x99] h 3 c 0 ∧ h.auxSec = none ∧
    Frame.tryRead ⟨true, .w32, .little⟩ .explicit [0x01, 0x00, 0x07, 0x99] = .panic ∧
    Frame.tryRead ⟨false, .w32, .little⟩ .explicit [0x01, 0x00, 0x07, 0x99] = .err .incomplete :=
  ⟨_, _, ⟨rfl, rfl⟩, rfl, by decide, by decide⟩

/-- **C26** A frame that is read accounts for every octet of the slice. -/
theorem C26_accounts (cfg : Cfg) (mode : FooterMode) (bytes : List UInt8) (hfit : SliceFits cfg bytes)
    (f : Frame) (k : Nat) (hr : Frame.tryRead cfg mode bytes = .ok (f, k)) :
    k = bytes.length ∧ f.header.auxSec = none ∧
    (mode = .none → f.footer = (0, 0)) ∧
    ∃ n m, HeadReadable cfg bytes f.header n f.content m ∧
      bytes = bytes.take n ++ ((bytes.drop n).take m) ++ f.payload ++ footerOctets mode f.footer := by
  rw [Frame.tryRead_eq cfg mode bytes hfit] at hr
  cases hh : Frame.readHead cfg bytes 0 with
  | ok x =>
    obtain ⟨⟨h, c⟩, off⟩ := x
    obtain ⟨n, m, hd, rfl⟩ := Frame.readHead_ok.1 hh
    rw [hh] at hr
    simp only [Out.bind, Frame.tailVerdict] at hr
    cases hs : h.auxSec with
    | some a => simp [hs] at hr
    | none =>
      simp only [hs, Option.isSome_none, Bool.false_eq_true, if_false] at hr
      have hsplit : bytes = bytes.take n ++ ((bytes.drop n).take m ++ bytes.drop (n + m)) := by
        rw [← List.drop_drop, List.take_append_drop, List.take_append_drop]
      cases mode with
      | none =>
        simp only [Out.ok.injEq, Prod.mk.injEq] at hr
        obtain ⟨rfl, rfl⟩ := hr
        refine ⟨rfl, hs, fun _ => rfl, n, m, hd, ?_⟩
        simp only [footerOctets, List.append_nil, List.append_assoc]
        exact hsplit
      | explicit =>
        simp only at hr
        split at hr
        · rename_i f2 f1 t hrev
          simp only [Out.ok.injEq, Prod.mk.injEq] at hr
          obtain ⟨rfl, rfl⟩ := hr
          refine ⟨rfl, hs, by simp, n, m, hd, ?_⟩
          have : bytes.drop (n + m) = t.reverse ++ [f1, f2] := by
            have := congrArg List.reverse hrev
            simpa using this
          simp only [footerOctets, List.append_assoc]
          rw [← this]; exact hsplit
        · split at hr <;> simp at hr
  | err e => rw [hh] at hr; simp [Out.bind] at hr
  | panic => exact absurd hh (Frame.readHead_no_panic cfg bytes)

/-- **C26** Conversely, every unsecured head with the octets its footer mode needs is a frame. -/
theorem C26_accepts (cfg : Cfg) (mode : FooterMode) (bytes : List UInt8) (hfit : SliceFits cfg bytes)
    (h : Header) (n : Nat) (c : FrameContent) (m : Nat) (hd : HeadReadable cfg bytes h n c m)
    (hs : h.auxSec = none) (hl : mode = .explicit → n + m + 2 ≤ bytes.length) :
    ∃ f, Frame.tryRead cfg mode bytes = .ok (f, bytes.length) ∧ f.header = h ∧ f.content = c := by
  rw [Frame.tryRead_eq cfg mode bytes hfit, Frame.readHead_ok.2 ⟨n, m, hd, rfl⟩]
  simp only [Out.bind, Frame.tailVerdict, hs, Option.isSome_none, Bool.false_eq_true, if_false]
  cases mode with
  | none => exact ⟨_, rfl, rfl, rfl⟩
  | explicit =>
    have hl := hl rfl
    simp only
    split
    · exact ⟨_, rfl, rfl, rfl⟩
    · rename_i hno
      rcases hc : (bytes.drop (n + m)).reverse with _ | ⟨a, _ | ⟨b, t⟩⟩
      · have := congrArg List.length hc; simp at this; omega
      · have := congrArg List.length hc; simp at this; omega
      · exact (hno _ _ _ hc).elim

example : Frame.tryRead sampleCfg .explicit
    [0x01, 0x98, 0x01, 0xff, 0xff, 0xff, 0xff, 0x34, 0x12, 0x78, 0x56, 0xAA, 0xBB, 0x01, 0x02] =
    .ok (⟨⟨.data, false, false, false, false, false, .ieee802154_2006, 1,
        some (.short 0xffff 0xffff), some (.short 0x1234 0x5678), none⟩, .data, [0xAA, 0xBB], (1, 2)⟩, 15) := by
  decide

/-- **C27** Plain reading never yields a secured frame. -/
theorem C27_never_secured (cfg : Cfg) (mode : FooterMode) (bytes : List UInt8) (hfit : SliceFits cfg bytes)
    (f : Frame) (k : Nat) (hr : Frame.tryRead cfg mode bytes = .ok (f, k)) : f.header.auxSec = none :=
  (C26_accounts cfg mode bytes hfit f k hr).2.1

/-- **C27** A readable head with the security bit gives `SecurityEnabled`. -/
theorem C27_security_enabled (cfg : Cfg) (mode : FooterMode) (bytes : List UInt8)
    (hfit : SliceFits cfg bytes) (h : Header) (n : Nat) (c : FrameContent) (m : Nat)
    (hd : HeadReadable cfg bytes h n c m) (hs : h.auxSec.isSome = true) :
    Frame.tryRead cfg mode bytes =
      .err (.badInput "SecurityEnabled (use Frame::try_read_and_unsecure)") := by
  rw [Frame.tryRead_eq cfg mode bytes hfit, Frame.readHead_ok.2 ⟨n, m, hd, rfl⟩]
  simp [Out.bind, Frame.tailVerdict, hs]

/-- **C27** The header's security is the security bit on the air. -/
theorem C27_security_bit (cfg : Cfg) (b0 b1 : UInt8) (rest : List UInt8) (h : Header) (n : Nat)
    (hr : Header.tryRead cfg (b0 :: b1 :: rest) = .ok (h, n)) :
    h.auxSec.isSome = b0.toNat.testBit 3 := by
  obtain ⟨l, s, hl, ⟨_, b7, aux, _, rfl⟩, _⟩ := (Header.decodes cfg _ _ _).1 hr
  simp only [headerOctets, Header.le2_eq, List.cons_append, List.nil_append, List.append_assoc,
    List.cons.injEq] at hl
  rw [hl.1, UInt8.toNat_ofNat']
  have e1 := Header.typeCode_lt h.frameType
  rw [Nat.testBit_eq_decide_div_mod_eq]
  unfold frameControl
  cases h.auxSec with
  | none => simp [bit]; omega
  | some a => simp [bit]; omega

example : ∃ h c, HeadReadable sampleCfg [0x09, 0x00, 0x07, 0x05, 1, 0, 0, 0, 0xAA] h 8 c 0 ∧
    h.auxSec.isSome = true ∧ Frame.tryRead sampleCfg .none [0x09, 0x00, 0x07, 0x05, 1, 0, 0, 0, 0xAA] =
      .err (.badInput "SecurityEnabled (use Frame::try_read_and_unsecure)") :=
  ⟨_, _, ⟨rfl, rfl⟩, rfl, by decide⟩

/-- **C28** Without context no secured frame is emitted. -/
theorem C28_no_context_no_frame {κ : Type} (cfg : Cfg) (aead : Aead κ) (f : Frame) (mode : FooterMode)
    (hs : f.header.auxSec.isSome = true) (buf : List UInt8) :
    ∀ n, (f.tryWrite cfg aead ⟨mode, none⟩ buf).1 ≠ .ok n := by
  intro n hw
  have := (Frame.tryWrite_ok_head (cfg := cfg) (aead := aead) (f := f) (ctx := ⟨mode, none⟩) (buf := buf)
    (n := n) (buf' := (f.tryWrite cfg aead ⟨mode, none⟩ buf).2.1)
    (ctx' := (f.tryWrite cfg aead ⟨mode, none⟩ buf).2.2) (by rw [← hw])).2 hs
  cases this

/-- **C28** With room for the unsecured part of the header it fails with `MissingSecurityCtx`;
nothing behind the header is touched. -/
theorem C28_missing_context {κ : Type} (cfg : Cfg) (aead : Aead κ) (f : Frame) (mode : FooterMode)
    (hs : f.header.auxSec.isSome = true) (he : Encodable f.header) (buf : List UInt8)
    (hl : (headerOctets f.header false false false []).length ≤ buf.length) :
    f.tryWrite cfg aead ⟨mode, none⟩ buf = (.err (.badInput "MissingSecurityCtx"),
      headerOctets f.header false false false [] ++
        buf.drop (headerOctets f.header false false false []).length, ⟨mode, none⟩) :=
  Frame.tryWrite_err cfg aead f ⟨mode, none⟩ (Frame.writeHead_missing cfg f he hs) buf hl

example : ({ sampleFrame with header := sampleHeader }.tryWrite sampleCfg sampleAead ⟨.none, none⟩
    (List.replicate 60 0)).1 = .err (.badInput "MissingSecurityCtx") ∧
    sampleHeader.auxSec.isSome = true ∧ Encodable sampleHeader := by decide

/-- **C29** Content read is the variant named by the frame type. -/
theorem C29_content_matches (cfg : Cfg) (mode : FooterMode) (bytes : List UInt8)
    (hfit : SliceFits cfg bytes) (f : Frame) (k : Nat) (hr : Frame.tryRead cfg mode bytes = .ok (f, k)) :
    ContentMatches f.header.frameType f.content := by
  obtain ⟨_, _, _, n, m, hd, _⟩ := C26_accounts cfg mode bytes hfit f k hr
  exact FrameContent.tryRead_matches hd.2

/-- **C29** Writing does not check it: content put into a frame whose type has no content field is
written and becomes the start of the payload. -/
theorem C29_mismatch_becomes_payload {κ : Type} (cfg : Cfg) (aead : Aead κ) (f : Frame)
    (ctx ctx' : SerDesCtx κ) (buf buf' : List UInt8) (n : Nat) (hs : f.header.auxSec = none)
    (hmode : ctx.securityCtx = none ∨ ctx.footerMode = .none) (ha : ContentFromApi f.content)
    (ht : f.header.frameType ≠ .beacon ∧ f.header.frameType ≠ .macCommand)
    (hfit : SliceFits cfg buf) (hw : f.tryWrite cfg aead ctx buf = (.ok n, buf', ctx')) :
    ∃ c, ContentMatches f.header.frameType c ∧ Frame.tryRead cfg ctx.footerMode (buf'.take n) =
      .ok ({ header := headerAsRead cfg 0 f.header, content := c,
             payload := contentOctets f.content ++ f.payload,
             footer := footerAsRead ctx.footerMode f.footer }, n) := by
  obtain ⟨c, hc, hz, hcs⟩ : ∃ c, ContentMatches f.header.frameType c ∧ contentOctets c = [] ∧
      ContentFromApi c ∧ ∀ l, ContentSurvives l c := by
    cases h : f.header.frameType
    · exact absurd h ht.1
    · exact ⟨.data, rfl, rfl, trivial, fun _ => trivial⟩
    · exact ⟨.acknowledgement, rfl, rfl, trivial, fun _ => trivial⟩
    · exact absurd h ht.2
    · exact ⟨.multipurpose, rfl, rfl, trivial, fun _ => trivial⟩
    · exact ⟨.fragOrFragAck, rfl, rfl, trivial, fun _ => trivial⟩
    · exact ⟨.extended, rfl, rfl, trivial, fun _ => trivial⟩
  have he := (Frame.tryWrite_ok_head hw).1
  have hp := Frame.tryWrite_plain cfg aead f ctx hs he ha hmode buf
  by_cases hl : (plainFrameOctets ctx.footerMode f).length ≤ buf.length
  · rw [hp.1 hl] at hw
    simp only [Prod.mk.injEq, Out.ok.injEq] at hw
    obtain ⟨rfl, rfl, rfl⟩ := hw
    rw [List.take_left]
    refine ⟨c, hc, ?_⟩
    have e : plainFrameOctets ctx.footerMode f = plainFrameOctets ctx.footerMode
        { f with content := c, payload := contentOctets f.content ++ f.payload } := by
      simp [plainFrameOctets, hz]
    rw [e]
    refine plainFrame_reads cfg ctx.footerMode
      { f with content := c, payload := contentOctets f.content ++ f.payload } hs he hc hcs.1
      (hcs.2 _) ?_
    rw [← e]
    unfold SliceFits at hfit ⊢; omega
  · obtain ⟨k, _, hk⟩ := hp.2 (by omega)
    rw [hk] at hw; simp at hw

/-- **C29** In general: what comes back is what the content reader for the frame type makes of the
content's octets, payload and footer; the payload starts wherever that reader stops, and a refusal by
it is the result. -/
theorem C29_mismatch_reread {κ : Type} (cfg : Cfg) (aead : Aead κ) (f : Frame)
    (ctx ctx' : SerDesCtx κ) (buf buf' : List UInt8) (n : Nat) (hs : f.header.auxSec = none)
    (hmode : ctx.securityCtx = none ∨ ctx.footerMode = .none) (ha : ContentFromApi f.content)
    (hfit : SliceFits cfg buf) (hw : f.tryWrite cfg aead ctx buf = (.ok n, buf', ctx')) :
    let octets := contentOctets f.content ++ f.payload ++ footerOctets ctx.footerMode f.footer
    (∀ c m, FrameContent.tryRead f.header octets = .ok (c, m) →
      (ctx.footerMode = .explicit → m + 2 ≤ octets.length) →
      ∃ g, Frame.tryRead cfg ctx.footerMode (buf'.take n) = .ok (g, n) ∧
        g.header = headerAsRead cfg 0 f.header ∧ g.content = c ∧
        g.payload ++ footerOctets ctx.footerMode g.footer = octets.drop m) ∧
    (∀ e, FrameContent.tryRead f.header octets = .err e →
      Frame.tryRead cfg ctx.footerMode (buf'.take n) = .err e) := by
  intro octets
  have he := (Frame.tryWrite_ok_head hw).1
  have hp := Frame.tryWrite_plain cfg aead f ctx hs he ha hmode buf
  have hl : (plainFrameOctets ctx.footerMode f).length ≤ buf.length := by
    refine Nat.le_of_not_lt fun hlt => ?_
    obtain ⟨k, _, hk⟩ := hp.2 hlt
    rw [hk] at hw; simp at hw
  rw [hp.1 hl] at hw
  simp only [Prod.mk.injEq, Out.ok.injEq] at hw
  obtain ⟨rfl, rfl, rfl⟩ := hw
  rw [List.take_left]
  have hfit' : SliceFits cfg (plainFrameOctets ctx.footerMode f) := by unfold SliceFits at hfit ⊢; omega
  have hsplit : plainFrameOctets ctx.footerMode f = headerOctets f.header false false false [] ++ octets := by
    simp [plainFrameOctets, octets]
  have haux : auxAsWritten cfg 0 f.header.auxSec = [] := by rw [hs]; rfl
  have hh : Header.tryRead cfg (plainFrameOctets ctx.footerMode f) = .ok (headerAsRead cfg 0 f.header,
      (headerOctets f.header false false false []).length) := by
    refine (Header.decodes cfg _ _ _).2 ⟨_, _, hsplit, ?_, rfl⟩
    have := Header.headerAsRead_onWire cfg 0 f.header he
    rwa [haux] at this
  have hdrop : (plainFrameOctets ctx.footerMode f).drop (headerOctets f.header false false false []).length = octets := by
    rw [hsplit, List.drop_left]
  have hsame : FrameContent.tryRead (headerAsRead cfg 0 f.header) octets = FrameContent.tryRead f.header octets := rfl
  have hsec : (headerAsRead cfg 0 f.header).auxSec = none := by simp [headerAsRead, hs]
  constructor
  · intro c m hc hroom
    have hd : HeadReadable cfg (plainFrameOctets ctx.footerMode f) (headerAsRead cfg 0 f.header)
        (headerOctets f.header false false false []).length c m := ⟨hh, by rw [hdrop, hsame, hc]⟩
    obtain ⟨g, hg, h1, h2⟩ := C26_accepts cfg ctx.footerMode _ hfit' _ _ c m hd hsec (fun hx => by
      have := hroom hx; rw [hsplit, List.length_append]; omega)
    refine ⟨g, hg, h1, h2, ?_⟩
    obtain ⟨-, -, -, n', m', hd', hall⟩ := C26_accounts cfg ctx.footerMode _ hfit' g _ hg
    rw [h1, h2] at hd'
    obtain ⟨e1, e2⟩ := hd'
    rw [hh] at e1
    simp only [Out.ok.injEq, Prod.mk.injEq, true_and] at e1
    subst e1
    rw [hdrop, hsame, hc] at e2
    simp only [Out.ok.injEq, Prod.mk.injEq, true_and] at e2
    subst e2
    rw [hdrop] at hall
    conv at hall => lhs; rw [hsplit]
    rw [hsplit, List.take_left, List.append_assoc, List.append_assoc] at hall
    have hall := List.append_cancel_left hall
    conv at hall => lhs; rw [← List.take_append_drop m octets]
    exact (List.append_cancel_left hall).symm
  · intro e hc
    rw [Frame.tryRead_eq cfg _ _ hfit']
    have : Frame.readHead cfg (plainFrameOctets ctx.footerMode f) 0 = .err e := by
      rw [Frame.readHead_eq, hh]
      simp only [Out.bind]
      rw [hdrop, hsame, hc]
    rw [this]; rfl

example : ({ sampleFrame with content := .command .dataRequest }.tryWrite sampleCfg sampleAead
    ⟨.none, none⟩ (List.replicate 30 0)).1 = .ok 18 ∧
    ContentFromApi (.command .dataRequest) ∧ sampleFrame.header.frameType = .data :=
  ⟨by decide, trivial, rfl⟩

/-- Witness for the general form: a command frame with data content and payload 4 is written, and its
payload comes back as the content. -/
example : (Frame.tryWrite sampleCfg sampleAead
      ⟨{ sampleFrame.header with frameType := .macCommand }, .data, [4, 0xEE], (0, 0)⟩ ⟨.none, none⟩
      (List.replicate 30 0)).1 = .ok 17 ∧
    FrameContent.tryRead { sampleFrame.header with frameType := .macCommand } [4, 0xEE] =
      .ok (.command .dataRequest, 1) :=
  ⟨by decide, by decide⟩

end Verif
