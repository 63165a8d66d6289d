import Verif.Lemmas.HeaderProps

/-!
# Properties of MAC headers: C01–C09

Vocabulary (see `Verif/Spec`): `headerOctets` is the wire layout in arithmetic, `headerAsRead` the
documented value changes of a round trip, `headerVerdict` the exact outcome of a read.
-/

namespace Verif
open Spec

/-- A concrete compressed, secured header used to show that hypotheses can be met. -/
def sampleHeader : Header :=
  { frameType := .data, framePending := true, ackRequest := false, panIdCompress := true,
    seqNoSuppress := true, iePresent := false, version := .ieee802154_2006, seq := 77,
    destination := some (.short 0x1234 0x5678), source := some (.extended 0x4321 0x0102030405060708),
    auxSec := some ⟨⟨.encmic32, .none⟩, 5, some ⟨some (.short 0xA1B2C3D4), 9⟩⟩ }

/-- A concrete security context. -/
def sampleCtx : SecCtx Nat := ⟨7, 0x01020304, fun _ _ _ => none⟩

/-- A little-endian release build. -/
def sampleCfg : Cfg := ⟨false, .w64, .little⟩

/-- **C01** Reading a MAC header is total: never a panic, and between 3 and all octets consumed. -/
theorem C01_header_read_total (cfg : Cfg) (bytes : List UInt8) :
    Header.tryRead cfg bytes ≠ .panic ∧
    ∀ h n, Header.tryRead cfg bytes = .ok (h, n) → 3 ≤ n ∧ n ≤ bytes.length := by
  constructor
  · intro hp
    have := Header.verdict cfg bytes
    rw [hp] at this
    simp only [Out.bind] at this
    revert this
    unfold headerVerdict
    split
    · simp only []
      repeat' split
      all_goals simp
    · simp
  · intro h n hr
    exact Header.verdict_bounds (Header.verdict_of_ok hr)

example : ∃ h, Header.tryRead sampleCfg [0x01, 0x88, 0x16, 0xff, 0xff, 0xff, 0xff, 0x34, 0x12, 0x78, 0x56, 0x12]
    = .ok (h, 11) := ⟨_, rfl⟩

/-- **C02** Whatever the encoder writes for a header reads back, followed by anything, as the same
header up to the listed changes, consuming exactly what was written. -/
theorem C02_header_round_trip {κ : Type} (cfg : Cfg) (h : Header) (ctx : Option (SecCtx κ))
    (buf buf' : List UInt8) (n : Nat) (hw : h.tryWrite cfg ctx buf = (.ok n, buf'))
    (suffix : List UInt8) :
    Header.tryRead cfg (buf'.take n ++ suffix) =
      .ok (headerAsRead cfg (ctxCounter ctx) h, n) := by
  obtain ⟨he, _, _, hn, hb⟩ := Header.tryWrite_ok hw
  refine (Header.decodes cfg _ _ _).2 ⟨_, suffix, ?_, Header.headerAsRead_onWire cfg _ h he, hn⟩
  rw [hb, hn]; simp

/-- **C02** (value) For a header whose flags, PANs and auxiliary header are already in the form
that survives, the round trip is the identity. -/
theorem C02_header_round_trip_exact {κ : Type} (cfg : Cfg) (h : Header) (ctx : Option (SecCtx κ))
    (buf buf' : List UInt8) (n : Nat) (hw : h.tryWrite cfg ctx buf = (.ok n, buf'))
    (h1 : h.seqNoSuppress = false) (h2 : h.iePresent = false)
    (h3 : h.panIdCompress = true → SamePan h) (h4 : h.auxSec = none) (suffix : List UInt8) :
    Header.tryRead cfg (buf'.take n ++ suffix) = .ok (h, n) := by
  rw [C02_header_round_trip cfg h ctx buf buf' n hw suffix]
  congr 2
  rcases h with ⟨ft, fp, ar, pc, sns, ie, v, sq, de, so, au⟩
  simp only at h1 h2 h4
  subst h1 h2 h4
  cases pc
  · rfl
  · rcases de with _ | d <;> rcases so with _ | s <;> try rfl
    have := h3 rfl d s rfl rfl
    simp only [headerAsRead, sourceAsRead, Option.map_none, Header.mk.injEq, Option.some.injEq,
      true_and, and_true]
    rw [← this]
    cases s <;> rfl

example : ((sampleHeader.tryWrite sampleCfg (some sampleCtx) (List.replicate 40 0)).1 = .ok 25) := by
  decide

/-- **C03** The octets written are the layout of `headerOctets` with bits 7, 8, 9 zero. -/
theorem C03_header_layout {κ : Type} (cfg : Cfg) (h : Header) (ctx : Option (SecCtx κ))
    (buf buf' : List UInt8) (n : Nat) (hw : h.tryWrite cfg ctx buf = (.ok n, buf')) :
    buf' = headerOctets h false false false (auxAsWritten cfg (ctxCounter ctx) h.auxSec)
      ++ buf.drop n ∧
    n = (headerOctets h false false false (auxAsWritten cfg (ctxCounter ctx) h.auxSec)).length :=
  let ⟨_, _, _, hn, hb⟩ := Header.tryWrite_ok hw
  ⟨hb, hn⟩

/-- **C03** (existence) Every header with both addresses or no compression is written, given a
context if it is secured and room. -/
theorem C03_header_layout_exists {κ : Type} (cfg : Cfg) (h : Header) (ctx : Option (SecCtx κ))
    (he : Encodable h) (hc : h.auxSec.isSome = true → ctx.isSome = true) (buf : List UInt8)
    (hl : (headerOctets h false false false
      (auxAsWritten cfg (ctxCounter ctx) h.auxSec)).length ≤ buf.length) :
    ∃ n buf', h.tryWrite cfg ctx buf = (.ok n, buf') :=
  ⟨_, _, Header.tryWrite_of_room cfg h ctx he hc buf hl⟩

example : Encodable sampleHeader ∧
    (headerOctets sampleHeader false false false
      (auxAsWritten sampleCfg 0x01020304 sampleHeader.auxSec)) =
      [0x59, 0xD8, 77, 0x34, 0x12, 0x78, 0x56, 8, 7, 6, 5, 4, 3, 2, 1,
        0x15, 4, 3, 2, 1, 0xD4, 0xC3, 0xB2, 0xA1, 9] := by decide

/-- **C04** The two flags have no effect on what is written. -/
theorem C04_flags_not_written {κ : Type} (cfg : Cfg) (h : Header) (a b : Bool)
    (ctx : Option (SecCtx κ)) :
    { h with seqNoSuppress := a, iePresent := b }.tryWrite cfg ctx = h.tryWrite cfg ctx := rfl

/-- **C04** The flags survive writing and reading exactly when both are false. -/
theorem C04_flags_survive_iff {κ : Type} (cfg : Cfg) (h : Header) (ctx : Option (SecCtx κ))
    (buf buf' : List UInt8) (n : Nat) (hw : h.tryWrite cfg ctx buf = (.ok n, buf'))
    (suffix : List UInt8) :
    (∃ h', Header.tryRead cfg (buf'.take n ++ suffix) = .ok (h', n) ∧
      h'.seqNoSuppress = h.seqNoSuppress ∧ h'.iePresent = h.iePresent) ↔
    (h.seqNoSuppress = false ∧ h.iePresent = false) := by
  rw [C02_header_round_trip cfg h ctx buf buf' n hw suffix]
  constructor
  · rintro ⟨h', hh, h1, h2⟩
    simp only [Out.ok.injEq, Prod.mk.injEq, and_true] at hh
    subst hh
    exact ⟨h1.symm, h2.symm⟩
  · rintro ⟨h1, h2⟩
    exact ⟨_, rfl, h1.symm, h2.symm⟩

example : sampleHeader.seqNoSuppress = true ∧
    (sampleHeader.tryWrite sampleCfg (some sampleCtx) (List.replicate 25 0)).1 = .ok 25 := by decide

/-- **C05** With room for three octets, the encoder refuses compression exactly when an address is
missing. -/
theorem C05_compress_refused_iff {κ : Type} (cfg : Cfg) (h : Header) (ctx : Option (SecCtx κ))
    (buf : List UInt8) (hb : 3 ≤ buf.length) :
    (h.tryWrite cfg ctx buf).1 = .err (.badInput "DisallowedPanIdCompress") ↔
      h.panIdCompress = true ∧ (h.destination = none ∨ h.source = none) := by
  have hiff : (h.panIdCompress = true ∧ (h.destination = none ∨ h.source = none)) ↔
      ¬ Encodable h := by
    unfold Encodable
    cases h.panIdCompress <;> cases h.destination <;> cases h.source <;> simp
  rw [hiff]
  constructor
  · intro hw he
    have hs := Header.writes cfg h ctx he buf
    by_cases hl : (headerOctets h false false false (Header.auxWritten cfg h ctx)).length ≤ buf.length
    · rw [hs.1 hl] at hw
      unfold Header.auxResult at hw
      cases h1 : h.auxSec <;> cases h2 : ctx <;> rw [h1] at hw <;>
        simp [h2, Out.bind] at hw
    · obtain ⟨k, _, hk⟩ := hs.2 (by omega)
      rw [hk] at hw
      simp at hw
  · intro he
    have := (Header.writes_refused cfg h ctx he buf).1 (by simpa [le_length] using hb)
    rw [this]; rfl

/-- **C05** Compression saves exactly two octets. -/
theorem C05_compress_saves_two {κ : Type} (cfg : Cfg) (h : Header) (ctx : Option (SecCtx κ))
    (buf₁ buf₁' buf₂ buf₂' : List UInt8) (n₁ n₂ : Nat) (hc : h.panIdCompress = true)
    (hw₁ : h.tryWrite cfg ctx buf₁ = (.ok n₁, buf₁'))
    (hw₂ : { h with panIdCompress := false }.tryWrite cfg ctx buf₂ = (.ok n₂, buf₂')) :
    n₁ + 2 = n₂ := by
  obtain ⟨he₁, _, _, hn₁, _⟩ := Header.tryWrite_ok hw₁
  obtain ⟨he₂, _, _, hn₂, _⟩ := Header.tryWrite_ok hw₂
  have l₁ := Header.headerOctets_length h false false false
    (auxAsWritten cfg (ctxCounter ctx) h.auxSec) he₁
  have l₂ := Header.headerOctets_length _ false false false
    (auxAsWritten cfg (ctxCounter ctx) h.auxSec) he₂
  rw [← hn₁, hc] at l₁
  rw [← hn₂] at l₂
  have e : Header.octetSize { h with panIdCompress := false } = h.octetSize := rfl
  rw [e] at l₂
  simp only [bit, if_true] at l₁ l₂
  simp at l₂
  omega

/-- **C05** A compressed header that is read has a destination, and its source, if any, is in the
destination's PAN. -/
theorem C05_compress_read (cfg : Cfg) (bytes : List UInt8) (h : Header) (n : Nat)
    (hr : Header.tryRead cfg bytes = .ok (h, n)) (hc : h.panIdCompress = true) :
    ∃ d, h.destination = some d ∧ ∀ s, h.source = some s → panOf s = panOf d := by
  obtain ⟨l, s, _, hon, _⟩ := (Header.decodes cfg _ _ _).1 hr
  obtain ⟨hd, hs⟩ := hon.1 hc
  obtain ⟨d, hd⟩ := Option.isSome_iff_exists.mp hd
  exact ⟨d, hd, fun s' hs' => hs d s' hd hs'⟩

/-- **C05** A frame control field with compression, valid type, version and modes but no
destination is refused. -/
theorem C05_compress_nodest_refused (cfg : Cfg) (b0 b1 b2 : UInt8) (rest : List UInt8)
    (hc : (b0.toNat + 256 * b1.toNat) / 64 % 2 = 1) (hd : (b0.toNat + 256 * b1.toNat) / 1024 % 4 = 0)
    (hs : (b0.toNat + 256 * b1.toNat) / 16384 % 4 ≠ 1)
    (hv : (b0.toNat + 256 * b1.toNat) / 4096 % 4 ≠ 3) (ht : (b0.toNat + 256 * b1.toNat) % 8 ≠ 4) :
    Header.tryRead cfg (b0 :: b1 :: b2 :: rest) = .err (.badInput "InvalidAddressMode") := by
  have := Header.verdict cfg (b0 :: b1 :: b2 :: rest)
  simp only [headerVerdict] at this
  rw [if_neg hv, if_neg ht, if_neg (by omega), if_pos ⟨hc, hd⟩] at this
  cases hr : Header.tryRead cfg (b0 :: b1 :: b2 :: rest) with
  | ok r => rw [hr] at this; simp [Out.bind] at this
  | err e => rw [hr] at this; simpa [Out.bind] using this
  | panic => rw [hr] at this; simp [Out.bind] at this

/-- **C05** The pair of addresses of a compressed header survives exactly when both are in the
same PAN. -/
theorem C05_addresses_survive_iff {κ : Type} (cfg : Cfg) (h : Header) (ctx : Option (SecCtx κ))
    (buf buf' : List UInt8) (n : Nat) (hw : h.tryWrite cfg ctx buf = (.ok n, buf'))
    (hc : h.panIdCompress = true) (d s : Address) (hd : h.destination = some d)
    (hs : h.source = some s) (suffix : List UInt8) :
    (∃ h', Header.tryRead cfg (buf'.take n ++ suffix) = .ok (h', n) ∧
      h'.destination = some d ∧ h'.source = some s) ↔ panOf s = panOf d := by
  rw [C02_header_round_trip cfg h ctx buf buf' n hw suffix]
  have hsrc : (headerAsRead cfg (ctxCounter ctx) h).source = some (inPan (panOf d) s) := by
    simp [headerAsRead, sourceAsRead, hc, hd, hs]
  constructor
  · rintro ⟨h', hh, h1, h2⟩
    simp only [Out.ok.injEq, Prod.mk.injEq, and_true] at hh
    subst hh
    rw [hsrc, Option.some.injEq] at h2
    rw [← h2, Header.panOf_inPan]
  · intro hp
    refine ⟨_, rfl, hd, ?_⟩
    rw [hsrc, ← hp]
    cases s <;> rfl

example : (sampleHeader.tryWrite sampleCfg (some sampleCtx) (List.replicate 30 0)).1 = .ok 25 ∧
    ({ sampleHeader with panIdCompress := false }.tryWrite sampleCfg (some sampleCtx)
      (List.replicate 30 0)).1 = .ok 27 ∧
    ({ sampleHeader with source := none }.tryWrite sampleCfg (some sampleCtx)
      (List.replicate 30 0)).1 = .err (.badInput "DisallowedPanIdCompress") ∧
    Header.tryRead sampleCfg [0x41, 0x80, 0, 1, 2] = .err (.badInput "InvalidAddressMode") := by
  decide

/-- **C06** The result depends only on the octets consumed. -/
theorem C06_header_read_local (cfg : Cfg) (bytes : List UInt8) (h : Header) (n : Nat)
    (hr : Header.tryRead cfg bytes = .ok (h, n)) :
    (∀ suffix, Header.tryRead cfg (bytes.take n ++ suffix) = .ok (h, n)) ∧
    (∀ k < n, Header.tryRead cfg (bytes.take k) = .err .incomplete) := by
  refine ⟨((Header.decodes cfg).local_ hr).2.2, fun k hk => ?_⟩
  have hv := Header.verdict_prefix (Header.verdict_of_ok hr) k hk
  rw [← Header.verdict cfg] at hv
  cases hr' : Header.tryRead cfg (bytes.take k) with
  | ok r => rw [hr'] at hv; simp [Out.bind] at hv
  | err e => rw [hr'] at hv; simpa [Out.bind] using hv
  | panic => rw [hr'] at hv; simp [Out.bind] at hv

/-- **C06** (equivalent form) Two slices with the same first `n` octets read as the same header. -/
theorem C06_header_read_congr (cfg : Cfg) (bytes bytes' : List UInt8) (h : Header) (n : Nat)
    (hr : Header.tryRead cfg bytes = .ok (h, n)) (he : bytes'.take n = bytes.take n) :
    Header.tryRead cfg bytes' = .ok (h, n) := by
  have := (C06_header_read_local cfg bytes h n hr).1 (bytes'.drop n)
  rwa [← he, List.take_append_drop] at this

/-- **C07** The outcome of reading a header (octets consumed or error) is exactly `headerVerdict`,
which looks at the frame control field, the key-id mode and the length only. -/
theorem C07_header_read_verdict (cfg : Cfg) (bytes : List UInt8) :
    (∀ n, (∃ h, Header.tryRead cfg bytes = .ok (h, n)) ↔ headerVerdict bytes = .ok n) ∧
    (∀ e, Header.tryRead cfg bytes = .err e ↔ headerVerdict bytes = .err e) := by
  rw [← Header.verdict cfg bytes]
  cases hr : Header.tryRead cfg bytes with
  | ok r =>
    obtain ⟨h, m⟩ := r
    simp [Out.bind]
  | err e => simp [Out.bind]
  | panic => simp [Out.bind]

example : headerVerdict [0x09, 0x98, 1, 2, 3, 4, 5, 6, 7, 8, 9] = .err .incomplete ∧
    headerVerdict [0x09, 0x98, 1, 2, 3, 4, 5, 6, 7, 8, 9, 0x0d, 1, 2, 3, 4, 5, 6, 7] = .ok 17 ∧
    headerVerdict [0x04, 0x30, 1] = .err (.badInput "InvalidFrameVersion") ∧
    headerVerdict [0x04, 0x04, 1] = .err (.badInput "InvalidFrameType") ∧
    headerVerdict [0x41, 0x40, 1] = .err (.badInput "InvalidAddressMode") := by decide

/-- **C08** Writing a decoded unsecured header again reproduces its octets with bits 7–9 of the
frame control field cleared. -/
theorem C08_header_reencode {κ : Type} (cfg : Cfg) (ctx : Option (SecCtx κ)) (bytes : List UInt8)
    (h : Header) (n : Nat) (hr : Header.tryRead cfg bytes = .ok (h, n)) (hs : h.auxSec = none)
    (he : Encodable h) (buf : List UInt8) (hb : n ≤ buf.length) :
    h.tryWrite cfg ctx buf = (.ok n, clear789 (bytes.take n) ++ buf.drop n) := by
  obtain ⟨l, s, rfl, hon, rfl⟩ := (Header.decodes cfg _ _ _).1 hr
  obtain ⟨_, b7, aux, haux, rfl⟩ := hon
  rw [hs] at haux
  simp only [AuxOnWire] at haux
  subst haux
  have hlen : ∀ b7 b8 b9, (headerOctets h b7 b8 b9 []).length
      = (headerOctets h false false false []).length := by
    intro b7 b8 b9; simp [headerOctets]
  have hw := Header.tryWrite_of_room cfg h ctx he (by simp [hs]) buf
  simp only [hs, auxAsWritten] at hw
  rw [hlen] at hb ⊢
  rw [hw hb]
  congr 2
  rw [← hlen b7 h.seqNoSuppress h.iePresent, List.take_left, Header.clear789_octets]

/-- **C08** The decodable headers the encoder refuses are the compressed ones without a source. -/
theorem C08_refused_iff (cfg : Cfg) (bytes : List UInt8) (h : Header) (n : Nat)
    (hr : Header.tryRead cfg bytes = .ok (h, n)) :
    ¬ Encodable h ↔ h.panIdCompress = true ∧ h.source = none := by
  obtain ⟨l, s, _, hon, _⟩ := (Header.decodes cfg _ _ _).1 hr
  have h1 := hon.1
  unfold Encodable
  cases hc : h.panIdCompress
  · simp
  · have := (h1 hc).1
    simp [this]

example : ∃ h, Header.tryRead sampleCfg [0xC1, 0xAB, 3, 1, 2, 3, 4, 5, 6] = .ok (h, 9) ∧
    Encodable h ∧ h.auxSec = none ∧
    clear789 [0xC1, 0xAB, 3, 1, 2, 3, 4, 5, 6] = [0x41, 0xA8, 3, 1, 2, 3, 4, 5, 6] :=
  ⟨_, rfl, by decide, rfl, by decide⟩

example : ∃ h, Header.tryRead sampleCfg [0x41, 0x28, 3, 1, 2, 3, 4] = .ok (h, 7) ∧ ¬ Encodable h :=
  ⟨_, rfl, by decide⟩

/-- **C09** Octets written against `get_octet_size`. -/
theorem C09_octet_size {κ : Type} (cfg : Cfg) (h : Header) (ctx : Option (SecCtx κ))
    (buf buf' : List UInt8) (n : Nat) (hw : h.tryWrite cfg ctx buf = (.ok n, buf')) :
    n + (if h.panIdCompress then 2 else 0) =
      h.octetSize + (match h.auxSec with | none => 0 | some a => a.octetSize) := by
  obtain ⟨he, _, _, hn, _⟩ := Header.tryWrite_ok hw
  have := Header.headerOctets_length h false false false
    (auxAsWritten cfg (ctxCounter ctx) h.auxSec) he
  rw [← hn] at this
  have ha : (auxAsWritten cfg (ctxCounter ctx) h.auxSec).length =
      (match h.auxSec with | none => 0 | some a => a.octetSize) := by
    cases h.auxSec with
    | none => rfl
    | some a =>
      show (auxOctets _ _ _ _ _ _).length = a.octetSize
      rw [auxOctets_length, AuxHeader.octetSize_eq]
  rw [ha] at this
  rw [← this]
  cases h.panIdCompress <;> simp [bit]

/-- **C09** For every header, `get_octet_size` is the length with both PAN identifiers in full and no
auxiliary security header. -/
theorem C09_octet_size_value (h : Header) : h.octetSize = uncompressedLength h := Header.octetSize_eq h

/-- **C09** So the estimate is exact iff the header is unsecured and uncompressed. -/
theorem C09_octet_size_exact_iff {κ : Type} (cfg : Cfg) (h : Header) (ctx : Option (SecCtx κ))
    (buf buf' : List UInt8) (n : Nat) (hw : h.tryWrite cfg ctx buf = (.ok n, buf')) :
    n = h.octetSize ↔ h.panIdCompress = false ∧ h.auxSec = none := by
  have := C09_octet_size cfg h ctx buf buf' n hw
  cases hp : h.panIdCompress <;> cases ha : h.auxSec with
  | none => simp [hp, ha] at this ⊢; omega
  | some a =>
    have h5 : 5 ≤ a.octetSize := by unfold AuxHeader.octetSize; omega
    simp [hp, ha] at this ⊢; omega

example : (sampleHeader.tryWrite sampleCfg (some sampleCtx) (List.replicate 30 0)).1 = .ok 25 ∧
    sampleHeader.octetSize = 17 := by decide

end Verif
