import Verif.Lemmas.Codec
import Verif.Spec.HeaderSpec

/-! # Lemmas: MAC header -/

namespace Verif

open Spec

namespace Header

/-! ## Reading, split into pieces -/

def readDst (m : AddressMode) : R (Option Address) :=
  match m with
  | .none => pure none
  | .short => do
      let pan ← R.read PanId.tryRead
      let addr ← R.read ShortAddress.tryRead
      pure (some (Address.short pan addr))
  | .extended => do
      let pan ← R.read PanId.tryRead
      let addr ← R.read ExtendedAddress.tryRead
      pure (some (Address.extended pan addr))

def readSrc (m : AddressMode) (panIdCompress : Bool) (destination : Option Address) :
    R (Option Address) :=
  match m with
  | .none => pure none
  | .short =>
      if panIdCompress then do
        let d ← R.unwrap destination
        let addr ← R.read ShortAddress.tryRead
        pure (some (Address.short d.panId addr))
      else do
        let pan ← R.read PanId.tryRead
        let addr ← R.read ShortAddress.tryRead
        pure (some (Address.short pan addr))
  | .extended =>
      if panIdCompress then do
        let d ← R.unwrap destination
        let addr ← R.read ExtendedAddress.tryRead
        pure (some (Address.extended d.panId addr))
      else do
        let pan ← R.read PanId.tryRead
        let addr ← R.read ExtendedAddress.tryRead
        pure (some (Address.extended pan addr))

def readAux (cfg : Cfg) (security : Bool) : R (Option AuxHeader) :=
  match security with
  | true => do
      let a ← R.read (AuxHeader.tryRead cfg)
      pure (some a)
  | false => pure none

/-- Decoded frame control field. -/
structure Fc where
  frameType : FrameType
  version : FrameVersion
  dst : AddressMode
  src : AddressMode
  security : Bool
  framePending : Bool
  ackRequest : Bool
  panIdCompress : Bool
  seqNoSuppress : Bool
  iePresent : Bool
deriving DecidableEq

def field (bits mask off : UInt16) : UInt8 := ((bits &&& mask) >>> off).toUInt8

def readFc (bits : UInt16) : Out ByteErr Fc :=
  match FrameVersion.fromBits (field bits FcMask.VERSION FcOffset.VERSION) with
  | none => .err (.badInput "InvalidFrameVersion")
  | some version =>
  match FrameType.fromBits (field bits FcMask.FRAME_TYPE FcOffset.FRAME_TYPE) with
  | none => .err (.badInput "InvalidFrameType")
  | some frameType =>
  match AddressMode.fromBits (field bits FcMask.DEST_ADDR_MODE FcOffset.DEST_ADDR_MODE) with
  | .err e => .err e.toByteErr
  | .panic => .panic
  | .ok dst =>
  match AddressMode.fromBits (field bits FcMask.SRC_ADDR_MODE FcOffset.SRC_ADDR_MODE) with
  | .err e => .err e.toByteErr
  | .panic => .panic
  | .ok src => .ok {
      frameType, version, dst, src
      security := field bits FcMask.SECURITY FcOffset.SECURITY > 0
      framePending := field bits FcMask.PENDING FcOffset.PENDING > 0
      ackRequest := field bits FcMask.ACK FcOffset.ACK > 0
      panIdCompress := field bits FcMask.PAN_ID_COMPRESS FcOffset.PAN_ID_COMPRESS > 0
      seqNoSuppress := field bits FcMask.SEQ_NO_SUPPRESS FcOffset.SEQ_NO_SUPPRESS > 0
      iePresent := field bits FcMask.IE_PRESENT FcOffset.IE_PRESENT > 0 }

def readTail (cfg : Cfg) (fc : Fc) (seq : UInt8) (destination : Option Address) : R Header := do
  let source ← readSrc fc.src fc.panIdCompress destination
  let auxSec ← readAux cfg fc.security
  pure { frameType := fc.frameType, framePending := fc.framePending, ackRequest := fc.ackRequest,
         panIdCompress := fc.panIdCompress, seqNoSuppress := fc.seqNoSuppress,
         iePresent := fc.iePresent, version := fc.version, seq, destination, source, auxSec }

def readBody (cfg : Cfg) (fc : Fc) : R Header := do
  let seq ← R.read tryReadU8
  let destination ← readDst fc.dst
  if fc.panIdCompress then
    let _ ← R.okOr destination (ByteErr.badInput "InvalidAddressMode")
    readTail cfg fc seq destination
  else readTail cfg fc seq destination

def readAll (cfg : Cfg) : R Header := do
  let bits ← R.read (tryReadU16 .little)
  let fc ← R.lift (readFc bits)
  readBody cfg fc

theorem tryRead_eq (cfg : Cfg) (bytes : List UInt8) : Header.tryRead cfg bytes =
    if bytes.length < 3 then .err .incomplete else readAll cfg bytes 0 := by
  unfold Header.tryRead R.run
  rw [R.bind_apply]
  by_cases h : bytes.length < 3
  · simp [R.checkLen, h]
  · simp only [R.checkLen, List.drop_zero, h, if_false]
    unfold readAll
    rw [R.bind_apply, R.bind_apply]
    split
    · rename_i bits off hb
      rw [R.bind_apply]
      simp only [readFc, field]
      cases hv : FrameVersion.fromBits ((bits &&& FcMask.VERSION) >>> FcOffset.VERSION).toUInt8 with
      | none => rfl
      | some v =>
      cases hf : FrameType.fromBits ((bits &&& FcMask.FRAME_TYPE) >>> FcOffset.FRAME_TYPE).toUInt8 with
      | none => rfl
      | some ft =>
      cases hd : AddressMode.fromBits
        ((bits &&& FcMask.DEST_ADDR_MODE) >>> FcOffset.DEST_ADDR_MODE).toUInt8 with
      | err e => rfl
      | panic => rfl
      | ok d =>
      cases hs : AddressMode.fromBits
        ((bits &&& FcMask.SRC_ADDR_MODE) >>> FcOffset.SRC_ADDR_MODE).toUInt8 with
      | err e => rfl
      | panic => rfl
      | ok d => rfl
    · rfl
    · rfl

/-! ## The frame control field -/

/-- Addressing mode code. -/
def amCode : AddressMode → Nat
  | .none => 0 | .short => 2 | .extended => 3

theorem amCode_ofOption (a : Option Address) : amCode (AddressMode.ofOption a) = modeCode a := by
  rcases a with _ | ⟨_ | _⟩ <;> rfl

theorem nat_field (n o w : Nat) : (n &&& ((2 ^ w - 1) <<< o)) >>> o = n / 2 ^ o % 2 ^ w := by
  rw [Nat.shiftRight_and_distrib, Nat.shiftLeft_shiftRight, Nat.and_two_pow_sub_one_eq_mod,
    Nat.shiftRight_eq_div_pow]

theorem field_eq (bits mask off : UInt16) (o w : Nat) (ho : off.toNat = o) (ho' : o < 16)
    (hm : mask.toNat = (2 ^ w - 1) <<< o) :
    field bits mask off = UInt8.ofNat (bits.toNat / 2 ^ o % 2 ^ w) := by
  apply UInt8.toNat_inj.mp
  simp only [field, UInt16.toNat_toUInt8, UInt16.toNat_shiftRight, UInt16.toNat_and, ho, hm,
    UInt8.toNat_ofNat']
  rw [Nat.mod_eq_of_lt ho', nat_field]

theorem field_type (bits : UInt16) :
    field bits FcMask.FRAME_TYPE FcOffset.FRAME_TYPE = UInt8.ofNat (bits.toNat % 8) := by
  rw [field_eq bits _ _ 0 3 rfl (by omega) rfl]; simp
theorem field_security (bits : UInt16) :
    field bits FcMask.SECURITY FcOffset.SECURITY = UInt8.ofNat (bits.toNat / 8 % 2) :=
  field_eq bits _ _ 3 1 rfl (by omega) rfl
theorem field_pending (bits : UInt16) :
    field bits FcMask.PENDING FcOffset.PENDING = UInt8.ofNat (bits.toNat / 16 % 2) :=
  field_eq bits _ _ 4 1 rfl (by omega) rfl
theorem field_ack (bits : UInt16) :
    field bits FcMask.ACK FcOffset.ACK = UInt8.ofNat (bits.toNat / 32 % 2) :=
  field_eq bits _ _ 5 1 rfl (by omega) rfl
theorem field_compress (bits : UInt16) :
    field bits FcMask.PAN_ID_COMPRESS FcOffset.PAN_ID_COMPRESS = UInt8.ofNat (bits.toNat / 64 % 2) :=
  field_eq bits _ _ 6 1 rfl (by omega) rfl
theorem field_suppress (bits : UInt16) :
    field bits FcMask.SEQ_NO_SUPPRESS FcOffset.SEQ_NO_SUPPRESS = UInt8.ofNat (bits.toNat / 256 % 2) :=
  field_eq bits _ _ 8 1 rfl (by omega) rfl
theorem field_ie (bits : UInt16) :
    field bits FcMask.IE_PRESENT FcOffset.IE_PRESENT = UInt8.ofNat (bits.toNat / 512 % 2) :=
  field_eq bits _ _ 9 1 rfl (by omega) rfl
theorem field_dst (bits : UInt16) :
    field bits FcMask.DEST_ADDR_MODE FcOffset.DEST_ADDR_MODE = UInt8.ofNat (bits.toNat / 1024 % 4) :=
  field_eq bits _ _ 10 2 rfl (by omega) rfl
theorem field_version (bits : UInt16) :
    field bits FcMask.VERSION FcOffset.VERSION = UInt8.ofNat (bits.toNat / 4096 % 4) :=
  field_eq bits _ _ 12 2 rfl (by omega) rfl
theorem field_src (bits : UInt16) :
    field bits FcMask.SRC_ADDR_MODE FcOffset.SRC_ADDR_MODE = UInt8.ofNat (bits.toNat / 16384 % 4) :=
  field_eq bits _ _ 14 2 rfl (by omega) rfl

theorem version_iff (k : Nat) (h : k < 4) (v : FrameVersion) :
    FrameVersion.fromBits (UInt8.ofNat k) = some v ↔ versionCode v = k := by
  have : k = 0 ∨ k = 1 ∨ k = 2 ∨ k = 3 := by omega
  rcases this with rfl | rfl | rfl | rfl <;> cases v <;> decide

theorem type_iff (k : Nat) (h : k < 8) (t : FrameType) :
    FrameType.fromBits (UInt8.ofNat k) = some t ↔ typeCode t = k := by
  have : k = 0 ∨ k = 1 ∨ k = 2 ∨ k = 3 ∨ k = 4 ∨ k = 5 ∨ k = 6 ∨ k = 7 := by omega
  rcases this with rfl | rfl | rfl | rfl | rfl | rfl | rfl | rfl <;> cases t <;> decide

theorem mode_iff (k : Nat) (h : k < 4) (m : AddressMode) :
    AddressMode.fromBits (UInt8.ofNat k) = .ok m ↔ amCode m = k := by
  have : k = 0 ∨ k = 1 ∨ k = 2 ∨ k = 3 := by omega
  rcases this with rfl | rfl | rfl | rfl <;> cases m <;> decide

theorem flag_iff (k : Nat) (h : k < 2) (b : Bool) :
    decide (UInt8.ofNat k > 0) = b ↔ bit b = k := by
  have : k = 0 ∨ k = 1 := by omega
  rcases this with rfl | rfl <;> cases b <;> decide

/-- The number a decoded frame control field stands for. -/
def fcNat (fc : Fc) (b7 : Bool) : Nat :=
  typeCode fc.frameType + 8 * bit fc.security + 16 * bit fc.framePending
    + 32 * bit fc.ackRequest + 64 * bit fc.panIdCompress + 128 * bit b7
    + 256 * bit fc.seqNoSuppress + 512 * bit fc.iePresent + 1024 * amCode fc.dst
    + 4096 * versionCode fc.version + 16384 * amCode fc.src

theorem bit_lt (b : Bool) : bit b < 2 := by cases b <;> decide
theorem typeCode_lt (t : FrameType) : typeCode t < 8 := by cases t <;> decide
theorem versionCode_lt (t : FrameVersion) : versionCode t < 4 := by cases t <;> decide
theorem amCode_lt (t : AddressMode) : amCode t < 4 := by cases t <;> decide

theorem readFc_ok (bits : UInt16) (fc : Fc) :
    readFc bits = .ok fc ↔ ∃ b7, bits.toNat = fcNat fc b7 := by
  have hn := bits.toNat_lt
  generalize hbn : bits.toNat = n at *
  have key : readFc bits = .ok fc ↔
      versionCode fc.version = n / 4096 % 4 ∧ typeCode fc.frameType = n % 8 ∧
      amCode fc.dst = n / 1024 % 4 ∧ amCode fc.src = n / 16384 % 4 ∧
      bit fc.security = n / 8 % 2 ∧ bit fc.framePending = n / 16 % 2 ∧
      bit fc.ackRequest = n / 32 % 2 ∧ bit fc.panIdCompress = n / 64 % 2 ∧
      bit fc.seqNoSuppress = n / 256 % 2 ∧ bit fc.iePresent = n / 512 % 2 := by
    rw [← version_iff _ (by omega), ← type_iff _ (by omega), ← mode_iff _ (by omega),
      ← mode_iff _ (by omega), ← flag_iff _ (by omega), ← flag_iff _ (by omega),
      ← flag_iff _ (by omega), ← flag_iff _ (by omega), ← flag_iff _ (by omega),
      ← flag_iff _ (by omega)]
    unfold readFc
    rw [field_type, field_security, field_pending, field_ack, field_compress, field_suppress,
      field_ie, field_dst, field_version, field_src, hbn]
    rcases fc with ⟨t, v, d, s, f1, f2, f3, f4, f5, f6⟩
    cases FrameVersion.fromBits (UInt8.ofNat (n / 4096 % 4)) with
    | none => simp
    | some v' =>
    cases FrameType.fromBits (UInt8.ofNat (n % 8)) with
    | none => simp
    | some t' =>
    cases AddressMode.fromBits (UInt8.ofNat (n / 1024 % 4)) with
    | err e => simp
    | panic => simp
    | ok d' =>
    cases AddressMode.fromBits (UInt8.ofNat (n / 16384 % 4)) with
    | err e => simp
    | panic => simp
    | ok s' =>
      simp only [Out.ok.injEq, Option.some.injEq, Fc.mk.injEq]
      constructor
      · rintro ⟨h1, h2, h3, h4, h5⟩; exact ⟨h2, h1, h3, h4, h5⟩
      · rintro ⟨h2, h1, h3, h4, h5⟩; exact ⟨h1, h2, h3, h4, h5⟩
  rw [key]
  have := typeCode_lt fc.frameType
  have := versionCode_lt fc.version
  have := amCode_lt fc.dst
  have := amCode_lt fc.src
  have := bit_lt fc.security
  have := bit_lt fc.framePending
  have := bit_lt fc.ackRequest
  have := bit_lt fc.panIdCompress
  have := bit_lt fc.seqNoSuppress
  have := bit_lt fc.iePresent
  unfold fcNat
  constructor
  · intro h
    refine ⟨decide (n / 128 % 2 = 1), ?_⟩
    have hb : bit (decide (n / 128 % 2 = 1)) = n / 128 % 2 := by
      have : n / 128 % 2 = 0 ∨ n / 128 % 2 = 1 := by omega
      rcases this with h | h <;> rw [h] <;> rfl
    rw [hb]
    omega
  · rintro ⟨b7, h⟩
    have := bit_lt b7
    omega

theorem version_some (n : Nat) (h : n / 4096 % 4 ≠ 3) :
    ∃ v, FrameVersion.fromBits (UInt8.ofNat (n / 4096 % 4)) = some v := by
  have : n / 4096 % 4 = 0 ∨ n / 4096 % 4 = 1 ∨ n / 4096 % 4 = 2 := by omega
  rcases this with h | h | h <;> rw [h] <;> exact ⟨_, rfl⟩

theorem type_some (n : Nat) (h : n % 8 ≠ 4) :
    ∃ v, FrameType.fromBits (UInt8.ofNat (n % 8)) = some v := by
  have : n % 8 = 0 ∨ n % 8 = 1 ∨ n % 8 = 2 ∨ n % 8 = 3 ∨ n % 8 = 5 ∨ n % 8 = 6 ∨
    n % 8 = 7 := by omega
  rcases this with h | h | h | h | h | h | h <;> rw [h] <;> exact ⟨_, rfl⟩

theorem mode_some (k : Nat) (h : k % 4 ≠ 1) :
    ∃ d, AddressMode.fromBits (UInt8.ofNat (k % 4)) = .ok d := by
  have : k % 4 = 0 ∨ k % 4 = 2 ∨ k % 4 = 3 := by omega
  rcases this with h | h | h <;> rw [h] <;> exact ⟨_, rfl⟩

/-- The errors of the frame control field. -/
theorem readFc_badVersion (bits : UInt16) (h : bits.toNat / 4096 % 4 = 3) :
    readFc bits = .err (.badInput "InvalidFrameVersion") := by
  unfold readFc
  rw [field_version, h]; rfl

theorem readFc_badType (bits : UInt16) (h1 : bits.toNat / 4096 % 4 ≠ 3) (h : bits.toNat % 8 = 4) :
    readFc bits = .err (.badInput "InvalidFrameType") := by
  obtain ⟨v, hv⟩ := version_some _ h1
  unfold readFc
  rw [field_version, hv, field_type, h]; rfl

theorem readFc_badMode (bits : UInt16) (h1 : bits.toNat / 4096 % 4 ≠ 3) (h2 : bits.toNat % 8 ≠ 4)
    (h : bits.toNat / 1024 % 4 = 1 ∨ bits.toNat / 16384 % 4 = 1) :
    readFc bits = .err (.badInput "InvalidAddressMode") := by
  obtain ⟨v, hv⟩ := version_some _ h1
  obtain ⟨t, ht⟩ := type_some _ h2
  unfold readFc
  rw [field_version, hv, field_type, ht, field_dst, field_src]
  by_cases hd : bits.toNat / 1024 % 4 = 1
  · rw [hd]; rfl
  · obtain ⟨d, hd'⟩ := mode_some _ hd
    have hs : bits.toNat / 16384 % 4 = 1 := by omega
    rw [hd', hs]; rfl

/-- A valid frame control field decodes. -/
theorem readFc_total (bits : UInt16) (h1 : bits.toNat / 4096 % 4 ≠ 3) (h2 : bits.toNat % 8 ≠ 4)
    (h3 : bits.toNat / 1024 % 4 ≠ 1) (h4 : bits.toNat / 16384 % 4 ≠ 1) :
    ∃ fc, readFc bits = .ok fc := by
  obtain ⟨v, hv⟩ := version_some _ h1
  obtain ⟨t, ht⟩ := type_some _ h2
  obtain ⟨d, hd⟩ := mode_some _ h3
  obtain ⟨s, hs⟩ := mode_some _ h4
  unfold readFc
  rw [field_version, hv, field_type, ht, field_dst, field_src, hd, hs]
  exact ⟨_, rfl⟩

/-! ## Reading the rest -/

theorem readDst_dec (m : AddressMode) : RDec (readDst m) (fun d l =>
    AddressMode.ofOption d = m ∧ l = dstOctets d) := by
  cases m
  · refine RDec.congr (RDec.pure _) ?_
    rintro (_ | ⟨p, a⟩ | ⟨p, a⟩) l <;> simp [AddressMode.ofOption, dstOctets]
  · refine RDec.congr (RDec.readBind PanId.decodes fun _ => RDec.readBind ShortAddress.decodes
      fun _ => RDec.pure _) ?_
    rintro (_ | ⟨p, a⟩ | ⟨p, a⟩) l <;>
      simp [AddressMode.ofOption, dstOctets, fullAddrOctets, Spec.addrOctets, panOf]
    grind
  · refine RDec.congr (RDec.readBind PanId.decodes fun _ => RDec.readBind ExtendedAddress.decodes
      fun _ => RDec.pure _) ?_
    rintro (_ | ⟨p, a⟩ | ⟨p, a⟩) l <;>
      simp [AddressMode.ofOption, dstOctets, fullAddrOctets, Spec.addrOctets, panOf]
    grind

theorem panId_eq (a : Address) : a.panId = panOf a := by cases a <;> rfl

theorem readSrc_dec (m : AddressMode) (c : Bool) (d : Option Address)
    (hd : c = true → d.isSome = true) : RDec (readSrc m c d) (fun s l =>
    AddressMode.ofOption s = m ∧ l = srcOctets c s ∧
      (c = true → ∀ d' s', d = some d' → s = some s' → panOf s' = panOf d')) := by
  cases c
  · cases m
    · refine RDec.congr (RDec.pure _) ?_
      rintro (_ | ⟨p, a⟩ | ⟨p, a⟩) l <;> simp [AddressMode.ofOption, srcOctets]
    · refine RDec.congr (RDec.readBind PanId.decodes fun _ => RDec.readBind ShortAddress.decodes
        fun _ => RDec.pure _) ?_
      rintro (_ | ⟨p, a⟩ | ⟨p, a⟩) l <;>
        simp [AddressMode.ofOption, srcOctets, fullAddrOctets, Spec.addrOctets, panOf]
      grind
    · refine RDec.congr (RDec.readBind PanId.decodes fun _ => RDec.readBind ExtendedAddress.decodes
        fun _ => RDec.pure _) ?_
      rintro (_ | ⟨p, a⟩ | ⟨p, a⟩) l <;>
        simp [AddressMode.ofOption, srcOctets, fullAddrOctets, Spec.addrOctets, panOf]
      grind
  · obtain ⟨d, rfl⟩ := Option.isSome_iff_exists.mp (hd rfl)
    cases m
    · refine RDec.congr (RDec.pure _) ?_
      rintro (_ | ⟨p, a⟩ | ⟨p, a⟩) l <;> simp [AddressMode.ofOption, srcOctets]
    · refine RDec.congr (RDec.readBind ShortAddress.decodes
        fun _ => RDec.pure _) ?_
      rintro (_ | ⟨p, a⟩ | ⟨p, a⟩) l <;>
        simp [AddressMode.ofOption, srcOctets, Spec.addrOctets, panOf, panId_eq]
    · refine RDec.congr (RDec.readBind ExtendedAddress.decodes
        fun _ => RDec.pure _) ?_
      rintro (_ | ⟨p, a⟩ | ⟨p, a⟩) l <;>
        simp [AddressMode.ofOption, srcOctets, Spec.addrOctets, panOf, panId_eq]

theorem readAux_dec (cfg : Cfg) (sec : Bool) : RDec (readAux cfg sec) (fun a l =>
    a.isSome = sec ∧ AuxOnWire cfg a l) := by
  cases sec
  · refine RDec.congr (RDec.pure _) ?_
    rintro (_ | a) l <;> simp [AuxOnWire]
  · refine RDec.congr (RDec.bind (RDec.read (AuxHeader.decodes cfg)) fun _ => RDec.pure _) ?_
    rintro (_ | a) l
    · simp
    · constructor
      · rintro ⟨a', l₁, l₂, rfl, h, h2, rfl⟩
        simp only [Option.some.injEq] at h2
        subst h2
        exact ⟨rfl, by simpa [AuxOnWire] using h⟩
      · rintro ⟨_, h⟩
        exact ⟨a, l, [], by simp, h, rfl, rfl⟩

/-- Header assembled from its parts. -/
theorem readTail_dec (cfg : Cfg) (fc : Fc) (seq : UInt8) (d : Option Address)
    (hd : fc.panIdCompress = true → d.isSome = true) : RDec (readTail cfg fc seq d) (fun h l =>
      h.frameType = fc.frameType ∧ h.framePending = fc.framePending ∧
      h.ackRequest = fc.ackRequest ∧ h.panIdCompress = fc.panIdCompress ∧
      h.seqNoSuppress = fc.seqNoSuppress ∧ h.iePresent = fc.iePresent ∧ h.version = fc.version ∧
      h.seq = seq ∧ h.destination = d ∧ AddressMode.ofOption h.source = fc.src ∧
      h.auxSec.isSome = fc.security ∧ (fc.panIdCompress = true → SamePan h) ∧
      ∃ aux, AuxOnWire cfg h.auxSec aux ∧ l = srcOctets fc.panIdCompress h.source ++ aux) := by
  refine RDec.congr (RDec.bind (readSrc_dec fc.src fc.panIdCompress d hd) fun s =>
    RDec.bind (readAux_dec cfg fc.security) fun a => RDec.pure _) ?_
  rintro ⟨ft, fp, ar, pc, sns, ie, v, sq, de, so, au⟩ l
  constructor
  · rintro ⟨s, l₁, l₂, rfl, ⟨h1, rfl, h2⟩, a, l₃, l₄, rfl, ⟨h3, h4⟩, h5, rfl⟩
    simp only [Header.mk.injEq] at h5
    obtain ⟨rfl, rfl, rfl, rfl, rfl, rfl, rfl, rfl, rfl, rfl, rfl⟩ := h5
    exact ⟨rfl, rfl, rfl, rfl, rfl, rfl, rfl, rfl, rfl, h1, h3,
      fun hc d' s' e1 e2 => h2 hc d' s' e1 e2, l₃, h4, by simp⟩
  · rintro ⟨h1, h2, h3, h4, h5, h6, h7, h8, h9, h10, h11, h12, aux, h13, rfl⟩
    simp only at h1 h2 h3 h4 h5 h6 h7 h8 h9 h10 h11 h13
    subst h1 h2 h3 h4 h5 h6 h7 h8 h9
    exact ⟨so, _, aux, rfl, ⟨h10, rfl, fun hc d' s' e1 e2 => h12 hc d' s' e1 e2⟩, au, aux, [],
      by simp, ⟨h11, h13⟩, rfl, rfl⟩

theorem readBody_dec (cfg : Cfg) (fc : Fc) : RDec (readBody cfg fc) (fun h l =>
      h.frameType = fc.frameType ∧ h.framePending = fc.framePending ∧
      h.ackRequest = fc.ackRequest ∧ h.panIdCompress = fc.panIdCompress ∧
      h.seqNoSuppress = fc.seqNoSuppress ∧ h.iePresent = fc.iePresent ∧ h.version = fc.version ∧
      AddressMode.ofOption h.destination = fc.dst ∧ AddressMode.ofOption h.source = fc.src ∧
      h.auxSec.isSome = fc.security ∧
      (fc.panIdCompress = true → h.destination.isSome = true ∧ SamePan h) ∧
      ∃ aux, AuxOnWire cfg h.auxSec aux ∧
        l = [h.seq] ++ dstOctets h.destination ++ srcOctets fc.panIdCompress h.source ++ aux) := by
  have tail : ∀ seq d, RDec
      (if fc.panIdCompress then do
          let _ ← R.okOr d (ByteErr.badInput "InvalidAddressMode")
          readTail cfg fc seq d
        else readTail cfg fc seq d) (fun h l =>
      h.frameType = fc.frameType ∧ h.framePending = fc.framePending ∧
      h.ackRequest = fc.ackRequest ∧ h.panIdCompress = fc.panIdCompress ∧
      h.seqNoSuppress = fc.seqNoSuppress ∧ h.iePresent = fc.iePresent ∧ h.version = fc.version ∧
      h.seq = seq ∧ h.destination = d ∧ AddressMode.ofOption h.source = fc.src ∧
      h.auxSec.isSome = fc.security ∧ (fc.panIdCompress = true → d.isSome = true ∧ SamePan h) ∧
      ∃ aux, AuxOnWire cfg h.auxSec aux ∧ l = srcOctets fc.panIdCompress h.source ++ aux) := by
    intro seq d
    by_cases hc : fc.panIdCompress = true
    · rw [if_pos hc]
      cases d with
      | none =>
        refine RDec.congr (RDec.fail (ByteErr.badInput "InvalidAddressMode")) ?_
        intro h l
        simp [hc]
      | some d =>
        refine RDec.congr (readTail_dec cfg fc seq (some d) (fun _ => rfl)) ?_
        intro h l
        simp [hc]
    · rw [if_neg hc]
      refine RDec.congr (readTail_dec cfg fc seq d (fun h => absurd h hc)) ?_
      intro h l
      simp [hc]
  refine RDec.congr (RDec.readBind Decodes.u8 fun seq => RDec.bind (readDst_dec fc.dst)
    fun d => tail seq d) ?_
  intro h l
  constructor
  · rintro ⟨seq, l₂, rfl, d, l₃, l₄, rfl, ⟨h1, rfl⟩, h2, h3, h4, h5, h6, h7, h8, rfl, rfl, h9, h10,
      h11, aux, h12, rfl⟩
    exact ⟨h2, h3, h4, h5, h6, h7, h8, h1, h9, h10, h11, aux, h12, by simp⟩
  · rintro ⟨h2, h3, h4, h5, h6, h7, h8, h1, h9, h10, h11, aux, h12, rfl⟩
    exact ⟨h.seq, _, by rw [List.append_assoc, List.append_assoc], h.destination, _, _, rfl, ⟨h1, rfl⟩, h2, h3, h4, h5,
      h6, h7, h8, rfl, rfl, h9, h10, h11, aux, h12, rfl⟩

theorem readAll_dec (cfg : Cfg) : RDec (readAll cfg) (HeaderOnWire cfg) := by
  refine RDec.congr (RDec.readBind (Decodes.u16 .little) fun bits =>
    RDec.bind (RDec.lift (readFc bits)) fun fc => readBody_dec cfg fc) ?_
  intro h l
  constructor
  · rintro ⟨bits, l₂, rfl, fc, l₃, l₄, rfl, ⟨hfc, rfl⟩, h1, h2, h3, h4, h5, h6, h7, h8, h9, h10,
      h11, aux, h12, rfl⟩
    obtain ⟨b7, hb⟩ := (readFc_ok _ _).1 hfc
    refine ⟨by rw [h4]; exact h11, b7, aux, h12, ?_⟩
    have : bits.toNat = frameControl h b7 h.seqNoSuppress h.iePresent := by
      rw [hb]
      simp only [fcNat, frameControl, ← amCode_ofOption, h1, h2, h3, h4, h5, h6, h7, h8, h9, h10]
    simp [headerOctets, inOrder, this, h4]
  · rintro ⟨h11, b7, aux, h12, rfl⟩
    let fc : Fc := ⟨h.frameType, h.version, AddressMode.ofOption h.destination,
      AddressMode.ofOption h.source, h.auxSec.isSome, h.framePending, h.ackRequest,
      h.panIdCompress, h.seqNoSuppress, h.iePresent⟩
    have hn : fcNat fc b7 = frameControl h b7 h.seqNoSuppress h.iePresent := by
      simp [fcNat, frameControl, ← amCode_ofOption, fc]
    have hlt : fcNat fc b7 < 65536 := by
      have := typeCode_lt fc.frameType
      have := versionCode_lt fc.version
      have := amCode_lt fc.dst
      have := amCode_lt fc.src
      have := bit_lt fc.security
      have := bit_lt fc.framePending
      have := bit_lt fc.ackRequest
      have := bit_lt fc.panIdCompress
      have := bit_lt fc.seqNoSuppress
      have := bit_lt fc.iePresent
      have := bit_lt b7
      unfold fcNat
      omega
    have hb : (UInt16.ofNat (fcNat fc b7)).toNat = fcNat fc b7 := by
      simp; omega
    refine ⟨UInt16.ofNat (fcNat fc b7), _, ?_, fc, [], _, rfl, ⟨(readFc_ok _ _).2 ⟨b7, hb⟩, rfl⟩,
      rfl, rfl, rfl, rfl, rfl, rfl, rfl, rfl, rfl, rfl, h11, aux, h12, rfl⟩
    rw [hb, hn]
    simp [headerOctets, inOrder, fc]

/-- Exact description of the slices that read as a header. -/
theorem decodes (cfg : Cfg) : Decodes (Header.tryRead cfg) (HeaderOnWire cfg) := by
  intro bytes h n
  rw [tryRead_eq]
  have := readAll_dec cfg [] bytes h n
  simp only [List.nil_append, List.length_nil, Nat.zero_add] at this
  by_cases hl : bytes.length < 3
  · rw [if_pos hl]
    constructor
    · intro h; cases h
    · rintro ⟨l, s, rfl, ⟨_, b7, aux, _, rfl⟩, _⟩
      simp [headerOctets] at hl
      omega
  · rw [if_neg hl]; exact this

/-! ## Outcomes of reading the rest -/

theorem readDst_needs (m : AddressMode) :
    RNeeds (readDst m) (fun _ => addrLength (amCode m) true) := by
  cases m
  · exact RNeeds.pure _
  · exact RNeeds.congr (RNeeds.bindFixed (RNeeds.read PanId.needs) fun _ =>
      RNeeds.bindFixed (RNeeds.read ShortAddress.needs) fun _ => RNeeds.pure _) fun _ => rfl
  · exact RNeeds.congr (RNeeds.bindFixed (RNeeds.read PanId.needs) fun _ =>
      RNeeds.bindFixed (RNeeds.read ExtendedAddress.needs) fun _ => RNeeds.pure _) fun _ => rfl

theorem readSrc_needs (m : AddressMode) (c : Bool) (d : Option Address)
    (hd : c = true → d.isSome = true) :
    RNeeds (readSrc m c d) (fun _ => addrLength (amCode m) (!c)) := by
  cases c
  · cases m
    · exact RNeeds.pure _
    · exact RNeeds.congr (RNeeds.bindFixed (RNeeds.read PanId.needs) fun _ =>
        RNeeds.bindFixed (RNeeds.read ShortAddress.needs) fun _ => RNeeds.pure _) fun _ => rfl
    · exact RNeeds.congr (RNeeds.bindFixed (RNeeds.read PanId.needs) fun _ =>
        RNeeds.bindFixed (RNeeds.read ExtendedAddress.needs) fun _ => RNeeds.pure _) fun _ => rfl
  · obtain ⟨d, rfl⟩ := Option.isSome_iff_exists.mp (hd rfl)
    cases m
    · exact RNeeds.pure _
    · exact RNeeds.congr (RNeeds.bindFixed (k := 0) (RNeeds.pure d) fun _ =>
        RNeeds.bindFixed (RNeeds.read ShortAddress.needs) fun _ => RNeeds.pure _) fun _ => rfl
    · exact RNeeds.congr (RNeeds.bindFixed (k := 0) (RNeeds.pure d) fun _ =>
        RNeeds.bindFixed (RNeeds.read ExtendedAddress.needs) fun _ => RNeeds.pure _) fun _ => rfl

theorem readAux_needs (cfg : Cfg) (s : Bool) :
    RNeeds (readAux cfg s) (fun rest => if s then auxNeed rest else 0) := by
  cases s
  · exact RNeeds.pure _
  · intro pre rest
    have h := RNeeds.read (AuxHeader.needs cfg) pre rest
    show (auxNeed rest ≤ rest.length → ∃ a, (R.read (AuxHeader.tryRead cfg) >>= fun a => pure (some a))
        (pre ++ rest) pre.length = .ok (a, pre.length + auxNeed rest)) ∧
      (rest.length < auxNeed rest → (R.read (AuxHeader.tryRead cfg) >>= fun a => pure (some a))
        (pre ++ rest) pre.length = .err .incomplete)
    rw [R.bind_apply]
    constructor
    · intro hl
      obtain ⟨a, ha⟩ := h.1 hl
      exact ⟨some a, by rw [ha]; rfl⟩
    · intro hl
      rw [h.2 hl]

/-- Octets needed after the sequence number, for a decoded frame control field. -/
def fcNeed (fc : Fc) (rest : List UInt8) : Nat :=
  addrLength (amCode fc.dst) true + addrLength (amCode fc.src) (!fc.panIdCompress)
    + (if fc.security then
        auxNeed (rest.drop (addrLength (amCode fc.dst) true
          + addrLength (amCode fc.src) (!fc.panIdCompress))) else 0)

theorem readTail_needs (cfg : Cfg) (fc : Fc) (seq : UInt8) (d : Option Address)
    (hd : fc.panIdCompress = true → d.isSome = true) :
    RNeeds (readTail cfg fc seq d) (fun rest => addrLength (amCode fc.src) (!fc.panIdCompress) +
      (if fc.security then
        auxNeed (rest.drop (addrLength (amCode fc.src) (!fc.panIdCompress))) else 0)) := by
  refine RNeeds.congr (RNeeds.bind (readSrc_needs fc.src fc.panIdCompress d hd)
    (need := fun rest => if fc.security then auxNeed rest else 0) fun s => ?_) fun _ => rfl
  intro pre rest
  have h := readAux_needs cfg fc.security pre rest
  simp only at h ⊢
  rw [R.bind_apply]
  constructor
  · intro hl
    obtain ⟨a, ha⟩ := h.1 hl
    rw [ha]
    exact ⟨_, rfl⟩
  · intro hl
    rw [h.2 hl]

theorem ofOption_isSome (d : Option Address) :
    d.isSome = true ↔ AddressMode.ofOption d ≠ .none := by
  rcases d with _ | ⟨_ | _⟩ <;> simp [AddressMode.ofOption]

theorem readBody_needs (cfg : Cfg) (fc : Fc) (hc : fc.panIdCompress = true → fc.dst ≠ .none) :
    RNeeds (readBody cfg fc) (fun rest => 1 + fcNeed fc (rest.drop 1)) := by
  refine RNeeds.bind (RNeeds.read Needs.u8) fun seq => ?_
  refine RNeeds.congr (RNeeds.bindDep (readDst_needs fc.dst) (readDst_dec fc.dst)
    (need := fun _ rest => addrLength (amCode fc.src) (!fc.panIdCompress) +
      (if fc.security then
        auxNeed (rest.drop (addrLength (amCode fc.src) (!fc.panIdCompress))) else 0)) ?_) ?_
  · rintro d l ⟨hd, _⟩
    have hsome : fc.panIdCompress = true → d.isSome = true := fun h => by
      rw [ofOption_isSome, hd]; exact hc h
    by_cases h : fc.panIdCompress = true
    · rw [if_pos h]
      obtain ⟨d', rfl⟩ := Option.isSome_iff_exists.mp (hsome h)
      exact readTail_needs cfg fc seq _ hsome
    · rw [if_neg h]
      exact readTail_needs cfg fc seq _ hsome
  · intro l
    simp only [fcNeed, List.drop_drop]
    omega

theorem readBody_nodest (cfg : Cfg) (fc : Fc) (hc : fc.panIdCompress = true) (hd : fc.dst = .none)
    (pre : List UInt8) (b : UInt8) (rest : List UInt8) :
    readBody cfg fc (pre ++ b :: rest) pre.length = .err (.badInput "InvalidAddressMode") := by
  unfold readBody
  have hr : R.read tryReadU8 (pre ++ b :: rest) pre.length = .ok (b, pre.length + 1) :=
    (RDec.read Decodes.u8 pre (b :: rest) b _).2 ⟨[b], rest, rfl, rfl, rfl⟩
  rw [R.bind_apply, hr]
  simp only
  rw [R.bind_apply, hd]
  simp only [readDst, R.pure_eq, hc, if_true]
  rfl

/-! ## Writing -/

def allTypes : List FrameType :=
  [.beacon, .data, .acknowledgement, .macCommand, .multipurpose, .fragOrFragAck, .extended]
def allVersions : List FrameVersion := [.ieee802154_2003, .ieee802154_2006, .ieee802154]
def allAm : List AddressMode := [.none, .short, .extended]
def allBool : List Bool := [false, true]

/-- `frameControlRaw` as a function of the subfields. -/
def rawOf (t : FrameType) (v : FrameVersion) (d s : AddressMode) (sec pend ack comp : Bool) : UInt16 :=
  (t.toBits.toUInt16 <<< FcOffset.FRAME_TYPE)
    ||| (sec.toUInt16 <<< FcOffset.SECURITY)
    ||| (pend.toUInt16 <<< FcOffset.PENDING)
    ||| (ack.toUInt16 <<< FcOffset.ACK)
    ||| (comp.toUInt16 <<< FcOffset.PAN_ID_COMPRESS)
    ||| (d.toBits.toUInt16 <<< FcOffset.DEST_ADDR_MODE)
    ||| (v.toBits.toUInt16 <<< FcOffset.VERSION)
    ||| (s.toBits.toUInt16 <<< FcOffset.SRC_ADDR_MODE)

theorem rawOf_table : ∀ t ∈ allTypes, ∀ v ∈ allVersions, ∀ d ∈ allAm, ∀ s ∈ allAm,
    ∀ sec ∈ allBool, ∀ pend ∈ allBool, ∀ ack ∈ allBool, ∀ comp ∈ allBool,
    (rawOf t v d s sec pend ack comp).toNat =
      typeCode t + 8 * bit sec + 16 * bit pend + 32 * bit ack + 64 * bit comp
        + 1024 * amCode d + 4096 * versionCode v + 16384 * amCode s := by
  decide +kernel

theorem frameControlRaw_toNat (h : Header) :
    h.frameControlRaw.toNat = frameControl h false false false := by
  have ht : h.frameType ∈ allTypes := by cases h.frameType <;> decide
  have hv : h.version ∈ allVersions := by cases h.version <;> decide
  have ha : ∀ m, m ∈ allAm := by intro m; cases m <;> decide
  have hb : ∀ b, b ∈ allBool := by intro m; cases m <;> decide
  have := rawOf_table _ ht _ hv _ (ha (AddressMode.ofOption h.destination)) _
    (ha (AddressMode.ofOption h.source)) _ (hb h.auxSec.isSome) _ (hb h.framePending) _
    (hb h.ackRequest) _ (hb h.panIdCompress)
  have hr : h.frameControlRaw = rawOf h.frameType h.version (AddressMode.ofOption h.destination)
    (AddressMode.ofOption h.source) h.auxSec.isSome h.framePending h.ackRequest h.panIdCompress := rfl
  rw [hr, this, amCode_ofOption, amCode_ofOption]
  simp [frameControl, bit]

/-- What comes after the addresses. -/
def auxResult {κ : Type} (h : Header) (ctx : Option (SecCtx κ)) : Out ByteErr Unit :=
  match h.auxSec, ctx with
  | none, _ => .ok ()
  | some _, some _ => .ok ()
  | some _, none => .err (.badInput "MissingSecurityCtx")

def auxWritten {κ : Type} (cfg : Cfg) (h : Header) (ctx : Option (SecCtx κ)) : List UInt8 :=
  match h.auxSec, ctx with
  | none, _ => []
  | some a, some c =>
      auxOctets cfg.native cfg.native 0 a.control.securityLevel c.frameCounter a.keyIdentifier
  | some _, none => []

/-- The writer after the addresses. -/
def wAux {κ : Type} (cfg : Cfg) (h : Header) (ctx : Option (SecCtx κ)) : W Unit :=
  if (h.auxSec.isSome && ctx.isNone) = true then W.fail EncodeError.missingSecurityCtx.toByteErr
  else if h.auxSec.isSome = true then
    match h.auxSec with
    | some aux => match ctx with
      | some ctx => W.write (aux.tryWrite cfg ctx)
      | none => W.fail EncodeError.unknownError.toByteErr
    | none => W.fail EncodeError.unknownError.toByteErr
  else pure ()

/-- The writer after the destination. -/
def wSrc {κ : Type} (cfg : Cfg) (h : Header) (ctx : Option (SecCtx κ)) : W Unit :=
  match h.source, h.panIdCompress with
  | some s, true => do W.write (s.tryWrite .compressed); wAux cfg h ctx
  | some s, false => do W.write (s.tryWrite .normal); wAux cfg h ctx
  | none, true => do W.panic; wAux cfg h ctx
  | none, false => wAux cfg h ctx

/-- The writer after the sequence number. -/
def wDst {κ : Type} (cfg : Cfg) (h : Header) (ctx : Option (SecCtx κ)) : W Unit :=
  match h.destination with
  | some d => do W.write (d.tryWrite .normal); wSrc cfg h ctx
  | none => wSrc cfg h ctx

theorem tryWrite_eq {κ : Type} (cfg : Cfg) (h : Header) (ctx : Option (SecCtx κ)) :
    h.tryWrite cfg ctx = W.run (do
      W.write (tryWriteU16 .little h.frameControlRaw)
      W.write (tryWriteU8 h.seq)
      if ((h.destination.isNone || h.source.isNone) && h.panIdCompress) = true then do
        W.fail EncodeError.disallowedPanIdCompress.toByteErr
        wDst cfg h ctx
      else wDst cfg h ctx) := rfl

theorem wAux_spec {κ : Type} (cfg : Cfg) (h : Header) (ctx : Option (SecCtx κ)) :
    WSpec (wAux cfg h ctx) (auxResult h ctx) (auxWritten cfg h ctx) := by
  unfold wAux auxResult auxWritten
  cases h.auxSec with
  | none => exact WSpec.pure ()
  | some a =>
    cases ctx with
    | none => exact WSpec.fail _
    | some c => exact WSpec.write (AuxHeader.writes cfg a c)

theorem wSrc_spec {κ : Type} (cfg : Cfg) (h : Header) (ctx : Option (SecCtx κ))
    (he : Encodable h) :
    WSpec (wSrc cfg h ctx) (auxResult h ctx)
      (srcOctets h.panIdCompress h.source ++ auxWritten cfg h ctx) := by
  unfold wSrc
  split
  · rename_i s h1 h2
    rw [h1, h2]
    exact WSpec.bind (WSpec.write (Address.writes_compressed s)) (wAux_spec cfg h ctx)
  · rename_i s h1 h2
    rw [h1, h2]
    exact WSpec.bind (WSpec.write (Address.writes_normal s)) (wAux_spec cfg h ctx)
  · rename_i h1 h2
    have := (he h2).2
    rw [h1] at this; cases this
  · rename_i h1 h2
    rw [h1]
    exact wAux_spec cfg h ctx

theorem wDst_spec {κ : Type} (cfg : Cfg) (h : Header) (ctx : Option (SecCtx κ))
    (he : Encodable h) :
    WSpec (wDst cfg h ctx) (auxResult h ctx)
      (dstOctets h.destination ++ (srcOctets h.panIdCompress h.source ++ auxWritten cfg h ctx)) := by
  unfold wDst
  split
  · rename_i d h1
    rw [h1]
    exact WSpec.bind (WSpec.write (Address.writes_normal d)) (wSrc_spec cfg h ctx he)
  · rename_i h1
    rw [h1]
    exact wSrc_spec cfg h ctx he

theorem writes_refused {κ : Type} (cfg : Cfg) (h : Header) (ctx : Option (SecCtx κ))
    (hne : ¬ Encodable h) :
    Writes (h.tryWrite cfg ctx) (.err (.badInput "DisallowedPanIdCompress"))
      (le 2 (frameControl h false false false) ++ [h.seq]) := by
  have hc : ((h.destination.isNone || h.source.isNone) && h.panIdCompress) = true := by
    unfold Encodable at hne
    cases h1 : h.panIdCompress <;> cases h2 : h.destination <;> cases h3 : h.source <;> simp_all
  rw [tryWrite_eq, if_pos hc]
  refine Writes.run (WSpec.of_eq (WSpec.bind (WSpec.write (Writes.u16 _ _))
    (WSpec.bind (WSpec.write (Writes.u8 _)) (WSpec.bind_err (WSpec.fail _)))) ?_)
  rw [frameControlRaw_toNat]; simp [inOrder]

theorem writes {κ : Type} (cfg : Cfg) (h : Header) (ctx : Option (SecCtx κ)) (he : Encodable h) :
    Writes (h.tryWrite cfg ctx) (auxResult h ctx)
      (headerOctets h false false false (auxWritten cfg h ctx)) := by
  have hc : ¬ ((h.destination.isNone || h.source.isNone) && h.panIdCompress) = true := by
    unfold Encodable at he
    cases h1 : h.panIdCompress <;> cases h2 : h.destination <;> cases h3 : h.source <;> simp_all
  rw [tryWrite_eq, if_neg hc]
  refine Writes.run (WSpec.of_eq (WSpec.bind (WSpec.write (Writes.u16 _ _))
    (WSpec.bind (WSpec.write (Writes.u8 _)) (wDst_spec cfg h ctx he))) ?_)
  rw [frameControlRaw_toNat]; simp [inOrder, headerOctets]

end Header
end Verif

namespace Verif
open Spec

theorem le4_swap (c : UInt32) : (le 4 c.toNat).reverse = le 4 (swap32 c).toNat := by
  have hc := c.toNat_lt
  have h : ∀ n, le 4 n = [UInt8.ofNat n, UInt8.ofNat (n / 256), UInt8.ofNat (n / 256 / 256),
      UInt8.ofNat (n / 256 / 256 / 256)] := by
    intro n; simp [le_succ, show le 0 = fun _ => [] from rfl]
  rw [h, h]
  unfold swap32
  generalize c.toNat = n at *
  simp only [List.reverse_cons, List.reverse_nil, List.nil_append, List.cons_append,
    List.cons.injEq, and_true]
  obtain ⟨a, b, c, d, ha, hb, hc, hd, rfl⟩ : ∃ a b c d, a < 256 ∧ b < 256 ∧ c < 256 ∧ d < 256 ∧
      n = a + 256 * (b + 256 * (c + 256 * d)) :=
    ⟨n % 256, n / 256 % 256, n / 256 / 256 % 256, n / 256 / 256 / 256, by omega, by omega,
      by omega, by omega, by omega⟩
  have h1 : (a + 256 * (b + 256 * (c + 256 * d))) / 256 = b + 256 * (c + 256 * d) := by omega
  have h2 : (b + 256 * (c + 256 * d)) / 256 = c + 256 * d := by omega
  have h3 : (c + 256 * d) / 256 = d := by omega
  have h4 : (a + 256 * (b + 256 * (c + 256 * d))) / 2 ^ 16 = c + 256 * d := by omega
  have h5 : (a + 256 * (b + 256 * (c + 256 * d))) / 2 ^ 24 = d := by omega
  have h6 : (a + 256 * (b + 256 * (c + 256 * d))) % 256 = a := by omega
  have h7 : (b + 256 * (c + 256 * d)) % 256 = b := by omega
  have h8 : (c + 256 * d) % 256 = c := by omega
  rw [h4, h5, h1, h2, h3, h6, h7, h8]
  have h9 : (UInt32.ofNat (a * 2 ^ 24 + b * 2 ^ 16 + c * 2 ^ 8 + d)).toNat
      = d + 256 * (c + 256 * (b + 256 * a)) := by
    rw [UInt32.toNat_ofNat_of_lt']
    · omega
    · simp [UInt32.size]; omega
  rw [h9]
  have g1 : (d + 256 * (c + 256 * (b + 256 * a))) / 256 = c + 256 * (b + 256 * a) := by omega
  have g2 : (c + 256 * (b + 256 * a)) / 256 = b + 256 * a := by omega
  have g3 : (b + 256 * a) / 256 = a := by omega
  rw [g1, g2, g3]
  refine ⟨?_, ?_, ?_, ?_⟩ <;> apply UInt8.toNat_inj.mp <;> simp <;> omega

theorem inOrder_counter (cfg : Cfg) (c : UInt32) :
    inOrder cfg.native 4 c.toNat = inOrder .little 4 (counterOnAir cfg c).toNat := by
  unfold counterOnAir
  cases cfg.native with
  | little => rfl
  | big => exact le4_swap c

end Verif
