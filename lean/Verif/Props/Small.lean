import Verif.Spec.ErrorSpec
import Verif.Spec.OnWire
import Verif.Props.Writers
import Verif.Props.Decode

/-!
# Properties of errors, addresses and constructors: C54, C57
-/

namespace Verif
open Spec

/-! ## C54 Errors -/

/-- **C54** Converting a decode error to the error of the reading interface forgets the offending
value and nothing else. -/
theorem C54_decode_error (a b : DecodeError) : a.toByteErr = b.toByteErr ↔ SameKind a b := by
  cases a <;> cases b <;> simp [DecodeError.toByteErr, SameKind]

/-- **C54** Only "not enough bytes" becomes `Incomplete`; everything else is `BadInput`. -/
theorem C54_decode_incomplete (a : DecodeError) :
    (a.toByteErr = .incomplete ↔ a = .notEnoughBytes) ∧
    (a ≠ .notEnoughBytes → ∃ s, a.toByteErr = .badInput s) := by
  cases a <;> simp [DecodeError.toByteErr]

/-- **C54** Encode errors convert to distinct `BadInput` errors. -/
theorem C54_encode_error (a b : EncodeError) :
    (a.toByteErr = b.toByteErr ↔ a = b) ∧ ∃ s, a.toByteErr = .badInput s := by
  cases a <;> cases b <;> simp [EncodeError.toByteErr]

/-- **C54** Security errors convert to distinct errors, except that one wrapping an error of the
reading interface converts to that error. -/
theorem C54_security_error (a b : SecErr) :
    a.toByteErr = b.toByteErr ↔
      a = b ∨ a = .writeError b.toByteErr ∨ b = .writeError a.toByteErr := by
  cases a <;> cases b <;> simp [SecErr.toByteErr, eq_comm]

/-- **C54** Wrapping an error of the reading interface and converting back gives it back; every
security error that is not such a wrapper is a `BadInput`. -/
theorem C54_wrapped (e : ByteErr) (a : SecErr) :
    (SecErr.ofByteErr e).toByteErr = e ∧
    ((∀ e', a ≠ SecErr.ofByteErr e') → ∃ s, a.toByteErr = .badInput s) := by
  refine ⟨rfl, fun h => ?_⟩
  cases a <;> first | exact ⟨_, rfl⟩ | exact absurd rfl (h _)

/-- **C54** Errors of the three kinds are confused in exactly these cases: a missing security context
while decoding and while encoding, a missing auxiliary header while decoding and while securing, and
wrapped errors. -/
theorem C54_clashes (d : DecodeError) (e : EncodeError) (s : SecErr) :
    (d.toByteErr = e.toByteErr ↔ d = .missingSecurityCtx ∧ e = .missingSecurityCtx) ∧
    (d.toByteErr = s.toByteErr ↔
      (d = .auxSecHeaderAbsent ∧ s = .auxSecHeaderAbsent) ∨ s = .writeError d.toByteErr) ∧
    (e.toByteErr = s.toByteErr ↔ s = .writeError e.toByteErr) := by
  refine ⟨?_, ?_, ?_⟩
  · cases d <;> cases e <;> simp [DecodeError.toByteErr, EncodeError.toByteErr]
  · cases d <;> cases s <;> simp [DecodeError.toByteErr, SecErr.toByteErr, eq_comm]
  · cases e <;> cases s <;> simp [EncodeError.toByteErr, SecErr.toByteErr, eq_comm]

/-- Witnesses: same kind with different values; a confusion that is a wrapper. -/
example : SameKind (.invalidFrameType 4) (.invalidFrameType 12) ∧
    ¬ SameKind (.invalidFrameType 4) (.invalidFrameVersion 4) ∧
    (SecErr.writeError (.badInput "CounterError")).toByteErr = SecErr.counterError.toByteErr :=
  ⟨trivial, by simp [SameKind], rfl⟩

/-! ## C57 Addresses and constructors -/

/-- **C57** The broadcast address of a mode: it has that mode, there is one for every mode but
`None`, and every octet of its encoding, with PAN identifier, is `FF`. -/
theorem C57_broadcast (m : AddressMode) :
    AddressMode.ofOption (Address.broadcast m) = m ∧
    (Address.broadcast m = none ↔ m = .none) ∧
    (∀ b ∈ dstOctets (Address.broadcast m), b = 0xFF) ∧
    ∀ a, Address.broadcast m = some a → a.panId = PanId.broadcast := by
  cases m
  · simp [Address.broadcast, AddressMode.ofOption, dstOctets]
  · refine ⟨rfl, by simp [Address.broadcast], by decide +kernel, ?_⟩
    rintro a h; cases h; rfl
  · refine ⟨rfl, by simp [Address.broadcast], by decide +kernel, ?_⟩
    rintro a h; cases h; rfl

/-- **C57** The three broadcast values are the ones with every bit set. -/
theorem C57_broadcast_values :
    (PanId.broadcast.toNat = 2 ^ 16 - 1 ∧ ∀ p : PanId, p.toNat ≤ PanId.broadcast.toNat) ∧
    (ShortAddress.broadcast.toNat = 2 ^ 16 - 1 ∧ ∀ p : ShortAddress, p.toNat ≤ ShortAddress.broadcast.toNat) ∧
    (ExtendedAddress.broadcast.toNat = 2 ^ 64 - 1 ∧
      ∀ p : ExtendedAddress, p.toNat ≤ ExtendedAddress.broadcast.toNat) := by
  refine ⟨⟨rfl, fun p => ?_⟩, ⟨rfl, fun p => ?_⟩, rfl, fun p => ?_⟩
  · have := p.toNat_lt; show p.toNat ≤ 65535; omega
  · have := p.toNat_lt; show p.toNat ≤ 65535; omega
  · have := p.toNat_lt; show p.toNat ≤ 18446744073709551615; omega

/-- **C57** An address has the mode written for it in a header, both conversions agree, and its PAN
identifier is its first component; the encoding is determined by mode, PAN identifier and value. -/
theorem C57_address (a : Address) :
    AddressMode.ofOption (some a) = AddressMode.ofAddress a ∧
    (AddressMode.ofAddress a).toBits.toNat = modeCode (some a) ∧
    (AddressMode.ofAddress a = .short ↔ ∃ v, a = .short a.panId v) ∧
    (AddressMode.ofAddress a = .extended ↔ ∃ v, a = .extended a.panId v) ∧
    a.panId = panOf a := by
  cases a <;> simp [AddressMode.ofOption, AddressMode.ofAddress, AddressMode.toBits, modeCode, Address.panId, panOf]

/-- **C57** No address converts to the mode `None`, and only that one. -/
theorem C57_no_address (o : Option Address) :
    (AddressMode.ofOption o = .none ↔ o = none) ∧ (AddressMode.ofOption o).toBits.toNat = modeCode o := by
  rcases o with _ | a
  · exact ⟨by simp [AddressMode.ofOption], rfl⟩
  · cases a <;> exact ⟨by simp [AddressMode.ofOption], rfl⟩

/-- **C57** PAN identifiers and addresses are read from two or eight octets, little-endian; a
security control from one octet, ignoring its three upper bits; shorter slices are `Incomplete`. -/
theorem C57_readers :
    ReadsExactly PanId.tryRead (fun v l _ => l = le 2 v.toNat) ∧
    ReadsExactly ShortAddress.tryRead (fun v l _ => l = le 2 v.toNat) ∧
    ReadsExactly ExtendedAddress.tryRead (fun v l _ => l = le 8 v.toNat) ∧
    ReadsExactly SecurityControl.tryRead (fun c l _ => ∃ r < 8,
      l = [UInt8.ofNat (levelCode c.securityLevel + 8 * keyIdModeCode c.keyIdMode + 32 * r)]) ∧
    (∀ l, l.length < 2 → PanId.tryRead l = .err .incomplete ∧ ShortAddress.tryRead l = .err .incomplete) ∧
    (∀ l, l.length < 8 → ExtendedAddress.tryRead l = .err .incomplete) ∧
    SecurityControl.tryRead [] = .err .incomplete ∧
    (∀ l, 2 ≤ l.length → ∃ v w, PanId.tryRead l = .ok (v, 2) ∧ ShortAddress.tryRead l = .ok (w, 2)) ∧
    (∀ l, 8 ≤ l.length → ∃ v, ExtendedAddress.tryRead l = .ok (v, 8)) ∧
    (∀ l, 1 ≤ l.length → ∃ v, SecurityControl.tryRead l = .ok (v, 1)) :=
  ⟨PanId.decodes, ShortAddress.decodes, ExtendedAddress.decodes, SecurityControl.decodes,
   fun l h => ⟨(PanId.needs l).2 h, (ShortAddress.needs l).2 h⟩, fun l h => (ExtendedAddress.needs l).2 h,
   rfl,
   fun l h => by
     obtain ⟨v, hv⟩ := (PanId.needs l).1 h
     obtain ⟨w, hw⟩ := (ShortAddress.needs l).1 h
     exact ⟨v, w, hv, hw⟩,
   fun l h => (ExtendedAddress.needs l).1 h, fun l h => (SecurityControl.needs l).1 h⟩

/-- **C57** Constructors: a control made from a level has that level and announces no key identifier;
an auxiliary header has the given parts, and the counter given to the "unsafe" constructor makes no
difference to what is written. -/
theorem C57_constructors {κ : Type} (cfg : Cfg) (level : SecurityLevel) (control : SecurityControl)
    (k : Option KeyIdentifier) (counter : UInt32) (ctx : SecCtx κ) :
    (SecurityControl.new level).securityLevel = level ∧
    Encodes (SecurityControl.new level).tryWrite [UInt8.ofNat (levelCode level)] ∧
    (AuxHeader.new control k).control = control ∧ (AuxHeader.new control k).keyIdentifier = k ∧
    (AuxHeader.new control k).frameCounter = 0 ∧
    (AuxHeader.newUnsafe control k counter).control = control ∧
    (AuxHeader.newUnsafe control k counter).keyIdentifier = k ∧
    (AuxHeader.newUnsafe control k counter).frameCounter = counter ∧
    (AuxHeader.newUnsafe control k counter).tryWrite cfg ctx = (AuxHeader.new control k).tryWrite cfg ctx :=
  ⟨rfl, by simpa [SecurityControl.new, keyIdModeCode] using (SecurityControl.writes (SecurityControl.new level)).encodes,
   rfl, rfl, rfl, rfl, rfl, rfl, rfl⟩

/-- **C57** The frame counter an auxiliary header reports: zero for one that was not decoded, the given
value after the "unsafe" constructor, and for a decoded one octets 1 to 4, little-endian on every host. -/
theorem C57_frame_counter (cfg : Cfg) (control : SecurityControl) (k : Option KeyIdentifier) (counter : UInt32) :
    (AuxHeader.new control k).getFrameCounter = 0 ∧
    (AuxHeader.newUnsafe control k counter).getFrameCounter = counter ∧
    ∀ bytes a n, AuxHeader.tryRead cfg bytes = .ok (a, n) →
      (bytes.drop 1).take 4 = le 4 a.getFrameCounter.toNat := by
  refine ⟨rfl, rfl, fun bytes a n h => ?_⟩
  have hd := ((AuxHeader.decodes cfg) bytes a n).1 h
  obtain ⟨l, rest, rfl, ⟨-, r, -, rfl⟩, -⟩ := hd
  simp [auxOctets, AuxHeader.getFrameCounter, inOrder, List.take_append]

/-- **C57** Contexts: the default footer mode is `None`; a context has the given parts; the contexts
"without security" have no key for anyone, and no security context at all. -/
theorem C57_contexts {κ : Type} (euid : UInt64) (counter : UInt32) (kp : KeyLookup κ) (mode : FooterMode)
    (o : Option (SecCtx κ)) (m : AddressingMode) (k : Option KeyIdentifier) (a : Option Address) :
    FooterMode.default = .none ∧
    SecCtx.new euid counter kp = ⟨euid, counter, kp⟩ ∧
    (SecCtx.noSecurity : SecCtx κ).keyProvider m k a = none ∧
    (SecCtx.noSecurity : SecCtx κ).frameCounter = 0 ∧ (SecCtx.noSecurity : SecCtx κ).euid = 0 ∧
    (SerDesCtx.new mode o = ⟨mode, o⟩) ∧
    (SerDesCtx.noSecurity mode : SerDesCtx κ) = ⟨mode, none⟩ :=
  ⟨rfl, rfl, rfl, rfl, rfl, rfl, rfl⟩

example : Address.broadcast .extended = some (.extended 0xffff 0xffffffffffffffff) ∧
    SecurityControl.tryRead [0xFD, 1] = .ok (⟨.encmic32, .keySource8⟩, 1) := by decide +kernel

end Verif
