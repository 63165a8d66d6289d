import Verif.Spec.ArithSpec
import Verif.Props.Writers
import Verif.Props.SecureWrite
import Verif.Props.DecodeFrame

/-!
# C83: length arithmetic never overflows

`uadd`, `umul` are `usize` operations of the build (panic or wrap).  The theorems say that wherever the
code adds or multiplies lengths and offsets, the `usize` result is the sum or product of the numbers, for
every pointer width and profile, so that no panic and no wrapped length comes from there.
-/

namespace Verif
open Spec

theorem uadd_ok (cfg : Cfg) {ε : Type} {a b : Nat} (h : a + b < 2 ^ cfg.usize.bits) :
    (uadd cfg a b : Out ε Nat) = .ok (a + b) := if_pos h

theorem umul_ok (cfg : Cfg) {ε : Type} {a b : Nat} (h : a * b < 2 ^ cfg.usize.bits) :
    (umul cfg a b : Out ε Nat) = .ok (a * b) := if_pos h

theorem bits_ge (cfg : Cfg) : 65536 ≤ 2 ^ cfg.usize.bits := by
  cases cfg.usize <;> simp [PtrWidth.bits]

theorem bits_half (cfg : Cfg) : 2 ^ cfg.usize.bits = 2 * 2 ^ (cfg.usize.bits - 1) := by
  cases cfg.usize <;> simp [PtrWidth.bits]

theorem addAddressUsize_ok (cfg : Cfg) {ε : Type} (len : Nat) (a : Option Address) (h : len ≤ 1000) :
    (addAddressUsize cfg len a : Out ε Nat) = .ok (len + Header.addrOctets a) := by
  have hb := bits_ge cfg
  cases a with
  | none => rfl
  | some a =>
    cases a <;>
      simp only [addAddressUsize, uadd_ok cfg (show len + 2 < 2 ^ cfg.usize.bits by omega), Out.bind,
        Header.addrOctets]
    · rw [uadd_ok cfg (by omega)]
    · rw [uadd_ok cfg (by omega)]

/-- **C83** The sizes a user asks for: computed in `usize` they are what `get_octet_size` of the model says. -/
theorem C83_sizes (cfg : Cfg) {ε : Type} (h : Header) (a : AuxHeader) :
    (h.octetSizeUsize cfg : Out ε Nat) = .ok h.octetSize ∧
    (a.octetSizeUsize cfg : Out ε Nat) = .ok a.octetSize := by
  have hb := bits_ge cfg
  have hd : Header.addrOctets h.destination ≤ 10 := by unfold Header.addrOctets; split <;> omega
  constructor
  · unfold Header.octetSizeUsize
    rw [addAddressUsize_ok cfg 3 _ (by omega)]
    simp only [Out.bind]
    rw [addAddressUsize_ok cfg _ _ (by omega)]
    rfl
  · unfold AuxHeader.octetSizeUsize AuxHeader.octetSize
    rw [uadd_ok cfg (show 1 + 4 < 2 ^ cfg.usize.bits by omega)]
    simp only [Out.bind]
    apply uadd_ok
    repeat' split
    all_goals omega

/-- **C83** The frame size compared with the PHY limit, for every payload a slice can hold. -/
theorem C83_frame_size (cfg : Cfg) {ε : Type} (f : Frame) (a : AuxHeader) (hfit : SliceFits cfg f.payload) :
    (frameSizeUsize cfg f a : Out ε Nat) =
      .ok (f.payload.length + f.header.octetSize + a.octetSize + a.control.securityLevel.micOctetSize + 2) := by
  have hb := bits_ge cfg
  have hh := bits_half cfg
  unfold SliceFits at hfit
  have e1 : f.header.octetSize ≤ 23 := by
    unfold Header.octetSize Header.addrOctets; repeat' split
    all_goals omega
  have e2 : a.octetSize ≤ 14 := by unfold AuxHeader.octetSize; repeat' split
                                   all_goals omega
  have e3 : a.control.securityLevel.micOctetSize ≤ 16 := by
    cases a.control.securityLevel <;> simp [SecurityLevel.micOctetSize]
  unfold frameSizeUsize
  simp only [(C83_sizes cfg f.header a).1, (C83_sizes cfg f.header a).2, Out.bind]
  rw [uadd_ok cfg (by omega)]
  simp only []
  rw [uadd_ok cfg (by omega)]
  simp only []
  rw [uadd_ok cfg (by omega)]
  simp only []
  rw [uadd_ok cfg (by omega)]

/-- **C83** So securing with the size check in `usize` is securing as modelled: the length of a payload
never makes it panic or pass a check it should fail. -/
theorem C83_securing {κ : Type} (cfg : Cfg) (aead : Aead κ) (f : Frame) (ctx : SecCtx κ) (mode : FooterMode)
    (buf : List UInt8) (hfit : SliceFits cfg f.payload) :
    secureFrameUsize cfg aead f ctx mode buf = secureFrame aead f ctx mode buf := by
  unfold secureFrameUsize
  split
  · rename_i hm ht hs
    rw [C83_frame_size cfg f _ hfit]
    simp only []
    split
    · rename_i hlong
      unfold secureFrame Header.hasSecurity
      simp only [hs, Option.isSome_some, if_true, ht, ne_eq, not_true, if_false]
      rw [if_pos hlong]
    · rfl
  · rfl

/-- **C83** The octets asked for by GTS information and pending-address lists, for every count octet. -/
theorem C83_counts (cfg : Cfg) {ε : Type} (byte : UInt8) :
    (gtsNeedUsize cfg byte : Out ε Nat) = .ok (2 + (3 * (byte &&& COUNT_MASK).toNat)) ∧
    (pendingNeedUsize cfg byte : Out ε Nat) =
      .ok ((byte &&& SHORT_MASK).toNat * 2 + ((byte &&& EXTENDED_MASK) >>> 4).toNat * 8) := by
  have hb := bits_ge cfg
  have e1 := (byte &&& COUNT_MASK).toNat_lt
  have e2 := (byte &&& SHORT_MASK).toNat_lt
  have e3 := ((byte &&& EXTENDED_MASK) >>> 4).toNat_lt
  constructor
  · unfold gtsNeedUsize
    rw [umul_ok cfg (by omega)]
    simp only [Out.bind]
    rw [uadd_ok cfg (by omega)]
  · unfold pendingNeedUsize
    rw [umul_ok cfg (by omega)]
    simp only [Out.bind]
    rw [umul_ok cfg (by omega)]
    simp only []
    rw [uadd_ok cfg (by omega)]

theorem readsInUsize' (cfg : Cfg) {α : Type} {r : TryRead α}
    (hr : ∀ bytes a n, SliceFits cfg bytes → r bytes = .ok (a, n) → n ≤ bytes.length) :
    ReadsInUsize cfg r := by
  intro bytes off hfit
  unfold SliceFits at hfit
  have hh := bits_half cfg
  unfold R.readUsize R.read
  split
  · rfl
  · rename_i ho
    cases hx : r (bytes.drop off) with
    | ok x =>
      obtain ⟨a, n⟩ := x
      have := hr _ _ _ (show (bytes.drop off).length < _ by rw [List.length_drop]; omega) hx
      rw [List.length_drop] at this
      simp only []
      rw [uadd_ok cfg (by omega)]
      rfl
    | err e => rfl
    | panic => rfl

theorem readsInUsize (cfg : Cfg) {α : Type} {r : TryRead α}
    (hr : ∀ bytes a n, r bytes = .ok (a, n) → n ≤ bytes.length) : ReadsInUsize cfg r :=
  readsInUsize' cfg fun bytes a n _ => hr bytes a n

theorem writesInUsize (cfg : Cfg) {w : TryWrite} (hw : Contained w) : WritesInUsize cfg w := by
  intro buf off hfit
  unfold SliceFits at hfit
  have hh := bits_half cfg
  unfold W.writeUsize W.write
  split
  · rfl
  · rename_i ho
    match hx : w (buf.drop off) with
    | (.ok n, sub) =>
      have := (hw.behind (buf.drop off) n (by rw [hx])).1
      rw [List.length_drop] at this
      simp only []
      rw [uadd_ok cfg (by omega)]
    | (.err e, sub) => rfl
    | (.panic, sub) => rfl

theorem Decodes.le {α : Type} {r : TryRead α} {E : α → List UInt8 → Prop} (h : Decodes r E) :
    ∀ bytes a n, r bytes = .ok (a, n) → n ≤ bytes.length := by
  intro bytes a n hr
  obtain ⟨l, s, rfl, _, rfl⟩ := (h bytes a n).1 hr
  simp

theorem DecodesS.le {α : Type} {r : TryRead α} {E : α → List UInt8 → List UInt8 → Prop} (h : DecodesS r E) :
    ∀ bytes a n, r bytes = .ok (a, n) → n ≤ bytes.length := by
  intro bytes a n hr
  obtain ⟨l, s, rfl, _, rfl⟩ := (h bytes a n).1 hr
  simp

theorem tryReadNat_le (e : Endian) (k : Nat) :
    ∀ bytes a n, tryReadNat e k bytes = .ok (a, n) → n ≤ bytes.length := by
  intro bytes a n h
  unfold tryReadNat at h
  split at h
  · cases h
  · simp only [Out.ok.injEq, Prod.mk.injEq] at h
    omega

theorem bind_le {α β : Type} {r : TryRead α} (hr : ∀ bytes a n, r bytes = .ok (a, n) → n ≤ bytes.length)
    (f : α → β) : ∀ bytes a n, ((r bytes).bind fun (x, k) => (.ok (f x, k) : Out ByteErr (β × Nat))) =
      .ok (a, n) → n ≤ bytes.length := by
  intro bytes a n h
  cases hx : r bytes with
  | ok x =>
    obtain ⟨x, k⟩ := x
    rw [hx] at h
    simp only [Out.bind, Out.ok.injEq, Prod.mk.injEq] at h
    exact h.2 ▸ hr _ _ _ hx
  | err e => rw [hx] at h; cases h
  | panic => rw [hx] at h; cases h

/-- **C83** No reader of the crate, nor any it is built from, advances an offset past `usize`. -/
theorem C83_reading (cfg : Cfg) :
    ReadsInUsize cfg (Header.tryRead cfg) ∧
    ReadsInUsize cfg (AuxHeader.tryRead cfg) ∧
    ReadsInUsize cfg SecurityControl.tryRead ∧
    ReadsInUsize cfg Beacon.tryRead ∧
    ReadsInUsize cfg SuperframeSpec.tryRead ∧
    ReadsInUsize cfg GtsInfo.tryRead ∧
    ReadsInUsize cfg GtsDescriptor.tryRead ∧
    ReadsInUsize cfg PendingAddress.tryRead ∧
    ReadsInUsize cfg Command.tryRead ∧
    (∀ h, ReadsInUsize cfg (FrameContent.tryRead h)) ∧
    ReadsInUsize cfg PanId.tryRead ∧
    ReadsInUsize cfg ShortAddress.tryRead ∧
    ReadsInUsize cfg ExtendedAddress.tryRead ∧
    ReadsInUsize cfg tryReadU8 ∧
    (∀ e, ReadsInUsize cfg (tryReadU16 e) ∧ ReadsInUsize cfg (tryReadU32 e) ∧ ReadsInUsize cfg (tryReadU64 e)) ∧
    (∀ n, ReadsInUsize cfg (tryReadBytes n)) ∧
    (∀ mode, ReadsInUsize cfg (Frame.tryRead cfg mode)) := by
  refine ⟨readsInUsize cfg (Decodes.le (Header.decodes cfg)), readsInUsize cfg (Decodes.le (AuxHeader.decodes cfg)),
    readsInUsize cfg (Decodes.le SecurityControl.decodes), readsInUsize cfg (Decodes.le Beacon.decodes),
    readsInUsize cfg (Decodes.le SuperframeSpec.decodes), readsInUsize cfg (DecodesS.le GtsInfo.decodes),
    readsInUsize cfg (Decodes.le GtsDescriptor.decodes), readsInUsize cfg (Decodes.le PendingAddress.decodes),
    readsInUsize cfg (DecodesS.le Command.decodes), fun h => readsInUsize cfg ?_,
    readsInUsize cfg (Decodes.le PanId.decodes), readsInUsize cfg (Decodes.le ShortAddress.decodes),
    readsInUsize cfg (Decodes.le ExtendedAddress.decodes),
    readsInUsize cfg (bind_le (tryReadNat_le _ _) _), fun e => ⟨readsInUsize cfg (bind_le (tryReadNat_le _ _) _),
      readsInUsize cfg (bind_le (tryReadNat_le _ _) _), readsInUsize cfg (bind_le (tryReadNat_le _ _) _)⟩,
    fun n => readsInUsize cfg ?_, fun mode => readsInUsize' cfg fun bytes f k hfit hr =>
      Nat.le_of_eq (C26_accounts cfg mode bytes hfit f k hr).1⟩
  · intro bytes a n hr
    exact FrameContent.tryRead_bound hr
  · intro bytes a k h
    unfold tryReadBytes at h
    split at h
    · cases h
    · simp only [Out.ok.injEq, Prod.mk.injEq] at h
      omega

/-- **C83** Nor does any writer, whatever the value, also when the cipher is the caller's. -/
theorem C83_writing {κ : Type} (cfg : Cfg) (aead : Aead κ) (haead : AeadTyped aead) :
    (∀ (h : Header) (ctx : Option (SecCtx κ)), WritesInUsize cfg (h.tryWrite cfg ctx)) ∧
    (∀ (a : AuxHeader) (ctx : SecCtx κ), WritesInUsize cfg (a.tryWrite cfg ctx)) ∧
    (∀ b : Beacon, WritesInUsize cfg b.tryWrite) ∧
    (∀ s : SuperframeSpec, WritesInUsize cfg s.tryWrite) ∧
    (∀ g : GtsInfo, WritesInUsize cfg g.tryWrite) ∧
    (∀ g : GtsDescriptor, WritesInUsize cfg g.tryWrite) ∧
    (∀ p : PendingAddress, WritesInUsize cfg p.tryWrite) ∧
    (∀ c : Command, WritesInUsize cfg c.tryWrite) ∧
    (∀ c : FrameContent, WritesInUsize cfg c.tryWrite) ∧
    (∀ p : PanId, WritesInUsize cfg p.tryWrite) ∧
    (∀ a : ShortAddress, WritesInUsize cfg a.tryWrite) ∧
    (∀ a : ExtendedAddress, WritesInUsize cfg a.tryWrite) ∧
    (∀ (a : Address) (e : AddressEncoding), WritesInUsize cfg (a.tryWrite e)) ∧
    (∀ c : SecurityControl, WritesInUsize cfg c.tryWrite) ∧
    (∀ k : KeyIdentifier, WritesInUsize cfg (k.tryWrite cfg)) ∧
    (∀ d : CoordinatorRealignmentData, WritesInUsize cfg d.tryWrite) ∧
    (∀ (f : Frame) (ctx : SerDesCtx κ), WritesInUsize cfg (frameWriter cfg aead f ctx)) := by
  obtain ⟨h1, h2, h3, h4, h5, h6, h7, h8, h9, h10, h11, h12, h13, h14, h15, h16, h17⟩ :=
    C10_contained cfg aead haead
  exact ⟨fun a b => writesInUsize cfg (h1 a b), fun a b => writesInUsize cfg (h2 a b),
    fun a => writesInUsize cfg (h3 a), fun a => writesInUsize cfg (h4 a), fun a => writesInUsize cfg (h5 a),
    fun a => writesInUsize cfg (h6 a), fun a => writesInUsize cfg (h7 a), fun a => writesInUsize cfg (h8 a),
    fun a => writesInUsize cfg (h9 a), fun a => writesInUsize cfg (h10 a), fun a => writesInUsize cfg (h11 a),
    fun a => writesInUsize cfg (h12 a), fun a b => writesInUsize cfg (h13 a b),
    fun a => writesInUsize cfg (h14 a), fun a => writesInUsize cfg (h15 a), fun a => writesInUsize cfg (h16 a),
    fun a b => writesInUsize cfg (h17 a b)⟩

/-- The assumption on payloads is met by all that a frame can carry, on every host … -/
example (cfg : Cfg) (p : List UInt8) (h : p.length ≤ 127) : SliceFits cfg p := by
  unfold SliceFits
  cases cfg.usize <;> simp [PtrWidth.bits] <;> omega

/-- … the largest slice of a 16-bit host meets it too, and its size is no problem there … -/
example (z : List UInt8) (hz : z = List.replicate 32767 0) : SliceFits ⟨true, .w16, .little⟩ z ∧
    (frameSizeUsize ⟨true, .w16, .little⟩ { sampleFrame with payload := z } sampleAux : Out SecErr Nat) =
      .ok (32767 + sampleFrame.header.octetSize + sampleAux.octetSize + 4 + 2) := by
  have hl : z.length = 32767 := by rw [hz, List.length_replicate]
  have hf : SliceFits ⟨true, .w16, .little⟩ z := by
    unfold SliceFits; rw [hl]; decide
  refine ⟨hf, ?_⟩
  rw [C83_frame_size _ _ _ hf]
  show Out.ok (z.length + _ + _ + 4 + 2) = _
  rw [hl]

/-- … and it is needed: a longer one (which Rust does not allow) would make the check panic there. -/
example (z : List UInt8) (hz : z = List.replicate 65535 0) :
    (frameSizeUsize ⟨true, .w16, .little⟩ { sampleFrame with payload := z } sampleAux : Out SecErr Nat) =
      .panic := by
  have hl : z.length = 65535 := by rw [hz, List.length_replicate]
  unfold frameSizeUsize
  rw [(C83_sizes _ _ sampleAux).1, (C83_sizes _ sampleFrame.header sampleAux).2]
  simp only [Out.bind, hl]
  decide

end Verif
