import Verif.Props.Decode
import Verif.Props.Frame

/-!
# C62: which octets are which command, content and frame
-/

namespace Verif
open Spec

theorem capabilityOf_onWire : ∀ (b : UInt8) (a : CapabilityInformation),
    capabilityOf b = a ↔ ∃ b0 b4 b5,
      b = UInt8.ofNat (capabilityValue a + bit b0 + 16 * bit b4 + 32 * bit b5) := by
  intro b a
  constructor
  · rintro rfl
    revert b; apply forall_u8; decide +kernel
  · rintro ⟨b0, b4, b5, rfl⟩
    obtain ⟨x, y, z, u, v⟩ := a
    revert b0 b4 b5 x y z u v; decide +kernel

theorem characteristicsOf_onWire (b : UInt8) (g : GtsCharacteristics) :
    characteristicsOf b = g ↔ g.count.toNat ≤ 15 ∧ ∃ r < 4,
      b = UInt8.ofNat (characteristicsValue g + 64 * r) := by
  constructor
  · rintro rfl
    revert b; apply forall_u8; decide +kernel
  · rintro ⟨hc, r, hr, rfl⟩
    obtain ⟨c, x, y⟩ := g
    have : ∀ c : UInt8, c.toNat ≤ 15 → ∀ r < 4, ∀ x y,
      characteristicsOf (UInt8.ofNat (characteristicsValue ⟨c, x, y⟩ + 64 * r)) = ⟨c, x, y⟩ := by
      apply forall_u8; decide +kernel
    exact this c hc r hr x y

theorem statusOf_some (b : UInt8) (s : AssociationStatus) :
    statusOf b = some s ↔ b = UInt8.ofNat (statusCode s) := by
  constructor
  · have : ∀ b : UInt8, ∀ s, statusOf b = some s → b = UInt8.ofNat (statusCode s) := by
      apply forall_u8
      intro n s; cases s <;> revert n <;> decide +kernel
    exact this b s
  · rintro rfl; exact statusOf_code s

theorem reasonOf_some (b : UInt8) (s : DisassociationReason) :
    reasonOf b = some s ↔ b = UInt8.ofNat (reasonCode s) := by
  constructor
  · have : ∀ b : UInt8, ∀ s, reasonOf b = some s → b = UInt8.ofNat (reasonCode s) := by
      apply forall_u8
      intro n s; cases s <;> revert n <;> decide +kernel
    exact this b s
  · rintro rfl; exact reasonOf_code s

theorem le2_u16Of (a b : UInt8) : le 2 (u16Of a b).toNat = [a, b] := by
  have ha := a.toNat_lt
  have hb := b.toNat_lt
  rw [le2_eq, u16Of, UInt16.toNat_ofNat_of_lt' (by simp [UInt16.size]; omega)]
  congr 1
  · apply UInt8.toNat_inj.mp; rw [UInt8.toNat_ofNat']; omega
  · congr 1; apply UInt8.toNat_inj.mp; rw [UInt8.toNat_ofNat']; omega

/-- Reading gives only what is related. -/
theorem commandRead_onWire {bytes : List UInt8} {c : Command} {n : Nat}
    (h : commandRead bytes = .ok (c, n)) :
    ∃ l rest, bytes = l ++ rest ∧ CommandOnWire c l rest ∧ n = l.length := by
  unfold commandRead at h
  split at h
  · cases h
  · rename_i id rest
    have lit : ∀ k : UInt8, id.toNat = k.toNat → id = k := fun k h => UInt8.toNat_inj.mp h
    split at h
    · rename_i hid; obtain rfl := lit 1 hid
      split at h
      · cases h
        exact ⟨[1, _], _, rfl, by
          obtain ⟨b0, b4, b5, e⟩ := (capabilityOf_onWire _ _).1 rfl
          exact ⟨b0, b4, b5, by rw [← e]⟩, rfl⟩
      · cases h
    · rename_i hid; obtain rfl := lit 2 hid
      split at h
      · rename_i a0 a1 s t
        split at h
        · rename_i st hs
          cases h
          refine ⟨[2, a0, a1, s], t, rfl, ?_, rfl⟩
          show _ = _ ++ le 2 _ ++ _
          rw [le2_u16Of, ← (statusOf_some _ _).1 hs]; rfl
        · cases h
      · cases h
    · rename_i hid; obtain rfl := lit 3 hid
      split at h
      · rename_i s t
        split at h
        · rename_i st hs
          cases h
          refine ⟨[3, s], t, rfl, ?_, rfl⟩
          show _ = [3, _]
          rw [← (reasonOf_some _ _).1 hs]
        · cases h
      · cases h
    · rename_i hid; obtain rfl := lit 4 hid; cases h; exact ⟨[4], _, rfl, rfl, rfl⟩
    · rename_i hid; obtain rfl := lit 5 hid; cases h; exact ⟨[5], _, rfl, rfl, rfl⟩
    · rename_i hid; obtain rfl := lit 6 hid; cases h; exact ⟨[6], _, rfl, rfl, rfl⟩
    · rename_i hid; obtain rfl := lit 7 hid; cases h; exact ⟨[7], _, rfl, rfl, rfl⟩
    · rename_i hid; obtain rfl := lit 8 hid
      split at h
      · cases h
        refine ⟨_, [], by simp; rfl, ⟨?_, fun _ => rfl⟩, rfl⟩
        simp [commandOctets, le2_u16Of, pageOctets]
      · rename_i p0 p1 c0 c1 ch d0 d1 page t
        cases h
        refine ⟨[8, p0, p1, c0, c1, ch, d0, d1, page], t, rfl, ⟨?_, fun h => by cases h⟩, rfl⟩
        simp [commandOctets, le2_u16Of, pageOctets]
      · cases h
    · rename_i hid; obtain rfl := lit 9 hid
      split at h
      · cases h
        exact ⟨[9, _], _, rfl, by
          obtain ⟨hc, r, hr, e⟩ := (characteristicsOf_onWire _ _).1 rfl
          exact ⟨hc, r, hr, by rw [← e]⟩, rfl⟩
      · cases h
    · cases h

/-- What is related is read. -/
theorem onWire_commandRead {c : Command} {l rest : List UInt8} (h : CommandOnWire c l rest) :
    commandRead (l ++ rest) = .ok (c, l.length) := by
  cases c with
  | associationRequest a =>
    obtain ⟨b0, b4, b5, rfl⟩ := h
    simp only [commandRead, List.cons_append, (capabilityOf_onWire _ a).2 ⟨b0, b4, b5, rfl⟩]
    rfl
  | guaranteedTimeSlotRequest g =>
    obtain ⟨hc, r, hr, rfl⟩ := h
    simp only [commandRead, List.cons_append, (characteristicsOf_onWire _ g).2 ⟨hc, r, hr, rfl⟩]
    rfl
  | coordinatorRealignment d =>
    obtain ⟨rfl, h⟩ := h
    exact commandRead_octets (.coordinatorRealignment d) trivial _ h
  | _ =>
    have h : l = commandOctets _ := h
    subst h
    refine commandRead_octets _ ?_ _ (fun h => False.elim h)
    exact trivial

/-- **C62** Commands: the reader accepts exactly the octets of a command with its reserved bits
free, and consumes exactly those. -/
theorem C62_command : ReadsExactly Command.tryRead CommandOnWire := by
  intro bytes c n
  rw [Command.tryRead_eq]
  constructor
  · exact commandRead_onWire
  · rintro ⟨l, rest, rfl, h, rfl⟩; exact onWire_commandRead h

/-- **C62** Content of a frame with a given header. -/
theorem C62_content (h : Header) :
    ReadsExactly (FrameContent.tryRead h) (ContentOnWire h.frameType) := by
  intro bytes c n
  rw [FrameContent.tryRead_eq]
  have plain : ∀ x : FrameContent, (Out.ok (x, 0) : Out ByteErr (FrameContent × Nat)) = .ok (c, n) ↔
      ∃ l rest, bytes = l ++ rest ∧ (c = x ∧ l = []) ∧ n = l.length := by
    intro x
    constructor
    · intro e; cases e; exact ⟨[], bytes, rfl, ⟨rfl, rfl⟩, rfl⟩
    · rintro ⟨l, rest, rfl, ⟨rfl, rfl⟩, rfl⟩; rfl
  cases ht : h.frameType <;> try exact plain _
  · show _ ↔ ∃ l rest, bytes = l ++ rest ∧ (∃ b, c = .beacon b ∧ BeaconOnWire b l) ∧ n = l.length
    constructor
    · intro e
      cases hb : Beacon.tryRead bytes with
      | ok x =>
        rw [hb] at e; cases e
        obtain ⟨l, rest, h1, h2, h3⟩ := (C51_beacon _ _ _).1 hb
        exact ⟨l, rest, h1, ⟨_, rfl, h2⟩, h3⟩
      | err _ => rw [hb] at e; cases e
      | panic => rw [hb] at e; cases e
    · rintro ⟨l, rest, h1, ⟨b, rfl, h2⟩, h3⟩
      rw [(C51_beacon _ _ _).2 ⟨l, rest, h1, h2, h3⟩]; rfl
  · show _ ↔ ∃ l rest, bytes = l ++ rest ∧ (∃ m, c = .command m ∧ CommandOnWire m l rest) ∧ n = l.length
    constructor
    · intro e
      cases hb : Command.tryRead bytes with
      | ok x =>
        rw [hb] at e; cases e
        obtain ⟨l, rest, h1, h2, h3⟩ := (C62_command _ _ _).1 hb
        exact ⟨l, rest, h1, ⟨_, rfl, h2⟩, h3⟩
      | err _ => rw [hb] at e; cases e
      | panic => rw [hb] at e; cases e
    · rintro ⟨l, rest, h1, ⟨b, rfl, h2⟩, h3⟩
      rw [(C62_command _ _ _).2 ⟨l, rest, h1, h2, h3⟩]; rfl

theorem footer_split {mode : FooterMode} {p p' : List UInt8} {x x' : UInt8 × UInt8}
    (h0 : mode = .none → x = (0, 0)) (h0' : mode = .none → x' = (0, 0))
    (h : p ++ footerOctets mode x = p' ++ footerOctets mode x') : p = p' ∧ x = x' := by
  cases mode with
  | none => exact ⟨by simpa [footerOctets] using h, by rw [h0 rfl, h0' rfl]⟩
  | explicit =>
    have := List.append_inj' h (by simp [footerOctets])
    obtain ⟨e1, e2⟩ := this
    obtain ⟨a, b⟩ := x
    obtain ⟨a', b'⟩ := x'
    simp only [footerOctets, List.cons.injEq, and_true] at e2
    exact ⟨e1, by rw [e2.1, e2.2]⟩

/-- **C62** Frames: an unsecured read accepts exactly header, content, payload and footer one
after the other; the value and the count returned are determined by them, and nothing is left over. -/
theorem C62_frame (cfg : Cfg) (mode : FooterMode) (bytes : List UInt8) (hfit : SliceFits cfg bytes)
    (f : Frame) (k : Nat) :
    Frame.tryRead cfg mode bytes = .ok (f, k) ↔ k = bytes.length ∧ FrameOnWire cfg mode f bytes := by
  constructor
  · intro hr
    obtain ⟨hk, hs, hf, n, m, ⟨hd1, hd2⟩, hb⟩ := C26_accounts cfg mode bytes hfit f k hr
    refine ⟨hk, hs, hf, bytes.take n, (bytes.drop n).take m, hb, ?_, ?_⟩
    · obtain ⟨l, rest, rfl, h2, rfl⟩ := (C51_header cfg _ _ _).1 hd1
      simpa using h2
    · obtain ⟨l, rest, h1, h2, rfl⟩ := (C62_content _ _ _ _).1 hd2
      have hb' : bytes = bytes.take n ++ (bytes.drop n).take l.length
          ++ (f.payload ++ footerOctets mode f.footer) := by
        rw [← List.append_assoc]; exact hb
      have e : rest = f.payload ++ footerOctets mode f.footer := by
        have e1 : bytes = bytes.take n ++ (l ++ rest) := by rw [← h1, List.take_append_drop]
        have e2 : (bytes.drop n).take l.length = l := by rw [h1]; simp
        rw [e2, List.append_assoc] at hb'
        exact List.append_cancel_left (List.append_cancel_left (e1.symm.trans hb'))
      rw [h1, ← e]
      simpa using h2
  · rintro ⟨rfl, hs, hf, hd, ct, hb, hh, hc⟩
    have hd1 : Header.tryRead cfg bytes = .ok (f.header, hd.length) :=
      (C51_header cfg _ _ _).2 ⟨hd, _, by rw [hb]; simp only [List.append_assoc]; rfl, hh, rfl⟩
    have hd2 : FrameContent.tryRead f.header (bytes.drop hd.length) = .ok (f.content, ct.length) :=
      (C62_content _ _ _ _).2 ⟨ct, f.payload ++ footerOctets mode f.footer, by
        rw [hb]; simp only [List.append_assoc, List.drop_left], hc, rfl⟩
    obtain ⟨f', hr, h1, h2⟩ := C26_accepts cfg mode bytes hfit f.header hd.length f.content ct.length
      ⟨hd1, hd2⟩ hs (by
        rintro rfl
        have := congrArg List.length hb
        simp only [List.length_append, footerOctets, List.length_cons, List.length_nil] at this
        omega)
    rw [hr]
    obtain ⟨_, _, hf', n, m, ⟨e1, e2⟩, hb'⟩ := C26_accounts cfg mode bytes hfit f' _ hr
    rw [h1, hd1] at e1
    cases e1
    rw [h1, h2, hd2] at e2
    cases e2
    have t1 : bytes.take hd.length = hd := by rw [hb]; simp [List.append_assoc]
    have t2 : (bytes.drop hd.length).take ct.length = ct := by rw [hb]; simp [List.append_assoc]
    rw [t1, t2] at hb'
    have e := hb'.symm.trans hb
    simp only [List.append_assoc] at e
    obtain ⟨e3, e4⟩ := footer_split hf' hf (List.append_cancel_left (List.append_cancel_left e))
    obtain ⟨a, b, c, d⟩ := f
    obtain ⟨a', b', c', d'⟩ := f'
    simp only at h1 h2 e3 e4
    rw [h1, h2, e3, e4]

/-- **C62** A slice is at most one frame. -/
theorem C62_frame_unique (cfg : Cfg) (mode : FooterMode) (bytes : List UInt8) (hfit : SliceFits cfg bytes)
    (f f' : Frame) (h : FrameOnWire cfg mode f bytes) (h' : FrameOnWire cfg mode f' bytes) : f = f' := by
  have e := (C62_frame cfg mode bytes hfit f _).2 ⟨rfl, h⟩
  rw [(C62_frame cfg mode bytes hfit f' _).2 ⟨rfl, h'⟩] at e
  cases e; rfl

/-- A GTS request with reserved bits set, in a frame with explicit footer. -/
example : Frame.tryRead sampleCfg .explicit [0x03, 0x08, 7, 0x34, 0x12, 0x78, 0x56, 9, 0xF5, 0xAA, 1, 2]
    = .ok (⟨⟨.macCommand, false, false, false, false, false, .ieee802154_2003, 7,
        some (.short 0x1234 0x5678), none, none⟩, .command (.guaranteedTimeSlotRequest ⟨5, true, true⟩),
        [0xAA], (1, 2)⟩, 12) := by decide

/-- An association request with reserved capability bits set. -/
example : Command.tryRead [1, 0x8F, 9] = .ok (.associationRequest ⟨true, true, true, false, true⟩, 2) := by
  decide

end Verif
