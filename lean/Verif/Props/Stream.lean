import Verif.Spec.StreamSpec
import Verif.Props.DecodeFrame

/-!
# C84: reading from a growing slice
-/

namespace Verif
open Spec

/-- A reader whose only refusal is a lack of octets. -/
theorem streams_of_needs {α : Type} {r : TryRead α} {req con : List UInt8 → Nat}
    (settled : ∀ bytes more a n, r bytes = .ok (a, n) → r (bytes ++ more) = .ok (a, n))
    (hn : NeedsL r req con) (hc : ∀ l, con l ≤ req l) (hb : ∀ l, req l ≤ 127) : Streams r := by
  have only : ∀ bytes, (∃ a n, r bytes = .ok (a, n) ∧ n ≤ bytes.length) ∨ r bytes = .err .incomplete := by
    intro bytes
    have := hc bytes
    by_cases h : req bytes ≤ bytes.length
    · obtain ⟨a, ha⟩ := (hn bytes).1 h
      exact .inl ⟨a, _, ha, by omega⟩
    · exact .inr ((hn bytes).2 (by omega))
  refine ⟨settled, ?_, ?_, ?_⟩
  · intro bytes more e h hne
    rcases only bytes with ⟨a, n, ha, _⟩ | hi
    · rw [ha] at h; cases h
    · rw [hi] at h; cases h; exact absurd rfl hne
  · intro bytes a n k h hk
    rcases only (bytes.take k) with ⟨a', n', ha, hle⟩ | hi
    · have := settled _ (bytes.drop k) _ _ ha
      rw [List.take_append_drop, h] at this
      simp only [Out.ok.injEq, Prod.mk.injEq] at this
      rw [List.length_take] at hle
      omega
    · exact hi
  · intro bytes more hl h
    have := (hn (bytes ++ more)).1 (by have := hb (bytes ++ more); simp; omega)
    rw [h] at this
    obtain ⟨a, ha⟩ := this
    cases ha

theorem Decodes.settled {α : Type} {r : TryRead α} {E : α → List UInt8 → Prop} (hd : Decodes r E)
    (bytes more : List UInt8) (a : α) (n : Nat) (h : r bytes = .ok (a, n)) : r (bytes ++ more) = .ok (a, n) := by
  obtain ⟨l, s, rfl, he, rfl⟩ := (hd _ _ _).1 h
  exact (hd _ _ _).2 ⟨l, s ++ more, by simp, he, rfl⟩

theorem Needs.streams {α : Type} {r : TryRead α} {E : α → List UInt8 → Prop} {need : List UInt8 → Nat}
    (hn : Needs r need) (hd : Decodes r E) (hb : ∀ l, need l ≤ 127) : Streams r :=
  streams_of_needs hd.settled (fun b => hn b) (fun _ => Nat.le_refl _) hb

theorem auxNeed_le (l : List UInt8) : auxNeed l ≤ 14 := by
  cases l with
  | nil => simp [auxNeed]
  | cons b l => simp only [auxNeed]; split <;> omega

theorem addrLength_le (m : Nat) (p : Bool) : addrLength m p ≤ 10 := by
  have := Header.bit_lt p
  unfold addrLength; split <;> omega

theorem gtsRequired_le (l : List UInt8) : gtsRequired l ≤ 24 ∧ gtsLength l ≤ gtsRequired l ∧ gtsLength l ≤ 23 := by
  cases l with
  | nil => simp [gtsRequired, gtsLength]
  | cons b l => simp only [gtsRequired, gtsLength]; split <;> omega

theorem pendingLength_le (l : List UInt8) : pendingLength l ≤ 71 := by
  cases l with
  | nil => simp [pendingLength]
  | cons b l => simp only [pendingLength]; omega

theorem headerVerdict_more (bytes more : List UInt8) (e : ByteErr) (h : headerVerdict bytes = .err e)
    (hne : e ≠ .incomplete) : headerVerdict (bytes ++ more) = .err e := by
  match bytes, h with
  | [], h => cases h; exact absurd rfl hne
  | [_], h => cases h; exact absurd rfl hne
  | [_, _], h => cases h; exact absurd rfl hne
  | b0 :: b1 :: b2 :: rest, h =>
    simp only [headerVerdict, List.cons_append] at h ⊢
    repeat' split at h
    all_goals first
      | (cases h; done)
      | (cases h; exact absurd rfl hne)
      | skip
    all_goals (cases h; repeat' split)
    all_goals first | rfl | (exfalso; omega)

theorem headerVerdict_long (bytes : List UInt8) :
    (37 ≤ bytes.length → headerVerdict bytes ≠ .err .incomplete) ∧
    (∀ n, headerVerdict bytes = .ok n → n ≤ 37) := by
  match bytes with
  | [] => exact ⟨fun h => absurd h (by simp), by rintro n ⟨⟩⟩
  | [_] => exact ⟨fun h => absurd h (by simp), by rintro n ⟨⟩⟩
  | [_, _] => exact ⟨fun h => absurd h (by simp), by rintro n ⟨⟩⟩
  | b0 :: b1 :: b2 :: rest =>
    have e1 := addrLength_le ((b0.toNat + 256 * b1.toNat) / 1024 % 4) true
    have e2 := addrLength_le ((b0.toNat + 256 * b1.toNat) / 16384 % 4)
      (decide ¬ (b0.toNat + 256 * b1.toNat) / 64 % 2 = 1)
    have e3 := auxNeed_le (rest.drop (addrLength ((b0.toNat + 256 * b1.toNat) / 1024 % 4) true +
      addrLength ((b0.toNat + 256 * b1.toNat) / 16384 % 4)
        (decide ¬ (b0.toNat + 256 * b1.toNat) / 64 % 2 = 1)))
    constructor
    · intro hl h
      simp only [headerVerdict] at h
      repeat' split at h
      all_goals first | (cases h; done) | omega
    · intro n h
      simp only [headerVerdict] at h
      repeat' split at h
      all_goals first | (cases h; done) | (simp only [Out.ok.injEq] at h; omega)

/-- **C84** Headers, auxiliary headers, beacons and their parts can be read from what has arrived so far. -/
theorem C84_growing (cfg : Cfg) :
    Streams (Header.tryRead cfg) ∧ Streams (AuxHeader.tryRead cfg) ∧ Streams SecurityControl.tryRead ∧
    Streams Beacon.tryRead ∧ Streams SuperframeSpec.tryRead ∧ Streams GtsInfo.tryRead ∧
    Streams GtsDescriptor.tryRead ∧ Streams PendingAddress.tryRead ∧ Streams PanId.tryRead ∧
    Streams ShortAddress.tryRead ∧ Streams ExtendedAddress.tryRead := by
  refine ⟨⟨(Header.decodes cfg).settled, ?_, ?_, ?_⟩,
    (AuxHeader.needs cfg).streams (AuxHeader.decodes cfg) (fun l => by have := auxNeed_le l; omega),
    SecurityControl.needs.streams SecurityControl.decodes (by simp),
    Beacon.needs.streams Beacon.decodes (fun l => ?_),
    SuperframeSpec.needs.streams SuperframeSpec.decodes (by simp),
    streams_of_needs ?_ GtsInfo.needs (fun l => (gtsRequired_le l).2.1)
      (fun l => by have := (gtsRequired_le l).1; omega),
    GtsDescriptor.needs.streams GtsDescriptor.decodes (by simp),
    PendingAddress.needs.streams PendingAddress.decodes (fun l => by have := pendingLength_le l; omega),
    PanId.needs.streams PanId.decodes (by simp), ShortAddress.needs.streams ShortAddress.decodes (by simp),
    ExtendedAddress.needs.streams ExtendedAddress.decodes (by simp)⟩
  · intro bytes more e h hne
    exact ((C07_header_read_verdict cfg _).2 e).2
      (headerVerdict_more bytes more e (((C07_header_read_verdict cfg _).2 e).1 h) hne)
  · intro bytes a n k h hk
    exact (C06_header_read_local cfg bytes a n h).2 k hk
  · intro bytes more hl h
    exact (headerVerdict_long _).1 (by rw [List.length_append]; omega) (((C07_header_read_verdict cfg _).2 _).1 h)
  · unfold beaconLength
    have e1 := gtsRequired_le (l.drop 2)
    have e2 := pendingLength_le (l.drop (2 + gtsLength (l.drop 2)))
    omega
  · intro bytes more g n h
    obtain ⟨l, s, rfl, he, rfl⟩ := (C51_gts _ _ _).1 h
    refine (C51_gts _ _ _).2 ⟨l, s ++ more, by simp, ?_, rfl⟩
    obtain ⟨h1, h2, h3, h4, h5⟩ := he
    exact ⟨h1, h2, h3, fun hp => by have := h4 hp; simp [this], h5⟩

theorem commandRead_settled (bytes more : List UInt8) (c : Command) (n : Nat) (h : commandRead bytes = .ok (c, n))
    (hp : ¬ NoPage c) : commandRead (bytes ++ more) = .ok (c, n) := by
  match bytes with
  | [] => cases h
  | id :: rest =>
    simp only [List.cons_append, commandRead] at h ⊢
    repeat' split at h
    all_goals first | (cases h; done) | skip
    all_goals (simp only [Out.ok.injEq, Prod.mk.injEq] at h; obtain ⟨rfl, rfl⟩ := h)
    all_goals simp_all [NoPage]

theorem commandRead_page (bytes more : List UInt8) (d : CoordinatorRealignmentData) (n : Nat) (p : UInt8)
    (h : commandRead bytes = .ok (.coordinatorRealignment d, n)) (hp : d.channelPage = none) :
    n = 8 ∧ commandRead (bytes ++ p :: more) =
      .ok (.coordinatorRealignment { d with channelPage := some p }, n + 1) := by
  match bytes with
  | [] => cases h
  | id :: rest =>
    simp only [List.cons_append, commandRead] at h ⊢
    repeat' split at h
    all_goals first | (cases h; done) | skip
    all_goals (simp only [Out.ok.injEq, Prod.mk.injEq, Command.coordinatorRealignment.injEq] at h; obtain ⟨rfl, rfl⟩ := h)
    all_goals simp_all

theorem commandRead_refused (bytes more : List UInt8) (e : ByteErr) (h : commandRead bytes = .err e)
    (hne : e ≠ .incomplete) : commandRead (bytes ++ more) = .err e := by
  match bytes with
  | [] => cases h; exact absurd rfl hne
  | id :: rest =>
    simp only [List.cons_append, commandRead] at h ⊢
    repeat' split at h
    all_goals first | (cases h; done) | (cases h; exact absurd rfl hne) | skip
    all_goals (simp only [Out.err.injEq] at h; subst h)
    all_goals simp_all

theorem commandRead_resumes (bytes : List UInt8) (hl : 8 ≤ bytes.length) : commandRead bytes ≠ .err .incomplete := by
  match bytes, hl with
  | id :: a :: b :: c :: d :: e :: f :: g :: rest, _ =>
    intro h
    simp only [commandRead] at h
    cases rest <;> repeat' split at h
    all_goals first | (cases h; done) | skip
    all_goals simp_all

/-- **C84** Commands: the same, except that a realignment read without channel page has not settled: the
next octet will be taken for the page; and cut before its page it is one without. -/
theorem C84_commands (bytes more : List UInt8) :
    (∀ c n, Command.tryRead bytes = .ok (c, n) → ¬ NoPage c → Command.tryRead (bytes ++ more) = .ok (c, n)) ∧
    (∀ d n p, Command.tryRead bytes = .ok (.coordinatorRealignment d, n) → d.channelPage = none →
      Command.tryRead (bytes ++ p :: more) =
        .ok (.coordinatorRealignment { d with channelPage := some p }, n + 1)) ∧
    (∀ e, Command.tryRead bytes = .err e → e ≠ .incomplete → Command.tryRead (bytes ++ more) = .err e) ∧
    (∀ c n k, Command.tryRead bytes = .ok (c, n) → k < n → Command.tryRead (bytes.take k) = .err .incomplete ∨
      k = 8 ∧ ∃ d p, c = .coordinatorRealignment d ∧ d.channelPage = some p ∧
        Command.tryRead (bytes.take k) = .ok (.coordinatorRealignment { d with channelPage := none }, 8)) ∧
    (8 ≤ more.length → Command.tryRead (bytes ++ more) ≠ .err .incomplete) := by
  simp only [C21_command_read]
  refine ⟨commandRead_settled bytes more, fun d n p h hp => (commandRead_page bytes more d n p h hp).2,
    commandRead_refused bytes more, ?_,
    fun hl => commandRead_resumes _ (by rw [List.length_append]; omega)⟩
  intro c n k h hk
  have hle : ∀ b c n, commandRead b = .ok (c, n) → n ≤ b.length := fun b c n hr =>
    Command.tryRead_bound ((C21_command_read b).trans hr)
  have hn := hle _ _ _ h
  have hs : bytes = bytes.take k ++ bytes.drop k := (List.take_append_drop k bytes).symm
  have hlk : (bytes.take k).length = k := by rw [List.length_take]; omega
  cases hr : commandRead (bytes.take k) with
  | panic => exact absurd ((C21_command_read _).trans hr) (C21_command_acceptance _).1
  | err e =>
    by_cases he : e = .incomplete
    · exact .inl (by rw [he])
    · have := commandRead_refused _ (bytes.drop k) e hr he
      rw [← hs, h] at this
      cases this
  | ok x =>
    obtain ⟨c', n'⟩ := x
    have hn' := hle _ _ _ hr
    by_cases hp : NoPage c'
    · right
      cases c' with
      | coordinatorRealignment d =>
        obtain ⟨p, tl, hd⟩ : ∃ p tl, bytes.drop k = p :: tl := by
          cases hd : bytes.drop k with
          | nil => have := congrArg List.length hd; rw [List.length_drop] at this; simp at this; omega
          | cons p tl => exact ⟨p, tl, rfl⟩
        obtain ⟨rfl, hpage⟩ := commandRead_page _ tl d n' p hr hp
        rw [← hd, ← hs, h] at hpage
        simp only [Out.ok.injEq, Prod.mk.injEq] at hpage
        obtain ⟨rfl, rfl⟩ := hpage
        refine ⟨by omega, _, p, rfl, rfl, ?_⟩
        have hp' : d.channelPage = none := hp
        obtain ⟨d1, d2, d3, d4, d5⟩ := d
        simp only at hp'
        subst hp'
        rfl
      | _ => cases hp
    · have := commandRead_settled _ (bytes.drop k) c' n' hr hp
      rw [← hs, h] at this
      simp only [Out.ok.injEq, Prod.mk.injEq] at this
      omega

theorem content_more (h : Header) (bytes more : List UInt8) :
    (∀ c m, FrameContent.tryRead h bytes = .ok (c, m) → ¬ ContentNoPage c →
      FrameContent.tryRead h (bytes ++ more) = .ok (c, m)) ∧
    (∀ c m p, FrameContent.tryRead h bytes = .ok (c, m) → ContentNoPage c → m = bytes.length ∧
      FrameContent.tryRead h (bytes ++ p :: more) = .ok (withPage p c, m + 1)) ∧
    (∀ e, FrameContent.tryRead h bytes = .err e → e ≠ .incomplete →
      FrameContent.tryRead h (bytes ++ more) = .err e) ∧
    (96 ≤ bytes.length → FrameContent.tryRead h bytes ≠ .err .incomplete) := by
  have hb := (C84_growing ⟨true, .w64, .little⟩).2.2.2.1
  simp only [FrameContent.tryRead_eq]
  cases h.frameType with
  | beacon =>
    refine ⟨?_, ?_, ?_, ?_⟩
    · intro c m hr _
      cases hx : Beacon.tryRead bytes with
      | ok x =>
        obtain ⟨b, n⟩ := x
        rw [hx] at hr
        rw [hb.settled _ more _ _ hx]
        exact hr
      | err e => rw [hx] at hr; cases hr
      | panic => rw [hx] at hr; cases hr
    · intro c m p hr hc
      cases hx : Beacon.tryRead bytes with
      | ok x =>
        rw [hx] at hr
        simp only [Out.bind, Out.ok.injEq, Prod.mk.injEq] at hr
        rw [← hr.1] at hc; cases hc
      | err e => rw [hx] at hr; cases hr
      | panic => rw [hx] at hr; cases hr
    · intro e hr hne
      cases hx : Beacon.tryRead bytes with
      | ok x => rw [hx] at hr; cases hr
      | err e' =>
        rw [hx] at hr
        simp only [Out.bind, Out.err.injEq] at hr
        subst hr
        rw [hb.refused _ more _ hx hne]; rfl
      | panic => rw [hx] at hr; cases hr
    · intro hl hr
      cases hx : Beacon.tryRead bytes with
      | ok x => rw [hx] at hr; cases hr
      | err e' =>
        rw [hx] at hr
        simp only [Out.bind, Out.err.injEq] at hr
        subst hr
        have e1 := gtsRequired_le (bytes.drop 2)
        have e2 := pendingLength_le (bytes.drop (2 + gtsLength (bytes.drop 2)))
        obtain ⟨b, hb'⟩ := (Beacon.needs bytes).1 (by unfold beaconLength; omega)
        rw [hx] at hb'; cases hb'
      | panic => rw [hx] at hr; cases hr
  | macCommand =>
    obtain ⟨h1, _, h3, _, _⟩ := C84_commands bytes more
    refine ⟨?_, ?_, ?_, ?_⟩
    · intro c m hr hc
      cases hx : Command.tryRead bytes with
      | ok x =>
        obtain ⟨b, n⟩ := x
        rw [hx] at hr
        simp only [Out.bind, Out.ok.injEq, Prod.mk.injEq] at hr
        obtain ⟨rfl, rfl⟩ := hr
        rw [h1 _ _ hx hc]; rfl
      | err e => rw [hx] at hr; cases hr
      | panic => rw [hx] at hr; cases hr
    · intro c m p hr hc
      cases hx : Command.tryRead bytes with
      | ok x =>
        obtain ⟨b, n⟩ := x
        rw [hx] at hr
        simp only [Out.bind, Out.ok.injEq, Prod.mk.injEq] at hr
        obtain ⟨rfl, rfl⟩ := hr
        cases b with
        | coordinatorRealignment d =>
          have hpage := (C84_commands bytes more).2.1 d n p hx hc
          refine ⟨?_, by rw [hpage]; rfl⟩
          have hle := Command.tryRead_bound hx
          obtain ⟨id, rest, rfl, _, hn⟩ := (C21_command_acceptance bytes).2.2.2.2 _ _ hx
          have h9 := (commandRead_page _ more d n p ((C21_command_read _).symm.trans hx) hc).1
          by_cases h8 : 8 < (id :: rest).length
          · -- a ninth octet would have been the page
            exfalso
            have hx' := (C21_command_read _).symm.trans hx
            match rest, h8 with
            | a :: b :: c :: d' :: e :: f :: g :: i :: rest, _ =>
              simp only [commandRead] at hx'
              repeat' split at hx'
              all_goals first | (cases hx'; done) | skip
              all_goals simp only [Out.ok.injEq, Prod.mk.injEq, Command.coordinatorRealignment.injEq] at hx'
              all_goals (obtain ⟨rfl, rfl⟩ := hx'; first | (cases hc; done) | omega)
          · omega
        | _ => cases hc
      | err e => rw [hx] at hr; cases hr
      | panic => rw [hx] at hr; cases hr
    · intro e hr hne
      cases hx : Command.tryRead bytes with
      | ok x => rw [hx] at hr; cases hr
      | err e' =>
        rw [hx] at hr
        simp only [Out.bind, Out.err.injEq] at hr
        subst hr
        rw [h3 _ hx hne]; rfl
      | panic => rw [hx] at hr; cases hr
    · intro hl hr
      cases hx : Command.tryRead bytes with
      | ok x => rw [hx] at hr; cases hr
      | err e' =>
        rw [hx] at hr
        simp only [Out.bind, Out.err.injEq] at hr
        subst hr
        exact commandRead_resumes bytes (by omega) ((C21_command_read _).symm.trans hx)
      | panic => rw [hx] at hr; cases hr
  | _ =>
    refine ⟨fun c m hr _ => hr, ?_, ?_, ?_⟩
    · intro c m p hr hc; cases hr; cases hc
    · intro e hr; cases hr
    · intro _ hr; cases hr

/-- **C84** Frames without footer: when more octets come, header and content stay and the payload grows,
unless the content is a realignment without channel page, which takes the first of them; a refusal other
than `Incomplete` stays; `Incomplete` goes away, at the latest with 133 octets. -/
theorem C84_frames (cfg : Cfg) (bytes more : List UInt8) (hfit : SliceFits cfg (bytes ++ more)) :
    (∀ f k, Frame.tryRead cfg .none bytes = .ok (f, k) → ¬ ContentNoPage f.content →
      Frame.tryRead cfg .none (bytes ++ more) =
        .ok ({ f with payload := f.payload ++ more }, bytes.length + more.length)) ∧
    (∀ f k p tl, Frame.tryRead cfg .none bytes = .ok (f, k) → ContentNoPage f.content → more = p :: tl →
      f.payload = [] ∧ Frame.tryRead cfg .none (bytes ++ more) =
        .ok ({ f with content := withPage p f.content, payload := tl }, bytes.length + more.length)) ∧
    (∀ e, Frame.tryRead cfg .none bytes = .err e → e ≠ .incomplete →
      Frame.tryRead cfg .none (bytes ++ more) = .err e) ∧
    (133 ≤ bytes.length → Frame.tryRead cfg .none bytes ≠ .err .incomplete) := by
  have hfit0 : SliceFits cfg bytes := by
    unfold SliceFits at hfit ⊢; rw [List.length_append] at hfit; omega
  have hset := (C84_growing cfg).1.settled bytes more
  -- what follows from a readable head
  have head : ∀ f k, Frame.tryRead cfg .none bytes = .ok (f, k) → ∃ n m,
      HeadReadable cfg bytes f.header n f.content m ∧ f.header.auxSec = none ∧ f.footer = (0, 0) ∧
      f.payload = bytes.drop (n + m) ∧ n + m ≤ bytes.length := by
    intro f k hr
    rw [Frame.tryRead_eq cfg _ _ hfit0] at hr
    cases hh : Frame.readHead cfg bytes 0 with
    | ok x =>
      obtain ⟨⟨h, c⟩, off⟩ := x
      obtain ⟨n, m, hd, rfl⟩ := Frame.readHead_ok.1 hh
      rw [hh] at hr
      simp only [Out.bind, Frame.tailVerdict] at hr
      split at hr
      · cases hr
      · rename_i hs
        simp only [Out.ok.injEq, Prod.mk.injEq] at hr
        obtain ⟨rfl, rfl⟩ := hr
        exact ⟨n, m, hd, by simpa using hs, rfl, rfl, (Frame.headReadable_bound hd).2⟩
    | err e => rw [hh] at hr; cases hr
    | panic => rw [hh] at hr; cases hr
  have finish : ∀ h n c m, HeadReadable cfg (bytes ++ more) h n c m → h.auxSec = none →
      Frame.tryRead cfg .none (bytes ++ more) =
        .ok (⟨h, c, (bytes ++ more).drop (n + m), (0, 0)⟩, bytes.length + more.length) := by
    intro h n c m hd hs
    rw [Frame.tryRead_eq cfg _ _ hfit, Frame.readHead_ok.2 ⟨n, m, hd, rfl⟩]
    simp only [Out.bind, Frame.tailVerdict, hs, Option.isSome_none, Bool.false_eq_true, if_false,
      List.length_append]
  refine ⟨?_, ?_, ?_, ?_⟩
  · intro f k hr hp
    obtain ⟨n, m, ⟨hh, hc⟩, hs, hf, hpl, hle⟩ := head f k hr
    have hd : (bytes ++ more).drop n = bytes.drop n ++ more := List.drop_append_of_le_length (by omega)
    have hc' := (content_more f.header (bytes.drop n) more).1 _ _ hc hp
    rw [finish f.header n f.content m ⟨hset _ _ hh, by rw [hd]; exact hc'⟩ hs]
    rw [List.drop_append_of_le_length hle, ← hpl, ← hf]
  · intro f k p tl hr hp hm
    obtain ⟨n, m, ⟨hh, hc⟩, hs, hf, hpl, hle⟩ := head f k hr
    have hd : (bytes ++ more).drop n = bytes.drop n ++ more := List.drop_append_of_le_length (by omega)
    obtain ⟨hm', hc'⟩ := (content_more f.header (bytes.drop n) tl).2.1 _ _ p hc hp
    rw [List.length_drop] at hm'
    have hnil : f.payload = [] := by rw [hpl]; apply List.drop_eq_nil_of_le; omega
    refine ⟨hnil, ?_⟩
    rw [finish f.header n (withPage p f.content) (m + 1) ⟨hset _ _ hh, by rw [hd, hm]; exact hc'⟩ hs, ← hf]
    have : n + (m + 1) = bytes.length + 1 := by omega
    rw [this, hm, List.drop_length_add_append]
    rfl
  · intro e hr hne
    rw [Frame.tryRead_eq cfg _ _ hfit0] at hr
    rw [Frame.tryRead_eq cfg _ _ hfit]
    cases hh : Header.tryRead cfg bytes with
    | panic => exact absurd hh (C01_header_read_total cfg bytes).1
    | err e' =>
      rw [Frame.readHead_eq, hh] at hr
      simp only [Out.bind, Out.err.injEq] at hr
      subst hr
      rw [Frame.readHead_eq, (C84_growing cfg).1.refused _ more _ hh hne]; rfl
    | ok x =>
      obtain ⟨h, n⟩ := x
      have hn := (C01_header_read_total cfg bytes).2 _ _ hh
      have hd : (bytes ++ more).drop n = bytes.drop n ++ more := List.drop_append_of_le_length (by omega)
      cases hc : FrameContent.tryRead h (bytes.drop n) with
      | panic => exact absurd hc (FrameContent.tryRead_no_panic _ _)
      | err e' =>
        rw [Frame.readHead_eq, hh] at hr
        simp only [Out.bind, hc, Out.err.injEq] at hr
        subst hr
        have hc' := (content_more h (bytes.drop n) more).2.2.1 _ hc hne
        rw [Frame.readHead_eq, hset _ _ hh]
        simp only [Out.bind, hd, hc']
      | ok y =>
        obtain ⟨c, m⟩ := y
        rw [Frame.readHead_ok.2 ⟨n, m, ⟨hh, hc⟩, rfl⟩] at hr
        simp only [Out.bind, Frame.tailVerdict] at hr
        have hsec : h.auxSec.isSome = true := by
          cases hs : h.auxSec.isSome with
          | true => rfl
          | false => rw [hs] at hr; simp at hr
        rw [if_pos hsec] at hr
        cases hr
        have : ∃ c' m', FrameContent.tryRead h ((bytes ++ more).drop n) = .ok (c', m') := by
          rw [hd]
          by_cases hp : ContentNoPage c
          · cases more with
            | nil => rw [List.append_nil]; exact ⟨_, _, hc⟩
            | cons p tl => exact ⟨_, _, ((content_more h (bytes.drop n) tl).2.1 _ _ p hc hp).2⟩
          · exact ⟨_, _, (content_more h (bytes.drop n) more).1 _ _ hc hp⟩
        obtain ⟨c', m', hc'⟩ := this
        rw [Frame.readHead_ok.2 ⟨n, m', ⟨hset _ _ hh, hc'⟩, rfl⟩]
        simp only [Out.bind, Frame.tailVerdict, hsec, if_true]
  · intro hl hr
    rw [Frame.tryRead_eq cfg _ _ hfit0] at hr
    cases hh : Header.tryRead cfg bytes with
    | panic => exact absurd hh (C01_header_read_total cfg bytes).1
    | err e' =>
      rw [Frame.readHead_eq, hh] at hr
      simp only [Out.bind, Out.err.injEq] at hr
      subst hr
      exact (headerVerdict_long _).1 (by omega) (((C07_header_read_verdict cfg _).2 _).1 hh)
    | ok x =>
      obtain ⟨h, n⟩ := x
      have hn := (headerVerdict_long _).2 _ (((C07_header_read_verdict cfg bytes).1 n).1 ⟨h, hh⟩)
      cases hc : FrameContent.tryRead h (bytes.drop n) with
      | panic => exact absurd hc (FrameContent.tryRead_no_panic _ _)
      | err e' =>
        rw [Frame.readHead_eq, hh] at hr
        simp only [Out.bind, hc, Out.err.injEq] at hr
        subst hr
        exact (content_more h (bytes.drop n) []).2.2.2 (by rw [List.length_drop]; omega) hc
      | ok y =>
        obtain ⟨c, m⟩ := y
        rw [Frame.readHead_ok.2 ⟨n, m, ⟨hh, hc⟩, rfl⟩] at hr
        simp only [Out.bind, Frame.tailVerdict] at hr
        split at hr <;> cases hr

/-- **C84** A frame cut short is `Incomplete` or the same frame with a shorter payload, never one with another
header or content, except that a realignment can lose its channel page. -/
theorem C84_cut_frame (cfg : Cfg) (bytes : List UInt8) (hfit : SliceFits cfg bytes) (f : Frame) (k : Nat)
    (hr : Frame.tryRead cfg .none bytes = .ok (f, k)) (j : Nat) (hj : j ≤ bytes.length) :
    Frame.tryRead cfg .none (bytes.take j) = .err .incomplete ∨
    ∃ f', Frame.tryRead cfg .none (bytes.take j) = .ok (f', j) ∧ f'.header = f.header ∧
      f'.footer = f.footer ∧ f'.payload <+: f.payload ∧
      (f'.content = f.content ∨
        ContentNoPage f'.content ∧ f'.payload = [] ∧ ∃ p, f.content = withPage p f'.content) := by
  have hs : bytes.take j ++ bytes.drop j = bytes := List.take_append_drop j bytes
  have hlj : (bytes.take j).length = j := by rw [List.length_take]; omega
  have hfit' : SliceFits cfg (bytes.take j ++ bytes.drop j) := by rw [hs]; exact hfit
  have hfitj : SliceFits cfg (bytes.take j) := by unfold SliceFits at hfit ⊢; omega
  obtain ⟨h1, h2, h3, _⟩ := C84_frames cfg (bytes.take j) (bytes.drop j) hfit'
  rw [hs] at h1 h2 h3
  cases hx : Frame.tryRead cfg .none (bytes.take j) with
  | panic => exact absurd hx (C25_no_footer_no_panic cfg _ hfitj)
  | err e =>
    by_cases he : e = .incomplete
    · exact .inl (by rw [he])
    · have := h3 e hx he
      rw [hr] at this; cases this
  | ok x =>
    obtain ⟨f', k'⟩ := x
    have hk := (C26_accounts cfg .none _ hfitj f' k' hx).1
    rw [hlj] at hk
    subst hk
    refine .inr ⟨f', rfl, ?_⟩
    by_cases hp : ContentNoPage f'.content
    · cases hd : bytes.drop k' with
      | nil =>
        rw [hd, List.append_nil] at hs
        rw [hs, hr] at hx
        simp only [Out.ok.injEq, Prod.mk.injEq] at hx
        obtain ⟨rfl, _⟩ := hx
        exact ⟨rfl, rfl, List.prefix_refl _, .inl rfl⟩
      | cons p tl =>
        obtain ⟨hn, hy⟩ := h2 f' k' p tl hx hp hd
        rw [hr] at hy
        simp only [Out.ok.injEq, Prod.mk.injEq] at hy
        obtain ⟨rfl, _⟩ := hy
        exact ⟨rfl, rfl, by rw [hn]; exact List.nil_prefix, .inr ⟨hp, hn, p, rfl⟩⟩
    · have hy := h1 f' k' hx hp
      rw [hr] at hy
      simp only [Out.ok.injEq, Prod.mk.injEq] at hy
      obtain ⟨rfl, _⟩ := hy
      exact ⟨rfl, rfl, List.prefix_append _ _, .inl rfl⟩

/-- A beacon frame arriving octet by octet: `Incomplete` until its lists are there, then settled, further
octets going to the payload. -/
example : Frame.tryRead sampleCfg .none [0x00, 0x80, 7, 1, 0, 2, 0, 0xFF, 0xCF, 0x00] = .err .incomplete ∧
    (∃ f, Frame.tryRead sampleCfg .none [0x00, 0x80, 7, 1, 0, 2, 0, 0xFF, 0xCF, 0x00, 0x00] = .ok (f, 11) ∧
      f.payload = [] ∧ ¬ ContentNoPage f.content ∧
      Frame.tryRead sampleCfg .none [0x00, 0x80, 7, 1, 0, 2, 0, 0xFF, 0xCF, 0x00, 0x00, 5, 6] =
        .ok ({ f with payload := [5, 6] }, 13)) := by
  refine ⟨by decide, _, rfl, rfl, fun h => h, rfl⟩

/-- A realignment command takes the octet behind it for its channel page, and loses it when cut. -/
example : Command.tryRead [8, 1, 2, 3, 4, 5, 6, 7] =
      .ok (.coordinatorRealignment ⟨0x0201, 0x0403, 5, 0x0706, none⟩, 8) ∧
    Command.tryRead [8, 1, 2, 3, 4, 5, 6, 7, 99] =
      .ok (.coordinatorRealignment ⟨0x0201, 0x0403, 5, 0x0706, some 99⟩, 9) ∧
    Command.tryRead [2, 1, 0] = .err .incomplete ∧ Command.tryRead [2, 1, 0, 77] = .err invalidValue := by
  decide

/-- The bound on a frame's head is the least one: 132 octets can still be `Incomplete`. -/
example : Frame.tryRead sampleCfg .none ([0x08, 0xCC, 1] ++ List.replicate 20 0 ++ [0x18] ++
    List.replicate 13 0 ++ [0, 0, 7, 0] ++ List.replicate 21 0 ++ [0x77] ++ List.replicate 69 0) =
      .err .incomplete := by decide +kernel

end Verif
