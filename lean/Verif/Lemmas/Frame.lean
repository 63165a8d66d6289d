import Verif.Lemmas.Command
import Verif.Props.Command
import Verif.Props.Header
import Verif.Props.Beacon
import Verif.Spec.FrameSpec

/-!
# Lemmas: frame content and plain frames
-/

namespace Verif
open Spec

theorem Command.tryRead_bound {bytes : List UInt8} {c : Command} {n : Nat}
    (h : Command.tryRead bytes = .ok (c, n)) : n ≤ bytes.length := by
  obtain ⟨_, _, _, hn, _⟩ := (C21_command_acceptance bytes).2.2.2.2 c n h
  exact hn

theorem Command.decodes : DecodesS Command.tryRead
    (fun c l s => Command.tryRead (l ++ s) = .ok (c, l.length)) := by
  intro bytes c n
  constructor
  · intro h
    have := Command.tryRead_bound h
    refine ⟨bytes.take n, bytes.drop n, by simp, ?_, by simp; omega⟩
    show Command.tryRead (_ ++ _) = _
    rw [List.take_append_drop, h]
    congr 2; simp; omega
  · rintro ⟨l, s, rfl, h, rfl⟩; exact h

namespace FrameContent

theorem run_readPure {α β : Type} (r : TryRead α) (f : α → β) (bytes : List UInt8) :
    (R.run (do let a ← R.read r; pure (f a))) bytes
      = (r bytes).bind fun x => .ok (f x.1, x.2) := by
  simp only [R.run, R.bind_apply, R.read, Nat.not_lt_zero, if_false, List.drop_zero, R.pure_eq]
  cases r bytes with
  | ok x => obtain ⟨a, n⟩ := x; simp [Out.bind]
  | err e => rfl
  | panic => rfl

/-- The content reader by frame type. -/
theorem tryRead_eq (h : Header) (bytes : List UInt8) :
    FrameContent.tryRead h bytes =
      match h.frameType with
      | .beacon => (Beacon.tryRead bytes).bind fun x => .ok (.beacon x.1, x.2)
      | .data => .ok (.data, 0)
      | .acknowledgement => .ok (.acknowledgement, 0)
      | .macCommand => (Command.tryRead bytes).bind fun x => .ok (.command x.1, x.2)
      | .multipurpose => .ok (.multipurpose, 0)
      | .fragOrFragAck => .ok (.fragOrFragAck, 0)
      | .extended => .ok (.extended, 0) := by
  unfold FrameContent.tryRead
  cases h.frameType <;> first | rfl | exact run_readPure _ _ _

theorem tryRead_no_panic (h : Header) (bytes : List UInt8) :
    FrameContent.tryRead h bytes ≠ .panic := by
  rw [tryRead_eq]
  cases h.frameType <;> simp only [ne_eq, reduceCtorEq, not_false_eq_true]
  · have := C17_beacon_read_total bytes
    by_cases hl : beaconLength bytes ≤ bytes.length
    · obtain ⟨b, hb, _⟩ := this.1 hl
      rw [hb]; simp [Out.bind]
    · rw [this.2 (by omega)]; simp [Out.bind]
  · have := (C21_command_acceptance bytes).1
    cases hc : Command.tryRead bytes with
    | ok x => simp [Out.bind]
    | err e => simp [Out.bind]
    | panic => exact absurd hc this

theorem tryRead_bound {h : Header} {bytes : List UInt8} {c : FrameContent} {n : Nat}
    (hr : FrameContent.tryRead h bytes = .ok (c, n)) : n ≤ bytes.length := by
  rw [tryRead_eq] at hr
  cases ht : h.frameType <;> rw [ht] at hr <;> simp only at hr <;>
    first
    | (simp only [Out.ok.injEq, Prod.mk.injEq] at hr; omega)
    | skip
  · cases hb : Beacon.tryRead bytes with
    | ok x =>
      obtain ⟨b, m⟩ := x
      rw [hb] at hr
      simp only [Out.bind, Out.ok.injEq, Prod.mk.injEq] at hr
      obtain ⟨l, s, hl, _, hm⟩ := (Beacon.decodes _ _ _).1 hb
      rw [hl, ← hr.2, hm]; simp
    | err e => rw [hb] at hr; simp [Out.bind] at hr
    | panic => rw [hb] at hr; simp [Out.bind] at hr
  · cases hb : Command.tryRead bytes with
    | ok x =>
      obtain ⟨b, m⟩ := x
      rw [hb] at hr
      simp only [Out.bind, Out.ok.injEq, Prod.mk.injEq] at hr
      have := Command.tryRead_bound hb
      omega
    | err e => rw [hb] at hr; simp [Out.bind] at hr
    | panic => rw [hb] at hr; simp [Out.bind] at hr

theorem tryRead_matches {h : Header} {bytes : List UInt8} {c : FrameContent} {n : Nat}
    (hr : FrameContent.tryRead h bytes = .ok (c, n)) : ContentMatches h.frameType c := by
  rw [tryRead_eq] at hr
  cases ht : h.frameType <;> rw [ht] at hr <;> simp only at hr <;>
    first
    | (simp only [Out.ok.injEq, Prod.mk.injEq] at hr; exact hr.1.symm)
    | skip
  · cases hb : Beacon.tryRead bytes with
    | ok x =>
      rw [hb] at hr
      simp only [Out.bind, Out.ok.injEq, Prod.mk.injEq] at hr
      exact ⟨_, hr.1.symm⟩
    | err e => rw [hb] at hr; simp [Out.bind] at hr
    | panic => rw [hb] at hr; simp [Out.bind] at hr
  · cases hb : Command.tryRead bytes with
    | ok x =>
      rw [hb] at hr
      simp only [Out.bind, Out.ok.injEq, Prod.mk.injEq] at hr
      exact ⟨_, hr.1.symm⟩
    | err e => rw [hb] at hr; simp [Out.bind] at hr
    | panic => rw [hb] at hr; simp [Out.bind] at hr

theorem writes (c : FrameContent) (hc : ContentFromApi c) :
    Writes c.tryWrite (.ok ()) (contentOctets c) := by
  apply Writes.run
  cases c with
  | beacon b => exact WSpec.write (Beacon.writes b hc.shape.1 hc.shape.2)
  | command c => exact WSpec.write c.writes
  | data => exact WSpec.pure ()
  | acknowledgement => exact WSpec.pure ()
  | multipurpose => exact WSpec.pure ()
  | fragOrFragAck => exact WSpec.pure ()
  | extended => exact WSpec.pure ()

/-- Content reads back in front of what it survives. -/
theorem tryRead_octets (h : Header) (c : FrameContent) (hm : ContentMatches h.frameType c)
    (ha : ContentFromApi c) (following : List UInt8) (hs : ContentSurvives following c) :
    FrameContent.tryRead h (contentOctets c ++ following) = .ok (c, (contentOctets c).length) := by
  rw [tryRead_eq]
  cases ht : h.frameType <;> rw [ht] at hm <;> simp only [ContentMatches] at hm
  · obtain ⟨b, rfl⟩ := hm
    have := (Beacon.decodes (beaconOctets b ++ following) b _).2 ⟨_, following, rfl,
      ⟨hs, ha.shape.1, ha.shape.2, false, 0, by omega, 0, Nat.pow_pos (by omega), false, false, rfl⟩, rfl⟩
    simp only [contentOctets, this, Out.bind]
  all_goals try (subst hm; rfl)
  · obtain ⟨m, rfl⟩ := hm
    simp only [contentOctets, Command.tryRead_eq, commandRead_octets m hs.1 following hs.2, Out.bind]

end FrameContent

namespace Frame

/-- Header and content, one after the other. -/
theorem readHead_eq (cfg : Cfg) (bytes : List UInt8) :
    readHead cfg bytes 0 = (Header.tryRead cfg bytes).bind fun x =>
      (FrameContent.tryRead x.1 (bytes.drop x.2)).bind fun y => .ok ((x.1, y.1), x.2 + y.2) := by
  unfold readHead
  simp only [R.bind_apply, R.read, Nat.not_lt_zero, if_false, List.drop_zero]
  cases hh : Header.tryRead cfg bytes with
  | ok x =>
    obtain ⟨h, n⟩ := x
    have hb := (C01_header_read_total cfg bytes).2 h n hh
    simp only [Out.bind, Nat.zero_add]
    rw [if_neg (by omega)]
    cases FrameContent.tryRead h (bytes.drop n) with
    | ok y => rfl
    | err e => rfl
    | panic => rfl
  | err e => rfl
  | panic => rfl

theorem readHead_ok {cfg : Cfg} {bytes : List UInt8} {h : Header} {c : FrameContent} {off : Nat} :
    readHead cfg bytes 0 = .ok ((h, c), off) ↔ ∃ n m, HeadReadable cfg bytes h n c m ∧ off = n + m := by
  rw [readHead_eq]
  constructor
  · intro hr
    cases hh : Header.tryRead cfg bytes with
    | ok x =>
      obtain ⟨h', n⟩ := x
      rw [hh] at hr
      simp only [Out.bind] at hr
      cases hc : FrameContent.tryRead h' (bytes.drop n) with
      | ok y =>
        obtain ⟨c', m⟩ := y
        rw [hc] at hr
        simp only [Out.ok.injEq, Prod.mk.injEq] at hr
        obtain ⟨⟨rfl, rfl⟩, rfl⟩ := hr
        exact ⟨n, m, ⟨hh, hc⟩, rfl⟩
      | err e => rw [hc] at hr; simp at hr
      | panic => rw [hc] at hr; simp at hr
    | err e => rw [hh] at hr; simp [Out.bind] at hr
    | panic => rw [hh] at hr; simp [Out.bind] at hr
  · rintro ⟨n, m, ⟨hh, hc⟩, rfl⟩
    simp only [hh, Out.bind, hc]

theorem readHead_no_panic (cfg : Cfg) (bytes : List UInt8) : readHead cfg bytes 0 ≠ .panic := by
  rw [readHead_eq]
  cases hh : Header.tryRead cfg bytes with
  | ok x =>
    simp only [Out.bind]
    cases hc : FrameContent.tryRead x.1 (bytes.drop x.2) with
    | ok y => simp
    | err e => simp
    | panic => exact absurd hc (FrameContent.tryRead_no_panic _ _)
  | err e => simp [Out.bind]
  | panic => exact absurd hh (C01_header_read_total cfg bytes).1

theorem headReadable_bound {cfg : Cfg} {bytes : List UInt8} {h : Header} {c : FrameContent} {n m : Nat}
    (hr : HeadReadable cfg bytes h n c m) : 3 ≤ n ∧ n + m ≤ bytes.length := by
  have h1 := (C01_header_read_total cfg bytes).2 h n hr.1
  have h2 := FrameContent.tryRead_bound hr.2
  simp at h2
  omega

theorem headReadable_unique {cfg : Cfg} {bytes : List UInt8} {h h' : Header} {c c' : FrameContent}
    {n m n' m' : Nat} (hr : HeadReadable cfg bytes h n c m) (hr' : HeadReadable cfg bytes h' n' c' m') :
    h = h' ∧ n = n' ∧ c = c' ∧ m = m' := by
  obtain ⟨h1, h2⟩ := hr
  obtain ⟨h3, h4⟩ := hr'
  rw [h1] at h3
  simp only [Out.ok.injEq, Prod.mk.injEq] at h3
  obtain ⟨rfl, rfl⟩ := h3
  rw [h2] at h4
  simp only [Out.ok.injEq, Prod.mk.injEq] at h4
  exact ⟨rfl, rfl, h4.1, h4.2⟩

/-- What follows header and content, by footer mode: the exact outcome of `Frame::try_read`. -/
def tailVerdict (cfg : Cfg) (mode : FooterMode) (h : Header) (c : FrameContent) (bytes : List UInt8)
    (off : Nat) : Out ByteErr (Frame × Nat) :=
  if h.auxSec.isSome then .err (.badInput "SecurityEnabled (use Frame::try_read_and_unsecure)")
  else match mode with
    | .none => .ok (⟨h, c, bytes.drop off, (0, 0)⟩, bytes.length)
    | .explicit =>
      match (bytes.drop off).reverse with
      | f2 :: f1 :: rpayload => .ok (⟨h, c, rpayload.reverse, (f1, f2)⟩, bytes.length)
      | _ => if cfg.overflowChecks then .panic else .err .incomplete

theorem footerBytes_eq (a b : UInt8) :
    footerBytes (UInt16.ofNat (a.toNat + 256 * (b.toNat + 256 * 0))) = (a, b) := by
  have h1 := a.toNat_lt
  have h2 := b.toNat_lt
  have e : (UInt16.ofNat (a.toNat + 256 * (b.toNat + 256 * 0))).toNat = a.toNat + 256 * b.toNat := by
    rw [UInt16.toNat_ofNat_of_lt' (by simp [UInt16.size]; omega)]; omega
  unfold footerBytes
  congr 1
  · apply UInt8.toNat_inj.mp
    rw [UInt16.toNat_toUInt8, e]; omega
  · apply UInt8.toNat_inj.mp
    rw [UInt16.toNat_toUInt8, UInt16.toNat_shiftRight, e]
    simp [Nat.shiftRight_eq_div_pow]; omega

theorem read_bytes (pre rest : List UInt8) (k : Nat) :
    R.read (tryReadBytes k) (pre ++ rest) pre.length =
      if rest.length < k then .err .incomplete else .ok (rest.take k, pre.length + k) := by
  have : (pre ++ rest).drop pre.length = rest := by simp
  unfold R.read tryReadBytes
  rw [if_neg (by simp), this]
  by_cases h : rest.length < k <;> simp [h]

theorem tail_eq (cfg : Cfg) (mode : FooterMode) (h : Header) (c : FrameContent) (pre rest : List UInt8)
    (hfit : (pre ++ rest).length + 3 ≤ 2 ^ cfg.usize.bits) :
    (do
      if h.hasSecurity then
        R.fail DecodeError.securityEnabled.toByteErr
      let (payload, footer) ← (match mode with
        | .none => do
            let len ← R.len
            let off ← R.offset
            let n ← R.lift (usub cfg len off)
            let payload ← R.read (tryReadBytes n)
            pure (payload, (0 : UInt16))
        | .explicit => do
            let len ← R.len
            let off ← R.offset
            let n ← R.lift (usub cfg len off)
            let n ← R.lift (usub cfg n 2)
            let payload ← R.read (tryReadBytes n)
            let footer ← R.read (tryReadU16 .little)
            pure (payload, footer) : R (List UInt8 × UInt16))
      pure { header := h, content := c, payload, footer := footerBytes footer } : R Frame)
      (pre ++ rest) pre.length = tailVerdict cfg mode h c (pre ++ rest) pre.length := by
  have hd : (pre ++ rest).drop pre.length = rest := by simp
  unfold tailVerdict Header.hasSecurity
  rw [hd]
  cases hs : h.auxSec.isSome
  · simp only [Bool.false_eq_true, if_false]
    have hsub : (usub cfg (pre ++ rest).length pre.length : Out ByteErr Nat) = .ok rest.length := by
      unfold usub
      rw [if_pos (by simp)]; simp
    cases mode with
    | none =>
      simp only [R.bind_apply, R.pure_eq, R.len, R.offset, hsub, R.lift, read_bytes, Nat.lt_irrefl,
        if_false, List.take_length]
      rw [List.length_append]; rfl
    | explicit =>
      simp only [R.bind_apply, R.pure_eq, R.len, R.offset, hsub, R.lift]
      symm
      split <;> symm
      · rename_i f2 f1 rp hrev
        have hrest : rest = rp.reverse ++ [f1, f2] := by
          have := congrArg List.reverse hrev
          simpa using this
        subst hrest
        have h2 : (usub cfg (rp.reverse ++ [f1, f2]).length 2 : Out ByteErr Nat) = .ok rp.reverse.length := by
          unfold usub
          rw [if_pos (by simp)]; simp
        simp only [h2, read_bytes]
        rw [if_neg (by simp)]
        have e1 : (rp.reverse ++ [f1, f2]).take rp.reverse.length = rp.reverse := by simp
        have e2 : pre ++ (rp.reverse ++ [f1, f2]) = pre ++ rp.reverse ++ [f1, f2] := by simp
        have e3 : pre.length + rp.reverse.length = (pre ++ rp.reverse).length := by simp
        rw [e1, e2, e3]
        simp only [R.read]
        rw [if_neg (by simp)]
        have e4 : (pre ++ rp.reverse ++ [f1, f2]).drop (pre ++ rp.reverse).length = [f1, f2] := by simp
        rw [e4]
        simp only [tryReadU16, tryReadNat, List.length_cons, List.length_nil, Nat.lt_irrefl, if_false,
          Out.bind, bytesToNat, List.take, leToNat, footerBytes_eq]
        congr 2
        simp; omega
      · rename_i hno
        have hlen : rest.length < 2 := by
          rcases hc : rest.reverse with _ | ⟨a, _ | ⟨b, t⟩⟩
          · have := congrArg List.length hc; simp at this; simp [this]
          · have := congrArg List.length hc; simp at this; omega
          · exact absurd hc (hno a b t)
        unfold usub
        rw [if_neg (by omega)]
        cases cfg.overflowChecks
        · simp only [Bool.false_eq_true, if_false, read_bytes]
          rw [if_pos]
          simp at hfit
          omega
        · rfl
  · simp only [if_true]; rfl

/-- The exact outcome of `Frame::try_read`. -/
theorem tryRead_eq (cfg : Cfg) (mode : FooterMode) (bytes : List UInt8) (hfit : SliceFits cfg bytes) :
    Frame.tryRead cfg mode bytes =
      (readHead cfg bytes 0).bind fun x => tailVerdict cfg mode x.1.1 x.1.2 bytes x.2 := by
  have hf : bytes.length + 3 ≤ 2 ^ cfg.usize.bits := by
    have := hfit
    unfold SliceFits at this
    cases hu : cfg.usize <;> rw [hu] at this <;> simp only [PtrWidth.bits] at this ⊢ <;> omega
  unfold Frame.tryRead R.run
  rw [R.bind_apply]
  cases hr : readHead cfg bytes 0 with
  | ok x =>
    obtain ⟨⟨h, c⟩, off⟩ := x
    obtain ⟨n, m, hh, rfl⟩ := readHead_ok.1 hr
    have hb := headReadable_bound hh
    obtain ⟨p, s, rfl, hp⟩ := split_at bytes (n + m) hb.2
    rw [← hp]
    exact tail_eq cfg mode h c p s hf
  | err e => rfl
  | panic => rfl

end Frame

end Verif
