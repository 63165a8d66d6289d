import Verif.Lemmas.Header

/-! # Lemmas: outcome of reading a header -/

namespace Verif
open Spec

namespace Header

theorem readU16_cons (b0 b1 : UInt8) (rest : List UInt8) :
    R.read (tryReadU16 .little) (b0 :: b1 :: rest) 0 =
      .ok (UInt16.ofNat (b0.toNat + 256 * b1.toNat), 2) := by
  have h0 := b0.toNat_lt
  have h1 := b1.toNat_lt
  refine (RDec.read (Decodes.u16 .little) [] _ _ _).2 ⟨[b0, b1], rest, rfl, ?_, rfl⟩
  rw [UInt16.toNat_ofNat_of_lt' (by simp [UInt16.size]; omega)]
  have := le_leToNat [b0, b1]
  simpa [leToNat, inOrder] using this.symm

theorem tryRead_cons3 (cfg : Cfg) (b0 b1 b2 : UInt8) (rest : List UInt8) :
    Header.tryRead cfg (b0 :: b1 :: b2 :: rest) =
      match readFc (UInt16.ofNat (b0.toNat + 256 * b1.toNat)) with
      | .ok fc => readBody cfg fc ([b0, b1] ++ b2 :: rest) 2
      | .err e => .err e
      | .panic => .panic := by
  rw [tryRead_eq, if_neg (by simp)]
  unfold readAll
  rw [R.bind_apply, readU16_cons]
  simp only
  rw [R.bind_apply]
  unfold R.lift
  cases readFc (UInt16.ofNat (b0.toNat + 256 * b1.toNat)) <;> rfl

theorem amCode_none (m : AddressMode) : m = .none ↔ amCode m = 0 := by
  cases m <;> simp [amCode]

theorem verdict (cfg : Cfg) (bytes : List UInt8) :
    (Header.tryRead cfg bytes).bind (fun r => .ok r.2) = headerVerdict bytes := by
  match bytes with
  | [] => rfl
  | [_] => rfl
  | [_, _] => rfl
  | b0 :: b1 :: b2 :: rest =>
    rw [tryRead_cons3]
    have h0 := b0.toNat_lt
    have h1 := b1.toNat_lt
    have hb : (UInt16.ofNat (b0.toNat + 256 * b1.toNat)).toNat = b0.toNat + 256 * b1.toNat :=
      UInt16.toNat_ofNat_of_lt' (by simp [UInt16.size]; omega)
    simp only [headerVerdict]
    generalize hbits : UInt16.ofNat (b0.toNat + 256 * b1.toNat) = bits at hb
    rw [← hb]
    have hn := bits.toNat_lt
    by_cases hv : bits.toNat / 4096 % 4 = 3
    · rw [readFc_badVersion bits hv, if_pos hv]; rfl
    · rw [if_neg hv]
      by_cases ht : bits.toNat % 8 = 4
      · rw [readFc_badType bits hv ht, if_pos ht]; rfl
      · rw [if_neg ht]
        by_cases hm : bits.toNat / 1024 % 4 = 1 ∨ bits.toNat / 16384 % 4 = 1
        · rw [readFc_badMode bits hv ht hm, if_pos hm]; rfl
        · rw [if_neg hm]
          obtain ⟨fc, hfc⟩ := readFc_total bits hv ht (by omega) (by omega)
          rw [hfc]
          obtain ⟨b7, hb7⟩ := (readFc_ok bits fc).1 hfc
          have e1 := typeCode_lt fc.frameType
          have e2 := versionCode_lt fc.version
          have e3 := amCode_lt fc.dst
          have e4 := amCode_lt fc.src
          have e5 := bit_lt fc.security
          have e6 := bit_lt fc.framePending
          have e7 := bit_lt fc.ackRequest
          have e8 := bit_lt fc.panIdCompress
          have e9 := bit_lt fc.seqNoSuppress
          have e10 := bit_lt fc.iePresent
          have e11 := bit_lt b7
          unfold fcNat at hb7
          have hdst : bits.toNat / 1024 % 4 = amCode fc.dst := by omega
          have hsrc : bits.toNat / 16384 % 4 = amCode fc.src := by omega
          have hcomp : bits.toNat / 64 % 2 = bit fc.panIdCompress := by omega
          have hsec : bits.toNat / 8 % 2 = bit fc.security := by omega
          rw [hdst, hsrc, hcomp, hsec]
          have hbit : ∀ b, (bit b = 1) = (b = true) := by intro b; cases b <;> simp [bit]
          simp only [hbit]
          by_cases hc : fc.panIdCompress = true ∧ amCode fc.dst = 0
          · rw [if_pos hc]
            have := readBody_nodest cfg fc hc.1 ((amCode_none _).2 hc.2) [b0, b1] b2 rest
            simp only [List.length_cons, List.length_nil, Nat.zero_add] at this
            simp only [this]; rfl
          · rw [if_neg hc]
            have hbody := readBody_needs cfg fc (fun h h' => hc ⟨h, (amCode_none _).1 h'⟩)
              [b0, b1] (b2 :: rest)
            simp only [List.length_cons, List.length_nil, Nat.zero_add, List.drop_succ_cons,
              List.drop_zero, fcNeed] at hbody
            have hnot : (decide ¬ fc.panIdCompress = true) = !fc.panIdCompress := by
              cases fc.panIdCompress <;> rfl
            simp only [hnot, List.length_cons]
            generalize addrLength (amCode fc.dst) true + addrLength (amCode fc.src) (!fc.panIdCompress)
              = A at *
            generalize (if fc.security = true then auxNeed (List.drop A rest) else 0) = B at *
            by_cases hl : rest.length + 1 + 1 + 1 < 3 + A + B
            · rw [if_pos hl, hbody.2 (by omega)]; rfl
            · rw [if_neg hl]
              obtain ⟨h, hh⟩ := hbody.1 (by omega)
              simp only [hh, Out.bind]
              congr 1; omega

/-! ## Writing: consequences -/

theorem auxWritten_eq {κ : Type} (cfg : Cfg) (h : Header) (ctx : Option (SecCtx κ))
    (hr : auxResult h ctx = .ok ()) :
    auxWritten cfg h ctx = auxAsWritten cfg (ctxCounter ctx) h.auxSec := by
  unfold auxResult at hr
  unfold auxWritten auxAsWritten ctxCounter
  cases hs : h.auxSec <;> cases ctx <;> simp_all

/-- Everything about a successful header write. -/
theorem tryWrite_ok {κ : Type} {cfg : Cfg} {h : Header} {ctx : Option (SecCtx κ)}
    {buf buf' : List UInt8} {n : Nat} (hw : h.tryWrite cfg ctx buf = (.ok n, buf')) :
    Encodable h ∧ (h.auxSec.isSome = true → ctx.isSome = true) ∧
    n ≤ buf.length ∧
    n = (headerOctets h false false false (auxAsWritten cfg (ctxCounter ctx) h.auxSec)).length ∧
    buf' = headerOctets h false false false (auxAsWritten cfg (ctxCounter ctx) h.auxSec)
      ++ buf.drop n := by
  by_cases he : Encodable h
  · obtain ⟨h1, h2, h3, h4⟩ := (writes cfg h ctx he).ok_inv hw
    rw [auxWritten_eq cfg h ctx h1] at *
    refine ⟨he, ?_, by omega, h3, by rw [h3]; exact h4⟩
    unfold auxResult at h1
    cases hs : h.auxSec <;> cases hc : ctx <;> simp_all
  · have := (writes_refused cfg h ctx he).ok_inv hw
    simp at this

theorem auxResult_ok {κ : Type} {h : Header} {ctx : Option (SecCtx κ)}
    (hc : h.auxSec.isSome = true → ctx.isSome = true) : auxResult h ctx = .ok () := by
  unfold auxResult
  cases h1 : h.auxSec <;> cases h2 : ctx <;> simp_all

/-- A header that has an encoding is written when there is room. -/
theorem tryWrite_of_room {κ : Type} (cfg : Cfg) (h : Header) (ctx : Option (SecCtx κ))
    (he : Encodable h) (hc : h.auxSec.isSome = true → ctx.isSome = true) (buf : List UInt8)
    (hl : (headerOctets h false false false
      (auxAsWritten cfg (ctxCounter ctx) h.auxSec)).length ≤ buf.length) :
    h.tryWrite cfg ctx buf =
      (.ok (headerOctets h false false false (auxAsWritten cfg (ctxCounter ctx) h.auxSec)).length,
       headerOctets h false false false (auxAsWritten cfg (ctxCounter ctx) h.auxSec)
        ++ buf.drop (headerOctets h false false false
          (auxAsWritten cfg (ctxCounter ctx) h.auxSec)).length) := by
  have hr := auxResult_ok hc
  have hw := writes cfg h ctx he
  rw [hr, auxWritten_eq cfg h ctx hr] at hw
  exact hw.ok_of_room buf hl

theorem modeCode_inPan (p : UInt16) (a : Address) :
    modeCode (some (inPan p a)) = modeCode (some a) := by cases a <;> rfl

theorem addrOctets_inPan (p : UInt16) (a : Address) :
    Spec.addrOctets (inPan p a) = Spec.addrOctets a := by cases a <;> rfl

theorem panOf_inPan (p : UInt16) (a : Address) : panOf (inPan p a) = p := by cases a <;> rfl

theorem headerOctets_asRead (cfg : Cfg) (c : UInt32) (h : Header) (b7 b8 b9 : Bool)
    (aux : List UInt8) :
    headerOctets (headerAsRead cfg c h) b7 b8 b9 aux = headerOctets h b7 b8 b9 aux := by
  rcases h with ⟨ft, fp, ar, pc, sns, ie, v, sq, de, so, au⟩
  cases pc <;> rcases de with _ | d <;> rcases so with _ | s <;>
    simp [headerOctets, headerAsRead, frameControl, sourceAsRead, modeCode_inPan,
      addrOctets_inPan, srcOctets]

theorem headerAsRead_onWire (cfg : Cfg) (c : UInt32) (h : Header) (he : Encodable h) :
    HeaderOnWire cfg (headerAsRead cfg c h)
      (headerOctets h false false false (auxAsWritten cfg c h.auxSec)) := by
  refine ⟨?_, false, auxAsWritten cfg c h.auxSec, ?_, ?_⟩
  · intro hc
    have hc : h.panIdCompress = true := hc
    obtain ⟨hd, hs⟩ := he hc
    obtain ⟨d, hd⟩ := Option.isSome_iff_exists.mp hd
    obtain ⟨s, hs⟩ := Option.isSome_iff_exists.mp hs
    refine ⟨by simp [headerAsRead, hd], ?_⟩
    intro d' s' h1 h2
    simp only [headerAsRead, sourceAsRead, hc, hd, hs, Option.some.injEq] at h1 h2
    rw [← h2, ← h1, panOf_inPan]
  · unfold AuxOnWire auxAsWritten headerAsRead
    cases h.auxSec with
    | none => rfl
    | some a =>
      refine ⟨rfl, 0, by omega, ?_⟩
      simp only [auxAsRead, auxOctets, inOrder_counter cfg c]
  · rw [headerOctets_asRead]; rfl

theorem addr_length (a : Option Address) (c : Bool) :
    (dstOctets a).length = Header.addrOctets a ∧
    (srcOctets c a).length + (if c = true ∧ a.isSome = true then 2 else 0) =
      Header.addrOctets a := by
  rcases a with _ | ⟨p, a⟩ | ⟨p, a⟩ <;> cases c <;>
    simp [dstOctets, srcOctets, Header.addrOctets, fullAddrOctets, Spec.addrOctets]

theorem octetSize_eq (h : Header) : h.octetSize = uncompressedLength h := by
  have h1 := (addr_length h.destination false).1
  have h2 := (addr_length h.source false).2
  simp at h2
  simp [octetSize, uncompressedLength, h1, h2]

theorem headerOctets_length (h : Header) (b7 b8 b9 : Bool) (aux : List UInt8) (he : Encodable h) :
    (headerOctets h b7 b8 b9 aux).length + 2 * bit h.panIdCompress
      = h.octetSize + aux.length := by
  have h1 := (addr_length h.destination false).1
  have h2 := (addr_length h.source h.panIdCompress).2
  unfold Encodable at he
  simp only [headerOctets, octetSize, List.length_append, le_length, List.length_cons,
    List.length_nil, h1]
  cases hc : h.panIdCompress with
  | false => simp [hc] at h2; simp [bit]; omega
  | true => simp [hc, he hc] at h2; simp [bit]; omega

end Header
end Verif
