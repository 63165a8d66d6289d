import Verif.Props.Relay

/-!
# C64: values obtainable through the API are determined by what can be seen of them
# C08 for secured headers
-/

namespace Verif
open Spec

theorem vector_of_take {α : Type} {v w : Vector α 7} {n : Nat} (x : α)
    (h : v.toList.take n = w.toList.take n)
    (hv : v.toList.drop n = (List.replicate 7 x).drop n)
    (hw : w.toList.drop n = (List.replicate 7 x).drop n) : v = w := by
  have : v.toList = w.toList := by
    rw [← List.take_append_drop n v.toList, h, hv, ← hw, List.take_append_drop]
  exact Vector.toList_inj.mp this

theorem slice_count {α : Type} {v w : Vector α 7} {n m : Nat} (hn : n ≤ 7) (hm : m ≤ 7)
    (h : sliceTo v n = sliceTo w m) : n = m ∧ v.toList.take n = w.toList.take n := by
  simp only [sliceTo, if_pos hn, if_pos hm, Out.ok.injEq] at h
  have hl := congrArg List.length h
  simp only [List.length_take, Vector.length_toList] at hl
  have : n = m := by omega
  subst this
  exact ⟨rfl, h⟩

theorem gts_ext {g g' : GtsInfo} (h : GtsInfo.Shape g) (h' : GtsInfo.Shape g') :
    g = g' ↔ g.permit = g'.permit ∧ g.slotsSlice = g'.slotsSlice := by
  constructor
  · rintro rfl; exact ⟨rfl, rfl⟩
  · rintro ⟨hp, hs⟩
    obtain ⟨h1, _, h3⟩ := h
    obtain ⟨h1', _, h3'⟩ := h'
    obtain ⟨hc, ht⟩ := slice_count h1 h1' hs
    obtain ⟨p, c, v⟩ := g
    obtain ⟨p', c', v'⟩ := g'
    simp only at hp hc ht h3 h3'
    subst hp hc
    rw [vector_of_take _ ht h3 h3']

theorem pending_ext {p p' : PendingAddress} (h : PendingAddress.Shape p) (h' : PendingAddress.Shape p') :
    p = p' ↔ p.shortAddresses = p'.shortAddresses ∧ p.extendedAddresses = p'.extendedAddresses := by
  constructor
  · rintro rfl; exact ⟨rfl, rfl⟩
  · rintro ⟨hp, hs⟩
    obtain ⟨h1, h2, h3, h4⟩ := h
    obtain ⟨h1', h2', h3', h4'⟩ := h'
    obtain ⟨hc, ht⟩ := slice_count h1 h1' hp
    obtain ⟨hc', ht'⟩ := slice_count h2 h2' hs
    obtain ⟨p, c, v, x⟩ := p
    obtain ⟨p', c', v', x'⟩ := p'
    simp only at hc hc' ht ht' h3 h3' h4 h4'
    subst hc hc'
    rw [vector_of_take _ ht h3 h3', vector_of_take _ ht' h4 h4']

/-- **C64** GTS information is equal exactly when the permit flags and the slot lists are: the unused
entries of the array do not count. -/
theorem C64_gts (g g' : GtsInfo) (h : GtsFromApi g) (h' : GtsFromApi g') :
    g = g' ↔ g.permit = g'.permit ∧ g.slotsSlice = g'.slotsSlice := gts_ext h.shape h'.shape

/-- **C64** Pending-address lists are equal exactly when their lists of addresses are. -/
theorem C64_pending (p p' : PendingAddress) (h : PendingFromApi p) (h' : PendingFromApi p') :
    p = p' ↔ p.shortAddresses = p'.shortAddresses ∧ p.extendedAddresses = p'.extendedAddresses :=
  pending_ext h.shape h'.shape

/-- **C64** Beacons likewise. -/
theorem C64_beacon (b b' : Beacon) (h : BeaconFromApi b) (h' : BeaconFromApi b') :
    b = b' ↔ b.superframeSpec = b'.superframeSpec ∧ b.gtsInfo.permit = b'.gtsInfo.permit ∧
      b.gtsInfo.slotsSlice = b'.gtsInfo.slotsSlice ∧
      b.pendingAddress.shortAddresses = b'.pendingAddress.shortAddresses ∧
      b.pendingAddress.extendedAddresses = b'.pendingAddress.extendedAddresses := by
  have e1 := gts_ext h.shape.1 h'.shape.1
  have e2 := pending_ext h.shape.2 h'.shape.2
  constructor
  · rintro rfl; exact ⟨rfl, rfl, rfl, rfl, rfl⟩
  · rintro ⟨a1, a2, a3, a4, a5⟩
    obtain ⟨s, g, p⟩ := b
    obtain ⟨s', g', p'⟩ := b'
    have := e1.2 ⟨a2, a3⟩
    have := e2.2 ⟨a4, a5⟩
    simp only at *
    simp_all

/-- Two GTS fields that differ in reserved bits are equal values. -/
example : ∃ g, GtsInfo.tryRead [0x79, 0xFF, 1, 2, 0x43, 0] = .ok (g, 5) ∧
    GtsInfo.tryRead [0x01, 0x01, 1, 2, 0x43, 7] = .ok (g, 5) ∧ GtsFromApi g :=
  ⟨⟨false, 1, #v[⟨0x0201, 3, 4, .transmit⟩, .new, .new, .new, .new, .new, .new]⟩, by decide, by decide,
    .read [0x79, 0xFF, 1, 2, 0x43, 0] _ 5 (by decide)⟩

/-- The unused entries would count for values that cannot be obtained through the API. -/
example : (⟨false, 0, Vector.replicate 7 ⟨1, 0, 0, .receive⟩⟩ : GtsInfo) ≠ GtsInfo.new ∧
    (⟨false, 0, Vector.replicate 7 ⟨1, 0, 0, .receive⟩⟩ : GtsInfo).slotsSlice = GtsInfo.new.slotsSlice := by
  decide

/-- **C08** A decoded secured header written again with a context: the octets before the auxiliary
header with bits 7-9 of the frame control field cleared, then the same level and key identifier with
the reserved bits cleared, and the context's counter in the place of the one received. -/
theorem C08_secured_reencode {κ : Type} (cfg : Cfg) (sc : SecCtx κ) (bytes : List UInt8)
    (h : Header) (n : Nat) (a : AuxHeader) (hr : Header.tryRead cfg bytes = .ok (h, n))
    (hs : h.auxSec = some a) (he : Encodable h) (buf : List UInt8) (hb : n ≤ buf.length) :
    ∃ pre, ∃ r < 8,
      bytes.take n = pre ++ auxOctets .little cfg.native r a.control.securityLevel a.frameCounter a.keyIdentifier ∧
      h.tryWrite cfg (some sc) buf = (.ok n,
        clear789 pre ++ auxOctets cfg.native cfg.native 0 a.control.securityLevel sc.frameCounter a.keyIdentifier
          ++ buf.drop n) := by
  obtain ⟨l, s, rfl, hon, rfl⟩ := (Header.decodes cfg _ _ _).1 hr
  obtain ⟨_, b7, aux, haux, rfl⟩ := hon
  rw [hs] at haux
  obtain ⟨_, r, hr8, rfl⟩ := haux
  have hsplit : ∀ b7 b8 b9 x, headerOctets h b7 b8 b9 x = headerOctets h b7 b8 b9 [] ++ x := by
    intros; simp [headerOctets]
  have hw := Header.tryWrite_of_room cfg h (some sc) he (by simp) buf
  simp only [hs, auxAsWritten, ctxCounter] at hw
  have hlen : (headerOctets h b7 h.seqNoSuppress h.iePresent
      (auxOctets .little cfg.native r a.control.securityLevel a.frameCounter a.keyIdentifier)).length =
      (headerOctets h false false false
        (auxOctets cfg.native cfg.native 0 a.control.securityLevel sc.frameCounter a.keyIdentifier)).length := by
    have ho : ∀ e k n, (inOrder e k n).length = k := by intro e k n; cases e <;> simp [inOrder, le]
    have hk : ∀ e, (keyIdentifierOctets e a.keyIdentifier).length
      = (keyIdentifierOctets .little a.keyIdentifier).length := by
      intro e
      rcases a.keyIdentifier with _ | ⟨_ | _ | _, _⟩ <;> simp [keyIdentifierOctets, ho]
    simp [headerOctets, auxOctets, ho, hk, le]
  refine ⟨headerOctets h b7 h.seqNoSuppress h.iePresent [], r, hr8, ?_, ?_⟩
  · rw [List.take_left, hsplit]
  · rw [hlen] at hb ⊢
    rw [hw hb, Header.clear789_octets, ← hsplit]

/-- A secured header received with counter 0x01020304, sent on by a device whose counter is 7. -/
example : ∃ h : Header, Header.tryRead sampleCfg [0x09, 0x88, 77, 0x34, 0x12, 0x78, 0x56, 0x34, 0x12, 1, 0,
      0xED, 4, 3, 2, 1, 9, 0xAA] = .ok (h, 17) ∧ Encodable h ∧
    h.tryWrite sampleCfg (some (⟨1, 7, fun _ _ _ => none⟩ : SecCtx Unit)) (List.replicate 17 0) =
      (.ok 17, [0x09, 0x88, 77, 0x34, 0x12, 0x78, 0x56, 0x34, 0x12, 1, 0, 0x0D, 7, 0, 0, 0, 9]) :=
  ⟨⟨.data, false, false, false, false, false, .ieee802154_2003, 77, some (.short 0x1234 0x5678),
      some (.short 0x1234 1), some ⟨⟨.encmic32, .keyIndex⟩, 0x01020304, some ⟨none, 9⟩⟩⟩,
    by decide, by decide, by decide⟩

end Verif
