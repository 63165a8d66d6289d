import Verif.Spec.OnWire
import Verif.Props.Frame
import Verif.Props.Writers

/-!
# C51: what is read is exactly what the octets say; C52, C53: streams and unique decoding
-/

namespace Verif
open Spec

/-! ## C51 -/

/-- **C51** Headers. -/
theorem C51_header (cfg : Cfg) :
    ReadsExactly (Header.tryRead cfg) (fun h l _ => HeaderOnWire cfg h l) := Header.decodes cfg

/-- **C51** Auxiliary security headers. -/
theorem C51_aux (cfg : Cfg) :
    ReadsExactly (AuxHeader.tryRead cfg) (fun a l _ => AuxOnWire cfg (some a) l) :=
  AuxHeader.decodes cfg

/-- **C51** Superframe specifications. -/
theorem C51_superframe :
    ReadsExactly SuperframeSpec.tryRead (fun s l _ => SuperframeOnWire s l) := SuperframeSpec.decodes

/-- **C51** GTS descriptors on their own. -/
theorem C51_gts_descriptor :
    ReadsExactly GtsDescriptor.tryRead (fun d l _ => SlotOnWire d l) := GtsDescriptor.decodes

theorem drop_replicate_iff {α : Type} (v : Vector α 7) (k : Nat) (x : α) :
    v.toList.drop k = (List.replicate 7 x).drop k ↔ ∀ a ∈ v.toList.drop k, a = x := by
  rw [List.drop_replicate, List.eq_replicate_iff]
  constructor
  · exact fun h => h.2
  · exact fun h => ⟨by simp, h⟩

theorem gtsOnWire_iff (g : GtsInfo) (l s : List UInt8) : GtsInfo.OnWire g l s ↔ GtsOnWire g l s := by
  unfold GtsInfo.OnWire GtsInfo.Shape GtsOnWire
  rw [drop_replicate_iff]
  constructor
  · rintro ⟨⟨h1, h2, h3⟩, h4, h5⟩; exact ⟨h1, h2, h3, h4, h5⟩
  · rintro ⟨h1, h2, h3, h4, h5⟩; exact ⟨⟨h1, h2, h3⟩, h4, h5⟩

/-- **C51** GTS information. -/
theorem C51_gts : ReadsExactly GtsInfo.tryRead GtsOnWire :=
  DecodesS.congr GtsInfo.decodes gtsOnWire_iff

theorem pendingOnWire_iff (p : PendingAddress) (l : List UInt8) :
    (PendingAddress.Shape p ∧ ∃ r3 r7, l = pendingOctets p r3 r7) ↔ PendingOnWire p l := by
  unfold PendingAddress.Shape PendingOnWire
  rw [drop_replicate_iff, drop_replicate_iff]
  constructor
  · rintro ⟨⟨h1, h2, h3, h4⟩, h5⟩; exact ⟨h1, h2, h3, h4, h5⟩
  · rintro ⟨h1, h2, h3, h4, h5⟩; exact ⟨⟨h1, h2, h3, h4⟩, h5⟩

/-- **C51** Pending addresses. -/
theorem C51_pending : ReadsExactly PendingAddress.tryRead (fun p l _ => PendingOnWire p l) :=
  Decodes.congr PendingAddress.decodes pendingOnWire_iff

/-- **C51** Beacons. -/
theorem C51_beacon : ReadsExactly Beacon.tryRead (fun b l _ => BeaconOnWire b l) := by
  refine Decodes.congr Beacon.decodes ?_
  intro b l
  constructor
  · rintro ⟨hs, hg, hp, b13, r, hr, q, hq, r3, r7, rfl⟩
    refine ⟨_, _, _, rfl, ⟨hs, b13, rfl⟩, (gtsOnWire_iff _ _ _).1 ⟨hg, ?_, r, hr, q, hq, rfl⟩,
      (pendingOnWire_iff _ _).1 ⟨hp, r3, r7, rfl⟩⟩
    intro _; exact Beacon.pendingOctets_ne _ _ _
  · rintro ⟨l₁, l₂, l₃, rfl, ⟨hs, b13, rfl⟩, hg, hp⟩
    obtain ⟨hg', _, r, hr, q, hq, rfl⟩ := (gtsOnWire_iff _ _ _).2 hg
    obtain ⟨hp', r3, r7, rfl⟩ := (pendingOnWire_iff _ _).2 hp
    exact ⟨hs, hg', hp', b13, r, hr, q, hq, r3, r7, rfl⟩

/-- **C51** Field by field: what the first three octets say about the header. -/
theorem C51_header_fields (cfg : Cfg) (b0 b1 b2 : UInt8) (rest : List UInt8) (h : Header) (n : Nat)
    (hr : Header.tryRead cfg (b0 :: b1 :: b2 :: rest) = .ok (h, n)) :
    let fc := b0.toNat + 256 * b1.toNat
    typeCode h.frameType = fc % 8 ∧ h.auxSec.isSome = fc.testBit 3 ∧ h.framePending = fc.testBit 4 ∧
    h.ackRequest = fc.testBit 5 ∧ h.panIdCompress = fc.testBit 6 ∧ h.seqNoSuppress = fc.testBit 8 ∧
    h.iePresent = fc.testBit 9 ∧ modeCode h.destination = fc / 1024 % 4 ∧
    versionCode h.version = fc / 4096 % 4 ∧ modeCode h.source = fc / 16384 ∧ h.seq = b2 := by
  obtain ⟨l, s, hl, ⟨_, b7, aux, _, rfl⟩, _⟩ := (Header.decodes cfg _ _ _).1 hr
  simp only [headerOctets, Header.le2_eq, List.cons_append, List.nil_append, List.append_assoc,
    List.cons.injEq] at hl
  have e1 := Header.typeCode_lt h.frameType
  have e2 : modeCode h.destination < 4 := by unfold modeCode; split <;> omega
  have e3 : modeCode h.source < 4 := by unfold modeCode; split <;> omega
  have e4 : versionCode h.version < 4 := by cases h.version <;> simp [versionCode]
  have hfc : b0.toNat + 256 * b1.toNat = frameControl h b7 h.seqNoSuppress h.iePresent := by
    have hlt : frameControl h b7 h.seqNoSuppress h.iePresent < 65536 := by
      unfold frameControl
      have := Header.bit_lt h.auxSec.isSome
      have := Header.bit_lt h.framePending
      have := Header.bit_lt h.ackRequest
      have := Header.bit_lt h.panIdCompress
      have := Header.bit_lt b7
      have := Header.bit_lt h.seqNoSuppress
      have := Header.bit_lt h.iePresent
      omega
    rw [hl.1, hl.2.1, UInt8.toNat_ofNat', UInt8.toNat_ofNat']
    omega
  intro fc
  have hfc' : fc = _ := hfc
  clear_value fc
  subst hfc'
  have hb : ∀ b, bit b = b.toNat := by intro b; cases b <;> rfl
  have key : ∀ (x : Bool) (m k : Nat), m / 2 ^ k % 2 = x.toNat → x = m.testBit k := by
    intro x m k hm
    rw [Nat.testBit_eq_decide_div_mod_eq, hm]; cases x <;> rfl
  have tb : ∀ x : Bool, x.toNat < 2 := by intro x; cases x <;> decide
  have t1 := tb h.auxSec.isSome
  have t2 := tb h.framePending
  have t3 := tb h.ackRequest
  have t4 := tb h.panIdCompress
  have t5 := tb b7
  have t6 := tb h.seqNoSuppress
  have t7 := tb h.iePresent
  refine ⟨?_, key _ _ _ ?_, key _ _ _ ?_, key _ _ _ ?_, key _ _ _ ?_, key _ _ _ ?_, key _ _ _ ?_,
    ?_, ?_, ?_, hl.2.2.1.symm⟩ <;> (unfold frameControl; simp only [hb]; omega)

/-- **C51** The accessors of a received beacon give the slots and addresses announced, in order;
together with `C51_beacon` this fixes them by the octets. -/
theorem C51_accessors (b : Beacon) (hb : BeaconFromApi b) :
    b.gtsInfo.slotsSlice = .ok (activeSlots b.gtsInfo) ∧
    b.pendingAddress.shortAddresses =
      .ok (b.pendingAddress.shorts.toList.take b.pendingAddress.shortCount) ∧
    b.pendingAddress.extendedAddresses =
      .ok (b.pendingAddress.extendeds.toList.take b.pendingAddress.extendedCount) := by
  have h := hb.shape
  refine ⟨?_, ?_, ?_⟩
  · exact if_pos h.1.1
  · exact if_pos h.2.1
  · exact if_pos h.2.2.1

/-- A secured header with sequence number suppression, an IE flag and reserved bits set. -/
example : Header.tryRead sampleCfg [0xF9, 0xDB, 77, 0x34, 0x12, 0x78, 0x56, 8, 7, 6, 5, 4, 3, 2, 1,
      0xED, 4, 3, 2, 1, 9, 0xAA] =
    .ok (⟨.data, true, true, true, true, true, .ieee802154_2006, 77, some (.short 0x1234 0x5678),
      some (.extended 0x1234 0x0102030405060708),
      some ⟨⟨.encmic32, .keyIndex⟩, 0x01020304, some ⟨none, 9⟩⟩⟩, 21) := by decide

/-! ## C52: streams -/

theorem inTurn {α β : Type} (r : TryRead α) (w : β → TryWrite) (val : β → α) (xs : List β)
    (hrt : ∀ x ∈ xs, ∀ buf buf' n, w x buf = (.ok n, buf') → n ≤ buf'.length ∧
      ∀ suffix, r (buf'.take n ++ suffix) = .ok (val x, n)) :
    ∀ buf buf' n, writeInTurn (xs.map w) buf = (.ok n, buf') → n ≤ buf'.length ∧
      ∀ suffix, readInTurn r xs.length (buf'.take n ++ suffix) = .ok (xs.map val, n) := by
  induction xs with
  | nil =>
    intro buf buf' n hw
    simp only [List.map_nil, writeInTurn, Prod.mk.injEq, Out.ok.injEq] at hw
    obtain ⟨rfl, rfl⟩ := hw
    exact ⟨by simp, fun _ => rfl⟩
  | cons x xs ih =>
    intro buf buf' n hw
    simp only [List.map_cons, writeInTurn] at hw
    match hx : w x buf with
    | (.ok k, b₁) =>
      rw [hx] at hw
      simp only at hw
      obtain ⟨hk, hr⟩ := hrt x (by simp) buf b₁ k hx
      match hxs : writeInTurn (xs.map w) (b₁.drop k) with
      | (.ok m, rest) =>
        rw [hxs] at hw
        simp only [Prod.mk.injEq, Out.ok.injEq] at hw
        obtain ⟨rfl, rfl⟩ := hw
        obtain ⟨hm, hrs⟩ := ih (fun y hy => hrt y (by simp [hy])) _ _ _ hxs
        have hl : (b₁.take k).length = k := by simp; omega
        refine ⟨by simp; omega, ?_⟩
        intro suffix
        have e : (b₁.take k ++ rest).take (k + m) = b₁.take k ++ rest.take m := by
          rw [List.take_append, List.take_of_length_le (by omega), hl]; simp
        rw [e, List.append_assoc]
        simp only [List.length_cons, readInTurn]
        rw [hr]
        simp only
        have e2 : (b₁.take k ++ (rest.take m ++ suffix)).drop k = rest.take m ++ suffix := by
          rw [List.drop_append, hl]; simp [List.drop_of_length_le, hl]
        rw [e2, hrs suffix]
        simp
      | (.err e, rest) => rw [hxs] at hw; simp at hw
      | (.panic, rest) => rw [hxs] at hw; simp at hw
    | (.err e, b₁) => rw [hx] at hw; simp at hw
    | (.panic, b₁) => rw [hx] at hw; simp at hw

/-- **C52** Headers written one after the other with one context read back one after the other, in
order, whatever follows. -/
theorem C52_headers {κ : Type} (cfg : Cfg) (ctx : Option (SecCtx κ)) (hs : List Header)
    (buf buf' : List UInt8) (n : Nat)
    (hw : writeInTurn (hs.map fun h => h.tryWrite cfg ctx) buf = (.ok n, buf')) (suffix : List UInt8) :
    readInTurn (Header.tryRead cfg) hs.length (buf'.take n ++ suffix) =
      .ok (hs.map (headerAsRead cfg (ctxCounter ctx)), n) := by
  refine (inTurn (Header.tryRead cfg) (fun h => h.tryWrite cfg ctx) _ hs ?_ buf buf' n hw).2 suffix
  intro h _ b b' k hk
  obtain ⟨hb, hn⟩ := C03_header_layout cfg h ctx b b' k hk
  refine ⟨?_, C02_header_round_trip cfg h ctx b b' k hk⟩
  rw [hb, hn]; simp

/-- **C52** Beacons. -/
theorem C52_beacons (bs : List Beacon) (hb : ∀ b ∈ bs, BeaconFromApi b ∧ SuperframeInRange b.superframeSpec)
    (buf buf' : List UInt8) (n : Nat)
    (hw : writeInTurn (bs.map fun b => b.tryWrite) buf = (.ok n, buf')) (suffix : List UInt8) :
    readInTurn Beacon.tryRead bs.length (buf'.take n ++ suffix) = .ok (bs, n) := by
  have := (inTurn Beacon.tryRead (fun b => b.tryWrite) id bs ?_ buf buf' n hw).2 suffix
  · simpa using this
  intro b hm c c' k hk
  obtain ⟨_, _, e1, e2⟩ := (Beacon.writes b (hb b hm).1.shape.1 (hb b hm).1.shape.2).ok_inv hk
  refine ⟨by rw [e1, e2]; simp, fun suffix => (C16_beacon_round_trip b (hb b hm).1 (hb b hm).2 c c' k hk suffix).2⟩

/-- **C52** Commands other than realignments without channel page. -/
theorem C52_commands (cs : List Command) (hc : ∀ c ∈ cs, CommandInRange c ∧ ¬ NoPage c)
    (buf buf' : List UInt8) (n : Nat)
    (hw : writeInTurn (cs.map fun c => c.tryWrite) buf = (.ok n, buf')) (suffix : List UInt8) :
    readInTurn Command.tryRead cs.length (buf'.take n ++ suffix) = .ok (cs, n) := by
  have := (inTurn Command.tryRead (fun c => c.tryWrite) id cs ?_ buf buf' n hw).2 suffix
  · simpa using this
  intro c hm b b' k hk
  obtain ⟨_, _, e1, e2⟩ := (Command.writes c).ok_inv hk
  exact ⟨by rw [e1, e2]; simp, fun suffix => C18_command_round_trip c (hc c hm).1 b b' k hk suffix
    (fun hn => absurd hn (hc c hm).2)⟩

/-- **C52** Superframe specifications and pending-address lists. -/
theorem C52_superframes (ss : List SuperframeSpec) (hs : ∀ s ∈ ss, SuperframeInRange s)
    (buf buf' : List UInt8) (n : Nat)
    (hw : writeInTurn (ss.map fun s => s.tryWrite) buf = (.ok n, buf')) (suffix : List UInt8) :
    readInTurn SuperframeSpec.tryRead ss.length (buf'.take n ++ suffix) = .ok (ss, n) := by
  have := (inTurn SuperframeSpec.tryRead (fun s => s.tryWrite) id ss ?_ buf buf' n hw).2 suffix
  · simpa using this
  intro s hm b b' k hk
  obtain ⟨_, _, e1, e2⟩ := (SuperframeSpec.writes s).ok_inv hk
  refine ⟨by rw [e1, e2]; simp, fun suffix => ?_⟩
  obtain ⟨rfl, _, h⟩ := C12_superframe_round_trip s (hs s hm) b b' k hk suffix
  exact h

theorem C52_pending (ps : List PendingAddress) (hp : ∀ p ∈ ps, PendingFromApi p)
    (buf buf' : List UInt8) (n : Nat)
    (hw : writeInTurn (ps.map fun p => p.tryWrite) buf = (.ok n, buf')) (suffix : List UInt8) :
    readInTurn PendingAddress.tryRead ps.length (buf'.take n ++ suffix) = .ok (ps, n) := by
  have := (inTurn PendingAddress.tryRead (fun p => p.tryWrite) id ps ?_ buf buf' n hw).2 suffix
  · simpa using this
  intro p hm b b' k hk
  obtain ⟨_, _, e1, e2⟩ := (PendingAddress.writes p (hp p hm).shape.1 (hp p hm).shape.2.1).ok_inv hk
  exact ⟨by rw [e1, e2]; simp, fun suffix => (C15_pending_round_trip p (hp p hm) b b' k hk suffix).2.2⟩

/-- **C52** GTS information, followed by something. -/
theorem C52_gts (gs : List GtsInfo) (hg : ∀ g ∈ gs, GtsFromApi g)
    (buf buf' : List UInt8) (n : Nat)
    (hw : writeInTurn (gs.map fun g => g.tryWrite) buf = (.ok n, buf')) (suffix : List UInt8)
    (hs : suffix ≠ []) :
    readInTurn GtsInfo.tryRead gs.length (buf'.take n ++ suffix) = .ok (gs, n) := by
  induction gs generalizing buf buf' n with
  | nil =>
    simp only [List.map_nil, writeInTurn, Prod.mk.injEq, Out.ok.injEq] at hw
    obtain ⟨rfl, rfl⟩ := hw
    rfl
  | cons g gs ih =>
    simp only [List.map_cons, writeInTurn] at hw
    match hx : g.tryWrite buf with
    | (.ok k, b₁) =>
      rw [hx] at hw
      simp only at hw
      have hk : k ≤ b₁.length := by
        obtain ⟨_, _, e1, e2⟩ := (GtsInfo.writes g (hg g (by simp)).shape).ok_inv hx
        rw [e1, e2]; simp
      match hxs : writeInTurn (gs.map fun g => g.tryWrite) (b₁.drop k) with
      | (.ok m, rest) =>
        rw [hxs] at hw
        simp only [Prod.mk.injEq, Out.ok.injEq] at hw
        obtain ⟨rfl, rfl⟩ := hw
        have hrs := ih (fun y hy => hg y (by simp [hy])) _ _ _ hxs
        have hl : (b₁.take k).length = k := by simp; omega
        have e : (b₁.take k ++ rest).take (k + m) = b₁.take k ++ rest.take m := by
          rw [List.take_append, List.take_of_length_le (by omega), hl]; simp
        rw [e, List.append_assoc]
        simp only [List.length_cons, readInTurn]
        rw [(C13_gts_round_trip g (hg g (by simp)) buf b₁ k hx (rest.take m ++ suffix) (by simp [hs])).2]
        simp only
        have e2 : (b₁.take k ++ (rest.take m ++ suffix)).drop k = rest.take m ++ suffix := by
          rw [List.drop_append, hl]; simp [List.drop_of_length_le, hl]
        rw [e2, hrs]
      | (.err e, rest) => rw [hxs] at hw; simp at hw
      | (.panic, rest) => rw [hxs] at hw; simp at hw
    | (.err e, b₁) => rw [hx] at hw; simp at hw
    | (.panic, b₁) => rw [hx] at hw; simp at hw

/-- `writeInTurn` is what `write_with` with one shared offset does. -/
theorem C52_in_turn_is_shared_offset (ws : List TryWrite) (hc : ∀ w ∈ ws, Contained w) (buf : List UInt8) :
    W.run (ws.forM (m := W) W.write) buf = writeInTurn ws buf := by
  suffices h : ∀ (ws : List TryWrite), (∀ w ∈ ws, Contained w) → ∀ (pre buf : List UInt8),
      (match (ws.forM (m := W) W.write) (pre ++ buf) pre.length with
        | (.ok (), b, off) => ((.ok off : Out ByteErr Nat), b)
        | (.err e, b, _) => (.err e, b)
        | (.panic, b, _) => (.panic, b)) =
      (match writeInTurn ws buf with
        | (.ok n, b) => (.ok (pre.length + n), pre ++ b)
        | (.err e, b) => (.err e, pre ++ b)
        | (.panic, b) => (.panic, pre ++ b)) by
    have := h ws hc [] buf
    simp only [List.nil_append, List.length_nil, Nat.zero_add] at this
    unfold W.run
    have e : ∀ x : Out ByteErr Nat × List UInt8, (match x with
        | (.ok n, b) => ((.ok n : Out ByteErr Nat), b)
        | (.err e, b) => (.err e, b)
        | (.panic, b) => (.panic, b)) = x := by
      rintro ⟨_ | _ | _, b⟩ <;> rfl
    rw [e] at this
    rw [← this]
    rfl
  intro ws
  induction ws with
  | nil => intro _ pre buf; rfl
  | cons w ws ih =>
    intro hc pre buf
    have hw := hc w (by simp)
    have hs : (pre ++ buf).drop pre.length = buf := by simp
    have ht : (pre ++ buf).take pre.length = pre := by simp
    show (match (W.write w >>= fun _ => ws.forM (m := W) W.write) (pre ++ buf) pre.length with
        | (.ok (), b, off) => ((.ok off : Out ByteErr Nat), b)
        | (.err e, b, _) => (.err e, b)
        | (.panic, b, _) => (.panic, b)) = _
    rw [W.bind_eq]
    simp only [W.write, hs, ht, List.length_append, Nat.not_lt.2 (Nat.le_add_right _ _), if_false,
      writeInTurn]
    match hx : w buf with
    | (.ok n, b₁) =>
      simp only
      have hn : n ≤ b₁.length := by
        have h1 := hw.length buf
        have h2 := (hw.behind buf n (by rw [hx])).1
        rw [hx] at h1; simp only at h1; omega
      have hl : (pre ++ b₁.take n).length = pre.length + n := by simp; omega
      have := ih (fun w' hw' => hc w' (by simp [hw'])) (pre ++ b₁.take n) (b₁.drop n)
      rw [hl, List.append_assoc, List.take_append_drop] at this
      rw [this]
      match writeInTurn ws (b₁.drop n) with
      | (.ok m, rest) => simp; omega
      | (.err e, rest) => simp
      | (.panic, rest) => simp
    | (.err e, b₁) => rfl
    | (.panic, b₁) => rfl

/-- `readInTurn` is what `read_with` with one shared offset does, for readers that consume no more
than there is. -/
theorem C52_in_turn_is_shared_read {α : Type} (r : TryRead α)
    (hr : ∀ bytes a n, r bytes = .ok (a, n) → n ≤ bytes.length) (k : Nat) (bytes : List UInt8) :
    R.run ((List.replicate k ()).foldr (fun _ rest => do
      let a ← R.read r
      let as ← rest
      pure (a :: as)) (pure [] : R (List α))) bytes = readInTurn r k bytes := by
  suffices h : ∀ (k : Nat) (pre bytes : List UInt8),
      ((List.replicate k ()).foldr (fun _ rest => do
        let a ← R.read r
        let as ← rest
        pure (a :: as)) (pure [] : R (List α))) (pre ++ bytes) pre.length =
      (match readInTurn r k bytes with
        | .ok (as, n) => .ok (as, pre.length + n)
        | .err e => .err e
        | .panic => .panic) by
    have := h k [] bytes
    simp only [List.nil_append, List.length_nil, Nat.zero_add] at this
    unfold R.run
    rw [this]
    match readInTurn r k bytes with
    | .ok (as, n) => rfl
    | .err e => rfl
    | .panic => rfl
  intro k
  induction k with
  | zero => intro pre bytes; rfl
  | succ k ih =>
    intro pre bytes
    rw [List.replicate_succ, List.foldr_cons]
    rw [R.bind_apply]
    have hs : (pre ++ bytes).drop pre.length = bytes := by simp
    have hrd : R.read r (pre ++ bytes) pre.length = (match r bytes with
        | .ok (a, n) => .ok (a, pre.length + n)
        | .err e => .err e
        | .panic => .panic) := by
      simp only [R.read, hs, List.length_append, Nat.not_lt.2 (Nat.le_add_right _ _), if_false]
      rcases r bytes with ⟨_, _⟩ | _ | _ <;> rfl
    rw [hrd]
    simp only [readInTurn]
    match hx : r bytes with
    | .ok (a, n) =>
      simp only
      rw [R.bind_apply]
      have hn := hr bytes a n hx
      have hl : (pre ++ bytes.take n).length = pre.length + n := by simp; omega
      have := ih (pre ++ bytes.take n) (bytes.drop n)
      rw [hl, List.append_assoc, List.take_append_drop] at this
      rw [this]
      match readInTurn r k (bytes.drop n) with
      | .ok (as, m) => simp only [R.pure_eq]; congr 2; omega
      | .err e => rfl
      | .panic => rfl
    | .err e => rfl
    | .panic => rfl

example : writeInTurn ([Command.beaconRequest, .associationResponse 0x1234 .accessDenied].map
      fun c => c.tryWrite) (List.replicate 6 0) = (.ok 5, [7, 2, 0x34, 0x12, 2, 0]) ∧
    readInTurn Command.tryRead 2 [7, 2, 0x34, 0x12, 2] =
      .ok ([.beaconRequest, .associationResponse 0x1234 .accessDenied], 5) := by decide

/-- A realignment without channel page in a stream is not read back. -/
example : ∃ d, readInTurn Command.tryRead 2 [8, 1, 0, 2, 0, 11, 3, 0, 7] = .err .incomplete ∧
    writeInTurn ([Command.coordinatorRealignment d, .beaconRequest].map fun c => c.tryWrite)
      (List.replicate 9 0) = (.ok 9, [8, 1, 0, 2, 0, 11, 3, 0, 7]) :=
  ⟨⟨1, 2, 11, 3, none⟩, by decide, by decide⟩

/-! ## C53: unique decoding -/

theorem prefix_append {l₁ l₂ : List UInt8} (h : l₁ <+: l₂) : ∃ s, l₂ = l₁ ++ s :=
  let ⟨s, hs⟩ := h; ⟨s, hs.symm⟩

/-- **C53** No header's octets are a proper prefix of another's, and headers with the same octets
are the same up to what the encoder does not write. -/
theorem C53_headers {κ : Type} (cfg : Cfg) (h₁ h₂ : Header) (c₁ c₂ : Option (SecCtx κ))
    (b₁ b₁' b₂ b₂' : List UInt8) (n₁ n₂ : Nat) (w₁ : h₁.tryWrite cfg c₁ b₁ = (.ok n₁, b₁'))
    (w₂ : h₂.tryWrite cfg c₂ b₂ = (.ok n₂, b₂')) (hp : b₁'.take n₁ <+: b₂'.take n₂) :
    b₁'.take n₁ = b₂'.take n₂ ∧
    headerAsRead cfg (ctxCounter c₁) h₁ = headerAsRead cfg (ctxCounter c₂) h₂ := by
  obtain ⟨s, hs⟩ := prefix_append hp
  have r₂ := C02_header_round_trip cfg h₂ c₂ b₂ b₂' n₂ w₂ []
  have r₁ := C02_header_round_trip cfg h₁ c₁ b₁ b₁' n₁ w₁ s
  rw [List.append_nil, hs] at r₂
  rw [r₁] at r₂
  simp only [Out.ok.injEq, Prod.mk.injEq] at r₂
  refine ⟨?_, r₂.1⟩
  have l₁ : (b₁'.take n₁).length = n₁ := by
    rw [(C03_header_layout cfg h₁ c₁ b₁ b₁' n₁ w₁).1, (C03_header_layout cfg h₁ c₁ b₁ b₁' n₁ w₁).2]; simp
  have l₂ : (b₂'.take n₂).length = n₂ := by
    rw [(C03_header_layout cfg h₂ c₂ b₂ b₂' n₂ w₂).1, (C03_header_layout cfg h₂ c₂ b₂ b₂' n₂ w₂).2]; simp
  exact hp.eq_of_length (by rw [l₁, l₂]; exact r₂.2)

/-- **C53** Headers in the form that survives writing are determined by their octets. -/
theorem C53_headers_exact (cfg : Cfg) (κ : Type) (h₁ h₂ : Header)
    (b₁ b₁' b₂ b₂' : List UInt8) (n₁ n₂ : Nat)
    (w₁ : h₁.tryWrite cfg (none : Option (SecCtx κ)) b₁ = (.ok n₁, b₁'))
    (w₂ : h₂.tryWrite cfg (none : Option (SecCtx κ)) b₂ = (.ok n₂, b₂'))
    (f₁ : h₁.seqNoSuppress = false ∧ h₁.iePresent = false ∧ (h₁.panIdCompress = true → SamePan h₁))
    (f₂ : h₂.seqNoSuppress = false ∧ h₂.iePresent = false ∧ (h₂.panIdCompress = true → SamePan h₂))
    (hp : b₁'.take n₁ <+: b₂'.take n₂) : h₁ = h₂ := by
  have a₁ : h₁.auxSec = none := by
    have := (Header.tryWrite_ok w₁).2.1
    cases ha : h₁.auxSec with
    | none => rfl
    | some a => rw [ha] at this; simp at this
  have a₂ : h₂.auxSec = none := by
    have := (Header.tryWrite_ok w₂).2.1
    cases ha : h₂.auxSec with
    | none => rfl
    | some a => rw [ha] at this; simp at this
  obtain ⟨s, hs⟩ := prefix_append hp
  have r₁ := C02_header_round_trip_exact cfg h₁ none b₁ b₁' n₁ w₁ f₁.1 f₁.2.1 f₁.2.2 a₁ s
  have r₂ := C02_header_round_trip_exact cfg h₂ none b₂ b₂' n₂ w₂ f₂.1 f₂.2.1 f₂.2.2 a₂ []
  rw [List.append_nil, hs, r₁] at r₂
  simp only [Out.ok.injEq, Prod.mk.injEq] at r₂
  exact r₂.1

/-- **C53** Beacons. -/
theorem C53_beacons (x y : Beacon) (hx : BeaconFromApi x ∧ SuperframeInRange x.superframeSpec)
    (hy : BeaconFromApi y ∧ SuperframeInRange y.superframeSpec)
    (b₁ b₁' b₂ b₂' : List UInt8) (n₁ n₂ : Nat) (w₁ : x.tryWrite b₁ = (.ok n₁, b₁'))
    (w₂ : y.tryWrite b₂ = (.ok n₂, b₂')) (hp : b₁'.take n₁ <+: b₂'.take n₂) : x = y := by
  obtain ⟨s, hs⟩ := prefix_append hp
  have r₁ := (C16_beacon_round_trip x hx.1 hx.2 b₁ b₁' n₁ w₁ s).2
  have r₂ := (C16_beacon_round_trip y hy.1 hy.2 b₂ b₂' n₂ w₂ []).2
  rw [List.append_nil, hs, r₁] at r₂
  simp only [Out.ok.injEq, Prod.mk.injEq] at r₂
  exact r₂.1

/-- **C53** Commands: the only prefix is a realignment without channel page of the same one with. -/
theorem C53_commands (x y : Command) (hx : CommandInRange x) (hy : CommandInRange y)
    (b₁ b₁' b₂ b₂' : List UInt8) (n₁ n₂ : Nat) (w₁ : x.tryWrite b₁ = (.ok n₁, b₁'))
    (w₂ : y.tryWrite b₂ = (.ok n₂, b₂')) (hp : b₁'.take n₁ <+: b₂'.take n₂) :
    x = y ∨ ∃ (d : CoordinatorRealignmentData) (page : UInt8), x = .coordinatorRealignment { d with channelPage := none } ∧
      y = .coordinatorRealignment { d with channelPage := some page } := by
  obtain ⟨s, hs⟩ := prefix_append hp
  have r₂ := C18_command_round_trip y hy b₂ b₂' n₂ w₂ [] (fun _ => rfl)
  rw [List.append_nil, hs] at r₂
  by_cases hn : NoPage x → s = []
  · have r₁ := C18_command_round_trip x hx b₁ b₁' n₁ w₁ s hn
    rw [r₁] at r₂
    simp only [Out.ok.injEq, Prod.mk.injEq] at r₂
    exact Or.inl r₂.1
  · have hnp : NoPage x := Classical.byContradiction fun h => hn fun h' => absurd h' h
    have hsn : s ≠ [] := fun h => hn fun _ => h
    obtain ⟨d, rfl⟩ : ∃ d, x = .coordinatorRealignment d := by
      cases x <;> first | exact ⟨_, rfl⟩ | exact hnp.elim
    obtain ⟨z, s', rfl⟩ := List.exists_cons_of_ne_nil hsn
    have r₁ := C20_realignment_swallows d hnp b₁ b₁' n₁ w₁ z s'
    rw [r₁] at r₂
    simp only [Out.ok.injEq, Prod.mk.injEq] at r₂
    refine Or.inr ⟨d, z, ?_, r₂.1.symm⟩
    have : d.channelPage = none := hnp
    rcases d with ⟨p, c, ch, da, page⟩
    simp only at this
    subst this
    rfl

/-- **C53** Unsecured frames written in one mode: the same octets mean the same frame (headers up to
what is not written, the footer only if it is). -/
theorem C53_frames {κ : Type} (cfg : Cfg) (aead : Aead κ) (x y : Frame) (cx cx' cy cy' : SerDesCtx κ)
    (hmode : cx.footerMode = cy.footerMode)
    (b₁ b₁' b₂ b₂' : List UInt8) (n₁ n₂ : Nat)
    (sx : x.header.auxSec = none) (sy : y.header.auxSec = none)
    (mx : cx.securityCtx = none ∨ cx.footerMode = .none) (my : cy.securityCtx = none ∨ cy.footerMode = .none)
    (ax : ContentFromApi x.content) (ay : ContentFromApi y.content)
    (tx : ContentMatches x.header.frameType x.content) (ty : ContentMatches y.header.frameType y.content)
    (vx : ContentSurvives (x.payload ++ footerOctets cx.footerMode x.footer) x.content)
    (vy : ContentSurvives (y.payload ++ footerOctets cy.footerMode y.footer) y.content)
    (f₁ : SliceFits cfg b₁) (f₂ : SliceFits cfg b₂)
    (w₁ : x.tryWrite cfg aead cx b₁ = (.ok n₁, b₁', cx')) (w₂ : y.tryWrite cfg aead cy b₂ = (.ok n₂, b₂', cy'))
    (hp : b₁'.take n₁ = b₂'.take n₂) :
    headerAsRead cfg 0 x.header = headerAsRead cfg 0 y.header ∧ x.content = y.content ∧
    x.payload = y.payload ∧ (cx.footerMode = .explicit → x.footer = y.footer) := by
  have r₁ := (C23_C24_frame_round_trip cfg aead x cx cx' b₁ b₁' n₁ sx mx ax tx vx f₁ w₁)
  have r₂ := (C23_C24_frame_round_trip cfg aead y cy cy' b₂ b₂' n₂ sy my ay ty vy f₂ w₂)
  have r₁ := r₁.1
  have r₂ := r₂.1
  rw [hp, hmode] at r₁
  rw [r₁] at r₂
  simp only [Out.ok.injEq, Prod.mk.injEq, Frame.mk.injEq] at r₂
  obtain ⟨⟨h1, h2, h3, h4⟩, _⟩ := r₂
  refine ⟨h1, h2, h3, fun he => ?_⟩
  rw [← hmode, he] at h4
  exact h4

end Verif
