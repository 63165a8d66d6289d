import Verif.Spec.StoreSpec
import Verif.Lemmas.Contained

/-!
# Lemmas: the stores of a writer
-/

namespace Verif
open Spec

/-- Each store begins where the one before ended. -/
def Chain : Nat → List Store → Nat → Prop
  | o, [], e => o = e
  | o, s :: st, e => s.pos = o ∧ Chain (o + s.octets.length) st e

theorem Chain.le {o e : Nat} {st : List Store} (h : Chain o st e) : o ≤ e := by
  induction st generalizing o with
  | nil => exact Nat.le_of_eq h
  | cons s st ih => have := ih h.2; omega

theorem Chain.append {o m e : Nat} {a b : List Store} (h : Chain o a m) (h' : Chain m b e) : Chain o (a ++ b) e := by
  induction a generalizing o with
  | nil => cases h; exact h'
  | cons s st ih => exact ⟨h.1, ih h.2⟩

theorem Chain.shift {o e : Nat} {st : List Store} (n : Nat) (h : Chain o st e) :
    Chain (n + o) (st.map (Store.shift n)) (n + e) := by
  induction st generalizing o with
  | nil => cases h; exact rfl
  | cons s st ih =>
    refine ⟨by simp [Store.shift, h.1], ?_⟩
    have := ih h.2
    simpa [Store.shift, Nat.add_assoc] using this

theorem putAll_append (a b : List Store) (buf : List UInt8) : putAll (a ++ b) buf = putAll b (putAll a buf) := by
  simp [putAll, List.foldl_append]

theorem put_length (s : Store) (buf : List UInt8) (h : s.pos + s.octets.length ≤ buf.length) :
    (put s buf).length = buf.length := by
  simp [put]; omega

theorem Chain.putAll_length {o e : Nat} {st : List Store} (h : Chain o st e) (buf : List UInt8) (hl : e ≤ buf.length) :
    (putAll st buf).length = buf.length := by
  induction st generalizing o buf with
  | nil => rfl
  | cons s st ih =>
    have hle := h.2.le
    have h1 : (put s buf).length = buf.length := put_length s buf (by rw [h.1]; omega)
    have := ih h.2 (put s buf) (by omega)
    rw [h1] at this
    exact this

theorem put_shift (n : Nat) (s : Store) (a b : List UInt8) (ha : a.length = n) :
    put (s.shift n) (a ++ b) = a ++ put s b := by
  subst ha
  simp [put, Store.shift, List.take_append, List.drop_append, List.append_assoc, Nat.add_assoc]
  rw [List.take_of_length_le (by omega), List.drop_of_length_le (by omega)]
  simp

theorem putAll_shift (n : Nat) (st : List Store) (a b : List UInt8) (ha : a.length = n) :
    putAll (st.map (Store.shift n)) (a ++ b) = a ++ putAll st b := by
  induction st generalizing b with
  | nil => rfl
  | cons s st ih =>
    show putAll (st.map (Store.shift n)) (put (s.shift n) (a ++ b)) = _
    rw [put_shift n s a b ha, ih]
    rfl

/-- A writer and its stores. -/
structure TRel (B : Nat) (w : TryWrite) (t : TryWriteS) (buf : List UInt8) (e : Nat) : Prop where
  chain : Chain 0 (t buf.length).1 e
  inside : e ≤ buf.length
  small : ∀ s ∈ (t buf.length).1, s.octets.length ≤ B
  eq : w buf = ((t buf.length).2, putAll (t buf.length).1 buf)
  ok : ∀ n, (t buf.length).2 = .ok n → n = e

/-- A block of code and its stores. -/
structure SRel {α : Type} (B : Nat) (p : W α) (q : SW α) (buf : List UInt8) (off e : Nat) : Prop where
  chain : Chain off (q buf.length off).1 e
  inside : e ≤ buf.length
  small : ∀ s ∈ (q buf.length off).1, s.octets.length ≤ B
  eq : p buf off = ((q buf.length off).2.1, putAll (q buf.length off).1 buf, (q buf.length off).2.2)
  ok : ∀ a, (q buf.length off).2.1 = .ok a → (q buf.length off).2.2 = e

/-- For every buffer. -/
def TRels (B : Nat) (w : TryWrite) (t : TryWriteS) : Prop := ∀ buf, ∃ e, TRel B w t buf e
/-- For every buffer and offset in it. -/
def SRels {α : Type} (B : Nat) (p : W α) (q : SW α) : Prop := ∀ buf off, off ≤ buf.length → ∃ e, SRel B p q buf off e

theorem SRels.pure {α : Type} {B : Nat} (a : α) : SRels B (pure a : W α) (Pure.pure a : SW α) := fun _ off h =>
  ⟨off, rfl, h, (fun _ h => nomatch h), rfl, fun _ _ => rfl⟩

theorem SRels.fail {α : Type} {B : Nat} (e : ByteErr) : SRels B (W.fail e : W α) (SW.fail e) := fun _ off h =>
  ⟨off, rfl, h, (fun _ h => nomatch h), rfl, fun _ _ => rfl⟩

theorem SRels.panic {α : Type} {B : Nat} : SRels B (W.panic : W α) SW.panic := fun _ off h =>
  ⟨off, rfl, h, (fun _ h => nomatch h), rfl, fun _ _ => rfl⟩

theorem SW.bind_eq {α β : Type} (x : SW α) (f : α → SW β) :
    (x >>= f) = fun len off => match x len off with
      | (st, .ok a, off') => ((st ++ (f a len off').1), (f a len off').2)
      | (st, .err e, off') => (st, .err e, off')
      | (st, .panic, off') => (st, .panic, off') := rfl

theorem SRels.bind {α β : Type} {B : Nat} {x : W α} {x' : SW α} {f : α → W β} {f' : α → SW β} (hx : SRels B x x')
    (hf : ∀ a, SRels B (f a) (f' a)) : SRels B (x >>= f) (x' >>= f') := by
  intro buf off h
  obtain ⟨m, h1⟩ := hx buf off h
  rcases hxe : x' buf.length off with ⟨st, r, o⟩
  obtain ⟨c1, i1, s1, e1, k1⟩ := h1
  rw [hxe] at c1 s1 e1 k1
  simp only at c1 s1 e1 k1
  cases r with
  | ok a =>
    have ho := k1 a rfl
    subst ho
    have hlen := c1.putAll_length buf i1
    obtain ⟨e, c2, i2, s2, e2, k2⟩ := hf a (putAll st buf) o (by omega)
    rw [hlen] at c2 i2 s2 e2 k2
    refine ⟨e, ?_, i2, ?_, ?_, ?_⟩
    · simp only [SW.bind_eq, hxe]; exact c1.append c2
    · simp only [SW.bind_eq, hxe]
      intro s hs
      rcases List.mem_append.1 hs with hs | hs
      · exact s1 s hs
      · exact s2 s hs
    · simp only [SW.bind_eq, W.bind_eq, hxe, e1, putAll_append]; exact e2
    · simp only [SW.bind_eq, hxe]; exact k2
  | err er =>
    refine ⟨m, ?_, i1, ?_, ?_, ?_⟩ <;> simp only [SW.bind_eq, W.bind_eq, hxe, e1]
    · exact c1
    · exact s1
    · intro _ h; cases h
  | panic =>
    refine ⟨m, ?_, i1, ?_, ?_, ?_⟩ <;> simp only [SW.bind_eq, W.bind_eq, hxe, e1]
    · exact c1
    · exact s1
    · intro _ h; cases h

theorem SRels.fail_bind {α β : Type} {B : Nat} (e : ByteErr) (f : α → W β) (f' : α → SW β) :
    SRels B (W.fail e >>= f) (SW.fail e >>= f') := fun _ off h =>
  ⟨off, rfl, h, (fun _ h => nomatch h), rfl, (fun _ h => nomatch h)⟩

theorem SRels.panic_bind {α β : Type} {B : Nat} (f : α → W β) (f' : α → SW β) :
    SRels B (W.panic >>= f) (SW.panic >>= f') := fun _ off h =>
  ⟨off, rfl, h, (fun _ h => nomatch h), rfl, (fun _ h => nomatch h)⟩

theorem SRels.write {B : Nat} {w : TryWrite} {t : TryWriteS} (h : TRels B w t) : SRels B (W.write w) (SW.write t) := by
  intro buf off hl
  obtain ⟨e, c, i, s, he, k⟩ := h (buf.drop off)
  simp only [List.length_drop] at c i s he k
  have hta : (buf.take off).length = off := by simp; omega
  have hput : ∀ st : List Store, putAll (st.map (Store.shift off)) buf = buf.take off ++ putAll st (buf.drop off) := by
    intro st
    conv => lhs; rw [← List.take_append_drop off buf]
    exact putAll_shift off st _ _ hta
  rcases hte : t (buf.length - off) with ⟨st, r⟩
  rw [hte] at c s he k
  simp only at c s he k
  have hsmall : ∀ x ∈ st.map (Store.shift off), x.octets.length ≤ B := by
    intro x hx
    obtain ⟨y, hy, rfl⟩ := List.mem_map.1 hx
    exact s y hy
  refine ⟨off + e, ?_⟩
  cases r with
  | ok n =>
    refine ⟨?_, by omega, ?_, ?_, ?_⟩ <;> simp only [SW.write, W.write, if_neg (show ¬ buf.length < off by omega), hte, he]
    · exact c.shift off
    · exact hsmall
    · rw [hput]
    · intro _ _; rw [k n rfl]
  | err er =>
    refine ⟨?_, by omega, ?_, ?_, ?_⟩ <;> simp only [SW.write, W.write, if_neg (show ¬ buf.length < off by omega), hte, he]
    · exact c.shift off
    · exact hsmall
    · rw [hput]
    · intro _ h; cases h
  | panic =>
    refine ⟨?_, by omega, ?_, ?_, ?_⟩ <;> simp only [SW.write, W.write, if_neg (show ¬ buf.length < off by omega), hte, he]
    · exact c.shift off
    · exact hsmall
    · rw [hput]
    · intro _ h; cases h

theorem TRels.run {B : Nat} {p : W Unit} {q : SW Unit} (h : SRels B p q) : TRels B (W.run p) (SW.run q) := by
  intro buf
  obtain ⟨e, c, i, s, he, k⟩ := h buf 0 (Nat.zero_le _)
  rcases hq : q buf.length 0 with ⟨st, r, o⟩
  rw [hq] at c s he k
  simp only at c s he k
  refine ⟨e, ?_⟩
  cases r with
  | ok a =>
    refine ⟨?_, i, ?_, ?_, ?_⟩ <;> simp only [SW.run, W.run, hq, he]
    · exact c
    · exact s
    · intro n hn; cases hn; exact k () rfl
  | err er =>
    refine ⟨?_, i, ?_, ?_, ?_⟩ <;> simp only [SW.run, W.run, hq, he]
    · exact c
    · exact s
    · intro n hn; cases hn
  | panic =>
    refine ⟨?_, i, ?_, ?_, ?_⟩ <;> simp only [SW.run, W.run, hq, he]
    · exact c
    · exact s
    · intro n hn; cases hn

theorem TRels.bytes {B : Nat} (l : List UInt8) (hB : l.length ≤ B) : TRels B (tryWriteBytes l) (storeBytes l) := by
  intro buf
  by_cases h : buf.length < l.length
  · refine ⟨0, ?_, Nat.zero_le _, ?_, ?_, ?_⟩ <;> simp only [storeBytes, tryWriteBytes, if_pos h]
    · exact rfl
    · intro s h; cases h
    · rfl
    · intro n h; cases h
  · refine ⟨l.length, ?_, by omega, ?_, ?_, ?_⟩ <;> simp only [storeBytes, tryWriteBytes, if_neg h]
    · exact ⟨rfl, by simp [Chain]⟩
    · intro s h; cases h with
      | head => exact hB
      | tail _ h => cases h
    · simp [putAll, put]
    · intro n h; cases h; rfl

theorem natToBytes_length (e : Endian) (k n : Nat) : (natToBytes e k n).length = k := by
  have h : ∀ k n, (natToLE k n).length = k := by
    intro k
    induction k with
    | zero => intro n; rfl
    | succ k ih => intro n; simp [natToLE, ih]
  cases e <;> simp [natToBytes, h]

theorem TRels.u8 (x : UInt8) : TRels 8 (tryWriteU8 x) (storeU8 x) := .bytes _ (by simp)
theorem TRels.u16 (e : Endian) (x : UInt16) : TRels 8 (tryWriteU16 e x) (storeU16 e x) :=
  .bytes _ (by rw [natToBytes_length]; omega)
theorem TRels.u32 (e : Endian) (x : UInt32) : TRels 8 (tryWriteU32 e x) (storeU32 e x) :=
  .bytes _ (by rw [natToBytes_length]; omega)
theorem TRels.u64 (e : Endian) (x : UInt64) : TRels 8 (tryWriteU64 e x) (storeU64 e x) :=
  .bytes _ (by rw [natToBytes_length]; omega)

theorem SRels.index {α : Type} {B : Nat} (arr : Vector α 7) (n : Nat) : SRels B (W.index arr n) (SW.index arr n) := by
  unfold W.index SW.index
  cases arr[n]? with
  | some a => exact .pure a
  | none => exact .panic

theorem SRels.forM {β : Type} {B : Nat} (l : List β) {f : β → W Unit} {f' : β → SW Unit} (h : ∀ b, SRels B (f b) (f' b)) :
    SRels B (l.forM f) (l.forM f') := by
  induction l with
  | nil => exact .pure ()
  | cons b l ih => exact .bind (h b) fun _ => ih

theorem SRels.foldlM {α β : Type} {B : Nat} (l : List β) {f : α → β → W α} {f' : α → β → SW α}
    (h : ∀ a b, SRels B (f a b) (f' a b)) (a : α) : SRels B (l.foldlM f a) (l.foldlM f' a) := by
  induction l generalizing a with
  | nil => exact .pure a
  | cons b l ih => exact .bind (h a b) fun a' => ih a'

theorem PanId.rels (x : PanId) : TRels 8 x.tryWrite (PanId.stores x) := .run (.write (.u16 _ _))
theorem ShortAddress.rels (x : ShortAddress) : TRels 8 (ShortAddress.tryWrite x) (ShortAddress.stores x) :=
  .run (.write (.u16 _ _))
theorem ExtendedAddress.rels (x : ExtendedAddress) : TRels 8 (ExtendedAddress.tryWrite x) (ExtendedAddress.stores x) :=
  .run (.write (.u64 _ _))

theorem Address.rels (a : Address) (enc : AddressEncoding) : TRels 8 (a.tryWrite enc) (a.stores enc) := by
  cases a <;> cases enc
  · exact .run (.bind (.write (PanId.rels _)) fun _ => .write (ShortAddress.rels _))
  · exact .run (.write (ShortAddress.rels _))
  · exact .run (.bind (.write (PanId.rels _)) fun _ => .write (ExtendedAddress.rels _))
  · exact .run (.write (ExtendedAddress.rels _))

theorem SecurityControl.rels (c : SecurityControl) : TRels 8 c.tryWrite c.stores := .run (.write (.u8 _))

theorem KeyIdentifier.rels (cfg : Cfg) (k : KeyIdentifier) : TRels 8 (k.tryWrite cfg) (k.stores cfg) := by
  obtain ⟨ks, i⟩ := k
  rcases ks with _ | (s | s)
  · exact .run (.bind (.pure ()) fun _ => .write (.u8 _))
  · exact .run (.bind (.write (.u32 _ _)) fun _ => .write (.u8 _))
  · exact .run (.bind (.write (.u64 _ _)) fun _ => .write (.u8 _))

theorem AuxHeader.rels {κ : Type} (cfg : Cfg) (h : AuxHeader) (ctx : SecCtx κ) :
    TRels 8 (h.tryWrite cfg ctx) (h.stores cfg ctx.frameCounter) := by
  unfold AuxHeader.tryWrite AuxHeader.stores
  refine .run (.bind (.write (SecurityControl.rels _)) fun _ => .bind (.write (.u32 _ _)) fun _ => ?_)
  cases h.keyIdentifier with
  | none => exact .pure ()
  | some k => exact .write (k.rels cfg)

theorem Header.rels {κ : Type} (cfg : Cfg) (h : Header) (sc : Option (SecCtx κ)) :
    TRels 8 (h.tryWrite cfg sc) (h.stores cfg (sc.map (·.frameCounter))) := by
  obtain ⟨_, _, _, pc, _, _, _, _, dst, src, aux⟩ := h
  unfold Header.tryWrite Header.stores
  dsimp only
  refine .run (.bind (.write (.u16 _ _)) fun _ => .bind (.write (.u8 _)) fun _ => ?_)
  rcases dst with _ | dst <;> rcases src with _ | src <;> cases pc <;> rcases aux with _ | aux <;> rcases sc with _ | sc <;>
    simp only [Option.isNone, Option.isSome, Option.map, Bool.true_or, Bool.or_true, Bool.false_or, Bool.and_true, Bool.and_false,
      Bool.true_and, Bool.false_and, if_true, if_false, Bool.false_eq_true] <;>
    repeat first
      | exact .pure _
      | exact .fail _
      | exact .panic
      | exact SRels.fail_bind _ _ _
      | exact .write (AuxHeader.rels _ _ _)
      | refine .bind (.write (Address.rels _ _)) fun _ => ?_
      | refine .bind (.pure _) fun _ => ?_

theorem SuperframeSpec.rels (s : SuperframeSpec) : TRels 8 s.tryWrite s.stores :=
  .run (.bind (.write (.u8 _)) fun _ => .write (.u8 _))

theorem GtsDescriptor.rels (d : GtsDescriptor) : TRels 8 d.tryWrite d.stores :=
  .run (.bind (.write (ShortAddress.rels _)) fun _ => .write (.u8 _))

theorem GtsInfo.rels (g : GtsInfo) : TRels 8 g.tryWrite g.stores := by
  unfold GtsInfo.tryWrite GtsInfo.stores
  apply TRels.run
  dsimp only
  split
  · exact SRels.panic_bind _ _
  refine .bind (.write (.u8 _)) fun _ => ?_
  split
  · refine .bind ?_ fun mask => ?_
    · unfold directionMask directionMaskS
      refine .bind (SRels.foldlM _ ?_ _) ?_
      · rintro ⟨dir, mask⟩ n
        exact .bind (.index _ _) fun _ => .pure _
      · rintro ⟨_, m⟩; exact .pure _
    · refine .bind (.write (.u8 _)) fun _ => ?_
      exact .forM _ fun n => .bind (.index _ _) fun s => .write s.rels
  · exact .pure _

theorem PendingAddress.rels (p : PendingAddress) : TRels 8 p.tryWrite p.stores := by
  unfold PendingAddress.tryWrite PendingAddress.stores
  apply TRels.run
  dsimp only
  split
  · exact SRels.panic_bind _ _
  split
  · exact SRels.panic_bind _ _
  refine .bind (.write (.u8 _)) fun _ => .bind ?_ fun _ => ?_
  · exact .forM _ fun n => .bind (.index _ _) fun s => .write (ShortAddress.rels _)
  · exact .forM _ fun n => .bind (.index _ _) fun s => .write (ExtendedAddress.rels _)

theorem Beacon.rels (b : Beacon) : TRels 8 b.tryWrite b.stores :=
  .run (.bind (.write (SuperframeSpec.rels _)) fun _ => .bind (.write (GtsInfo.rels _)) fun _ =>
    .write (PendingAddress.rels _))

theorem CoordinatorRealignmentData.rels (d : CoordinatorRealignmentData) : TRels 8 d.tryWrite d.stores := by
  unfold CoordinatorRealignmentData.tryWrite CoordinatorRealignmentData.stores
  refine .run (.bind (.write (PanId.rels _)) fun _ => .bind (.write (ShortAddress.rels _)) fun _ =>
    .bind (.write (.u8 _)) fun _ => .bind (.write (ShortAddress.rels _)) fun _ => ?_)
  cases d.channelPage
  · exact .pure _
  · exact .write (.u8 _)

theorem Command.rels (c : Command) : TRels 8 c.tryWrite c.stores := by
  cases c
  · exact .run (.bind (.write (.u8 _)) fun _ => .write (.u8 _))
  · exact .run (.bind (.write (.u8 _)) fun _ => .bind (.write (ShortAddress.rels _)) fun _ => .write (.u8 _))
  · exact .run (.bind (.write (.u8 _)) fun _ => .write (.u8 _))
  · exact .run (.write (.u8 _))
  · exact .run (.write (.u8 _))
  · exact .run (.write (.u8 _))
  · exact .run (.write (.u8 _))
  · exact .run (.bind (.write (.u8 _)) fun _ => .write (CoordinatorRealignmentData.rels _))
  · exact .run (.bind (.write (.u8 _)) fun _ => .write (.u8 _))

theorem FrameContent.rels (c : FrameContent) : TRels 8 c.tryWrite c.stores := by
  cases c
  case beacon b => exact .run (.write b.rels)
  case command c => exact .run (.write c.rels)
  all_goals exact .run (.pure ())

theorem Frame.head_rels {κ : Type} (cfg : Cfg) (f : Frame) (sc : Option (SecCtx κ)) :
    SRels 8 (f.writeHead cfg sc) (f.headStores cfg (sc.map (·.frameCounter))) :=
  .bind (.write (Header.rels _ _ _)) fun _ => .write (FrameContent.rels _)

theorem Frame.tail_rels (f : Frame) (mode : FooterMode) (sec : Bool) :
    SRels (max f.payload.length 2) (f.writeTail mode sec) (f.tailStores mode sec) := by
  unfold Frame.writeTail Frame.tailStores
  cases sec <;> cases mode <;> simp only [Bool.false_eq_true, not_false_eq_true, if_true, not_true_eq_false, if_false]
  · exact .bind (.write (.bytes _ (Nat.le_max_left _ _))) fun _ => .pure _
  · exact .bind (.write (.bytes _ (Nat.le_max_left _ _))) fun _ => .write (.bytes _ (Nat.le_max_right _ _))
  · exact .pure _
  · exact .write (.bytes _ (Nat.le_max_right _ _))

end Verif
