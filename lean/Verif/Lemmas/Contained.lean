import Verif.Spec.WriterSpec
import Verif.Lemmas.FrameWrite

/-!
# Lemmas: writers stay inside the buffer
-/

namespace Verif
open Spec

/-- `Contained` for a block of code at some offset. -/
def WCont {α : Type} (p : W α) : Prop :=
  ∀ buf off, off ≤ buf.length → ∀ r buf' off', p buf off = (r, buf', off') →
    buf'.length = buf.length ∧ buf'.take off = buf.take off ∧
    (∀ a, r = .ok a → off ≤ off' ∧ off' ≤ buf.length ∧ buf'.drop off' = buf.drop off')

theorem WCont.pure {α : Type} (a : α) : WCont (pure a : W α) := by
  intro buf off h r buf' off' he
  cases he
  exact ⟨rfl, rfl, fun _ _ => ⟨Nat.le_refl _, h, rfl⟩⟩

theorem WCont.fail {α : Type} (e : ByteErr) : WCont (W.fail e : W α) := by
  intro buf off h r buf' off' he
  cases he
  exact ⟨rfl, rfl, fun _ h => by cases h⟩

theorem WCont.panic {α : Type} : WCont (W.panic : W α) := by
  intro buf off h r buf' off' he
  cases he
  exact ⟨rfl, rfl, fun _ h => by cases h⟩

theorem WCont.bind {α β : Type} {x : W α} {f : α → W β} (hx : WCont x) (hf : ∀ a, WCont (f a)) :
    WCont (x >>= f) := by
  intro buf off h r buf' off' he
  rw [W.bind_eq] at he
  simp only at he
  rcases hxe : x buf off with ⟨r1, buf1, off1⟩
  have h1 := hx buf off h _ _ _ hxe
  rw [hxe] at he
  cases r1 with
  | ok a =>
    simp only at he
    have h1' := h1.2.2 a rfl
    have h2 := hf a buf1 off1 (by omega) _ _ _ he
    refine ⟨by omega, ?_, ?_⟩
    · have := congrArg (List.take off) h2.2.1
      simp only [List.take_take, Nat.min_eq_left h1'.1] at this
      rw [this, h1.2.1]
    · intro b hb
      have h2' := h2.2.2 b hb
      refine ⟨by omega, by omega, ?_⟩
      rw [h2'.2.2]
      have := congrArg (List.drop (off' - off1)) h1'.2.2
      simpa [List.drop_drop, show off1 + (off' - off1) = off' by omega] using this
  | err e =>
    simp only [Prod.mk.injEq] at he
    obtain ⟨rfl, rfl, rfl⟩ := he
    exact ⟨h1.1, h1.2.1, fun _ h => by cases h⟩
  | panic =>
    simp only [Prod.mk.injEq] at he
    obtain ⟨rfl, rfl, rfl⟩ := he
    exact ⟨h1.1, h1.2.1, fun _ h => by cases h⟩

theorem WCont.panic_bind {α β : Type} (f : α → W β) : WCont (W.panic >>= f) := by
  intro buf off h r buf' off' he
  cases he
  exact ⟨rfl, rfl, fun _ h => by cases h⟩

theorem WCont.write {w : TryWrite} (hw : Contained w) : WCont (W.write w) := by
  intro buf off h r buf' off' he
  unfold W.write at he
  rw [if_neg (by omega)] at he
  rcases hwe : w (buf.drop off) with ⟨r1, sub⟩
  have hl := hw.length (buf.drop off)
  rw [hwe] at hl he
  simp only [List.length_drop] at hl
  have ht : (buf.take off).length = off := by simp; omega
  have key : (buf.take off ++ sub).length = buf.length ∧ (buf.take off ++ sub).take off = buf.take off := by
    constructor
    · rw [List.length_append, ht, hl]; omega
    · rw [List.take_append_of_le_length (by omega), List.take_of_length_le (by omega)]
  cases r1 with
  | ok n =>
    simp only [Prod.mk.injEq] at he
    obtain ⟨rfl, rfl, rfl⟩ := he
    refine ⟨key.1, key.2, fun _ _ => ?_⟩
    have hb := hw.behind (buf.drop off) n (by rw [hwe])
    rw [hwe] at hb
    simp only [List.length_drop, List.drop_drop] at hb
    refine ⟨by omega, by omega, ?_⟩
    rw [← hb.2, List.drop_append, List.drop_of_length_le (by omega), List.nil_append, ht]
    congr 1; omega
  | err e =>
    simp only [Prod.mk.injEq] at he
    obtain ⟨rfl, rfl, rfl⟩ := he
    exact ⟨key.1, key.2, fun _ h => by cases h⟩
  | panic =>
    simp only [Prod.mk.injEq] at he
    obtain ⟨rfl, rfl, rfl⟩ := he
    exact ⟨key.1, key.2, fun _ h => by cases h⟩

theorem WCont.run {p : W Unit} (hp : WCont p) : Contained (W.run p) := by
  have key : ∀ buf, (W.run p buf).2.length = buf.length ∧
      ∀ n, (W.run p buf).1 = .ok n → n ≤ buf.length ∧ (W.run p buf).2.drop n = buf.drop n := by
    intro buf
    rcases he : p buf 0 with ⟨r, buf', off'⟩
    have h := hp buf 0 (Nat.zero_le _) _ _ _ he
    unfold W.run
    rw [he]
    cases r with
    | ok a => exact ⟨h.1, fun n hn => by cases hn; exact (h.2.2 a rfl).2⟩
    | err e => exact ⟨h.1, fun n hn => by cases hn⟩
    | panic => exact ⟨h.1, fun n hn => by cases hn⟩
  exact ⟨fun b => (key b).1, fun b => (key b).2⟩

/-- Writers with an exactly known effect are contained. -/
theorem Writes.contained {w : TryWrite} {r : Out ByteErr Unit} {enc : List UInt8} (h : Writes w r enc) :
    Contained w := by
  constructor
  · intro buf
    by_cases hl : enc.length ≤ buf.length
    · rw [(h buf).1 hl]; simp; omega
    · obtain ⟨k, hk, he⟩ := (h buf).2 (by omega)
      rw [he]; simp; omega
  · intro buf n hn
    obtain ⟨_, h1, h2, h3⟩ := h.ok_inv (n := n) (buf := buf) (buf' := (w buf).2) (by rw [← hn])
    subst h2
    exact ⟨h1, by rw [h3]; simp⟩

theorem Writes.encodes {w : TryWrite} {enc : List UInt8} (h : Writes w (.ok ()) enc) : Encodes w enc :=
  ⟨fun buf hl => h.ok_of_room buf hl, fun buf hl => (h buf).2 hl⟩

theorem Writes.refuses {w : TryWrite} {enc : List UInt8} {e : ByteErr} (h : Writes w (.err e) enc) :
    Refuses w enc e :=
  ⟨fun buf hl => (h buf).1 hl, fun buf hl => (h buf).2 hl⟩

theorem WCont.forM {β : Type} (l : List β) (f : β → W Unit) (h : ∀ b, WCont (f b)) : WCont (l.forM f) := by
  induction l with
  | nil => exact WCont.pure ()
  | cons b l ih => exact WCont.bind (h b) fun _ => ih

theorem WCont.foldlM {α β : Type} (l : List β) (f : α → β → W α) (h : ∀ a b, WCont (f a b)) (a : α) :
    WCont (l.foldlM f a) := by
  induction l generalizing a with
  | nil => exact WCont.pure a
  | cons b l ih => exact WCont.bind (h a b) fun a' => ih a'

theorem WCont.index {α : Type} (arr : Vector α 7) (n : Nat) : WCont (W.index arr n) := by
  unfold W.index
  split
  · exact WCont.pure _
  · exact WCont.panic

namespace Spec.Contained

theorem bytes (l : List UInt8) : Contained (tryWriteBytes l) := (Writes.bytes l).contained
theorem u8 (x : UInt8) : Contained (tryWriteU8 x) := bytes _

end Spec.Contained

theorem GtsDescriptor.contained (d : GtsDescriptor) : Contained d.tryWrite :=
  WCont.run (WCont.bind (WCont.write (ShortAddress.writes _).contained) fun _ =>
    WCont.write (Contained.u8 _))

theorem GtsInfo.contained (g : GtsInfo) : Contained g.tryWrite := by
  unfold GtsInfo.tryWrite
  apply WCont.run
  dsimp only
  split
  · exact WCont.panic_bind _
  apply WCont.bind (WCont.write (Contained.u8 _))
  intro _
  split
  · apply WCont.bind
    · unfold directionMask
      apply WCont.bind
      · apply WCont.foldlM
        rintro ⟨dir, mask⟩ n
        exact WCont.bind (WCont.index _ _) fun _ => WCont.pure _
      · rintro ⟨_, m⟩; exact WCont.pure _
    · intro mask
      apply WCont.bind (WCont.write (Contained.u8 _))
      intro _
      exact WCont.forM _ _ fun n => WCont.bind (WCont.index _ _) fun s => WCont.write s.contained
  · exact WCont.pure _

theorem PendingAddress.contained (p : PendingAddress) : Contained p.tryWrite := by
  unfold PendingAddress.tryWrite
  apply WCont.run
  dsimp only
  split
  · exact WCont.panic_bind _
  split
  · exact WCont.panic_bind _
  apply WCont.bind (WCont.write (Contained.u8 _))
  intro _
  apply WCont.bind
  · exact WCont.forM _ _ fun n => WCont.bind (WCont.index _ _) fun s =>
      WCont.write (ShortAddress.writes _).contained
  · intro _
    exact WCont.forM _ _ fun n => WCont.bind (WCont.index _ _) fun s =>
      WCont.write (ExtendedAddress.writes _).contained

theorem Beacon.contained (b : Beacon) : Contained b.tryWrite := by
  unfold Beacon.tryWrite
  exact WCont.run (WCont.bind (WCont.write (SuperframeSpec.writes _).contained) fun _ =>
    WCont.bind (WCont.write b.gtsInfo.contained) fun _ => WCont.write b.pendingAddress.contained)

theorem Header.contained {κ : Type} (cfg : Cfg) (h : Header) (sc : Option (SecCtx κ)) :
    Contained (h.tryWrite cfg sc) := by
  by_cases he : Encodable h
  · exact (Header.writes cfg h sc he).contained
  · exact (Header.writes_refused cfg h sc he).contained

theorem FrameContent.contained (c : FrameContent) : Contained c.tryWrite := by
  unfold FrameContent.tryWrite
  apply WCont.run
  cases c with
  | beacon b => exact WCont.write b.contained
  | command c => exact WCont.write (Command.writes c).contained
  | _ => exact WCont.pure ()

end Verif
