import Verif.Lemmas.Bytes

/-!
# Lemmas: writers

`Writes w res enc` says exactly what a `TryWrite` does on every buffer: with room for `enc` it
leaves `enc` at the start of the buffer, the rest untouched, and ends with `res` (success, an
error or a panic); without room it fails with `Incomplete` after writing a prefix of `enc`.
-/

namespace Verif

/-- Outcome of a writer in terms of the octets it writes. -/
def Writes (w : TryWrite) (res : Out ByteErr Unit) (enc : List UInt8) : Prop :=
  ∀ buf : List UInt8,
    (enc.length ≤ buf.length →
      w buf = (res.bind fun _ => .ok enc.length, enc ++ buf.drop enc.length)) ∧
    (buf.length < enc.length →
      ∃ k, k ≤ buf.length ∧ w buf = (.err .incomplete, enc.take k ++ buf.drop k))

/-- The same for a block of code at some offset. -/
def WSpec {α : Type} (p : W α) (res : Out ByteErr α) (enc : List UInt8) : Prop :=
  ∀ pre buf : List UInt8,
    (enc.length ≤ buf.length →
      ∃ off, p (pre ++ buf) pre.length = (res, pre ++ (enc ++ buf.drop enc.length), off) ∧
        ((∃ a, res = .ok a) → off = pre.length + enc.length)) ∧
    (buf.length < enc.length →
      ∃ k off, k ≤ buf.length ∧
        p (pre ++ buf) pre.length = (.err .incomplete, pre ++ (enc.take k ++ buf.drop k), off))

theorem W.bind_eq {α β : Type} (x : W α) (f : α → W β) :
    (x >>= f) = fun buf off => match x buf off with
      | (.ok a, buf', off') => f a buf' off'
      | (.err e, buf', off') => (.err e, buf', off')
      | (.panic, buf', off') => (.panic, buf', off') := rfl

theorem WSpec.pure {α : Type} (a : α) : WSpec (pure a : W α) (.ok a) [] := by
  intro pre buf
  refine ⟨fun _ => ⟨pre.length, ?_, ?_⟩, fun h => absurd h (by simp)⟩
  · simp only [List.length_nil, List.drop_zero, List.nil_append]; rfl
  · intro _; simp

theorem WSpec.fail {α : Type} (e : ByteErr) : WSpec (W.fail e : W α) (.err e) [] := by
  intro pre buf
  refine ⟨fun _ => ⟨pre.length, ?_, ?_⟩, fun h => absurd h (by simp)⟩
  · simp [W.fail]
  · rintro ⟨a, ha⟩; cases ha

theorem WSpec.panic {α : Type} : WSpec (W.panic : W α) .panic [] := by
  intro pre buf
  refine ⟨fun _ => ⟨pre.length, ?_, ?_⟩, fun h => absurd h (by simp)⟩
  · simp [W.panic]
  · rintro ⟨a, ha⟩; cases ha

theorem WSpec.bind {α β : Type} {x : W α} {f : α → W β} {a : α} {res : Out ByteErr β}
    {e₁ e₂ : List UInt8} (hx : WSpec x (.ok a) e₁) (hf : WSpec (f a) res e₂) :
    WSpec (x >>= f) res (e₁ ++ e₂) := by
  intro pre buf
  constructor
  · intro hlen
    rw [List.length_append] at hlen
    obtain ⟨off, hxe, hoff⟩ := (hx pre buf).1 (by omega)
    have hoff := hoff ⟨a, rfl⟩
    obtain ⟨off', hfe, hoff'⟩ := (hf (pre ++ e₁) (buf.drop e₁.length)).1 (by simp; omega)
    refine ⟨off', ?_, ?_⟩
    · rw [W.bind_eq]
      simp only [hxe]
      have : off = (pre ++ e₁).length := by simp [hoff]
      rw [this, ← List.append_assoc, hfe]
      simp [List.drop_drop]
    · intro h
      rw [hoff' h]; simp; omega
  · intro hlen
    rw [List.length_append] at hlen
    by_cases h1 : e₁.length ≤ buf.length
    · obtain ⟨off, hxe, hoff⟩ := (hx pre buf).1 h1
      have hoff := hoff ⟨a, rfl⟩
      obtain ⟨k, off', hk, hfe⟩ := (hf (pre ++ e₁) (buf.drop e₁.length)).2 (by simp; omega)
      refine ⟨e₁.length + k, off', ?_, ?_⟩
      · simp at hk; omega
      · rw [W.bind_eq]
        simp only [hxe]
        have : off = (pre ++ e₁).length := by simp [hoff]
        rw [this, ← List.append_assoc, hfe]
        have h2 : (e₁ ++ e₂).take (e₁.length + k) = e₁ ++ e₂.take k := by
          rw [List.take_append, List.take_of_length_le (by omega)]; simp
        simp [List.drop_drop, h2]
    · obtain ⟨k, off', hk, hxe⟩ := (hx pre buf).2 (by omega)
      refine ⟨k, off', hk, ?_⟩
      rw [W.bind_eq]
      simp only [hxe]
      have : (e₁ ++ e₂).take k = e₁.take k := by
        rw [List.take_append_of_le_length]; omega
      rw [this]

theorem WSpec.bind_err {α β : Type} {x : W α} {f : α → W β} {e : ByteErr}
    {e₁ : List UInt8} (hx : WSpec x (.err e) e₁) : WSpec (x >>= f) (.err e) e₁ := by
  intro pre buf
  constructor
  · intro hlen
    obtain ⟨off, hxe, _⟩ := (hx pre buf).1 hlen
    refine ⟨off, ?_, by rintro ⟨a, ha⟩; cases ha⟩
    rw [W.bind_eq]; simp only [hxe]
  · intro hlen
    obtain ⟨k, off', hk, hxe⟩ := (hx pre buf).2 hlen
    refine ⟨k, off', hk, ?_⟩
    rw [W.bind_eq]; simp only [hxe]

theorem WSpec.write {w : TryWrite} {res : Out ByteErr Unit} {enc : List UInt8}
    (h : Writes w res enc) : WSpec (W.write w) res enc := by
  intro pre buf
  have hpre : ¬ (pre ++ buf).length < pre.length := by simp
  have hdrop : (pre ++ buf).drop pre.length = buf := by simp
  have htake : (pre ++ buf).take pre.length = pre := by simp
  constructor
  · intro hlen
    have := (h buf).1 hlen
    unfold W.write
    rw [if_neg hpre, hdrop, htake, this]
    cases res with
    | ok a => exact ⟨pre.length + enc.length, rfl, fun _ => rfl⟩
    | err e => exact ⟨pre.length, rfl, by rintro ⟨a, ha⟩; cases ha⟩
    | panic => exact ⟨pre.length, rfl, by rintro ⟨a, ha⟩; cases ha⟩
  · intro hlen
    obtain ⟨k, hk, he⟩ := (h buf).2 hlen
    unfold W.write
    rw [if_neg hpre, hdrop, htake, he]
    exact ⟨k, pre.length, hk, rfl⟩

theorem Writes.run {p : W Unit} {res : Out ByteErr Unit} {enc : List UInt8}
    (h : WSpec p res enc) : Writes (W.run p) res enc := by
  intro buf
  constructor
  · intro hlen
    obtain ⟨off, he, hoff⟩ := (h [] buf).1 hlen
    simp only [List.nil_append, List.length_nil] at he
    unfold W.run
    rw [he]
    cases res with
    | ok a => have := hoff ⟨a, rfl⟩; simp at this; simp [this, Out.bind]
    | err e => rfl
    | panic => rfl
  · intro hlen
    obtain ⟨k, off, hk, he⟩ := (h [] buf).2 hlen
    simp only [List.nil_append, List.length_nil] at he
    refine ⟨k, hk, ?_⟩
    unfold W.run
    rw [he]

theorem Writes.bytes (src : List UInt8) : Writes (tryWriteBytes src) (.ok ()) src := by
  intro buf
  constructor
  · intro h
    unfold tryWriteBytes
    rw [if_neg (by omega)]; rfl
  · intro h
    refine ⟨0, by omega, ?_⟩
    unfold tryWriteBytes
    rw [if_pos h]; simp

theorem Writes.u8 (x : UInt8) : Writes (tryWriteU8 x) (.ok ()) [x] := Writes.bytes _

theorem Writes.u16 (e : Endian) (x : UInt16) :
    Writes (tryWriteU16 e x) (.ok ()) (Spec.inOrder e 2 x.toNat) := by
  unfold tryWriteU16; rw [natToBytes_eq]; exact Writes.bytes _

theorem Writes.u32 (e : Endian) (x : UInt32) :
    Writes (tryWriteU32 e x) (.ok ()) (Spec.inOrder e 4 x.toNat) := by
  unfold tryWriteU32; rw [natToBytes_eq]; exact Writes.bytes _

theorem Writes.u64 (e : Endian) (x : UInt64) :
    Writes (tryWriteU64 e x) (.ok ()) (Spec.inOrder e 8 x.toNat) := by
  unfold tryWriteU64; rw [natToBytes_eq]; exact Writes.bytes _

/-- `WSpec` with the encoding given up to equality. -/
theorem WSpec.of_eq {α : Type} {p : W α} {res : Out ByteErr α} {e₁ e₂ : List UInt8}
    (h : WSpec p res e₁) (he : e₁ = e₂) : WSpec p res e₂ := he ▸ h

theorem Writes.of_eq {w : TryWrite} {res : Out ByteErr Unit} {e₁ e₂ : List UInt8}
    (h : Writes w res e₁) (he : e₁ = e₂) : Writes w res e₂ := he ▸ h

/-- Loop over a list. -/
theorem WSpec.forM {β : Type} (l : List β) (f : β → W Unit) (enc : β → List UInt8)
    (h : ∀ b ∈ l, WSpec (f b) (.ok ()) (enc b)) :
    WSpec (l.forM f) (.ok ()) (l.flatMap enc) := by
  induction l with
  | nil => exact WSpec.pure ()
  | cons b l ih =>
    rw [List.flatMap_cons]
    exact WSpec.bind (h b (by simp)) (ih fun b' hb' => h b' (by simp [hb']))

end Verif

namespace Verif

theorem Writes.ok_inv {w : TryWrite} {res : Out ByteErr Unit} {enc : List UInt8}
    (h : Writes w res enc) {buf buf' : List UInt8} {n : Nat} (hw : w buf = (.ok n, buf')) :
    res = .ok () ∧ enc.length ≤ buf.length ∧ n = enc.length ∧ buf' = enc ++ buf.drop enc.length := by
  by_cases hl : enc.length ≤ buf.length
  · have := (h buf).1 hl
    rw [hw] at this
    cases res with
    | ok a =>
      simp only [Out.bind, Prod.mk.injEq, Out.ok.injEq] at this
      exact ⟨rfl, hl, this.1, this.2⟩
    | err e => simp [Out.bind] at this
    | panic => simp [Out.bind] at this
  · obtain ⟨k, _, hk⟩ := (h buf).2 (by omega)
    rw [hw] at hk
    simp at hk

/-- The octets written. -/
theorem Writes.ok_take {w : TryWrite} {res : Out ByteErr Unit} {enc : List UInt8}
    (h : Writes w res enc) {buf buf' : List UInt8} {n : Nat} (hw : w buf = (.ok n, buf')) :
    buf'.take n = enc := by
  obtain ⟨_, _, rfl, rfl⟩ := h.ok_inv hw
  simp

theorem Writes.ok_of_room {w : TryWrite} {enc : List UInt8}
    (h : Writes w (.ok ()) enc) (buf : List UInt8) (hl : enc.length ≤ buf.length) :
    w buf = (.ok enc.length, enc ++ buf.drop enc.length) := (h buf).1 hl

end Verif
