import Verif.Lemmas.Bytes

/-!
# Lemmas: readers

`Decodes r E`: the reader `r` succeeds exactly on the slices that start with an octet string
related by `E` to the value returned, and consumes exactly that string.
`Needs r need`: the reader never fails except with `Incomplete`, exactly when fewer than
`need bytes` octets are there, and otherwise consumes exactly that many.
-/

namespace Verif

def Decodes {α : Type} (r : TryRead α) (E : α → List UInt8 → Prop) : Prop :=
  ∀ bytes a n, r bytes = .ok (a, n) ↔ ∃ l s, bytes = l ++ s ∧ E a l ∧ n = l.length

/-- `Decodes` for a block of code at some offset. -/
def RDec {α : Type} (p : R α) (E : α → List UInt8 → Prop) : Prop :=
  ∀ pre rest a off, p (pre ++ rest) pre.length = .ok (a, off) ↔
    ∃ l s, rest = l ++ s ∧ E a l ∧ off = pre.length + l.length

def Needs {α : Type} (r : TryRead α) (need : List UInt8 → Nat) : Prop :=
  ∀ bytes, (need bytes ≤ bytes.length → ∃ a, r bytes = .ok (a, need bytes)) ∧
    (bytes.length < need bytes → r bytes = .err .incomplete)

/-- `Needs` for a block of code at some offset. -/
def RNeeds {α : Type} (p : R α) (need : List UInt8 → Nat) : Prop :=
  ∀ pre rest, (need rest ≤ rest.length →
      ∃ a, p (pre ++ rest) pre.length = .ok (a, pre.length + need rest)) ∧
    (rest.length < need rest → p (pre ++ rest) pre.length = .err .incomplete)

theorem R.bind_eq {α β : Type} (x : R α) (f : α → R β) :
    (x >>= f) = fun bytes off => match x bytes off with
      | .ok (a, off') => f a bytes off'
      | .err e => .err e
      | .panic => .panic := rfl

theorem R.bind_apply {α β : Type} (x : R α) (f : α → R β) (bytes : List UInt8) (off : Nat) :
    (x >>= f) bytes off = match x bytes off with
      | .ok (a, off') => f a bytes off'
      | .err e => .err e
      | .panic => .panic := rfl

theorem R.pure_eq {α : Type} (a : α) : (pure a : R α) = fun _ off => .ok (a, off) := rfl

theorem RDec.pure {α : Type} (a : α) : RDec (pure a : R α) (fun b l => b = a ∧ l = []) := by
  intro pre rest b off
  rw [R.pure_eq]
  constructor
  · intro h
    simp only [Out.ok.injEq, Prod.mk.injEq] at h
    exact ⟨[], rest, rfl, ⟨h.1.symm, rfl⟩, by simp [h.2]⟩
  · rintro ⟨l, s, _, ⟨rfl, rfl⟩, rfl⟩
    simp

theorem RDec.fail {α : Type} (e : ByteErr) : RDec (R.fail e : R α) (fun _ _ => False) := by
  intro pre rest b off
  constructor
  · intro h; cases h
  · rintro ⟨l, s, _, h, _⟩; exact h.elim

theorem RDec.bind {α β : Type} {x : R α} {f : α → R β} {E₁ : α → List UInt8 → Prop}
    {E₂ : α → β → List UInt8 → Prop} (hx : RDec x E₁) (hf : ∀ a, RDec (f a) (E₂ a)) :
    RDec (x >>= f) (fun b l => ∃ a l₁ l₂, l = l₁ ++ l₂ ∧ E₁ a l₁ ∧ E₂ a b l₂) := by
  intro pre rest b off
  rw [R.bind_apply]
  constructor
  · intro h
    split at h
    · rename_i a off' hxe
      obtain ⟨l₁, s₁, hr, he, rfl⟩ := (hx _ _ _ _).1 hxe
      subst hr
      rw [← List.append_assoc, ← List.length_append] at h
      obtain ⟨l₂, s₂, hr₂, he₂, rfl⟩ := (hf a _ _ _ _).1 h
      subst hr₂
      exact ⟨l₁ ++ l₂, s₂, by simp, ⟨a, l₁, l₂, rfl, he, he₂⟩, by simp; omega⟩
    · cases h
    · cases h
  · rintro ⟨l, s, rfl, ⟨a, l₁, l₂, rfl, he, he₂⟩, rfl⟩
    have h1 : x (pre ++ (l₁ ++ l₂ ++ s)) pre.length = .ok (a, pre.length + l₁.length) :=
      (hx _ _ _ _).2 ⟨l₁, l₂ ++ s, by simp, he, rfl⟩
    simp only [h1]
    have h2 := (hf a (pre ++ l₁) (l₂ ++ s) b ((pre ++ l₁).length + l₂.length)).2
      ⟨l₂, s, rfl, he₂, rfl⟩
    have e1 : pre ++ (l₁ ++ l₂ ++ s) = pre ++ l₁ ++ (l₂ ++ s) := by simp
    have e2 : pre.length + l₁.length = (pre ++ l₁).length := by simp
    rw [e1, e2, h2]
    simp; omega

theorem RDec.read {α : Type} {r : TryRead α} {E : α → List UInt8 → Prop} (h : Decodes r E) :
    RDec (R.read r) E := by
  intro pre rest a off
  unfold R.read
  rw [if_neg (by simp)]
  have : (pre ++ rest).drop pre.length = rest := by simp
  rw [this]
  constructor
  · intro h'
    split at h'
    · rename_i b n hr
      simp only [Out.ok.injEq, Prod.mk.injEq] at h'
      obtain ⟨rfl, rfl⟩ := h'
      obtain ⟨l, s, hl, he, rfl⟩ := (h _ _ _).1 hr
      exact ⟨l, s, hl, he, rfl⟩
    · cases h'
    · cases h'
  · rintro ⟨l, s, hl, he, rfl⟩
    rw [(h rest a l.length).2 ⟨l, s, hl, he, rfl⟩]

theorem Decodes.run {α : Type} {p : R α} {E : α → List UInt8 → Prop} (h : RDec p E) :
    Decodes (R.run p) E := by
  intro bytes a n
  have := h [] bytes a n
  simpa [R.run] using this

theorem RDec.congr {α : Type} {p : R α} {E E' : α → List UInt8 → Prop} (h : RDec p E)
    (he : ∀ a l, E a l ↔ E' a l) : RDec p E' := by
  have : E = E' := by funext a l; exact propext (he a l)
  exact this ▸ h

theorem Decodes.congr {α : Type} {p : TryRead α} {E E' : α → List UInt8 → Prop} (h : Decodes p E)
    (he : ∀ a l, E a l ↔ E' a l) : Decodes p E' := by
  have : E = E' := by funext a l; exact propext (he a l)
  exact this ▸ h

theorem RDec.lift {α : Type} (o : Out ByteErr α) :
    RDec (R.lift o) (fun a l => o = .ok a ∧ l = []) := by
  intro pre rest a off
  unfold R.lift
  cases o with
  | ok b =>
    simp only [Out.ok.injEq, Prod.mk.injEq]
    constructor
    · rintro ⟨rfl, rfl⟩; exact ⟨[], rest, rfl, ⟨rfl, rfl⟩, by simp⟩
    · rintro ⟨l, s, _, ⟨rfl, rfl⟩, rfl⟩; simp
  | err e => simp
  | panic => simp

theorem RDec.unwrap {α : Type} (o : Option α) :
    RDec (R.unwrap o) (fun a l => o = some a ∧ l = []) := by
  cases o with
  | some a =>
    refine RDec.congr (RDec.pure a) ?_
    intro b l; simp [eq_comm]
  | none =>
    intro pre rest b off
    constructor
    · intro h; cases h
    · rintro ⟨l, s, _, h, _⟩; simp at h

/-! ## Primitive readers -/

theorem tryReadNat_eq (e : Endian) (k : Nat) (bytes : List UInt8) :
    tryReadNat e k bytes =
      if bytes.length < k then .err .incomplete else .ok (bytesToNat e (bytes.take k), k) := rfl

theorem Decodes.nat (e : Endian) (k : Nat) :
    Decodes (tryReadNat e k) (fun v l => v < 256 ^ k ∧ l = Spec.inOrder e k v) := by
  intro bytes a n
  rw [tryReadNat_eq]
  constructor
  · intro h
    split at h
    · cases h
    · rename_i hlen
      simp only [Out.ok.injEq, Prod.mk.injEq] at h
      obtain ⟨rfl, rfl⟩ := h
      have hk : (bytes.take k).length = k := by simp; omega
      refine ⟨bytes.take k, bytes.drop k, by simp, ⟨?_, ?_⟩, by omega⟩
      · have := bytesToNat_lt e (bytes.take k); rwa [hk] at this
      · have := inOrder_bytesToNat e (bytes.take k); rw [hk] at this; exact this.symm
  · rintro ⟨l, s, rfl, ⟨hv, rfl⟩, rfl⟩
    rw [if_neg (by simp)]
    have : (Spec.inOrder e k a ++ s).take k = Spec.inOrder e k a := by
      rw [List.take_append_of_le_length (by simp), List.take_of_length_le (by simp)]
    rw [this, bytesToNat_inOrder, Nat.mod_eq_of_lt hv, inOrder_length]

theorem Decodes.map {α β : Type} {r : TryRead α} {E : α → List UInt8 → Prop} (h : Decodes r E)
    (f : α → β) :
    Decodes (fun bytes => (r bytes).bind fun x => .ok (f x.1, x.2))
      (fun b l => ∃ a, E a l ∧ b = f a) := by
  intro bytes b n
  show (r bytes).bind (fun x => .ok (f x.1, x.2)) = .ok (b, n) ↔ _
  constructor
  · intro h'
    cases hr : r bytes with
    | ok x =>
      obtain ⟨a, m⟩ := x
      simp only [hr, Out.bind, Out.ok.injEq, Prod.mk.injEq] at h'
      obtain ⟨rfl, rfl⟩ := h'
      obtain ⟨l, s, hl, he, hn⟩ := (h _ _ _).1 hr
      exact ⟨l, s, hl, ⟨a, he, rfl⟩, hn⟩
    | err e => rw [hr] at h'; cases h'
    | panic => rw [hr] at h'; cases h'
  · rintro ⟨l, s, hl, ⟨a, he, rfl⟩, rfl⟩
    rw [(h bytes a l.length).2 ⟨l, s, hl, he, rfl⟩]; rfl

theorem Decodes.u8 : Decodes tryReadU8 (fun v l => l = [v]) := by
  refine Decodes.congr (Decodes.map (Decodes.nat .little 1) UInt8.ofNat) ?_
  intro v l
  constructor
  · rintro ⟨a, ⟨_, rfl⟩, rfl⟩; simp [Spec.inOrder, le_one]
  · rintro rfl
    exact ⟨v.toNat, ⟨by have := v.toNat_lt; omega, by simp [Spec.inOrder, le_one]⟩, by simp⟩

theorem Decodes.u16 (e : Endian) :
    Decodes (tryReadU16 e) (fun v l => l = Spec.inOrder e 2 v.toNat) := by
  refine Decodes.congr (Decodes.map (Decodes.nat e 2) UInt16.ofNat) ?_
  intro v l
  constructor
  · rintro ⟨a, ⟨ha, rfl⟩, rfl⟩
    rw [UInt16.toNat_ofNat_of_lt' (by simpa [UInt16.size] using ha)]
  · rintro rfl
    exact ⟨v.toNat, ⟨by have := v.toNat_lt; omega, rfl⟩, by simp⟩

theorem Decodes.u32 (e : Endian) :
    Decodes (tryReadU32 e) (fun v l => l = Spec.inOrder e 4 v.toNat) := by
  refine Decodes.congr (Decodes.map (Decodes.nat e 4) UInt32.ofNat) ?_
  intro v l
  constructor
  · rintro ⟨a, ⟨ha, rfl⟩, rfl⟩
    rw [UInt32.toNat_ofNat_of_lt' (by simpa [UInt32.size] using ha)]
  · rintro rfl
    exact ⟨v.toNat, ⟨by have := v.toNat_lt; omega, rfl⟩, by simp⟩

theorem Decodes.u64 (e : Endian) :
    Decodes (tryReadU64 e) (fun v l => l = Spec.inOrder e 8 v.toNat) := by
  refine Decodes.congr (Decodes.map (Decodes.nat e 8) UInt64.ofNat) ?_
  intro v l
  constructor
  · rintro ⟨a, ⟨ha, rfl⟩, rfl⟩
    rw [UInt64.toNat_ofNat_of_lt' (by simpa [UInt64.size] using ha)]
  · rintro rfl
    exact ⟨v.toNat, ⟨by have := v.toNat_lt; omega, rfl⟩, by simp⟩

theorem Decodes.bytes (k : Nat) :
    Decodes (tryReadBytes k) (fun v l => l = v ∧ v.length = k) := by
  intro bytes a n
  unfold tryReadBytes
  constructor
  · intro h
    split at h
    · cases h
    · rename_i hlen
      simp only [Out.ok.injEq, Prod.mk.injEq] at h
      obtain ⟨rfl, rfl⟩ := h
      exact ⟨bytes.take k, bytes.drop k, by simp, ⟨rfl, by simp; omega⟩, by simp; omega⟩
  · rintro ⟨l, s, rfl, ⟨rfl, rfl⟩, rfl⟩
    rw [if_neg (by simp)]; simp

/-- Reading a value with a determined encoding, then continuing. -/
theorem RDec.readBind {α β : Type} {r : TryRead α} {enc : α → List UInt8} {f : α → R β}
    {E₂ : α → β → List UInt8 → Prop} (h : Decodes r (fun v l => l = enc v))
    (hf : ∀ a, RDec (f a) (E₂ a)) :
    RDec (R.read r >>= f) (fun b l => ∃ a l₂, l = enc a ++ l₂ ∧ E₂ a b l₂) := by
  refine RDec.congr (RDec.bind (RDec.read h) hf) ?_
  intro b l
  constructor
  · rintro ⟨a, l₁, l₂, h1, rfl, h3⟩; exact ⟨a, l₂, h1, h3⟩
  · rintro ⟨a, l₂, h1, h3⟩; exact ⟨a, _, l₂, h1, rfl, h3⟩

theorem R.pure_bind {α β : Type} (a : α) (f : α → R β) : (pure a >>= f : R β) = f a := rfl

theorem R.bind_assoc {α β γ : Type} (x : R α) (f : α → R β) (g : β → R γ) :
    (x >>= f >>= g : R γ) = (x >>= fun a => f a >>= g) := by
  funext bytes off
  simp only [R.bind_apply]
  cases x bytes off <;> rfl

/-! ## Needs -/

theorem RNeeds.pure {α : Type} (a : α) : RNeeds (pure a : R α) (fun _ => 0) := by
  intro pre rest
  exact ⟨fun _ => ⟨a, rfl⟩, fun h => absurd h (by simp)⟩

theorem RNeeds.bind {α β : Type} {x : R α} {f : α → R β} {k : Nat} {need : List UInt8 → Nat}
    (hx : RNeeds x (fun _ => k)) (hf : ∀ a, RNeeds (f a) need) :
    RNeeds (x >>= f) (fun rest => k + need (rest.drop k)) := by
  intro pre rest
  show (k + need (rest.drop k) ≤ rest.length → ∃ b, (x >>= f) (pre ++ rest) pre.length
      = .ok (b, pre.length + (k + need (rest.drop k)))) ∧
    (rest.length < k + need (rest.drop k) → (x >>= f) (pre ++ rest) pre.length = .err .incomplete)
  rw [R.bind_apply]
  have hx' : (k ≤ rest.length → ∃ a, x (pre ++ rest) pre.length = .ok (a, pre.length + k)) ∧
    (rest.length < k → x (pre ++ rest) pre.length = .err .incomplete) := hx pre rest
  by_cases hk : k ≤ rest.length
  · obtain ⟨a, ha⟩ := hx'.1 hk
    obtain ⟨p, s, rfl, rfl⟩ := split_at rest k hk
    have e1 : pre ++ (p ++ s) = pre ++ p ++ s := by simp
    have e2 : pre.length + p.length = (pre ++ p).length := by simp
    have e3 : (p ++ s).drop p.length = s := by simp
    rw [e3]
    simp only [ha]
    rw [e1, e2]
    constructor
    · intro hl
      obtain ⟨b, hb⟩ := (hf a (pre ++ p) s).1 (by simp at hl; omega)
      exact ⟨b, by rw [hb]; simp; omega⟩
    · intro hl
      exact (hf a (pre ++ p) s).2 (by simp at hl; omega)
  · constructor
    · intro hl; omega
    · intro _
      rw [hx'.2 (by omega)]

theorem RNeeds.read {α : Type} {r : TryRead α} {need : List UInt8 → Nat} (h : Needs r need) :
    RNeeds (R.read r) need := by
  intro pre rest
  have : (pre ++ rest).drop pre.length = rest := by simp
  unfold R.read
  rw [if_neg (by simp), this]
  constructor
  · intro hl
    obtain ⟨a, ha⟩ := (h rest).1 hl
    exact ⟨a, by rw [ha]⟩
  · intro hl
    rw [(h rest).2 hl]

theorem Needs.run {α : Type} {p : R α} {need : List UInt8 → Nat} (h : RNeeds p need) :
    Needs (R.run p) need := by
  intro bytes
  have := h [] bytes
  simpa [R.run] using this

theorem Needs.nat (e : Endian) (k : Nat) : Needs (tryReadNat e k) (fun _ => k) := by
  intro bytes
  rw [tryReadNat_eq]
  exact ⟨fun h => ⟨_, if_neg (Nat.not_lt.mpr h)⟩, fun h => if_pos h⟩

theorem Needs.map {α β : Type} {r : TryRead α} {need : List UInt8 → Nat} (h : Needs r need)
    (f : α → β) : Needs (fun bytes => (r bytes).bind fun x => .ok (f x.1, x.2)) need := by
  intro bytes
  constructor
  · intro hl
    obtain ⟨a, ha⟩ := (h bytes).1 hl
    exact ⟨f a, by simp only [ha]; rfl⟩
  · intro hl
    simp only [(h bytes).2 hl]; rfl

theorem Needs.u8 : Needs tryReadU8 (fun _ => 1) := Needs.map (Needs.nat .little 1) UInt8.ofNat
theorem Needs.u16 (e : Endian) : Needs (tryReadU16 e) (fun _ => 2) :=
  Needs.map (Needs.nat e 2) UInt16.ofNat
theorem Needs.u32 (e : Endian) : Needs (tryReadU32 e) (fun _ => 4) :=
  Needs.map (Needs.nat e 4) UInt32.ofNat
theorem Needs.u64 (e : Endian) : Needs (tryReadU64 e) (fun _ => 8) :=
  Needs.map (Needs.nat e 8) UInt64.ofNat

theorem RNeeds.congr {α : Type} {p : R α} {n₁ n₂ : List UInt8 → Nat} (h : RNeeds p n₁)
    (he : ∀ l, n₁ l = n₂ l) : RNeeds p n₂ := by
  have : n₁ = n₂ := funext he
  exact this ▸ h

theorem Needs.congr {α : Type} {p : TryRead α} {n₁ n₂ : List UInt8 → Nat} (h : Needs p n₁)
    (he : ∀ l, n₁ l = n₂ l) : Needs p n₂ := by
  have : n₁ = n₂ := funext he
  exact this ▸ h

/-- Fixed-length code followed by fixed-length code. -/
theorem RNeeds.bindFixed {α β : Type} {x : R α} {f : α → R β} {k m : Nat}
    (hx : RNeeds x (fun _ => k)) (hf : ∀ a, RNeeds (f a) (fun _ => m)) :
    RNeeds (x >>= f) (fun _ => k + m) := RNeeds.bind hx hf

/-- Code whose value, determined by its octets, decides what follows. -/
theorem RNeeds.bindDep {α β : Type} {x : R α} {f : α → R β} {k : Nat}
    {E : α → List UInt8 → Prop} {need : List UInt8 → List UInt8 → Nat}
    (hx : RNeeds x (fun _ => k)) (hE : RDec x E)
    (hf : ∀ a l, E a l → RNeeds (f a) (need l)) :
    RNeeds (x >>= f) (fun rest => k + need (rest.take k) (rest.drop k)) := by
  intro pre rest
  show (k + need (rest.take k) (rest.drop k) ≤ rest.length → ∃ b, (x >>= f) (pre ++ rest) pre.length
      = .ok (b, pre.length + (k + need (rest.take k) (rest.drop k)))) ∧
    (rest.length < k + need (rest.take k) (rest.drop k) →
      (x >>= f) (pre ++ rest) pre.length = .err .incomplete)
  rw [R.bind_apply]
  have hx' : (k ≤ rest.length → ∃ a, x (pre ++ rest) pre.length = .ok (a, pre.length + k)) ∧
    (rest.length < k → x (pre ++ rest) pre.length = .err .incomplete) := hx pre rest
  by_cases hk : k ≤ rest.length
  · obtain ⟨a, ha⟩ := hx'.1 hk
    obtain ⟨l, s, rfl, hEl, hl⟩ := (hE _ _ _ _).1 ha
    have hl : k = l.length := by omega
    subst hl
    have e1 : pre ++ (l ++ s) = pre ++ l ++ s := by simp
    have e2 : pre.length + l.length = (pre ++ l).length := by simp
    have e3 : (l ++ s).drop l.length = s := by simp
    have e4 : (l ++ s).take l.length = l := by simp
    rw [e3, e4]
    simp only [ha]
    rw [e1, e2]
    constructor
    · intro hle
      obtain ⟨b, hb⟩ := (hf a l hEl (pre ++ l) s).1 (by simp at hle; omega)
      exact ⟨b, by rw [hb]; simp; omega⟩
    · intro hle
      exact (hf a l hEl (pre ++ l) s).2 (by simp at hle; omega)
  · constructor
    · intro hl; omega
    · intro _
      rw [hx'.2 (by omega)]

end Verif
