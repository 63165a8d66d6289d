import Verif.Lemmas.HeaderProps

/-!
# Lemmas: readers whose outcome also depends on what follows

`DecodesS r E` is `Decodes` with a relation that also sees the rest of the slice.
-/

namespace Verif

/-- Exact description of the successes of a reader. -/
def DecodesS {α : Type} (r : TryRead α) (E : α → List UInt8 → List UInt8 → Prop) : Prop :=
  ∀ bytes a n, r bytes = .ok (a, n) ↔ ∃ l s, bytes = l ++ s ∧ E a l s ∧ n = l.length

/-- The same for a block of code. -/
def RDecS {α : Type} (p : R α) (E : α → List UInt8 → List UInt8 → Prop) : Prop :=
  ∀ pre rest a off, p (pre ++ rest) pre.length = .ok (a, off) ↔
    ∃ l s, rest = l ++ s ∧ E a l s ∧ off = pre.length + l.length

theorem RDec.toS {α : Type} {p : R α} {E : α → List UInt8 → Prop} (h : RDec p E) :
    RDecS p (fun a l _ => E a l) := h

theorem Decodes.toS {α : Type} {p : TryRead α} {E : α → List UInt8 → Prop} (h : Decodes p E) :
    DecodesS p (fun a l _ => E a l) := h

theorem DecodesS.of {α : Type} {p : TryRead α} {E : α → List UInt8 → Prop}
    (h : DecodesS p (fun a l _ => E a l)) : Decodes p E := h

theorem RDecS.bind {α β : Type} {x : R α} {f : α → R β} {E₁ : α → List UInt8 → List UInt8 → Prop}
    {E₂ : α → β → List UInt8 → List UInt8 → Prop} (hx : RDecS x E₁) (hf : ∀ a, RDecS (f a) (E₂ a)) :
    RDecS (x >>= f) (fun b l s => ∃ a l₁ l₂, l = l₁ ++ l₂ ∧ E₁ a l₁ (l₂ ++ s) ∧ E₂ a b l₂ s) := by
  intro pre rest b off
  rw [R.bind_apply]
  constructor
  · intro h
    split at h
    · rename_i a off' hxe
      obtain ⟨l₁, s₁, hr, he, rfl⟩ := (hx _ _ _ _).1 hxe
      subst hr
      rw [← List.append_assoc, ← List.length_append] at h
      obtain ⟨l₂, s₂, hr₂, he₂, rfl⟩ := (hf a _ _ _ _).1 h
      subst hr₂
      exact ⟨l₁ ++ l₂, s₂, by simp, ⟨a, l₁, l₂, rfl, he, he₂⟩, by simp; omega⟩
    · cases h
    · cases h
  · rintro ⟨l, s, rfl, ⟨a, l₁, l₂, rfl, he, he₂⟩, rfl⟩
    have h1 : x (pre ++ (l₁ ++ l₂ ++ s)) pre.length = .ok (a, pre.length + l₁.length) :=
      (hx _ _ _ _).2 ⟨l₁, l₂ ++ s, by simp, he, rfl⟩
    simp only [h1]
    have h2 := (hf a (pre ++ l₁) (l₂ ++ s) b ((pre ++ l₁).length + l₂.length)).2
      ⟨l₂, s, rfl, he₂, rfl⟩
    have e1 : pre ++ (l₁ ++ l₂ ++ s) = pre ++ l₁ ++ (l₂ ++ s) := by simp
    have e2 : pre.length + l₁.length = (pre ++ l₁).length := by simp
    rw [e1, e2, h2]
    simp; omega

theorem RDecS.read {α : Type} {r : TryRead α} {E : α → List UInt8 → List UInt8 → Prop}
    (h : DecodesS r E) : RDecS (R.read r) E := by
  intro pre rest a off
  unfold R.read
  rw [if_neg (by simp)]
  have : (pre ++ rest).drop pre.length = rest := by simp
  rw [this]
  constructor
  · intro h'
    split at h'
    · rename_i b n hr
      simp only [Out.ok.injEq, Prod.mk.injEq] at h'
      obtain ⟨rfl, rfl⟩ := h'
      obtain ⟨l, s, hl, he, rfl⟩ := (h _ _ _).1 hr
      exact ⟨l, s, hl, he, rfl⟩
    · cases h'
    · cases h'
  · rintro ⟨l, s, hl, he, rfl⟩
    rw [(h rest a l.length).2 ⟨l, s, hl, he, rfl⟩]

theorem RDecS.readBind {α β : Type} {r : TryRead α} {enc : α → List UInt8} {f : α → R β}
    {E₂ : α → β → List UInt8 → List UInt8 → Prop} (h : Decodes r (fun v l => l = enc v))
    (hf : ∀ a, RDecS (f a) (E₂ a)) :
    RDecS (R.read r >>= f) (fun b l s => ∃ a l₂, l = enc a ++ l₂ ∧ E₂ a b l₂ s) := by
  have := RDecS.bind (RDecS.read h.toS) hf
  intro pre rest b off
  rw [this pre rest b off]
  constructor
  · rintro ⟨l, s, h0, ⟨a, l₁, l₂, h1, rfl, h3⟩, h4⟩; exact ⟨l, s, h0, ⟨a, l₂, h1, h3⟩, h4⟩
  · rintro ⟨l, s, h0, ⟨a, l₂, h1, h3⟩, h4⟩; exact ⟨l, s, h0, ⟨a, _, l₂, h1, rfl, h3⟩, h4⟩

theorem DecodesS.run {α : Type} {p : R α} {E : α → List UInt8 → List UInt8 → Prop}
    (h : RDecS p E) : DecodesS (R.run p) E := by
  intro bytes a n
  have := h [] bytes a n
  simpa [R.run] using this

theorem RDecS.congr {α : Type} {p : R α} {E E' : α → List UInt8 → List UInt8 → Prop}
    (h : RDecS p E) (he : ∀ a l s, E a l s ↔ E' a l s) : RDecS p E' := by
  have : E = E' := by funext a l s; exact propext (he a l s)
  exact this ▸ h

theorem DecodesS.congr {α : Type} {p : TryRead α} {E E' : α → List UInt8 → List UInt8 → Prop}
    (h : DecodesS p E) (he : ∀ a l s, E a l s ↔ E' a l s) : DecodesS p E' := by
  have : E = E' := by funext a l s; exact propext (he a l s)
  exact this ▸ h

/-- `check_len(&bytes[*offset..], k)?` followed by `f`. -/
theorem RDecS.checkHere {α : Type} (k : Nat) {f : R α} {E : α → List UInt8 → List UInt8 → Prop}
    (hf : RDecS f E) :
    RDecS (R.offset >>= fun off => R.checkLen off k >>= fun _ => f)
      (fun a l s => k ≤ (l ++ s).length ∧ E a l s) := by
  intro pre rest a off
  rw [R.bind_apply]
  simp only [R.offset]
  rw [R.bind_apply]
  have : (pre ++ rest).drop pre.length = rest := by simp
  unfold R.checkLen
  rw [this]
  constructor
  · intro h
    by_cases hk : rest.length < k
    · simp [hk] at h
    · simp only [hk, if_false] at h
      obtain ⟨l, s, hl, he, hn⟩ := (hf _ _ _ _).1 h
      subst hl
      exact ⟨l, s, rfl, ⟨by omega, he⟩, hn⟩
  · rintro ⟨l, s, hl, ⟨hk, he⟩, hn⟩
    subst hl
    rw [if_neg (by omega)]
    exact (hf _ _ _ _).2 ⟨l, s, rfl, he, hn⟩

/-- `check_len(bytes, k)?` at the start of a reader. -/
theorem DecodesS.checkStart {α : Type} (k : Nat) {f : R α}
    {E : α → List UInt8 → List UInt8 → Prop} (hf : RDecS f E) :
    DecodesS (R.run (R.checkLen 0 k >>= fun _ => f))
      (fun a l s => k ≤ (l ++ s).length ∧ E a l s) := by
  intro bytes a n
  have := RDecS.checkHere k hf [] bytes a n
  simpa [R.run, R.bind_apply, R.offset] using this

/-- `if bytes.len() > *offset` -/
theorem RDecS.more {α : Type} {f : Nat → Nat → R α}
    {E : Bool → α → List UInt8 → List UInt8 → Prop} {g : Bool → R α}
    (hfg : ∀ n o, f n o = g (decide (n > o))) (hf : ∀ b, RDecS (g b) (E b)) :
    RDecS (R.len >>= fun n => R.offset >>= fun off => f n off)
      (fun a l s => E (decide (l ++ s ≠ [])) a l s) := by
  intro pre rest a off
  rw [R.bind_apply]
  simp only [R.len]
  rw [R.bind_apply]
  simp only [R.offset]
  have hd : decide ((pre ++ rest).length > pre.length) = decide (rest ≠ []) := by
    cases rest <;> simp
  rw [hfg, hd]
  constructor
  · intro h
    obtain ⟨l, s, hl, he, hn⟩ := (hf _ _ _ _ _).1 h
    exact ⟨l, s, hl, hl ▸ he, hn⟩
  · rintro ⟨l, s, hl, he, hn⟩
    exact (hf _ _ _ _ _).2 ⟨l, s, hl, by rw [hl]; exact he, hn⟩

/-! ## Readers demanding more than they consume -/

/-- Success iff `req` octets are there, consuming `con`; otherwise `Incomplete`. -/
def NeedsL {α : Type} (r : TryRead α) (req con : List UInt8 → Nat) : Prop :=
  ∀ bytes, (req bytes ≤ bytes.length → ∃ a, r bytes = .ok (a, con bytes)) ∧
    (bytes.length < req bytes → r bytes = .err .incomplete)

/-- The same for a block of code. -/
def RNeedsL {α : Type} (p : R α) (req con : List UInt8 → Nat) : Prop :=
  ∀ pre rest, (req rest ≤ rest.length →
      ∃ a, p (pre ++ rest) pre.length = .ok (a, pre.length + con rest)) ∧
    (rest.length < req rest → p (pre ++ rest) pre.length = .err .incomplete)

theorem RNeeds.toL {α : Type} {p : R α} {need : List UInt8 → Nat} (h : RNeeds p need) :
    RNeedsL p need need := h

theorem RNeedsL.read {α : Type} {r : TryRead α} {req con : List UInt8 → Nat}
    (h : NeedsL r req con) : RNeedsL (R.read r) req con := by
  intro pre rest
  have : (pre ++ rest).drop pre.length = rest := by simp
  unfold R.read
  rw [if_neg (by simp), this]
  constructor
  · intro hl
    obtain ⟨a, ha⟩ := (h rest).1 hl
    exact ⟨a, by rw [ha]⟩
  · intro hl
    rw [(h rest).2 hl]

theorem NeedsL.run {α : Type} {p : R α} {req con : List UInt8 → Nat} (h : RNeedsL p req con) :
    NeedsL (R.run p) req con := by
  intro bytes
  have := h [] bytes
  simpa [R.run] using this

theorem RNeedsL.congr {α : Type} {p : R α} {r₁ r₂ c₁ c₂ : List UInt8 → Nat} (h : RNeedsL p r₁ c₁)
    (hr : ∀ l, r₁ l = r₂ l) (hc : ∀ l, c₁ l = c₂ l) : RNeedsL p r₂ c₂ := by
  have h1 : r₁ = r₂ := funext hr
  have h2 : c₁ = c₂ := funext hc
  exact h1 ▸ h2 ▸ h

/-- Sequencing. -/
theorem RNeedsL.bind {α β : Type} {x : R α} {f : α → R β} {req con req' con' : List UInt8 → Nat}
    (hx : RNeedsL x req con) (hle : ∀ l, con l ≤ req l) (hf : ∀ a, RNeedsL (f a) req' con') :
    RNeedsL (x >>= f) (fun rest => max (req rest) (con rest + req' (rest.drop (con rest))))
      (fun rest => con rest + con' (rest.drop (con rest))) := by
  intro pre rest
  show (max (req rest) (con rest + req' (rest.drop (con rest))) ≤ rest.length →
      ∃ a, (x >>= f) (pre ++ rest) pre.length
        = .ok (a, pre.length + (con rest + con' (rest.drop (con rest))))) ∧
    (rest.length < max (req rest) (con rest + req' (rest.drop (con rest))) →
      (x >>= f) (pre ++ rest) pre.length = .err .incomplete)
  rw [R.bind_apply]
  have hc := hle rest
  by_cases hk : req rest ≤ rest.length
  · obtain ⟨a, ha⟩ := (hx pre rest).1 hk
    obtain ⟨p, s, hr, hp⟩ := split_at rest (con rest) (by omega)
    have e3 : rest.drop (con rest) = s := by rw [← hp]; subst hr; simp
    have e1 : pre ++ rest = pre ++ p ++ s := by subst hr; simp
    have e2 : pre.length + con rest = (pre ++ p).length := by simp [hp]
    have e4 : rest.length = p.length + s.length := by rw [hr]; simp
    rw [e3]
    simp only [ha]
    rw [e1, e2]
    constructor
    · intro hl
      obtain ⟨b, hb⟩ := (hf a (pre ++ p) s).1 (by omega)
      exact ⟨b, by rw [hb]; simp; omega⟩
    · intro hl
      exact (hf a (pre ++ p) s).2 (by omega)
  · constructor
    · intro hl; omega
    · intro _
      rw [(hx pre rest).2 (by omega)]

theorem RNeedsL.pure {α : Type} (a : α) : RNeedsL (pure a : R α) (fun _ => 0) (fun _ => 0) :=
  RNeeds.pure a

/-- `check_len(&bytes[*offset..], k)?` followed by `f`. -/
theorem RNeedsL.checkHere {α : Type} (k : Nat) {f : R α} {req con : List UInt8 → Nat}
    (hf : RNeedsL f req con) :
    RNeedsL (R.offset >>= fun off => R.checkLen off k >>= fun _ => f)
      (fun l => max k (req l)) con := by
  intro pre rest
  rw [R.bind_apply]
  simp only [R.offset]
  rw [R.bind_apply]
  have : (pre ++ rest).drop pre.length = rest := by simp
  unfold R.checkLen
  rw [this]
  by_cases hk : rest.length < k
  · simp only [hk, if_true]
    exact ⟨fun h => by omega, fun _ => trivial⟩
  · simp only [hk, if_false]
    exact ⟨fun h => (hf pre rest).1 (by omega), fun h => (hf pre rest).2 (by omega)⟩

end Verif
