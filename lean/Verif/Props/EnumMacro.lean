import Verif.Props.Enums

/-!
# C69: the exported enum macro, for every table
-/

namespace Verif
open Spec

section

variable {τ ν : Type} [DecidableEq τ] [DecidableEq ν]

theorem enumInto_eq {table : List (τ × ν)} (ht : (table.map Prod.fst).Nodup) (x : τ) (v : ν) :
    enumInto table x = some v ↔ (x, v) ∈ table := by
  induction table with
  | nil => simp [enumInto]
  | cons p rest ih =>
    rcases p with ⟨y, w⟩
    simp only [List.map_cons, List.nodup_cons] at ht
    unfold enumInto
    by_cases h : x = y
    · subst h
      simp only [if_true, Option.some.injEq, List.mem_cons, Prod.mk.injEq, true_and]
      refine ⟨fun h => .inl h.symm, fun h => ?_⟩
      rcases h with h | h
      · exact h.symm
      · exact absurd (List.mem_map.2 ⟨(x, v), h, rfl⟩) ht.1
    · rw [if_neg h, ih ht.2]
      simp [h]

omit [DecidableEq τ] in
theorem enumOptionalFrom_eq_none (table : List (τ × ν)) (v : ν) :
    enumOptionalFrom table v = none ↔ v ∉ table.map Prod.snd := by
  induction table with
  | nil => simp [enumOptionalFrom]
  | cons p rest ih =>
    rcases p with ⟨y, w⟩
    unfold enumOptionalFrom
    by_cases h : v = w
    · simp [h]
    · rw [if_neg h, ih]; simp [h]

omit [DecidableEq τ] in
/-- The variant an integer converts to is the first one listed with it. -/
theorem enumOptionalFrom_first (table : List (τ × ν)) (v : ν) (x : τ) :
    enumOptionalFrom table v = some x ↔
      ∃ before after, table = before ++ (x, v) :: after ∧ v ∉ before.map Prod.snd := by
  induction table with
  | nil => simp [enumOptionalFrom]
  | cons p rest ih =>
    rcases p with ⟨y, w⟩
    unfold enumOptionalFrom
    by_cases h : v = w
    · subst h
      rw [if_pos rfl]
      constructor
      · intro h; cases h; exact ⟨[], rest, rfl, by simp⟩
      · rintro ⟨before, after, h1, h2⟩
        cases before with
        | nil => cases h1; rfl
        | cons q before => cases h1; simp at h2
    · rw [if_neg h, ih]
      constructor
      · rintro ⟨before, after, rfl, h2⟩
        exact ⟨(y, w) :: before, after, rfl, by simpa [h] using h2⟩
      · rintro ⟨before, after, h1, h2⟩
        cases before with
        | nil => cases h1; exact absurd rfl h
        | cons q before =>
          cases h1
          exact ⟨before, after, rfl, fun hm => h2 (by simp only [List.map_cons]; exact List.mem_cons_of_mem _ hm)⟩

/-- **C69** For every table: each variant converts to the value listed beside it. -/
theorem C69_into (table : List (τ × ν)) (ht : EnumTable table) (x : τ) :
    ∃ v, enumInto table x = some v ∧ (x, v) ∈ table ∧ ∀ w, (x, w) ∈ table → w = v := by
  obtain ⟨⟨_, v⟩, hp, rfl⟩ := List.mem_map.1 (ht.all x)
  have hv := (enumInto_eq ht.once _ v).2 hp
  exact ⟨v, hv, hp, fun w hw => Option.some.inj (((enumInto_eq ht.once _ w).2 hw).symm.trans hv)⟩

/-- **C69** For every table: the checked conversion gives a variant only for a value of that variant,
and gives none exactly for values not listed; the unchecked one agrees with it and panics there — no
variant is a default. -/
theorem C69_from (table : List (τ × ν)) (ht : EnumTable table) (v : ν) :
    (∀ x, enumOptionalFrom table v = some x → enumInto table x = some v) ∧
    (enumOptionalFrom table v = none ↔ ∀ x, enumInto table x ≠ some v) ∧
    (∀ x, enumFrom table v = .ok x ↔ enumOptionalFrom table v = some x) ∧
    (enumFrom table v = .panic ↔ ∀ x, enumInto table x ≠ some v) := by
  have hnone : enumOptionalFrom table v = none ↔ ∀ x, enumInto table x ≠ some v := by
    rw [enumOptionalFrom_eq_none]
    constructor
    · intro h x hx
      exact h (List.mem_map.2 ⟨(x, v), (enumInto_eq ht.once x v).1 hx, rfl⟩)
    · intro h hm
      obtain ⟨⟨x, _⟩, hp, rfl⟩ := List.mem_map.1 hm
      exact h x ((enumInto_eq ht.once x _).2 hp)
  refine ⟨fun x hx => ?_, hnone, fun x => ?_, ?_⟩
  · obtain ⟨before, after, rfl, _⟩ := (enumOptionalFrom_first table v x).1 hx
    exact (enumInto_eq ht.once x v).2 (by simp)
  · unfold enumFrom
    cases enumOptionalFrom table v <;> simp
  · rw [← hnone]
    unfold enumFrom
    cases enumOptionalFrom table v <;> simp

/-- **C69** With distinct values every variant survives the round trip; a variant whose value an earlier
variant has too never comes out of a conversion. -/
theorem C69_round_trip (table : List (τ × ν)) (ht : EnumTable table) :
    ((table.map Prod.snd).Nodup → ∀ x v, enumInto table x = some v → enumOptionalFrom table v = some x) ∧
    (∀ before between after x y v, table = before ++ (x, v) :: between ++ (y, v) :: after →
      ∀ w, enumOptionalFrom table w ≠ some y) := by
  constructor
  · intro hn x v hx
    have hm := (enumInto_eq ht.once x v).1 hx
    obtain ⟨before, after, rfl⟩ := List.append_of_mem hm
    refine (enumOptionalFrom_first _ v x).2 ⟨before, after, rfl, ?_⟩
    rw [List.map_append, List.nodup_append] at hn
    intro hb
    exact hn.2.2 v hb v (by simp) rfl
  · intro before between after x y v he w hw
    have hy := (C69_from table ht w).1 y hw
    have hyv : enumInto table y = some v := (enumInto_eq ht.once y v).2 (by rw [he]; simp)
    have hwv : v = w := Option.some.inj (hyv.symm.trans hy)
    subst hwv
    obtain ⟨b', a', he', hb'⟩ := (enumOptionalFrom_first table v y).1 hw
    have hne : x ≠ y := by
      intro hxy
      subst hxy
      have := ht.once
      rw [he] at this
      simp [List.nodup_append] at this
    have hone := ht.once
    rw [he'] at he hone
    rcases List.append_eq_append_iff.1 (he.trans (List.append_assoc _ _ _)) with ⟨c, hc1, hc2⟩ | ⟨c, hc1, hc2⟩
    · -- (y, v) stands at or before (x, v)
      cases c with
      | nil =>
        simp only [List.append_nil, List.nil_append] at hc1 hc2
        simp only [List.cons_append, List.cons.injEq, Prod.mk.injEq, and_true] at hc2
        exact hne hc2.1.symm
      | cons q c =>
        simp only [List.cons_append, List.cons.injEq] at hc2
        obtain ⟨rfl, hc2⟩ := hc2
        rw [hc2] at hone
        simp [List.nodup_append] at hone
    · cases c with
      | nil =>
        simp only [List.nil_append, List.cons_append, List.cons.injEq, Prod.mk.injEq, and_true] at hc2
        exact hne hc2.1
      | cons q c =>
        simp only [List.cons_append, List.cons.injEq] at hc2
        obtain ⟨rfl, -⟩ := hc2
        exact hb' (by rw [hc1]; simp)

/-- **C69** An integer compares equal to a variant exactly when the variant converts to it, and unequal
otherwise. -/
theorem C69_compare (table : List (τ × ν)) (ht : EnumTable table) (v : ν) (x : τ) :
    (enumEq table v x = some true ↔ enumInto table x = some v) ∧
    (enumNe table v x = some true ↔ enumInto table x ≠ some v) ∧
    (∃ b, enumEq table v x = some b ∧ enumNe table v x = some (!b)) := by
  have key : ∀ t : List (τ × ν), x ∈ t.map Prod.fst →
      ∃ w, enumInto t x = some w ∧ enumEq t v x = some (v == w) ∧ enumNe t v x = some (v != w) := by
    intro t hx
    induction t with
    | nil => simp at hx
    | cons p rest ih =>
      rcases p with ⟨y, w⟩
      unfold enumInto enumEq enumNe
      by_cases h : x = y
      · exact ⟨w, by simp [h]⟩
      · simp only [if_neg h]
        exact ih (by simpa [h] using hx)
  obtain ⟨w, h1, h2, h3⟩ := key table (ht.all x)
  rw [h1, h2, h3]
  refine ⟨?_, ?_, v == w, rfl, rfl⟩
  · simp only [Option.some.injEq, beq_iff_eq]; exact eq_comm
  · simp only [Option.some.injEq, bne_iff_ne, ne_eq]; exact not_congr eq_comm

end

/-- **C69** The three enumerations of the crate are uses of the macro, with distinct values. -/
theorem C69_uses :
    (EnumTable CommandId.table ∧ (CommandId.table.map Prod.snd).Nodup ∧
      ∀ x, enumInto CommandId.table x = some x.toU8) ∧
    (EnumTable AssociationStatus.table ∧ (AssociationStatus.table.map Prod.snd).Nodup ∧
      ∀ x, enumInto AssociationStatus.table x = some x.toU8) ∧
    (EnumTable DisassociationReason.table ∧ (DisassociationReason.table.map Prod.snd).Nodup ∧
      ∀ x, enumInto DisassociationReason.table x = some x.toU8) :=
  ⟨⟨⟨by decide, by intro x; cases x <;> decide⟩, by decide, by intro x; cases x <;> decide⟩,
    ⟨⟨by decide, by intro x; cases x <;> decide⟩, by decide, by intro x; cases x <;> decide⟩,
    ⟨⟨by decide, by intro x; cases x <;> decide⟩, by decide, by intro x; cases x <;> decide⟩⟩

/-- Witness for C69 beyond the crate's own tables: two variants with one value.  The second never comes
out of a conversion; a value not listed panics. -/
example : EnumTable [(true, 7), (false, 7)] ∧ enumOptionalFrom [(true, 7), (false, 7)] 7 = some true ∧
    enumInto [(true, 7), (false, 7)] false = some 7 ∧ enumEq [(true, 7), (false, 7)] 7 false = some true ∧
    enumFrom [(true, 7), (false, 7)] 0 = .panic :=
  ⟨⟨by decide, by intro x; cases x <;> decide⟩, by decide, by decide, by decide, by decide⟩

end Verif
