import Verif.Props.Counting

/-!
# Collisions while chaining blocks

Chains are written with the last block first.
-/

namespace Verif

open Spec Rfc3610

/-- The value after chaining the blocks. -/
def chainVal (E : Block → Block) : List Block → Block
  | [] => Vector.replicate 16 0
  | b :: r => E (Rfc3610.xor (chainVal E r) b)

/-- The last block the cipher is given. -/
def chainInp (E : Block → Block) : List Block → Block
  | [] => Vector.replicate 16 0
  | b :: r => Rfc3610.xor (chainVal E r) b

theorem chainVal_cons (E : Block → Block) (r : List Block) (h : r ≠ []) : chainVal E r = E (chainInp E r) := by
  cases r with
  | nil => exact absurd rfl h
  | cons b r => rfl

theorem xor_comm_block (x y : Block) : Rfc3610.xor x y = Rfc3610.xor y x := by
  ext i h; simp [Rfc3610.xor, UInt8.xor_comm]

theorem xor_cancel_block (x y z : Block) (h : Rfc3610.xor x y = Rfc3610.xor x z) : y = z := by
  have := congrArg (fun w => Rfc3610.xor w x) h
  simp only [xor_comm_block x y, xor_comm_block x z, xor_xor_block] at this
  exact this

theorem chainInp_root (E : Block → Block) (b : Block) : chainInp E [b] = b := by
  show Rfc3610.xor (Vector.replicate 16 0) b = b
  rw [xor_comm_block, xor_zero_block]

/-- Away from the places met, the cipher's values do not matter. -/
theorem chainVal_replaced {κ : Type} (e : BlockCipher κ) (k k' : κ) (x y : Block) : ∀ (n : List Block),
    (∀ s, s ≠ [] → s <:+ n → k' = k → chainInp (e k') s ≠ x) →
    chainVal (replaced e k x y k') n = chainVal (e k') n := by
  intro n
  induction n with
  | nil => intro _; rfl
  | cons b r ih =>
    intro h
    have h1 := ih (fun s hs hsuf => h s hs (hsuf.trans (List.suffix_cons b r)))
    have h2 := h (b :: r) (by simp) (List.suffix_refl _)
    unfold chainVal
    rw [h1]
    exact replaced_off e k x y k' _ h2

theorem chainInp_replaced {κ : Type} (e : BlockCipher κ) (k k' : κ) (x y : Block) (n : List Block)
    (h : ∀ s, s ≠ [] → s <:+ n.tail → k' = k → chainInp (e k') s ≠ x) :
    chainInp (replaced e k x y k') n = chainInp (e k') n := by
  cases n with
  | nil => rfl
  | cons b r =>
    show Rfc3610.xor (chainVal (replaced e k x y k') r) b = Rfc3610.xor (chainVal (e k') r) b
    rw [chainVal_replaced e k k' x y r h]

/-- Chains and forbidden places that depend on the cipher at most through its values at the forbidden places. -/
structure Trie {κ : Type} (nodes : BlockCipher κ → List (κ × List Block)) (targets : BlockCipher κ → List (κ × Block)) :
    Prop where
  closed : ∀ e k b r, (k, b :: r) ∈ nodes e → r ≠ [] → (k, r) ∈ nodes e
  nonempty : ∀ e k, (k, []) ∉ nodes e
  roots : ∀ e k b, (k, [b]) ∈ nodes e → (k, b) ∉ targets e
  stable : ∀ e k x y, (k, x) ∉ targets e →
    nodes (replaced e k x y) = nodes e ∧ targets (replaced e k x y) = targets e

/-- A chain of at most `d` blocks leads to a forbidden place, or to where another such chain leads. -/
def Collides {κ : Type} (nodes : BlockCipher κ → List (κ × List Block)) (targets : BlockCipher κ → List (κ × Block))
    (e : BlockCipher κ) (d : Nat) : Prop :=
  ∃ k n, (k, n) ∈ nodes e ∧ 2 ≤ n.length ∧ n.length ≤ d ∧
    ((∃ n', (k, n') ∈ nodes e ∧ n'.length ≤ d ∧ n' ≠ n ∧ chainInp (e k) n' = chainInp (e k) n) ∨
      (k, chainInp (e k) n) ∈ targets e)

namespace Trie

variable {κ : Type} {nodes : BlockCipher κ → List (κ × List Block)} {targets : BlockCipher κ → List (κ × Block)}

theorem suffix_mem (h : Trie nodes targets) (e : BlockCipher κ) (k : κ) : ∀ (n s : List Block), (k, n) ∈ nodes e → s ≠ [] →
    s <:+ n → (k, s) ∈ nodes e := by
  intro n
  induction n with
  | nil => intro s hn hs hsuf; exact absurd (List.suffix_nil.1 hsuf) hs
  | cons b r ih =>
    intro s hn hs hsuf
    rcases List.suffix_cons_iff.1 hsuf with rfl | hsuf
    · exact hn
    · have hr : r ≠ [] := by rintro rfl; exact hs (List.suffix_nil.1 hsuf)
      exact ih s (h.closed e k b r hn hr) hs hsuf

/-- Up to a depth without collision, no two chains lead to the same place. -/
theorem distinct {e : BlockCipher κ} {d : Nat} (hc : ¬ Collides nodes targets e d) {k : κ} {n n' : List Block}
    (hn : (k, n) ∈ nodes e) (hn' : (k, n') ∈ nodes e) (h0 : n ≠ []) (h0' : n' ≠ []) (hd : n.length ≤ d) (hd' : n'.length ≤ d)
    (heq : chainInp (e k) n = chainInp (e k) n') : n = n' := by
  by_cases hne : n = n'
  · exact hne
  · exfalso
    by_cases h2 : 2 ≤ n.length
    · exact hc ⟨k, n, hn, h2, hd, .inl ⟨n', hn', hd', fun h => hne h.symm, heq.symm⟩⟩
    · by_cases h2' : 2 ≤ n'.length
      · exact hc ⟨k, n', hn', h2', hd', .inl ⟨n, hn, hd, hne, heq⟩⟩
      · obtain ⟨b, rfl⟩ : ∃ b, n = [b] := by
          rcases n with _ | ⟨b, _ | ⟨c, r⟩⟩
          · exact absurd rfl h0
          · exact ⟨b, rfl⟩
          · simp at h2
        obtain ⟨b', rfl⟩ : ∃ b, n' = [b] := by
          rcases n' with _ | ⟨b, _ | ⟨c, r⟩⟩
          · exact absurd rfl h0'
          · exact ⟨b, rfl⟩
          · simp at h2'
        rw [chainInp_root, chainInp_root] at heq
        exact hne (by rw [heq])

/-- Up to a depth without collision, no chain leads to a forbidden place. -/
theorem allowed (h : Trie nodes targets) {e : BlockCipher κ} {d : Nat} (hc : ¬ Collides nodes targets e d) {k : κ}
    {n : List Block} (hn : (k, n) ∈ nodes e) (hd : n.length ≤ d) : (k, chainInp (e k) n) ∉ targets e := by
  intro ht
  by_cases h2 : 2 ≤ n.length
  · exact hc ⟨k, n, hn, h2, hd, .inr ht⟩
  · rcases n with _ | ⟨b, _ | ⟨c, r⟩⟩
    · exact h.nonempty e k hn
    · rw [chainInp_root] at ht; exact h.roots e k b hn ht
    · simp at h2

/-- The place where to draw the cipher's value anew, and what the value has to be. -/
def spot (nodes : BlockCipher κ → List (κ × List Block)) (targets : BlockCipher κ → List (κ × Block)) (i j : Nat)
    (e : BlockCipher κ) : Option (κ × Block × List UInt8) :=
  match (nodes e)[i]? with
  | some (k, b :: r) =>
    if j < (nodes e).length then
      ((nodes e)[j]?).map fun n' => (k, chainInp (e k) r, (Rfc3610.xor (chainInp (e k) n'.2) b).toList)
    else
      ((targets e)[j - (nodes e).length]?).map fun v => (k, chainInp (e k) r, (Rfc3610.xor v.2 b).toList)
  | _ => none

/-- There is a first collision, at chains `i` and `j`. -/
def First (nodes : BlockCipher κ → List (κ × List Block)) (targets : BlockCipher κ → List (κ × Block)) (i j : Nat)
    (e : BlockCipher κ) : Prop :=
  ∃ k b r, (nodes e)[i]? = some (k, b :: r) ∧ r ≠ [] ∧ ¬ Collides nodes targets e r.length ∧
    ((j < (nodes e).length ∧ ∃ n', (nodes e)[j]? = some (k, n') ∧ n'.length ≤ r.length + 1 ∧ n' ≠ b :: r ∧
        chainInp (e k) n' = chainInp (e k) (b :: r)) ∨
      ¬ j < (nodes e).length ∧ (targets e)[j - (nodes e).length]? = some (k, chainInp (e k) (b :: r)))

theorem first_rare [Finite κ] (h : Trie nodes targets) (i j : Nat) :
    howMany (First nodes targets i j) * 2 ^ 128 ≤ howManyCiphers κ := by
  have := howMany_resample 16 (Nat.le_refl _) (First nodes targets i j) (spot nodes targets i j) (by
    rintro e ⟨k, b, r, hi, hr, hc, hor⟩
    have hmem : (k, b :: r) ∈ nodes e := List.mem_of_getElem? hi
    have hmr : (k, r) ∈ nodes e := h.closed e k b r hmem hr
    have hx := h.allowed hc hmr (Nat.le_refl _)
    have hin : ∀ y, chainInp (replaced e k (chainInp (e k) r) y k) r = chainInp (e k) r := by
      intro y
      apply chainInp_replaced
      intro s hs hsuf _ heq
      have hsr : s <:+ r := hsuf.trans (List.tail_suffix r)
      have := distinct hc (h.suffix_mem e k r s hmr hs hsr) hmr hs hr hsr.length_le (Nat.le_refl _) heq
      have hl := hsuf.length_le
      rw [this, List.length_tail] at hl
      have := List.length_pos_iff.2 hr
      omega
    have htake : (e k (chainInp (e k) r)).toList.take 16 = (chainVal (e k) r).toList := by
      rw [chainVal_cons _ r hr, List.take_of_length_le (by simp)]
    have hv : chainInp (e k) (b :: r) = Rfc3610.xor (chainVal (e k) r) b := rfl
    rcases hor with ⟨hj, n', hj', hl, hne, heq⟩ | ⟨hj, hj'⟩
    · refine ⟨k, chainInp (e k) r, (chainVal (e k) r).toList, htake, fun y => ?_⟩
      obtain ⟨s1, s2⟩ := h.stable e k (chainInp (e k) r) y hx
      unfold spot
      rw [s1, hi]
      simp only [if_pos hj, hj', Option.map_some, hin y]
      have hn' : (k, n') ∈ nodes e := List.mem_of_getElem? hj'
      have : chainInp (replaced e k (chainInp (e k) r) y k) n' = chainInp (e k) n' := by
        apply chainInp_replaced
        intro s hs hsuf _ heq'
        have hsl := hsuf.length_le
        rw [List.length_tail] at hsl
        have hsn : s <:+ n' := hsuf.trans (List.tail_suffix n')
        have hsr := distinct hc (h.suffix_mem e k n' s hn' hs hsn) hmr hs hr (by omega) (Nat.le_refl _) heq'
        subst hsr
        rcases n' with _ | ⟨b', r'⟩
        · exact h.nonempty e k hn'
        · simp only [List.tail_cons] at hsuf
          have hrr : s = r' := hsuf.eq_of_length (by
            have := hsuf.length_le
            simp only [List.length_cons] at hl
            omega)
          subst hrr
          have : b' = b := xor_cancel_block _ _ _ heq
          exact hne (by rw [this])
      rw [this, heq, hv, xor_xor_block]
    · refine ⟨k, chainInp (e k) r, (chainVal (e k) r).toList, htake, fun y => ?_⟩
      obtain ⟨s1, s2⟩ := h.stable e k (chainInp (e k) r) y hx
      unfold spot
      rw [s1, s2, hi]
      simp only [if_neg hj, hj', Option.map_some, hin y]
      rw [hv, xor_xor_block])
  have h2 : (256 : Nat) ^ 16 = 2 ^ 128 := by decide
  rwa [h2] at this

theorem has_first (L W : Nat) (hL : ∀ e, (nodes e).length ≤ L) (hW : ∀ e, (targets e).length ≤ W)
    (e : BlockCipher κ) : ∀ d, Collides nodes targets e d → ∃ i, i < L ∧ ∃ j, j < L + W ∧ First nodes targets i j e := by
  intro d
  induction d with
  | zero => rintro ⟨k, n, _, h1, h2, _⟩; omega
  | succ d ih =>
    intro hcol
    by_cases hc : Collides nodes targets e d
    · exact ih hc
    · have main : ∀ k n, (k, n) ∈ nodes e → 2 ≤ n.length → n.length = d + 1 →
          ((∃ n', (k, n') ∈ nodes e ∧ n'.length ≤ d + 1 ∧ n' ≠ n ∧ chainInp (e k) n' = chainInp (e k) n) ∨
            (k, chainInp (e k) n) ∈ targets e) → ∃ i, i < L ∧ ∃ j, j < L + W ∧ First nodes targets i j e := by
        intro k n hn h2 hd hor
        rcases n with _ | ⟨b, r⟩
        · simp at h2
        · simp only [List.length_cons] at h2 hd
          have hr : r ≠ [] := by rintro rfl; simp at h2
          have hrd : r.length = d := by omega
          have hLe := hL e
          have hWe := hW e
          obtain ⟨i, hi⟩ := List.getElem?_of_mem hn
          have hiL : i < (nodes e).length := (List.getElem?_eq_some_iff.1 hi).1
          rcases hor with ⟨n', hn', hl, hne, heq⟩ | ht
          · obtain ⟨j, hj⟩ := List.getElem?_of_mem hn'
            have hjL : j < (nodes e).length := (List.getElem?_eq_some_iff.1 hj).1
            exact ⟨i, by omega, j, by omega, k, b, r, hi, hr, by rw [hrd]; exact hc,
              .inl ⟨hjL, n', hj, by omega, hne, heq⟩⟩
          · obtain ⟨j, hj⟩ := List.getElem?_of_mem ht
            have hjL : j < (targets e).length := (List.getElem?_eq_some_iff.1 hj).1
            refine ⟨i, by omega, j + (nodes e).length, by omega, k, b, r, hi, hr, by rw [hrd]; exact hc,
              .inr ⟨by omega, ?_⟩⟩
            rw [Nat.add_sub_cancel]; exact hj
      obtain ⟨k, n, hn, h2, hd, hor⟩ := hcol
      by_cases hnd : n.length = d + 1
      · exact main k n hn h2 hnd hor
      · rcases hor with ⟨n', hn', hl, hne, heq⟩ | ht
        · by_cases hnd' : n'.length = d + 1
          · exact main k n' hn' (by omega) hnd' (.inl ⟨n, hn, hd, fun h => hne h.symm, heq.symm⟩)
          · exact absurd ⟨k, n, hn, h2, by omega, .inl ⟨n', hn', by omega, hne, heq⟩⟩ hc
        · exact absurd ⟨k, n, hn, h2, by omega, .inr ht⟩ hc

/-- Collisions are rare. -/
theorem collides_rare [Finite κ] (h : Trie nodes targets) (L W : Nat) (hL : ∀ e, (nodes e).length ≤ L)
    (hW : ∀ e, (targets e).length ≤ W) :
    ChanceAtMost (fun e => ∃ d, Collides nodes targets e d) (L * (L + W)) (2 ^ 128) := by
  have h1 : howMany (fun e => ∃ d, Collides nodes targets e d) ≤
      howMany (fun e => ∃ i, i < L ∧ ∃ j, j < L + W ∧ First nodes targets i j e) :=
    howMany_mono (fun e ⟨d, hd⟩ => has_first L W hL hW e d hd)
  have h2 : ∀ i j, howMany (First nodes targets i j) ≤ howManyCiphers κ / 2 ^ 128 := fun i j =>
    (Nat.le_div_iff_mul_le (by decide)).2 (h.first_rare i j)
  have h3 : ∀ i, i < L → howMany (fun e => ∃ j, j < L + W ∧ First nodes targets i j e) ≤
      (L + W) * (howManyCiphers κ / 2 ^ 128) := fun i _ => howMany_exists _ _ _ (fun j _ => h2 i j)
  have h4 := howMany_exists (fun i e => ∃ j, j < L + W ∧ First nodes targets i j e) _ L h3
  unfold ChanceAtMost
  calc _ ≤ L * ((L + W) * (howManyCiphers κ / 2 ^ 128)) * 2 ^ 128 := Nat.mul_le_mul_right _ (h1.trans h4)
    _ = L * (L + W) * (howManyCiphers κ / 2 ^ 128 * 2 ^ 128) := by simp only [Nat.mul_assoc]
    _ ≤ _ := Nat.mul_le_mul_left _ (Nat.div_mul_le_self _ _)

end Trie

end Verif
