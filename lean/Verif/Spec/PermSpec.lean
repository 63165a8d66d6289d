import Verif.Spec.TrialSpec

/-!
# Specification: chances over permutations

The cipher is drawn uniformly among the functions that are, under every key, a permutation of the blocks, as block
ciphers are.
-/

namespace Verif.Spec

/-- Under every key, a permutation of the blocks. -/
def Permutes {κ : Type} (e : BlockCipher κ) : Prop := ∀ k, Function.Bijective (e k)

/-- The property has, among permutations, a chance of at most `num / den`. -/
def PermChanceAtMost {κ : Type} (P : BlockCipher κ → Prop) (num den : Nat) : Prop :=
  howMany (fun e => Permutes e ∧ P e) * den ≤ num * howMany (Permutes (κ := κ))

/-- The chances of the two properties differ, among permutations, by at most `num / den`. -/
def PermApartAtMost {κ : Type} (P Q : BlockCipher κ → Prop) (num den : Nat) : Prop :=
  howMany (fun e => Permutes e ∧ P e) * den ≤ howMany (fun e => Permutes e ∧ Q e) * den + num * howMany (Permutes (κ := κ)) ∧
  howMany (fun e => Permutes e ∧ Q e) * den ≤ howMany (fun e => Permutes e ∧ P e) * den + num * howMany (Permutes (κ := κ))

end Verif.Spec
