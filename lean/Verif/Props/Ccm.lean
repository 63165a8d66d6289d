import Verif.Model.Ccm
import Verif.Spec.SecuritySpec

/-!
# Properties of CCM: C50

For every block cipher, CCM satisfies the laws the frame theorems assume of an AEAD.
-/

namespace Verif
open Spec

namespace Ccm

theorem xorBytes_length (a b : List UInt8) (h : a.length ≤ b.length) : (xorBytes a b).length = a.length := by
  simp [xorBytes, List.length_zipWith]; omega

theorem xorBytes_involutive (a b : List UInt8) (h : a.length ≤ b.length) :
    xorBytes (xorBytes a b) b = a := by
  induction a generalizing b with
  | nil => simp [xorBytes]
  | cons x xs ih =>
    cases b with
    | nil => simp at h
    | cons y ys =>
      have := ih ys (by simpa using h)
      simp only [xorBytes, List.zipWith_cons_cons] at this ⊢
      rw [this, UInt8.xor_assoc, UInt8.xor_self, UInt8.xor_zero]

theorem keystream_length (e : Vector UInt8 16 → Vector UInt8 16) (nonce : List UInt8) (i n : Nat) :
    (keystream e nonce i n).length = 16 * n := by
  unfold keystream
  induction n with
  | zero => rfl
  | succ n ih => rw [List.range_succ, List.flatMap_append, List.length_append, ih]; simp; omega

theorem ctr_length (e : Vector UInt8 16 → Vector UInt8 16) (nonce buf : List UInt8) :
    (ctr e nonce buf).length = buf.length := by
  unfold ctr
  apply xorBytes_length
  rw [keystream_length]; omega

theorem ctr_involutive (e : Vector UInt8 16 → Vector UInt8 16) (nonce buf : List UInt8) :
    ctr e nonce (ctr e nonce buf) = buf := by
  have h := ctr_length e nonce buf
  unfold ctr at h ⊢
  rw [h]
  apply xorBytes_involutive
  rw [keystream_length]; omega

theorem tag_length (e : Vector UInt8 16 → Vector UInt8 16) (t : Nat) (ht : t ≤ 16)
    (nonce aad msg : List UInt8) : (tag e t nonce aad msg).length = t := by
  unfold tag
  rw [List.length_take, xorBytes_length _ _ (by simp)]
  simp; omega

end Ccm

/-- **C50** Decryption of given octets succeeds for at most one tag. -/
theorem C50_ccm_tag_unique {κ : Type} (cipher : BlockCipher κ) (t : Nat)
    (k : κ) (nonce aad c tag tag' : List UInt8)
    (hd : ((Ccm.aead cipher).decrypt t k nonce aad c tag).1 = true)
    (hd' : ((Ccm.aead cipher).decrypt t k nonce aad c tag').1 = true) : tag = tag' := by
  simp only [Ccm.aead, Ccm.decrypt] at hd hd'
  split at hd
  · cases hd
  · rename_i hb
    rw [if_neg hb] at hd'
    split at hd
    · split at hd'
      · simp_all
      · cases hd'
    · cases hd

/-- **C50** CCM over any block cipher has the laws of an AEAD: lengths, no refusal up to 65535
octets, decryption undoes encryption, only what encryption produces decrypts, and for given octets
only one tag verifies. -/
theorem C50_ccm_laws {κ : Type} (cipher : BlockCipher κ) : AeadLaws (Ccm.aead cipher) := by
  refine ⟨⟨?_, ?_, ?_⟩, ?_, ?_, ?_, fun t k n a c tag tag' h h' =>
    C50_ccm_tag_unique cipher t k n a c tag tag' h h'⟩
  · intro t k n a b
    simp only [Ccm.aead, Ccm.encrypt]
    split
    · rfl
    · exact Ccm.ctr_length _ _ _
  · intro t k n a b tag ht h
    simp only [Ccm.aead, Ccm.encrypt] at h
    split at h
    · cases h
    · cases h
      exact Ccm.tag_length _ _ (by omega) _ _ _
  · intro t k n a b tag
    simp only [Ccm.aead, Ccm.decrypt]
    split
    · exact Ccm.ctr_length _ _ _
    · split
      · exact Ccm.ctr_length _ _ _
      · simp
  · intro t k n a b _ hb
    simp only [Ccm.aead, Ccm.encrypt]
    rw [if_neg (by unfold Ccm.maxLen; omega)]
    rfl
  · intro t k n a b tag c _ h
    simp only [Ccm.aead, Ccm.encrypt] at h
    split at h
    · cases h
    · rename_i hb
      simp only [Prod.mk.injEq, Option.some.injEq] at h
      obtain ⟨rfl, rfl⟩ := h
      simp only [Ccm.aead, Ccm.decrypt, Ccm.ctr_length, Ccm.ctr_involutive, if_neg hb, if_pos]
  · intro t k n a b tag c _ _ h
    simp only [Ccm.aead, Ccm.decrypt] at h
    split at h
    · cases h
    · rename_i hb
      split at h
      · rename_i htag
        simp only [Prod.mk.injEq, true_and] at h
        subst h
        simp only [Ccm.aead, Ccm.encrypt, Ccm.ctr_length, Ccm.ctr_involutive, if_neg hb]
        rw [htag]
      · cases h

/-- **C50** Spelled out: what was encrypted decrypts to itself, and the buffer keeps its length. -/
theorem C50_ccm_round_trip {κ : Type} (cipher : BlockCipher κ) (t : Nat) (ht : t = 4 ∨ t = 8 ∨ t = 16)
    (k : κ) (nonce aad plain : List UInt8) (hl : plain.length ≤ 65535) :
    ∃ tag c, (Ccm.aead cipher).encrypt t k nonce aad plain = (some tag, c) ∧ tag.length = t ∧
      c.length = plain.length ∧ (Ccm.aead cipher).decrypt t k nonce aad c tag = (true, plain) := by
  have hlaws := C50_ccm_laws cipher
  have h1 := hlaws.encrypts t k nonce aad plain ht hl
  rcases he : (Ccm.aead cipher).encrypt t k nonce aad plain with ⟨_ | tag, c⟩
  · rw [he] at h1; cases h1
  · refine ⟨tag, c, rfl, hlaws.tag_length t k nonce aad plain tag ht (by rw [he]), ?_,
      hlaws.decrypts t k nonce aad plain tag c ht he⟩
    have := hlaws.encrypt_length t k nonce aad plain
    rw [he] at this; exact this

example : ((Ccm.aead (fun (k : UInt8) b => b.map (· + k))).encrypt 4 7 [1, 2, 3] [] [10, 20, 30]).1.isSome
    = true ∧ (3 : Nat) ≤ 65535 := by decide +kernel

end Verif
