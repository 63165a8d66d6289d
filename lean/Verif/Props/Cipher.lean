import Verif.Props.Ccm
import Verif.Props.SecureRead

/-!
# Properties of the cipher in use: C58, C59
-/

namespace Verif
open Spec

/-! ## C58 The `Unimplemented` cipher -/

theorem secureFrame_mapKeys {κ : Type} (aead : Aead κ) (g : κ → κ)
    (he : ∀ t k n a b, aead.encrypt t (g k) n a b = aead.encrypt t k n a b)
    (f : Frame) (sc : SecCtx κ) (mode : FooterMode) (buf : List UInt8) :
    secureFrame aead f (sc.mapKeys g) mode buf =
      ((secureFrame aead f sc mode buf).1, (secureFrame aead f sc mode buf).2.1.mapKeys g,
        (secureFrame aead f sc mode buf).2.2) := by
  have hd : ∀ key nonce secL t mic encmic buffer offset,
      doSecure aead (g key) nonce secL t mic encmic buffer offset =
        doSecure aead key nonce secL t mic encmic buffer offset := by
    intros; unfold doSecure; simp only [he]
  cases mode with
  | explicit => rfl
  | none =>
    unfold secureFrame
    simp only
    split
    · split
      · rfl
      · cases haux : f.header.auxSec with
        | none => rfl
        | some aux =>
          simp only
          split
          · rfl
          · rcases W.write (tryWriteBytes f.payload) buf 0 with ⟨_ | _ | _, b, o⟩
            · simp only
              split
              · rfl
              · have h1 : (sc.mapKeys g).frameCounter = sc.frameCounter := rfl
                simp only [h1]
                split
                · rfl
                · have h2 : (sc.mapKeys g).keyProvider .dst aux.keyIdentifier f.header.destination =
                    (sc.keyProvider .dst aux.keyIdentifier f.header.destination).map fun r => (r.1, g r.2) := rfl
                  simp only [h2]
                  cases sc.keyProvider .dst aux.keyIdentifier f.header.destination with
                  | none => rfl
                  | some r =>
                    simp only [Option.map_some, hd]
                    cases aux.control.securityLevel <;> rfl
            · rfl
            · rfl
    · rfl

/-- **C58** A cipher that ignores the key lets the key make no difference to what is sent: exchanging
every key for another changes neither the result nor any octet. -/
theorem C58_keyless_write {κ : Type} (cfg : Cfg) (aead : Aead κ) (g : κ → κ)
    (he : ∀ t k n a b, aead.encrypt t (g k) n a b = aead.encrypt t k n a b)
    (f : Frame) (mode : FooterMode) (sc : SecCtx κ) (buf : List UInt8) :
    f.tryWrite cfg aead ⟨mode, some (sc.mapKeys g)⟩ buf =
      ((f.tryWrite cfg aead ⟨mode, some sc⟩ buf).1, (f.tryWrite cfg aead ⟨mode, some sc⟩ buf).2.1,
        ⟨mode, (f.tryWrite cfg aead ⟨mode, some sc⟩ buf).2.2.securityCtx.map (·.mapKeys g)⟩) := by
  have hhead : f.writeHead cfg (some (sc.mapKeys g)) = f.writeHead cfg (some sc) := rfl
  unfold Frame.tryWrite
  simp only [hhead]
  rcases hw : f.writeHead cfg (some sc) buf 0 with ⟨_ | _ | _, b, o⟩
  · simp only [secureFrame_mapKeys aead g he]
    rcases secureFrame aead f sc mode (b.drop o) with ⟨r, sc', sub⟩
    rcases r with len | e | _
    · simp only
      rcases f.writeTail mode true (b.take o ++ sub) (o + len) with ⟨_ | _ | _, _, _⟩ <;> rfl
    · cases e <;> try rfl
      simp only
      rcases f.writeTail mode false (b.take o ++ sub) o with ⟨_ | _ | _, _, _⟩ <;> rfl
    · rfl
  · rfl
  · rfl

theorem unsecureFrame_mapKeys {κ σ : Type} (cfg : Cfg) (aead : Aead κ) (g : κ → κ)
    (he : ∀ t k n a b tag, aead.decrypt t (g k) n a b tag = aead.decrypt t k n a b tag)
    (h : Header) (buf : List UInt8) (sc : SecCtx κ) (mode : FooterMode) (lookup : DevLookup σ) (dev : σ) :
    unsecureFrame cfg aead h buf (sc.mapKeys g) mode lookup dev =
      ((unsecureFrame cfg aead h buf sc mode lookup dev).1,
        (unsecureFrame cfg aead h buf sc mode lookup dev).2.1,
        (unsecureFrame cfg aead h buf sc mode lookup dev).2.2.1.mapKeys g,
        (unsecureFrame cfg aead h buf sc mode lookup dev).2.2.2) := by
  have hd : ∀ key nonce fc secL t mic encmic buffer,
      doUnsecure cfg aead (g key) nonce fc secL t mic encmic buffer =
        doUnsecure cfg aead key nonce fc secL t mic encmic buffer := by
    intros; unfold doUnsecure; simp only [he]
  cases mode with
  | explicit => rfl
  | none =>
    unfold unsecureFrame
    simp only
    split
    · split
      · rfl
      · split
        · rfl
        · cases haux : h.auxSec with
          | none => rfl
          | some aux =>
            simp only
            split
            · rfl
            · have h2 : (sc.mapKeys g).keyProvider .src aux.keyIdentifier h.source =
                (sc.keyProvider .src aux.keyIdentifier h.source).map fun r => (r.1, g r.2) := rfl
              simp only [h2]
              cases sc.keyProvider .src aux.keyIdentifier h.source with
              | none => rfl
              | some r =>
                simp only [Option.map_some, hd]
                cases h.source with
                | none => rfl
                | some src =>
                  simp only
                  rcases lookup dev .src src with ⟨dev', _ | ⟨d, store⟩⟩
                  · rfl
                  · simp only
                    split
                    · rfl
                    · cases aux.control.securityLevel <;> (try rfl) <;> simp only <;>
                        (generalize doUnsecure _ _ _ _ _ _ _ _ _ _ = z; rcases z with ⟨_ | _ | _, _⟩ <;> rfl)
    · rfl

/-- **C58** Nor to what is received. -/
theorem C58_keyless_read {κ σ : Type} (cfg : Cfg) (aead : Aead κ) (g : κ → κ)
    (he : ∀ t k n a b tag, aead.decrypt t (g k) n a b tag = aead.decrypt t k n a b tag)
    (buf : List UInt8) (mode : FooterMode) (sc : SecCtx κ) (lookup : DevLookup σ) (dev : σ) :
    Frame.tryReadAndUnsecure cfg aead buf ⟨mode, some (sc.mapKeys g)⟩ lookup dev =
      ((Frame.tryReadAndUnsecure cfg aead buf ⟨mode, some sc⟩ lookup dev).1,
        (Frame.tryReadAndUnsecure cfg aead buf ⟨mode, some sc⟩ lookup dev).2.1,
        ⟨mode, (Frame.tryReadAndUnsecure cfg aead buf ⟨mode, some sc⟩ lookup dev).2.2.1.securityCtx.map
          (·.mapKeys g)⟩,
        (Frame.tryReadAndUnsecure cfg aead buf ⟨mode, some sc⟩ lookup dev).2.2.2) := by
  unfold Frame.tryReadAndUnsecure
  rcases Frame.readHead cfg buf 0 with ⟨⟨h, c⟩, o⟩ | _ | _
  · simp only
    split
    · simp only [unsecureFrame_mapKeys cfg aead g he]
      rcases unsecureFrame cfg aead h (buf.drop o) sc mode lookup dev with ⟨r, sub, sc', dev'⟩
      rcases r with len | e | _
      · rfl
      · cases e <;> rfl
      · rfl
    · rfl
  · rfl
  · rfl

/-- **C58** `Unimplemented` as a block cipher is such a cipher, and raises no error: a context with it
and a working key lookup sends and accepts "secured" frames that do not depend on any key, so anyone
can read and forge them. -/
theorem C58_unimplemented_cipher {κ σ : Type} (cfg : Cfg) (g : κ → κ) (f : Frame) (mode : FooterMode)
    (sc : SecCtx κ) (buf : List UInt8) (lookup : DevLookup σ) (dev : σ) :
    let aead : Aead κ := Ccm.aead unimplementedCipher
    (f.tryWrite cfg aead ⟨mode, some (sc.mapKeys g)⟩ buf).1 = (f.tryWrite cfg aead ⟨mode, some sc⟩ buf).1 ∧
    (f.tryWrite cfg aead ⟨mode, some (sc.mapKeys g)⟩ buf).2.1 = (f.tryWrite cfg aead ⟨mode, some sc⟩ buf).2.1 ∧
    (Frame.tryReadAndUnsecure cfg aead buf ⟨mode, some (sc.mapKeys g)⟩ lookup dev).1 =
      (Frame.tryReadAndUnsecure cfg aead buf ⟨mode, some sc⟩ lookup dev).1 ∧
    (Frame.tryReadAndUnsecure cfg aead buf ⟨mode, some (sc.mapKeys g)⟩ lookup dev).2.2.2 =
      (Frame.tryReadAndUnsecure cfg aead buf ⟨mode, some sc⟩ lookup dev).2.2.2 := by
  intro aead
  have h1 := C58_keyless_write cfg aead g (fun _ _ _ _ _ => rfl) f mode sc buf
  have h2 := C58_keyless_read cfg aead g (fun _ _ _ _ _ _ => rfl) buf mode sc lookup dev
  rw [h1, h2]
  exact ⟨rfl, rfl, rfl, rfl⟩

/-- **C58** So whoever receives such a frame needs only a lookup that answers: a frame written with one
key is accepted with any other. -/
theorem C58_any_key_reads {κ σ : Type} (cfg rcfg : Cfg) (hle : cfg.native = .little)
    (hrle : rcfg.native = .little) (f : Frame) (aux : AuxHeader)
    (hf : SecuredData f aux) (hc : f.content = .data) (hl : Authenticating aux.control.securityLevel)
    (hv : f.header.version ≠ .ieee802154_2003) (sc : SecCtx κ) (buf buf' : List UInt8) (n : Nat)
    (ctx' : SerDesCtx κ)
    (hw : f.tryWrite cfg (Ccm.aead unimplementedCipher) ⟨.none, some sc⟩ buf = (.ok n, buf', ctx'))
    (rc : SecCtx κ) (lookup : DevLookup σ) (dev looked : σ) (src : Address) (d : DeviceDescriptor)
    (store : DeviceDescriptor → σ) (hsrc : sourceAsRead f.header = some src) (other : κ)
    (hrkey : rc.keyProvider .src aux.keyIdentifier (some src) = some (sc.euid, other))
    (hdev : lookup dev .src src = (looked, some (d, store))) (hfresh : d.frameCounter ≤ sc.frameCounter) :
    ∃ k, (Frame.tryReadAndUnsecure rcfg (Ccm.aead unimplementedCipher) (buf'.take n) ⟨.none, some rc⟩
      lookup dev).1 = .ok (⟨headerAsRead cfg sc.frameCounter f.header, .data, f.payload, (0, 0)⟩, k) := by
  have hlaws := C50_ccm_laws (unimplementedCipher : BlockCipher κ)
  obtain ⟨_, _, eui, key, _, _, hk, _⟩ :=
    (C40_secured_write_iff cfg _ hlaws.toAeadTyped f aux hf hl sc buf buf' n ctx').1 hw
  let g : κ → κ := fun _ => key
  obtain ⟨k, out, h, _⟩ := C34_secured_round_trip cfg rcfg hle hrle _ hlaws f aux hf hc hl hv sc buf buf' n ctx' hw
    key eui hk (rc.mapKeys g) lookup dev looked src d store hsrc
    (by show Option.map _ (rc.keyProvider .src aux.keyIdentifier (some src)) = _
        rw [hrkey]; rfl) hdev hfresh
  refine ⟨k, ?_⟩
  have := (C58_unimplemented_cipher rcfg g f .none rc (buf'.take n) lookup dev).2.2.1
  rw [← this, h]

/-- Witness: the sample frame under key 5 with the `Unimplemented` cipher is read under key 77. -/
example : (Frame.tryReadAndUnsecure sampleCfg (Ccm.aead unimplementedCipher)
    ((sampleSecured.tryWrite sampleCfg (Ccm.aead unimplementedCipher) ⟨.none, some sampleSender⟩
      (List.replicate 40 0)).2.1.take 31)
    ⟨.none, some (sampleReceiver.mapKeys fun _ => 77)⟩ sampleLookup ⟨3, false⟩).1.holds
      (fun r => r.1.payload = sampleSecured.payload) := by decide +kernel

/-! ## C59 Blocks fed to the cipher -/

namespace Ccm

theorem block_toList (l : List UInt8) (h : l.length = 16) : (block l).toList = l := by
  apply List.ext_getElem
  · simp [h]
  · intro i h1 h2
    simp only [block, Vector.getElem_toList, Vector.getElem_ofFn]
    rw [List.getD_eq_getElem?_getD, List.getElem?_eq_getElem h2]
    rfl

theorem block_inj (l l' : List UInt8) (h : l.length = 16) (h' : l'.length = 16)
    (heq : block l = block l') : l = l' := by
  rw [← block_toList l h, ← block_toList l' h', heq]

theorem be_length (k n : Nat) : (be k n).length = k := by simp [be]

theorem be_inj {k a b : Nat} (ha : a < 256 ^ k) (hb : b < 256 ^ k) (h : be k a = be k b) : a = b := by
  unfold be at h
  rw [natToLE_eq_le, natToLE_eq_le, List.reverse_inj] at h
  exact le_inj ha hb h

theorem ctrBlock_shape (n : List UInt8) (hn : n.length = 13) (i : Nat) :
    ([1] ++ n.take 13 ++ be 2 i).length = 16 := by
  simp [be_length, hn]

end Ccm

/-- **C59** Keystream blocks of CCM are made from different cipher inputs, for different nonces or
different positions, and never from the input that starts the authentication of a message. -/
theorem C59_keystream_inputs (n n' : List UInt8) (hn : n.length = 13) (hn' : n'.length = 13)
    (i j : Nat) (hi : i ≤ 65535) (hj : j ≤ 65535) :
    (Ccm.ctrBlock n i = Ccm.ctrBlock n' j ↔ n = n' ∧ i = j) ∧
    ∀ t aad msg, t = 4 ∨ t = 8 ∨ t = 16 → Ccm.b0 t n aad msg ≠ Ccm.ctrBlock n' j := by
  constructor
  · constructor
    · intro h
      have h := Ccm.block_inj _ _ (Ccm.ctrBlock_shape n hn i) (Ccm.ctrBlock_shape n' hn' j) h
      rw [List.take_of_length_le (by omega), List.take_of_length_le (by omega)] at h
      simp only [List.cons_append, List.nil_append, List.cons.injEq, true_and] at h
      obtain ⟨h1, h2⟩ := List.append_inj h (by omega)
      exact ⟨h1, Ccm.be_inj (by omega) (by omega) h2⟩
    · rintro ⟨rfl, rfl⟩; rfl
  · intro t aad msg ht h
    unfold Ccm.b0 Ccm.ctrBlock at h
    have h := Ccm.block_inj _ _ (by simp [Ccm.be_length, hn]) (Ccm.ctrBlock_shape n' hn' j) h
    simp only [List.cons_append, List.nil_append, List.cons.injEq] at h
    have h1 := congrArg UInt8.toNat h.1
    revert h1
    rcases ht with rfl | rfl | rfl <;> split <;> decide

/-- **C59** The inputs that start the authentication differ too, for different nonces, tag lengths or
message lengths. -/
theorem C59_first_inputs (n n' : List UInt8) (hn : n.length = 13) (hn' : n'.length = 13) (t t' : Nat)
    (ht : t = 4 ∨ t = 8 ∨ t = 16) (ht' : t' = 4 ∨ t' = 8 ∨ t' = 16) (aad aad' msg msg' : List UInt8)
    (hm : msg.length ≤ 65535) (hm' : msg'.length ≤ 65535) :
    Ccm.b0 t n aad msg = Ccm.b0 t' n' aad' msg' ↔
      n = n' ∧ t = t' ∧ (aad = [] ↔ aad' = []) ∧ msg.length = msg'.length := by
  unfold Ccm.b0
  constructor
  · intro h
    have h := Ccm.block_inj _ _ (by simp [Ccm.be_length, hn]) (by simp [Ccm.be_length, hn']) h
    rw [List.take_of_length_le (by omega), List.take_of_length_le (by omega)] at h
    simp only [List.cons_append, List.nil_append, List.cons.injEq] at h
    obtain ⟨h1, h2⟩ := h
    obtain ⟨h2, h3⟩ := List.append_inj h2 (by omega)
    have h4 := Ccm.be_inj (by omega) (by omega) h3
    have h1 := congrArg UInt8.toNat h1
    have : t = t' ∧ (aad = [] ↔ aad' = []) := by
      cases aad <;> cases aad' <;> rcases ht with rfl | rfl | rfl <;> rcases ht' with rfl | rfl | rfl <;>
        revert h1 <;> simp
    exact ⟨h2, this.1, this.2, h4⟩
  · rintro ⟨rfl, rfl, h, h4⟩
    have : aad.isEmpty = aad'.isEmpty := by
      cases aad <;> cases aad' <;> simp_all
    simp only [this, h4]

/-- **C59** No keystream block of one write with a context is made from the same cipher input as one of
another write with that context: encrypting two frames never uses the same keystream block twice. -/
theorem C59_no_keystream_reuse {κ : Type} (cfg : Cfg) (aead : Aead κ) (ht : AeadTyped aead) (sc : SecCtx κ)
    (before between : List WriteCall) (first second : WriteCall) (n₁ n₂ : List UInt8)
    (h₁ : UsesNonce cfg (contextAfter cfg aead sc before) first n₁)
    (h₂ : UsesNonce cfg (contextAfter cfg aead sc (before ++ first :: between)) second n₂)
    (i j : Nat) (hi : i ≤ 65535) (hj : j ≤ 65535) : Ccm.ctrBlock n₁ i ≠ Ccm.ctrBlock n₂ j := by
  obtain ⟨⟨l₁, -, -, e₁⟩, _⟩ := C31_nonce_of_call cfg _ first n₁ h₁
  obtain ⟨⟨l₂, -, -, e₂⟩, _⟩ := C31_nonce_of_call cfg _ second n₂ h₂
  have hlen : ∀ e c l, (nonceOctets e c l).length = 13 := by intros; simp [nonceOctets]
  intro h
  exact C31_nonce_never_reused cfg aead ht sc before between first second n₁ n₂ h₁ h₂
    ((C59_keystream_inputs n₁ n₂ (by rw [e₁]; exact hlen _ _ _) (by rw [e₂]; exact hlen _ _ _) i j hi hj).1.1 h).1

/-- **C59** And no more keystream blocks are used than there are positions: at most 65535 octets are
encrypted at once. -/
theorem C59_positions (e : Vector UInt8 16 → Vector UInt8 16) (t : Nat) (nonce aad buf : List UInt8) (tag c : List UInt8)
    (h : Ccm.encrypt e t nonce aad buf = (some tag, c)) :
    c = Ccm.xorBytes buf ((List.range ((buf.length + 15) / 16)).flatMap fun j => (e (Ccm.ctrBlock nonce (1 + j))).toList) ∧
    ∀ j < (buf.length + 15) / 16, 1 + j ≤ 4096 := by
  unfold Ccm.encrypt at h
  split at h
  · cases h
  · rename_i hb
    unfold Ccm.maxLen at hb
    simp only [Prod.mk.injEq] at h
    exact ⟨h.2.symm, fun j hj => by omega⟩

/-- Witness: two successful writes of a history do use nonces (`C31_success_uses`), of 13 octets. -/
example : Ccm.ctrBlock (nonceOctets 1 7 .encmic32) 1 ≠ Ccm.ctrBlock (nonceOctets 1 8 .encmic32) 1 ∧
    (nonceOctets 1 7 .encmic32).length = 13 := by decide +kernel

end Verif
