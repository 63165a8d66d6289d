import Verif.Spec.SecrecySpec
import Verif.Props.CcmRfc
import Verif.Props.Total
import Verif.Props.Cipher

/-!
# Secrecy and forgery with an ideal cipher: C85, C86
-/

namespace Verif

open Spec Rfc3610

/-! ## Blocks -/

theorem octet_xor (x y : Block) (t : Nat) : octet (Rfc3610.xor x y).toList t = octet x.toList t ^^^ octet y.toList t := by
  unfold octet Rfc3610.xor
  by_cases h : t < 16
  · simp [Vector.getElem?_toList, h]
  · simp [Vector.getElem?_toList, h]

theorem octet_ofFn (g : Nat → UInt8) (t : Nat) (h : t < 16) :
    octet (Vector.ofFn fun i : Fin 16 => g i.val).toList t = g t := by
  unfold octet
  rw [Vector.getElem?_toList, Vector.getElem?_eq_getElem h, Vector.getElem_ofFn, Option.getD_some]

theorem xor_zero_block (x : Block) : Rfc3610.xor x (Vector.replicate 16 0) = x := by
  ext i h; simp [Rfc3610.xor]

theorem xor_xor_block (x y : Block) : Rfc3610.xor (Rfc3610.xor x y) y = x := by
  ext i h
  simp [Rfc3610.xor, UInt8.xor_assoc]

theorem chain_congr (E F : Block → Block) (bs : List Block) : ∀ (x : Block),
    (∀ b ∈ chainInputs E x bs, F b = E b) →
    chainInputs F x bs = chainInputs E x bs ∧
    bs.foldl (fun x b => F (Rfc3610.xor x b)) x = bs.foldl (fun x b => E (Rfc3610.xor x b)) x := by
  induction bs with
  | nil => intro x _; exact ⟨rfl, rfl⟩
  | cons b bs ih =>
    intro x h
    have hb := h (Rfc3610.xor x b) (by simp [chainInputs])
    have := ih (E (Rfc3610.xor x b)) (fun c hc => h c (by simp [chainInputs, hc]))
    simp only [chainInputs, List.foldl_cons, hb, this.1, this.2, and_self]

theorem counterBlock_inj (n n' : List UInt8) (hn : n.length = 13) (hn' : n'.length = 13) (i j : Nat)
    (hi : i < 2 ^ 16) (hj : j < 2 ^ 16) : counterBlock n i = counterBlock n' j ↔ n = n' ∧ i = j := by
  rw [← Ccm.ctrBlock_eq n i hn, ← Ccm.ctrBlock_eq n' j hn']
  exact (C59_keystream_inputs n n' hn hn' i j (by omega) (by omega)).1

/-! ## Jobs -/

/-- One protected frame of a history, with the payload it has in the other history. -/
structure Job (κ : Type) where
  key : κ
  level : SecurityLevel
  nonce : List UInt8
  payload : List UInt8
  payload' : List UInt8

/-- What is known of the frames of two alike histories. -/
structure Jobs {κ : Type} (J : Job κ → Prop) : Prop where
  nonce : ∀ j, J j → j.nonce.length = 13
  unique : ∀ j j', J j → J j' → j.nonce = j'.nonce → j = j'
  length : ∀ j, J j → j.payload'.length = j.payload.length
  short : ∀ j, J j → j.payload.length ≤ 125
  clear : ∀ j, J j → ¬ EncMic j.level → j.payload' = j.payload
  level : ∀ j, J j → Authenticating j.level

namespace Job

def mac {κ : Type} (e : BlockCipher κ) (j : Job κ) (p : List UInt8) : Block :=
  chained (e j.key) (authenticatedAt j.level j.nonce p)

/-- What the cipher's value for counter block `i` is changed by: bodies only, or tags as well. -/
def mask {κ : Type} (tags : Bool) (e : BlockCipher κ) (j : Job κ) (i : Nat) : Block :=
  if i = 0 then (if tags then Rfc3610.xor (j.mac e j.payload) (j.mac e j.payload') else Vector.replicate 16 0)
  else Vector.ofFn fun t : Fin 16 => octet j.payload (16 * (i - 1) + t.val) ^^^ octet j.payload' (16 * (i - 1) + t.val)

open Classical in
noncomputable def shift {κ : Type} (J : Job κ → Prop) (tags : Bool) (e : BlockCipher κ) : BlockCipher κ := fun k b =>
  if h : ∃ ji : Job κ × Nat, J ji.1 ∧ ji.1.key = k ∧ ji.2 ≤ 8 ∧ b = counterBlock ji.1.nonce ji.2 then
    Rfc3610.xor (e k b) (h.choose.1.mask tags e h.choose.2)
  else e k b

theorem shift_at {κ : Type} {J : Job κ → Prop} (hJ : Jobs J) (tags : Bool) (e : BlockCipher κ) (j : Job κ) (hj : J j)
    (i : Nat) (hi : i ≤ 8) :
    shift J tags e j.key (counterBlock j.nonce i) =
      Rfc3610.xor (e j.key (counterBlock j.nonce i)) (j.mask tags e i) := by
  unfold shift
  have h : ∃ ji : Job κ × Nat, J ji.1 ∧ ji.1.key = j.key ∧ ji.2 ≤ 8 ∧
    counterBlock j.nonce i = counterBlock ji.1.nonce ji.2 := ⟨(j, i), hj, rfl, hi, rfl⟩
  rw [dif_pos h]
  obtain ⟨h1, h2, h3, h4⟩ := h.choose_spec
  have h5 := (counterBlock_inj _ _ (hJ.nonce _ hj) (hJ.nonce _ h1) _ _ (by omega) (by omega)).1 h4
  have h6 := hJ.unique _ _ hj h1 h5.1
  rw [← h6, ← h5.2]

theorem shift_off {κ : Type} {J : Job κ → Prop} (tags : Bool) (e : BlockCipher κ) (k : κ) (b : Block)
    (h : ∀ j i, J j → j.key = k → i ≤ 8 → b ≠ counterBlock j.nonce i) : shift J tags e k b = e k b := by
  unfold shift
  rw [dif_neg]
  rintro ⟨⟨j, i⟩, h1, h2, h3, h4⟩
  exact h j i h1 h2 h3 h4

/-- No clash, for the payloads of both histories. -/
def Good {κ : Type} (J : Job κ → Prop) (e : BlockCipher κ) : Prop :=
  ∀ j j', J j → J j' → j.key = j'.key → ∀ p, p = j.payload ∨ p = j.payload' →
    ∀ b ∈ macInputs (e j.key) j.level j.nonce p, ∀ i, i ≤ 8 → b ≠ counterBlock j'.nonce i

theorem shift_mac {κ : Type} {J : Job κ → Prop} (tags : Bool) (e : BlockCipher κ) (hg : Good J e)
    (j : Job κ) (hj : J j) (p : List UInt8) (hp : p = j.payload ∨ p = j.payload') :
    macInputs (shift J tags e j.key) j.level j.nonce p = macInputs (e j.key) j.level j.nonce p ∧
    j.mac (shift J tags e) p = j.mac e p := by
  have := chain_congr (e j.key) (shift J tags e j.key) (authenticatedAt j.level j.nonce p) (Vector.replicate 16 0)
    (fun b hb => shift_off tags e j.key b (fun j' i h1 h2 h3 => hg j j' hj h1 h2.symm p hp b hb i h3))
  exact this

theorem shift_good {κ : Type} {J : Job κ → Prop} (tags : Bool) (e : BlockCipher κ) (hg : Good J e) :
    Good J (shift J tags e) := by
  intro j j' hj hj' hk p hp b hb
  rw [(shift_mac tags e hg j hj p hp).1] at hb
  exact hg j j' hj hj' hk p hp b hb

theorem shift_mask {κ : Type} {J : Job κ → Prop} (e : BlockCipher κ) (hg : Good J e) (j : Job κ) (hj : J j) (i : Nat) :
    j.mask true (shift J true e) i = j.mask true e i := by
  unfold mask
  rw [(shift_mac true e hg j hj _ (.inl rfl)).2, (shift_mac true e hg j hj _ (.inr rfl)).2]

theorem shift_shift_of {κ : Type} {J : Job κ → Prop} (hJ : Jobs J) (tags : Bool) (e : BlockCipher κ)
    (hm : ∀ j i, J j → j.mask tags (shift J tags e) i = j.mask tags e i) : shift J tags (shift J tags e) = e := by
  funext k b
  by_cases h : ∃ j i, J j ∧ j.key = k ∧ i ≤ 8 ∧ b = counterBlock j.nonce i
  · obtain ⟨j, i, hj, rfl, hi, rfl⟩ := h
    rw [shift_at hJ tags _ j hj i hi, shift_at hJ tags _ j hj i hi, hm j i hj, xor_xor_block]
  · have h' : ∀ j i, J j → j.key = k → i ≤ 8 → b ≠ counterBlock j.nonce i :=
      fun j i h1 h2 h3 h4 => h ⟨j, i, h1, h2, h3, h4⟩
    rw [shift_off tags _ k b h', shift_off tags _ k b h']

theorem encrypted_shift {κ : Type} {J : Job κ → Prop} (hJ : Jobs J) (tags : Bool) (e : BlockCipher κ) (j : Job κ) (hj : J j) :
    encrypted (shift J tags e j.key) j.nonce j.payload' = encrypted (e j.key) j.nonce j.payload := by
  have hl := hJ.length j hj
  have hs := hJ.short j hj
  unfold encrypted
  apply List.ext_getElem
  · simp [hl]
  · intro t h1 h2
    simp only [List.length_mapIdx] at h1 h2
    simp only [List.getElem_mapIdx]
    rw [shift_at hJ tags e j hj (1 + t / 16) (by omega), octet_xor]
    unfold mask
    rw [if_neg (by omega),
      octet_ofFn (fun s => octet j.payload (16 * (1 + t / 16 - 1) + s) ^^^ octet j.payload' (16 * (1 + t / 16 - 1) + s))
        (t % 16) (by omega)]
    have ht : 16 * (1 + t / 16 - 1) + t % 16 = t := by omega
    rw [ht]
    have o1 : octet j.payload t = j.payload[t] := by unfold octet; rw [List.getElem?_eq_getElem h2]; rfl
    have o2 : octet j.payload' t = j.payload'[t] := by unfold octet; rw [List.getElem?_eq_getElem h1]; rfl
    rw [o1, o2]
    generalize j.payload'[t] = a
    generalize j.payload[t] = c
    generalize octet _ _ = s
    calc a ^^^ (s ^^^ (c ^^^ a)) = (a ^^^ a) ^^^ (c ^^^ s) := by ac_rfl
      _ = c ^^^ s := by rw [UInt8.xor_self, UInt8.zero_xor]

theorem authValue_at (E : Block → Block) (l : SecurityLevel) (N p : List UInt8) :
    (protected_ E l N p).2 = (List.range (tagLength l)).map fun t =>
      octet (chained E (authenticatedAt l N p)).toList t ^^^ octet (E (counterBlock N 0)).toList t := by
  unfold protected_ authenticatedAt authValue
  split <;> rfl

theorem protected_shift {κ : Type} {J : Job κ → Prop} (hJ : Jobs J) (e : BlockCipher κ) (hg : Good J e) (j : Job κ) (hj : J j) :
    protected_ (shift J true e j.key) j.level j.nonce j.payload' = protected_ (e j.key) j.level j.nonce j.payload := by
  apply Prod.ext
  · have := encrypted_shift hJ true e j hj
    unfold protected_
    by_cases hm : MicOnly j.level
    · rw [if_pos hm, if_pos hm]
      exact hJ.clear j hj (by intro he; revert hm he; cases j.level <;> simp [MicOnly, EncMic])
    · rw [if_neg hm, if_neg hm]; exact this
  · rw [authValue_at, authValue_at]
    apply List.map_congr_left
    intro t _
    rw [shift_at hJ true e j hj 0 (by decide), octet_xor]
    have h2 := (shift_mac true e hg j hj _ (.inr rfl)).2
    unfold mac at h2
    rw [h2]
    unfold mask
    rw [if_pos rfl, if_pos rfl, octet_xor]
    unfold mac
    generalize octet (chained (e j.key) (authenticatedAt j.level j.nonce j.payload')).toList t = a
    generalize octet (chained (e j.key) (authenticatedAt j.level j.nonce j.payload)).toList t = c
    generalize octet _ _ = s
    calc a ^^^ (s ^^^ (c ^^^ a)) = (a ^^^ a) ^^^ (c ^^^ s) := by ac_rfl
      _ = c ^^^ s := by rw [UInt8.xor_self, UInt8.zero_xor]

end Job

/-! ## Alike calls -/

theorem puts_alike {κ : Type} {enc enc' buf : List UInt8} {ctx : SerDesCtx κ}
    {d d' r r' : Out ByteErr Nat × List UInt8 × SerDesCtx κ} (h : PutsDown enc buf ctx d r)
    (h' : PutsDown enc' buf ctx d' r') (hl : enc'.length = enc.length) (h1 : d'.1 = d.1) (h2 : d'.2.2 = d.2.2) :
    r'.1 = r.1 ∧ r'.2.2 = r.2.2 := by
  by_cases hb : enc.length ≤ buf.length
  · rw [h.1 hb, h'.1 (by omega)]; exact ⟨h1, h2⟩
  · obtain ⟨k, _, e⟩ := h.2 (by omega)
    obtain ⟨k', _, e'⟩ := h'.2 (by omega)
    rw [e, e']; exact ⟨rfl, rfl⟩

theorem sendingAccount_alike {κ : Type} (cfg : Cfg) (e e' : BlockCipher κ) (f f' : Frame) (aux : AuxHeader)
    (sc : SecCtx κ) (buf : List UInt8) (hh : f'.header = f.header) (hc : f'.content = f.content)
    (hp : f'.payload.length = f.payload.length) :
    (sendingAccount cfg (Ccm.aead e') f' aux sc buf).1 = (sendingAccount cfg (Ccm.aead e) f aux sc buf).1 ∧
    (sendingAccount cfg (Ccm.aead e') f' aux sc buf).2.2 = (sendingAccount cfg (Ccm.aead e) f aux sc buf).2.2 := by
  have hhead : securedHead cfg sc.frameCounter f' = securedHead cfg sc.frameCounter f := by
    unfold securedHead; rw [hh, hc]
  have hsize : securedSize f' aux = securedSize f aux := by unfold securedSize; rw [hp, hh]
  unfold sendingAccount
  simp only [hhead, hsize, hp, hh]
  by_cases h1 : 125 < securedSize f aux
  · simp only [if_pos h1, and_self]
  · have hs : f.payload.length < 2 ^ 16 := by unfold securedSize at h1; omega
    simp only [if_neg h1]
    by_cases h2 : buf.length < (securedHead cfg sc.frameCounter f).length + f.payload.length
    · simp only [if_pos h2, and_self]
    · simp only [if_neg h2]
      by_cases h3 : aux.control.securityLevel = .none
      · simp only [if_pos h3, and_self]
      · simp only [if_neg h3]
        by_cases h4 : sc.frameCounter = maxCounter
        · simp only [if_pos h4, and_self]
        · simp only [if_neg h4]
          rcases sc.keyProvider .dst aux.keyIdentifier f.header.destination with _ | ⟨eui, key⟩
          · exact ⟨rfl, rfl⟩
          · by_cases h5 : aux.control.securityLevel = .enc
            · simp only [if_pos h5, and_self]
            · have ha : Authenticating aux.control.securityLevel := by
                revert h3 h5; cases aux.control.securityLevel <;> simp [Authenticating, MicOnly, EncMic]
              simp only [if_neg h5]
              rw [protect_rfc e' _ ha _ _ _ (by simp [nonceOctets]) (fun _ => by omega),
                protect_rfc e _ ha _ _ _ (by simp [nonceOctets]) (fun _ => by omega)]
              by_cases h6 : buf.length < (securedHead cfg sc.frameCounter f).length + f.payload.length
                + tagLength aux.control.securityLevel
              · simp only [if_pos h6, and_self]
              · simp only [if_neg h6, and_self]

theorem alike_payload {c c' : WriteCall} (h : Alike c c') : c'.frame.payload.length = c.frame.payload.length := by
  obtain ⟨_, _, _, _, _, h | h⟩ := h
  · rw [h]
  · exact h.1

theorem alike_frame {c c' : WriteCall} (h : Alike c c') (hp : c'.frame.payload = c.frame.payload) : c' = c := by
  obtain ⟨h1, h2, h3, h4, h5, _⟩ := h
  rcases c with ⟨⟨_, _, _, _⟩, _, _⟩
  rcases c' with ⟨⟨_, _, _, _⟩, _, _⟩
  simp only at h1 h2 h3 h4 h5 hp
  subst h1 h2 h3 h4 h5 hp
  rfl

/-- Result and context afterwards do not depend on the cipher nor on what is to be encrypted. -/
theorem alike_step {κ : Type} (cfg : Cfg) (e e' : BlockCipher κ) (sc : SecCtx κ) (c c' : WriteCall)
    (hc : ContentFromApi c.frame.content) (h : Alike c c') :
    (c'.frame.tryWrite cfg (Ccm.aead e') ⟨c'.mode, some sc⟩ c'.buf).1 =
      (c.frame.tryWrite cfg (Ccm.aead e) ⟨c.mode, some sc⟩ c.buf).1 ∧
    (c'.frame.tryWrite cfg (Ccm.aead e') ⟨c'.mode, some sc⟩ c'.buf).2.2 =
      (c.frame.tryWrite cfg (Ccm.aead e) ⟨c.mode, some sc⟩ c.buf).2.2 := by
  have T := C76_every_write cfg (Ccm.aead e) (C50_ccm_laws e).toAeadTyped c.frame hc ⟨c.mode, some sc⟩ c.buf
  have T' := C76_every_write cfg (Ccm.aead e') (C50_ccm_laws e').toAeadTyped c'.frame
    (by rw [h.2.2.2.1]; exact hc) ⟨c'.mode, some sc⟩ c'.buf
  have hl := alike_payload h
  have hframe := alike_frame h
  obtain ⟨h1, h2, h3, h4, h5, h6⟩ := h
  have hhead : securedHead cfg sc.frameCounter c'.frame = securedHead cfg sc.frameCounter c.frame := by
    unfold securedHead; rw [h3, h4]
  rw [h1, h2] at T' ⊢
  unfold WriteTable at T T'
  simp only [h3] at T T'
  by_cases hE : Encodable c.frame.header
  · have A := T.2 hE
    have A' := T'.2 hE
    rcases ha : c.frame.header.auxSec with _ | aux
    · rw [ha] at h6
      have hp : c'.frame.payload = c.frame.payload := by
        rcases h6 with h6 | ⟨_, aux, h6, _⟩
        · exact h6
        · exact absurd h6 (by simp)
      have := hframe hp
      rw [this] at A' ⊢
      rcases hm : c.mode with _ | _
      · simp only [ha, hm] at A A' ⊢
        exact puts_alike A A' rfl rfl rfl
      · simp only [ha, hm] at A A' ⊢
        exact puts_alike A A' rfl rfl rfl
    · rcases hm : c.mode with _ | _
      · simp only [ha, hm] at A A' ⊢
        have := sendingAccount_alike cfg e e' c.frame c'.frame aux sc c.buf h3 h4 hl
        refine puts_alike A A' (congrArg List.length hhead) ?_ ?_
        · split
          · exact this.1
          · rfl
        · split
          · simp only [this.2]
          · rfl
      · simp only [ha, hm] at A A' ⊢
        exact puts_alike A A' (congrArg List.length hhead) rfl rfl
  · exact puts_alike (T.1 hE) (T'.1 hE) rfl rfl rfl

theorem sendingAccount_clear {κ : Type} (cfg : Cfg) (aead aead' : Aead κ) (f : Frame) (aux : AuxHeader)
    (sc : SecCtx κ) (buf : List UInt8) (n : Nat) (hn : ¬ Authenticating aux.control.securityLevel)
    (hok : (sendingAccount cfg aead f aux sc buf).1 = .ok n) :
    sendingAccount cfg aead' f aux sc buf = sendingAccount cfg aead f aux sc buf ∧
    aux.control.securityLevel = .none := by
  have hl : aux.control.securityLevel = .none ∨ aux.control.securityLevel = .enc := by
    revert hn; cases aux.control.securityLevel <;> simp [Authenticating, MicOnly, EncMic]
  rcases hl with hl | hl
  · refine ⟨?_, hl⟩
    unfold sendingAccount
    simp only [hl, if_true]
  · exfalso
    unfold sendingAccount at hok
    simp only [hl, if_true, if_neg (show ¬ SecurityLevel.enc = SecurityLevel.none by decide)] at hok
    by_cases h1 : 125 < securedSize f aux
    · simp only [if_pos h1] at hok; cases hok
    · simp only [if_neg h1] at hok
      by_cases h2 : buf.length < (securedHead cfg sc.frameCounter f).length + f.payload.length
      · simp only [if_pos h2] at hok; cases hok
      · simp only [if_neg h2] at hok
        by_cases h3 : sc.frameCounter = maxCounter
        · simp only [if_pos h3] at hok; cases hok
        · simp only [if_neg h3] at hok
          rcases hk : sc.keyProvider .dst aux.keyIdentifier f.header.destination with _ | ⟨eui, key⟩ <;>
            rw [hk] at hok <;> cases hok

theorem sendingAccount_key {κ : Type} (cfg : Cfg) (aead : Aead κ) (f : Frame) (aux : AuxHeader)
    (sc : SecCtx κ) (buf : List UInt8) (n : Nat) (ha : Authenticating aux.control.securityLevel)
    (hok : (sendingAccount cfg aead f aux sc buf).1 = .ok n) :
    ∃ eui key, sc.keyProvider .dst aux.keyIdentifier f.header.destination = some (eui, key) := by
  have h0 : aux.control.securityLevel ≠ .none := by
    intro hz; rw [hz] at ha; simp [Authenticating, MicOnly, EncMic] at ha
  rcases hk : sc.keyProvider .dst aux.keyIdentifier f.header.destination with _ | ⟨eui, key⟩
  · exfalso
    unfold sendingAccount at hok
    simp only [hk, if_neg h0] at hok
    by_cases h1 : 125 < securedSize f aux
    · simp only [if_pos h1] at hok; cases hok
    · simp only [if_neg h1] at hok
      by_cases h2 : buf.length < (securedHead cfg sc.frameCounter f).length + f.payload.length
      · simp only [if_pos h2] at hok; cases hok
      · simp only [if_neg h2] at hok
        by_cases h3 : sc.frameCounter = maxCounter
        · simp only [if_pos h3] at hok; cases hok
        · simp only [if_neg h3] at hok; cases hok
  · exact ⟨eui, key, rfl⟩

/-- A successful write protects its payload, or its octets are those of every alike call with every cipher. -/
theorem alike_octets {κ : Type} (cfg : Cfg) (e e' : BlockCipher κ) (sc : SecCtx κ) (c c' : WriteCall)
    (hc : ContentFromApi c.frame.content) (h : Alike c c') (n : Nat)
    (hok : (c.frame.tryWrite cfg (Ccm.aead e) ⟨c.mode, some sc⟩ c.buf).1 = .ok n) :
    ((c'.frame.tryWrite cfg (Ccm.aead e') ⟨c'.mode, some sc⟩ c'.buf).2.1.take n =
      (c.frame.tryWrite cfg (Ccm.aead e) ⟨c.mode, some sc⟩ c.buf).2.1.take n ∧
      ∀ aux, c.frame.header.auxSec = some aux → aux.control.securityLevel = .none) ∨
    ∃ aux eui key, SecuredData c.frame aux ∧ Authenticating aux.control.securityLevel ∧ c.mode = .none ∧
      sc.keyProvider .dst aux.keyIdentifier c.frame.header.destination = some (eui, key) := by
  have T := C76_every_write cfg (Ccm.aead e) (C50_ccm_laws e).toAeadTyped c.frame hc ⟨c.mode, some sc⟩ c.buf
  have T' := C76_every_write cfg (Ccm.aead e') (C50_ccm_laws e').toAeadTyped c'.frame
    (by rw [h.2.2.2.1]; exact hc) ⟨c'.mode, some sc⟩ c'.buf
  have hl := alike_payload h
  have hframe := alike_frame h
  obtain ⟨h1, h2, h3, h4, h5, h6⟩ := h
  have hhead : securedHead cfg sc.frameCounter c'.frame = securedHead cfg sc.frameCounter c.frame := by
    unfold securedHead; rw [h3, h4]
  rw [h1, h2] at T' ⊢
  unfold WriteTable at T T'
  simp only [h3] at T T'
  generalize hr : c.frame.tryWrite cfg (Ccm.aead e) ⟨c.mode, some sc⟩ c.buf = r at *
  generalize hr' : c'.frame.tryWrite cfg (Ccm.aead e') ⟨c.mode, some sc⟩ c.buf = r' at *
  have fits : ∀ {enc d}, PutsDown enc c.buf ⟨c.mode, some sc⟩ d r → enc.length ≤ c.buf.length ∧ r = d := by
    intro enc d hp
    by_cases hb : enc.length ≤ c.buf.length
    · exact ⟨hb, hp.1 hb⟩
    · obtain ⟨k, _, er⟩ := hp.2 (by omega)
      rw [er] at hok; cases hok
  by_cases hE : Encodable c.frame.header
  · have A := T.2 hE
    have A' := T'.2 hE
    rcases ha : c.frame.header.auxSec with _ | aux
    · rw [ha] at h6
      have hp : c'.frame.payload = c.frame.payload := by
        rcases h6 with h6 | ⟨_, aux, h6, _⟩
        · exact h6
        · exact absurd h6 (by simp)
      rw [hframe hp] at A'
      left
      rcases hm : c.mode with _ | _
      · simp only [ha, hm] at A A'
        rw [← hm] at A A'
        obtain ⟨hb, er⟩ := fits A
        rw [A'.1 hb, er]
        exact ⟨rfl, fun aux h => by cases h⟩
      · simp only [ha, hm] at A A'
        rw [← hm] at A
        obtain ⟨hb, er⟩ := fits A
        rw [er] at hok; cases hok
    · rcases hm : c.mode with _ | _
      · simp only [ha, hm] at A A'
        rw [← hm] at A A'
        obtain ⟨hb, er⟩ := fits A
        have er' := A'.1 (by rw [hhead]; exact hb)
        by_cases hd : c.frame.header.frameType = .data
        · rw [if_pos hd] at er er'
          rw [er] at hok
          by_cases hau : Authenticating aux.control.securityLevel
          · obtain ⟨eui, key, hk⟩ := sendingAccount_key cfg _ c.frame aux sc c.buf n hau hok
            exact .inr ⟨aux, eui, key, ⟨hE, hc, ha, hd⟩, hau, rfl, hk⟩
          · left
            have hp : c'.frame.payload = c.frame.payload := by
              rcases h6 with h6 | ⟨_, aux', h6, h7⟩
              · exact h6
              · rw [ha] at h6; cases h6; exact absurd (.inr h7) hau
            have hz := sendingAccount_clear cfg _ (Ccm.aead e') c.frame aux sc c.buf n hau hok
            rw [hframe hp] at er'
            rw [er, er', hz.1]
            exact ⟨rfl, fun aux' h => by cases h; exact hz.2⟩
        · rw [if_neg hd] at er
          rw [er] at hok; cases hok
      · simp only [ha, hm] at A A'
        rw [← hm] at A
        obtain ⟨hb, er⟩ := fits A
        rw [er] at hok; cases hok
  · obtain ⟨_, er⟩ := fits (T.1 hE)
    rw [er] at hok; cases hok

/-! ## Histories -/

theorem alike_get {calls calls' : List WriteCall} (h : AlikeHistories calls calls') (p : Nat) :
    (calls[p]? = none ∧ calls'[p]? = none) ∨
    ∃ c c', calls[p]? = some c ∧ calls'[p]? = some c' ∧ Alike c c' := by
  by_cases hp : p < calls.length
  · have hp' : p < calls'.length := by rw [h.1]; exact hp
    right
    exact ⟨calls[p], calls'[p], by simp [hp], by simp [hp'], h.2 p _ _ (by simp [hp]) (by simp [hp'])⟩
  · left
    have := h.1
    exact ⟨by simp; omega, by simp; omega⟩

theorem alike_refl (c : WriteCall) : Alike c c := ⟨rfl, rfl, rfl, rfl, rfl, .inl rfl⟩

theorem alike_histories_refl (calls : List WriteCall) : AlikeHistories calls calls :=
  ⟨rfl, fun p c c' h h' => by rw [h] at h'; cases h'; exact alike_refl c⟩

theorem alike_context {κ : Type} (cfg : Cfg) (e e' : BlockCipher κ) (sc : SecCtx κ) (calls calls' : List WriteCall)
    (hc : ∀ c ∈ calls, ContentFromApi c.frame.content) (h : AlikeHistories calls calls') (p : Nat) :
    contextAfter cfg (Ccm.aead e') sc (calls'.take p) = contextAfter cfg (Ccm.aead e) sc (calls.take p) := by
  induction p with
  | zero => rfl
  | succ p ih =>
    rw [List.take_succ, List.take_succ]
    unfold contextAfter at ih ⊢
    rw [List.foldl_append, List.foldl_append, ih]
    rcases alike_get h p with ⟨h1, h2⟩ | ⟨c, c', h1, h2, ha⟩
    · rw [h1, h2]; rfl
    · rw [h1, h2]
      simp only [Option.toList_some, List.foldl_cons, List.foldl_nil]
      have := (alike_step cfg e e' (List.foldl (contextAfterCall cfg (Ccm.aead e)) sc (calls.take p)) c c'
        (hc c (List.mem_of_getElem? h1)) ha).2
      unfold contextAfterCall at this ⊢
      rw [this]

theorem alike_isSome {κ : Type} (cfg : Cfg) (e e' : BlockCipher κ) (sc : SecCtx κ) (calls calls' : List WriteCall)
    (hc : ∀ c ∈ calls, ContentFromApi c.frame.content) (h : AlikeHistories calls calls') (p : Nat) :
    (onAir cfg (Ccm.aead e') sc calls' p).isSome = (onAir cfg (Ccm.aead e) sc calls p).isSome := by
  unfold onAir
  rcases alike_get h p with ⟨h1, h2⟩ | ⟨c, c', h1, h2, ha⟩
  · rw [h1, h2]
  · rw [h1, h2]
    simp only
    rw [alike_context cfg e e' sc calls calls' hc h p]
    have := (alike_step cfg e e' (contextAfter cfg (Ccm.aead e) sc (calls.take p)) c c'
        (hc c (List.mem_of_getElem? h1)) ha).1
    generalize c.frame.tryWrite cfg _ _ _ = r at *
    generalize c'.frame.tryWrite cfg _ _ _ = r' at *
    rcases r with ⟨r, b, x⟩
    rcases r' with ⟨r', b', x'⟩
    simp only at this
    subst this
    rcases r' <;> rfl

theorem sends_alike {κ : Type} (cfg : Cfg) (e e' : BlockCipher κ) (sc : SecCtx κ) (calls calls' : List WriteCall)
    (hc : ∀ c ∈ calls, ContentFromApi c.frame.content) (h : AlikeHistories calls calls') (p : Nat)
    (key : κ) (level : SecurityLevel) (nonce payload' : List UInt8)
    (hs : Sends cfg e' sc calls' p key level nonce payload') :
    ∃ c c', calls[p]? = some c ∧ calls'[p]? = some c' ∧ payload' = c'.frame.payload ∧
      Sends cfg e sc calls p key level nonce c.frame.payload := by
  obtain ⟨h1, call, aux, eui, h2, h3, h4, h5, h6, h7, h8⟩ := hs
  rcases alike_get h p with ⟨_, h9⟩ | ⟨c, c', h9, h10, ha⟩
  · rw [h9] at h2; cases h2
  · rw [h10] at h2
    obtain rfl := Option.some.inj h2
    refine ⟨c, c', h9, h10, h8, ?_, c, aux, eui, h9, ?_, h4, h5, ?_, ?_, rfl⟩
    · rw [alike_isSome cfg e e' sc calls calls' hc h p] at h1; exact h1
    · rw [← ha.2.2.1]; exact h3
    · rw [← ha.2.2.1]; exact h6
    · rw [alike_context cfg e e' sc calls calls' hc h p] at h7; exact h7

/-- A call that sends is a write of a secured data frame that succeeds. -/
theorem sends_write {κ : Type} (cfg : Cfg) (e : BlockCipher κ) (sc : SecCtx κ) (calls : List WriteCall)
    (hc : ∀ c ∈ calls, ContentFromApi c.frame.content) (p : Nat)
    (key : κ) (level : SecurityLevel) (nonce payload : List UInt8)
    (hs : Sends cfg e sc calls p key level nonce payload) (call : WriteCall) (hg : calls[p]? = some call) :
    ∃ aux n, SecuredData call.frame aux ∧ aux.control.securityLevel = level ∧ call.mode = .none ∧
      (call.frame.tryWrite cfg (Ccm.aead e)
        ⟨.none, some (contextAfter cfg (Ccm.aead e) sc (calls.take p))⟩ call.buf).1 = .ok n := by
  obtain ⟨h1, call', aux, eui, h2, h3, h4, h5, h6, h7, h8⟩ := hs
  rw [hg] at h2; cases h2
  unfold onAir at h1
  rw [hg] at h1
  simp only at h1
  rcases hr : call.frame.tryWrite cfg (Ccm.aead e)
    ⟨call.mode, some (contextAfter cfg (Ccm.aead e) sc (calls.take p))⟩ call.buf with ⟨r, b, x⟩
  rw [hr] at h1
  rcases r with n | _ | _
  · have := alike_octets cfg e e (contextAfter cfg (Ccm.aead e) sc (calls.take p)) call call
      (hc call (List.mem_of_getElem? hg)) (alike_refl call) n (by rw [hr])
    rcases this with ⟨_, this⟩ | ⟨aux', eui', key', hsd, hau, hm, hk⟩
    · have := this aux h3
      rw [h4] at this
      rw [this] at h5
      simp [Authenticating, MicOnly, EncMic] at h5
    · have := hsd.aux
      rw [h3] at this; cases this
      exact ⟨aux, n, hsd, h4, hm, by rw [hm] at hr; rw [hr]⟩
  · cases h1
  · cases h1

theorem sends_unique {κ : Type} (cfg : Cfg) (e : BlockCipher κ) (sc : SecCtx κ) (calls : List WriteCall)
    (hc : ∀ c ∈ calls, ContentFromApi c.frame.content) (p q : Nat)
    (key key' : κ) (level level' : SecurityLevel) (nonce payload payload' : List UInt8)
    (hs : Sends cfg e sc calls p key level nonce payload) (hs' : Sends cfg e sc calls q key' level' nonce payload') :
    p = q := by
  have ht := (C50_ccm_laws e).toAeadTyped
  have main : ∀ p q key key' level level' payload payload', p < q →
      Sends cfg e sc calls p key level nonce payload → Sends cfg e sc calls q key' level' nonce payload' → False := by
    intro p q key key' level level' payload payload' hpq hs hs'
    have hs0 := hs
    have hs0' := hs'
    obtain ⟨h1, call, aux, eui, h2, h3, h4, h5, h6, h7, h8⟩ := hs
    obtain ⟨h1', call', aux', eui', h2', h3', h4', h5', h6', h7', h8'⟩ := hs'
    obtain ⟨a, n, w1, w2, w3, w4⟩ := sends_write cfg e sc calls hc p key level nonce payload hs0 call h2
    obtain ⟨a', n', w1', w2', w3', w4'⟩ := sends_write cfg e sc calls hc q key' level' nonce payload' hs0' call' h2'
    have u := C31_success_uses cfg _ ht _ call a w1 (by rw [w2]; exact h5) w3 n (by rw [w3]; exact w4)
    have u' := C31_success_uses cfg _ ht _ call' a' w1' (by rw [w2']; exact h5') w3' n' (by rw [w3']; exact w4')
    have hsplit : calls.take q = calls.take p ++ call :: (calls.drop (p + 1)).take (q - p - 1) := by
      have hp : p < calls.length := by
        rcases List.getElem?_eq_some_iff.1 h2 with ⟨h, _⟩; exact h
      have e1 : calls.take q = calls.take p ++ (calls.drop p).take (q - p) := by
        conv => lhs; rw [← List.take_append_drop p calls]
        rw [List.take_append, List.take_take, List.length_take]
        congr 2
        · omega
        · omega
      rw [e1]
      congr 1
      have e2 : calls.drop p = call :: calls.drop (p + 1) := by
        rw [List.drop_eq_getElem_cons hp]
        rcases List.getElem?_eq_some_iff.1 h2 with ⟨_, h⟩
        rw [h]
      rw [e2]
      have e3 : q - p = (q - p - 1) + 1 := by omega
      conv => lhs; rw [e3]
      rfl
    rw [hsplit] at u' h7'
    refine C31_nonce_never_reused cfg _ ht sc (calls.take p) ((calls.drop (p + 1)).take (q - p - 1)) call call' _ _ u u' ?_
    have heu := (C31_counter_monotone cfg _ ht (calls.take p) sc).2.2.1
    have heu' := (C31_counter_monotone cfg _ ht (calls.take p ++ call :: (calls.drop (p + 1)).take (q - p - 1)) sc).2.2.1
    rw [heu, heu', w2, w2', ← h7, ← h7']
  rcases Nat.lt_trichotomy p q with h | h | h
  · exact absurd (main p q key key' level level' payload payload' h hs hs') id
  · exact h
  · exact absurd (main q p key' key level' level payload' payload h hs' hs) id

/-- The jobs of two alike histories. -/
def historyJobs {κ : Type} (cfg : Cfg) (e : BlockCipher κ) (sc : SecCtx κ) (calls calls' : List WriteCall) (j : Job κ) : Prop :=
  ∃ p c', Sends cfg e sc calls p j.key j.level j.nonce j.payload ∧ calls'[p]? = some c' ∧ j.payload' = c'.frame.payload

theorem historyJobs_jobs {κ : Type} (cfg : Cfg) (e : BlockCipher κ) (sc : SecCtx κ) (calls calls' : List WriteCall)
    (hc : ∀ c ∈ calls, ContentFromApi c.frame.content) (h : AlikeHistories calls calls') :
    Jobs (historyJobs cfg e sc calls calls') := by
  constructor
  · rintro j ⟨p, c', ⟨_, call, aux, eui, h2, h3, h4, h5, h6, h7, h8⟩, _⟩
    rw [h7]; simp [nonceOctets]
  · rintro ⟨k, l, n, a, a'⟩ ⟨k2, l2, n2, a2, a2'⟩ ⟨p, c', hs, hg, hp⟩ ⟨p2, c2', hs2, hg2, hp2⟩ hn
    simp only at hn hs hs2 hp hp2
    subst hn
    have := sends_unique cfg e sc calls hc p p2 k k2 l l2 n a a2 hs hs2
    subst this
    rw [hg] at hg2; cases hg2
    obtain ⟨_, call, aux, eui, h2, h3, h4, h5, h6, h7, h8⟩ := hs
    obtain ⟨_, call', aux', eui', h2', h3', h4', h5', h6', h7', h8'⟩ := hs2
    rw [h2] at h2'; cases h2'
    rw [h3] at h3'; cases h3'
    rw [h6] at h6'; cases h6'
    rw [← h4, ← h4', h8, h8', hp, hp2]
  · rintro j ⟨p, c', ⟨_, call, aux, eui, h2, h3, h4, h5, h6, h7, h8⟩, hg, hp⟩
    rw [hp, h8]
    exact alike_payload (h.2 p _ _ h2 hg)
  · rintro j ⟨p, c', hs, hg, hp⟩
    have hs0 := hs
    obtain ⟨_, call, aux, eui, h2, h3, h4, h5, h6, h7, h8⟩ := hs
    obtain ⟨a, n, w1, w2, w3, w4⟩ := sends_write cfg e sc calls hc p _ _ _ _ hs0 call h2
    rcases hw : call.frame.tryWrite cfg (Ccm.aead e)
      ⟨.none, some (contextAfter cfg (Ccm.aead e) sc (calls.take p))⟩ call.buf with ⟨r, b, x⟩
    rw [hw] at w4; simp only at w4; subst w4
    obtain ⟨_, hsz, _⟩ := (C40_secured_write_iff cfg _ (C50_ccm_laws e).toAeadTyped call.frame a w1
      (by rw [w2]; exact h5) _ call.buf b n x).1 hw
    rw [h8]
    unfold securedSize at hsz; omega
  · rintro j ⟨p, c', ⟨_, call, aux, eui, h2, h3, h4, h5, h6, h7, h8⟩, hg, hp⟩ hne
    rw [hp, h8]
    rcases (h.2 p _ _ h2 hg).2.2.2.2.2 with h | ⟨_, aux', ha, he⟩
    · exact h
    · rw [h3] at ha; cases ha
      rw [h4] at he; exact absurd he hne
  · rintro j ⟨p, c', ⟨_, call, aux, eui, h2, h3, h4, h5, h6, h7, h8⟩, hg, hp⟩
    exact h5

/-- Ciphers related by `g` on the protected parts of two alike histories put alike octets on the air. -/
theorem onAir_of_jobs {κ : Type} (cfg : Cfg) (e0 e e' : BlockCipher κ) (sc : SecCtx κ) (calls calls' : List WriteCall)
    (hc : ∀ c ∈ calls, ContentFromApi c.frame.content) (h : AlikeHistories calls calls') (g : List UInt8 × List UInt8 → List UInt8)
    (hp : ∀ j, historyJobs cfg e0 sc calls calls' j →
      g (protected_ (e' j.key) j.level j.nonce j.payload') = g (protected_ (e j.key) j.level j.nonce j.payload)) (p : Nat) :
    onAir cfg (Ccm.aead e') sc calls' p = onAir cfg (Ccm.aead e) sc calls p ∨
    ∃ aux c head x x', calls[p]? = some c ∧ calls'[p]?.map (fun c => c.frame.header) = some c.frame.header ∧
      c.frame.header.auxSec = some aux ∧ x.2.length = tagLength aux.control.securityLevel ∧
      x'.2.length = tagLength aux.control.securityLevel ∧ g x' = g x ∧
      onAir cfg (Ccm.aead e') sc calls' p = some (head ++ x'.1 ++ x'.2) ∧
      onAir cfg (Ccm.aead e) sc calls p = some (head ++ x.1 ++ x.2) := by
  rcases alike_get h p with ⟨h1, h2⟩ | ⟨c, c', h1, h2, ha⟩
  · left; unfold onAir; rw [h1, h2]
  · have hcc := hc c (List.mem_of_getElem? h1)
    have hctx := alike_context cfg e e' sc calls calls' hc h p
    have hres := (alike_step cfg e e' (contextAfter cfg (Ccm.aead e) sc (calls.take p)) c c' hcc ha).1
    rcases hr : c.frame.tryWrite cfg (Ccm.aead e)
      ⟨c.mode, some (contextAfter cfg (Ccm.aead e) sc (calls.take p))⟩ c.buf with ⟨r, b, x⟩
    rcases hr' : c'.frame.tryWrite cfg (Ccm.aead e')
      ⟨c'.mode, some (contextAfter cfg (Ccm.aead e) sc (calls.take p))⟩ c'.buf with ⟨r', b', x'⟩
    rw [hr, hr'] at hres
    simp only at hres
    subst hres
    have ha0 : onAir cfg (Ccm.aead e) sc calls p = match (r', b, x) with
        | (.ok n, buf', _) => some (buf'.take n)
        | _ => none := by
      unfold onAir; rw [h1]; simp only; rw [hr]; rcases r' <;> rfl
    have ha1 : onAir cfg (Ccm.aead e') sc calls' p = match (r', b', x') with
        | (.ok n, buf', _) => some (buf'.take n)
        | _ => none := by
      unfold onAir; rw [h2, hctx]; simp only; rw [hr']; rcases r' <;> rfl
    rcases r' with n | _ | _
    · simp only at ha0 ha1
      rcases alike_octets cfg e e' _ c c' hcc ha n (by rw [hr]) with ⟨hs, _⟩ | ⟨aux, eui, key, hsd, hau, hm, hk⟩
      · left
        rw [hr, hr'] at hs
        rw [ha0, ha1]; exact congrArg some hs
      · right
        have hm' : c'.mode = .none := by rw [ha.1]; exact hm
        have hsd' : SecuredData c'.frame aux := by
          have := ha.2.2.1
          exact ⟨by rw [this]; exact hsd.encodable, by rw [ha.2.2.2.1]; exact hsd.content, by rw [this]; exact hsd.aux,
            by rw [this]; exact hsd.data⟩
        have hkp := (C31_counter_monotone cfg _ (C50_ccm_laws e).toAeadTyped (calls.take p) sc).2.2.2
        have heu := (C31_counter_monotone cfg _ (C50_ccm_laws e).toAeadTyped (calls.take p) sc).2.2.1
        rw [hm] at hr
        rw [hm'] at hr'
        have w := C79_written cfg e c.frame aux hsd hau _ c.buf n eui key hk (by rw [hr])
        have w' := C79_written cfg e' c'.frame aux hsd' hau _ c'.buf n eui key (by rw [ha.2.2.1]; exact hk) (by rw [hr'])
        rw [hr, heu] at w
        rw [hr', heu] at w'
        have hhead : securedHead cfg (contextAfter cfg (Ccm.aead e) sc (calls.take p)).frameCounter c'.frame =
            securedHead cfg (contextAfter cfg (Ccm.aead e) sc (calls.take p)).frameCounter c.frame := by
          unfold securedHead; rw [ha.2.2.1, ha.2.2.2.1]
        rw [hhead] at w'
        have hsend0 : Sends cfg e sc calls p key aux.control.securityLevel
            (nonceOctets sc.euid (contextAfter cfg (Ccm.aead e) sc (calls.take p)).frameCounter aux.control.securityLevel)
            c.frame.payload :=
          ⟨by rw [ha0]; rfl, c, aux, eui, h1, hsd.aux, rfl, hau, by rw [← hkp]; exact hk, rfl, rfl⟩
        obtain ⟨d, _, g1, _, _, hsend⟩ := sends_alike cfg e0 e sc calls calls hc (alike_histories_refl calls) p _ _ _ _ hsend0
        rw [h1] at g1; cases g1
        have hj := hp ⟨key, aux.control.securityLevel, _, c.frame.payload, c'.frame.payload⟩ ⟨p, c', hsend, h2, rfl⟩
        refine ⟨aux, c, _, protected_ (e key) aux.control.securityLevel _ c.frame.payload,
          protected_ (e' key) aux.control.securityLevel _ c'.frame.payload, h1, by rw [h2]; simp [ha.2.2.1], hsd.aux,
          ?_, ?_, hj, (ha1.trans (congrArg some w')), (ha0.trans (congrArg some w))⟩
        · rw [Job.authValue_at]; simp
        · rw [Job.authValue_at]; simp
    · left; rw [ha0, ha1]
    · left; rw [ha0, ha1]

theorem onAirBeforeTag_of {κ : Type} {cfg : Cfg} {e e' : BlockCipher κ} {sc : SecCtx κ} {calls calls' : List WriteCall}
    (h : AlikeHistories calls calls') (p : Nat)
    (ho : onAir cfg (Ccm.aead e') sc calls' p = onAir cfg (Ccm.aead e) sc calls p ∨
      ∃ aux c head x x', calls[p]? = some c ∧ calls'[p]?.map (fun c => c.frame.header) = some c.frame.header ∧
        c.frame.header.auxSec = some aux ∧ x.2.length = tagLength aux.control.securityLevel ∧
        x'.2.length = tagLength aux.control.securityLevel ∧ Prod.fst x' = Prod.fst x ∧
        onAir cfg (Ccm.aead e') sc calls' p = some (head ++ x'.1 ++ x'.2) ∧
        onAir cfg (Ccm.aead e) sc calls p = some (head ++ x.1 ++ x.2)) :
    onAirBeforeTag cfg (Ccm.aead e') sc calls' p = onAirBeforeTag cfg (Ccm.aead e) sc calls p := by
  unfold onAirBeforeTag
  rcases ho with h1 | ⟨aux, c, head, x, x', h1, h2, h3, h4, h5, h6, h7, h8⟩
  · rw [h1]
    rcases alike_get h p with ⟨h1, h2⟩ | ⟨c, c', h1, h2, ha⟩
    · rw [h1, h2]
    · rw [h1, h2]; simp only [Option.bind_some, ha.2.2.1]
  · rw [h7, h8]
    have g1 : (calls[p]?.bind fun c => c.frame.header.auxSec) = some aux := by rw [h1]; exact h3
    have g2 : (calls'[p]?.bind fun c => c.frame.header.auxSec) = some aux := by
      rcases hx : calls'[p]? with _ | c'
      · rw [hx] at h2; cases h2
      · rw [hx] at h2
        simp only [Option.map_some, Option.some.injEq] at h2
        simp only [Option.bind_some, h2, h3]
    rw [g1, g2]
    simp only [Option.map_some, Option.some.injEq]
    have cut : ∀ (a b : List UInt8) (t : Nat), b.length = t → (a ++ b).take ((a ++ b).length - t) = a := by
      intro a b t ht
      rw [List.length_append, ht, Nat.add_sub_cancel, List.take_left]
    rw [cut _ _ _ h4, cut _ _ _ h5, h6]

theorem sends_indep {κ : Type} (cfg : Cfg) (e e' : BlockCipher κ) (sc : SecCtx κ) (calls : List WriteCall)
    (hc : ∀ c ∈ calls, ContentFromApi c.frame.content) (p : Nat) (key : κ) (level : SecurityLevel) (nonce payload : List UInt8)
    (hs : Sends cfg e' sc calls p key level nonce payload) : Sends cfg e sc calls p key level nonce payload := by
  obtain ⟨c, c', g1, g2, rfl, hsend⟩ := sends_alike cfg e e' sc calls calls hc (alike_histories_refl calls) p _ _ _ _ hs
  rw [g1] at g2; cases g2
  exact hsend

/-! ## Fleets -/

/-- The jobs of two alike fleets. -/
def netJobs {κ : Type} (e : BlockCipher κ) (net net' : List (Sender κ)) (j : Job κ) : Prop :=
  ∃ (i : Nat) (s s' : Sender κ), net[i]? = some s ∧ net'[i]? = some s' ∧
    historyJobs s.cfg e s.context s.calls s'.calls j

theorem sends_nonce {κ : Type} {cfg : Cfg} {e : BlockCipher κ} {sc : SecCtx κ} {calls : List WriteCall} {p : Nat}
    {key : κ} {level : SecurityLevel} {nonce payload : List UInt8} (h : Sends cfg e sc calls p key level nonce payload) :
    ∃ c, nonce = nonceOctets sc.euid c level := by
  obtain ⟨_, _, _, _, _, _, _, _, _, h, _⟩ := h
  exact ⟨_, h⟩

theorem network_index {κ : Type} {net : List (Sender κ)} (hn : Fleet net) {i j : Nat} {s t : Sender κ}
    (hi : net[i]? = some s) (hj : net[j]? = some t) (h : s.context.euid = t.context.euid) : i = j := by
  obtain ⟨gi, rfl⟩ := List.getElem?_eq_some_iff.1 hi
  obtain ⟨gj, rfl⟩ := List.getElem?_eq_some_iff.1 hj
  rcases Nat.lt_trichotomy i j with hlt | heq | hlt
  · exact absurd h (List.pairwise_iff_getElem.1 hn.addresses i j gi gj hlt)
  · exact heq
  · exact absurd h.symm (List.pairwise_iff_getElem.1 hn.addresses j i gj gi hlt)

theorem network_api {κ : Type} {net : List (Sender κ)} (hn : Fleet net) {i : Nat} {s : Sender κ}
    (hi : net[i]? = some s) : ∀ c ∈ s.calls, ContentFromApi c.frame.content :=
  hn.api s (List.mem_of_getElem? hi)

theorem netJobs_jobs {κ : Type} (e : BlockCipher κ) {net net' : List (Sender κ)} (hn : Fleet net)
    (h : AlikeFleets net net') : Jobs (netJobs e net net') := by
  have one : ∀ {i : Nat} {s s' : Sender κ}, net[i]? = some s → net'[i]? = some s' →
      Jobs (historyJobs s.cfg e s.context s.calls s'.calls) := fun h1 h2 =>
    historyJobs_jobs _ e _ _ _ (network_api hn h1) (h.2 _ _ _ h1 h2).2.2
  constructor
  · rintro j ⟨i, s, s', h1, h2, hj⟩; exact (one h1 h2).nonce j hj
  · rintro j j' ⟨i, s, s', h1, h2, hj⟩ ⟨i', t, t', h1', h2', hj'⟩ heq
    have hii : i = i' := by
      obtain ⟨p, c, hs, _⟩ := hj
      obtain ⟨p', c', hs', _⟩ := hj'
      obtain ⟨x, hx⟩ := sends_nonce hs
      obtain ⟨x', hx'⟩ := sends_nonce hs'
      rw [hx, hx'] at heq
      exact network_index hn h1 h1' (nonceOctets_inj heq).1
    subst hii
    rw [h1] at h1'; cases h1'
    rw [h2] at h2'; cases h2'
    exact (one h1 h2).unique j j' hj hj' heq
  · rintro j ⟨i, s, s', h1, h2, hj⟩; exact (one h1 h2).length j hj
  · rintro j ⟨i, s, s', h1, h2, hj⟩; exact (one h1 h2).short j hj
  · rintro j ⟨i, s, s', h1, h2, hj⟩; exact (one h1 h2).clear j hj
  · rintro j ⟨i, s, s', h1, h2, hj⟩; exact (one h1 h2).level j hj

theorem alike_net_get {κ : Type} {net net' : List (Sender κ)} (h : AlikeFleets net net') (i : Nat) :
    (net[i]? = none ∧ net'[i]? = none) ∨ ∃ s s', net[i]? = some s ∧ net'[i]? = some s' ∧
      s'.cfg = s.cfg ∧ s'.context = s.context ∧ AlikeHistories s.calls s'.calls := by
  by_cases hp : i < net.length
  · have hp' : i < net'.length := by rw [h.1]; exact hp
    right
    exact ⟨net[i], net'[i], by simp [hp], by simp [hp'], h.2 i _ _ (by simp [hp]) (by simp [hp'])⟩
  · left
    have := h.1
    exact ⟨by simp; omega, by simp; omega⟩

theorem alike_network {κ : Type} {net net' : List (Sender κ)} (hn : Fleet net) (h : AlikeFleets net net') :
    Fleet net' := by
  constructor
  · rw [List.pairwise_iff_getElem]
    intro i j hi hj hij
    rcases alike_net_get h i with ⟨_, h2⟩ | ⟨s, s', h1, h2, _, ha, _⟩
    · simp [hi] at h2
    · rcases alike_net_get h j with ⟨_, h4⟩ | ⟨t, t', h3, h4, _, ha', _⟩
      · simp [hj] at h4
      · obtain ⟨_, rfl⟩ := List.getElem?_eq_some_iff.1 h2
        obtain ⟨_, rfl⟩ := List.getElem?_eq_some_iff.1 h4
        rw [ha, ha']
        obtain ⟨g1, rfl⟩ := List.getElem?_eq_some_iff.1 h1
        obtain ⟨g3, rfl⟩ := List.getElem?_eq_some_iff.1 h3
        exact List.pairwise_iff_getElem.1 hn.addresses i j g1 g3 hij
  · intro s' hs' c' hc'
    obtain ⟨i, hi⟩ := List.getElem?_of_mem hs'
    obtain ⟨p, hp⟩ := List.getElem?_of_mem hc'
    rcases alike_net_get h i with ⟨_, h2⟩ | ⟨s, t, h1, h2, _, _, ha⟩
    · rw [h2] at hi; cases hi
    · rw [h2] at hi; cases hi
      rcases alike_get ha p with ⟨_, g2⟩ | ⟨d, d', g1, g2, hd⟩
      · rw [g2] at hp; cases hp
      · rw [g2] at hp; cases hp
        rw [hd.2.2.2.1]
        exact network_api hn h1 d (List.mem_of_getElem? g1)

theorem sent_indep {κ : Type} {net : List (Sender κ)} (hn : Fleet net) (e e' : BlockCipher κ) {key : κ}
    {level : SecurityLevel} {nonce payload : List UInt8} (h : Sent e' net key level nonce payload) :
    Sent e net key level nonce payload := by
  obtain ⟨s, hs, p, h⟩ := h
  exact ⟨s, hs, p, sends_indep _ e e' _ _ (hn.api s hs) p _ _ _ _ h⟩

theorem good_iff {κ : Type} (e0 e : BlockCipher κ) {net net' : List (Sender κ)} (hn : Fleet net)
    (h : AlikeFleets net net') :
    Job.Good (netJobs e0 net net') e ↔ NoClash e net ∧ NoClash e net' := by
  have hn' := alike_network hn h
  have job : ∀ {key level nonce payload}, Sent e net key level nonce payload →
      ∃ payload', netJobs e0 net net' ⟨key, level, nonce, payload, payload'⟩ := by
    rintro key level nonce payload ⟨s, hs, p, hp⟩
    obtain ⟨i, hi⟩ := List.getElem?_of_mem hs
    have hs' := sends_indep _ e0 e _ _ (hn.api s hs) p key level nonce payload hp
    rcases alike_net_get h i with ⟨h1, _⟩ | ⟨t, t', h1, h2, _, _, ha⟩
    · rw [h1] at hi; cases hi
    · rw [h1] at hi; cases hi
      rcases alike_get ha p with ⟨g1, g2⟩ | ⟨c, c', g1, g2, _⟩
      · obtain ⟨_, call, aux, eui, h3, _⟩ := hp; rw [g1] at h3; cases h3
      · exact ⟨c'.frame.payload, i, _, _, h1, h2, p, c', hs', g2, rfl⟩
  have job' : ∀ {key level nonce payload'}, Sent e net' key level nonce payload' →
      ∃ payload, netJobs e0 net net' ⟨key, level, nonce, payload, payload'⟩ := by
    rintro key level nonce payload ⟨s, hs, p, hp⟩
    obtain ⟨i, hi⟩ := List.getElem?_of_mem hs
    rcases alike_net_get h i with ⟨_, h2⟩ | ⟨t, t', h1, h2, hcf, hcx, ha⟩
    · rw [h2] at hi; cases hi
    · rw [h2] at hi; cases hi
      rw [hcf, hcx] at hp
      obtain ⟨c, c', g1, g2, rfl, hs'⟩ := sends_alike _ e0 e _ _ _ (network_api hn h1) ha p key level nonce payload hp
      exact ⟨c.frame.payload, i, _, _, h1, h2, p, c', hs', g2, rfl⟩
  have back : ∀ {j}, netJobs e0 net net' j → Sent e net j.key j.level j.nonce j.payload ∧
      Sent e net' j.key j.level j.nonce j.payload' := by
    rintro j ⟨i, s, s', g1, g2, p, c', hs, hg, hp⟩
    refine ⟨⟨s, List.mem_of_getElem? g1, p, sends_indep _ e e0 _ _ (network_api hn g1) p _ _ _ _ hs⟩,
      s', List.mem_of_getElem? g2, p, ?_⟩
    obtain ⟨hcf, hcx, hal⟩ := h.2 i _ _ g1 g2
    rw [hcf, hcx]
    obtain ⟨h1, call, aux, eui, h2, h3, h4, h5, h6, h7, h8⟩ := hs
    have ha := hal.2 p _ _ h2 hg
    refine ⟨?_, c', aux, eui, hg, by rw [ha.2.2.1]; exact h3, h4, h5, by rw [ha.2.2.1]; exact h6, ?_, hp⟩
    · rw [alike_isSome _ e0 e _ _ _ (network_api hn g1) hal p]; exact h1
    · rw [alike_context _ e0 e _ _ _ (network_api hn g1) hal p]; exact h7
  constructor
  · intro hg
    constructor
    · intro key level level' nonce nonce' payload payload' hs hs' b hb i hi
      obtain ⟨x, hx⟩ := job hs
      obtain ⟨y, hy⟩ := job hs'
      exact hg _ _ hx hy rfl _ (.inl rfl) b hb i hi
    · intro key level level' nonce nonce' payload payload' hs hs' b hb i hi
      obtain ⟨x, hx⟩ := job' hs
      obtain ⟨y, hy⟩ := job' hs'
      exact hg _ _ hx hy rfl _ (.inr rfl) b hb i hi
  · rintro ⟨hn, hn'⟩ j j' hj hj' hk p hp b hb i hi
    obtain ⟨s1, s2⟩ := back hj
    obtain ⟨s1', s2'⟩ := back hj'
    rw [← hk] at s1' s2'
    rcases hp with rfl | rfl
    · exact hn _ _ _ _ _ _ _ s1 s1' b hb i hi
    · exact hn' _ _ _ _ _ _ _ s2 s2' b hb i hi

/-- Ciphers related by `g` on the protected parts put alike octets on the air. -/
theorem observed_of_jobs {κ : Type} (e0 e e' : BlockCipher κ) {net net' : List (Sender κ)} (hn : Fleet net)
    (h : AlikeFleets net net') (hp : ∀ j, netJobs e0 net net' j →
      protected_ (e' j.key) j.level j.nonce j.payload' = protected_ (e j.key) j.level j.nonce j.payload) :
    observed e' net' = observed e net := by
  funext i p
  unfold observed
  rcases alike_net_get h i with ⟨h1, h2⟩ | ⟨s, s', h1, h2, hcf, hcx, ha⟩
  · rw [h1, h2, Option.bind_none, Option.bind_none]
  · rw [h1, h2]
    simp only [Option.bind_some]
    rw [hcf, hcx]
    rcases onAir_of_jobs s.cfg e0 e e' s.context s.calls s'.calls (network_api hn h1) ha (fun x => x.1 ++ x.2)
      (fun j hj => by rw [hp j ⟨i, s, s', h1, h2, hj⟩]) p with h1 | ⟨aux, c, head, x, x', h1, h2, h3, h4, h5, h6, h7, h8⟩
    · exact h1
    · rw [h7, h8, List.append_assoc, List.append_assoc, h6]

/-- **C85** Whatever goes over the air up to the tags tells nothing about the payloads to be encrypted but their
length: block ciphers are paired one to one so that with its partner the other payloads put the same octets on the air. -/
theorem C85_secrecy_before_tags {κ : Type} (net net' : List (Sender κ)) (hn : Fleet net)
    (h : AlikeFleets net net') :
    ∃ φ : BlockCipher κ → BlockCipher κ, (∀ e, φ (φ e) = e) ∧
      ∀ e, observedBeforeTag (φ e) net' = observedBeforeTag e net := by
  have hJ := netJobs_jobs unimplementedCipher hn h
  refine ⟨Job.shift (netJobs unimplementedCipher net net') false, ?_, ?_⟩
  · intro e
    exact Job.shift_shift_of hJ false e (fun j i hj => by unfold Job.mask; rfl)
  · intro e
    funext i p
    unfold observedBeforeTag
    rcases alike_net_get h i with ⟨h1, h2⟩ | ⟨s, s', h1, h2, hcf, hcx, ha⟩
    · rw [h1, h2, Option.bind_none, Option.bind_none]
    · rw [h1, h2]
      simp only [Option.bind_some]
      rw [hcf, hcx]
      exact onAirBeforeTag_of ha p (onAir_of_jobs s.cfg unimplementedCipher e _ s.context s.calls s'.calls
        (network_api hn h1) ha Prod.fst (fun j hj => by
          have hj := show netJobs unimplementedCipher net net' j from ⟨i, s, s', h1, h2, hj⟩
          have := Job.encrypted_shift hJ false e j hj
          unfold protected_
          by_cases hm : MicOnly j.level
          · rw [if_pos hm, if_pos hm]
            exact hJ.clear j hj (by intro he; revert hm he; cases j.level <;> simp [MicOnly, EncMic])
          · rw [if_neg hm, if_neg hm]; exact this) p)

open Classical in
/-- **C85** And the same for all octets, tags included, among the ciphers that are never given a counter block
while authenticating (in either history): they are paired one to one among themselves so that with its partner the
other payloads put the same octets on the air. -/
theorem C85_secrecy {κ : Type} (net net' : List (Sender κ)) (hn : Fleet net) (h : AlikeFleets net net') :
    ∃ φ : BlockCipher κ → BlockCipher κ, (∀ e, φ (φ e) = e) ∧
      ∀ e, NoClash e net ∧ NoClash e net' →
        (NoClash (φ e) net ∧ NoClash (φ e) net') ∧ observed (φ e) net' = observed e net := by
  have hJ := netJobs_jobs unimplementedCipher hn h
  have hg := fun e => good_iff unimplementedCipher e hn h
  generalize hJe : netJobs unimplementedCipher net net' = J at *
  refine ⟨fun e => if Job.Good J e then Job.shift J true e else e, ?_, ?_⟩
  · intro e
    by_cases g : Job.Good J e
    · simp only [if_pos g, if_pos (Job.shift_good true e g)]
      exact Job.shift_shift_of hJ true e (fun j i hj => Job.shift_mask e g j hj i)
    · simp only [if_neg g]
  · intro e he
    have g := (hg e).2 he
    simp only [if_pos g]
    refine ⟨(hg _).1 (Job.shift_good true e g), ?_⟩
    exact observed_of_jobs unimplementedCipher e (Job.shift J true e) hn h
      (fun j hj => by rw [hJe] at hj; rw [Job.protected_shift hJ e g j hj])

/-! ## Witnesses -/

/-- Two secured frames of the sample sender, with these payloads. -/
def samplePair (a b : List UInt8) : List WriteCall :=
  [⟨{ sampleSecured with payload := a }, .none, List.replicate 60 0⟩,
   ⟨{ sampleSecured with payload := b }, .none, List.replicate 60 0⟩]

/-- A toy cipher. -/
def toyCipher : BlockCipher Nat := fun k b => Vector.ofFn fun i => b[15 - i.val] * 3 + UInt8.ofNat k

theorem counterBlock_head (n : List UInt8) (hn : n.length = 13) (i : Nat) : octet (counterBlock n i).toList 0 = 1 := by
  rw [octet_counterBlock n hn i 0 (by decide)]; rfl

/-- For two frames of the sample sender, whether there is a clash shows in the first octets. -/
theorem samplePair_noClash (e : BlockCipher Nat) (a b : List UInt8)
    (h : ∀ p payload, (p = 0 ∧ payload = a ∨ p = 1 ∧ payload = b) →
      ∀ x ∈ macInputs (e 5) .encmic32 (nonceOctets sampleSender.euid
        (contextAfter sampleCfg (Ccm.aead e) sampleSender ((samplePair a b).take p)).frameCounter .encmic32) payload,
      octet x.toList 0 ≠ 1) : NoClash e [⟨sampleCfg, sampleSender, samplePair a b⟩] := by
  rintro key level level' nonce nonce' payload payload' ⟨s, hs, p, hsend⟩ ⟨s', hs', q, hsend'⟩ x hx i hi hcl
  rw [List.mem_singleton] at hs hs'
  subst hs hs'
  obtain ⟨_, call, aux, eui, h2, h3, h4, h5, h6, h7, h8⟩ := hsend
  obtain ⟨_, call', aux', eui', h2', h3', h4', h5', h6', h7', h8'⟩ := hsend'
  have hn' : nonce'.length = 13 := by rw [h7']; simp [nonceOctets]
  have hk : key = 5 := by
    simp only [sampleSender, Option.some.injEq, Prod.mk.injEq] at h6
    exact h6.2.symm
  have hp : p = 0 ∧ call.frame = { sampleSecured with payload := a } ∨
      p = 1 ∧ call.frame = { sampleSecured with payload := b } := by
    rcases p with _ | _ | p
    · left; simp only [samplePair, List.getElem?_cons_zero, Option.some.injEq] at h2; subst h2; exact ⟨rfl, rfl⟩
    · right; simp only [samplePair, List.getElem?_cons_succ, List.getElem?_cons_zero, Option.some.injEq] at h2
      subst h2; exact ⟨rfl, rfl⟩
    · simp [samplePair] at h2
  have hl : level = .encmic32 := by
    rw [← h4]
    have : call.frame.header = sampleHeader := by rcases hp with ⟨_, h⟩ | ⟨_, h⟩ <;> rw [h] <;> rfl
    rw [this] at h3
    simp only [sampleHeader, Option.some.injEq] at h3
    rw [← h3]
  have hz : p = 0 ∧ payload = a ∨ p = 1 ∧ payload = b := by
    rcases hp with ⟨h, g⟩ | ⟨h, g⟩
    · left; rw [h8, g]; exact ⟨h, rfl⟩
    · right; rw [h8, g]; exact ⟨h, rfl⟩
  rw [hk, hl, h7, hl] at hx
  exact h p payload hz x hx (by rw [hcl]; exact counterBlock_head nonce' hn' i)

/-- Witness for C85: two pairs of secrets, alike, sent over the air under the toy cipher without a clash; and what
is on the air is not the same (only with another cipher it is). -/
example :
    let secret : List (Sender Nat) := [⟨sampleCfg, sampleSender, samplePair [0xde, 0xf0] (List.replicate 20 7)⟩]
    let other : List (Sender Nat) := [⟨sampleCfg, sampleSender, samplePair [1, 2] (List.replicate 20 9)⟩]
    Fleet secret ∧ AlikeFleets secret other ∧ NoClash toyCipher secret ∧ NoClash toyCipher other ∧
    (observed toyCipher secret 0 0).isSome = true ∧ (observed toyCipher secret 0 1).isSome = true ∧
    observed toyCipher secret 0 1 ≠ observed toyCipher other 0 1 := by
  refine ⟨⟨by simp, ?_⟩, ⟨rfl, ?_⟩, ?_, ?_, by decide +kernel, by decide +kernel, by decide +kernel⟩
  · intro s hs c hc
    rw [List.mem_singleton] at hs
    subst hs
    simp only [samplePair, List.mem_cons, List.not_mem_nil, or_false] at hc
    rcases hc with rfl | rfl <;> trivial
  · intro i s s' hs hs'
    rcases i with _ | i
    · simp only [List.getElem?_cons_zero, Option.some.injEq] at hs hs'
      subst hs hs'
      refine ⟨rfl, rfl, rfl, ?_⟩
      intro p c c' h h'
      rcases p with _ | _ | p
      · simp only [samplePair, List.getElem?_cons_zero, Option.some.injEq] at h h'
        subst h h'
        exact ⟨rfl, rfl, rfl, rfl, rfl, .inr ⟨rfl, sampleAux, rfl, by decide⟩⟩
      · simp only [samplePair, List.getElem?_cons_succ, List.getElem?_cons_zero, Option.some.injEq] at h h'
        subst h h'
        exact ⟨rfl, rfl, rfl, rfl, rfl, .inr ⟨rfl, sampleAux, rfl, by decide⟩⟩
      · simp [samplePair] at h
    · simp at hs
  · apply samplePair_noClash
    rintro p payload (⟨rfl, rfl⟩ | ⟨rfl, rfl⟩) <;> decide +kernel
  · apply samplePair_noClash
    rintro p payload (⟨rfl, rfl⟩ | ⟨rfl, rfl⟩) <;> decide +kernel

end Verif
