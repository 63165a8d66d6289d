import Verif.Props.Cipher
import Verif.Spec.CcmSpec

/-!
# Properties: C79, CCM is the CCM of RFC 3610
-/

namespace Verif
open Spec

namespace Ccm
open Rfc3610

theorem be_eq (k n : Nat) : be k n = number k n := by
  unfold be number
  rw [natToLE_eq_le]
  apply List.ext_getElem
  · simp [le]
  · intro i h1 h2
    simp only [List.length_map, List.length_range] at h2
    simp [le, List.getElem_reverse]

theorem getD_eq (l : List UInt8) (i : Nat) : l.getD i 0 = octet l i := by
  simp [octet, List.getD_eq_getElem?_getD]

theorem block_eq (l : List UInt8) : block l = Vector.ofFn fun i => octet l i.val := by
  unfold block; simp only [getD_eq]

theorem xorBlock_eq (a b : Vector UInt8 16) : xorBlock a b = Rfc3610.xor a b := by
  apply Vector.ext
  intro i hi
  simp [xorBlock, Rfc3610.xor]

theorem blocks_cons (l : List UInt8) (h : l ≠ []) :
    blocks l = block (l.take 16) :: blocks (l.drop 16) := by
  have hpos : 0 < l.length := List.length_pos_iff.2 h
  unfold blocks
  have hn : (l.length + 15) / 16 = (l.drop 16).length.add 15 / 16 + 1 := by
    rw [List.length_drop]
    show _ = (l.length - 16 + 15) / 16 + 1
    omega
  rw [hn, List.range_succ_eq_map, List.map_cons, List.map_map]
  congr 1
  · rw [block_eq]
    apply Vector.ext
    intro i hi
    simp [octet, List.getElem?_take, hi]
  · apply List.map_congr_left
    intro j _
    apply Vector.ext
    intro i hi
    simp only [Function.comp, Vector.getElem_ofFn, octet, List.getElem?_drop]
    congr 2
    omega

theorem macUpdate_eq (e : Vector UInt8 16 → Vector UInt8 16) (fuel : Nat) (x : Vector UInt8 16) (l : List UInt8)
    (hf : l.length ≤ 16 * fuel) :
    macUpdate e fuel x l = (blocks l).foldl (fun x b => e (Rfc3610.xor x b)) x := by
  induction fuel generalizing x l with
  | zero =>
    have : l = [] := List.length_eq_zero_iff.1 (by omega)
    subst this; rfl
  | succ n ih =>
    cases l with
    | nil => rfl
    | cons y ys =>
      rw [blocks_cons _ (by simp), List.foldl_cons, macUpdate, ih _ _ (by simp at hf ⊢; omega)]
      · simp only [macStep, xorBlock_eq]
      · simp

theorem b0_eq (t : Nat) (nonce aad msg : List UInt8) (hn : nonce.length = 13) :
    b0 t nonce aad msg = firstBlock t nonce aad msg := by
  unfold b0 firstBlock
  rw [block_eq, hn, List.take_of_length_le (by omega), be_eq]
  have : (if aad.isEmpty = true then (0 : Nat) else 1) = if aad.length = 0 then 0 else 1 := by
    cases aad <;> simp
  simp only [this, List.cons_append, List.nil_append]

theorem mac_eq (e : Vector UInt8 16 → Vector UInt8 16) (t : Nat) (nonce aad msg : List UInt8)
    (hn : nonce.length = 13) :
    mac e t nonce aad msg = chained e (authenticated t nonce aad msg) := by
  unfold mac chained authenticated
  rw [List.foldl_cons, List.foldl_append]
  simp only []
  rw [macUpdate_eq _ _ _ _ (by omega)]
  congr 1
  cases aad with
  | nil => simp [macStep, xorBlock_eq, b0_eq _ _ _ _ hn]
  | cons y ys =>
    have h1 : (List.isEmpty (y :: ys)) = false := rfl
    have h2 : ¬ (y :: ys).length = 0 := by simp
    simp only [h1, if_neg h2]
    rw [if_neg (by decide), macUpdate_eq _ _ _ _ (by omega), macStep, xorBlock_eq, b0_eq _ _ _ _ hn]
    congr 2
    unfold aadHeader lengthOf
    simp only [be_eq, List.cons_append, List.nil_append]

theorem ctrBlock_eq (nonce : List UInt8) (i : Nat) (hn : nonce.length = 13) :
    ctrBlock nonce i = counterBlock nonce i := by
  unfold ctrBlock counterBlock
  rw [block_eq, hn, List.take_of_length_le (by omega), be_eq]
  rfl

theorem keystream_getElem (e : Vector UInt8 16 → Vector UInt8 16) (nonce : List UInt8) (i n j : Nat)
    (hj : j < 16 * n) :
    (keystream e nonce i n)[j]? = (e (ctrBlock nonce (i + j / 16))).toList[j % 16]? := by
  induction n with
  | zero => omega
  | succ n ih =>
    have hk : keystream e nonce i (n + 1) = keystream e nonce i n ++ (e (ctrBlock nonce (i + n))).toList := by
      unfold keystream; rw [List.range_succ, List.flatMap_append]; simp
    rw [hk, List.getElem?_append, keystream_length]
    split
    · rename_i h; exact ih h
    · rename_i h
      have h1 : j / 16 = n := by omega
      have h2 : j - 16 * n = j % 16 := by omega
      rw [h1, h2]

theorem ctr_eq (e : Vector UInt8 16 → Vector UInt8 16) (nonce buf : List UInt8) (hn : nonce.length = 13) :
    ctr e nonce buf = encrypted e nonce buf := by
  apply List.ext_getElem
  · rw [ctr_length]; simp [encrypted]
  · intro j h1 h2
    rw [ctr_length] at h1
    have hk := keystream_getElem e nonce 1 ((buf.length + 15) / 16) j (by omega)
    have hl : j < (keystream e nonce 1 ((buf.length + 15) / 16)).length := by rw [keystream_length]; omega
    rw [List.getElem?_eq_getElem hl] at hk
    simp only [ctr, xorBytes, encrypted, List.getElem_zipWith, List.getElem_mapIdx, octet]
    rw [← ctrBlock_eq _ _ hn, ← hk]
    rfl

theorem tag_eq (e : Vector UInt8 16 → Vector UInt8 16) (t : Nat) (ht : t ≤ 16) (nonce aad msg : List UInt8)
    (hn : nonce.length = 13) : tag e t nonce aad msg = authValue e t nonce aad msg := by
  apply List.ext_getElem
  · rw [tag_length e t ht]; simp [authValue]
  · intro j h1 h2
    have h1 := h1
    rw [tag_length e t ht] at h1
    simp only [tag, xorBytes, authValue, List.getElem_take, List.getElem_zipWith, List.getElem_map,
      List.getElem_range, octet, mac_eq _ _ _ _ _ hn, ctrBlock_eq _ _ hn]
    rw [List.getElem?_eq_getElem (by simp; omega), List.getElem?_eq_getElem (by simp; omega)]
    rfl

end Ccm

/-- **C79** Encryption gives the ciphertext and the authentication value of RFC 3610, for every block
cipher, key, nonce of 13 octets, associated data and message; messages whose length does not fit the
length field are refused and left alone. -/
theorem C79_encrypt {κ : Type} (cipher : BlockCipher κ) (k : κ) (t : Nat) (ht : t ≤ 16)
    (nonce aad msg : List UInt8) (hn : nonce.length = 13) :
    (Ccm.aead cipher).encrypt t k nonce aad msg =
      if msg.length < 2 ^ 16 then
        (some (Rfc3610.authValue (cipher k) t nonce aad msg), Rfc3610.encrypted (cipher k) nonce msg)
      else (none, msg) := by
  have hm : Ccm.maxLen = 65535 := rfl
  simp only [Ccm.aead, Ccm.encrypt]
  by_cases h : msg.length < 2 ^ 16
  · rw [if_pos h, if_neg (by rw [hm]; omega), Ccm.tag_eq _ _ ht _ _ _ hn, Ccm.ctr_eq _ _ _ hn]
  · rw [if_neg h, if_pos (by rw [hm]; omega)]

/-- **C79** Decryption succeeds exactly when the tag is the authentication value of the message the
octets decrypt to, and then gives that message; on a wrong tag the buffer is zeros. -/
theorem C79_decrypt {κ : Type} (cipher : BlockCipher κ) (k : κ) (t : Nat) (ht : t ≤ 16)
    (nonce aad c tag : List UInt8) (hn : nonce.length = 13) (hc : c.length < 2 ^ 16) :
    (Ccm.aead cipher).decrypt t k nonce aad c tag =
      if tag = Rfc3610.authValue (cipher k) t nonce aad (Rfc3610.encrypted (cipher k) nonce c) then
        (true, Rfc3610.encrypted (cipher k) nonce c)
      else (false, List.replicate c.length 0) := by
  have hm : Ccm.maxLen = 65535 := rfl
  simp only [Ccm.aead, Ccm.decrypt]
  rw [if_neg (by rw [hm]; omega), Ccm.tag_eq _ _ ht _ _ _ hn, Ccm.ctr_eq _ _ _ hn]
  split
  · rename_i h; rw [if_pos h.symm]
  · rename_i h; rw [if_neg fun h' => h h'.symm]

/-- **C79** The masking octets undo themselves. -/
theorem C79_involutive (E : Rfc3610.Block → Rfc3610.Block) (nonce m : List UInt8) :
    Rfc3610.encrypted E nonce (Rfc3610.encrypted E nonce m) = m := by
  unfold Rfc3610.encrypted
  apply List.ext_getElem
  · simp
  · intro j h1 h2
    simp only [List.getElem_mapIdx]
    rw [UInt8.xor_assoc, UInt8.xor_self, UInt8.xor_zero]

theorem protect_rfc {κ : Type} (cipher : BlockCipher κ) (l : SecurityLevel) (hl : Authenticating l) (k : κ)
    (nonce payload : List UInt8) (hn : nonce.length = 13) (hp : EncMic l → payload.length < 2 ^ 16) :
    protect (Ccm.aead cipher) l k nonce payload = some (Rfc3610.protected_ (cipher k) l nonce payload) := by
  have ht : tagLength l ≤ 16 := by cases l <;> decide
  unfold protect Rfc3610.protected_
  rw [C79_encrypt _ _ _ ht _ _ _ hn, C79_encrypt _ _ _ ht _ _ _ hn,
    if_pos (show ([] : List UInt8).length < 2 ^ 16 by decide)]
  by_cases h : MicOnly l
  · rw [if_pos h, if_pos h]; rfl
  · have he := hl.resolve_left h
    rw [if_neg h, if_neg h, if_pos he, if_pos (hp he)]

/-- **C79** A secured data frame written with CCM over any block cipher carries, behind its header and
content, exactly the octets of RFC 3610 for the nonce of the sender's address, counter and level. -/
theorem C79_written {κ : Type} (cfg : Cfg) (cipher : BlockCipher κ) (f : Frame)
    (aux : AuxHeader) (hf : SecuredData f aux) (hl : Authenticating aux.control.securityLevel)
    (sc : SecCtx κ) (buf : List UInt8) (n : Nat) (eui : UInt64) (key : κ)
    (hk : sc.keyProvider .dst aux.keyIdentifier f.header.destination = some (eui, key))
    (hok : (f.tryWrite cfg (Ccm.aead cipher) ⟨.none, some sc⟩ buf).1 = .ok n) :
    (f.tryWrite cfg (Ccm.aead cipher) ⟨.none, some sc⟩ buf).2.1.take n =
      securedHead cfg sc.frameCounter f ++
        (Rfc3610.protected_ (cipher key) aux.control.securityLevel
          (nonceOctets sc.euid sc.frameCounter aux.control.securityLevel) f.payload).1 ++
        (Rfc3610.protected_ (cipher key) aux.control.securityLevel
          (nonceOctets sc.euid sc.frameCounter aux.control.securityLevel) f.payload).2 := by
  rcases hw : f.tryWrite cfg (Ccm.aead cipher) ⟨.none, some sc⟩ buf with ⟨r, buf', ctx'⟩
  rw [hw] at hok
  simp only at hok
  subst hok
  obtain ⟨_, hsz, eui', key', body, tag, hk', hp, hn, hle, hb, _⟩ :=
    (C40_secured_write_iff cfg _ (C50_ccm_laws cipher).toAeadTyped f aux hf hl sc buf buf' n ctx').1 hw
  rw [hk] at hk'
  simp only [Option.some.injEq, Prod.mk.injEq] at hk'
  obtain ⟨_, rfl⟩ := hk'
  rw [protect_rfc cipher _ hl _ _ _ (by simp [nonceOctets]) (fun _ => by unfold securedSize at hsz; omega)] at hp
  have hp := Option.some.inj hp
  rw [hp]
  simp only [hb]
  rw [List.take_append_of_le_length (by simp; omega), List.take_of_length_le (by simp; omega)]

theorem protect_long {κ : Type} (cipher : BlockCipher κ) (l : SecurityLevel) (k : κ)
    (nonce payload body tag : List UInt8) (he : EncMic l)
    (hp : protect (Ccm.aead cipher) l k nonce payload = some (body, tag)) : payload.length < 2 ^ 16 := by
  have hm : Ccm.maxLen = 65535 := rfl
  unfold protect at hp
  rw [if_neg (by intro h; revert h he; cases l <;> simp [MicOnly, EncMic]), if_pos he] at hp
  simp only [Ccm.aead, Ccm.encrypt] at hp
  by_cases hlen : Ccm.maxLen < payload.length
  · rw [if_pos hlen] at hp; simp at hp
  · rw [hm] at hlen; omega

/-- **C79** A received frame's octets verify, revealing `payload`, exactly when the octets behind its
header are those of RFC 3610 for that payload. -/
theorem C79_verifies {κ σ : Type} (cipher : BlockCipher κ) (buf : List UInt8) (x : Incoming κ σ)
    (hl : Authenticating x.level) (body tag payload : List UInt8) :
    Verifies (Ccm.aead cipher) buf x body tag payload ↔
      (EncMic x.level → payload.length < 2 ^ 16) ∧ buf.drop x.headLength = body ++ tag ∧
      (body, tag) = Rfc3610.protected_ (cipher x.key) x.level x.nonce payload := by
  have hn : x.nonce.length = 13 := by simp [Incoming.nonce, nonceOctets]
  rw [C38_verifies_iff _ (C50_ccm_laws cipher) buf x body tag payload]
  constructor
  · rintro ⟨h1, h2⟩
    have hp := fun he => protect_long cipher x.level x.key x.nonce payload body tag he h2
    rw [protect_rfc cipher x.level hl x.key x.nonce payload hn hp] at h2
    exact ⟨hp, h1, (Option.some.inj h2).symm⟩
  · rintro ⟨hp, h1, h2⟩
    exact ⟨h1, by rw [protect_rfc cipher x.level hl x.key x.nonce payload hn hp, h2]⟩

/-- **C79** With CCM over any block cipher, a secured frame is accepted with a payload exactly when it
passes the checks and the octets behind its header are those of RFC 3610 for that payload, under the
key found and the nonce of the sender's address, the frame's counter and its level. -/
theorem C79_accepted_iff {κ σ : Type} (cfg : Cfg) (cipher : BlockCipher κ) (buf : List UInt8)
    (sc : SecCtx κ) (lookup : DevLookup σ) (dev : σ) (payload : List UInt8) :
    (∃ f k, (Frame.tryReadAndUnsecure cfg (Ccm.aead cipher) buf ⟨.none, some sc⟩ lookup dev).1 = .ok (f, k) ∧
      Secured f.header ∧ f.payload = payload) ↔
    ∃ x, PassesChecks cfg sc lookup dev buf x ∧
      (cfg.overflowChecks = true → x.aux.frameCounter ≠ maxCounter) ∧
      (EncMic x.level → payload.length < 2 ^ 16) ∧
      buf.drop x.headLength = (Rfc3610.protected_ (cipher x.key) x.level x.nonce payload).1 ++
        (Rfc3610.protected_ (cipher x.key) x.level x.nonce payload).2 := by
  have ht := (C50_ccm_laws cipher).toAeadTyped
  constructor
  · rintro ⟨f, k, hok, hs, rfl⟩
    rcases hr : Frame.tryReadAndUnsecure cfg (Ccm.aead cipher) buf ⟨.none, some sc⟩ lookup dev
      with ⟨r, buf', ctx', dev'⟩
    rw [hr] at hok
    simp only at hok
    subst hok
    obtain ⟨x, body, tag, payload, hx, hv, hm, rfl, _⟩ :=
      (C38_accept_iff cfg _ ht buf buf' sc lookup dev dev' f k ctx').1 ⟨hr, hs⟩
    obtain ⟨hp, h1, h2⟩ := (C79_verifies cipher buf x hx.level body tag payload).1 hv
    refine ⟨x, hx, hm, hp, ?_⟩
    show _ = (Rfc3610.protected_ (cipher x.key) x.level x.nonce payload).1 ++
        (Rfc3610.protected_ (cipher x.key) x.level x.nonce payload).2
    rw [← h2]; exact h1
  · rintro ⟨x, hx, hm, hp, hd⟩
    have hv := (C79_verifies cipher buf x hx.level _ _ payload).2 ⟨hp, hd, rfl⟩
    have := (C38_accept_iff cfg _ ht buf _ sc lookup dev _ _ _ _).2
      ⟨x, _, _, payload, hx, hv, hm, rfl, rfl, rfl, rfl, rfl⟩
    exact ⟨_, _, congrArg Prod.fst this.1, this.2, rfl⟩

/-- Witness: a toy cipher, a nonce of 13 octets, 20 octets of message and 3 of associated data. -/
example : (Rfc3610.authValue (fun b => b.map (· + 1)) 8 (List.replicate 13 7) [1, 2, 3] (List.replicate 20 9)).length
    = 8 ∧ (Rfc3610.authenticated 8 (List.replicate 13 7) [1, 2, 3] (List.replicate 20 9)).length = 4 := by
  decide +kernel

/-- Witness: the sample secured frame is written with CCM over the toy cipher, and its key is found. -/
example : (sampleSecured.tryWrite sampleCfg (Ccm.aead fun (k : Nat) b => b.map (· + UInt8.ofNat k)) ⟨.none, some sampleSender⟩
      (List.replicate 40 0)).1 = .ok 31 ∧
    (sampleSender.keyProvider .dst sampleIncoming.aux.keyIdentifier sampleSecured.header.destination).isSome = true := by
  decide +kernel

/-- Witness for C61 between hosts of different byte order: with CCM over a toy cipher, a big-endian sender and a
little-endian receiver that knows the key under the key source as it finds it (reversed): the counter
`0x03030303` gets through, the counter `0x01020304` does not. -/
example :
    let toy : Aead Nat := Ccm.aead fun k b => Vector.ofFn fun i => b[15 - i.val] * 3 + UInt8.ofNat k
    let big : Cfg := ⟨false, .w64, .big⟩
    let sender (c : UInt32) : SecCtx Nat := ⟨0x0102030405060708, c, fun _ _ _ => some (9, 5)⟩
    let receiver : SecCtx Nat := ⟨0, 0, fun _ k _ =>
      if k = some ⟨some (.short 0xD4C3B2A1), 9⟩ then some (0x0102030405060708, 5) else none⟩
    let sent (c : UInt32) := (sampleSecured.tryWrite big toy ⟨.none, some (sender c)⟩ (List.replicate 40 0)).2.1.take 31
    let received (c : UInt32) := (Frame.tryReadAndUnsecure sampleCfg toy (sent c) ⟨.none, some receiver⟩ sampleLookup
      ⟨3, false⟩).1
    (received 0x03030303).holds (fun r => r.1.payload = sampleSecured.payload) ∧
    received 0x01020304 = .err .transformationError := by decide +kernel

theorem octet_counterBlock (N : List UInt8) (hlen : N.length = 13) (i k : Nat) (hk : k < 16) :
    Rfc3610.octet (Rfc3610.counterBlock N i).toList k = Rfc3610.octet (1 :: (N ++ Rfc3610.number 2 i)) k := by
  unfold Rfc3610.counterBlock
  rw [hlen]
  conv => lhs; rw [Rfc3610.octet, Vector.getElem?_toList, Vector.getElem?_eq_getElem hk, Vector.getElem_ofFn,
    Option.getD_some]
  rfl

/-- **C58** What the placeholder cipher leaves of encryption: behind the header stand the payload's octets,
octet `j` masked with octet `j mod 16` of `1`, the nonce and the number of the 16-octet group, all of which
stand in clear in the frame or are the sender's address; then a tag. -/
theorem C58_octets_in_clear {κ : Type} (cfg : Cfg) (f : Frame) (aux : AuxHeader) (hf : SecuredData f aux)
    (hl : EncMic aux.control.securityLevel) (sc : SecCtx κ) (buf : List UInt8) (n : Nat)
    (hok : (f.tryWrite cfg (Ccm.aead unimplementedCipher) ⟨.none, some sc⟩ buf).1 = .ok n) :
    ∃ tag, tag.length = tagLength aux.control.securityLevel ∧
      (f.tryWrite cfg (Ccm.aead unimplementedCipher) ⟨.none, some sc⟩ buf).2.1.take n =
        securedHead cfg sc.frameCounter f ++
        (f.payload.mapIdx fun j x => x ^^^ Rfc3610.octet
          (1 :: (nonceOctets sc.euid sc.frameCounter aux.control.securityLevel ++ Rfc3610.number 2 (1 + j / 16)))
          (j % 16)) ++ tag := by
  have hla : Authenticating aux.control.securityLevel := .inr hl
  rcases hw : f.tryWrite cfg (Ccm.aead unimplementedCipher) ⟨.none, some sc⟩ buf with ⟨r, buf', ctx'⟩
  have hok' := hok
  rw [hw] at hok'
  simp only at hok'
  subst hok'
  obtain ⟨_, _, eui, key, _, _, hk, _⟩ := (C40_secured_write_iff cfg _
    (C50_ccm_laws unimplementedCipher).toAeadTyped f aux hf hla sc buf buf' n ctx').1 hw
  have h := C79_written cfg unimplementedCipher f aux hf hla sc buf n eui key hk hok
  rw [hw] at h
  generalize aux.control.securityLevel = l at *
  have hnm : ¬ MicOnly l := by
    intro h; revert h hl; cases l <;> simp [MicOnly, EncMic]
  generalize hN : nonceOctets sc.euid sc.frameCounter l = N at *
  have hlen : N.length = 13 := by rw [← hN]; simp [nonceOctets]
  simp only [Rfc3610.protected_, if_neg hnm] at h
  refine ⟨Rfc3610.authValue (unimplementedCipher key) (tagLength l) N [] f.payload, ?_, h.trans ?_⟩
  · simp [Rfc3610.authValue]
  · have he : Rfc3610.encrypted (unimplementedCipher key) N f.payload = f.payload.mapIdx fun j x =>
        x ^^^ Rfc3610.octet (1 :: (N ++ Rfc3610.number 2 (1 + j / 16))) (j % 16) := by
      unfold Rfc3610.encrypted
      apply List.ext_getElem
      · rw [List.length_mapIdx, List.length_mapIdx]
      · intro j h1 h2
        rw [List.getElem_mapIdx, List.getElem_mapIdx, unimplementedCipher,
          octet_counterBlock N hlen _ _ (Nat.mod_lt _ (by decide))]
    rw [he]

/-- Witness: the sample frame written with the placeholder cipher. -/
example : (sampleSecured.tryWrite sampleCfg (Ccm.aead unimplementedCipher) ⟨.none, some sampleSender⟩
      (List.replicate 40 0)).1 = .ok 31 ∧ EncMic sampleAux.control.securityLevel := by
  exact ⟨by decide +kernel, by decide⟩

end Verif
