import Verif.Props.Secrecy
import Verif.Props.SecureRead

/-!
# C86 Forging a frame under an unspent nonce
-/

namespace Verif

open Spec Rfc3610

theorem replaced_off {κ : Type} (e : BlockCipher κ) (key : κ) (b v : Block) (k : κ) (c : Block)
    (h : k = key → c ≠ b) : replaced e key b v k c = e k c := by
  unfold replaced
  rw [if_neg fun hh => h hh.1 hh.2]

theorem replaced_at {κ : Type} (e : BlockCipher κ) (key : κ) (b v : Block) : replaced e key b v key b = v := by
  unfold replaced
  rw [if_pos ⟨rfl, rfl⟩]

theorem encrypted_replaced {κ : Type} (e : BlockCipher κ) (key : κ) (n : List UInt8) (w : Block) (hn : n.length = 13)
    (k : κ) (m : List UInt8) (hm : m.length < 2 ^ 16) (N : List UInt8) (hN : N.length = 13) :
    encrypted (replaced e key (counterBlock n 0) w k) N m = encrypted (e k) N m := by
  unfold encrypted
  apply List.ext_getElem
  · simp
  · intro t h1 h2
    simp only [List.length_mapIdx] at h1 h2
    simp only [List.getElem_mapIdx]
    rw [replaced_off e key _ w k _ (fun _ hc => by
      have := ((counterBlock_inj _ _ hN hn _ _ (by omega) (by omega)).1 hc).2
      omega)]

theorem passes_unique {κ σ : Type} {cfg : Cfg} {sc : SecCtx κ} {lookup : DevLookup σ} {dev : σ} {buf : List UInt8}
    {x y : Incoming κ σ} (hx : PassesChecks cfg sc lookup dev buf x) (hy : PassesChecks cfg sc lookup dev buf y) :
    y = x := by
  obtain ⟨xh, xn, xa, xe, xk, xsrc, xl, xd, xst⟩ := x
  obtain ⟨yh, yn, ya, ye, yk, ysrc, yl, yd, yst⟩ := y
  obtain ⟨y1, _, _, y4, _, y6, y7, y8, _, _⟩ := hy
  obtain ⟨x1, _, _, x4, _, x6, x7, x8, _, _⟩ := hx
  simp only at y1 y4 y6 y7 y8 x1 x4 x6 x7 x8
  rw [x1] at y1
  simp only [Out.ok.injEq, Prod.mk.injEq] at y1
  obtain ⟨rfl, rfl⟩ := y1
  rw [x4] at y4
  cases Option.some.inj y4
  rw [x7] at y7
  cases Option.some.inj y7
  rw [x6] at y6
  cases Option.some.inj y6
  rw [x8] at y8
  cases y8
  rfl

/-- What an unspent nonce's first counter block is mapped to does not show on the air. -/
theorem onAir_replaced {κ : Type} (cfg : Cfg) (e : BlockCipher κ) (sc : SecCtx κ) (calls : List WriteCall)
    (hc : ∀ c ∈ calls, ContentFromApi c.frame.content) (key : κ) (nonce : List UInt8) (hn : nonce.length = 13)
    (hu : Unspent cfg e sc calls key nonce) (v : Block) (p : Nat) :
    onAir cfg (Ccm.aead (replaced e key (counterBlock nonce 0) v)) sc calls p = onAir cfg (Ccm.aead e) sc calls p := by
  have hJ := historyJobs_jobs cfg e sc calls calls hc (alike_histories_refl calls)
  have := onAir_of_jobs cfg e e (replaced e key (counterBlock nonce 0) v) sc calls calls hc (alike_histories_refl calls)
    (fun x => x.1 ++ x.2) (fun j hj => by
      have hp : j.payload' = j.payload := by
        obtain ⟨p, c', ⟨_, call, _, _, h2, _, _, _, _, _, h8⟩, hg, hp⟩ := hj
        rw [hg] at h2; cases h2
        rw [hp, h8]
      have hs := hJ.short j hj
      have hN := hJ.nonce j hj
      obtain ⟨q, _, hsend, _, _⟩ := hj
      have hoff : ∀ b, j.key = key → b = counterBlock nonce 0 →
          b ∉ macInputs (e j.key) j.level j.nonce j.payload ∧ j.nonce ≠ nonce := by
        rintro b hk rfl
        rw [← hk] at hu
        have := hu q _ _ _ hsend
        exact ⟨this.2, this.1⟩
      have e1 : encrypted (replaced e key (counterBlock nonce 0) v j.key) j.nonce j.payload =
          encrypted (e j.key) j.nonce j.payload := encrypted_replaced e key nonce v hn j.key _ (by omega) _ hN
      have e2 : chained (replaced e key (counterBlock nonce 0) v j.key) (authenticatedAt j.level j.nonce j.payload) =
          chained (e j.key) (authenticatedAt j.level j.nonce j.payload) :=
        (chain_congr (e j.key) _ _ (Vector.replicate 16 0) (fun b hb => replaced_off e key _ v j.key b
          (fun hk hbb => (hoff b hk hbb).1 hb))).2
      have e3 : replaced e key (counterBlock nonce 0) v j.key (counterBlock j.nonce 0) =
          e j.key (counterBlock j.nonce 0) := replaced_off e key _ v j.key _ (fun hk hbb =>
        (hoff _ hk rfl).2 ((counterBlock_inj _ _ hN hn 0 0 (by omega) (by omega)).1 hbb).1)
      rw [hp]
      have e4 : protected_ (replaced e key (counterBlock nonce 0) v j.key) j.level j.nonce j.payload =
          protected_ (e j.key) j.level j.nonce j.payload := by
        apply Prod.ext
        · unfold protected_
          split
          · rfl
          · exact e1
        · rw [Job.authValue_at, Job.authValue_at, e2, e3]
      rw [e4]) p
  rcases this with h1 | ⟨aux, c, head, x, x', h1, h2, h3, h4, h5, h6, h7, h8⟩
  · exact h1
  · rw [h7, h8, List.append_assoc, List.append_assoc, h6]

/-- Whether a slice that passes the checks is accepted, by body and tag. -/
theorem accepts_iff_tag {κ σ : Type} (cfg : Cfg) (e : BlockCipher κ) (rc : SecCtx κ) (lookup : DevLookup σ) (dev : σ)
    (buf : List UInt8) (x : Incoming κ σ) (hx : PassesChecks cfg rc lookup dev buf x)
    (hm : cfg.overflowChecks = true → x.aux.frameCounter ≠ maxCounter)
    (body tag : List UInt8) (hd : buf.drop x.headLength = body ++ tag) (htag : tag.length = tagLength x.level)
    (hb : body.length < 2 ^ 16) :
    AcceptsSecured cfg e rc lookup dev buf ↔
      tag = (protected_ (e x.key) x.level x.nonce (unmasked (e x.key) x.level x.nonce body)).2 := by
  have hfst : ∀ p, (protected_ (e x.key) x.level x.nonce p).1 = unmasked (e x.key) x.level x.nonce p := by
    intro p; unfold protected_ unmasked; split <;> rfl
  have hinv : ∀ p, unmasked (e x.key) x.level x.nonce (unmasked (e x.key) x.level x.nonce p) = p := by
    intro p; unfold unmasked; split
    · rfl
    · exact C79_involutive _ _ _
  have hlen : ∀ p, (unmasked (e x.key) x.level x.nonce p).length = p.length := by
    intro p; unfold unmasked; split
    · rfl
    · simp [encrypted]
  have hsnd : ∀ p, (protected_ (e x.key) x.level x.nonce p).2.length = tagLength x.level := by
    intro p; rw [Job.authValue_at]; simp
  constructor
  · rintro ⟨f, k, hok, hs⟩
    obtain ⟨y, hy, _, hp, hdy⟩ := (C79_accepted_iff cfg e buf rc lookup dev f.payload).1 ⟨f, k, hok, hs, rfl⟩
    have := passes_unique hx hy
    rw [this, hd] at hdy
    have h2 := List.append_inj_right' hdy (by rw [htag, hsnd])
    have h1 := List.append_inj_left' hdy (by rw [htag, hsnd])
    rw [hfst] at h1
    rw [h1, hinv]; exact h2
  · intro ht
    have := (C79_accepted_iff cfg e buf rc lookup dev (unmasked (e x.key) x.level x.nonce body)).2
      ⟨x, hx, hm, fun _ => by rw [hlen]; exact hb, by rw [hd, hfst, hinv, ← ht]⟩
    obtain ⟨f, k, h1, h2, _⟩ := this
    exact ⟨f, k, h1, h2⟩

/-- **C86** Let an attacker send a slice that passes the receiver's checks, under a nonce no sender has spent.
The cipher's value for the nonce's first counter block never shows on the air, whatever has been sent, so nothing
seen tells it apart from any other value; and the receiver accepts exactly for those values that begin with one
particular string, as long as the tag. -/
theorem C86_forgery {κ σ : Type} (cfg : Cfg) (e : BlockCipher κ) (rc : SecCtx κ) (lookup : DevLookup σ) (dev : σ)
    (buf : List UInt8) (x : Incoming κ σ) (hx : PassesChecks cfg rc lookup dev buf x)
    (hm : cfg.overflowChecks = true → x.aux.frameCounter ≠ maxCounter)
    (body tag : List UInt8) (hd : buf.drop x.headLength = body ++ tag) (htag : tag.length = tagLength x.level)
    (hb : body.length < 2 ^ 16)
    (hfree : counterBlock x.nonce 0 ∉
      macInputs (e x.key) x.level x.nonce (unmasked (e x.key) x.level x.nonce body)) :
    ∃ guess : List UInt8, guess.length = tagLength x.level ∧ ∀ v : Block,
      let e' := replaced e x.key (counterBlock x.nonce 0) v
      (∀ (scfg : Cfg) (sc : SecCtx κ) (calls : List WriteCall), (∀ c ∈ calls, ContentFromApi c.frame.content) →
        Unspent scfg e sc calls x.key x.nonce →
        ∀ p, onAir scfg (Ccm.aead e') sc calls p = onAir scfg (Ccm.aead e) sc calls p) ∧
      (AcceptsSecured cfg e' rc lookup dev buf ↔ v.toList.take (tagLength x.level) = guess) := by
  have hn : x.nonce.length = 13 := by simp [Incoming.nonce, nonceOctets]
  refine ⟨(List.range (tagLength x.level)).map fun t => octet tag t ^^^
    octet (chained (e x.key) (authenticatedAt x.level x.nonce (unmasked (e x.key) x.level x.nonce body))).toList t,
    by simp, fun v => ⟨fun scfg sc calls hc hu p => onAir_replaced scfg e sc calls hc x.key x.nonce hn hu v p, ?_⟩⟩
  rw [accepts_iff_tag cfg _ rc lookup dev buf x hx hm body tag hd htag hb]
  have e1 : unmasked (replaced e x.key (counterBlock x.nonce 0) v x.key) x.level x.nonce body =
      unmasked (e x.key) x.level x.nonce body := by
    unfold unmasked; split
    · rfl
    · exact encrypted_replaced e x.key x.nonce v hn x.key body hb _ hn
  have e2 : chained (replaced e x.key (counterBlock x.nonce 0) v x.key)
        (authenticatedAt x.level x.nonce (unmasked (e x.key) x.level x.nonce body)) =
      chained (e x.key) (authenticatedAt x.level x.nonce (unmasked (e x.key) x.level x.nonce body)) :=
    (chain_congr (e x.key) _ _ (Vector.replicate 16 0) (fun b hb => replaced_off e x.key _ v x.key b
      (fun _ hbb => hfree (by rw [← hbb]; exact hb)))).2
  rw [Job.authValue_at, e1, e2, replaced_at]
  generalize chained (e x.key) (authenticatedAt x.level x.nonce (unmasked (e x.key) x.level x.nonce body)) = T
  have htl : tagLength x.level ≤ 16 := by cases x.level <;> simp [tagLength]
  generalize tagLength x.level = M at *
  have hv : v.toList.length = 16 := by simp
  have ho : ∀ (l : List UInt8) t (h : t < l.length), octet l t = l[t] := by
    intro l t h; unfold octet; rw [List.getElem?_eq_getElem h]; rfl
  constructor
  · intro h
    apply List.ext_getElem
    · simp; omega
    · intro t h1 h2
      simp only [List.length_map, List.length_range] at h2
      have h3 : octet tag t = octet T.toList t ^^^ octet v.toList t := by
        rw [ho tag t (by omega)]
        simp only [h, List.getElem_map, List.getElem_range]
      simp only [List.getElem_take, List.getElem_map, List.getElem_range, h3]
      rw [← ho v.toList t (by omega)]
      generalize octet T.toList t = a
      generalize octet v.toList t = c
      calc c = (a ^^^ a) ^^^ c := by rw [UInt8.xor_self, UInt8.zero_xor]
        _ = a ^^^ c ^^^ a := by ac_rfl
  · intro h
    apply List.ext_getElem
    · simp [htag]
    · intro t h1 h2
      have h3 : octet v.toList t = octet tag t ^^^ octet T.toList t := by
        rw [ho v.toList t (by omega)]
        have : v.toList[t]'(by omega) = (v.toList.take M)[t]'(by simp; omega) := by simp
        rw [this]
        simp only [h, List.getElem_map, List.getElem_range]
      simp only [List.getElem_map, List.getElem_range, h3]
      rw [ho tag t h1]
      generalize octet T.toList t = a
      generalize tag[t] = c
      calc c = (a ^^^ a) ^^^ c := by rw [UInt8.xor_self, UInt8.zero_xor]
        _ = a ^^^ (c ^^^ a) := by ac_rfl

/-- **C86** A sender has not spent the nonces of other addresses, nor those of counters it has not reached. -/
theorem C86_not_spent {κ : Type} (cfg : Cfg) (e : BlockCipher κ) (sc : SecCtx κ) (calls : List WriteCall)
    (hc : ∀ c ∈ calls, ContentFromApi c.frame.content) (eui : UInt64) (counter : UInt32) (level : SecurityLevel)
    (h : eui ≠ sc.euid ∨ (contextAfter cfg (Ccm.aead e) sc calls).frameCounter.toNat ≤ counter.toNat)
    (p : Nat) (key : κ) (l : SecurityLevel) (nonce payload : List UInt8)
    (hs : Sends cfg e sc calls p key l nonce payload) : nonce ≠ nonceOctets eui counter level := by
  have hs0 := hs
  obtain ⟨h1, call, aux, eui', h2, h3, h4, h5, h6, h7, h8⟩ := hs
  obtain ⟨a, n, w1, w2, w3, w4⟩ := sends_write cfg e sc calls hc p key l nonce payload hs0 call h2
  have ht := (C50_ccm_laws e).toAeadTyped
  have u := C31_success_uses cfg _ ht _ call a w1 (by rw [w2]; exact h5) w3 n (by rw [w3]; exact w4)
  have hstep := (C31_nonce_of_call cfg _ call _ u).2 _ ht
  have hp : p < calls.length := by
    rcases List.getElem?_eq_some_iff.1 h2 with ⟨h, _⟩; exact h
  have hsplit : calls = calls.take p ++ call :: calls.drop (p + 1) := by
    conv => lhs; rw [← List.take_append_drop p calls]
    rw [List.drop_eq_getElem_cons hp]
    rcases List.getElem?_eq_some_iff.1 h2 with ⟨_, h⟩
    rw [h]
  have hctx : contextAfter cfg (Ccm.aead e) sc calls = contextAfter cfg (Ccm.aead e)
      (contextAfterCall cfg (Ccm.aead e) (contextAfter cfg (Ccm.aead e) sc (calls.take p)) call) (calls.drop (p + 1)) := by
    conv => lhs; rw [hsplit]
    simp [contextAfter, List.foldl_append]
  have hmono := (C31_counter_monotone cfg _ ht (calls.drop (p + 1))
    (contextAfterCall cfg (Ccm.aead e) (contextAfter cfg (Ccm.aead e) sc (calls.take p)) call)).1
  rw [← hctx, hstep] at hmono
  intro heq
  rw [h7] at heq
  obtain ⟨q1, q2, q3⟩ := nonceOctets_inj heq
  rcases h with h | h
  · exact h q1.symm
  · rw [← q2] at h; omega

/-- Witness for C86: the sample frame, under the toy cipher, passes the checks, its tag is four octets, its nonce's
first counter block is not met while authenticating, and a sender of the same key that has sent twice has not
spent the nonce (another address). -/
example :
    PassesChecks sampleCfg sampleSender sampleLookup ⟨3, false⟩ sampleReceived sampleIncoming ∧
    sampleReceived.drop sampleIncoming.headLength = [0xde, 0xf0] ++ [0xAA, 0xAA, 0xAA, 0xAA] ∧
    tagLength sampleIncoming.level = 4 ∧
    counterBlock sampleIncoming.nonce 0 ∉ macInputs (toyCipher sampleIncoming.key) sampleIncoming.level sampleIncoming.nonce
      (unmasked (toyCipher sampleIncoming.key) sampleIncoming.level sampleIncoming.nonce [0xde, 0xf0]) ∧
    Unspent sampleCfg toyCipher sampleSender (samplePair [0xde, 0xf0] (List.replicate 20 7)) sampleIncoming.key
      sampleIncoming.nonce := by
  refine ⟨sampleIncoming_passes, by decide +kernel, by decide +kernel, by decide +kernel, ?_⟩
  intro p level nonce payload hs
  refine ⟨C86_not_spent sampleCfg toyCipher sampleSender _ (by intro c hc; simp [samplePair] at hc; rcases hc with rfl | rfl <;> trivial)
    9 0x01020304 .encmic32 (.inl (by decide)) p 5 level nonce payload hs, ?_⟩
  obtain ⟨_, call, aux, eui, h2, h3, h4, h5, h6, h7, h8⟩ := hs
  have hp : p = 0 ∧ call.frame = { sampleSecured with payload := [0xde, 0xf0] } ∨
      p = 1 ∧ call.frame = { sampleSecured with payload := List.replicate 20 7 } := by
    rcases p with _ | _ | p
    · left; simp only [samplePair, List.getElem?_cons_zero, Option.some.injEq] at h2; subst h2; exact ⟨rfl, rfl⟩
    · right; simp only [samplePair, List.getElem?_cons_succ, List.getElem?_cons_zero, Option.some.injEq] at h2
      subst h2; exact ⟨rfl, rfl⟩
    · simp [samplePair] at h2
  have hl : level = .encmic32 := by
    rw [← h4]
    have : call.frame.header = sampleHeader := by rcases hp with ⟨_, h⟩ | ⟨_, h⟩ <;> rw [h] <;> rfl
    rw [this] at h3
    simp only [sampleHeader, Option.some.injEq] at h3
    rw [← h3]
  rw [h7, h8, hl]
  rcases hp with ⟨rfl, h⟩ | ⟨rfl, h⟩ <;> rw [h] <;> decide +kernel

end Verif
