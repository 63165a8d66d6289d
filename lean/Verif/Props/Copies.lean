import Verif.Props.DeviceList
import Verif.Spec.TableSpec

/-!
# C70: copies of a security context; C71: applications that change the device table;
C72: only counters count
-/

namespace Verif
open Spec

/-! ## C70 -/

/-- **C70** A context can be copied, and the copies then count separately: two successful writes of
secured data frames, one with each copy after any calls with that copy, use a common nonce exactly when
the copies' counters then agree and the levels do. -/
theorem C70_copies_collide {κ : Type} (cfg : Cfg) (aead : Aead κ) (ht : AeadTyped aead) (sc : SecCtx κ)
    (one other : List WriteCall) (call call' : WriteCall) (aux aux' : AuxHeader)
    (hf : SecuredData call.frame aux) (hf' : SecuredData call'.frame aux')
    (hl : Authenticating aux.control.securityLevel) (hl' : Authenticating aux'.control.securityLevel)
    (hm : call.mode = .none) (hm' : call'.mode = .none) (n n' : Nat)
    (hok : (call.frame.tryWrite cfg aead ⟨call.mode, some (contextAfter cfg aead sc one)⟩ call.buf).1 = .ok n)
    (hok' : (call'.frame.tryWrite cfg aead ⟨call'.mode, some (contextAfter cfg aead sc other)⟩ call'.buf).1 = .ok n') :
    (∃ nonce, UsesNonce cfg (contextAfter cfg aead sc one) call nonce ∧
        UsesNonce cfg (contextAfter cfg aead sc other) call' nonce) ↔
      (contextAfter cfg aead sc one).frameCounter = (contextAfter cfg aead sc other).frameCounter ∧
      aux.control.securityLevel = aux'.control.securityLevel := by
  have he := (C31_counter_monotone cfg aead ht one sc).2.2.1
  have he' := (C31_counter_monotone cfg aead ht other sc).2.2.1
  constructor
  · rintro ⟨nonce, h, h'⟩
    obtain ⟨⟨a, ha, -, e⟩, -⟩ := C31_nonce_of_call cfg _ call nonce h
    obtain ⟨⟨a', ha', -, e'⟩, -⟩ := C31_nonce_of_call cfg _ call' nonce h'
    rw [hf.aux] at ha
    rw [hf'.aux] at ha'
    cases ha
    cases ha'
    rw [e] at e'
    exact (nonceOctets_inj e').2
  · rintro ⟨hc, hlev⟩
    refine ⟨_, C31_success_uses cfg aead ht _ call aux hf hl hm n hok, ?_⟩
    rw [he, hc, hlev, ← he']
    exact C31_success_uses cfg aead ht _ call' aux' hf' hl' hm' n' hok'

/-- **C70** In particular the first writes with a context and with a copy of it, at one ENC-MIC level to
which the context has one key, reveal the exclusive or of their payloads, under CCM with any block
cipher. -/
theorem C70_copy_leaks {κ : Type} (cfg : Cfg) (cipher : BlockCipher κ) (f f' : Frame) (aux aux' : AuxHeader)
    (hf : SecuredData f aux) (hf' : SecuredData f' aux') (hl : EncMic aux.control.securityLevel)
    (hsame : aux'.control.securityLevel = aux.control.securityLevel) (sc : SecCtx κ) (eui eui' : UInt64) (key : κ)
    (hkey : sc.keyProvider .dst aux.keyIdentifier f.header.destination = some (eui, key))
    (hkey' : sc.keyProvider .dst aux'.keyIdentifier f'.header.destination = some (eui', key))
    (buf buf' out out' : List UInt8) (n n' : Nat) (ctx ctx' : SerDesCtx κ)
    (hw : f.tryWrite cfg (Ccm.aead cipher) ⟨.none, some sc⟩ buf = (.ok n, out, ctx))
    (hw' : f'.tryWrite cfg (Ccm.aead cipher) ⟨.none, some sc⟩ buf' = (.ok n', out', ctx')) :
    ∃ body tag body' tag',
      out.take n = securedHead cfg sc.frameCounter f ++ body ++ tag ∧ body.length = f.payload.length ∧
      out'.take n' = securedHead cfg sc.frameCounter f' ++ body' ++ tag' ∧ body'.length = f'.payload.length ∧
      xorOctets body body' = xorOctets f.payload f'.payload :=
  C65_reuse_leaks cfg cfg cipher f f' aux aux' hf hf' hl hsame sc sc rfl rfl eui eui' key hkey hkey'
    buf buf' out out' n n' ctx ctx' hw hw'

/-- Witness for C70: the sample sender and its copy. -/
example : SecuredData sampleSecured sampleAux ∧ Authenticating sampleAux.control.securityLevel ∧
    AeadTyped sampleAead ∧
    (sampleSecured.tryWrite sampleCfg sampleAead ⟨.none, some (contextAfter sampleCfg sampleAead sampleSender [])⟩
      (List.replicate 40 0)).1 = .ok 31 :=
  ⟨sampleSecured_ok, by decide, sampleAead_typed, by decide +kernel⟩

/-! ## C71 -/

section Events

variable {κ σ ι : Type} (cfg : Cfg) (aead : Aead κ) (lookup : DevLookup σ) (table : DeviceTable ι lookup)

theorem stateAfter_append (dev : σ) (a b : List (Event κ σ)) :
    stateAfter cfg aead lookup dev (a ++ b) = stateAfter cfg aead lookup (stateAfter cfg aead lookup dev a) b := by
  simp [stateAfter, List.foldl_append]

/-- A device above `c`, if known, stays so. -/
theorem above_kept (ht : AeadTyped aead) (i : ι) (c : UInt32) (events : List (Event κ σ)) (dev : σ)
    (h0 : ∀ d, table.get dev i = some d → c < d.frameCounter)
    (hw : cfg.overflowChecks = true ∨ ∀ earlier call later f, events = earlier ++ .receive call :: later →
      Accepts cfg aead lookup (stateAfter cfg aead lookup dev earlier) call f → ¬ ComesFrom table i maxCounter f)
    (hc : ∀ earlier update later, events = earlier ++ .change update :: later →
      KeepsAbove table i c (stateAfter cfg aead lookup dev earlier)
        (update (stateAfter cfg aead lookup dev earlier))) :
    ∀ d, table.get (stateAfter cfg aead lookup dev events) i = some d → c < d.frameCounter := by
  induction events generalizing dev with
  | nil => exact h0
  | cons e events ih =>
    have hrest := ih (stateAfterEvent cfg aead lookup dev e)
    refine hrest ?_ ?_ ?_
    · intro d hd
      cases e with
      | change update =>
        rcases hc [] update events rfl d hd with ⟨d₀, hd₀, hle⟩ | h
        · exact UInt32.lt_of_lt_of_le (h0 d₀ hd₀) hle
        · exact h
      | receive call =>
        have hs := C37_same_devices cfg aead ht call.buf call.ctx lookup table dev i
        have hd' : table.get (Frame.tryReadAndUnsecure cfg aead call.buf call.ctx lookup dev).2.2.2 i = some d := hd
        rw [hd'] at hs
        obtain ⟨d₀, hd₀⟩ := Option.isSome_iff_exists.1 hs.symm
        obtain ⟨d₁, hd₁, hle⟩ := reception_monotone cfg aead lookup table ht call dev i
          (hw.imp_right fun h f hf => h [] call events f rfl hf) d₀ hd₀
        rw [hd'] at hd₁
        cases hd₁
        exact UInt32.lt_of_lt_of_le (h0 d₀ hd₀) hle
    · exact hw.imp_right fun h earlier call later f he hf => h (e :: earlier) call later f (by rw [he]; rfl) hf
    · exact fun earlier update later he => hc (e :: earlier) update later (by rw [he]; rfl)

/-- **C71** Replay protection while the application changes the table: between two frames accepted from
one device, the application may add, remove and replace devices as it likes, as long as each change that
leaves the device known does not lower its counter or sets it above the first frame's counter; then the
second frame's counter is greater. -/
theorem C71_changes_allowed (ht : AeadTyped aead) (dev : σ) (before between : List (Event κ σ))
    (first second : ReadCall κ) (f₁ f₂ : Frame) (i : ι) (c₁ c₂ : UInt32)
    (h₁ : Accepts cfg aead lookup (stateAfter cfg aead lookup dev before) first f₁)
    (h₂ : Accepts cfg aead lookup (stateAfter cfg aead lookup dev (before ++ .receive first :: between)) second f₂)
    (hf₁ : ComesFrom table i c₁ f₁) (hf₂ : ComesFrom table i c₂ f₂)
    (hw : cfg.overflowChecks = true ∨ c₁ ≠ maxCounter ∧
      ∀ earlier call later f, between = earlier ++ .receive call :: later →
        Accepts cfg aead lookup (stateAfter cfg aead lookup dev (before ++ .receive first :: earlier)) call f →
        ¬ ComesFrom table i maxCounter f)
    (hc : ∀ earlier update later, between = earlier ++ .change update :: later →
      KeepsAbove table i c₁ (stateAfter cfg aead lookup dev (before ++ .receive first :: earlier))
        (update (stateAfter cfg aead lookup dev (before ++ .receive first :: earlier)))) :
    c₁ < c₂ := by
  have hsplit : ∀ l, stateAfter cfg aead lookup dev (before ++ .receive first :: l) = stateAfter cfg aead lookup
      (Frame.tryReadAndUnsecure cfg aead first.buf first.ctx lookup
        (stateAfter cfg aead lookup dev before)).2.2.2 l := by
    intro l; rw [stateAfter_append]; rfl
  obtain ⟨hs₁, k₁, hr₁⟩ := h₁
  obtain ⟨hs₂, k₂, hr₂⟩ := h₂
  obtain ⟨src₁, aux₁, hsrc₁, hi₁, haux₁, rfl⟩ := hf₁
  obtain ⟨src₂, aux₂, hsrc₂, hi₂, haux₂, rfl⟩ := hf₂
  rcases first with ⟨buf₁, ctx₁⟩
  rcases second with ⟨buf₂, ctx₂⟩
  obtain ⟨sc₁, rfl⟩ := accept_ctx hr₁ hs₁
  obtain ⟨sc₂, rfl⟩ := accept_ctx hr₂ hs₂
  obtain ⟨s₁, a₁, d₁, es₁, ea₁, -, -, hov₁, hst₁, -⟩ :=
    C36_accept_stores cfg aead ht buf₁ sc₁ lookup table _ f₁ k₁ hr₁ hs₁
  rw [hsrc₁] at es₁; rw [haux₁] at ea₁
  cases es₁; cases ea₁
  rw [hi₁] at hst₁
  have hne : aux₁.frameCounter ≠ maxCounter := by
    rcases hw with h | h
    · exact hov₁ h
    · exact h.1
  have habove := above_kept cfg aead lookup table ht i aux₁.frameCounter between _
    (fun d hd => by
      rw [hst₁] at hd
      cases hd
      refine UInt32.lt_iff_toNat_lt.2 ?_
      show aux₁.frameCounter.toNat < (aux₁.frameCounter + 1).toNat
      rw [u32_succ_toNat _ hne]
      omega)
    (hw.imp_right fun h earlier call later f he hf => h.2 earlier call later f he (by rw [hsplit]; exact hf))
    (fun earlier update later he => by
      have := hc earlier update later he
      rw [hsplit] at this
      exact this)
  rw [hsplit] at hr₂
  obtain ⟨s₂, a₂, d₂, es₂, ea₂, hg₂, hle₂, -⟩ :=
    C36_accept_stores cfg aead ht buf₂ sc₂ lookup table _ f₂ k₂ hr₂ hs₂
  rw [hsrc₂] at es₂; rw [haux₂] at ea₂
  cases es₂; cases ea₂
  rw [hi₂] at hg₂
  exact UInt32.lt_of_lt_of_le (habove d₂ hg₂) hle₂

/-- Witness for C71: between the two receptions the application removes the second device and adds it
again with a fresh counter, which keeps the first above the first frame's counter. -/
example : Accepts sampleCfg sampleAead (listLookup id) (stateAfter sampleCfg sampleAead (listLookup id) twoDevices [])
      (sampleReadCall 4) (sampleAccepted 4) ∧
    Accepts sampleCfg sampleAead (listLookup id)
      (stateAfter sampleCfg sampleAead (listLookup id) twoDevices
        ([] ++ .receive (sampleReadCall 4) :: [.change fun s => s.dropLast ++ [(.short 0x1234 1, ⟨0, true⟩)]]))
      (sampleReadCall 5) (sampleAccepted 5) ∧
    (∀ s, s = stateAfter sampleCfg sampleAead (listLookup id) twoDevices [.receive (sampleReadCall 4)] →
      KeepsAbove (listTable id) (.extended 0x1234 0x0102030405060708) 0x01020304 s
        (s.dropLast ++ [(.short 0x1234 1, ⟨0, true⟩)])) := by
  refine ⟨⟨rfl, 27, by decide +kernel⟩, ⟨rfl, 27, by decide +kernel⟩, ?_⟩
  intro s hs
  have : s = [(.extended 0x1234 0x0102030405060708, ⟨0x01020305, false⟩), (.short 0x1234 1, ⟨4, false⟩)] := by
    rw [hs]; decide +kernel
  subst this
  intro d' hd'
  have : d' = ⟨0x01020305, false⟩ := by
    have h : ((listTable id).get ([(Address.extended 0x1234 0x0102030405060708, (⟨0x01020305, false⟩ : DeviceDescriptor)),
      (Address.short 0x1234 1, ⟨4, false⟩)].dropLast ++ [(Address.short 0x1234 1, ⟨0, true⟩)])
      (.extended 0x1234 0x0102030405060708)) = some ⟨0x01020305, false⟩ := by decide +kernel
    exact Option.some.inj (hd'.symm.trans h)
  subst this
  exact .inr (by decide)

end Events

/-! ## C72 -/

section SameCounters

variable {κ σ τ ι : Type} (cfg : Cfg) (aead : Aead κ) {lookup : DevLookup σ} {lookup' : DevLookup τ}
  (table : DeviceTable ι lookup) (table' : DeviceTable ι lookup')

theorem SameCounters.looked {dev : σ} {dev' : τ} (h : SameCounters table table' dev dev') (a : Address) :
    SameCounters table table' (lookup dev .src a).1 (lookup' dev' .src a).1 := by
  intro i
  rw [table.looking, table'.looking]
  exact h i

theorem SameCounters.stored {dev : σ} {dev' : τ} (h : SameCounters table table' dev dev')
    (hid : table.identify = table'.identify) (a : Address) {d d' : DeviceDescriptor} {st : DeviceDescriptor → σ}
    {st' : DeviceDescriptor → τ} (h1 : (lookup dev .src a).2 = some (d, st))
    (h2 : (lookup' dev' .src a).2 = some (d', st')) (c : UInt32) :
    SameCounters table table' (st { d with frameCounter := c }) (st' { d' with frameCounter := c }) := by
  intro i
  by_cases hi : i = table.identify a
  · subst hi
    rw [table.stored dev a d st h1]
    rw [hid, table'.stored dev' a d' st' h2]
    rfl
  · rw [table.others dev a d st h1 _ i hi, table'.others dev' a d' st' h2 _ i (by rw [← hid]; exact hi)]
    exact h i

theorem unsecureFrame_same (header : Header) (buffer : List UInt8) (sc : SecCtx κ) (mode : FooterMode)
    {dev : σ} {dev' : τ} (hid : table.identify = table'.identify) (h : SameCounters table table' dev dev') :
    let r := unsecureFrame cfg aead header buffer sc mode lookup dev
    let r' := unsecureFrame cfg aead header buffer sc mode lookup' dev'
    r.1 = r'.1 ∧ r.2.1 = r'.2.1 ∧ r.2.2.1 = r'.2.2.1 ∧ SameCounters table table' r.2.2.2 r'.2.2.2 := by
  cases mode with
  | explicit => exact ⟨rfl, rfl, rfl, h⟩
  | none =>
    unfold unsecureFrame
    simp only
    split
    · split
      · exact ⟨rfl, rfl, rfl, h⟩
      split
      · exact ⟨rfl, rfl, rfl, h⟩
      split
      · exact ⟨rfl, rfl, rfl, h⟩
      rename_i aux _
      split
      · exact ⟨rfl, rfl, rfl, h⟩
      split
      · exact ⟨rfl, rfl, rfl, h⟩
      rename_i eui key _
      split
      · exact ⟨rfl, rfl, rfl, h⟩
      rename_i src _
      have hlook := SameCounters.looked table table' h src
      have hst := fun d d' st st' => SameCounters.stored table table' h hid src (d := d) (d' := d') (st := st) (st' := st')
      have hf := table.found dev src
      have hf' := table'.found dev' src
      have hcnt := h (table.identify src)
      rw [← hf, hid, ← hf'] at hcnt
      rcases hL : lookup dev .src src with ⟨l, _ | ⟨d, st⟩⟩ <;>
        rcases hL' : lookup' dev' .src src with ⟨l', _ | ⟨d', st'⟩⟩ <;>
        simp only [hL, hL', Option.map_none, Option.map_some, reduceCtorEq, Option.some.injEq] at hcnt hlook hst
      · exact ⟨rfl, rfl, rfl, hlook⟩
      · simp only [hcnt]
        have hst := hst d d' st st' rfl rfl
        split
        · exact ⟨rfl, rfl, rfl, hlook⟩
        have hfin : ∀ r : Out SecErr (Nat × UInt32) × List UInt8,
            let x : Out SecErr Nat × List UInt8 × SecCtx κ × σ := match r with
              | (.ok (taglen, fc'), buffer) => (.ok taglen, buffer, sc, st { d with frameCounter := fc' })
              | (.err e, buffer) => (.err e, buffer, sc, l)
              | (.panic, buffer) => (.panic, buffer, sc, l)
            let x' : Out SecErr Nat × List UInt8 × SecCtx κ × τ := match r with
              | (.ok (taglen, fc'), buffer) => (.ok taglen, buffer, sc, st' { d' with frameCounter := fc' })
              | (.err e, buffer) => (.err e, buffer, sc, l')
              | (.panic, buffer) => (.panic, buffer, sc, l')
            x.1 = x'.1 ∧ x.2.1 = x'.2.1 ∧ x.2.2.1 = x'.2.2.1 ∧ SameCounters table table' x.2.2.2 x'.2.2.2 := by
          rintro ⟨⟨_, c⟩ | e | _, b⟩
          · exact ⟨rfl, rfl, rfl, hst c⟩
          · exact ⟨rfl, rfl, rfl, hlook⟩
          · exact ⟨rfl, rfl, rfl, hlook⟩
        split
        all_goals first | exact ⟨rfl, rfl, rfl, hlook⟩ | exact hfin _
    · exact ⟨rfl, rfl, rfl, h⟩

/-- **C72** Only counters count: two receivers whose tables know the same devices with the same counters
(whatever their `exempt` flags, and however they store them) show the same result, buffer and context
for the same call, and still agree on the counters afterwards. -/
theorem C72_only_counters (hid : table.identify = table'.identify) (dev : σ) (dev' : τ)
    (h : SameCounters table table' dev dev') (buf : List UInt8) (ctx : SerDesCtx κ) :
    let r := Frame.tryReadAndUnsecure cfg aead buf ctx lookup dev
    let r' := Frame.tryReadAndUnsecure cfg aead buf ctx lookup' dev'
    r.1 = r'.1 ∧ r.2.1 = r'.2.1 ∧ r.2.2.1 = r'.2.2.1 ∧ SameCounters table table' r.2.2.2 r'.2.2.2 := by
  unfold Frame.tryReadAndUnsecure
  simp only
  split
  · exact ⟨rfl, rfl, rfl, h⟩
  · exact ⟨rfl, rfl, rfl, h⟩
  rename_i header content offset _
  split
  · split
    · exact ⟨rfl, rfl, rfl, h⟩
    rename_i sc _
    have hu := unsecureFrame_same cfg aead table table' header (buf.drop offset) sc ctx.footerMode hid h
    rcases hr : unsecureFrame cfg aead header (buf.drop offset) sc ctx.footerMode lookup dev with ⟨r, sub, sc₁, dv⟩
    rcases hr' : unsecureFrame cfg aead header (buf.drop offset) sc ctx.footerMode lookup' dev' with
      ⟨r', sub', sc₁', dv'⟩
    rw [hr, hr'] at hu
    obtain ⟨h1, h2, h3, h4⟩ := hu
    simp only at h1 h2 h3 h4
    subst h1 h2 h3
    rcases r with size | e | _
    · exact ⟨rfl, rfl, rfl, h4⟩
    · cases e <;> exact ⟨rfl, rfl, rfl, h4⟩
    · exact ⟨rfl, rfl, rfl, h4⟩
  · exact ⟨rfl, rfl, rfl, h⟩

/-- **C72** The same over any history of calls. -/
theorem C72_histories (hid : table.identify = table'.identify) (calls : List (ReadCall κ)) (dev : σ) (dev' : τ)
    (h : SameCounters table table' dev dev') :
    shown cfg aead lookup dev calls = shown cfg aead lookup' dev' calls ∧
    SameCounters table table' (devicesAfter cfg aead lookup dev calls) (devicesAfter cfg aead lookup' dev' calls) := by
  induction calls generalizing dev dev' with
  | nil => exact ⟨rfl, h⟩
  | cons call calls ih =>
    obtain ⟨h1, h2, h3, h4⟩ := C72_only_counters cfg aead table table' hid dev dev' h call.buf call.ctx
    obtain ⟨i1, i2⟩ := ih _ _ h4
    refine ⟨?_, i2⟩
    unfold shown
    simp only
    rw [h1, h2, h3, i1]

/-- Witness for C72: the same devices, all exempt, in another order: the sample frame is accepted by both
receivers, and its replay refused by both. -/
example : SameCounters (listTable id) (listTable id) twoDevices
      [(.short 0x1234 1, ⟨4, true⟩), (.extended 0x1234 0x0102030405060708, ⟨3, true⟩)] ∧
    Accepts sampleCfg sampleAead (listLookup id) twoDevices (sampleReadCall 4) (sampleAccepted 4) ∧
    (shown sampleCfg sampleAead (listLookup id)
      [(.short 0x1234 1, ⟨4, true⟩), (.extended 0x1234 0x0102030405060708, ⟨3, true⟩)]
      [sampleReadCall 4, sampleReadCall 4]).map (·.1) = [.ok (sampleAccepted 4, 27), .err .counterError] := by
  refine ⟨fun i => ?_, ⟨rfl, 27, by decide +kernel⟩, by decide +kernel⟩
  by_cases h1 : i = .extended 0x1234 0x0102030405060708
  · subst h1; decide +kernel
  · by_cases h2 : i = .short 0x1234 1
    · subst h2; decide +kernel
    · have e1 : (i == Address.extended 0x1234 0x0102030405060708) = false := by simpa using h1
      have e2 : (i == Address.short 0x1234 1) = false := by simpa using h2
      simp [listTable, twoDevices, List.lookup_cons, e1, e2]

end SameCounters

end Verif
