import Verif.Props.SecureRead

/-!
# Properties of histories: C35 (no replay), C49 (delivery)

`devicesAfter … dev calls` is the device state after any sequence of receptions — of authentic,
forged, replayed, truncated or reordered slices, with any contexts.  `Accepts … dev call f`: in that
state the call returns the secured frame `f`.
-/

namespace Verif
open Spec

section Replay

variable {κ σ ι : Type} (cfg : Cfg) (aead : Aead κ) (ht : AeadTyped aead) (lookup : DevLookup σ)
  (table : DeviceTable ι lookup)

theorem devicesAfter_append (dev : σ) (a b : List (ReadCall κ)) :
    devicesAfter cfg aead lookup dev (a ++ b) =
      devicesAfter cfg aead lookup (devicesAfter cfg aead lookup dev a) b := by
  simp [devicesAfter, List.foldl_append]

/-- One reception that accepts no frame of device `i` with the greatest counter — or any, with
overflow checks — does not lower the counter of device `i`. -/
theorem reception_monotone (ht : AeadTyped aead) (call : ReadCall κ) (dev : σ) (i : ι)
    (hw : cfg.overflowChecks = true ∨ ∀ f, Accepts cfg aead lookup dev call f → ¬ ComesFrom table i maxCounter f)
    (d : DeviceDescriptor) (hd : table.get dev i = some d) :
    ∃ d', table.get (Frame.tryReadAndUnsecure cfg aead call.buf call.ctx lookup dev).2.2.2 i = some d' ∧
      d.frameCounter ≤ d'.frameCounter := by
  have hs := C37_same_devices cfg aead ht call.buf call.ctx lookup table dev i
  rw [hd] at hs
  obtain ⟨d', hd'⟩ := Option.isSome_iff_exists.1 hs
  refine ⟨d', hd', ?_⟩
  apply UInt32.not_lt.1
  intro hlt
  obtain ⟨ho, _, f, k, src, aux, hr, hsrc, hi, haux, hmax⟩ :=
    C36_decrease_only_by_wrap cfg aead ht call.buf call.ctx lookup table dev i d d' hd hd' hlt
  rcases hw with hw | hw
  · rw [hw] at ho; cases ho
  · exact hw f ⟨by rw [Secured, haux]; rfl, k, hr⟩ ⟨src, aux, hsrc, hi, haux, hmax⟩

/-- The same over a history. -/
theorem receptions_monotone (ht : AeadTyped aead) (calls : List (ReadCall κ)) (dev : σ) (i : ι)
    (hw : cfg.overflowChecks = true ∨ ∀ before call after f, calls = before ++ call :: after →
      Accepts cfg aead lookup (devicesAfter cfg aead lookup dev before) call f → ¬ ComesFrom table i maxCounter f)
    (d : DeviceDescriptor) (hd : table.get dev i = some d) :
    ∃ d', table.get (devicesAfter cfg aead lookup dev calls) i = some d' ∧ d.frameCounter ≤ d'.frameCounter := by
  induction calls generalizing dev d with
  | nil => exact ⟨d, hd, UInt32.le_refl _⟩
  | cons call calls ih =>
    obtain ⟨d₁, hd₁, h₁⟩ := reception_monotone cfg aead lookup table ht call dev i
      (hw.imp_right fun h f hf => h [] call calls f rfl hf) d hd
    obtain ⟨d₂, hd₂, h₂⟩ := ih _ (hw.imp_right fun h before c after f hc hf => by
      refine h (call :: before) c after f (by rw [hc]; rfl) ?_
      exact hf) d₁ hd₁
    exact ⟨d₂, hd₂, UInt32.le_trans h₁ h₂⟩

/-- **C35** Counters of frames accepted for one device are strictly increasing over any history: with
overflow checks always, without them as long as the earlier of the two frames, and none accepted
between for that device, has the greatest counter. -/
theorem C35_counters_increase (ht : AeadTyped aead) (dev : σ) (before between : List (ReadCall κ))
    (first second : ReadCall κ) (f₁ f₂ : Frame) (i : ι) (c₁ c₂ : UInt32)
    (h₁ : Accepts cfg aead lookup (devicesAfter cfg aead lookup dev before) first f₁)
    (h₂ : Accepts cfg aead lookup (devicesAfter cfg aead lookup dev (before ++ first :: between)) second f₂)
    (hf₁ : ComesFrom table i c₁ f₁) (hf₂ : ComesFrom table i c₂ f₂)
    (hw : cfg.overflowChecks = true ∨ c₁ ≠ maxCounter ∧
      ∀ earlier call later f, between = earlier ++ call :: later →
        Accepts cfg aead lookup (devicesAfter cfg aead lookup dev (before ++ first :: earlier)) call f →
        ¬ ComesFrom table i maxCounter f) :
    c₁ < c₂ := by
  obtain ⟨hs₁, k₁, hr₁⟩ := h₁
  obtain ⟨hs₂, k₂, hr₂⟩ := h₂
  obtain ⟨src₁, aux₁, hsrc₁, hi₁, haux₁, rfl⟩ := hf₁
  obtain ⟨src₂, aux₂, hsrc₂, hi₂, haux₂, rfl⟩ := hf₂
  have hsplit : ∀ l, devicesAfter cfg aead lookup dev (before ++ first :: l) = devicesAfter cfg aead lookup
      (Frame.tryReadAndUnsecure cfg aead first.buf first.ctx lookup
        (devicesAfter cfg aead lookup dev before)).2.2.2 l := by
    intro l; rw [devicesAfter_append]; rfl
  rcases first with ⟨buf₁, ctx₁⟩
  rcases second with ⟨buf₂, ctx₂⟩
  simp only at hr₁ hr₂ hsplit
  obtain ⟨sc₁, rfl⟩ := accept_ctx hr₁ hs₁
  obtain ⟨sc₂, rfl⟩ := accept_ctx hr₂ hs₂
  obtain ⟨s, a, d, hs, ha, _, _, hov, hst, _⟩ := C36_accept_stores cfg aead ht buf₁ sc₁ lookup table _ f₁ k₁ hr₁ hs₁
  rw [hsrc₁] at hs
  rw [haux₁] at ha
  simp only [Option.some.injEq] at hs ha
  subst hs ha
  obtain ⟨s, a, e, hs, ha, hg, hle, _⟩ := C36_accept_stores cfg aead ht buf₂ sc₂ lookup table _ f₂ k₂ hr₂ hs₂
  rw [hsrc₂] at hs
  rw [haux₂] at ha
  simp only [Option.some.injEq] at hs ha
  subst hs ha
  rw [hi₁] at hst
  rw [hi₂, hsplit] at hg
  obtain ⟨d', hd', hmono⟩ := receptions_monotone cfg aead lookup table ht between _ i
    (hw.imp_right fun h earlier call later f hc hf => by
      refine h.2 earlier call later f hc ?_
      rw [hsplit]; exact hf) _ hst
  rw [hg] at hd'
  simp only [Option.some.injEq] at hd'
  subst hd'
  have hmax : aux₁.frameCounter ≠ maxCounter := by
    rcases hw with h | h
    · exact hov h
    · exact h.1
  have h3 := UInt32.le_iff_toNat_le.1 hmono
  have h4 := UInt32.le_iff_toNat_le.1 hle
  simp only [u32_succ_toNat _ hmax] at h3
  exact UInt32.lt_iff_toNat_lt.2 (by omega)

/-- An accepted frame is the one whose header stands in the slice. -/
theorem accept_header (ht : AeadTyped aead) (dev : σ) (call : ReadCall κ) (f : Frame)
    (h : Accepts cfg aead lookup dev call f) :
    ∃ n, Header.tryRead cfg call.buf = .ok (f.header, n) := by
  obtain ⟨hs, k, hr⟩ := h
  rcases call with ⟨buf, ctx⟩
  simp only at hr ⊢
  obtain ⟨sc, rfl⟩ := accept_ctx hr hs
  obtain ⟨x, body, tag, payload, hx, _, _, rfl, _⟩ :=
    (C38_accept_iff cfg aead ht buf (Frame.tryReadAndUnsecure cfg aead buf ⟨.none, some sc⟩ lookup dev).2.1
      sc lookup dev (Frame.tryReadAndUnsecure cfg aead buf ⟨.none, some sc⟩ lookup dev).2.2.2 f k
      (Frame.tryReadAndUnsecure cfg aead buf ⟨.none, some sc⟩ lookup dev).2.2.1).1 ⟨by rw [← hr], hs⟩
  exact ⟨_, hx.read⟩

/-- **C35** No replay: once a slice was accepted as a secured frame, no later slice whose header
names the same device with the same or a smaller counter is accepted — in particular not the same
slice again, whatever was received in between and with whatever contexts. -/
theorem C35_no_replay (ht : AeadTyped aead) (dev : σ) (before between : List (ReadCall κ))
    (first second : ReadCall κ) (f₁ f₂ : Frame)
    (h₁ : Accepts cfg aead lookup (devicesAfter cfg aead lookup dev before) first f₁)
    (hw : cfg.overflowChecks = true ∨ ∀ i, ¬ ComesFrom table i maxCounter f₁ ∧
      ∀ earlier call later f, between = earlier ++ call :: later →
        Accepts cfg aead lookup (devicesAfter cfg aead lookup dev (before ++ first :: earlier)) call f →
        ¬ ComesFrom table i maxCounter f)
    (h₂ : Accepts cfg aead lookup (devicesAfter cfg aead lookup dev (before ++ first :: between)) second f₂) :
    second.buf ≠ first.buf := by
  intro heq
  obtain ⟨n₁, hn₁⟩ := accept_header cfg aead lookup ht _ _ _ h₁
  obtain ⟨n₂, hn₂⟩ := accept_header cfg aead lookup ht _ _ _ h₂
  rw [heq, hn₁] at hn₂
  simp only [Out.ok.injEq, Prod.mk.injEq] at hn₂
  obtain ⟨hh, _⟩ := hn₂
  have hsrc : ∃ i c, ComesFrom table i c f₁ := by
    obtain ⟨hs, k, hr⟩ := h₁
    rcases first with ⟨buf, ctx⟩
    simp only at hr
    obtain ⟨sc, rfl⟩ := accept_ctx hr hs
    obtain ⟨s, a, d, hs, ha, _⟩ := C36_accept_stores cfg aead ht buf sc lookup table _ f₁ k hr hs
    exact ⟨_, _, s, a, hs, rfl, ha, rfl⟩
  obtain ⟨i, c, hf₁⟩ := hsrc
  have hf₂ : ComesFrom table i c f₂ := by
    obtain ⟨s, a, h1, h2, h3, h4⟩ := hf₁
    exact ⟨s, a, hh ▸ h1, h2, hh ▸ h3, h4⟩
  have := C35_counters_increase cfg aead lookup table ht dev before between first second f₁ f₂ i c c h₁ h₂ hf₁ hf₂
    (hw.imp_right fun h => ⟨fun hm => (h i).1 (hm ▸ hf₁), (h i).2⟩)
  exact absurd this (UInt32.lt_irrefl _)

/-- **C35** Every frame accepted for a device has a counter at least the one the table started with,
and the table then ends above it (same condition on the greatest counter). -/
theorem C35_between_table_counters (ht : AeadTyped aead) (dev : σ) (before after : List (ReadCall κ))
    (call : ReadCall κ) (f : Frame) (i : ι) (c : UInt32) (d : DeviceDescriptor) (hd : table.get dev i = some d)
    (h : Accepts cfg aead lookup (devicesAfter cfg aead lookup dev before) call f) (hf : ComesFrom table i c f)
    (hw : cfg.overflowChecks = true ∨ ∀ earlier call' later f', before ++ call :: after = earlier ++ call' :: later →
      Accepts cfg aead lookup (devicesAfter cfg aead lookup dev earlier) call' f' → ¬ ComesFrom table i maxCounter f') :
    d.frameCounter ≤ c ∧
    ∃ d', table.get (devicesAfter cfg aead lookup dev (before ++ call :: after)) i = some d' ∧ c < d'.frameCounter := by
  obtain ⟨d₁, hd₁, h₁⟩ := receptions_monotone cfg aead lookup table ht before dev i
    (hw.imp_right fun h e cl l f' he hf' => h e cl (l ++ call :: after) f' (by rw [he]; simp) hf') d hd
  have hmaxf : cfg.overflowChecks = true ∨ c ≠ maxCounter :=
    hw.imp_right fun hh hm => hh before call after f rfl h (hm ▸ hf)
  have hacc := h
  obtain ⟨hs, k, hr⟩ := h
  obtain ⟨src, aux, hsrc, hi, haux, rfl⟩ := hf
  have hctx := accept_ctx hr hs
  obtain ⟨sc, hsc⟩ := hctx
  have hr' := hr
  rw [hsc] at hr'
  obtain ⟨s, a, e, hs', ha, hg, hle, hov, hst, _⟩ :=
    C36_accept_stores cfg aead ht call.buf sc lookup table _ f k hr' hs
  rw [← hsc] at hst
  rw [hsrc] at hs'
  rw [haux] at ha
  simp only [Option.some.injEq] at hs' ha
  subst hs' ha
  rw [hi] at hg hst
  rw [hg] at hd₁
  simp only [Option.some.injEq] at hd₁
  subst hd₁
  refine ⟨UInt32.le_trans h₁ hle, ?_⟩
  obtain ⟨d₂, hd₂, h₂⟩ := receptions_monotone cfg aead lookup table ht after _ i
    (hw.imp_right fun h e' cl l f' he hf' => h (before ++ call :: e') cl l f' (by rw [he]; simp) (by
      rw [devicesAfter_append]; exact hf')) _ hst
  refine ⟨d₂, ?_, ?_⟩
  · rw [devicesAfter_append]; exact hd₂
  · have hmax : aux.frameCounter ≠ maxCounter := by
      rcases hmaxf with h | h
      · exact hov h
      · exact h
    have h3 := UInt32.le_iff_toNat_le.1 h₂
    simp only [u32_succ_toNat _ hmax] at h3
    exact UInt32.lt_iff_toNat_lt.2 (by omega)

end Replay

/-! Witness for C35: the sample frame, its replay, then the frame with the next counter. -/

/-- The sample frame with another low counter octet. -/
def sampleReceivedAt (b : UInt8) : List UInt8 := sampleReceived.take 16 ++ [b] ++ sampleReceived.drop 17

def sampleReadCall (b : UInt8) : ReadCall Nat := ⟨sampleReceivedAt b, ⟨.none, some sampleSender⟩⟩

def sampleAccepted (b : UInt32) : Frame :=
  ⟨{ sampleIncoming.header with
      auxSec := some ⟨⟨.encmic32, .keySource4⟩, 0x01020300 + b, some ⟨some (.short 0xA1B2C3D4), 9⟩⟩ },
    .data, [0xde, 0xf0], (0, 0)⟩

example : Accepts sampleCfg sampleAead sampleLookup
      (devicesAfter sampleCfg sampleAead sampleLookup ⟨3, false⟩ []) (sampleReadCall 4) (sampleAccepted 4) ∧
    (Frame.tryReadAndUnsecure sampleCfg sampleAead (sampleReceivedAt 4) ⟨.none, some sampleSender⟩ sampleLookup
      (devicesAfter sampleCfg sampleAead sampleLookup ⟨3, false⟩ [sampleReadCall 4])).1 = .err .counterError ∧
    Accepts sampleCfg sampleAead sampleLookup
      (devicesAfter sampleCfg sampleAead sampleLookup ⟨3, false⟩ ([] ++ sampleReadCall 4 :: [sampleReadCall 4]))
      (sampleReadCall 5) (sampleAccepted 5) ∧
    ComesFrom sampleTable () 0x01020304 (sampleAccepted 4) ∧
    ComesFrom sampleTable () 0x01020305 (sampleAccepted 5) :=
  ⟨⟨rfl, 27, by decide +kernel⟩, by decide +kernel, ⟨rfl, 27, by decide +kernel⟩,
    ⟨_, _, rfl, rfl, rfl, by decide⟩, ⟨_, _, rfl, rfl, rfl, by decide⟩⟩

/-- The condition on the greatest counter is needed: without overflow checks, one authentic frame
with it makes the receiver accept an old slice again. -/
example : Accepts sampleCfg sampleAead sampleLookup
      (devicesAfter sampleCfg sampleAead sampleLookup ⟨3, false⟩ [sampleReadCall 4,
        ⟨sampleReceived.take 16 ++ [0xFF, 0xFF, 0xFF, 0xFF] ++ sampleReceived.drop 20, ⟨.none, some sampleSender⟩⟩])
      (sampleReadCall 4) (sampleAccepted 4) :=
  ⟨rfl, 27, by decide +kernel⟩

/-! ## C49 -/

section Delivery

variable {κ σ ι : Type} {cfg rcfg : Cfg} {aead : Aead κ} {lookup : DevLookup σ}
  {table : DeviceTable ι lookup} {sc rc : SecCtx κ} {calls : List WriteCall} {i : ι}

/-- The counter call number `p` finds in the context. -/
def counterAt (cfg : Cfg) (aead : Aead κ) (sc : SecCtx κ) (calls : List WriteCall) (p : Nat) : UInt32 :=
  (contextAfter cfg aead sc (calls.take p)).frameCounter

theorem counterAt_mono (ht : AeadTyped aead) (p q : Nat) (h : p ≤ q) :
    (counterAt cfg aead sc calls p).toNat ≤ (counterAt cfg aead sc calls q).toNat := by
  have hsplit : calls.take q = calls.take p ++ (calls.take q).drop p := by
    have := (List.take_append_drop p (calls.take q)).symm
    rwa [List.take_take, Nat.min_eq_left h] at this
  unfold counterAt
  rw [hsplit]
  have : contextAfter cfg aead sc (calls.take p ++ (calls.take q).drop p) =
      contextAfter cfg aead (contextAfter cfg aead sc (calls.take p)) ((calls.take q).drop p) := by
    simp [contextAfter, List.foldl_append]
  rw [this]
  exact (C31_counter_monotone cfg aead ht _ _).1

/-- What a packet on the air is. -/
theorem packet_ok (hlaws : AeadLaws aead) {p : Nat} {call : WriteCall} {octets : List UInt8}
    (hp : onAir cfg aead sc calls p = some octets) (hc : calls[p]? = some call)
    (hr : Receivable table i sc rc call) :
    ∃ n buf' ctx', call.frame.tryWrite cfg aead ⟨.none, some (contextAfter cfg aead sc (calls.take p))⟩ call.buf
      = (.ok n, buf', ctx') ∧ octets = buf'.take n ∧
      counterAt cfg aead sc calls p ≠ maxCounter ∧
      counterAt cfg aead sc calls (p + 1) = counterAt cfg aead sc calls p + 1 := by
  unfold onAir at hp
  simp only [hc, hr.mode] at hp
  rcases hw : call.frame.tryWrite cfg aead ⟨.none, some (contextAfter cfg aead sc (calls.take p))⟩ call.buf
    with ⟨n | e | _, buf', ctx'⟩
  · rw [hw] at hp
    simp only [Option.some.injEq] at hp
    obtain ⟨aux, hf, hl, _⟩ := hr.frame
    obtain ⟨hmax, _, _, _, _, _, _, _, _, _, _, hctx⟩ :=
      (C40_secured_write_iff cfg aead hlaws.toAeadTyped call.frame aux hf hl _ call.buf buf' n ctx').1 hw
    refine ⟨n, buf', ctx', rfl, hp.symm, hmax, ?_⟩
    unfold counterAt
    have : calls.take (p + 1) = calls.take p ++ [call] := by
      rw [List.take_add_one, hc]; rfl
    rw [this]
    simp only [contextAfter, List.foldl_append, List.foldl_cons, List.foldl_nil]
    show (contextAfterCall cfg aead (contextAfter cfg aead sc (calls.take p)) call).frameCounter = _
    unfold contextAfterCall
    rw [hr.mode, hw, hctx]
    rfl
  · rw [hw] at hp; cases hp
  · rw [hw] at hp; cases hp

/-- Receiving a packet with the table's counter for the device at `d`. -/
theorem packet_received (hle : cfg.native = .little) (hrle : rcfg.native = .little) (hlaws : AeadLaws aead)
    {p : Nat} {call : WriteCall} {octets : List UInt8} (hp : onAir cfg aead sc calls p = some octets)
    (hc : calls[p]? = some call) (hr : Receivable table i sc rc call) (dev : σ) (d : DeviceDescriptor)
    (hd : table.get dev i = some d) :
    (d.frameCounter ≤ counterAt cfg aead sc calls p →
      (∃ k, (Frame.tryReadAndUnsecure rcfg aead octets ⟨.none, some rc⟩ lookup dev).1 =
        .ok (⟨headerAsRead cfg (counterAt cfg aead sc calls p) call.frame.header, .data, call.frame.payload, (0, 0)⟩, k)) ∧
      table.get (Frame.tryReadAndUnsecure rcfg aead octets ⟨.none, some rc⟩ lookup dev).2.2.2 i =
        some { d with frameCounter := counterAt cfg aead sc calls p + 1 }) ∧
    (counterAt cfg aead sc calls p < d.frameCounter →
      (Frame.tryReadAndUnsecure rcfg aead octets ⟨.none, some rc⟩ lookup dev).1 = .err .counterError ∧
      table.get (Frame.tryReadAndUnsecure rcfg aead octets ⟨.none, some rc⟩ lookup dev).2.2.2 i = some d) := by
  obtain ⟨n, buf', ctx', hw, rfl, hmax, _⟩ := packet_ok hlaws hp hc hr
  obtain ⟨aux, hf, hl, src, hsrc, hi, eui, key, hkey, hrkey⟩ := hr.frame
  have hsame := C31_counter_monotone cfg aead hlaws.toAeadTyped (calls.take p) sc
  have hfound := table.found dev src
  rw [hi, hd] at hfound
  rcases hlk : lookup dev .src src with ⟨looked, _ | ⟨d', store⟩⟩
  · rw [hlk] at hfound; simp at hfound
  rw [hlk] at hfound
  simp only [Option.map_some, Option.some.injEq] at hfound
  subst hfound
  have hlk2 : (lookup dev .src src).2 = some (d', store) := by rw [hlk]
  constructor
  · intro hfresh
    obtain ⟨k, out, hrec, _⟩ := C34_secured_round_trip cfg rcfg hle hrle aead hlaws call.frame aux hf hr.content hl
      hr.version (contextAfter cfg aead sc (calls.take p)) call.buf buf' n ctx' hw key eui
      (by rw [hsame.2.2.2]; exact hkey) rc lookup dev looked src d' store hsrc
      (by rw [hsame.2.2.1]; exact hrkey) hlk hfresh
    rw [hrec]
    refine ⟨⟨k, rfl⟩, ?_⟩
    have := table.stored dev src d' store hlk2 { d' with frameCounter := counterAt cfg aead sc calls p + 1 }
    rw [hi] at this
    exact this
  · intro hold
    obtain ⟨hread, _⟩ := C34_header_read cfg rcfg hle hrle aead hlaws call.frame aux hf hr.content hl
      (contextAfter cfg aead sc (calls.take p)) call.buf buf' n ctx' hw
    have hd0 := data_head hread (show (headerAsRead _ _ call.frame.header).frameType = .data from hf.data)
    have haux : (headerAsRead cfg (counterAt cfg aead sc calls p) call.frame.header).auxSec
        = some (auxAsRead cfg (counterAt cfg aead sc calls p) aux) := by
      show Option.map _ call.frame.header.auxSec = _
      rw [hf.aux]; rfl
    have href := (C46_read_refusals rcfg aead hlaws.toAeadTyped (buf'.take n) rc lookup dev _ _ _ _ hd0 _ haux).2.2.2.2
      hf.data hr.version (by
        intro h
        have : aux.control.securityLevel = .none := h
        rw [this] at hl; simp [Authenticating, MicOnly, EncMic] at hl)
      (by
        show (rc.keyProvider .src aux.keyIdentifier (sourceAsRead call.frame.header)).isSome = true
        rw [hsrc, hrkey]; rfl)
    have hres := ((href.2 src hsrc).2 d' store hlk2).1 (.inr (by
      show counterOnAir cfg _ < _
      rw [C33_little cfg hle]; exact hold))
    rw [hres]
    refine ⟨rfl, ?_⟩
    show table.get (lookup dev .src src).1 i = _
    rw [table.looking]; exact hd

/-- **C49** One sender writes any sequence of frames (`calls`; some may fail, some may be unsecured);
the receiver is given, in any order, with any losses and repetitions, packets of that sender, and
anything else — forged or altered octets, other senders' packets — as long as it accepts none of the
latter as coming from this sender (the cipher's business).  Then a packet is accepted, with the
payload and header sent, exactly if it was sent after every packet of this sender received so far;
otherwise it is refused with `CounterError`. -/
theorem C49_delivery (hle : cfg.native = .little) (hrle : rcfg.native = .little) (hlaws : AeadLaws aead)
    (dev : σ) (d : DeviceDescriptor) (hd : table.get dev i = some d) (hstart : d.frameCounter ≤ sc.frameCounter)
    (deliveries : List (Delivery κ))
    (hsent : ∀ p octets rc, .packet p octets rc ∈ deliveries → onAir cfg aead sc calls p = some octets ∧
      ∀ call, calls[p]? = some call → Receivable table i sc rc call)
    (hother : ∀ before call after f c, deliveries = before ++ .other call :: after →
      Accepts rcfg aead lookup (devicesAfter rcfg aead lookup dev (before.map Delivery.call)) call f →
      ¬ ComesFrom table i c f)
    (before after : List (Delivery κ)) (p : Nat) (octets : List UInt8) (rc : SecCtx κ)
    (hnow : deliveries = before ++ .packet p octets rc :: after) :
    let outcome := (Frame.tryReadAndUnsecure rcfg aead octets ⟨.none, some rc⟩ lookup
      (devicesAfter rcfg aead lookup dev (before.map Delivery.call))).1
    ((∀ q o r, .packet q o r ∈ before → q < p) → ∃ call k c, calls[p]? = some call ∧
      outcome = .ok (⟨headerAsRead cfg c call.frame.header, .data, call.frame.payload, (0, 0)⟩, k)) ∧
    (¬ (∀ q o r, .packet q o r ∈ before → q < p) → outcome = .err .counterError) := by
  have ht := hlaws.toAeadTyped
  -- invariant: the table's counter is not above exactly the packets sent after all those seen
  have key : ∀ (seen before : List (Delivery κ)) (s : σ),
      (∃ pre, deliveries = pre ++ (before ++ .packet p octets rc :: after) ∧
        s = devicesAfter rcfg aead lookup dev (pre.map Delivery.call) ∧ seen = pre) →
      (∃ e, table.get s i = some e ∧ ∀ q o, onAir cfg aead sc calls q = some o →
        (∃ call rc, calls[q]? = some call ∧ Receivable table i sc rc call) →
        (e.frameCounter ≤ counterAt cfg aead sc calls q ↔ ∀ q' o r, .packet q' o r ∈ seen → q' < q)) →
      ∃ e, table.get (devicesAfter rcfg aead lookup s (before.map Delivery.call)) i = some e ∧
        ∀ q o, onAir cfg aead sc calls q = some o →
        (∃ call rc, calls[q]? = some call ∧ Receivable table i sc rc call) →
        (e.frameCounter ≤ counterAt cfg aead sc calls q ↔
          ∀ q' o r, .packet q' o r ∈ seen ++ before → q' < q) := by
    intro seen before
    induction before generalizing seen with
    | nil =>
      intro s _ hinv
      simpa [devicesAfter] using hinv
    | cons x xs ih =>
      rintro s ⟨pre, hpre, hs, rfl⟩ ⟨e, he, hinv⟩
      have hstep : ∃ e', table.get (Frame.tryReadAndUnsecure rcfg aead x.call.buf x.call.ctx lookup s).2.2.2 i
          = some e' ∧ ∀ q o, onAir cfg aead sc calls q = some o →
          (∃ call rc, calls[q]? = some call ∧ Receivable table i sc rc call) →
          (e'.frameCounter ≤ counterAt cfg aead sc calls q ↔
            ∀ q' o r, .packet q' o r ∈ seen ++ [x] → q' < q) := by
        cases x with
        | other call =>
          refine ⟨e, ?_, ?_⟩
          · rw [← he]
            show table.get (Frame.tryReadAndUnsecure rcfg aead call.buf call.ctx lookup s).2.2.2 i = _
            by_cases hacc : ∃ f k, (Frame.tryReadAndUnsecure rcfg aead call.buf call.ctx lookup s).1 = .ok (f, k)
                ∧ Secured f.header
            · obtain ⟨f, k, hr, hsec⟩ := hacc
              have hno := fun c => hother seen call (xs ++ .packet p octets rc :: after) f c (by rw [hpre]; simp)
                (by rw [← hs]; exact ⟨hsec, k, hr⟩)
              obtain ⟨sc', hsc'⟩ := accept_ctx hr hsec
              rw [hsc'] at hr ⊢
              obtain ⟨src, aux, d₀, hsrc, haux, _, _, _, _, hot⟩ :=
                C36_accept_stores rcfg aead ht call.buf sc' lookup table s f k hr hsec
              apply hot
              intro hi
              exact hno aux.frameCounter ⟨src, aux, hsrc, hi.symm, haux, rfl⟩
            · exact C37_descriptors_unchanged rcfg aead ht call.buf call.ctx lookup table s
                (fun f k h hs => hacc ⟨f, k, h, hs⟩) i
          · intro q o ho hq
            rw [hinv q o ho hq]
            simp
        | packet p' o' r' =>
          obtain ⟨hair, hrec⟩ := hsent p' o' r' (by rw [hpre]; simp)
          have hcall : ∃ call, calls[p']? = some call := by
            unfold onAir at hair
            cases h : calls[p']? with
            | none => rw [h] at hair; cases hair
            | some call => exact ⟨call, rfl⟩
          obtain ⟨call, hcall⟩ := hcall
          have hrec := hrec call hcall
          have hboth := packet_received hle hrle hlaws hair hcall hrec s e he
          have hiff := hinv p' o' hair ⟨call, r', hcall, hrec⟩
          obtain ⟨_, _, _, _, _, hmax, hnext⟩ := packet_ok hlaws hair hcall hrec
          by_cases hnew : e.frameCounter ≤ counterAt cfg aead sc calls p'
          · refine ⟨_, (hboth.1 hnew).2, ?_⟩
            intro q o ho hq
            have hall := hiff.1 hnew
            have h1 : (∀ q' o r, Delivery.packet q' o r ∈ seen ++ [Delivery.packet p' o' r'] → q' < q) ↔ p' < q := by
              constructor
              · intro h; exact h p' o' r' (by simp)
              · intro h q' o r hm
                rcases List.mem_append.1 hm with hm | hm
                · exact Nat.lt_trans (hall q' o r hm) h
                · simp at hm; omega
            rw [h1]
            show counterAt cfg aead sc calls p' + 1 ≤ _ ↔ _
            rw [← hnext, UInt32.le_iff_toNat_le]
            constructor
            · intro h
              apply Classical.byContradiction
              intro hlt
              have h2 := counterAt_mono (cfg := cfg) (sc := sc) (calls := calls) ht q p' (by omega)
              have h3 := u32_succ_toNat _ hmax
              rw [hnext] at h
              omega
            · intro h; exact counterAt_mono ht (p' + 1) q h
          · have hlt : counterAt cfg aead sc calls p' < e.frameCounter := UInt32.not_le.1 hnew
            refine ⟨e, (hboth.2 hlt).2, ?_⟩
            intro q o ho hq
            rw [hinv q o ho hq]
            have hex : ∃ q' o r, Delivery.packet q' o r ∈ seen ∧ p' ≤ q' := by
              apply Classical.byContradiction
              intro hno
              apply hnew
              apply hiff.2
              intro q' o r hm
              apply Classical.byContradiction
              intro hge
              exact hno ⟨q', o, r, hm, by omega⟩
            obtain ⟨q', o₁, r₁, hm, hge⟩ := hex
            constructor
            · intro h q'' o r hm'
              rcases List.mem_append.1 hm' with hm' | hm'
              · exact h q'' o r hm'
              · have := h q' o₁ r₁ hm
                simp at hm'; omega
            · intro h q'' o r hm'
              exact h q'' o r (List.mem_append_left _ hm')
      have := ih (seen ++ [x]) _ ⟨seen ++ [x], by rw [hpre]; simp, by
        rw [List.map_append, devicesAfter_append, ← hs]; rfl, rfl⟩ hstep
      simpa [devicesAfter] using this
  have hinit : ∃ e, table.get dev i = some e ∧ ∀ q o, onAir cfg aead sc calls q = some o →
        (∃ call rc, calls[q]? = some call ∧ Receivable table i sc rc call) →
        (e.frameCounter ≤ counterAt cfg aead sc calls q ↔
          ∀ q' o r, .packet q' o r ∈ ([] : List (Delivery κ)) → q' < q) := by
    refine ⟨d, hd, fun q o _ _ => ⟨by simp, fun _ => ?_⟩⟩
    apply UInt32.le_iff_toNat_le.2
    have h1 := counterAt_mono (cfg := cfg) (sc := sc) (calls := calls) ht 0 q (Nat.zero_le _)
    have h2 : (counterAt cfg aead sc calls 0).toNat = sc.frameCounter.toNat := by simp [counterAt, contextAfter]
    have h3 := UInt32.le_iff_toNat_le.1 hstart
    omega
  obtain ⟨e, he, hinv⟩ := key [] before dev ⟨[], by rw [hnow]; rfl, rfl, rfl⟩ hinit
  obtain ⟨hair, hrec⟩ := hsent p octets rc (by rw [hnow]; simp)
  have hcall : ∃ call, calls[p]? = some call := by
    unfold onAir at hair
    cases h : calls[p]? with
    | none => rw [h] at hair; cases hair
    | some call => exact ⟨call, rfl⟩
  obtain ⟨call, hcall⟩ := hcall
  have hboth := packet_received hle hrle hlaws hair hcall (hrec call hcall) _ e he
  have hiff := hinv p octets hair ⟨call, rc, hcall, hrec call hcall⟩
  simp only [List.nil_append] at hiff
  refine ⟨fun h => ?_, fun h => ?_⟩
  · obtain ⟨⟨k, hk⟩, _⟩ := hboth.1 (hiff.2 h)
    exact ⟨call, k, _, hcall, hk⟩
  · exact (hboth.2 (UInt32.not_le.1 fun hle => h (hiff.1 hle))).1

end Delivery

/-- Witness for C49: the sample sender writes its frame twice; the second packet arrives, then the
first (too late), with junk between. -/
example :
    let calls : List WriteCall := [⟨sampleSecured, .none, List.replicate 40 0⟩, ⟨sampleSecured, .none, List.replicate 40 0⟩]
    onAir sampleCfg sampleAead sampleSender calls 0 = some sampleReceived ∧
    onAir sampleCfg sampleAead sampleSender calls 1 = some (sampleReceivedAt 5) ∧
    (∀ call ∈ calls, Receivable sampleTable () sampleSender sampleReceiver call) ∧
    (Frame.tryReadAndUnsecure sampleCfg sampleAead sampleReceived ⟨.none, some sampleReceiver⟩ sampleLookup
      (devicesAfter sampleCfg sampleAead sampleLookup ⟨3, false⟩
        (([.packet 1 (sampleReceivedAt 5) sampleReceiver, .other ⟨[1, 2, 3], ⟨.none, none⟩⟩] : List (Delivery Nat)).map
          Delivery.call))).1 = .err .counterError := by
  refine ⟨by decide +kernel, by decide +kernel, ?_, by decide +kernel⟩
  intro call hc
  have : call = ⟨sampleSecured, .none, List.replicate 40 0⟩ := by simpa using hc
  subst this
  exact ⟨rfl, rfl, by decide, sampleAux, sampleSecured_ok, by decide, _, rfl, rfl, _, _, rfl, rfl⟩

end Verif
