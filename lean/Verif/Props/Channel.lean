import Verif.Props.DeviceList
import Verif.Spec.ChannelSpec

/-!
# C68: an authenticated channel
-/

namespace Verif
open Spec

/-- A list contained in another is a subsequence of it, when both are strictly increasing. -/
theorem sublist_of_increasing {α : Type} (key : α → Nat) (a s : List α)
    (ha : a.Pairwise fun x y => key x < key y) (hs : s.Pairwise fun x y => key x < key y)
    (h : ∀ x ∈ a, x ∈ s) : a.Sublist s := by
  induction s generalizing a with
  | nil =>
    cases a with
    | nil => exact .slnil
    | cons x a => exact absurd (h x (by simp)) (by simp)
  | cons y s ih =>
    cases a with
    | nil => exact List.nil_sublist _
    | cons x a =>
      rw [List.pairwise_cons] at ha hs
      rcases List.mem_cons.1 (h x (by simp)) with rfl | hx
      · refine .cons_cons _ (ih a ha.2 hs.2 ?_)
        intro z hz
        rcases List.mem_cons.1 (h z (by simp [hz])) with rfl | hz'
        · exact absurd (ha.1 z hz) (Nat.lt_irrefl _)
        · exact hz'
      · refine .cons _ (ih (x :: a) (List.pairwise_cons.2 ha) hs.2 ?_)
        intro z hz
        rcases List.mem_cons.1 (h z hz) with rfl | hz'
        · rcases List.mem_cons.1 hz with rfl | hz
          · exact absurd (hs.1 z hx) (Nat.lt_irrefl _)
          · exact absurd (Nat.lt_trans (hs.1 x hx) (ha.1 z hz)) (Nat.lt_irrefl _)
        · exact hz'

section

variable {κ : Type} (cfg rcfg : Cfg) (aead : Aead κ)

theorem sentByCall_mem {sc : SecCtx κ} {call : WriteCall} {p : UInt32 × List UInt8}
    (h : p ∈ sentByCall cfg aead sc call) :
    p = (sc.frameCounter, call.frame.payload) ∧ ∃ n aux, call.frame.header.auxSec = some aux ∧
      Authenticating aux.control.securityLevel ∧
      (call.frame.tryWrite cfg aead ⟨call.mode, some sc⟩ call.buf).1 = .ok n := by
  unfold sentByCall at h
  split at h
  · rename_i n aux h1 h2
    split at h
    · rename_i hl
      simp only [List.mem_singleton] at h
      exact ⟨h, n, aux, h2, hl, h1⟩
    · cases h
  · cases h

theorem finish_ctx (f : Frame) (sec : Bool) (bytes : List UInt8) (off : Nat) (ctx : SerDesCtx κ) :
    (f.finish sec bytes off ctx).2.2 = ctx := by
  unfold Frame.finish
  split <;> rfl

/-- A write that succeeds at a level other than None takes a counter value. -/
theorem tryWrite_ok_advances (ht : AeadTyped aead) {sc : SecCtx κ} {f : Frame} {mode : FooterMode}
    {buf : List UInt8} {aux : AuxHeader} {n : Nat} (ha : f.header.auxSec = some aux)
    (hl : aux.control.securityLevel ≠ .none) (hok : (f.tryWrite cfg aead ⟨mode, some sc⟩ buf).1 = .ok n) :
    sc.frameCounter ≠ maxCounter ∧ (f.tryWrite cfg aead ⟨mode, some sc⟩ buf).2.2 = ⟨mode, some sc.next⟩ := by
  rw [Frame.tryWrite_eq] at hok ⊢
  rcases hw : f.writeHead cfg (some sc) buf 0 with ⟨⟨⟩ | e | _, bytes, off⟩
  · simp only [hw] at hok ⊢
    unfold Frame.afterHead at hok ⊢
    simp only at hok ⊢
    rw [secureFrame_cases ht] at hok ⊢
    cases mode with
    | explicit => simp at hok
    | none =>
      simp only [ha] at hok ⊢
      by_cases hd : f.header.frameType = .data
      · simp only [if_pos hd] at hok ⊢
        have hn := Frame.secureData_enabled aead f aux sc (bytes.drop off)
        rcases hr : secureData aead f aux sc (bytes.drop off) with ⟨r, sc', sub⟩
        rw [hr] at hn hok
        cases r with
        | ok k =>
          have h := secureData_ok hl hr
          exact ⟨h.1.2.2.2, by simp only [h.2.1, finish_ctx]⟩
        | panic => exact absurd rfl hn.2
        | err e => cases e <;> first | exact absurd rfl hn.1 | (simp at hok; done)
      · simp [if_neg hd] at hok
  · simp [hw] at hok
  · simp [hw] at hok

/-- A call that sends something takes a counter value. -/
theorem sentByCall_advances (ht : AeadTyped aead) {sc : SecCtx κ} {call : WriteCall} {p : UInt32 × List UInt8}
    (h : p ∈ sentByCall cfg aead sc call) :
    (contextAfterCall cfg aead sc call).frameCounter.toNat = sc.frameCounter.toNat + 1 := by
  obtain ⟨-, n, aux, haux, hl, hok⟩ := sentByCall_mem cfg aead h
  have hne : aux.control.securityLevel ≠ .none := by
    intro h; rw [h] at hl; simp [Authenticating, MicOnly, EncMic] at hl
  obtain ⟨h1, h2⟩ := tryWrite_ok_advances cfg aead ht haux hne hok
  unfold contextAfterCall
  rw [h2]
  exact sc.next_toNat h1

theorem sentByCall_of_ok {sc : SecCtx κ} {call : WriteCall} {aux : AuxHeader} {n : Nat}
    (ha : call.frame.header.auxSec = some aux) (hl : Authenticating aux.control.securityLevel)
    (hok : (call.frame.tryWrite cfg aead ⟨call.mode, some sc⟩ call.buf).1 = .ok n) :
    sentByCall cfg aead sc call = [(sc.frameCounter, call.frame.payload)] := by
  unfold sentByCall
  rw [hok, ha]
  exact if_pos hl

theorem sentBy_append (sc : SecCtx κ) (a b : List WriteCall) :
    sentBy cfg aead sc (a ++ b) = sentBy cfg aead sc a ++ sentBy cfg aead (contextAfter cfg aead sc a) b := by
  induction a generalizing sc with
  | nil => rfl
  | cons call a ih =>
    show sentByCall cfg aead sc call ++ sentBy cfg aead (contextAfterCall cfg aead sc call) (a ++ b) =
      (sentByCall cfg aead sc call ++ sentBy cfg aead (contextAfterCall cfg aead sc call) a) ++
        sentBy cfg aead (contextAfter cfg aead (contextAfterCall cfg aead sc call) a) b
    rw [ih, List.append_assoc]

theorem sentByCall_pairwise (sc : SecCtx κ) (call : WriteCall) :
    (sentByCall cfg aead sc call).Pairwise fun x y => x.1.toNat < y.1.toNat := by
  unfold sentByCall
  split
  · split
    · exact List.pairwise_singleton _ _
    · exact .nil
  · exact .nil

theorem sentBy_ge (ht : AeadTyped aead) (calls : List WriteCall) (sc : SecCtx κ) :
    ∀ p ∈ sentBy cfg aead sc calls, sc.frameCounter.toNat ≤ p.1.toNat := by
  induction calls generalizing sc with
  | nil => intro p hp; cases hp
  | cons call calls ih =>
    intro p hp
    rcases List.mem_append.1 hp with hp | hp
    · rw [(sentByCall_mem cfg aead hp).1]; exact Nat.le_refl _
    · exact Nat.le_trans (C31_counter_monotone cfg aead ht [call] sc).1 (ih _ p hp)

/-- **C68** Counters of what is sent are strictly increasing. -/
theorem C68_sent_increasing (ht : AeadTyped aead) (sc : SecCtx κ) (calls : List WriteCall) :
    (sentBy cfg aead sc calls).Pairwise fun x y => x.1.toNat < y.1.toNat := by
  induction calls generalizing sc with
  | nil => exact .nil
  | cons call calls ih =>
    refine List.pairwise_append.2 ⟨sentByCall_pairwise cfg aead sc call, ih _, ?_⟩
    intro x hx y hy
    have h1 := sentByCall_advances cfg aead ht hx
    have h2 := sentBy_ge cfg aead ht calls _ y hy
    rw [(sentByCall_mem cfg aead hx).1]
    show sc.frameCounter.toNat < _
    omega

variable {σ ι : Type} [DecidableEq ι] {lookup : DevLookup σ}

theorem acceptedByCall_mem {table : DeviceTable ι lookup} {i : ι} {dev : σ} {call : ReadCall κ}
    {p : UInt32 × List UInt8} (h : p ∈ acceptedByCall rcfg aead lookup table i dev call) :
    ∃ f, Accepts rcfg aead lookup dev call f ∧ ComesFrom table i p.1 f ∧ p.2 = f.payload := by
  unfold acceptedByCall at h
  split at h
  · rename_i f k hr
    split at h
    · rename_i src aux hsrc haux
      split at h
      · rename_i hi
        simp only [List.mem_singleton] at h
        subst h
        exact ⟨f, ⟨by rw [Secured, haux]; rfl, k, hr⟩, ⟨src, aux, hsrc, hi, haux, rfl⟩, rfl⟩
      · cases h
    · cases h
  · cases h

omit [DecidableEq ι] in
/-- What a call accepts from device `i` was sent. -/
theorem accepted_sent (hl : AeadLaws aead) (table : DeviceTable ι lookup) (i : ι) (sc : SecCtx κ)
    (calls : List WriteCall) (dev : σ) (call : ReadCall κ)
    (hnf : NoForgery cfg rcfg aead table i sc calls [call]) (f : Frame) (c : UInt32)
    (hf : Accepts rcfg aead lookup dev call f) (hi : ComesFrom table i c f) :
    (c, f.payload) ∈ sentBy cfg aead sc calls ∧ c ≠ maxCounter := by
  obtain ⟨hs, k, hr⟩ := hf
  obtain ⟨src, aux, hsrc, hid, haux, rfl⟩ := hi
  rcases call with ⟨buf, ctx⟩
  obtain ⟨rc, rfl⟩ := accept_ctx hr hs
  obtain ⟨x, body, tag, payload, hx, hv, -, rfl, -, -, -, -⟩ :=
    (C38_accept_iff rcfg aead hl.toAeadTyped buf
      (Frame.tryReadAndUnsecure rcfg aead buf ⟨.none, some rc⟩ lookup dev).2.1
      rc lookup dev (Frame.tryReadAndUnsecure rcfg aead buf ⟨.none, some rc⟩ lookup dev).2.2.2 f k
      (Frame.tryReadAndUnsecure rcfg aead buf ⟨.none, some rc⟩ lookup dev).2.2.1).1
      ⟨Prod.ext hr rfl, hs⟩
  have haux' : x.aux = aux := Option.some.inj (hx.aux.symm.trans haux)
  have hsrc' : x.source = src := Option.some.inj (hx.source.symm.trans hsrc)
  subst haux' hsrc'
  obtain ⟨before, w, after, aux', eui', n, out, ctx', hcalls, hmode, hsd, hlev, hkey, hnonce, hw, hout⟩ :=
    hnf ⟨buf, ⟨.none, some rc⟩⟩ (by simp) rc x.header x.headLength x.aux x.source x.eui x.key body tag payload
      rfl hx.read hx.aux hx.source hid (by rw [← hx.source]; exact hx.key) hv.split hv.tagLength hv.verifies
  have hauth : Authenticating aux'.control.securityLevel := by rw [hlev]; exact hx.level
  have hc := (nonceOctets_inj hnonce).2.1
  obtain ⟨hmax, -, eui'', key'', body', tag', hkey', hprot, hn, -, hout', -⟩ :=
    (C40_secured_write_iff cfg aead hl.toAeadTyped w.frame aux' hsd hauth _ w.buf out n ctx').1 hw
  have hkp := (C31_counter_monotone cfg aead hl.toAeadTyped before sc).2.2.2
  have heu := (C31_counter_monotone cfg aead hl.toAeadTyped before sc).2.2.1
  rw [hkp, hkey] at hkey'
  obtain ⟨rfl, rfl⟩ := Prod.mk.inj (Option.some.inj hkey')
  have hlen := C40_protected_part aead hl.toAeadTyped _ _ _ _ _ _ hprot
  have htake : out.take n = securedHead cfg (contextAfter cfg aead sc before).frameCounter w.frame ++ body' ++ tag' := by
    rw [hout', hn, show (securedHead cfg (contextAfter cfg aead sc before).frameCounter w.frame).length
      + body'.length + tag'.length = (securedHead cfg (contextAfter cfg aead sc before).frameCounter w.frame
        ++ body' ++ tag').length by simp [Nat.add_assoc], List.take_left]
  rw [htake] at hout
  have htl : tag'.length = tag.length := by rw [hlen.2.2.1, hv.tagLength, hlev]; rfl
  obtain ⟨h1, rfl⟩ := List.append_inj' hout htl
  obtain ⟨-, rfl⟩ := List.append_inj h1 rfl
  have hup := unprotect_protect hl hprot
  rw [hlev, heu, ← hnonce] at hup
  have hpay : payload = w.frame.payload := Option.some.inj (hv.verifies.symm.trans hup)
  refine ⟨?_, by rw [hc]; exact hmax⟩
  rw [hcalls, sentBy_append]
  refine List.mem_append_right _ (List.mem_append_left _ ?_)
  rw [sentByCall_of_ok cfg aead hsd.aux hauth (n := n) (by rw [hmode, hw])]
  simp [hc, hpay]

omit [DecidableEq ι] in
theorem Spec.NoForgery.mono {cfg rcfg : Cfg} {aead : Aead κ} {table : DeviceTable ι lookup} {i : ι} {sc : SecCtx κ}
    {calls : List WriteCall} {a b : List (ReadCall κ)} (h : NoForgery cfg rcfg aead table i sc calls b)
    (hab : ∀ c ∈ a, c ∈ b) : NoForgery cfg rcfg aead table i sc calls a :=
  fun call hc => h call (hab call hc)

theorem acceptedByCall_pairwise (table : DeviceTable ι lookup) (i : ι) (dev : σ) (call : ReadCall κ) :
    (acceptedByCall rcfg aead lookup table i dev call).Pairwise fun x y => x.1.toNat < y.1.toNat := by
  unfold acceptedByCall
  split
  · split
    · split
      · exact List.pairwise_singleton _ _
      · exact .nil
    · exact .nil
  · exact .nil

/-- Counters accepted are not below the one stored. -/
theorem acceptedFrom_ge (hl : AeadLaws aead) (table : DeviceTable ι lookup) (i : ι) (sc : SecCtx κ)
    (calls : List WriteCall) (deliveries : List (ReadCall κ)) (dev : σ)
    (hnf : NoForgery cfg rcfg aead table i sc calls deliveries) (d : DeviceDescriptor)
    (hd : table.get dev i = some d) :
    ∀ p ∈ acceptedFrom rcfg aead lookup table i dev deliveries, d.frameCounter.toNat ≤ p.1.toNat := by
  induction deliveries generalizing dev d with
  | nil => intro p hp; cases hp
  | cons call rest ih =>
    intro p hp
    have hnf1 := hnf.mono (a := [call]) (by simp)
    rcases List.mem_append.1 hp with hp | hp
    · obtain ⟨f, hf, hi, -⟩ := acceptedByCall_mem rcfg aead hp
      obtain ⟨hs, k, hr⟩ := hf
      rcases call with ⟨buf, ctx⟩
      obtain ⟨rc, rfl⟩ := accept_ctx hr hs
      obtain ⟨src, aux, d₀, hsrc, haux, hg, hle, -⟩ :=
        C36_accept_stores rcfg aead hl.toAeadTyped buf rc lookup table dev f k hr hs
      obtain ⟨src', aux', hsrc', hid, haux', hc⟩ := hi
      rw [hsrc] at hsrc'; rw [haux] at haux'
      cases hsrc'; cases haux'
      rw [hid, hd] at hg
      cases hg
      rw [← hc]
      exact UInt32.le_iff_toNat_le.1 hle
    · obtain ⟨d', hd', hle⟩ := reception_monotone rcfg aead lookup table hl.toAeadTyped call dev i
        (.inr fun f hf hi => (accepted_sent cfg rcfg aead hl table i sc calls dev call hnf1 f _ hf hi).2 rfl) d hd
      exact Nat.le_trans (UInt32.le_iff_toNat_le.1 hle)
        (ih _ (hnf.mono fun c hc => List.mem_cons_of_mem _ hc) d' hd' p hp)

/-- **C68** Counters of what is accepted from one device are strictly increasing, with overflow checks
or without. -/
theorem C68_accepted_increasing (hl : AeadLaws aead) (table : DeviceTable ι lookup) (i : ι) (sc : SecCtx κ)
    (calls : List WriteCall) (deliveries : List (ReadCall κ)) (dev : σ)
    (hnf : NoForgery cfg rcfg aead table i sc calls deliveries) :
    (acceptedFrom rcfg aead lookup table i dev deliveries).Pairwise fun x y => x.1.toNat < y.1.toNat := by
  induction deliveries generalizing dev with
  | nil => exact .nil
  | cons call rest ih =>
    have hnf1 := hnf.mono (a := [call]) (by simp)
    have hnf2 := hnf.mono (a := rest) fun c hc => List.mem_cons_of_mem _ hc
    refine List.pairwise_append.2 ⟨acceptedByCall_pairwise rcfg aead table i dev call, ih _ hnf2, ?_⟩
    intro x hx y hy
    obtain ⟨f, hf, hi, -⟩ := acceptedByCall_mem rcfg aead hx
    have hmax := (accepted_sent cfg rcfg aead hl table i sc calls dev call hnf1 f _ hf hi).2
    obtain ⟨hs, k, hr⟩ := hf
    rcases call with ⟨buf, ctx⟩
    obtain ⟨rc, rfl⟩ := accept_ctx hr hs
    obtain ⟨src, aux, d₀, hsrc, haux, -, -, -, hst, -⟩ :=
      C36_accept_stores rcfg aead hl.toAeadTyped buf rc lookup table dev f k hr hs
    obtain ⟨src', aux', hsrc', hid, haux', hc⟩ := hi
    rw [hsrc] at hsrc'; rw [haux] at haux'
    cases hsrc'; cases haux'
    rw [hid] at hst
    have := acceptedFrom_ge cfg rcfg aead hl table i sc calls rest _ hnf2 _ hst y hy
    simp only at this
    rw [hc, u32_succ_toNat _ hmax] at this
    omega

/-- **C68** What a receiver accepts from a device is a subsequence of what that device sent, each with
its counter and payload: nothing altered, nothing twice, nothing out of order — whatever is delivered
as long as no delivered slice is a forgery. -/
theorem C68_channel (hl : AeadLaws aead) (table : DeviceTable ι lookup) (i : ι) (sc : SecCtx κ)
    (calls : List WriteCall) (deliveries : List (ReadCall κ)) (dev : σ)
    (hnf : NoForgery cfg rcfg aead table i sc calls deliveries) :
    (acceptedFrom rcfg aead lookup table i dev deliveries).Sublist (sentBy cfg aead sc calls) := by
  refine sublist_of_increasing (fun p => p.1.toNat) _ _
    (C68_accepted_increasing cfg rcfg aead hl table i sc calls deliveries dev hnf)
    (C68_sent_increasing cfg aead hl.toAeadTyped sc calls) ?_
  induction deliveries generalizing dev with
  | nil => intro p hp; cases hp
  | cons call rest ih =>
    intro p hp
    rcases List.mem_append.1 hp with hp | hp
    · obtain ⟨f, hf, hi, he⟩ := acceptedByCall_mem rcfg aead hp
      have := (accepted_sent cfg rcfg aead hl table i sc calls dev call (hnf.mono (by simp)) f _ hf hi).1
      rw [← he] at this
      exact this
    · exact ih _ (hnf.mono fun c hc => List.mem_cons_of_mem _ hc) p hp

end

/-! ## Witness for C68

The sample sender writes three frames; the receiver is given the second, junk, the second again, the
first and the third. -/

/-- A write of the sample frame with payload `[b]`. -/
def channelCall (b : UInt8) : WriteCall := ⟨{ sampleSecured with payload := [b] }, .none, List.replicate 40 0⟩

/-- The packet it puts on the air with low counter octet `c`. -/
def channelPacket (c b : UInt8) : List UInt8 :=
  sampleReceived.take 16 ++ [c] ++ (sampleReceived.drop 17).take 8 ++ [b, 0xAA, 0xAA, 0xAA, 0xAA]

/-- What the receiver is given. -/
def channelDeliveries : List (ReadCall Nat) :=
  [⟨channelPacket 5 2, ⟨.none, some sampleReceiver⟩⟩, ⟨[0x59, 0xD8, 0x4D], ⟨.none, some sampleReceiver⟩⟩,
    ⟨channelPacket 5 2, ⟨.none, some sampleReceiver⟩⟩, ⟨channelPacket 4 1, ⟨.none, some sampleReceiver⟩⟩,
    ⟨channelPacket 6 3, ⟨.none, some sampleReceiver⟩⟩]

/-- The header of a packet. -/
def channelHeader (c : UInt32) : Header :=
  { sampleIncoming.header with
      auxSec := some ⟨⟨.encmic32, .keySource4⟩, 0x01020300 + c, some ⟨some (.short 0xA1B2C3D4), 9⟩⟩ }

theorem channel_no_forgery : NoForgery sampleCfg sampleCfg sampleAead sampleTable () sampleSender
    [channelCall 1, channelCall 2, channelCall 3] channelDeliveries := by
  intro call hcall rc h n aux src eui key body tag payload hrc hread haux hsrc hid hkey hsplit htl hup
  have key : ∀ (c' : UInt32) (c b : UInt8) (before : List WriteCall) (after : List WriteCall),
      Header.tryRead sampleCfg (channelPacket c b) = .ok (channelHeader c', 25) →
      (channelPacket c b).drop 25 = [b, 0xAA, 0xAA, 0xAA, 0xAA] →
      [channelCall 1, channelCall 2, channelCall 3] = before ++ channelCall b :: after →
      (contextAfter sampleCfg sampleAead sampleSender before).frameCounter = 0x01020300 + c' →
      ((channelCall b).frame.tryWrite sampleCfg sampleAead
        ⟨.none, some (contextAfter sampleCfg sampleAead sampleSender before)⟩ (channelCall b).buf).1 = .ok 30 →
      ((channelCall b).frame.tryWrite sampleCfg sampleAead
        ⟨.none, some (contextAfter sampleCfg sampleAead sampleSender before)⟩ (channelCall b).buf).2.1.take 30 =
        securedHead sampleCfg (contextAfter sampleCfg sampleAead sampleSender before).frameCounter (channelCall b).frame
          ++ [b] ++ [0xAA, 0xAA, 0xAA, 0xAA] →
      call = ⟨channelPacket c b, ⟨.none, some sampleReceiver⟩⟩ →
      SentUnder sampleCfg sampleAead sampleSender [channelCall 1, channelCall 2, channelCall 3]
        aux.control.securityLevel key (nonceOctets eui aux.frameCounter aux.control.securityLevel) body tag := by
    intro c' c b before after h1 h2 h3 h4 h5 h6 h7
    subst h7
    simp only [Option.some.injEq] at hrc
    subst hrc
    rw [h1] at hread
    simp only [Out.ok.injEq, Prod.mk.injEq] at hread
    obtain ⟨rfl, rfl⟩ := hread
    simp only [channelHeader, Option.some.injEq] at haux
    subst haux
    simp only [sampleReceiver, Option.some.injEq, Prod.mk.injEq] at hkey
    obtain ⟨rfl, rfl⟩ := hkey
    rw [h2] at hsplit
    have htl' : [0xAA, 0xAA, 0xAA, 0xAA].length = tag.length := htl.symm
    obtain ⟨rfl, rfl⟩ := List.append_inj' (s₁ := [b]) (t₁ := [0xAA, 0xAA, 0xAA, 0xAA]) hsplit htl'
    have hn : nonceOctets 0x0102030405060708 (0x01020300 + c') .encmic32 = nonceOctets sampleSender.euid
        (contextAfter sampleCfg sampleAead sampleSender before).frameCounter .encmic32 := by
      rw [h4]; rfl
    generalize hr : (channelCall b).frame.tryWrite sampleCfg sampleAead
        ⟨.none, some (contextAfter sampleCfg sampleAead sampleSender before)⟩ (channelCall b).buf = r at h5 h6
    obtain ⟨r1, out, ctx⟩ := r
    simp only at h5 h6
    subst h5
    exact ⟨before, channelCall b, after, sampleAux, 9, 30, out, ctx, h3, rfl, ⟨sampleSecured_ok.encodable, trivial, rfl, rfl⟩, rfl,
      rfl, hn, hr, h6⟩
  simp only [channelDeliveries, List.mem_cons, List.not_mem_nil, or_false] at hcall
  rcases hcall with rfl | rfl | rfl | rfl | rfl
  · exact key 5 5 2 [channelCall 1] [channelCall 3] (by decide +kernel) (by decide +kernel) rfl
      (by decide +kernel) (by decide +kernel) (by decide +kernel) rfl
  · have : Header.tryRead sampleCfg [0x59, 0xD8, 0x4D] ≠ .ok (h, n) := by
      intro h0
      have h1 : (match Header.tryRead sampleCfg [0x59, 0xD8, 0x4D] with | .ok _ => true | _ => false) = false := by
        decide +kernel
      rw [h0] at h1
      cases h1
    exact absurd hread this
  · exact key 5 5 2 [channelCall 1] [channelCall 3] (by decide +kernel) (by decide +kernel) rfl
      (by decide +kernel) (by decide +kernel) (by decide +kernel) rfl
  · exact key 4 4 1 [] [channelCall 2, channelCall 3] (by decide +kernel) (by decide +kernel) rfl
      (by decide +kernel) (by decide +kernel) (by decide +kernel) rfl
  · exact key 6 6 3 [channelCall 1, channelCall 2] [] (by decide +kernel) (by decide +kernel) rfl
      (by decide +kernel) (by decide +kernel) (by decide +kernel) rfl

example : AeadLaws sampleAead ∧
    sentBy sampleCfg sampleAead sampleSender [channelCall 1, channelCall 2, channelCall 3] =
      [(0x01020304, [1]), (0x01020305, [2]), (0x01020306, [3])] ∧
    acceptedFrom sampleCfg sampleAead sampleLookup sampleTable () ⟨3, false⟩ channelDeliveries =
      [(0x01020305, [2]), (0x01020306, [3])] :=
  ⟨sampleAead_laws, by decide +kernel, by decide +kernel⟩

end Verif
