import Verif.Spec.ShutSpec
import Verif.Props.Everyone

/-!
# C107 No device is shut out
-/

namespace Verif

open Spec Rfc3610

section
variable {κ σ : Type}

/-- Counters sent are below the counter left. -/
theorem sentBy_lt {cfg : Cfg} {aead : Aead κ} (ht : AeadTyped aead) (calls : List WriteCall) (sc : SecCtx κ) :
    ∀ x ∈ sentBy cfg aead sc calls, x.1.toNat < (contextAfter cfg aead sc calls).frameCounter.toNat := by
  induction calls generalizing sc with
  | nil => intro p hp; cases hp
  | cons call calls ih =>
    intro x hx
    rcases List.mem_append.1 hx with hx | hx
    · have h1 := sentByCall_advances cfg aead ht hx
      have h2 := (C31_counter_monotone cfg aead ht calls (contextAfterCall cfg aead sc call)).1
      rw [(sentByCall_mem cfg aead hx).1]
      show sc.frameCounter.toNat < (contextAfter cfg aead (contextAfterCall cfg aead sc call) calls).frameCounter.toNat
      omega
    · exact ih _ x hx

/-- No counter sent is the greatest. -/
theorem sentBy_not_max {cfg : Cfg} {aead : Aead κ} (ht : AeadTyped aead) (calls : List WriteCall) (sc : SecCtx κ) :
    ∀ x ∈ sentBy cfg aead sc calls, x.1 ≠ maxCounter := by
  intro x hx h
  have h1 := sentBy_lt ht calls sc x hx
  have h2 := (contextAfter cfg aead sc calls).frameCounter.toNat_lt
  have h3 : maxCounter.toNat = 0xFFFFFFFF := rfl
  rw [h] at h1
  omega

variable {ι : Type} [DecidableEq ι] {rcfg : Cfg} {aead : Aead κ} {lookup : DevLookup σ}

/-- What one call leaves in the table for device `i`. -/
theorem stored_after_call (ht : AeadTyped aead) (table : DeviceTable ι lookup) (i : ι) (call : ReadCall κ) (dev : σ)
    (d : DeviceDescriptor) (hd : table.get dev i = some d) :
    ∃ d', table.get (Frame.tryReadAndUnsecure rcfg aead call.buf call.ctx lookup dev).2.2.2 i = some d' ∧
      d'.frameCounter = match (acceptedByCall rcfg aead lookup table i dev call).getLast? with
        | none => d.frameCounter
        | some x => x.1 + 1 := by
  by_cases hacc : ∃ f k, (Frame.tryReadAndUnsecure rcfg aead call.buf call.ctx lookup dev).1 = .ok (f, k) ∧ Secured f.header
  · obtain ⟨f, k, hr, hs⟩ := hacc
    rcases call with ⟨buf, ctx⟩
    obtain ⟨rc, hrc⟩ := accept_ctx hr hs
    have hrc : ctx = ⟨.none, some rc⟩ := hrc
    subst hrc
    obtain ⟨src, aux, d₀, hsrc, haux, hg, -, -, hst, hot⟩ :=
      C36_accept_stores rcfg aead ht buf rc lookup table dev f k hr hs
    have hby : acceptedByCall rcfg aead lookup table i dev ⟨buf, ⟨.none, some rc⟩⟩ =
        if table.identify src = i then [(aux.frameCounter, f.payload)] else [] := by
      unfold acceptedByCall
      simp only [show (Frame.tryReadAndUnsecure rcfg aead buf ⟨.none, some rc⟩ lookup dev).1 = .ok (f, k) from hr, hsrc, haux]
    rw [hby]
    by_cases hi : table.identify src = i
    · rw [if_pos hi]
      subst hi
      exact ⟨_, hst, rfl⟩
    · rw [if_neg hi]
      exact ⟨d, by rw [← hd]; exact hot i (fun h => hi h.symm), rfl⟩
  · have hby : acceptedByCall rcfg aead lookup table i dev call = [] := by
      refine List.eq_nil_iff_forall_not_mem.2 fun x hx => ?_
      obtain ⟨f, ⟨hs, k, hr⟩, -⟩ := acceptedByCall_mem rcfg aead hx
      exact hacc ⟨f, k, hr, hs⟩
    rw [hby]
    refine ⟨d, ?_, rfl⟩
    rw [← hd]
    exact C37_descriptors_unchanged rcfg aead ht call.buf call.ctx lookup table dev
      (fun f k h hs => hacc ⟨f, k, h, hs⟩) i

/-- After any history the table has the counter it started with, or one more than the last accepted. -/
theorem stored_after (ht : AeadTyped aead) (table : DeviceTable ι lookup) (i : ι) (deliveries : List (ReadCall κ)) (dev : σ)
    (d : DeviceDescriptor) (hd : table.get dev i = some d) :
    ∃ d', table.get (devicesAfter rcfg aead lookup dev deliveries) i = some d' ∧
      d'.frameCounter = match (acceptedFrom rcfg aead lookup table i dev deliveries).getLast? with
        | none => d.frameCounter
        | some x => x.1 + 1 := by
  induction deliveries generalizing dev d with
  | nil => exact ⟨d, hd, rfl⟩
  | cons call rest ih =>
    obtain ⟨d₁, h1, h2⟩ := stored_after_call (rcfg := rcfg) ht table i call dev d hd
    obtain ⟨d₂, h3, h4⟩ := ih _ d₁ h1
    refine ⟨d₂, h3, h4.trans ?_⟩
    show _ = match (acceptedByCall rcfg aead lookup table i dev call ++ acceptedFrom rcfg aead lookup table i
        (Frame.tryReadAndUnsecure rcfg aead call.buf call.ctx lookup dev).2.2.2 rest).getLast? with
      | none => d.frameCounter
      | some x => x.1 + 1
    rw [List.getLast?_append]
    cases (acceptedFrom rcfg aead lookup table i
        (Frame.tryReadAndUnsecure rcfg aead call.buf call.ctx lookup dev).2.2.2 rest).getLast? with
    | none => exact h2
    | some x => rfl

end

section
variable {κ σ : Type} {start : List (Sender κ)} {A : Attacker κ σ} {ι : Type} [DecidableEq ι]

/-- While what is delivered from the device is part of what it sent, a packet handed over is delivered
exactly if nothing has overtaken it. -/
theorem handed_over {st : Station κ σ ι} {d p n : Nat} {s : Sender κ} {call : WriteCall} {a : Offer κ σ} {e : BlockCipher κ}
    {eui : UInt64} (hm : MadeTo A st.mine st.cfg st.table (st.entry d) st.dev eui)
    (h : HandsOver e start A st d p n s call a) (hk : KnowsAtFirst st d s)
    (hle : s.cfg.native = .little) (hrle : st.cfg.native = .little)
    (hr : List.Sublist (deliveredIn st.mine st.table.identify (st.entry d) (play e start A n).log)
      (sentBy s.cfg (Ccm.aead e) s.context s.calls)) :
    (¬ Overtaken e start A st d p n s → ∃ k, (answer e a).1 =
        .ok (⟨headerAsRead s.cfg (counterAt s.cfg (Ccm.aead e) s.context s.calls p) call.frame.header, .data,
          call.frame.payload, (0, 0)⟩, k)) ∧
    (Overtaken e start A st d p n s → (answer e a).1 = .err .counterError) := by
  have hlaws := C50_ccm_laws e
  have ht := hlaws.toAeadTyped
  obtain ⟨rc, hctx, hrec⟩ := h.receivable
  obtain ⟨h1, h2, h3, -⟩ := hm _ _ h.offer h.mine
  obtain ⟨hch, hst⟩ := play_channel (start := start) (A := A) _ _ _ _ _ _ hm e n
  obtain ⟨entry, hg, hent⟩ := hk
  obtain ⟨d', hd', hc'⟩ := stored_after (rcfg := st.cfg) ht st.table (st.entry d)
    (readCalls st.mine (play e start A n).log) st.dev entry hg
  rw [← hch] at hc'
  rw [← hst, ← h3] at hd'
  have hans : answer e a = Frame.tryReadAndUnsecure st.cfg (Ccm.aead e) a.slice ⟨.none, some rc⟩ st.lookup a.device := by
    unfold answer
    rw [h1, h2, hctx]
  have hpk := packet_received hle hrle hlaws h.octets h.number hrec a.device d' hd'
  rw [hans]
  have hinc : (deliveredIn st.mine st.table.identify (st.entry d) (play e start A n).log).Pairwise
      fun x y => x.1.toNat < y.1.toNat := (C68_sent_increasing s.cfg (Ccm.aead e) ht s.context s.calls).sublist hr
  have hsplit : sentBy s.cfg (Ccm.aead e) s.context s.calls = sentBy s.cfg (Ccm.aead e) s.context (s.calls.take p) ++
      sentBy s.cfg (Ccm.aead e) (contextAfter s.cfg (Ccm.aead e) s.context (s.calls.take p)) (s.calls.drop p) := by
    rw [← sentBy_append, List.take_append_drop]
  constructor
  · intro hno
    refine (hpk.1 ?_).1
    rw [UInt32.le_iff_toNat_le, hc']
    cases hl : (deliveredIn st.mine st.table.identify (st.entry d) (play e start A n).log).getLast? with
    | none =>
      have h4 := UInt32.le_iff_toNat_le.1 hent
      have h5 := (C31_counter_monotone s.cfg (Ccm.aead e) ht (s.calls.take p) s.context).1
      exact Nat.le_trans h4 h5
    | some x =>
      have hx := List.mem_of_getLast? hl
      have hxs := hr.subset hx
      rw [hsplit] at hxs
      rcases List.mem_append.1 hxs with hxs | hxs
      · have h4 := sentBy_lt ht _ _ x hxs
        have h5 := sentBy_not_max ht _ _ x hxs
        show (x.1 + 1).toNat ≤ _
        rw [u32_succ_toNat _ h5]
        exact h4
      · exact absurd ⟨x, hx, hxs⟩ hno
  · rintro ⟨x, hx, hxs⟩
    refine (hpk.2 ?_).1
    rw [UInt32.lt_iff_toNat_lt, hc']
    have hge : (counterAt s.cfg (Ccm.aead e) s.context s.calls p).toNat ≤ x.1.toNat := sentBy_ge _ _ ht _ _ x hxs
    cases hl : (deliveredIn st.mine st.table.identify (st.entry d) (play e start A n).log).getLast? with
    | none =>
      rw [List.getLast?_eq_none_iff] at hl
      rw [hl] at hx
      cases hx
    | some y =>
      have hxy : x.1.toNat ≤ y.1.toNat := by
        obtain ⟨l, hl'⟩ := List.getLast?_eq_some_iff.1 hl
        rw [hl'] at hx hinc
        rcases List.mem_append.1 hx with hx | hx
        · exact Nat.le_of_lt ((List.pairwise_append.1 hinc).2.2 x hx y (by simp))
        · rw [List.mem_singleton.1 hx]
      show _ < (y.1 + 1).toNat
      rw [u32_succ_toNat _ (sentBy_not_max ht _ _ y (hr.subset (List.mem_of_getLast? hl)))]
      exact Nat.lt_succ_of_le (Nat.le_trans hge hxy)

/-- **C107** Whatever the cipher: as long as what receivers have delivered is part of what was sent, a packet handed
over as it was sent is delivered if nothing has overtaken it, and answered with `CounterError` if something has. -/
theorem C107_answer {ρ : Type} {stations : ρ → Station κ σ ι} (hm : MadeToAll A start stations) {e : BlockCipher κ}
    {n : Nat} (hr : AllRight e start A stations n) {r : ρ} {d p : Nat} {s : Sender κ} {call : WriteCall} {a : Offer κ σ}
    (hh : HandsOver e start A (stations r) d p n s call a) (hk : KnowsAtFirst (stations r) d s)
    (hle : s.cfg.native = .little) (hrle : (stations r).cfg.native = .little) :
    (¬ Overtaken e start A (stations r) d p n s → Delivers e s call a) ∧
    (Overtaken e start A (stations r) d p n s → (answer e a).1 = .err .counterError) := by
  obtain ⟨sender, hd⟩ : ∃ sender, start[d]? = some sender := by
    have hsub := play_sub (start := start) (A := A) e 0 n
    rw [Nat.zero_add] at hsub
    have hlen : start.length = (play e start A n).net.length := hsub.1.symm
    have hlt := (List.getElem?_eq_some_iff.1 hh.device).1
    rw [← hlen] at hlt
    exact ⟨_, List.getElem?_eq_getElem hlt⟩
  have := handed_over (hm r d sender hd) hh hk hle hrle (hr r d s hh.device)
  exact ⟨fun h => by obtain ⟨k, hk⟩ := this.1 h; exact ⟨_, k, hk⟩, this.2⟩

theorem shutOut_wrong {ρ : Type} {stations : ρ → Station κ σ ι} (hm : MadeToAll A start stations) {e : BlockCipher κ}
    (h : ShutOut e start A stations) : ∃ n, ¬ AllRight e start A stations n := by
  obtain ⟨r, d, p, n, s, call, a, hh, hk, hle, hrle, hno⟩ := h
  exact ⟨n, fun hr => hno (C107_answer hm hr hh hk hle hrle)⟩

/-- **C107** The chance that an attacker in control of the network ever keeps a packet out that he hands over: that a
packet of some device, handed to some receiver as it was sent, is not delivered though that receiver has delivered
nothing sent by the device then or later (or is answered with anything but `CounterError` though it has). -/
theorem C107_not_shut_out [Finite κ] {ρ : Type} (start : List (Sender κ)) (hs : Fresh start)
    (stations : ρ → Station κ σ ι) (A : Attacker κ σ) (q v limit : Nat) (hA : Limited A q v limit)
    (hm : MadeToAll A start stations) (hl : limit < 65280) :
    ChanceAtMost (fun e => ShutOut e start A stations)
      (v * (2 ^ 96 + 4 * (9 * q + (limit + 33) / 16) ^ 2)) (2 ^ 128) :=
  chance_mono (fun _ h => .inr (shutOut_wrong hm h)) (C95_whole_network start hs stations A q v limit hA hm hl)

/-- The first `n` steps without those sent after them. -/
theorem missing_none {st : Station κ σ ι} {d : Nat} {sender : Sender κ} {e : BlockCipher κ}
    (hd : start[d]? = some sender) (hfresh : sender.calls = [])
    (hm : MadeTo A st.mine st.cfg st.table (st.entry d) st.dev sender.context.euid)
    (hk : KnowsAtFirst st d sender) (hle : sender.cfg.native = .little) (hrle : st.cfg.native = .little)
    (hhold : CannotHoldBack start A st d sender)
    (hr : ∀ n s, (play e start A n).net[d]? = some s →
      List.Sublist (deliveredIn st.mine st.table.identify (st.entry d) (play e start A n).log)
        (sentBy s.cfg (Ccm.aead e) s.context s.calls)) (n : Nat) :
    ∃ calls, (play e start A n).net[d]? = some ⟨sender.cfg, sender.context, calls⟩ ∧
      (¬ JustSent d (play e start A n).log →
        deliveredIn st.mine st.table.identify (st.entry d) (play e start A n).log =
          sentBy sender.cfg (Ccm.aead e) sender.context calls) ∧
      (JustSent d (play e start A n).log → ∃ calls₀ call before octets, calls = calls₀ ++ [call] ∧
        (play e start A n).log = before ++ [.sent d call (some octets)] ∧
        onAir sender.cfg (Ccm.aead e) sender.context calls calls₀.length = some octets ∧
        deliveredIn st.mine st.table.identify (st.entry d) (play e start A n).log =
          sentBy sender.cfg (Ccm.aead e) sender.context calls₀) := by
  induction n with
  | zero =>
    refine ⟨[], ?_, fun _ => rfl, ?_⟩
    · show start[d]? = _
      rw [hd, ← hfresh]
    · rintro ⟨before, call, octets, h⟩
      have h : ([] : List (Sight κ σ)) = before ++ [.sent d call (some octets)] := h
      simp at h
  | succ n ih =>
    obtain ⟨calls, hnet, hidle, hjust⟩ := ih
    have hr' := hr (n + 1)
    rcases hA : A (play e start A n).log with _ | ⟨i, call⟩ | a
    · have hsame : play e start A (n + 1) = play e start A n := by
        conv => lhs; unfold play
        simp only [hA]
      rw [hsame]
      exact ⟨calls, hnet, hidle, hjust⟩
    · have hstep : play e start A (n + 1) = ⟨wrote (play e start A n).net i call,
          (play e start A n).log ++ [.sent i call (observed e (wrote (play e start A n).net i call) i
            (writesOf (play e start A n).net i))]⟩ := by
        conv => lhs; unfold play
        simp only [hA]
      have hnot : ¬ JustSent d (play e start A n).log := by
        rintro ⟨before, call', octets, h⟩
        obtain ⟨a, rc, ha, -⟩ := hhold e n before call' octets h
        rw [hA] at ha
        cases ha
      have hidle := hidle hnot
      rw [hstep]
      simp only [deliveredIn_append, deliveredIn, List.append_nil]
      by_cases hid : i = d
      · subst hid
        have hget : (wrote (play e start A n).net i call)[i]? = some ⟨sender.cfg, sender.context, calls ++ [call]⟩ := by
          unfold wrote
          rw [List.getElem?_modify, hnet]
          simp
        have hw : writesOf (play e start A n).net i = calls.length := by
          unfold writesOf
          rw [hnet]
        have hobs : observed e (wrote (play e start A n).net i call) i (writesOf (play e start A n).net i) =
            onAir sender.cfg (Ccm.aead e) sender.context (calls ++ [call]) calls.length := by
          unfold observed
          rw [hget, hw]
          rfl
        rw [hobs]
        refine ⟨calls ++ [call], hget, fun hn => ?_, ?_⟩
        · rw [hidle, sentBy_append]
          cases ho : onAir sender.cfg (Ccm.aead e) sender.context (calls ++ [call]) calls.length with
          | some octets => exact absurd ⟨_, call, octets, by rw [ho]⟩ hn
          | none =>
            suffices h : sentBy sender.cfg (Ccm.aead e) (contextAfter sender.cfg (Ccm.aead e) sender.context calls) [call] = [] by
              rw [h, List.append_nil]
            unfold onAir at ho
            simp only [List.getElem?_append_right (Nat.le_refl _), Nat.sub_self, List.getElem?_cons_zero,
              List.take_left] at ho
            simp only [sentBy, List.append_nil]
            refine List.eq_nil_iff_forall_not_mem.2 fun x hx => ?_
            obtain ⟨-, k, aux, -, -, hok⟩ := sentByCall_mem _ _ hx
            rcases hw : call.frame.tryWrite sender.cfg (Ccm.aead e)
              ⟨call.mode, some (contextAfter sender.cfg (Ccm.aead e) sender.context calls)⟩ call.buf with ⟨r, b, c⟩
            rw [hw] at ho hok
            simp only at hok
            subst hok
            simp at ho
        · rintro ⟨before, call', octets, h⟩
          obtain ⟨h1, h2⟩ := List.append_inj' h rfl
          simp only [List.cons.injEq, Sight.sent.injEq, and_true, true_and] at h2
          obtain ⟨rfl, h2⟩ := h2
          exact ⟨calls, call, _, octets, rfl, by rw [h2], h2, hidle⟩
      · have hget : (wrote (play e start A n).net i call)[d]? = some ⟨sender.cfg, sender.context, calls⟩ := by
          unfold wrote
          rw [List.getElem?_modify, hnet]
          simp [hid]
        refine ⟨calls, hget, fun _ => hidle, ?_⟩
        rintro ⟨before, call', octets, h⟩
        obtain ⟨h1, h2⟩ := List.append_inj' h rfl
        simp only [List.cons.injEq, Sight.sent.injEq] at h2
        exact absurd h2.1.1 hid
    · have hstep : play e start A (n + 1) = ⟨(play e start A n).net, (play e start A n).log ++ [.answered a (answer e a)]⟩ := by
        conv => lhs; unfold play
        simp only [hA]
      rw [hstep] at hr' ⊢
      have hr' := hr' _ hnet
      refine ⟨calls, hnet, fun _ => ?_, ?_⟩
      · by_cases hn : JustSent d (play e start A n).log
        · obtain ⟨calls₀, call, before, octets, rfl, hlog, hair, hdel⟩ := hjust hn
          obtain ⟨a', rc, ha', hmine, hoct, hctx, hrec⟩ := hhold e n before call octets hlog
          rw [hA] at ha'
          obtain rfl : a = a' := by
            have := Option.some.inj ha'
            simpa using this
          have hnow := hr n _ hnet
          have hho : HandsOver e start A st d calls₀.length n ⟨sender.cfg, sender.context, calls₀ ++ [call]⟩ call a :=
            ⟨hA, hmine, hnet, by simp, by rw [hoct]; exact hair, rc, hctx, hrec⟩
          have hnot : ¬ Overtaken e start A st d calls₀.length n ⟨sender.cfg, sender.context, calls₀ ++ [call]⟩ := by
            rintro ⟨x, hx, hx'⟩
            rw [hdel] at hx
            have h1 := sentBy_lt (C50_ccm_laws e).toAeadTyped _ _ x hx
            have h2 := sentBy_ge _ _ (C50_ccm_laws e).toAeadTyped _ _ x hx'
            simp only [List.take_left] at h2
            omega
          obtain ⟨k, hk'⟩ := (handed_over hm hho hk hle hrle hnow).1 hnot
          have hlen : (calls₀ ++ [call])[calls₀.length]? = some call := by simp
          obtain ⟨aux, hf, hl, src, hsrc, hi, -⟩ := hrec.frame
          obtain ⟨n', buf', ctx', hw, -⟩ := packet_ok (C50_ccm_laws e) hair hlen hrec
          rw [List.take_left] at hw
          rw [sentBy_append, deliveredIn_append, hdel]
          congr 1
          simp only [deliveredIn, List.append_nil, if_pos hmine, sentBy, deliveredFrom, hk']
          have haux : (headerAsRead sender.cfg (counterAt sender.cfg (Ccm.aead e) sender.context (calls₀ ++ [call]) calls₀.length)
              call.frame.header).auxSec = some (auxAsRead sender.cfg
                (counterAt sender.cfg (Ccm.aead e) sender.context (calls₀ ++ [call]) calls₀.length) aux) := by
            show Option.map _ call.frame.header.auxSec = _
            rw [hf.aux]; rfl
          have hsrc' : (headerAsRead sender.cfg (counterAt sender.cfg (Ccm.aead e) sender.context (calls₀ ++ [call]) calls₀.length)
              call.frame.header).source = some src := hsrc
          rw [hsrc', haux]
          simp only [hi, if_true]
          rw [sentByCall_of_ok _ _ hf.aux hl (n := n') (by rw [hrec.mode, hw])]
          congr 1
          refine Prod.ext ?_ rfl
          show counterOnAir sender.cfg _ = _
          rw [C33_little sender.cfg hle]
          unfold counterAt
          rw [List.take_left]
        · have hidle := hidle hn
          rw [deliveredIn_append, hidle] at hr' ⊢
          have : deliveredIn st.mine st.table.identify (st.entry d) [.answered a (answer e a)] = [] := by
            have h1 := hr'.length_le
            rw [List.length_append] at h1
            simp only at h1
            exact List.length_eq_zero_iff.1 (by omega)
          rw [this, List.append_nil]
      · rintro ⟨before, call', octets, h⟩
        obtain ⟨h1, h2⟩ := List.append_inj' h rfl
        simp at h2

theorem missing_wrong {ρ : Type} {stations : ρ → Station κ σ ι} (hs : Fresh start) (hm : MadeToAll A start stations)
    {r : ρ} {d : Nat} {sender : Sender κ} (hd : start[d]? = some sender) (hk : KnowsAtFirst (stations r) d sender)
    (hle : sender.cfg.native = .little) (hrle : (stations r).cfg.native = .little)
    (hhold : CannotHoldBack start A (stations r) d sender) {e : BlockCipher κ} (h : Missing e start A (stations r) d) :
    ∃ n, ¬ AllRight e start A stations n := by
  obtain ⟨n, s, hds, hno, hne⟩ := h
  refine Classical.byContradiction fun hall => hne ?_
  have hall : ∀ n, AllRight e start A stations n := fun n => Classical.byContradiction fun h => hall ⟨n, h⟩
  obtain ⟨calls, hnet, hidle, -⟩ := missing_none hd (hs.2 _ (List.mem_of_getElem? hd)) (hm r d sender hd) hk hle hrle hhold
    (fun n s h => hall n r d s h) n
  rw [hnet] at hds
  cases hds
  exact hidle hno

/-- **C107** The chance that a receiver ever misses anything of what a device sends, or delivers anything more as coming
from it, when the attacker can add what he likes but cannot hold back what the device sends to that receiver. -/
theorem C107_nothing_missing [Finite κ] {ρ : Type} (start : List (Sender κ)) (hs : Fresh start)
    (stations : ρ → Station κ σ ι) (A : Attacker κ σ) (q v limit : Nat) (hA : Limited A q v limit)
    (hm : MadeToAll A start stations) (hl : limit < 65280) (r : ρ) (d : Nat) (sender : Sender κ)
    (hd : start[d]? = some sender) (hk : KnowsAtFirst (stations r) d sender)
    (hle : sender.cfg.native = .little) (hrle : (stations r).cfg.native = .little)
    (hhold : CannotHoldBack start A (stations r) d sender) :
    ChanceAtMost (fun e => Missing e start A (stations r) d)
      (v * (2 ^ 96 + 4 * (9 * q + (limit + 33) / 16) ^ 2)) (2 ^ 128) :=
  chance_mono (fun _ h => .inr (missing_wrong hs hm hd hk hle hrle hhold h))
    (C95_whole_network start hs stations A q v limit hA hm hl)

/-- **C107** The same among permutations. -/
theorem C107_not_shut_out_permutation [Finite κ] {ρ : Type} (start : List (Sender κ)) (hs : Fresh start)
    (stations : ρ → Station κ σ ι) (A : Attacker κ σ) (q v limit : Nat) (hA : Limited A q v limit)
    (hm : MadeToAll A start stations) (hl : limit < 65280) :
    PermChanceAtMost (fun e => ShutOut e start A stations)
      (2 * (v * (2 ^ 96 + 4 * (9 * q + (limit + 33) / 16) ^ 2)))
      (2 ^ 129 - (18 * q + 2 * v * ((limit + 33) / 16)) ^ 2) := by
  refine Nat.le_trans (Nat.mul_le_mul_right _ ?_)
    (C95_whole_network_permutation start hs stations A q v limit hA hm hl)
  exact howMany_mono fun _ h => ⟨h.1, .inr (shutOut_wrong hm h.2)⟩

/-- **C107** The same among permutations. -/
theorem C107_nothing_missing_permutation [Finite κ] {ρ : Type} (start : List (Sender κ)) (hs : Fresh start)
    (stations : ρ → Station κ σ ι) (A : Attacker κ σ) (q v limit : Nat) (hA : Limited A q v limit)
    (hm : MadeToAll A start stations) (hl : limit < 65280) (r : ρ) (d : Nat) (sender : Sender κ)
    (hd : start[d]? = some sender) (hk : KnowsAtFirst (stations r) d sender)
    (hle : sender.cfg.native = .little) (hrle : (stations r).cfg.native = .little)
    (hhold : CannotHoldBack start A (stations r) d sender) :
    PermChanceAtMost (fun e => Missing e start A (stations r) d)
      (2 * (v * (2 ^ 96 + 4 * (9 * q + (limit + 33) / 16) ^ 2)))
      (2 ^ 129 - (18 * q + 2 * v * ((limit + 33) / 16)) ^ 2) := by
  refine Nat.le_trans (Nat.mul_le_mul_right _ ?_)
    (C95_whole_network_permutation start hs stations A q v limit hA hm hl)
  exact howMany_mono fun _ h => ⟨h.1, .inr (missing_wrong hs hm hd hk hle hrle hhold h.2)⟩

end

end Verif
