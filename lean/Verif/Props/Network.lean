import Verif.Props.Channel
import Verif.Props.Node
import Verif.Props.Receiver
import Verif.Spec.NetworkSpec

/-!
# C78: a network of nodes
-/

namespace Verif
open Spec

section

variable {κ σ : Type}

/-- What an accepted slice looks like, in the terms of the unforgeability assumptions. -/
theorem accepts_parts (rcfg : Cfg) {aead : Aead κ} (ht : AeadTyped aead) {lookup : DevLookup σ} {dev : σ}
    {buf : List UInt8} {mode : FooterMode} {rc : SecCtx κ} {f : Frame}
    (hf : Accepts rcfg aead lookup dev ⟨buf, ⟨mode, some rc⟩⟩ f) :
    ∃ n aux src eui key body tag, Header.tryRead rcfg buf = .ok (f.header, n) ∧
      f.header.auxSec = some aux ∧ f.header.source = some src ∧
      rc.keyProvider .src aux.keyIdentifier (some src) = some (eui, key) ∧
      Authenticating aux.control.securityLevel ∧
      buf.drop n = body ++ tag ∧ tag.length = tagLength aux.control.securityLevel ∧
      unprotect aead aux.control.securityLevel key
        (nonceOctets eui aux.frameCounter aux.control.securityLevel) body tag = some f.payload := by
  obtain ⟨hs, k, hr⟩ := hf
  obtain ⟨rc', hc⟩ := accept_ctx hr hs
  cases hc
  obtain ⟨x, body, tag, payload, hx, hv, -, rfl, -, -, -, -⟩ :=
    (C38_accept_iff rcfg aead ht buf
      (Frame.tryReadAndUnsecure rcfg aead buf ⟨.none, some rc⟩ lookup dev).2.1
      rc lookup dev (Frame.tryReadAndUnsecure rcfg aead buf ⟨.none, some rc⟩ lookup dev).2.2.2 f k
      (Frame.tryReadAndUnsecure rcfg aead buf ⟨.none, some rc⟩ lookup dev).2.2.1).1
      ⟨Prod.ext hr rfl, hs⟩
  exact ⟨x.headLength, x.aux, x.source, x.eui, x.key, body, tag, hx.read, hx.aux, hx.source,
    by rw [← hx.source]; exact hx.key, hx.level, hv.split, hv.tagLength, hv.verifies⟩

/-- What verifies where a successful write put it is the payload written. -/
theorem sent_payload (cfg : Cfg) {aead : Aead κ} (hl : AeadLaws aead) {f : Frame} {aux : AuxHeader}
    (hsd : SecuredData f aux) (hauth : Authenticating aux.control.securityLevel) {sc : SecCtx κ}
    {eui : UInt64} {key : κ} {buf out body tag payload : List UInt8} {n : Nat} {ctx : SerDesCtx κ}
    (hkey : sc.keyProvider .dst aux.keyIdentifier f.header.destination = some (eui, key))
    (hw : f.tryWrite cfg aead ⟨.none, some sc⟩ buf = (.ok n, out, ctx))
    (hout : out.take n = securedHead cfg sc.frameCounter f ++ body ++ tag)
    (htl : tag.length = tagLength aux.control.securityLevel)
    (hup : unprotect aead aux.control.securityLevel key
      (nonceOctets sc.euid sc.frameCounter aux.control.securityLevel) body tag = some payload) :
    payload = f.payload ∧ sc.frameCounter ≠ maxCounter := by
  obtain ⟨hmax, -, eui'', key'', body', tag', hkey', hprot, hn, -, hout', -⟩ :=
    (C40_secured_write_iff cfg aead hl.toAeadTyped f aux hsd hauth sc buf out n ctx).1 hw
  rw [hkey] at hkey'
  obtain ⟨rfl, rfl⟩ := Prod.mk.inj (Option.some.inj hkey')
  have hlen := C40_protected_part aead hl.toAeadTyped _ _ _ _ _ _ hprot
  have htake : out.take n = securedHead cfg sc.frameCounter f ++ body' ++ tag' := by
    rw [hout', hn, show (securedHead cfg sc.frameCounter f).length
      + body'.length + tag'.length = (securedHead cfg sc.frameCounter f
        ++ body' ++ tag').length by simp [Nat.add_assoc], List.take_left]
  rw [htake] at hout
  obtain ⟨h1, rfl⟩ := List.append_inj' hout (by rw [hlen.2.2.1, htl])
  obtain ⟨-, rfl⟩ := List.append_inj h1 rfl
  exact ⟨Option.some.inj (hup.symm.trans (unprotect_protect hl hprot)), hmax⟩

end

section

variable {N κ σ : Type} [DecidableEq N] (net : Spec.Network N κ σ)

theorem before_succ (p : Nat) (e : NetEvent N κ σ) (he : net.events[p]? = some e) :
    net.before (p + 1) = netStep net.code net.aead (net.before p) e := by
  obtain ⟨hp, he⟩ := List.getElem?_eq_some_iff.1 he
  unfold Spec.Network.before
  rw [List.take_succ_eq_append_getElem hp, List.foldl_append, he]
  rfl

theorem before_succ_none (p : Nat) (he : net.events[p]? = none) : net.before (p + 1) = net.before p := by
  have := List.getElem?_eq_none_iff.1 he
  unfold Spec.Network.before
  rw [List.take_of_length_le this, List.take_of_length_le (by omega)]

/-- One event and one node: the context keeps its address, the counter does not fall. -/
theorem before_succ_ctx (ht : AeadTyped net.aead) (hk : net.KeepsCounters) (p : Nat) (i : N) :
    (net.before (p + 1) i).ctx.euid = (net.before p i).ctx.euid ∧
    (net.before p i).ctx.frameCounter.toNat ≤ (net.before (p + 1) i).ctx.frameCounter.toNat := by
  rcases he : net.events[p]? with _ | ⟨j, ev⟩
  · rw [before_succ_none net p he]; exact ⟨rfl, Nat.le_refl _⟩
  · rw [before_succ net p _ he]
    unfold netStep
    by_cases hj : i = j
    · subst hj
      simp only [if_true]
      rcases ev with ⟨⟨call⟩ | ⟨mode, buf⟩⟩ | update
      · unfold actionStep
        simp only
        rw [nodeStep_send]
        have h := C31_counter_monotone (net.code i).cfg net.aead ht [call] (net.before p i).ctx
        exact ⟨h.2.2.1, h.1⟩
      · unfold actionStep
        simp only
        rw [nodeStep_receive _ _ _ ht]
        exact ⟨rfl, Nat.le_refl _⟩
      · have h := hk p i update he
        exact ⟨h.1, UInt32.le_iff_toNat_le.1 h.2⟩
    · rw [if_neg hj]
      exact ⟨rfl, Nat.le_refl _⟩

theorem before_ctx (ht : AeadTyped net.aead) (hk : net.KeepsCounters) (i : N) (p k : Nat) :
    (net.before (p + k) i).ctx.euid = (net.before p i).ctx.euid ∧
    (net.before p i).ctx.frameCounter.toNat ≤ (net.before (p + k) i).ctx.frameCounter.toNat := by
  induction k with
  | zero => exact ⟨rfl, Nat.le_refl _⟩
  | succ k ih =>
    have h := before_succ_ctx net ht hk (p + k) i
    exact ⟨h.1.trans ih.1, Nat.le_trans ih.2 h.2⟩

theorem before_start (ht : AeadTyped net.aead) (hk : net.KeepsCounters) (i : N) (p : Nat) :
    (net.before p i).ctx.euid = (net.start i).ctx.euid := by
  have h := before_ctx net ht hk i 0 p
  rw [Nat.zero_add] at h
  exact h.1

/-- The counter of node `i` at two events is ordered as the events are. -/
theorem lt_of_counter_lt (ht : AeadTyped net.aead) (hk : net.KeepsCounters) {i : N} {p q : Nat}
    (h : (net.before p i).ctx.frameCounter.toNat < (net.before q i).ctx.frameCounter.toNat) : p < q := by
  refine Nat.lt_of_not_le fun hle => ?_
  obtain ⟨k, rfl⟩ := Nat.le.dest hle
  have := (before_ctx net ht hk i q k).2
  omega

/-- **C78** Nodes are independent: what a node is after any history of the network is what it would be
after what happened at it alone, whatever the other nodes do. -/
theorem C78_nodes_independent (j : N) (p : Nat) :
    net.before p j = (Spec.Network.actionsAt j (net.events.take p)).foldl (actionStep (net.code j) net.aead)
      (net.start j) := by
  unfold Spec.Network.before
  generalize net.events.take p = events
  generalize net.start = s
  induction events generalizing s with
  | nil => rfl
  | cons e es ih =>
    rw [List.foldl_cons, ih]
    unfold Spec.Network.actionsAt
    by_cases hj : e.node = j
    · have hs : netStep net.code net.aead s e j = actionStep (net.code j) net.aead (s j) e.action := by
        unfold netStep; rw [if_pos hj.symm]
      rw [hs, List.filter_cons_of_pos (by simpa using hj), List.map_cons]
      rfl
    · have hs : netStep net.code net.aead s e j = s j := by
        unfold netStep; rw [if_neg (fun h => hj h.symm)]
      rw [hs, List.filter_cons_of_neg (by simpa using hj)]

/-- **C78** If the nodes' addresses differ and no application lowers a counter, no nonce is used twice in
the whole network, in any interleaving of sending, receiving, changes and restarts. -/
theorem C78_nonce_once (ht : AeadTyped net.aead) (hk : net.KeepsCounters)
    (hdist : ∀ i j, (net.start i).ctx.euid = (net.start j).ctx.euid → i = j)
    (p q : Nat) (i j : N) (nonce : List UInt8) (hp : net.UsesNonceAt p i nonce) (hq : net.UsesNonceAt q j nonce) :
    p = q := by
  obtain ⟨call, hw, hu⟩ := hp
  obtain ⟨call', hw', hu'⟩ := hq
  obtain ⟨⟨l, -, -, hn⟩, hstep⟩ := C31_nonce_of_call _ _ call nonce hu
  obtain ⟨⟨l', -, -, hn'⟩, hstep'⟩ := C31_nonce_of_call _ _ call' nonce hu'
  rw [hn] at hn'
  have hinj := nonceOctets_inj hn'
  have hij : i = j := by
    apply hdist
    rw [← before_start net ht hk i p, ← before_start net ht hk j q]
    exact hinj.1
  subst hij
  have next : ∀ (p : Nat) (call : WriteCall), net.WritesAt p i call →
      (net.before (p + 1) i).ctx = contextAfterCall (net.code i).cfg net.aead (net.before p i).ctx call := by
    intro p call hw
    rw [before_succ net p _ hw]
    unfold netStep
    rw [if_pos rfl]
    unfold actionStep
    simp only
    rw [nodeStep_send]
  have hc : (net.before p i).ctx.frameCounter = (net.before q i).ctx.frameCounter := hinj.2.1
  rcases Nat.lt_trichotomy p q with h | h | h
  · obtain ⟨k, rfl⟩ := Nat.le.dest h
    have h1 := (before_ctx net ht hk i (p + 1) k).2
    have h2 := hstep net.aead ht
    rw [← next p call hw] at h2
    rw [← hc] at h1
    omega
  · exact h
  · obtain ⟨k, rfl⟩ := Nat.le.dest h
    have h1 := (before_ctx net ht hk i (q + 1) k).2
    have h2 := hstep' net.aead ht
    rw [← next q call' hw'] at h2
    rw [hc] at h1
    omega

/-- An acceptance has an origin, with a counter below the greatest. -/
theorem accepted_origin (hl : AeadLaws net.aead) (hu : net.Unforged) (p : Nat) (j : N) (f : Frame) (aux : AuxHeader)
    (eui : UInt64) (key : κ) (h : net.AcceptsAt p j f aux eui key) :
    aux.frameCounter ≠ maxCounter ∧ ∃ q, q < p ∧ ∃ i g aux' body tag, net.SendsAt q i g aux' key body tag ∧
      (net.before q i).ctx.euid = eui ∧ (net.before q i).ctx.frameCounter = aux.frameCounter ∧
      aux'.control.securityLevel = aux.control.securityLevel ∧ g.payload = f.payload := by
  obtain ⟨mode, buf, hev, hacc, haux, hkey⟩ := h
  obtain ⟨n, aux₁, src, eui₁, key₁, body, tag, hread, haux₁, hsrc, hkey₁, hauth, hsplit, htl, hup⟩ :=
    accepts_parts (net.code j).cfg hl.toAeadTyped hacc
  rw [haux] at haux₁
  cases haux₁
  rw [hsrc, hkey₁] at hkey
  cases hkey
  obtain ⟨q, hq, i, g, aux', hs, hlev, hnonce⟩ :=
    hu p j mode buf hev f.header n aux src eui key body tag f.payload hread haux hsrc hkey₁ hsplit htl hup
  have hinj := nonceOctets_inj hnonce
  obtain ⟨wbuf, weui, m, out, ctx, hw, hsd, hk, hwr, hout⟩ := hs
  rw [← hlev] at hup htl hauth
  rw [← hinj.1, ← hinj.2.1] at hup
  obtain ⟨h1, h2⟩ := sent_payload (net.code i).cfg hl hsd hauth hk hwr hout htl hup
  rw [hinj.2.1] at h2
  exact ⟨h2, q, hq, i, g, aux', body, tag, ⟨wbuf, weui, m, out, ctx, hw, hsd, hk, hwr, hout⟩, hinj.1, hinj.2.1,
    hlev, h1.symm⟩

/-- **C78** Whatever a node accepts has an origin: an earlier write of some node, which bore the EUI-64
the receiver's key lookup gave, under the same key, with the same counter, level and payload. -/
theorem C78_agreement (hl : AeadLaws net.aead) (hu : net.Unforged) (p : Nat) (j : N) (f : Frame) (aux : AuxHeader)
    (eui : UInt64) (key : κ) (h : net.AcceptsAt p j f aux eui key) :
    ∃ q, q < p ∧ ∃ i g aux' body tag, net.SendsAt q i g aux' key body tag ∧
      (net.before q i).ctx.euid = eui ∧ (net.before q i).ctx.frameCounter = aux.frameCounter ∧
      aux'.control.securityLevel = aux.control.securityLevel ∧ g.payload = f.payload :=
  (accepted_origin net hl hu p j f aux eui key h).2

variable {ι : Type} (j : N) (table : DeviceTable ι (net.code j).lookup)

/-- No event lowers the counter a node has stored for a device. -/
theorem devices_succ (hl : AeadLaws net.aead) (hu : net.Unforged) (hd : net.KeepsDevices j table) (p : Nat) (d : ι) (x : DeviceDescriptor)
    (hx : table.get (net.before p j).devices d = some x) :
    ∃ y, table.get (net.before (p + 1) j).devices d = some y ∧ x.frameCounter ≤ y.frameCounter := by
  rcases he : net.events[p]? with _ | ⟨k, ev⟩
  · rw [before_succ_none net p he]; exact ⟨x, hx, UInt32.le_refl _⟩
  · rw [before_succ net p _ he]
    unfold netStep
    by_cases hj : j = k
    · subst hj
      simp only [if_true]
      rcases ev with ⟨⟨call⟩ | ⟨mode, buf⟩⟩ | update
      · unfold actionStep
        simp only
        rw [nodeStep_send]; exact ⟨x, hx, UInt32.le_refl _⟩
      · refine reception_monotone (net.code j).cfg net.aead (net.code j).lookup table hl.toAeadTyped
          ⟨buf, ⟨mode, some (net.before p j).ctx⟩⟩ (net.before p j).devices d (.inr ?_) x hx
        rintro f hf ⟨src, aux, hsrc, -, haux, hc⟩
        obtain ⟨n, aux', src', eui, key, body, tag, -, haux', hsrc', hkey, -⟩ :=
          accepts_parts (net.code j).cfg hl.toAeadTyped hf
        exact (accepted_origin net hl hu p j f aux' eui key
          ⟨mode, buf, he, hf, haux', by rw [hsrc']; exact hkey⟩).1 (by rw [haux] at haux'; cases haux'; exact hc)
      · exact hd p update he d x hx
    · simp only [if_neg hj]
      exact ⟨x, hx, UInt32.le_refl _⟩

theorem devices_mono (hl : AeadLaws net.aead) (hu : net.Unforged) (hd : net.KeepsDevices j table) (p k : Nat) (d : ι) (x : DeviceDescriptor)
    (hx : table.get (net.before p j).devices d = some x) :
    ∃ y, table.get (net.before (p + k) j).devices d = some y ∧ x.frameCounter ≤ y.frameCounter := by
  induction k with
  | zero => exact ⟨x, hx, UInt32.le_refl _⟩
  | succ k ih =>
    obtain ⟨y, hy, hxy⟩ := ih
    obtain ⟨z, hz, hyz⟩ := devices_succ net j table hl hu hd (p + k) d y hy
    exact ⟨z, hz, UInt32.le_trans hxy hyz⟩

/-- **C78** What a node accepts from one device has strictly increasing counters, with overflow checks
or without, if its table survives its restarts. -/
theorem C78_accepted_increasing (hl : AeadLaws net.aead) (hu : net.Unforged) (hd : net.KeepsDevices j table) (p p' : Nat) (hp : p < p')
    (f f' : Frame) (aux aux' : AuxHeader) (eui eui' : UInt64) (key key' : κ) (src src' : Address)
    (h : net.AcceptsAt p j f aux eui key) (h' : net.AcceptsAt p' j f' aux' eui' key')
    (hs : f.header.source = some src) (hs' : f'.header.source = some src')
    (hsame : table.identify src = table.identify src') : aux.frameCounter < aux'.frameCounter := by
  have hmax := (accepted_origin net hl hu p j f aux eui key h).1
  obtain ⟨mode, buf, hev, ⟨hsec, n, hr⟩, haux, -⟩ := h
  obtain ⟨mode', buf', hev', ⟨hsec', n', hr'⟩, haux', -⟩ := h'
  obtain ⟨rc, hc⟩ := accept_ctx hr hsec
  cases hc
  obtain ⟨rc', hc⟩ := accept_ctx hr' hsec'
  cases hc
  obtain ⟨s, a, d, h1, h2, -, -, -, hst, -⟩ :=
    C36_accept_stores (net.code j).cfg net.aead hl.toAeadTyped buf _ (net.code j).lookup table _ f n hr hsec
  obtain ⟨s', a', d', h1', h2', hg, hle, -⟩ :=
    C36_accept_stores (net.code j).cfg net.aead hl.toAeadTyped buf' _ (net.code j).lookup table _ f' n' hr' hsec'
  rw [hs] at h1; rw [hs'] at h1'; rw [haux] at h2; rw [haux'] at h2'
  cases h1; cases h1'; cases h2; cases h2'
  have hnext : (net.before (p + 1) j).devices = (Frame.tryReadAndUnsecure (net.code j).cfg net.aead buf
      ⟨.none, some (net.before p j).ctx⟩ (net.code j).lookup (net.before p j).devices).2.2.2 := by
    rw [before_succ net p _ hev]
    unfold netStep
    rw [if_pos rfl]
    rfl
  obtain ⟨k, rfl⟩ := Nat.le.dest hp
  obtain ⟨y, hy, hle'⟩ := devices_mono net j table hl hu hd (p + 1) k (table.identify src) _ (by rw [hnext]; exact hst)
  rw [hsame] at hy
  rw [hy] at hg
  cases hg
  have e1 := UInt32.le_iff_toNat_le.1 hle
  have e2 := UInt32.le_iff_toNat_le.1 hle'
  simp only [u32_succ_toNat _ hmax] at e2
  apply UInt32.lt_iff_toNat_lt.2
  omega

/-- **C78** From one sender everything a node accepts is accepted in the order it was sent — if no counter is
lowered by an application and the node's key lookups tell devices apart by EUI-64. -/
theorem C78_once_in_order (hl : AeadLaws net.aead) (hu : net.Unforged) (hk : net.KeepsCounters)
    (hd : net.KeepsDevices j table) (htells : net.TellsDevices j table.identify)
    (p p' q q' : Nat) (i : N) (hp : p < p') (ho : net.Origin q p i j) (ho' : net.Origin q' p' i j) : q < q' := by
  obtain ⟨f, aux, g, w, eui, key, body, tag, ha, hs, he, hc, -⟩ := ho
  obtain ⟨f', aux', g', w', eui', key', body', tag', ha', hs', he', hc', -⟩ := ho'
  have hst := before_start net hl.toAeadTyped hk
  rw [hst i q] at he
  rw [hst i q'] at he'
  subst he he'
  have hsrcs : ∃ src src', f.header.source = some src ∧ f'.header.source = some src' ∧
      table.identify src = table.identify src' := by
    obtain ⟨mode, buf, -, hacc, haux, hkey⟩ := ha
    obtain ⟨mode', buf', -, hacc', haux', hkey'⟩ := ha'
    obtain ⟨_, _, src, _, _, _, _, _, _, hsrc, _⟩ := accepts_parts (net.code j).cfg hl.toAeadTyped hacc
    obtain ⟨_, _, src', _, _, _, _, _, _, hsrc', _⟩ := accepts_parts (net.code j).cfg hl.toAeadTyped hacc'
    rw [hsrc] at hkey
    rw [hsrc'] at hkey'
    exact ⟨src, src', hsrc, hsrc', htells _ _ _ _ _ _ _ _ _ hkey hkey'⟩
  obtain ⟨src, src', hsrc, hsrc', hid⟩ := hsrcs
  have hlt := C78_accepted_increasing net j table hl hu hd p p' hp f f' aux aux' _ _ key key' src src' ha ha' hsrc hsrc' hid
  rw [← hc, ← hc'] at hlt
  exact lt_of_counter_lt net hl.toAeadTyped hk (UInt32.lt_iff_toNat_lt.1 hlt)

/-- **C78** No write is accepted twice by a node. -/
theorem C78_accepted_once (hl : AeadLaws net.aead) (hu : net.Unforged) (hk : net.KeepsCounters)
    (hd : net.KeepsDevices j table) (htells : net.TellsDevices j table.identify)
    (p p' q : Nat) (i i' : N) (ho : net.Origin q p i j) (ho' : net.Origin q p' i' j) : p = p' := by
  have hi : i = i' := by
    obtain ⟨_, _, _, _, _, _, _, _, -, ⟨_, _, _, _, _, hw, _⟩, -⟩ := ho
    obtain ⟨_, _, _, _, _, _, _, _, -, ⟨_, _, _, _, _, hw', _⟩, -⟩ := ho'
    have := hw.symm.trans hw'
    cases this
    rfl
  subst hi
  rcases Nat.lt_trichotomy p p' with h | h | h
  · exact absurd (C78_once_in_order net j table hl hu hk hd htells p p' q q i h ho ho') (Nat.lt_irrefl _)
  · exact h
  · exact absurd (C78_once_in_order net j table hl hu hk hd htells p' p q q i h ho' ho) (Nat.lt_irrefl _)

/-! ## Witness for C78

Two nodes.  Node `false` (the sample sender) sends three frames, node `true` (the sample receiver) one;
the receiver is given the second frame, the second again, the first, and the third after it was sent.
Before sending the third, the sender restarts one above where it stopped, and the receiver restarts
too, with its table as it was. -/

theorem before_keys (ht : AeadTyped net.aead)
    (hk : ∀ p i update, net.events[p]? = some ⟨i, .change update⟩ →
      (update (net.before p i)).ctx.keyProvider = (net.before p i).ctx.keyProvider) (i : N) (p : Nat) :
    (net.before p i).ctx.keyProvider = (net.start i).ctx.keyProvider := by
  induction p with
  | zero => rfl
  | succ p ih =>
    rw [← ih]
    rcases he : net.events[p]? with _ | ⟨j, ev⟩
    · rw [before_succ_none net p he]
    · rw [before_succ net p _ he]
      unfold netStep
      by_cases hj : i = j
      · subst hj
        simp only [if_true]
        rcases ev with ⟨⟨call⟩ | ⟨mode, buf⟩⟩ | update
        · unfold actionStep
          simp only
          rw [nodeStep_send]
          exact (C31_counter_monotone (net.code i).cfg net.aead ht [call] (net.before p i).ctx).2.2.2
        · unfold actionStep
          simp only
          rw [nodeStep_receive _ _ _ ht]
        · exact hk p i update he
      · rw [if_neg hj]

/-- The witness network. -/
def sampleNetwork : Spec.Network Bool Nat DeviceDescriptor where
  code := fun _ => ⟨sampleCfg, sampleLookup⟩
  aead := sampleAead
  start := fun b => ⟨if b then sampleReceiver else sampleSender, ⟨3, false⟩⟩
  events := [⟨false, .act (.send (channelCall 1))⟩, ⟨true, .act (.send (channelCall 7))⟩,
    ⟨false, .act (.send (channelCall 2))⟩,
    ⟨true, .act (.receive .none (channelPacket 5 2))⟩, ⟨true, .act (.receive .none (channelPacket 5 2))⟩,
    ⟨true, .act (.receive .none (channelPacket 4 1))⟩,
    ⟨false, .change fun s => ⟨{ s.ctx with frameCounter := s.ctx.frameCounter + 1 }, s.devices⟩⟩,
    ⟨true, .change fun s => ⟨{ s.ctx with frameCounter := 9 }, s.devices⟩⟩,
    ⟨false, .act (.send (channelCall 3))⟩, ⟨true, .act (.receive .none (channelPacket 7 3))⟩]

theorem sampleNetwork_changes {p : Nat} {i : Bool} {update : NodeState Nat DeviceDescriptor → NodeState Nat DeviceDescriptor}
    (h : sampleNetwork.events[p]? = some ⟨i, .change update⟩) :
    (update (sampleNetwork.before p i)).ctx.euid = (sampleNetwork.before p i).ctx.euid ∧
    (update (sampleNetwork.before p i)).ctx.keyProvider = (sampleNetwork.before p i).ctx.keyProvider ∧
    (sampleNetwork.before p i).ctx.frameCounter ≤ (update (sampleNetwork.before p i)).ctx.frameCounter ∧
    (update (sampleNetwork.before p i)).devices = (sampleNetwork.before p i).devices := by
  match p, h with
  | 6, h => cases h; exact ⟨rfl, rfl, by decide +kernel, rfl⟩
  | 7, h => cases h; exact ⟨rfl, rfl, by decide +kernel, rfl⟩
  | 0, h | 1, h | 2, h | 3, h | 4, h | 5, h | 8, h | 9, h => cases h
  | n + 10, h => cases h

theorem sampleNetwork_counters : sampleNetwork.KeepsCounters := fun _ _ _ h =>
  ⟨(sampleNetwork_changes h).1, (sampleNetwork_changes h).2.2.1⟩

theorem sampleNetwork_devices : sampleNetwork.KeepsDevices true sampleTable := fun _ _ h _ x hx =>
  ⟨x, by rw [(sampleNetwork_changes h).2.2.2]; exact hx, UInt32.le_refl _⟩

theorem sampleNetwork_start (i : Bool) (p : Nat) :
    (sampleNetwork.before p i).ctx.euid = (sampleNetwork.start i).ctx.euid ∧
    (sampleNetwork.before p i).ctx.keyProvider = (sampleNetwork.start i).ctx.keyProvider :=
  ⟨before_start _ sampleAead_laws.toAeadTyped sampleNetwork_counters i p,
   before_keys _ sampleAead_laws.toAeadTyped (fun _ _ _ h => (sampleNetwork_changes h).2.1) i p⟩

theorem sampleNetwork_sends (q : Nat) (b : UInt8)
    (hev : sampleNetwork.events[q]? = some ⟨false, .act (.send (channelCall b))⟩)
    (hkp : (sampleNetwork.before q false).ctx.keyProvider = sampleSender.keyProvider)
    (hok : ((channelCall b).frame.tryWrite sampleCfg sampleAead
        ⟨.none, some (sampleNetwork.before q false).ctx⟩ (channelCall b).buf).1 = .ok 30)
    (hout : ((channelCall b).frame.tryWrite sampleCfg sampleAead
        ⟨.none, some (sampleNetwork.before q false).ctx⟩ (channelCall b).buf).2.1.take 30 =
        securedHead sampleCfg (sampleNetwork.before q false).ctx.frameCounter (channelCall b).frame
          ++ [b] ++ [0xAA, 0xAA, 0xAA, 0xAA]) :
    sampleNetwork.SendsAt q false (channelCall b).frame sampleAux 5 [b] [0xAA, 0xAA, 0xAA, 0xAA] := by
  generalize hr : (channelCall b).frame.tryWrite sampleCfg sampleAead
      ⟨.none, some (sampleNetwork.before q false).ctx⟩ (channelCall b).buf = r at hok hout
  obtain ⟨r1, out, ctx⟩ := r
  simp only at hok hout
  subst hok
  exact ⟨_, 9, 30, out, ctx, hev, ⟨sampleSecured_ok.encodable, trivial, rfl, rfl⟩, by rw [hkp]; rfl, hr, hout⟩

theorem sampleNetwork_unforged : sampleNetwork.Unforged := by
  intro p j mode buf hev h n aux src eui key body tag payload hread haux hsrc hkey hsplit htl hup
  have hst := sampleNetwork_start
  have key : ∀ (c' : UInt32) (c b : UInt8) (q : Nat), q < p → j = true → buf = channelPacket c b →
      Header.tryRead sampleCfg (channelPacket c b) = .ok (channelHeader c', 25) →
      (channelPacket c b).drop 25 = [b, 0xAA, 0xAA, 0xAA, 0xAA] →
      (sampleNetwork.before q false).ctx.frameCounter = 0x01020300 + c' →
      sampleNetwork.SendsAt q false (channelCall b).frame sampleAux 5 [b] [0xAA, 0xAA, 0xAA, 0xAA] →
      ∃ q, q < p ∧ ∃ i f aux', sampleNetwork.SendsAt q i f aux' key body tag ∧
        aux'.control.securityLevel = aux.control.securityLevel ∧
        nonceOctets (sampleNetwork.before q i).ctx.euid (sampleNetwork.before q i).ctx.frameCounter
            aux.control.securityLevel =
          nonceOctets eui aux.frameCounter aux.control.securityLevel := by
    intro c' c b q hq hj hb h1 h2 h3 h4
    subst hj hb
    rw [(hst true p).2] at hkey
    have hread' : Header.tryRead sampleCfg (channelPacket c b) = .ok (h, n) := hread
    rw [h1] at hread'
    simp only [Out.ok.injEq, Prod.mk.injEq] at hread'
    obtain ⟨rfl, rfl⟩ := hread'
    simp only [channelHeader, Option.some.injEq] at haux
    subst haux
    simp only [sampleNetwork, if_true, sampleReceiver, Option.some.injEq, Prod.mk.injEq] at hkey
    obtain ⟨rfl, rfl⟩ := hkey
    rw [h2] at hsplit
    have htl' : [0xAA, 0xAA, 0xAA, 0xAA].length = tag.length := htl.symm
    obtain ⟨rfl, rfl⟩ := List.append_inj' (s₁ := [b]) (t₁ := [0xAA, 0xAA, 0xAA, 0xAA]) hsplit htl'
    refine ⟨q, hq, false, _, sampleAux, h4, rfl, ?_⟩
    rw [h3, (hst false q).1]
    rfl
  have hkp := fun q => (hst false q).2
  match p, hev with
  | 3, hev =>
    cases hev
    exact key 5 5 2 2 (by decide) rfl rfl (by decide +kernel) (by decide +kernel) (by decide +kernel)
      (sampleNetwork_sends 2 2 rfl (hkp 2) (by decide +kernel) (by decide +kernel))
  | 4, hev =>
    cases hev
    exact key 5 5 2 2 (by decide) rfl rfl (by decide +kernel) (by decide +kernel) (by decide +kernel)
      (sampleNetwork_sends 2 2 rfl (hkp 2) (by decide +kernel) (by decide +kernel))
  | 5, hev =>
    cases hev
    exact key 4 4 1 0 (by decide) rfl rfl (by decide +kernel) (by decide +kernel) (by decide +kernel)
      (sampleNetwork_sends 0 1 rfl (hkp 0) (by decide +kernel) (by decide +kernel))
  | 9, hev =>
    cases hev
    exact key 7 7 3 8 (by decide) rfl rfl (by decide +kernel) (by decide +kernel) (by decide +kernel)
      (sampleNetwork_sends 8 3 rfl (hkp 8) (by decide +kernel) (by decide +kernel))
  | 0, hev | 1, hev | 2, hev | 6, hev | 7, hev | 8, hev => cases hev
  | n + 10, hev => cases hev

/-- The frame the witness receiver makes of a packet. -/
def sampleNetworkFrame (c : UInt32) (b : UInt8) : Frame := ⟨channelHeader c, .data, [b], (0, 0)⟩

/-- The hypotheses of C78 are met, events 3 and 9 accept, with origins 2 and 8. -/
example : AeadLaws sampleNetwork.aead ∧ sampleNetwork.Unforged ∧ sampleNetwork.KeepsCounters ∧
    sampleNetwork.KeepsDevices true sampleTable ∧ sampleNetwork.TellsDevices true sampleTable.identify ∧
    (∀ i j, (sampleNetwork.start i).ctx.euid = (sampleNetwork.start j).ctx.euid → i = j) ∧
    sampleNetwork.Origin 2 3 false true ∧ sampleNetwork.Origin 8 9 false true := by
  have hkp := fun q => (sampleNetwork_start false q).2
  have hkr := fun q => (sampleNetwork_start true q).2
  refine ⟨sampleAead_laws, sampleNetwork_unforged, sampleNetwork_counters, sampleNetwork_devices,
    fun _ _ _ _ _ _ _ _ _ _ _ => rfl, by decide, ?_, ?_⟩
  · exact ⟨sampleNetworkFrame 5 2, _, _, sampleAux, 0x0102030405060708, 5, _, _,
      ⟨.none, channelPacket 5 2, rfl, ⟨rfl, 26, by decide +kernel⟩, rfl, by rw [hkr]; rfl⟩,
      sampleNetwork_sends 2 2 rfl (hkp 2) (by decide +kernel) (by decide +kernel), (sampleNetwork_start false 2).1,
      by decide +kernel, rfl, rfl⟩
  · exact ⟨sampleNetworkFrame 7 3, _, _, sampleAux, 0x0102030405060708, 5, _, _,
      ⟨.none, channelPacket 7 3, rfl, ⟨rfl, 26, by decide +kernel⟩, rfl, by rw [hkr]; rfl⟩,
      sampleNetwork_sends 8 3 rfl (hkp 8) (by decide +kernel) (by decide +kernel), (sampleNetwork_start false 8).1,
      by decide +kernel, rfl, rfl⟩

/-- Nonces are used there: events 0, 1 and 2 (and 8, after the restart). -/
example : (∃ n, sampleNetwork.UsesNonceAt 0 false n) ∧ (∃ n, sampleNetwork.UsesNonceAt 1 true n) ∧
    (∃ n, sampleNetwork.UsesNonceAt 2 false n) :=
  ⟨⟨_, channelCall 1, rfl, C31_success_uses sampleCfg sampleAead sampleAead_laws.toAeadTyped _ _ sampleAux
      ⟨sampleSecured_ok.encodable, trivial, rfl, rfl⟩ (.inr trivial) rfl 30 (by decide +kernel)⟩,
   ⟨_, channelCall 7, rfl, C31_success_uses sampleCfg sampleAead sampleAead_laws.toAeadTyped _ _ sampleAux
      ⟨sampleSecured_ok.encodable, trivial, rfl, rfl⟩ (.inr trivial) rfl 30 (by decide +kernel)⟩,
   ⟨_, channelCall 2, rfl, C31_success_uses sampleCfg sampleAead sampleAead_laws.toAeadTyped _ _ sampleAux
      ⟨sampleSecured_ok.encodable, trivial, rfl, rfl⟩ (.inr trivial) rfl 30 (by decide +kernel)⟩⟩

end

end Verif
