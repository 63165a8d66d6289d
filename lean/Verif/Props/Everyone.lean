import Verif.Spec.EverySpec
import Verif.Props.PermPlay
import Verif.Props.DeviceList

/-!
# C95 All receivers and all devices at once
-/

namespace Verif

open Spec Rfc3610

section
variable {κ σ : Type} {start : List (Sender κ)} {A : Attacker κ σ}

/-- Without a hit all is right. -/
theorem allRight_of_no_hit {ι ρ : Type} [DecidableEq ι] {stations : ρ → Station κ σ ι} {q v limit : Nat}
    (hs : Fresh start) (hA : Limited A q v limit) (hm : MadeToAll A start stations) {e : BlockCipher κ}
    (hno : ¬ ∃ n, HitAt e start A 4 n) (n : Nat) : AllRight e start A stations n := by
  intro r d s hds
  have hsub := play_sub (start := start) (A := A) e 0 n
  rw [Nat.zero_add] at hsub
  obtain ⟨sender, hd⟩ : ∃ sender, start[d]? = some sender := by
    have hlen : start.length = (play e start A n).net.length := hsub.1.symm
    have hlt := (List.getElem?_eq_some_iff.1 hds).1
    rw [← hlen] at hlt
    exact ⟨_, List.getElem?_eq_getElem hlt⟩
  have hctx : s.context = sender.context := (hsub.2 d sender s hd hds).2.1
  have hm := hm r d sender hd
  rw [(play_channel _ _ _ _ _ _ hm e n).1]
  apply C68_channel s.cfg _ (Ccm.aead e) (C50_ccm_laws e)
  apply noForgery_of_no_hit (play_fleet hs hA e n) e s (List.mem_of_getElem? hds) _ _ _ _ 4
  · intro c hc
    obtain ⟨t, a, ht, ha, hmine, rfl⟩ := play_calls _ e n c hc
    rw [hctx]
    exact (hm _ _ ha hmine).2.2.2
  · intro c _ h n aux _ _ hau
    exact tag_four hau
  · intro c hc g hg hh
    obtain ⟨t, a, ht, ha, hmine, rfl⟩ := play_calls _ e n c hc
    apply hno
    refine ⟨t, g, ?_, hh.level, hh.long, hh.tag, fun hsent => hh.unsent ?_⟩
    · have hcfg := (hm _ _ ha hmine).1
      rw [ha]
      show headerGuess a.cfg a.ctx a.slice = some g
      rw [hcfg]
      exact hg
    · have := play_sub (start := start) (A := A) e t (n - t)
      rw [show t + (n - t) = n by omega] at this
      exact sent_mono this hsent

/-- **C95** The chance that an attacker in control of the network ever gets a frame accepted that nobody has sent, or
has anything go wrong in what any receiver delivers as coming from any device, is no greater than that of a single
forgery: however many receivers and devices there are, all is right together. -/
theorem C95_whole_network [Finite κ] {ι ρ : Type} [DecidableEq ι] (start : List (Sender κ)) (hs : Fresh start)
    (stations : ρ → Station κ σ ι) (A : Attacker κ σ) (q v limit : Nat) (hA : Limited A q v limit)
    (hm : MadeToAll A start stations) (hl : limit < 65280) :
    ChanceAtMost (fun e => PlayForges e start A 0 ∨ ∃ n, ¬ AllRight e start A stations n)
      (v * (2 ^ 96 + 4 * (9 * q + (limit + 33) / 16) ^ 2)) (2 ^ 128) := by
  refine chance_mono ?_ (play_hits (M := 4) hs hA hl (by decide) (fun _ _ _ _ _ aux _ _ h => tag_four h))
  rintro e (⟨n, a, ha, f, k, rc, x, h1, h2, h3, h4, _, h5⟩ | ⟨n, hn⟩)
  · obtain ⟨g, h1, h2⟩ := forged_hits e 4 _ ⟨f, k, rc, x, h1, h2, h3, h4, tag_four h4.level, h5⟩
    exact ⟨n, g, by rw [ha]; exact h1, h2⟩
  · apply Classical.byContradiction
    intro hno
    exact hn (allRight_of_no_hit hs hA hm hno n)

/-- **C95** The same when the cipher is a permutation under every key. -/
theorem C95_whole_network_permutation [Finite κ] {ι ρ : Type} [DecidableEq ι] (start : List (Sender κ)) (hs : Fresh start)
    (stations : ρ → Station κ σ ι) (A : Attacker κ σ) (q v limit : Nat) (hA : Limited A q v limit)
    (hm : MadeToAll A start stations) (hl : limit < 65280) :
    PermChanceAtMost (fun e => PlayForges e start A 0 ∨ ∃ n, ¬ AllRight e start A stations n)
      (2 * (v * (2 ^ 96 + 4 * (9 * q + (limit + 33) / 16) ^ 2)))
      (2 ^ 129 - (18 * q + 2 * v * ((limit + 33) / 16)) ^ 2) := by
  refine perm_chance (play_settles hs hA hl (q + v) ?_) _ (play_size hs hA hl (q + v))
    (C95_whole_network start hs stations A q v limit hA hm hl)
  rintro e e' h (hf | ⟨n, hn⟩)
  · exact .inl (forges_settled hs hA 0 e e' h hf)
  · refine .inr ⟨n, fun hr => hn ?_⟩
    have hsame : play e' start A n = play e start A n := by
      by_cases hn : n ≤ q + v
      · exact h n hn
      · rw [play_over hs hA e n (by omega), play_over hs hA e' n (by omega)]
        exact h _ (Nat.le_refl _)
    intro r d s hds
    have := hr r d s (by rw [hsame]; exact hds)
    rwa [hsame, sentBy_indep s.cfg e e' s.calls s.context ((play_fleet hs hA e n).api s (List.mem_of_getElem? hds))] at this

end

/-! ## Witness -/

/-- The address a device's frames come from. -/
def euiOf : Address → UInt64
  | .short _ _ => 0
  | .extended _ a => a

/-- A receiver's context: keys for extended addresses, given out with the address; its own address tells the
receivers apart. -/
def sampleStationCtx (r : Bool) : SecCtx (Fin 16) :=
  ⟨if r then 101 else 100, 0, fun _ _ a => match a with | some (.extended _ a) => some (a, 5) | _ => none⟩

/-- A receiver with a table of two devices. -/
def sampleStation (r : Bool) : Station (Fin 16) (List (UInt64 × DeviceDescriptor)) UInt64 where
  mine := fun a => match a.ctx.securityCtx with | some rc => rc.euid == (if r then 101 else 100) | none => false
  cfg := sampleCfg
  lookup := listLookup euiOf
  table := listTable euiOf
  dev := [(0x0102030405060708, ⟨3, false⟩), (0x11, ⟨3, false⟩)]
  entry := fun d => if d = 0 then 0x0102030405060708 else 0x11

/-- Two devices. -/
def samplePairStart : List (Sender (Fin 16)) :=
  [⟨sampleCfg, sampleKeyed, []⟩, ⟨sampleCfg, { sampleKeyed with euid := 0x11 }, []⟩]

/-- A frame of device number `d`. -/
def sampleWriteOf (d : Nat) (payload : List UInt8) : WriteCall :=
  ⟨{ sampleSecured with payload := payload,
                        header := { sampleSecured.header with
                          panIdCompress := false,
                          source := some (.extended 0x1234 (if d = 0 then 0x0102030405060708 else 0x11)) } }, .none,
    List.replicate 60 0⟩

/-- An attacker who has both devices send a frame and delivers each frame to both receivers, the first device's
first one to the second receiver twice. -/
def samplePairAttacker : Attacker (Fin 16) (List (UInt64 × DeviceDescriptor)) := fun log =>
  let give := fun (r : Bool) (o : Option (List UInt8)) => Move.offer ⟨sampleCfg, ⟨.none, some (sampleStationCtx r)⟩,
    listLookup euiOf, lookupState (sampleStation r).mine (sampleStation r).dev log, (o.getD []).take 127⟩
  match log with
  | [] => some (.write 0 (sampleWriteOf 0 [1]))
  | [.sent _ _ _] => some (.write 1 (sampleWriteOf 1 [2]))
  | [.sent _ _ o, .sent _ _ _] => some (give false o)
  | [.sent _ _ _, .sent _ _ o, .answered _ _] => some (give true o)
  | [.sent _ _ o, .sent _ _ _, .answered _ _, .answered _ _] => some (give true o)
  | [.sent _ _ o, .sent _ _ _, .answered _ _, .answered _ _, .answered _ _] => some (give true o)
  | _ => none

theorem samplePairAttacker_limited : Limited samplePairAttacker 2 4 127 := by
  constructor
  · intro log i call h
    unfold samplePairAttacker at h
    split at h <;> simp only [Option.some.injEq, Move.write.injEq, reduceCtorEq] at h
    all_goals
      obtain ⟨_, rfl⟩ := h
      exact ⟨by simp [sentCount], trivial⟩
  · intro log a h
    unfold samplePairAttacker at h
    split at h <;> simp only [Option.some.injEq, Move.offer.injEq, reduceCtorEq] at h
    all_goals
      subst h
      exact ⟨by simp [answerCount], by simp only [List.length_take]; omega⟩

theorem samplePairAttacker_madeTo : MadeToAll samplePairAttacker samplePairStart sampleStation := by
  intro r d sender hd log a h hmine
  have hsame : ∀ r', (sampleStation r).mine ⟨sampleCfg, ⟨.none, some (sampleStationCtx r')⟩, listLookup euiOf, a.device, a.slice⟩ = true →
      r' = r := by
    intro r'
    cases r <;> cases r' <;> simp [sampleStation, sampleStationCtx]
  have hnames : ∀ slice, NamesDevice (sampleStation r).table ((sampleStation r).entry d) sender.context.euid
      ⟨slice, ⟨.none, some (sampleStationCtx r)⟩⟩ := by
    intro slice rc id src eui' key h1 h2 h3
    obtain rfl := Option.some.inj h1
    have he : sender.context.euid = (sampleStation r).entry d := by
      match d, hd with
      | 0, hd => simp only [samplePairStart, List.getElem?_cons_zero, Option.some.injEq] at hd; subst hd; rfl
      | 1, hd => simp only [samplePairStart, List.getElem?_cons_succ, List.getElem?_cons_zero, Option.some.injEq] at hd; subst hd; rfl
      | d + 2, hd => simp [samplePairStart] at hd
    rw [he, ← h2]
    cases src with
    | short p s => simp [sampleStationCtx] at h3
    | extended p s =>
      simp only [sampleStationCtx, Option.some.injEq, Prod.mk.injEq] at h3
      exact h3.1.symm
  unfold samplePairAttacker at h
  split at h <;> simp only [Option.some.injEq, Move.offer.injEq, reduceCtorEq] at h
  all_goals
    subst h
    obtain rfl := hsame _ hmine
    exact ⟨rfl, rfl, rfl, hnames _⟩

/-- Witness for C95: the attacker meets the conditions; the first receiver delivers from the first device only, the
second from both, the frame offered twice once. -/
example :
    let log := (play toyKeyed samplePairStart samplePairAttacker 6).log
    let got := fun r d => deliveredIn (sampleStation r).mine euiOf ((sampleStation r).entry d) log
    Fresh samplePairStart ∧ Limited samplePairAttacker 2 4 127 ∧
    MadeToAll samplePairAttacker samplePairStart sampleStation ∧
    got false 0 = [(0x01020304, [1])] ∧ got false 1 = [] ∧
    got true 0 = [(0x01020304, [1])] ∧ got true 1 = [(0x01020304, [2])] := by
  refine ⟨⟨by simp [samplePairStart, sampleKeyed], ?_⟩, samplePairAttacker_limited, samplePairAttacker_madeTo, by decide +kernel,
    by decide +kernel, by decide +kernel, by decide +kernel⟩
  intro s hs
  simp only [samplePairStart, List.mem_cons, List.not_mem_nil, or_false] at hs
  rcases hs with rfl | rfl <;> rfl

end Verif
