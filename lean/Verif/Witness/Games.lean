import Verif.Props.Everyone
import Verif.Props.PermPlay
import Verif.Props.Trial

/-!
# The theorems about secrecy and forgery, applied

Every theorem of C85 to C95 that has hypotheses is applied here to concrete fleets, attackers and testers: each
`example` meets all the hypotheses of the theorem it names.
-/

namespace Verif.Witness
open Spec

/-! ## Fleets -/

theorem fleets_alike (a b : UInt8) (a' b' : UInt8) : AlikeFleets (sampleFleet [a] [b]) (sampleFleet [a'] [b']) := by
  refine ⟨rfl, ?_⟩
  intro i s s' hs hs'
  rcases i with _ | i
  · simp only [sampleFleet, List.getElem?_cons_zero, Option.some.injEq] at hs hs'
    subst hs hs'
    refine ⟨rfl, rfl, rfl, ?_⟩
    intro p c c' h h'
    rcases p with _ | _ | p
    · simp only [samplePair, List.getElem?_cons_zero, Option.some.injEq] at h h'
      subst h h'
      exact ⟨rfl, rfl, rfl, rfl, rfl, .inr ⟨rfl, sampleAux, rfl, by decide⟩⟩
    · simp only [samplePair, List.getElem?_cons_succ, List.getElem?_cons_zero, Option.some.injEq] at h h'
      subst h h'
      exact ⟨rfl, rfl, rfl, rfl, rfl, .inr ⟨rfl, sampleAux, rfl, by decide⟩⟩
    · simp [samplePair] at h
  · simp [sampleFleet] at hs

/-- The observer's question: is the first octet after the first frame's header a 1? -/
def firstIsOne (o : Nat → Nat → Option (List UInt8)) : Prop := (o 0 0).bind (·[25]?) = some 1

example := C85_secrecy (sampleFleet [1] [2]) (sampleFleet [3] [4]) (sampleFleet_fleet _ _) (fleets_alike _ _ _ _)
example := C85_secrecy_before_tags (sampleFleet [1] [2]) (sampleFleet [3] [4]) (sampleFleet_fleet _ _) (fleets_alike _ _ _ _)
example := C86_forgery sampleCfg toyCipher sampleSender sampleLookup ⟨3, false⟩ sampleReceived sampleIncoming
  sampleIncoming_passes (by decide +kernel) [0xde, 0xf0] [0xAA, 0xAA, 0xAA, 0xAA] (by decide +kernel) (by decide +kernel)
  (by decide) (by decide +kernel)
/-- The second frame goes out under the key 5 and a nonce of its own: it is not that of another address. -/
example := C86_not_spent sampleCfg toyCipher sampleSender (samplePair [0xde, 0xf0] [7])
  (by intro c hc; simp [samplePair] at hc; rcases hc with rfl | rfl <;> trivial)
  9 0x01020304 .encmic32 (.inl (by decide)) 1 5 .encmic32 (nonceOctets sampleSender.euid 0x01020305 .encmic32) [7]
  ⟨by decide +kernel, _, sampleAux, 9, rfl, rfl, rfl, by decide, rfl, by decide +kernel, rfl⟩
example := C87_clash_is_rare (sampleFleet [1] [2]) (sampleFleet_fleet _ _)
example := C87_perfect_before_tags (sampleFleet [1] [2]) (sampleFleet [3] [4]) (sampleFleet_fleet _ _) (fleets_alike _ _ _ _) firstIsOne
example := C87_secrecy_bound (sampleFleet [1] [2]) (sampleFleet [3] [4]) (sampleFleet_fleet _ _) (fleets_alike _ _ _ _) firstIsOne

/-! ## Forgeries against a fleet that has sent -/

theorem forgery_short : sampleForgery.slice.length ≤ 127 := by decide +kernel

/-- One who tries the second frame he saw with another address, and otherwise the sample forgery. -/
def tryOut (o : Nat → Nat → Option (List UInt8)) : Offer (Fin 16) DeviceDescriptor :=
  match o 0 1 with
  | some x => { sampleForgery with slice := x.take 127 }
  | none => sampleForgery

theorem tryOut_short (o) : (tryOut o).slice.length ≤ 127 := by
  unfold tryOut
  split
  · simp only [List.length_take]; omega
  · exact forgery_short

example := C88_forgery_is_rare (sampleFleet [1] [2]) (sampleFleet_fleet _ _) tryOut 127 tryOut_short (by decide) 4 (by decide)
example := C88_forgeries_are_rare (sampleFleet [1] [2]) (sampleFleet_fleet _ _) 5 (fun i o => if i = 0 then sampleForgery else tryOut o) 127
  (fun i o => by split; exact forgery_short; exact tryOut_short o) (by decide) 8 (by decide)

theorem attack_short (o h) : (sampleAttack o h).buf.length ≤ 127 := by
  unfold sampleAttack
  simp only [List.length_take]
  omega
theorem attack_names (o h) : NamesDevice sampleTable () sampleKeyed.euid (sampleAttack o h) := by
  intro rc id src eui key h1 _ h2
  obtain rfl := Option.some.inj h1
  simp only [sampleKeyedReceiver, Option.some.injEq, Prod.mk.injEq] at h2
  exact h2.1.symm

/-- The sample attack, against one receiver, as offers. -/
def offering (o : Nat → Nat → Option (List UInt8)) (h : List (Answer (Fin 16) DeviceDescriptor)) : Offer (Fin 16) DeviceDescriptor :=
  ⟨sampleCfg, (sampleAttack o h).ctx, sampleLookup, ⟨3, false⟩, (sampleAttack o h).buf⟩

example := C89_interactive_forgeries (sampleFleet [1] [2]) (sampleFleet_fleet _ _) 3 offering 127 attack_short (by decide)
example := C89_interactive_long_tags (sampleFleet [1] [2]) (sampleFleet_fleet _ _) 3 offering 127 attack_short (by decide)
  4 (by decide) (fun _ _ _ _ _ _ _ h => tag_four h)
example := C90_channel (sampleFleet [1] [2]) (sampleFleet_fleet _ _) ⟨sampleCfg, sampleKeyed, samplePair [1] [2]⟩ (by simp [sampleFleet])
  sampleCfg sampleLookup sampleTable () ⟨3, false⟩ 3 sampleAttack attack_names 127 attack_short (by decide)

/-! ## Adaptive play -/

theorem attacker_madeTo : MadeTo sampleAttacker (fun _ => true) sampleCfg sampleTable () ⟨3, false⟩ sampleKeyed.euid := by
  intro log a h _
  unfold sampleAttacker at h
  split at h <;> simp only [Option.some.injEq, Move.offer.injEq, reduceCtorEq] at h
  all_goals
    subst h
    refine ⟨rfl, rfl, rfl, ?_⟩
    intro rc id src eui key h1 _ h2
    obtain rfl := Option.some.inj h1
    simp only [sampleKeyedReceiver, Option.some.injEq, Prod.mk.injEq] at h2
    exact h2.1.symm

example := C91_adaptive_forgeries sampleStart sampleStart_fresh sampleAttacker 2 2 127 sampleAttacker_limited (by decide)
example := C91_adaptive_long_tags sampleStart sampleStart_fresh sampleAttacker 2 2 127 sampleAttacker_limited (by decide)
  4 (by decide) (fun _ _ _ _ _ _ _ _ h => tag_four h)
example := C92_adaptive_channel sampleStart sampleStart_fresh 0 ⟨sampleCfg, sampleKeyed, []⟩ rfl sampleCfg sampleLookup sampleTable ()
  ⟨3, false⟩ (fun _ => true) sampleAttacker 2 2 127 sampleAttacker_limited attacker_madeTo (by decide)

/-- The tester's question: were the octets after the two headers the same? -/
def sameOctet (g : List (Glimpse (Fin 16) DeviceDescriptor)) : Prop := g[0]?.bind bodyOctet = g[1]?.bind bodyOctet

theorem tester_fair_long : Fair sampleTester 2 1 127 4 :=
  ⟨sampleTester_fair.writes, fun log a h =>
    ⟨(sampleTester_fair.offers log a h).1, (sampleTester_fair.offers log a h).2.1, fun _ _ _ _ _ h => tag_four h⟩⟩

/-- The sample tester without its delivery. -/
def chooser : Tester (Fin 16) DeviceDescriptor := fun log => if log.length < 2 then sampleTester log else none

theorem chooser_fair : Fair chooser 2 0 0 0 := by
  constructor
  · intro log i l r h
    unfold chooser at h
    split at h
    · exact sampleTester_fair.writes log i l r h
    · exact absurd h (by simp)
  · intro log a h
    unfold chooser at h
    split at h
    · unfold sampleTester at h
      split at h <;> simp at h
      simp at *
    · exact absurd h (by simp)

example := C93_adaptive_secrecy sampleStart sampleStart_fresh sampleTester 2 1 127 sampleTester_fair (by decide) 3 sameOctet
example := C93_adaptive_secrecy_long_tags sampleStart sampleStart_fresh sampleTester 2 1 127 4 tester_fair_long (by decide) (by decide) 3 sameOctet
example := C93_chosen_payloads sampleStart sampleStart_fresh chooser 2 chooser_fair 2 sameOctet

example := C94_permutation_forgeries sampleStart sampleStart_fresh sampleAttacker 2 2 127 sampleAttacker_limited (by decide)
example := C94_permutation_forgeries_long_tags sampleStart sampleStart_fresh sampleAttacker 2 2 127 sampleAttacker_limited (by decide)
  4 (by decide) (fun _ _ _ _ _ _ _ _ h => tag_four h)
example := C94_permutation_channel sampleStart sampleStart_fresh 0 ⟨sampleCfg, sampleKeyed, []⟩ rfl sampleCfg sampleLookup sampleTable ()
  ⟨3, false⟩ (fun _ => true) sampleAttacker 2 2 127 sampleAttacker_limited attacker_madeTo (by decide)
example := C94_permutation_secrecy sampleStart sampleStart_fresh sampleTester 2 1 127 sampleTester_fair (by decide) 3 sameOctet
example := C94_permutation_secrecy_long_tags sampleStart sampleStart_fresh sampleTester 2 1 127 4 tester_fair_long (by decide) (by decide) 3 sameOctet

theorem pairStart_fresh : Fresh samplePairStart := by
  refine ⟨by simp [samplePairStart, sampleKeyed], ?_⟩
  intro s hs
  simp only [samplePairStart, List.mem_cons, List.not_mem_nil, or_false] at hs
  rcases hs with rfl | rfl <;> rfl

example := C95_whole_network samplePairStart pairStart_fresh sampleStation samplePairAttacker 2 4 127 samplePairAttacker_limited
  samplePairAttacker_madeTo (by decide)
example := C95_whole_network_permutation samplePairStart pairStart_fresh sampleStation samplePairAttacker 2 4 127 samplePairAttacker_limited
  samplePairAttacker_madeTo (by decide)

end Verif.Witness
