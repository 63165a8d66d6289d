import Verif.Model.Frame
import Verif.Spec.CommandSpec
import Verif.Spec.FrameSpec

/-!
# Specification: reading from a slice that is still growing

A caller that receives octets piece by piece tries to read what there is, and takes `Incomplete` for
"wait for more" and anything else for final.
-/

namespace Verif.Spec

/-- `r` can be used on the octets received so far: a value, once read, stays what it is (`settled`); a
refusal other than `Incomplete` stays that refusal (`refused`); a part of a value that is shorter than the
value is `Incomplete`, never another value (`cut`); and `Incomplete` goes away when more octets come, at the
latest after as many as a frame has (`resumes`). -/
structure Streams {α : Type} (r : TryRead α) : Prop where
  settled : ∀ bytes more a n, r bytes = .ok (a, n) → r (bytes ++ more) = .ok (a, n)
  refused : ∀ bytes more e, r bytes = .err e → e ≠ .incomplete → r (bytes ++ more) = .err e
  cut : ∀ bytes a n k, r bytes = .ok (a, n) → k < n → r (bytes.take k) = .err .incomplete
  resumes : ∀ bytes more, 127 ≤ more.length → r (bytes ++ more) ≠ .err .incomplete

/-- The command in a frame content, if any, is a realignment without channel page. -/
def ContentNoPage : FrameContent → Prop
  | .command c => NoPage c
  | _ => False

/-- The same command or content with the channel page filled in. -/
def withPage (p : UInt8) : FrameContent → FrameContent
  | .command (.coordinatorRealignment d) => .command (.coordinatorRealignment { d with channelPage := some p })
  | c => c

end Verif.Spec
