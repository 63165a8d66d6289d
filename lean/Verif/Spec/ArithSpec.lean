import Verif.Model.Arith
import Verif.Spec.FrameSpec

/-!
# Specification: offsets that fit `usize`
-/

namespace Verif.Spec

/-- Reading with `*offset += n` in `usize` is reading with `Nat` offsets, in any slice Rust can hold and
at any offset. -/
def ReadsInUsize (cfg : Cfg) {α : Type} (r : TryRead α) : Prop :=
  ∀ bytes off, SliceFits cfg bytes → R.readUsize cfg r bytes off = R.read r bytes off

/-- The same for writing. -/
def WritesInUsize (cfg : Cfg) (w : TryWrite) : Prop :=
  ∀ buf off, SliceFits cfg buf → W.writeUsize cfg w buf off = W.write w buf off

end Verif.Spec
