import Verif.Spec.HashSpec
import Verif.Model.Debug

/-!
# Reading printed values

What a log shows of a value is to say which value it was, wherever in the log it stands.
-/

namespace Verif.Spec

/-- A character a name or a number could go on with: a letter, a digit, `_`. -/
def wordChar (c : Char) : Bool := c.isAlphanum || c == '_'

/-- What follows a name or a number without running into it: nothing, or a text that starts with another character. -/
def SetsOff : List Char → Prop
  | [] => True
  | c :: _ => wordChar c = false

/-- Printing with `print` tells all values apart, whatever is printed after them (set off from them). -/
def PrintsApart {α : Type} (print : α → List Char) : Prop :=
  ∀ a b x y, SetsOff x → SetsOff y → (print a ++ x = print b ++ y ↔ a = b ∧ x = y)

/-- `{:?}` tells all values of the type apart. -/
def DebugApart (α : Type) [RustDebug α] : Prop := PrintsApart (debug : α → List Char)

/-- A log: one value after the other, each on a line of its own. -/
def logOf {α : Type} [RustDebug α] (values : List α) : List Char := values.flatMap fun a => debug a ++ ['\n']

/-- A log tells which values were written to it, how many, and in which order. -/
def LogsTell (α : Type) [RustDebug α] : Prop := ∀ a b : List α, logOf a = logOf b ↔ a = b

/-- Printable characters of ASCII only: no line breaks, no control characters, nothing to encode. -/
def PrintableAscii (s : List Char) : Prop := ∀ c ∈ s, 32 ≤ c.toNat ∧ c.toNat ≤ 126

/-- What is printed of a value stays on its line and arrives on any terminal. -/
def PrintsAscii (α : Type) [RustDebug α] : Prop := ∀ a : α, PrintableAscii (debug a)

end Verif.Spec
