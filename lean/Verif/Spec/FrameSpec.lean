import Verif.Spec.BeaconSpec
import Verif.Spec.CommandSpec
import Verif.Spec.HeaderSpec
import Verif.Model.Frame

/-!
# Specification: frames
-/

namespace Verif.Spec

/-- Content a user can have in hand: beacons built from API values. -/
def ContentFromApi : FrameContent → Prop
  | .beacon b => BeaconFromApi b
  | _ => True

/-- Content that survives being written in front of `following`: fields in range, and no
realignment command without channel page in front of anything. -/
def ContentSurvives (following : List UInt8) : FrameContent → Prop
  | .beacon b => SuperframeInRange b.superframeSpec
  | .command c => CommandInRange c ∧ (NoPage c → following = [])
  | _ => True

/-- The octets of an unsecured frame. -/
def plainFrameOctets (mode : FooterMode) (f : Frame) : List UInt8 :=
  headerOctets f.header false false false [] ++ contentOctets f.content ++ f.payload
    ++ footerOctets mode f.footer

/-- The two footer octets read in each mode. -/
def footerAsRead (mode : FooterMode) (footer : UInt8 × UInt8) : UInt8 × UInt8 :=
  match mode with
  | .none => (0, 0)
  | .explicit => footer

/-- A slice starts with a readable header and content: values and octets consumed. -/
def HeadReadable (cfg : Cfg) (bytes : List UInt8) (h : Header) (n : Nat) (c : FrameContent) (m : Nat) :
    Prop :=
  Header.tryRead cfg bytes = .ok (h, n) ∧ FrameContent.tryRead h (bytes.drop n) = .ok (c, m)

/-- Slices Rust can hold: at most `isize::MAX` octets. -/
def SliceFits (cfg : Cfg) (bytes : List UInt8) : Prop := bytes.length < 2 ^ (cfg.usize.bits - 1)

end Verif.Spec
