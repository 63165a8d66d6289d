import Verif.Model.Enums

/-!
# Specification: errors
-/

namespace Verif.Spec

/-- Decode errors of the same kind: equal, or naming the same field with possibly different values. -/
def SameKind : DecodeError → DecodeError → Prop
  | .invalidFrameType _, .invalidFrameType _ => True
  | .invalidAddressMode _, .invalidAddressMode _ => True
  | .invalidFrameVersion _, .invalidFrameVersion _ => True
  | .invalidSecurityLevel _, .invalidSecurityLevel _ => True
  | .invalidKeyIdentifierMode _, .invalidKeyIdentifierMode _ => True
  | a, b => a = b

end Verif.Spec
