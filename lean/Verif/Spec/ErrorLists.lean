import Verif.Base
import Verif.Model.Enums

/-!
# Specification: which errors each call can return

Lists of the errors a caller has to expect, so that every other one can be treated as impossible.
-/

namespace Verif.Spec

/-- A `byte::Error::BadInput` with one of these reasons. -/
def reasons (l : List String) : List ByteErr := l.map .badInput

/-- Reading a header. -/
def headerErrors : List ByteErr :=
  .incomplete :: reasons ["InvalidFrameVersion", "InvalidFrameType", "InvalidAddressMode"]

/-- Reading a command. -/
def commandErrors : List ByteErr := .incomplete :: reasons ["InvalidValue"]

/-- Reading header and content of a frame. -/
def headErrors : List ByteErr :=
  .incomplete :: reasons ["InvalidFrameVersion", "InvalidFrameType", "InvalidAddressMode", "InvalidValue"]

/-- `Frame::try_read`. -/
def plainReadErrors : List ByteErr := headErrors ++ reasons ["SecurityEnabled (use Frame::try_read_and_unsecure)"]

/-- `Frame::try_read_and_unsecure`. -/
def receiveErrors : List SecErr :=
  headErrors.map .writeError ++
    [.invalidSecContext, .notImplemented, .unsupportedLegacy, .unsupportedSecurity, .unavailableKey,
     .noSourceAddress, .unavailableDevice, .counterError, .transformationError]

/-- `Frame::try_write` without a security context. -/
def plainWriteErrors : List ByteErr :=
  .incomplete :: reasons ["DisallowedPanIdCompress", "MissingSecurityCtx"]

/-- `Frame::try_write` with a security context, over a block cipher. -/
def secureWriteErrors : List ByteErr :=
  .incomplete :: reasons ["DisallowedPanIdCompress", "NotImplemented", "FrameTooLong", "CounterError", "UnavailableKey"]

/-- The one more that a cipher other than CCM could cause. -/
def refusedByCipher : ByteErr := .badInput "TransformationError"

end Verif.Spec
