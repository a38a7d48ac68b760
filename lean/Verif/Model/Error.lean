import Verif.Model.Asn1

/-!
The crate's error type, `graviola/src/error.rs`, and outcomes.
-/
namespace Verif

/-- `KeyFormatError`, error.rs:36-46. -/
inductive KeyFormatError
  | UnsupportedPkcs8Version | MismatchedPkcs8Algorithm | MismatchedPkcs8Parameters
  | MismatchedPkcs8PublicKey | MismatchedSec1Curve | MismatchedSec1PublicKey | MismatchedSpkiAlgorithm
  deriving DecidableEq, Repr

/-- `Error`, error.rs:7-34. -/
inductive GError
  | WrongLength | NotUncompressed | NotOnCurve | OutOfRange | RngFailed | BadSignature | DecryptFailed
  | Asn1Error (e : Asn1.Error)
  | KeyFormatError (e : KeyFormatError)
  deriving DecidableEq, Repr

/-- Outcome of a call that does not return `Ok`: an error value, or a panic. -/
inductive GFault
  | err (e : GError)
  | panic
  deriving DecidableEq, Repr

/-- `Result<α, Error>` plus panics. -/
abbrev GR (α : Type) := Except GFault α

end Verif
