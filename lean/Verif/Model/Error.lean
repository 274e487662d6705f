import Verif.Model.Sections

/-! # Model of the error types of `src/error.rs` and `src/decoder.rs`

Message texts are omitted. -/

namespace Grib.Model

/-- `SimplePackingDecodeError` (src/decoder/simple.rs:41-46). -/
inductive SimpleError where
  | notSupported
  | originalFieldValueTypeNotSupported
  | lengthMismatch
deriving DecidableEq, Repr

/-- `ComplexPackingDecodeError` (src/decoder/complex.rs:24-28). -/
inductive ComplexError where
  | notSupported
  | lengthMismatch
deriving DecidableEq, Repr

/-- `Jpeg2000CodeStreamDecodeError` (src/decoder/jpeg2000.rs:14-21). -/
inductive Jpeg2000Error where
  | notSupported
  | decoderSetupError
  | mainHeaderReadError
  | bodyReadError
  | lengthMismatch
deriving DecidableEq, Repr

/-- `PngDecodeError` (src/decoder/png.rs:10-14). -/
inductive PngError where
  | notSupported
  | pngError
deriving DecidableEq, Repr

/-- `RunLengthEncodingDecodeError` (src/decoder/run_length.rs:7-13). -/
inductive RunLengthError where
  | notSupported
  | invalidFirstValue
  | lengthMismatch
  | invalidLevelValue (level : Nat)
deriving DecidableEq, Repr

/-- `DecodeError` (src/decoder.rs:234-245). -/
inductive DecodeError where
  | templateNumberUnsupported
  | bitMapIndicatorUnsupported
  | simplePacking (e : SimpleError)
  | complexPacking (e : ComplexError)
  | jpeg2000 (e : Jpeg2000Error)
  | png (e : PngError)
  | runLength (e : RunLengthError)
  | lengthMismatch
deriving DecidableEq, Repr

/-- `GribError` (src/error.rs:9-17). -/
inductive GribError where
  | internalDataError
  | parseError (e : ParseError)
  | decodeError (e : DecodeError)
  | invalidValueError
  | notSupported
  | unknown
deriving DecidableEq, Repr

end Grib.Model
