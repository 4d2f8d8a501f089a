import Verif.Measurement.Model

/-!
# What is said about the data of a measurement, independently of the model
-/

namespace Verif.Measurement.Spec

/-- Reading the data that is not kept yet: one line for a compression, one for an encoding that is not known, one for text that is not base64. -/
def readLines (d : DataM) : List Str :=
  (if d.compression = b!"none" then [] else [b!"unsupported compression \"" ++ d.compression ++ b!"\" used.\n"]) ++
  (if d.encoding = b!"none" then []
   else if d.encoding = b!"base64" then
     (if d.content ≠ [] ∧ Base64.isBase64 false d.content = .ok 0 then [b!"error decodeing base64\n"] else [])
   else [b!"unsupported encoding \"" ++ d.encoding ++ b!"\" used.\n"])

/-- Data that can be read without a word: it is kept already, or it is not compressed and either not encoded or base64. -/
def Quiet (d : DataM) : Prop :=
  d.data ≠ none ∨ (d.compression = b!"none" ∧
    (d.encoding = b!"none" ∨ (d.encoding = b!"base64" ∧ (d.content = [] ∨ Base64.isBase64 false d.content ≠ .ok 0))))

end Verif.Measurement.Spec
