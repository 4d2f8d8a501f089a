import Verif.Prelude

/-!
# Model of `TestingFramework/tfBase64.cpp`

Base64::Encode, Base64::IsBase64, Base64::Decode and the two conversion tables.
-/

namespace Verif.Base64

/-- `base64chars`, tfBase64.cpp:262-271. -/
def base64chars : Str :=
  b!"ABCDEFGHIJKLMNOPQRSTUVWXYZabcdefghijklmnopqrstuvwxyz0123456789+/"

/-- `base64bits`, tfBase64.cpp:275-292 (rows of 16). -/
def base64bits : Str := [
  255,255,255,255,255,255,255,255,254,254,254,254,254,254,255,255,
  255,255,255,255,255,255,255,255,255,255,255,255,255,255,255,255,
  255,255,255,255,255,255,255,255,255,255,255, 62,255,255,255, 63,
   52, 53, 54, 55, 56, 57, 58, 59, 60, 61,255,255,255, 64,255,255,
  255,  0,  1,  2,  3,  4,  5,  6,  7,  8,  9, 10, 11, 12, 13, 14,
   15, 16, 17, 18, 19, 20, 21, 22, 23, 24, 25,255,255,255,255,255,
  255, 26, 27, 28, 29, 30, 31, 32, 33, 34, 35, 36, 37, 38, 39, 40,
   41, 42, 43, 44, 45, 46, 47, 48, 49, 50, 51,255,255,255,255,255,
  255,255,255,255,255,255,255,255,255,255,255,255,255,255,255,255,
  255,255,255,255,255,255,255,255,255,255,255,255,255,255,255,255,
  255,255,255,255,255,255,255,255,255,255,255,255,255,255,255,255,
  255,255,255,255,255,255,255,255,255,255,255,255,255,255,255,255,
  255,255,255,255,255,255,255,255,255,255,255,255,255,255,255,255,
  255,255,255,255,255,255,255,255,255,255,255,255,255,255,255,255,
  255,255,255,255,255,255,255,255,255,255,255,255,255,255,255,255,
  255,255,255,255,255,255,255,255,255,255,255,255,255,255,255,255]

/-- `InvalidBase64Bits`, tfBase64.h (protected constants), value 255. -/
def invalidBits : UInt8 := 255
/-- `WhiteSpaceBits`, tfBase64.h, value 254. -/
def whiteSpaceBits : UInt8 := 254
/-- `PaddingBits`, tfBase64.h, value 64. -/
def paddingBits : UInt8 := 64

/-- `base64chars[i]` as used by Encode, tfBase64.cpp:103-125; an index out of the table is UB. -/
def charAt (i : Nat) : Except Fault UInt8 :=
  match base64chars[i]? with
  | some c => .ok c
  | none => .error (.ub "base64chars index out of range")

/-- An indexed write `output[i] = v` into the pre-sized `std::string output`; a write at or beyond
its length is undefined behaviour (tfBase64.cpp:103-125). -/
def put (output : Str) (i : Nat) (v : UInt8) : Except Fault Str :=
  if i < output.length then .ok (output.set i v) else .error (.ub "output index out of range")

/-- The `output[i++] = base64chars[idx]` statement: look up, write, advance. -/
def emit (st : Str × Nat) (idx : Nat) : Except Fault (Str × Nat) := do
  let c ← charAt idx
  let out ← put st.1 st.2 c
  return (out, st.2 + 1)

/-- The `output[i++] = c` statement for a literal character. -/
def emitChar (st : Str × Nat) (c : UInt8) : Except Fault (Str × Nat) := do
  let out ← put st.1 st.2 c
  return (out, st.2 + 1)

/-- The main loop and the final padding of `Base64::Encode`, tfBase64.cpp:102-126.  The remaining
input `input + j .. ` with its `numBytes` left is the list argument; the state is `(output, i)`.
`unsigned char` operands are promoted to `int`, so the index arithmetic is exact on naturals. -/
def encodeLoop (addNewLines : Bool) : Str → Str × Nat → Except Fault (Str × Nat)
  | a :: b :: c :: rest, st => do
    let st ← emit st (a.toNat >>> 2)
    let st ← emit st (((a.toNat <<< 4) &&& 0x30) ||| (b.toNat >>> 4))
    let st ← emit st (((b.toNat <<< 2) &&& 0x3c) ||| (c.toNat >>> 6))
    let st ← emit st (c.toNat &&& 0x3f)
    let st ← if addNewLines && st.2 % 72 == 0 then emitChar st 10 else pure st
    encodeLoop addNewLines rest st
  | [a, b], st => do
    let st ← emit st (a.toNat >>> 2)
    let st ← emit st (((a.toNat <<< 4) &&& 0x30) ||| (b.toNat >>> 4))
    let st ← emit st ((b.toNat <<< 2) &&& 0x3c)
    emitChar st 61
  | [a], st => do
    let st ← emit st (a.toNat >>> 2)
    let st ← emit st ((a.toNat <<< 4) &&& 0x30)
    let st ← emitChar st 61
    emitChar st 61
  | [], st => .ok st

/-- The size of the output string, tfBase64.cpp:85-87. -/
def encodeSize (addNewLines : Bool) (numBytes : Nat) : Nat :=
  let numChars := ((numBytes + 2) / 3) * 4
  if addNewLines then numChars + numChars / 72 else numChars

/-- `Base64::Encode`, tfBase64.cpp:84-129.  `size_t` arithmetic is unbounded here. -/
def encode (addNewLines : Bool) (input : Str) : Except Fault Str := do
  let output : Str := List.replicate (encodeSize addNewLines input.length) 0
  let (output, _) ← encodeLoop addNewLines input (output, 0)
  return output

/-- `base64bits[ptrdiff_t(byte)]` where `byte` is a (signed) `char`: a byte of 128 or more
indexes the table at a negative offset, which is undefined behaviour
(tfBase64.cpp:141,143,163,165,194,196,223,241,243). -/
def bitsAt (byte : UInt8) : Except Fault UInt8 :=
  if byte.toNat ≥ 128 then .error (.ub "negative index into base64bits")
  else match base64bits[byte.toNat]? with
    | some v => .ok v
    | none => .error (.ub "base64bits index out of range")

/-- Local variables of `Base64::IsBase64`, tfBase64.cpp:132-136. -/
structure IsState where
  byteNumber : Nat
  bytesRead : Nat
  padded : Bool
  deriving Repr, DecidableEq

/-- The loop of `Base64::IsBase64`, tfBase64.cpp:138-176: returns the function's result
(`return 0` inside the loop ends it at once, `break` goes to the final check). -/
def isLoop (ignoreInvalids : Bool) : Str → IsState → Except Fault Nat
  | [], s => if s.byteNumber ≠ 0 then .ok 0 else .ok s.bytesRead
  | byte :: rest, s => do
    let bits ← bitsAt byte
    if bits ≤ 64 then
      if bits == paddingBits then
        let bn := s.byteNumber + 1
        if bn == 4 then .ok s.bytesRead           -- byteNumber = 0; padded: break
        else isLoop ignoreInvalids rest { s with byteNumber := bn, padded := true }
      else if s.padded then .ok 0
      else
        let bn := s.byteNumber + 1
        isLoop ignoreInvalids rest
          { s with byteNumber := if bn == 4 then 0 else bn, bytesRead := s.bytesRead + 1 }
    else if bits == whiteSpaceBits then isLoop ignoreInvalids rest s
    else if bits == invalidBits then
      if ignoreInvalids then isLoop ignoreInvalids rest s else .ok 0
    else .ok 0

/-- `Base64::IsBase64`, tfBase64.cpp:131-177. -/
def isBase64 (ignoreInvalids : Bool) (input : Str) : Except Fault Nat :=
  isLoop ignoreInvalids input { byteNumber := 0, bytesRead := 0, padded := false }

/-- Local variables of `Base64::Decode`, tfBase64.cpp:181-188.  `buffer` holds the entries of
`char buffer[4]` written in the current group, so reading an entry that was not written in this group
is visible; `output` holds the bytes written through `_output`, always at consecutive
offsets `j = 0, 1, ...`. -/
structure DecState where
  byteNumber : Nat
  buffer : Str
  output : Str
  bytesRead : Nat
  padded : Bool
  deriving Repr, DecidableEq

/-- Reading `buffer[k]`: an entry not written in this group is an uninitialised (or stale) read. -/
def bufAt (buffer : Str) (k : Nat) : Except Fault Nat :=
  match buffer[k]? with
  | some v => .ok v.toNat
  | none => .error (.ub "uninitialised buffer entry")

/-- The bytes written when the first padding character is met, tfBase64.cpp:200-209.  The last
branch only constructs an exception object and drops it (there is no `throw`). -/
def padBytes (byteNumber : Nat) (buffer : Str) : Except Fault Str :=
  if byteNumber == 2 then do
    let b0 ← bufAt buffer 0
    let b1 ← bufAt buffer 1
    return [UInt8.ofNat ((b0 <<< 2) ||| (b1 >>> 4)), UInt8.ofNat (b1 <<< 4)]
  else if byteNumber == 3 then do
    let b0 ← bufAt buffer 0
    let b1 ← bufAt buffer 1
    let b2 ← bufAt buffer 2
    return [UInt8.ofNat ((b0 <<< 2) ||| (b1 >>> 4)), UInt8.ofNat ((b1 <<< 4) ||| (b2 >>> 2)),
      UInt8.ofNat (b2 <<< 6)]
  else return []

/-- The bytes written for a complete group, tfBase64.cpp:232-234. -/
def groupBytes (buffer : Str) : Except Fault Str := do
  let b0 ← bufAt buffer 0
  let b1 ← bufAt buffer 1
  let b2 ← bufAt buffer 2
  let b3 ← bufAt buffer 3
  return [UInt8.ofNat ((b0 <<< 2) ||| (b1 >>> 4)), UInt8.ofNat ((b1 <<< 4) ||| (b2 >>> 2)),
    UInt8.ofNat ((b2 <<< 6) ||| b3)]

/-- The result of a call of `Decode`: what was written to the caller's memory (from offset 0
on, even if the call does not return normally) and how the call ended. -/
structure DecResult where
  written : Str
  outcome : Except Fault Nat
deriving DecidableEq

/-- One iteration of the loop of `Base64::Decode` on the character `byte`,
tfBase64.cpp:193-249.  The Boolean tells that the loop is left by `break`. -/
def decStep (ignoreInvalids : Bool) (byte : UInt8) (s : DecState) :
    Except Fault (DecState × Bool) := do
  let bits ← bitsAt byte
  if bits ≤ 64 then
    if bits == paddingBits then
      let ws ← if s.padded then pure [] else padBytes s.byteNumber s.buffer
      let s' := { s with output := s.output ++ ws, padded := true, byteNumber := s.byteNumber + 1 }
      return (s', s'.byteNumber == 4)
    else if s.padded then
      throw (.thrown "invalid base64 string, improper termination")
    else if s.byteNumber ≥ 4 then
      throw (.ub "write past the end of buffer[4]")
    else
      let buffer := s.buffer ++ [bits]
      let bn := s.byteNumber + 1
      if bn == 4 then
        let ws ← groupBytes buffer
        return ({ s with byteNumber := 0, buffer := [], output := s.output ++ ws,
                         bytesRead := s.bytesRead + 1 - 1 }, false)
      else
        return ({ s with byteNumber := bn, buffer := buffer, bytesRead := s.bytesRead + 1 }, false)
  else if bits == whiteSpaceBits then return (s, false)
  else if bits == invalidBits then
    if ignoreInvalids then return (s, false)
    else throw (.thrown "invalid base64 string, invalid char")
  else throw (.thrown "corrupted base64bits")

/-- The final check of `Base64::Decode`, tfBase64.cpp:252-256. -/
def decEnd (s : DecState) : DecResult :=
  if s.byteNumber ≠ 0 then ⟨s.output, .error (.thrown "invalid base64 string, unexpected end")⟩
  else ⟨s.output, .ok s.bytesRead⟩

/-- The loop of `Base64::Decode`, tfBase64.cpp:191-256. -/
def decLoop (ignoreInvalids : Bool) : Str → DecState → DecResult
  | [], s => decEnd s
  | byte :: rest, s =>
    match decStep ignoreInvalids byte s with
    | .error e => ⟨s.output, .error e⟩
    | .ok (s', true) => decEnd s'
    | .ok (s', false) => decLoop ignoreInvalids rest s'

/-- `Base64::Decode`, tfBase64.cpp:179-257. -/
def decode (ignoreInvalids : Bool) (input : Str) : DecResult :=
  decLoop ignoreInvalids input
    { byteNumber := 0, buffer := [], output := [], bytesRead := 0, padded := false }

end Verif.Base64
