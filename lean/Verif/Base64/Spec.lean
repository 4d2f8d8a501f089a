import Verif.Prelude

/-!
# What base64 is, independently of the code (RFC 4648 section 4 / RFC 2045 section 6.8)
-/

namespace Verif.Base64.Spec

/-- Table 1 of RFC 2045. -/
def alphabet : Str := b!"ABCDEFGHIJKLMNOPQRSTUVWXYZabcdefghijklmnopqrstuvwxyz0123456789+/"

/-- The bits of a byte, most significant first. -/
def bits (b : UInt8) : List Bool :=
  [7, 6, 5, 4, 3, 2, 1, 0].map fun i => b.toNat.testBit i

/-- The number written by a list of bits, most significant first. -/
def value (l : List Bool) : Nat := l.foldl (fun acc b => 2 * acc + b.toNat) 0

/-- Cut a bit stream in groups of six, zero bits added on the right of the last. -/
def sextets : List Bool → List Nat
  | b0 :: b1 :: b2 :: b3 :: b4 :: b5 :: rest => value [b0, b1, b2, b3, b4, b5] :: sextets rest
  | [] => []
  | l => [value ((l ++ List.replicate 6 false).take 6)]

/-- The digits followed by `=` up to a multiple of four characters. -/
def pad (s : Str) : Str := s ++ List.replicate ((4 - s.length % 4) % 4) 61

/-- The standard base64 text of a byte sequence. -/
def text (data : Str) : Str :=
  pad ((sextets (data.flatMap bits)).map fun v => alphabet.getD v 0)

/-- A character of the base64 alphabet. -/
def isDigit (c : UInt8) : Bool := alphabet.contains c

/-- The white space of this library: codes 8 to 13. -/
def isSpace (c : UInt8) : Bool := 8 ≤ c && c ≤ 13

/-- The padding character. -/
def isPad (c : UInt8) : Bool := c == 61

/-- A 7-bit character. -/
def is7bit (c : UInt8) : Bool := c < 128

/-- Characters with no meaning in base64. -/
def isJunk (c : UInt8) : Bool := !isDigit c && !isSpace c && !isPad c

/-- Characters that may occur in a text: digits, padding, white space, and, when invalid
characters are to be ignored, junk. -/
def allowed (ignoreInvalids : Bool) (c : UInt8) : Bool :=
  isDigit c || isPad c || isSpace c || (ignoreInvalids && isJunk c && is7bit c)

/-- What is left of a text when white space and junk are dropped. -/
def core (t : Str) : Str := t.filter fun c => isDigit c || isPad c

/-- `t` has only allowed characters, and without white space and junk it is the digits `ds`
followed by `p` padding characters. -/
def Shape (ignoreInvalids : Bool) (t ds : Str) (p : Nat) : Prop :=
  (∀ c ∈ t, allowed ignoreInvalids c = true) ∧ (∀ c ∈ ds, isDigit c = true) ∧
    core t = ds ++ List.replicate p 61

/-- `t` is a well-formed text carrying `n` digits: groups of four digits up to the end, or
digits and as many padding characters as complete the last group of four, after which
anything may follow. -/
def WellFormed (ignoreInvalids : Bool) (t : Str) (n : Nat) : Prop :=
  (∃ ds, Shape ignoreInvalids t ds 0 ∧ ds.length = n ∧ n % 4 = 0) ∨
  (∃ body rest ds, t = body ++ rest ∧ Shape ignoreInvalids body ds (4 - n % 4) ∧ ds.length = n)

/-- `t` is a beginning that could still be continued to a well-formed text with more characters to read:
its last group is not closed by padding yet. -/
def Open (ignoreInvalids : Bool) (t : Str) : Prop :=
  ∃ ds p, Shape ignoreInvalids t ds p ∧ p < 4 - ds.length % 4

end Verif.Base64.Spec
