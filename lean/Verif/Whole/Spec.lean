import Verif.Decimal.Spec
import Verif.Measurement.CompareSpec
import Verif.Xml.Spec

/-!
# What a test measures, as values, and when two measured values count as the same
-/

namespace Verif.Whole.Spec
open Verif.Measurement.Spec Verif.Decimal.Spec Verif.Xml.Spec

/-- A measured value. -/
inductive Value where
  | string (s : Str)
  | plain (s : Str)
  | integer (v : Int)
  | float (q : ℚ)
  | double (q : ℚ)
  | boolean (b : Bool)

/-- One measurement of a test: its name, its value, and whether the tolerance applies (numbers only). -/
structure Item where
  name : Str
  value : Value
  tolerant : Bool := true

/-- Printable text and numbers of their types; integers small enough that differences do not overflow. -/
def Value.Valid : Value → Prop
  | .string s => ∀ c ∈ s, Printable c
  | .plain s => ∀ c ∈ s, Printable c
  | .integer v => |v| < 2 ^ 30
  | .float q => IsFloat q
  | .double q => IsDouble q
  | .boolean _ => True

/-- A name that can be an attribute, and a valid value. -/
def Item.Valid (x : Item) : Prop := x.name ≠ [] ∧ (∀ c ∈ x.name, AttrChar c) ∧ x.value.Valid

/-- Measurements that must be accepted with tolerance `tol`. -/
def MustPass (tol : ℚ) (x y : Item) : Prop :=
  x.name = y.name ∧ match x.value, y.value with
    | .string a, .string b => a = b
    | .plain a, .plain b => a = b
    | .boolean a, .boolean b => a = b
    | .integer u, .integer v => if y.tolerant = true ∧ tol ≠ 0 then Close tol u v else u = v
    | .float q, .float r => if y.tolerant = true ∧ tol ≠ 0 then Close (tol - 5 / 10 ^ 6) q r else q = r
    | .double q, .double r => if y.tolerant = true ∧ tol ≠ 0 then Close (tol - 5 / 10 ^ 15) q r else q = r
    | _, _ => False

/-- Measurements that may be accepted with tolerance `tol`; all others must be rejected. -/
def MayPass (tol : ℚ) (x y : Item) : Prop :=
  x.name = y.name ∧ match x.value, y.value with
    | .string a, .string b => a = b
    | .plain a, .plain b => a = b
    | .boolean a, .boolean b => a = b
    | .integer u, .integer v => if y.tolerant = true ∧ tol ≠ 0 then Close (tol + 1 / 2 ^ 52) u v else u = v
    | .float q, .float r => if y.tolerant = true ∧ tol ≠ 0 then Close (tol + 5 / 10 ^ 6) q r ∨ (|q| < 1 / 2 ^ 22 ∧ |r| < 1 / 2 ^ 22) else |q - r| ≤ 1 / 10 ^ 6 * max |q| |r|
    | .double q, .double r => if y.tolerant = true ∧ tol ≠ 0 then Close (tol + 5 / 10 ^ 15) q r ∨ (|q| < 1 / 2 ^ 51 ∧ |r| < 1 / 2 ^ 51) else |q - r| ≤ 1 / 10 ^ 15 * max |q| |r|
    | _, _ => False

open Classical in
/-- The number of measurements of the second list that are not related to the measurement at their position in the first. -/
noncomputable def unlike (R : Item → Item → Prop) : List Item → List Item → Nat
  | _, [] => 0
  | [], _ :: ys => 1 + unlike R [] ys
  | x :: xs, y :: ys => (if R x y then 0 else 1) + unlike R xs ys

end Verif.Whole.Spec
