import Verif.Whole.Spec

/-!
# Compound values, and in how many places two of them differ
-/

namespace Verif.Whole.Spec
open Verif.Measurement.Spec Verif.Decimal.Spec Verif.Xml.Spec

/-- The values of the toolkit that have several components: sizes and indices; regions; points, vectors and arrays; matrices. -/
inductive CompoundValue where
  | integers (vs : List Int)
  | region (index size : List Int)
  | numbers (qs : List ℚ)
  | matrix (rows : List (List ℚ))

/-- A compound measurement: its name, its value and whether the tolerance applies. -/
structure Compound where
  name : Str
  value : CompoundValue
  tolerant : Bool

/-- The name can be an attribute; integers are small enough that differences do not overflow; the numbers are of double precision. -/
def Compound.Valid (c : Compound) : Prop :=
  (∀ x ∈ c.name, AttrChar x) ∧ match c.value with
    | .integers vs => ∀ v ∈ vs, |v| < 2 ^ 30
    | .region index size => (∀ v ∈ index, |v| < 2 ^ 30) ∧ ∀ v ∈ size, |v| < 2 ^ 30
    | .numbers qs => ∀ q ∈ qs, IsDouble q
    | .matrix rows => ∀ row ∈ rows, ∀ q ∈ row, IsDouble q

/-- The same kind of thing, with the same name, the same dimensions and the same wish for tolerance: what one line of a test measures in two runs. -/
def SameShape (c d : Compound) : Prop :=
  c.name = d.name ∧ c.tolerant = d.tolerant ∧ match c.value, d.value with
    | .integers us, .integers vs => us.length = vs.length
    | .region i s, .region i' s' => i.length = i'.length ∧ s.length = s'.length
    | .numbers qs, .numbers rs => qs.length = rs.length
    | .matrix m, .matrix m' => m.map List.length = m'.map List.length
    | _, _ => False

open Classical in
/-- The number of positions at which two lists are not related. -/
noncomputable def misses {α : Type} (R : α → α → Prop) (xs ys : List α) : Nat := ((xs.zip ys).filter fun p => ¬ R p.1 p.2).length

/-- When two components count as the same: as two measurements of their own would, with `R` for `MustPass tol` or `MayPass tol`. -/
def SameInteger (R : Item → Item → Prop) (t : Bool) (u v : Int) : Prop := R ⟨[], .integer u, t⟩ ⟨[], .integer v, t⟩
def SameNumber (R : Item → Item → Prop) (t : Bool) (q r : ℚ) : Prop := R ⟨[], .double q, t⟩ ⟨[], .double r, t⟩

/-- The number of components of two compounds of the same shape that do not count as the same. -/
noncomputable def differences (R : Item → Item → Prop) (c d : Compound) : Nat :=
  match c.value, d.value with
    | .integers us, .integers vs => misses (SameInteger R d.tolerant) us vs
    | .region i s, .region i' s' => misses (SameInteger R d.tolerant) i i' + misses (SameInteger R d.tolerant) s s'
    | .numbers qs, .numbers rs => misses (SameNumber R d.tolerant) qs rs
    | .matrix m, .matrix m' => ((m.zip m').map fun p => misses (SameNumber R d.tolerant) p.1 p.2).sum
    | _, _ => 0

/-- What is measured as it is by default, without tolerance: sizes, indices and regions. -/
def Exact (c : Compound) : Prop := c.tolerant = false ∧ ((∃ vs, c.value = .integers vs) ∨ ∃ i s, c.value = .region i s)

/-- The same integers up to multiples of 2^32, and the same numbers. -/
def Wrapped (c d : Compound) : Prop :=
  c.name = d.name ∧ c.tolerant = d.tolerant ∧ match c.value, d.value with
    | .integers us, .integers vs => List.Forall₂ (fun u v : Int => ∃ k : Int, u = v + k * 2 ^ 32) us vs
    | .region i s, .region i' s' => List.Forall₂ (fun u v : Int => ∃ k : Int, u = v + k * 2 ^ 32) i i' ∧ List.Forall₂ (fun u v : Int => ∃ k : Int, u = v + k * 2 ^ 32) s s'
    | .numbers qs, .numbers rs => qs = rs
    | .matrix m, .matrix m' => m = m'
    | _, _ => False

end Verif.Whole.Spec
