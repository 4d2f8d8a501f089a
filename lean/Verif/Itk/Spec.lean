import Verif.Itk.Model

/-!
# What the image comparison is expected to compute
-/

namespace Verif.Itk.Spec

/-- `q` is an index of the region. -/
def Inside : Region → Index → Prop
  | [], [] => True
  | (l, n) :: r, i :: p => l ≤ i ∧ i < l + n ∧ Inside r p
  | _, _ => False

/-- `q` is at most `r` away from `p` in every dimension. -/
def Near (r : Nat) : Index → Index → Prop
  | [], [] => True
  | i :: p, j :: q => |i - j| ≤ r ∧ Near r p q
  | _, _ => False

/-- The pixel `p` of the valid image matches the test image: some pixel of the test image within the radius has a value whose
difference is within the threshold, as computed in floating point. -/
def Matches (A : Arith) (threshold : ℚ) (radius : Nat) (valid test : Image) (p : Index) : Prop :=
  ∃ q c t, Inside test.region q ∧ Near radius p q ∧ valid.pixel p = some c ∧ test.pixel q = some t ∧
    A.rnd (A.rnd (c - t) * A.rnd (c - t)) ≤ A.rnd (threshold * threshold)

/-- The pixel is not compared at all: one of the two values at that place is not a number. -/
def Unordered (valid test : Image) (p : Index) : Prop := valid.pixel p = none ∨ test.pixel p = none

/-- A schedule visits each pixel of the region exactly once, whatever thread does it and in whatever order. -/
def Covers (T : Threads) (r : Region) : Prop :=
  (T.sched.map Prod.snd).Perm r.pixels ∧ ∀ e ∈ T.sched, e.1 < T.n

open Classical in
/-- The number of pixels of a region with a property. -/
noncomputable def count (r : Region) (P : Index → Prop) : Nat := (r.pixels.filter (fun p => P p)).length

/-- A pixel with a difference. -/
def Differs (A : Arith) (threshold : ℚ) (radius : Nat) (valid test : Image) (p : Index) : Prop :=
  ¬ Unordered valid test p ∧ ¬ Matches A threshold radius valid test p

/-- Exact arithmetic, for examples. -/
def exact : Arith := ⟨id, id⟩

end Verif.Itk.Spec
