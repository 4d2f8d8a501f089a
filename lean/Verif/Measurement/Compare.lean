import Verif.Measurement.Model
import Mathlib.Algebra.Order.Field.Rat
import Mathlib.Algebra.Order.Ring.Abs
import Mathlib.Order.WithBot

/-!
# Model of the numeric comparison and of the visitors

`tfMeasurement.h` (`IsEqualTolerant`) and `tfMeasurementVisitor.{h,cpp}`.
-/

namespace Verif.Measurement

/-- Rounding of the magnitude of an exact result to a floating point format: monotone, exact at 0;
`⊤` is infinity (overflow).  Round-to-nearest treats both signs alike, so rounding magnitudes is enough. -/
structure Rounding where
  rnd : ℚ → WithTop ℚ
  mono : ∀ a b, a ≤ b → rnd a ≤ rnd b
  zero : rnd 0 = 0

/-- No rounding (the integer types). -/
def Rounding.exact : Rounding := ⟨fun q => q, fun _ _ h => WithTop.coe_le_coe.mpr h, rfl⟩

/-- What the platform fixes: the two formats, `numeric_limits<T>::epsilon()`, and how a text is read as a number.
Stream extraction of a floating point number always ends with a finite value (0 if nothing can be read, the largest
finite number on overflow), so values are rational numbers. -/
structure NumEnv where
  single : Rounding
  double : Rounding
  epsSingle : ℚ
  epsDouble : ℚ
  readSingle : Str → ℚ
  readDouble : Str → ℚ

/-- `NumericData::_IsEqualTolerant<T>` for a floating point `T`, tfMeasurement.h:443-450.  `t` is the format of `T` (the
difference is computed in it), `d` the `double` format (the product is computed in it); the tolerance is finite. -/
def tolerantEqual (t d : Rounding) (eps : ℚ) (lm rm tol : ℚ) : Bool :=
  let tol := |tol|
  let temp := t.rnd |lm - rm|
  decide (temp ≤ d.rnd (tol * |lm|)) || decide (temp ≤ d.rnd (tol * |rm|)) ||
    (decide (|lm| < eps) && decide (|rm| < eps))

/-- `_IsEqualTolerant<int>`, tfMeasurement.h:443-450: overflow of `lm - rm` and `abs(INT_MIN)` are undefined behaviour;
`numeric_limits<int>::epsilon()` is 0.  The operands of `||` are evaluated from left to right. -/
def tolerantEqualInt (d : Rounding) (lm rm : Int) (tol : ℚ) : Except Fault Bool :=
  if lm - rm ≤ intMin ∨ intMax < lm - rm then .error (.ub "int overflow in lm - rm or abs")
  else if lm = intMin then .error (.ub "abs(INT_MIN)")
  else
    let tol := |tol|
    let temp : WithTop ℚ := ((|lm - rm| : Int) : ℚ)
    if temp ≤ d.rnd (tol * ((|lm| : Int) : ℚ)) then .ok true
    else if rm = intMin then .error (.ub "abs(INT_MIN)")
    else .ok (decide (temp ≤ d.rnd (tol * ((|rm| : Int) : ℚ))) || (decide (|lm| < 0) && decide (|rm| < 0)))

/-- `IsEqualTolerant` of the four numeric classes, tfMeasurement.h:480-486, 518-524, 554-560, 592-598: false for another
class; names, encodings and data are not looked at. -/
def isEqualTolerant (env : NumEnv) (lk : NumKind) (lc : Str) (rk : NumKind) (rc : Str) (tol : ℚ) : Except Fault Bool :=
  if lk ≠ rk then .ok false
  else match lk with
    | .integer => tolerantEqualInt env.double (getInteger lc) (getInteger rc) tol
    | .float => .ok (tolerantEqual env.single env.double env.epsSingle (env.readSingle lc) (env.readSingle rc) tol)
    | .double => .ok (tolerantEqual env.double env.double env.epsDouble (env.readDouble lc) (env.readDouble rc) tol)
    | .boolean => .ok (decide (getBoolean lc = getBoolean rc))

/-! ## Visitors -/

/-- The classes a visitor can be overloaded for, tfMeasurementVisitor.h:62-88. -/
inductive Cls where
  | measurement | measurementFile | dataMeasurement | textData | plainText | stringText
  | numericData | integerNumeric | floatNumeric | doubleNumeric | booleanNumeric
  deriving DecidableEq, Repr

/-- The `static_cast` in the default `Visit` of each class, tfMeasurementVisitor.cpp:44-84: the overload
called next; none for `Visit(Measurement&)`, which does nothing. -/
def Cls.next : Cls → Option Cls
  | .measurement => none
  | .measurementFile => some .measurement
  | .dataMeasurement => some .measurement
  | .textData => some .dataMeasurement
  | .plainText => some .textData
  | .stringText => some .textData
  | .numericData => some .dataMeasurement
  | .integerNumeric => some .numericData
  | .floatNumeric => some .numericData
  | .doubleNumeric => some .numericData
  | .booleanNumeric => some .numericData

/-- Number of default steps up to `Visit(Measurement&)`. -/
def Cls.depth : Cls → Nat
  | .measurement => 0
  | .measurementFile | .dataMeasurement => 1
  | .textData | .numericData => 2
  | .plainText | .stringText | .integerNumeric | .floatNumeric | .doubleNumeric | .booleanNumeric => 3

theorem Cls.next_depth {c c' : Cls} (h : c.next = some c') : c'.depth < c.depth := by
  cases c <;> simp [Cls.next] at h <;> subst h <;> simp [Cls.depth]

/-- A call of the overload for class `c` on a visitor that overrides some overloads (`own`) and
leaves or forwards the others to the default, tfMeasurementVisitor.cpp:44-84, tfMeasurementVisitor.h:123-131, 190-198.
The result is the overriding overload that runs, if any. -/
def dispatch {β : Type} (own : Cls → Option β) (c : Cls) : Option β :=
  match own c with
  | some h => some h
  | none => match _h : c.next with
    | none => none
    | some c' => dispatch own c'
termination_by c.depth
decreasing_by exact Cls.next_depth _h

/-- The class of a measurement object: the overload its `AcceptVisitor` calls, tfMeasurement.cpp:224-226, 517-533, 552-590. -/
def Meas.cls : Meas → Cls
  | .file _ => .measurementFile
  | .data d => match d.kind with
    | .plain => .plainText
    | .string => .stringText
    | .num .integer => .integerNumeric
    | .num .float => .floatNumeric
    | .num .double => .doubleNumeric
    | .num .boolean => .booleanNumeric

/-- The members of `CompareVisitor` for the tolerance, tfMeasurementVisitor.h:204-208, tfMeasurementVisitor.cpp:126-131. -/
structure CompareVisitor where
  tolerantCompare : Bool := false
  relativeTolerance : ℚ := 0

/-- `SetToleranceOff`, tfMeasurementVisitor.h:163. -/
def CompareVisitor.setToleranceOff (v : CompareVisitor) : CompareVisitor := { v with tolerantCompare := false }

/-- `SetTolerance`, tfMeasurementVisitor.cpp:135-144. -/
def CompareVisitor.setTolerance (v : CompareVisitor) (tol : ℚ) : CompareVisitor :=
  if tol = 0 then v.setToleranceOff else { v with tolerantCompare := true, relativeTolerance := tol }

/-- `GetTolerance`, tfMeasurementVisitor.cpp:146-152. -/
def CompareVisitor.getTolerance (v : CompareVisitor) : ℚ := if v.tolerantCompare then v.relativeTolerance else 0

/-- What a comparison leaves: baseline and test object (their caches may change) and the result. -/
abbrev CompareResult := Meas × Meas × Except Fault Bool

/-- `CompareVisitor::Visit(Measurement&)`, tfMeasurementVisitor.cpp:157-160. -/
def compareGeneral (files : Files) (baseline test : Meas) : CompareResult := baseline.isEqual files test

/-- `CompareVisitor::Visit(NumericData&)`, tfMeasurementVisitor.cpp:162-175. -/
def CompareVisitor.compareNumeric (v : CompareVisitor) (env : NumEnv) (files : Files) (baseline test : Meas) : CompareResult :=
  match baseline, test with
  | .data ⟨.num bk, bn, bc, be, bz, bs, bd⟩, .data ⟨.num tk, tn, tc, te, tz, ts, td⟩ =>
    let b : DataM := ⟨.num bk, bn, bc, be, bz, bs, bd⟩
    let t : DataM := ⟨.num tk, tn, tc, te, tz, ts, td⟩
    if v.getTolerance ≠ 0 then (.data b, .data t, isEqualTolerant env bk bc tk tc v.getTolerance)
    else (Meas.data b).isEqual files (.data t)
  | b, t => (b, t, .ok false)

/-- The overloads `CompareVisitor` overrides, tfMeasurementVisitor.h:184-187. -/
def CompareVisitor.own (v : CompareVisitor) (env : NumEnv) (files : Files) : Cls → Option (Meas → Meas → CompareResult)
  | .measurement => some (compareGeneral files)
  | .numericData => some (v.compareNumeric env files)
  | _ => none

/-- `test.AcceptVisitor(vis)` for a `CompareVisitor` with the given baseline. -/
def CompareVisitor.visit (v : CompareVisitor) (env : NumEnv) (files : Files) (baseline test : Meas) : CompareResult :=
  match dispatch (v.own env files) test.cls with
  | some h => h baseline test
  | none => (baseline, test, .ok false)

end Verif.Measurement
