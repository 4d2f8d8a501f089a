import Verif.Life.Model

/-!
# The visitors and the parser of a `RegressionTest`

The other objects the functions of `RegressionTest` make on the heap: a compare visitor and a difference visitor for a comparison, and expat's parser for reading a baseline (its
buffer belongs to it).  As in `Verif/Life/Model.lean` the functions follow those of `Verif/Regression/Model.lean` and `Verif/Xml/Model.lean`, which decide what happens.
-/

namespace Verif.Life
open Spec Verif.Measurement Verif.Regression Verif.Xml

/-- The history of the visitors and parsers; no pointer to them outlives a function. -/
structure V where
  next : Nat := 0
  log : List Ev := []

/-- One event. -/
def V.add (v : V) (e : Ev) : V := { v with log := v.log ++ [e] }

/-- `new`, `XML_ParserCreate`: the object has the number `v.next`. -/
def V.create (v : V) : V := { next := v.next + 1, log := v.log ++ [.create v.next] }

/-- `DifferenceMeasurement`, tfRegressionTest.cpp:357-365; for `CreateDifferenceVisitor` also itktfRegression.cxx:116-121. -/
def visitDifference (env : Env) (s : St) (test baseline : Meas) (v : V) : V :=
  let vis := v.next
  let v := v.create.add (.use vis)
  match differenceMeasurement env s test baseline with
  | (_, .error _) => v
  | (_, .ok _) => v.add (.destroy vis)

/-- `CompareMeasurement`, tfRegressionTest.cpp:372-434; for `CreateCompareVisitor` also itktfRegression.cxx:123-128.  `AcceptVisitor` and `DifferenceMeasurement` may end by an exception. -/
def visitCompare (env : Env) (s : St) (test : Meas) (tolerant : Bool) (v : V) : V :=
  match s.obj.input with
  | [] => v
  | baseline :: rest =>
    let s := { s with obj := { s.obj with input := rest } }
    if baseline.name = test.name ∧ baseline.type = test.type then
      match locateBaseline s baseline test with
      | .error _ => v
      | .ok baseline =>
        let vis := v.next
        let v := v.create.add (.use vis)
        match compareVisit env s tolerant baseline test with
        | (_, _, _, .error _) => v
        | (s, baseline, test, .ok same) =>
          let v := v.add (.use vis)
          if same then v.add (.destroy vis)
          else match differenceMeasurement env s test baseline with
            | (_, .error _) => visitDifference env s test baseline v
            | (_, .ok _) => (visitDifference env s test baseline v).add (.destroy vis)
    else v

/-- A measurement call, tfRegressionTest.cpp:441-584; recording uses no visitor. -/
def visitCall (env : Env) (s : St) (c : Call) (v : V) : V :=
  if s.compareMode then visitCompare env s c.meas c.tolerant v else v

/-- The test, as `runProg`. -/
def visitProg (env : Env) : Prog → St → V → V
  | .ret _, _, v => v
  | .fails _, _, v => v
  | .call c k, s, v =>
    match runCall env s c with
    | (_, .error _) => visitCall env s c v
    | (s', .ok r) => visitProg env (k r) s' (visitCall env s c v)
  | .act f k, s, v => visitProg env k { s with world := f s.world } v
  | .look k, s, v => visitProg env (k s.world) s v
  | .ask k, s, v => visitProg env (k s.settings) s v
  | .setTolerance t k, s, v => visitProg env k { s with obj := { s.obj with tolerance := t } } v
  | .setExpected x k, s, v => visitProg env k { s with obj := { s.obj with expected := x } } v
  | .setImageTolerance t k, s, v => visitProg env k { s with obj := { s.obj with imageTol := t } } v
  | .setSearchPath ps k, s, v => visitProg env k { s with obj := { s.obj with searchPath := ps } } v
  | .prependSearchPath p k, s, v => visitProg env k { s with obj := { s.obj with searchPath := p :: s.obj.searchPath } } v
  | .setInFileName n k, s, v => visitProg env k { s with obj := { s.obj with inFileName := n } } v
  | .setOutFileName n k, s, v => visitProg env k { s with obj := { s.obj with outFileName := n } } v

/-- The loop of `ReadXMLInput`, tfRegressionTest.cpp:751-779, with parser `p`: `XML_GetBuffer`, `XML_ParseBuffer`, and `XML_GetErrorCode` before the exception. -/
def parserLoop (X : Expat) (size : Nat) (p : Nat) : Nat → Str → X.State → ParseData → V → V
  | 0, _, _, _, v => v
  | fuel + 1, rest, st, pd, v =>
    let buff := rest.take 1024
    let done := decide (rest.length < 1024)
    let len := if done then size % 1024 else 1024
    let v := v.add (.use p)
    if buff.length < len then v
    else
      match X.feed st (buff.take len) done with
      | (st, es, ok) =>
        let v := v.add (.use p)
        match onEvents pd es with
        | .error _ => v
        | .ok pd => if ok then if done then v else parserLoop X size p fuel (rest.drop 1024) st pd v else v.add (.use p)

/-- `ReadXMLInput`, tfRegressionTest.cpp:740-784: the parser is made, set up (742-749), used, and freed in line 781 unless an exception comes before. -/
def visitRead (X : Expat) (bytes : Str) (v : V) : V :=
  let p := v.next
  let v := parserLoop X bytes.length p (bytes.length / 1024 + 1) bytes X.init {} (v.create.add (.use p))
  match readXML X bytes with
  | .error _ => v
  | .ok _ => v.add (.destroy p)

/-- The end of `BeginMeasurement`, tfRegressionTest.cpp:170-174. -/
def visitStartOrRead (X : Expat) (s : St) (v : V) : V :=
  if s.compareMode then
    match s.obj.is with
    | none => v
    | some b => visitRead X b v
  else v

/-- `BeginMeasurement`, tfRegressionTest.cpp:139-175: it reads the baseline only if both files could be opened. -/
def visitBegin (X : Expat) (s : St) (v : V) : V :=
  match openOutput s with
  | (_, .error _) => v
  | (s1, .ok _) => match openInput s1 with
    | (_, .error _) => v
    | (s2, .ok _) => visitStartOrRead X s2 v

/-- `Main`, tfRegressionTest.cpp:301-317; `EndMeasurement` needs neither visitors nor a parser. -/
def visitMain (X : Expat) (env : Env) (test : List Str → Prog) (fuel : Nat) (argv : List Str) (s : St) (v : V) : V :=
  let s := { s with obj := { s.obj with unmatched := s.obj.unmatched + 1 } }
  match parseArguments s.world.fs fuel s.obj argv with
  | (_, .error _) => v
  | (o, .ok rest) =>
    match beginMeasurement (withXML X env) { s with obj := o } with
    | (_, .error _) => visitBegin X { s with obj := o } v
    | (s', .ok ()) => visitProg (withXML X env) (test rest) s' (visitBegin X { s with obj := o } v)

/-- The life of an object, as `life`; the destructor has no visitors and no parser to destroy. -/
def visits (X : Expat) (env : Env) : List Run → St → V → V
  | [], _, v => v
  | r :: rs, s, v =>
    match main (withXML X env) r.test r.fuel r.argv (r.before s) with
    | (_, .error _) => visitMain X env r.test r.fuel r.argv (r.before s) v
    | (s', .ok _) => visits X env rs s' (visitMain X env r.test r.fuel r.argv (r.before s) v)

end Verif.Life
