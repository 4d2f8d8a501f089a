import Verif.Life.Spec
import Verif.Xml.Model

/-!
# The heap objects of a `RegressionTest`

The measurements made from a baseline and the two file streams: where `RegressionTest` creates, uses and destroys them.  The functions of this file follow the
functions of `Verif/Regression/Model.lean` and `Verif/Xml/Model.lean` (which decide what happens) and tell what becomes of the objects.  Visitors, buffers and the
parser are left out.
-/

namespace Verif.Life
open Spec Verif.Measurement Verif.Regression Verif.Xml

/-- The history of the heap and the pointers of the object, tfRegressionTest.h:265-282: `Input`, `os`, `is`. -/
structure G where
  next : Nat := 0
  log : List Ev := []
  input : List Nat := []
  os : Option Nat := none
  is : Option Nat := none

/-- One event. -/
def G.add (g : G) (e : Ev) : G := { g with log := g.log ++ [e] }

/-- `new`: the object has the number `g.next`. -/
def G.create (g : G) : G := { g with next := g.next + 1, log := g.log ++ [.create g.next] }

/-- An access through a pointer that may be null (then `std::cout` or `std::cin` is used, tfRegressionTest.cpp:116-122). -/
def G.useOpt (g : G) : Option Nat → G
  | none => g
  | some i => g.add (.use i)

/-- `if (p) delete p`. -/
def G.destroyOpt (g : G) : Option Nat → G
  | none => g
  | some i => g.add (.destroy i)

/-- `delete` of all elements of a list. -/
def G.destroyAll (g : G) : List Nat → G
  | [] => g
  | i :: is => (g.add (.destroy i)).destroyAll is

/-! ## The reader -/

/-- The pointers of `XMLParseData`, tfRegressionTest.cpp:616-617. -/
structure RG where
  m : Option Nat := none
  list : List Nat := []

/-- The objects created in tfRegressionTest.cpp:639-648: one per `type` attribute, the last one is kept. -/
def traceCreate : List (Str × Str) → G → Option Nat → G × Option Nat
  | [], g, m => (g, m)
  | (a, _) :: rest, g, m => if a = b!"type" then traceCreate rest g.create (some g.next) else traceCreate rest g m

/-- The accesses in tfRegressionTest.cpp:652-663. -/
def traceAttrs : List (Str × Str) → G → Option Nat → G
  | [], g, _ => g
  | (a, _) :: rest, g, m => traceAttrs rest (if a = b!"name" ∨ a = b!"encoding" ∨ a = b!"compression" then g.useOpt m else g) m

/-- The callback `start`, tfRegressionTest.cpp:621-695. -/
def traceStart (pd : ParseData) (el : Str) (attrs : List (Str × Str)) (g : G) (r : RG) : G × RG :=
  if pd.m.isSome then (g, r)
  else if pd.data.length ≠ 0 then (g, r)
  else if pd.depth = 1 then
    if el = b!"DartMeasurement" then
      let c := traceCreate attrs g none
      (traceAttrs attrs c.1 c.2, { r with m := c.2 })
    else if el = b!"DartMeasurementFile" then (g.create.add (.use g.next), { r with m := some g.next })
    else (g, r)
  else (g, r)

/-- The callback `end`, tfRegressionTest.cpp:697-714. -/
def traceStop (pd : ParseData) (g : G) (r : RG) : G × RG :=
  match r.m with
  | none => (g, r)
  | some i => if pd.depth = 2 then (g.add (.use i), ⟨none, r.list ++ [i]⟩) else (g.add (.destroy i), ⟨none, r.list⟩)

/-- One callback. -/
def traceEvent (pd : ParseData) (e : Event) (g : G) (r : RG) : G × RG :=
  match e with
  | .start el attrs => traceStart pd el attrs g r
  | .stop _ => traceStop pd g r
  | .text _ => (g, r)

/-- The callbacks made while a chunk is parsed; a fault ends them. -/
def traceEvents : ParseData → List Event → G → RG → G × RG
  | _, [], g, r => (g, r)
  | pd, e :: es, g, r =>
    match onEvent pd e with
    | .error _ => traceEvent pd e g r
    | .ok pd' => traceEvents pd' es (traceEvent pd e g r).1 (traceEvent pd e g r).2

/-- The loop of `ReadXMLInput`, tfRegressionTest.cpp:751-779.  Nothing is destroyed when an exception leaves it. -/
def traceLoop (X : Expat) (size : Nat) : Nat → Str → X.State → ParseData → G → RG → G × RG
  | 0, _, _, _, g, r => (g, r)
  | fuel + 1, rest, st, pd, g, r =>
    let buff := rest.take 1024
    let done := decide (rest.length < 1024)
    let len := if done then size % 1024 else 1024
    let g := g.useOpt g.is
    if buff.length < len then (g, r)
    else
      match X.feed st (buff.take len) done with
      | (st, es, ok) =>
        let t := traceEvents pd es g r
        match onEvents pd es with
        | .error _ => t
        | .ok pd => if ok then if done then t else traceLoop X size fuel (rest.drop 1024) st pd t.1 t.2 else t

/-- `ReadXMLInput`, tfRegressionTest.cpp:725-784: the objects read are put into `Input`; what was there before is not destroyed. -/
def traceRead (X : Expat) (bytes : Str) (g : G) : G :=
  let t := traceLoop X bytes.length (bytes.length / 1024 + 1) bytes X.init {} g {}
  match readXML X bytes with
  | .error _ => t.1
  | .ok _ => { t.1 with input := t.2.list }

/-! ## The object -/

/-- Opening the output, tfRegressionTest.cpp:142-153: a stream that could not be opened is destroyed. -/
def traceOutput (s : St) (g : G) : G :=
  if s.obj.outFileName ≠ [] then
    match s.world.openWrite s.obj.outFileName with
    | none => { g.create.add (.destroy g.next) with os := none }
    | some _ => { g.create with os := some g.next }
  else g

/-- Opening the input, tfRegressionTest.cpp:155-168. -/
def traceInput (s : St) (g : G) : G :=
  if s.obj.inFileName ≠ [] then
    let p := s.obj.searched s.world.fs
    let p := if p = [] then s.obj.inFileName else p
    match s.world.openRead p with
    | none => { g.create.add (.destroy g.next) with is := none }
    | some _ => { g.create with is := some g.next }
  else g

/-- The end of `BeginMeasurement`, tfRegressionTest.cpp:170-174. -/
def traceStartOrRead (X : Expat) (s : St) (g : G) : G :=
  if s.compareMode then
    match s.obj.is with
    | none => g
    | some b => traceRead X b g
  else g.useOpt g.os

/-- `BeginMeasurement`, tfRegressionTest.cpp:139-175. -/
def traceBegin (X : Expat) (s : St) (g : G) : G :=
  match openOutput s with
  | (_, .error _) => traceOutput s g
  | (s1, .ok _) => match openInput s1 with
    | (_, .error _) => traceInput s1 (traceOutput s g)
    | (s2, .ok _) => traceStartOrRead X s2 (traceInput s1 (traceOutput s g))

/-- `ReadXMLInputFree`, tfRegressionTest.cpp:787-792, also the destructor, tfRegressionTest.cpp:66-68. -/
def traceFree (g : G) : G := { g.destroyAll g.input with input := [] }

/-- `EndMeasurement`, tfRegressionTest.cpp:177-196. -/
def traceEnd (s : St) (g : G) : G :=
  let g := if s.compareMode then traceFree g else g.useOpt g.os
  let g := { g.destroyOpt g.os with os := none }
  { g.destroyOpt g.is with is := none }

/-- `CompareMeasurement`, tfRegressionTest.cpp:372-434: the first of the list is taken off and used, the output may be used, and it is destroyed unless an
exception comes before. -/
def traceCompare (env : Env) (s : St) (test : Meas) (tolerant : Bool) (g : G) : G :=
  match g.input with
  | [] => g.useOpt g.os
  | i :: rest =>
    let g := { g.add (.use i) with input := rest }
    let g := g.useOpt g.os
    match compareMeasurement env s test tolerant with
    | (_, .error _) => g
    | (_, .ok _) => g.add (.destroy i)

/-- A measurement call, tfRegressionTest.cpp:441-584; recording uses the output. -/
def traceCall (env : Env) (s : St) (c : Call) (g : G) : G :=
  if s.compareMode then traceCompare env s c.meas c.tolerant g else g.useOpt g.os

/-- The test. -/
def traceProg (env : Env) : Prog → St → G → G
  | .ret _, _, g => g
  | .fails _, _, g => g
  | .call c k, s, g =>
    match runCall env s c with
    | (_, .error _) => traceCall env s c g
    | (s', .ok r) => traceProg env (k r) s' (traceCall env s c g)
  | .act f k, s, g => traceProg env k { s with world := f s.world } g
  | .look k, s, g => traceProg env (k s.world) s g
  | .ask k, s, g => traceProg env (k s.settings) s g
  | .setTolerance t k, s, g => traceProg env k { s with obj := { s.obj with tolerance := t } } g
  | .setExpected v k, s, g => traceProg env k { s with obj := { s.obj with expected := v } } g
  | .setImageTolerance t k, s, g => traceProg env k { s with obj := { s.obj with imageTol := t } } g
  | .setSearchPath ps k, s, g => traceProg env k { s with obj := { s.obj with searchPath := ps } } g
  | .prependSearchPath p k, s, g => traceProg env k { s with obj := { s.obj with searchPath := p :: s.obj.searchPath } } g
  | .setInFileName n k, s, g => traceProg env k { s with obj := { s.obj with inFileName := n } } g
  | .setOutFileName n k, s, g => traceProg env k { s with obj := { s.obj with outFileName := n } } g

/-- `Main`, tfRegressionTest.cpp:301-317. -/
def traceMain (X : Expat) (env : Env) (test : List Str → Prog) (fuel : Nat) (argv : List Str) (s : St) (g : G) : G :=
  let s := { s with obj := { s.obj with unmatched := s.obj.unmatched + 1 } }
  match parseArguments s.world.fs fuel s.obj argv with
  | (_, .error _) => g
  | (o, .ok rest) =>
    match beginMeasurement (withXML X env) { s with obj := o } with
    | (_, .error _) => traceBegin X { s with obj := o } g
    | (s', .ok ()) =>
      match runProg (withXML X env) (test rest) s' with
      | (_, .error _) => traceProg (withXML X env) (test rest) s' (traceBegin X { s with obj := o } g)
      | (s'', .ok _) => traceEnd s'' (traceProg (withXML X env) (test rest) s' (traceBegin X { s with obj := o } g))

/-- One call of `Main`: the test and the arguments, and what happens before it: the surroundings may change, and the settings of the object. -/
structure Run where
  test : List Str → Prog
  fuel : Nat
  argv : List Str
  world : World → World := id
  settings : Obj → Obj := id

/-- The state when `Main` is called: the private members cannot be changed from outside. -/
def Run.before (r : Run) (s : St) : St :=
  ⟨{ r.settings s.obj with os := s.obj.os, is := s.obj.is, input := s.obj.input, unmatched := s.obj.unmatched }, r.world s.world⟩

/-- The life of an object: calls of `Main`, then the destructor.  A fault that is no C++ exception ends the program. -/
def life (X : Expat) (env : Env) : List Run → St → G → G
  | [], _, g => traceFree g
  | r :: rs, s, g =>
    match main (withXML X env) r.test r.fuel r.argv (r.before s) with
    | (_, .error _) => traceMain X env r.test r.fuel r.argv (r.before s) g
    | (s', .ok _) => life X env rs s' (traceMain X env r.test r.fuel r.argv (r.before s) g)

/-- A new object. -/
def fresh (w : World) : St := ⟨{}, w⟩

end Verif.Life
