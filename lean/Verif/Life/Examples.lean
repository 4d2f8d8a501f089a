import Verif.Life.LossProps

/-!
# C98: the hypotheses are met
-/

namespace Verif.Life
open Spec Verif.Measurement Verif.Regression Verif.Regression.Spec Verif.Xml Verif.Xml.Spec

/-- An event without repeated attributes. -/
def single : Event → Bool
  | .start _ attrs => decide (attrs.map Prod.fst).Nodup
  | _ => true

/-- The parser that rejects documents with repeated attributes and otherwise is `X`. -/
def strict (X : Expat) : Expat where
  State := X.State
  init := X.init
  feed s c l := if (X.feed s c l).2.1.all single then X.feed s c l else ((X.feed s c l).1, [], false)

/-- Such parsers exist. -/
theorem strict_unrepeated (X : Expat) : Unrepeated (strict X) := by
  intro st chunk last el attrs h
  simp only [strict] at h
  split at h
  · next ha => exact of_decide_eq_true (List.all_eq_true.mp ha _ h)
  · simp at h

/-- A world with a baseline "b" of two measurements. -/
def twoWorld : World :=
  { smallWorld with bytes := fun n => if n = b!"b" then header plainWorld ++ (twoCalls.map fun c => line (recordedMeas c)).flatten ++ footer else [] }

/-- A test that makes the two measurements. -/
def twoTest : List Str → Prog := fun _ => .call (.textString b!"a<b" b!"s") fun _ => .call (.textString b!"c" b!"t") fun _ => .ret 0

/-- Only one of the two. -/
def oneTest : List Str → Prog := fun _ => .call (.textString b!"a<b" b!"s") fun _ => .ret 0

/-- Comparing with an output file, comparing only one, recording. -/
def quietRuns : List Run :=
  [⟨twoTest, 9, [b!"prog", b!"-I", b!"b", b!"-O", b!"o"], id, id⟩, ⟨oneTest, 9, [b!"prog"], id, id⟩,
    ⟨twoTest, 9, [b!"prog"], id, fun o => { o with inFileName := [] }⟩]

/-- What happens in the first of them: output and input file, the two measurements are made, compared and destroyed, the files are closed. -/
example : (life (strict reference) (smallEnv []) (quietRuns.take 1) (fresh twoWorld) {}).log =
    [.create 0, .create 1, .use 1, .create 2, .use 2, .use 2, .create 3, .use 3, .use 3, .use 2, .use 0, .destroy 2, .use 3, .use 0, .destroy 3,
      .destroy 0, .destroy 1] := by
  decide +kernel

theorem quiet_runs : Quiet (withXML (strict reference) (smallEnv [])) quietRuns (fresh twoWorld) := by
  simp only [Quiet, quietRuns]
  decide +kernel

/-- Nothing is lost in the three. -/
example (i : Nat) : ¬ Leaked (life (strict reference) (smallEnv []) quietRuns (fresh twoWorld) {}).log i :=
  C98_nothing_lost (strict reference) (strict_unrepeated reference) (smallEnv []) quietRuns twoWorld quiet_runs i

/-- A test that throws after the first measurement. -/
def throwingTest : List Str → Prog := fun _ => .call (.textString b!"a<b" b!"s") fun _ => .fails (.thrown "x")

/-- After it, with an output file and a baseline. -/
def thrown1 : List Run := [⟨throwingTest, 9, [b!"prog", b!"-I", b!"b", b!"-O", b!"o"], id, id⟩]

/-- The state then: both files are open and one measurement is left. -/
theorem after_thrown : ∃ s, After (withXML (strict reference) (smallEnv [])) thrown1 (fresh twoWorld) = some s ∧ s.obj.os.isSome = true ∧ s.obj.is.isSome = true ∧
    s.obj.input.length = 1 := by
  cases h : After (withXML (strict reference) (smallEnv [])) thrown1 (fresh twoWorld) with
  | none => exact absurd (congrArg Option.isSome h) (by decide +kernel)
  | some s =>
    refine ⟨s, rfl, ?_⟩
    have h1 : ((After (withXML (strict reference) (smallEnv [])) thrown1 (fresh twoWorld)).map fun s => (s.obj.os.isSome, s.obj.is.isSome, s.obj.input.length)) = some (true, true, 1) := by
      decide +kernel
    rw [h] at h1
    simpa using h1

/-- Streams are lost if the object is destroyed then. -/
example : ∃ i, Leaked (life (strict reference) (smallEnv []) thrown1 (fresh twoWorld) {}).log i := by
  obtain ⟨s, h, hs, -⟩ := after_thrown
  exact C98_streams_left_open _ _ _ _ s h (Or.inl hs)

/-- And one measurement is destroyed then. -/
example : ∃ (log : List Ev) (l : List Nat), (life (strict reference) (smallEnv []) thrown1 (fresh twoWorld) {}).log = log ++ l.map .destroy ∧ l.length = 1 := by
  obtain ⟨s, h, -, -, hs⟩ := after_thrown
  obtain ⟨log, l, h1, h2, -⟩ := C98_destructor _ _ _ _ s h
  exact ⟨log, l, h1, h2.trans hs⟩

theorem pair_eq {α β : Type} (x : α × β) {b : β} (h : x.2 = b) : x = (x.1, b) := by rw [← h]

/-- The state after `thrown1`. -/
def afterThrown : St := (After (withXML (strict reference) (smallEnv [])) thrown1 (fresh twoWorld)).getD (fresh twoWorld)

theorem after_thrown_eq : After (withXML (strict reference) (smallEnv [])) thrown1 (fresh twoWorld) = some afterThrown := by
  obtain ⟨s, h, -⟩ := after_thrown
  rw [afterThrown, h]; rfl

/-- Another call with the same files. -/
def again : Run := ⟨twoTest, 9, [b!"prog"], id, id⟩

/-- The object when it has parsed its arguments. -/
def againObj : Obj := (parseArguments (again.before afterThrown).world.fs 9 { (again.before afterThrown).obj with unmatched := (again.before afterThrown).obj.unmatched + 1 } again.argv).1

theorem again_parse : parseArguments (again.before afterThrown).world.fs again.fuel { (again.before afterThrown).obj with unmatched := (again.before afterThrown).obj.unmatched + 1 } again.argv =
    (againObj, .ok [b!"prog"]) := Prod.ext rfl (by decide +kernel)

/-- The rest of the baseline (one measurement) and both files are lost by the next call, whatever follows. -/
example : ∃ i, ∀ rs, Leaked (life (strict reference) (smallEnv []) (thrown1 ++ again :: rs) (fresh twoWorld) {}).log i := by
  have hb : (beginMeasurement (withXML (strict reference) (smallEnv [])) ⟨againObj, (again.before afterThrown).world⟩).2 = .ok () := by decide +kernel
  have hi : (beginMeasurement (withXML (strict reference) (smallEnv [])) ⟨againObj, (again.before afterThrown).world⟩).1.obj.is.isSome = true := by decide +kernel
  obtain ⟨b, hi⟩ := Option.isSome_iff_exists.mp hi
  obtain ⟨l, -, h2, h3⟩ := C98_rest_of_baseline _ _ _ _ _ after_thrown_eq again _ _ _ b again_parse (pair_eq _ hb) hi
  have : l.length = 1 := by rw [h2]; decide +kernel
  obtain ⟨i, rfl⟩ := List.length_eq_one_iff.mp this
  exact ⟨i, h3 i (by simp)⟩

example : ∃ i, ∀ rs, Leaked (life (strict reference) (smallEnv []) (thrown1 ++ again :: rs) (fresh twoWorld) {}).log i :=
  C98_reopened_output _ _ _ _ _ after_thrown_eq (by decide +kernel) again _ _ again_parse (by decide +kernel)

example : ∃ i, ∀ rs, Leaked (life (strict reference) (smallEnv []) (thrown1 ++ again :: rs) (fresh twoWorld) {}).log i :=
  C98_reopened_input _ _ _ _ _ after_thrown_eq (by decide +kernel) again _ _ _ again_parse (pair_eq (openOutput ⟨againObj, (again.before afterThrown).world⟩) (by decide +kernel)) (by decide +kernel)

/-- A library whose image comparison finds a difference and then throws. -/
def throwingImages : Env := { smallEnv [] with image := some ⟨fun _ _ _ _ => false, fun _ _ _ _ => ([], some (.thrown "x"))⟩ }

/-- A world with a baseline of one image. -/
def imageWorld : World := { smallWorld with bytes := fun n => if n = b!"b" then header plainWorld ++ line (recordedMeas (.fileITK b!"i" b!"n")) ++ footer else [] }

/-- A test with an image. -/
def imageRun : Run := ⟨fun _ => .call (.fileITK b!"i" b!"n") fun _ => .ret 0, 9, withBaseline, id, id⟩

/-- The state when the test begins. -/
def imageState : St := (beginMeasurement (withXML (strict reference) throwingImages) ⟨{ unmatched := 1, inFileName := b!"b" }, imageWorld⟩).1

/-- The measurement of the baseline is lost, whatever follows. -/
example : ∃ i, ∀ rs, Leaked (life (strict reference) throwingImages ([] ++ imageRun :: rs) (fresh imageWorld) {}).log i := by
  refine C98_exception_in_comparison _ _ [] imageWorld (fresh imageWorld) rfl imageRun { unmatched := 1, inFileName := b!"b" } [b!"prog"] imageState (parse_small 1)
    (pair_eq (beginMeasurement (withXML (strict reference) throwingImages) ⟨{ unmatched := 1, inFileName := b!"b" }, imageWorld⟩) (by decide +kernel)) ?_
  have hr : (runCall (withXML (strict reference) throwingImages) imageState (.fileITK b!"i" b!"n")).2 = .error (.thrown "x") := by decide +kernel
  show FailsComparing _ (.call (.fileITK b!"i" b!"n") fun _ => .ret 0) imageState
  rw [FailsComparing]
  rcases h : runCall (withXML (strict reference) throwingImages) imageState (.fileITK b!"i" b!"n") with ⟨s, e | r⟩
  · exact ⟨by decide +kernel, by decide +kernel⟩
  · rw [h] at hr; cases hr

/-- A world with a baseline whose recording was interrupted after two measurements. -/
def cutWorld : World := { smallWorld with bytes := fun n => if n = b!"b" then header plainWorld ++ (twoCalls.map fun c => line (recordedMeas c)).flatten else [] }

/-- Both measurements are lost. -/
example : ∃ l : List Nat, l.Nodup ∧ l.length = 2 ∧ ∀ i ∈ l, ∀ rs, Leaked (life reference (smallEnv []) ([] ++ ⟨twoTest, 9, withBaseline, id, id⟩ :: rs) (fresh cutWorld) {}).log i :=
  C98_interrupted_recording reference reference_rejects_unfinished plainWorld plain_comment twoCalls two_clean (smallEnv []) [] cutWorld (fresh cutWorld) rfl
    ⟨twoTest, 9, withBaseline, id, id⟩ { unmatched := 1, inFileName := b!"b" } [b!"prog"] ⟨{ unmatched := 1, inFileName := b!"b" }, cutWorld⟩ _
    (parse_small 1) rfl (pair_eq (openInput ⟨{ unmatched := 1, inFileName := b!"b" }, cutWorld⟩) (by decide +kernel)) (by decide +kernel)

/-- A parser that reports two `type` attributes: an object is lost although nothing is thrown. -/
def repeating : Expat where
  State := Unit
  init := ()
  feed _ _ _ := ((), [.start b!"output" [], .start b!"DartMeasurement" [(b!"type", b!"text/string"), (b!"type", b!"text/string")], .stop b!"DartMeasurement", .stop b!"output"], true)

/-- So the assumption about the parser is needed. -/
example : Quiet (withXML repeating (smallEnv [])) [⟨fun _ => .ret 0, 9, withBaseline, id, id⟩] (fresh smallWorld) ∧
    Leaked (life repeating (smallEnv []) [⟨fun _ => .ret 0, 9, withBaseline, id, id⟩] (fresh smallWorld) {}).log 1 := by
  constructor
  · simp only [Quiet]
    decide +kernel
  · rw [Leaked]
    decide +kernel

end Verif.Life
