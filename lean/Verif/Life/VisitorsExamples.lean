import Verif.Life.VisitorsLoss
import Verif.Life.Examples

/-!
# C126: the hypotheses are met
-/

namespace Verif.Life
open Spec Verif.Measurement Verif.Regression Verif.Regression.Spec Verif.Xml Verif.Xml.Spec

/-- Comparing two measurements, the second of them different: a parser, a compare visitor, then a compare and a difference visitor. -/
def differingRun : Run :=
  ⟨fun _ => .call (.textString b!"a<b" b!"s") fun _ => .call (.textString b!"d" b!"t") fun _ => .ret 0, 9, withBaseline, id, id⟩

example : (visits (strict reference) (smallEnv []) [differingRun] (fresh twoWorld) {}).log =
    [.create 0, .use 0, .use 0, .use 0, .destroy 0, .create 1, .use 1, .use 1, .destroy 1, .create 2, .use 2, .use 2, .create 3, .use 3, .destroy 3, .destroy 2] := by
  decide +kernel

/-- Nothing is lost in quiet calls. -/
example (i : Nat) : ¬ Leaked (visits (strict reference) (smallEnv []) quietRuns (fresh twoWorld) {}).log i :=
  C126_nothing_lost _ _ _ _ quiet_runs i

example : CallLoses (strict reference) (smallEnv []) twoWorld [] differingRun 0 :=
  C126_quiet_call _ _ _ [] (fresh twoWorld) rfl _ (by decide +kernel)

/-- An interrupted recording: one parser is lost. -/
example : CallLoses reference (smallEnv []) cutWorld [] ⟨twoTest, 9, withBaseline, id, id⟩ 1 :=
  C126_rejected_baseline _ _ _ [] (fresh cutWorld) rfl ⟨twoTest, 9, withBaseline, id, id⟩ { unmatched := 1, inFileName := b!"b" } [b!"prog"] (parse_small 1)
    (header plainWorld ++ (twoCalls.map fun c => line (recordedMeas c)).flatten)
    ⟨⟨{ unmatched := 1, inFileName := b!"b" }, cutWorld⟩, (openInput ⟨{ unmatched := 1, inFileName := b!"b" }, cutWorld⟩).1, rfl,
      pair_eq (openInput ⟨{ unmatched := 1, inFileName := b!"b" }, cutWorld⟩) (by decide +kernel), by decide +kernel, by decide +kernel⟩
    (.thrown "parse error") (by decide +kernel)

/-- A call of `Main` whose output file cannot be created. -/
def lockedRun : Run := ⟨twoTest, 9, [b!"prog"], fun w => { w with creatable := fun _ => false }, fun o => { o with outFileName := b!"o" }⟩

example : CallLoses reference (smallEnv []) smallWorld [] lockedRun 0 := by
  refine C126_not_begun _ _ _ [] (fresh _) rfl lockedRun fun o rest hp s1 s2 h1 => ?_
  have h : parseArguments (lockedRun.before (fresh smallWorld)).world.fs lockedRun.fuel
      { (lockedRun.before (fresh smallWorld)).obj with unmatched := (lockedRun.before (fresh smallWorld)).obj.unmatched + 1 } lockedRun.argv =
      ({ unmatched := 1, outFileName := b!"o" }, .ok [b!"prog"]) := Prod.ext rfl (by decide +kernel)
  rw [h] at hp
  cases hp
  have hn : (openOutput ⟨{ unmatched := 1, outFileName := b!"o" }, (lockedRun.before (fresh smallWorld)).world⟩).2 ≠ .ok () := by decide +kernel
  exact absurd (congrArg Prod.snd h1) hn

/-- The state when it begins. -/
def ownState : St := (beginMeasurement (withXML (strict reference) (smallEnv [])) ⟨{ unmatched := 1, inFileName := b!"b" }, twoWorld⟩).1

/-- Its only call has an answer. -/
theorem own_call : ∃ s, runCall (withXML (strict reference) (smallEnv [])) ownState (.textString b!"a<b" b!"s") = (s, .ok 1) :=
  ⟨_, pair_eq _ (by decide +kernel)⟩

theorem throwing_test (env : Env) (s s1 : St) (argv : List Str) (h : runCall env s (.textString b!"a<b" b!"s") = (s1, .ok 1)) :
    ∀ s' c, ¬ FailsIn env (throwingTest argv) s s' c := by
  intro s' c hf
  rw [throwingTest, FailsIn, h] at hf
  exact hf

/-- A test that throws after a measurement. -/
example : CallLoses (strict reference) (smallEnv []) twoWorld [] ⟨throwingTest, 9, withBaseline, id, id⟩ 0 :=
  C126_own_end _ _ _ [] (fresh twoWorld) rfl ⟨throwingTest, 9, withBaseline, id, id⟩ { unmatched := 1, inFileName := b!"b" } [b!"prog"] ownState (parse_small 1)
    (pair_eq (beginMeasurement (withXML (strict reference) (smallEnv [])) ⟨{ unmatched := 1, inFileName := b!"b" }, twoWorld⟩) (by decide +kernel))
    (own_call.elim fun s hs => throwing_test _ ownState s [b!"prog"] hs)

/-- An image comparison that throws while the difference is reported: two visitors. -/
example : CallLoses (strict reference) throwingImages imageWorld [] imageRun 2 := by
  have hr : (runCall (withXML (strict reference) throwingImages) imageState (.fileITK b!"i" b!"n")).2 = .error (.thrown "x") := by decide +kernel
  refine C126_difference_fails _ _ _ [] (fresh imageWorld) rfl imageRun { unmatched := 1, inFileName := b!"b" } [b!"prog"] imageState imageState (.fileITK b!"i" b!"n") (parse_small 1)
    (pair_eq (beginMeasurement (withXML (strict reference) throwingImages) ⟨{ unmatched := 1, inFileName := b!"b" }, imageWorld⟩) (by decide +kernel)) ?_
    (recordedMeas (.fileITK b!"i" b!"n")) (recordedMeas (.fileITK b!"i" b!"n")) (by decide +kernel) (by decide +kernel) false (by decide +kernel)
  show FailsIn _ (.call (.fileITK b!"i" b!"n") fun _ => .ret 0) imageState imageState _
  rw [FailsIn, pair_eq _ hr]
  exact ⟨rfl, rfl⟩

example : CallLoses (strict reference) throwingImages imageWorld [] imageRun 2 := by
  have hr : (runCall (withXML (strict reference) throwingImages) imageState (.fileITK b!"i" b!"n")).2 = .error (.thrown "x") := by decide +kernel
  refine C126_image_exception _ _ _ rfl _ [] (fresh imageWorld) rfl imageRun { unmatched := 1, inFileName := b!"b" } [b!"prog"] imageState imageState b!"i" b!"n" (parse_small 1)
    (pair_eq (beginMeasurement (withXML (strict reference) throwingImages) ⟨{ unmatched := 1, inFileName := b!"b" }, imageWorld⟩) (by decide +kernel)) ?_
    { type := b!"image/itk", name := b!"n", fileName := b!"i" } (by decide +kernel)
  show FailsIn _ (.call (.fileITK b!"i" b!"n") fun _ => .ret 0) imageState imageState _
  rw [FailsIn, pair_eq _ hr]
  exact ⟨rfl, rfl⟩

/-- A world with a baseline of the least integer. -/
def leastWorld : World := { smallWorld with bytes := fun n => if n = b!"b" then header plainWorld ++ line (recordedMeas (.integer (-2147483648) b!"n" true)) ++ footer else [] }

/-- A test that measures 5. -/
def leastRun : Run := ⟨fun _ => .call (.integer 5 b!"n" true) fun _ => .ret 0, 9, withBaseline, id, id⟩

/-- The state when it begins. -/
def leastState : St := (beginMeasurement (withXML (strict reference) (smallEnv [])) ⟨{ unmatched := 1, inFileName := b!"b" }, leastWorld⟩).1

/-- The comparison with tolerance is undefined: the compare visitor is left. -/
example : CallLoses (strict reference) (smallEnv []) leastWorld [] leastRun 1 := by
  have hr : (runCall (withXML (strict reference) (smallEnv [])) leastState (.integer 5 b!"n" true)).2 = .error (.ub "int overflow in lm - rm or abs") := by decide +kernel
  refine C126_comparison_fails _ _ _ [] (fresh leastWorld) rfl leastRun { unmatched := 1, inFileName := b!"b" } [b!"prog"] leastState leastState (.integer 5 b!"n" true) (parse_small 1)
    (pair_eq (beginMeasurement (withXML (strict reference) (smallEnv [])) ⟨{ unmatched := 1, inFileName := b!"b" }, leastWorld⟩) (by decide +kernel)) ?_
    (recordedMeas (.integer (-2147483648) b!"n" true)) (recordedMeas (.integer (-2147483648) b!"n" true)) (by decide +kernel) (by decide +kernel)
    (.ub "int overflow in lm - rm or abs") (by decide +kernel)
  show FailsIn _ (.call (.integer 5 b!"n" true) fun _ => .ret 0) leastState leastState _
  rw [FailsIn, pair_eq _ hr]
  exact ⟨rfl, rfl⟩

/-- Two objects for one call with an exception. -/
example : ∃ n, Loses (visits (strict reference) throwingImages [imageRun] (fresh imageWorld) {}).log n ∧ n ≤ 2 := by
  obtain ⟨n, h1, h2⟩ := C126_bound (strict reference) throwingImages [imageRun] imageWorld
  have : faults (withXML (strict reference) throwingImages) [imageRun] (fresh imageWorld) = 1 := by decide +kernel
  exact ⟨n, h1, by omega⟩

end Verif.Life
