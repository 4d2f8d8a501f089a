import Verif.Parallel.SharedLost

/-!
# The hypotheses of C124 are met
-/

namespace Verif.Parallel
open Verif.Path (isFile isReadable isWritable isDirectory searchPathList)
open Spec Verif.Regression Verif.Regression.Spec Verif.Measurement Verif.Xml Verif.Xml.Spec

/-- The files of a plain world. -/
def plainFiles : Files := ⟨plainWorld.fs, plainWorld.bytes, plainWorld.creatable⟩

/-- What a process that has ended returned. -/
def Stage.value : Stage → Option Int
  | .ended (.ok v) => some v
  | _ => none

theorem stage_value {s : Stage} {v : Int} (h : s.value = some v) : s = .ended (.ok v) := by
  rcases s with _ | _ | _ | _ | _ | (_ | w)
  all_goals first | (cases h; rfl) | cases h

theorem plain_output : CanBeOutput plainFiles b!"f" := ⟨Or.inl rfl, rfl, rfl⟩

/-- Two times of the same length. -/
def timeOf (b : Bool) : Str := if b then b!"Thu Jan  1 00:00:59 1970\n" else b!"Thu Jan  1 00:01:07 1970\n"

/-- Turns: both open the file, write in turns, and pieces of the buffers get into the file. -/
def mixed : List (Turn Bool) :=
  [.step true, .step true, .step false, .step false, .step true, .step false, .flush true 80, .flush false 81, .step false, .step true, .step false, .flush false 15, .step false, .step true,
    .step true, .step true, .flush true 400, .step false, .flush false 400]

/-- The same two measurements are recorded by two runs at times one digit of which is different: both return 0, and what is left can be read. -/
example : ((turns b!"f" mixed (begin plainFiles fun i => recordingRun reference (smallEnv []) 0 twoCalls 9 b!"t" b!"f" b!"host" (timeOf i))).procs true).stage = .ended (.ok 0) ∧
    readXML reference ((turns b!"f" mixed (begin plainFiles fun i => recordingRun reference (smallEnv []) 0 twoCalls 9 b!"t" b!"f" b!"host" (timeOf i))).files.bytes b!"f") = .ok (twoCalls.map recordedMeas) := by
  have h := C124_same_measurements reference reference_conforms (smallEnv []) 0 twoCalls two_clean 9 (by decide) (fun _ => b!"t") b!"f" b!"host" timeOf 25 (by decide) (by decide) plainFiles (by decide)
    plain_output (fun _ => rfl) (fun i => ⟨by cases i <;> decide, noDouble_spec _ (by cases i <;> decide), by cases i <;> decide⟩) mixed _ rfl
    (fun i => ⟨.ok 0, stage_value (by cases i <;> decide +kernel)⟩) (by decide +kernel)
  exact ⟨h.1 true, h.2⟩

/-- A recording of two measurements, or of none. -/
def unequal (b : Bool) : Start := recordingRun reference (smallEnv []) 0 (if b then twoCalls else []) 9 b!"t" b!"f" b!"host" (timeOf b)

theorem unequal_records (i : Bool) : Records plainFiles b!"f" (unequal i) := by
  refine ⟨b!"t", [(b!"-O", b!"f")], [], rfl, ?_, ?_, ?_, ?_, ?_, ?_, rfl, rfl, rfl, ?_⟩
  · simp [IsOption]
  · simp [Refused]
  · simp [Stops]
  · show 1 < 9; decide
  · simp [lastValue]
  · simp [lastValue]
  · cases i
    · exact True.intro
    · exact fun _ _ => True.intro

/-- **C124, negative.** Two runs that record different measurements to the same new file at the same time (both open it, then one writes all, then the other) both return 0, but what is left in the
file can not be read, and a later run that has it as baseline returns -1, whatever its test does. -/
theorem C124_unreadable (z : Shared Bool) (hz : turns b!"f" (collision 12 1000) (begin plainFiles unequal) = z) : (∀ i, (z.procs i).stage = .ended (.ok 0)) ∧ (∀ i, (z.stream i).pending = []) ∧
    readXML reference (z.files.bytes b!"f") = .error (.thrown "parse error") ∧
    ∀ test : List Str → Prog, (main (withXML reference (smallEnv [])) test 9 [b!"t", b!"-I", b!"f"]
      (({ env := withXML reference (smallEnv []), test := test, fuel := 9, argv := [b!"t", b!"-I", b!"f"] } : Start).state z.files)).2 = .ok (-1) := by
  subst hz
  have hr : readXML reference ((turns b!"f" (collision 12 1000) (begin plainFiles unequal)).files.bytes b!"f") = .error (.thrown "parse error") := by decide +kernel
  refine ⟨fun i => stage_value (by cases i <;> decide +kernel), by decide +kernel, hr, fun test => ?_⟩
  have h1 : (turns b!"f" (collision 12 1000) (begin plainFiles unequal)).files.fs.stat b!"f" = some .regular := by decide +kernel
  have h2 : (turns b!"f" (collision 12 1000) (begin plainFiles unequal)).files.fs.canRead b!"f" = true := by decide +kernel
  generalize (turns b!"f" (collision 12 1000) (begin plainFiles unequal)).files = g at hr h1 h2
  have e1 : isFile g.fs b!"f" = true := by simp [isFile, h1, show cstr b!"f" = b!"f" by decide]
  have e2 : isReadable g.fs b!"f" = true := by simp [isReadable, isDirectory, h1, h2, show cstr b!"f" = b!"f" by decide]
  obtain ⟨s, hs⟩ : ∃ s, s = ({ env := withXML reference (smallEnv []), test := test, fuel := 9, argv := [b!"t", b!"-I", b!"f"] } : Start).state g := ⟨_, rfl⟩
  rw [← hs]
  have ho : s.obj = {} := by rw [hs]; rfl
  have hfs : s.world.fs = g.fs := by rw [hs]; rfl
  have hb : s.world.bytes = g.bytes := by rw [hs]; rfl
  have hp : parseArguments s.world.fs 9 { s.obj with unmatched := s.obj.unmatched + 1 } [b!"t", b!"-I", b!"f"] = ({ unmatched := 1, inFileName := b!"f" }, .ok [b!"t"]) := by
    have := C35_options_removed g.fs 9 { unmatched := 1 } b!"t" [(b!"-I", b!"f")] [] (by simp [IsOption]) (by simp [Refused, e1, e2]) (by simp [Stops]) (by simp)
    rw [ho, hfs]
    simpa [flat, lastValue, values, show ¬ (b!"-I" : Str) = b!"-R" by decide, show ¬ (b!"-I" : Str) = b!"-P" by decide, show ¬ (b!"-I" : Str) = b!"-O" by decide] using this
  have hopen : s.world.openRead b!"f" = some (g.bytes b!"f") := by
    rw [World.openRead, hfs, hb, show cstr b!"f" = b!"f" by decide, if_pos ⟨h1, h2⟩]
  have hbegin : beginMeasurement (withXML reference (smallEnv [])) ⟨{ unmatched := 1, inFileName := b!"f" }, s.world⟩ =
      (⟨{ unmatched := 1, inFileName := b!"f", is := some (g.bytes b!"f") }, s.world⟩, .error (.thrown "parse error")) := by
    have h3 : openInput ⟨{ unmatched := 1, inFileName := b!"f" }, s.world⟩ = (⟨{ unmatched := 1, inFileName := b!"f", is := some (g.bytes b!"f") }, s.world⟩, .ok ()) := by
      have hs0 : (⟨{ unmatched := 1, inFileName := b!"f" }, s.world⟩ : St).obj.searched s.world.fs = [] := rfl
      simp only [openInput, ne_eq, List.cons_ne_nil, not_false_eq_true, if_true, hs0, hopen]
    have h4 : openOutput ⟨{ unmatched := 1, inFileName := b!"f" }, s.world⟩ = (⟨{ unmatched := 1, inFileName := b!"f" }, s.world⟩, .ok ()) := by simp [openOutput]
    rw [beginMeasurement, h4]
    simp only [Res.andThen, h3]
    simp [startOrRead, St.compareMode, withXML, hr]
  simp [main, tryBlock, hp, hbegin, mainValue]

end Verif.Parallel
