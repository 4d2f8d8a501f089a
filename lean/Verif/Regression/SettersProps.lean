import Verif.Regression.SettersSpec
import Verif.Regression.ArgsProps

/-!
# Property C135: options and setters
-/

namespace Verif.Regression
open Verif.Path (FileSys isFile isReadable isWritable isDirectory)
open Spec

theorem afterSetters_options : ∀ (ps : List (Str × Str)) (o : Obj), (∀ p ∈ ps, IsOption p.1) →
    afterSetters (ps.filterMap setterFor) o =
      { o with
          expected := (match lastValue b!"-R" ps with | none => o.expected | some v => strtolInt v)
          searchPath := (values b!"-P" ps).reverse ++ o.searchPath
          inFileName := (match lastValue b!"-I" ps with | none => o.inFileName | some v => v)
          outFileName := (match lastValue b!"-O" ps with | none => o.outFileName | some v => v) } := by
  intro ps
  induction ps using List.reverseRecOn with
  | nil => intro o _; simp [lastValue, values, afterSetters]
  | append_singleton ps p ih =>
    intro o h
    have ih := ih o (fun q hq => h q (by simp [hq]))
    have hp := h p (by simp)
    obtain ⟨x, v⟩ := p
    rw [List.filterMap_append, afterSetters, List.foldl_append]
    rw [afterSetters] at ih
    rw [ih]
    rcases hp with rfl | rfl | rfl | rfl <;>
      simp [setterFor, Setter.on, lastValue, values, List.filter_append, List.filter_cons]

/-- **C135.** Giving `Main` options, or calling before it the setters that stand for them, in the same order, is the same: same result, same output, same files, same object afterwards. -/
theorem C135_options_are_setters (env : Env) (test : List Str → Prog) (fuel fuel' : Nat) (s : St) (prog : Str) (ps : List (Str × Str)) (args : List Str)
    (hopt : ∀ p ∈ ps, IsOption p.1) (href : ∀ p ∈ ps, ¬ Refused s.world.fs p) (hstop : Stops args) (hfuel : ps.length < fuel) (hfuel' : 0 < fuel')
    (hout : ∀ v, lastValue b!"-O" ps = some v → isFile s.world.fs v = true → isWritable s.world.fs v = true) :
    main env test fuel (prog :: (flat ps ++ args)) s = main env test fuel' (prog :: args) { s with obj := afterSetters (ps.filterMap setterFor) s.obj } := by
  have h1 := C35_options_removed s.world.fs fuel { s.obj with unmatched := s.obj.unmatched + 1 } prog ps args hopt href hstop hfuel
  have h2 := fun o => C35_options_removed s.world.fs fuel' o prog [] args (by simp) (by simp) hstop hfuel'
  simp only [flat, List.nil_append, lastValue, values, List.filter_nil, List.map_nil, List.getLast?_nil, List.reverse_nil] at h2
  rw [afterSetters_options ps s.obj hopt]
  have h1' : parseArguments s.world.fs fuel { s.obj with unmatched := s.obj.unmatched + 1 } (prog :: (flat ps ++ args)) =
      ({ s.obj with
          unmatched := s.obj.unmatched + 1
          expected := (match lastValue b!"-R" ps with | none => s.obj.expected | some v => strtolInt v)
          searchPath := (values b!"-P" ps).reverse ++ s.obj.searchPath
          inFileName := (match lastValue b!"-I" ps with | none => s.obj.inFileName | some v => v)
          outFileName := (match lastValue b!"-O" ps with | none => s.obj.outFileName | some v => v) }, .ok (prog :: args)) := by
    rw [h1]
    cases hl : lastValue b!"-O" ps with
    | none => rfl
    | some v =>
      have hb : (isFile s.world.fs v && !isWritable s.world.fs v) = false := by
        cases hf : isFile s.world.fs v
        · rfl
        · rw [hout v hl hf]; rfl
      simp only [hb, Bool.false_eq_true, if_false]
      rfl
  have key : tryBlock env test fuel (prog :: (flat ps ++ args)) s = tryBlock env test fuel' (prog :: args)
      { s with obj := { s.obj with
          expected := (match lastValue b!"-R" ps with | none => s.obj.expected | some v => strtolInt v)
          searchPath := (values b!"-P" ps).reverse ++ s.obj.searchPath
          inFileName := (match lastValue b!"-I" ps with | none => s.obj.inFileName | some v => v)
          outFileName := (match lastValue b!"-O" ps with | none => s.obj.outFileName | some v => v) } } := by
    rw [tryBlock, tryBlock]
    simp only
    rw [h1', h2]
  rw [main, main, key]

end Verif.Regression
