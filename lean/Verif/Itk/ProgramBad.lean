import Verif.Itk.ProgramExpected

/-!
# C110: the image comparison program with arguments that it does not understand, and `-R 1`
-/

namespace Verif.Itk
open Spec Verif.Regression Verif.Regression.Spec Verif.Measurement Verif.Path Verif.Path.Spec Verif.Xml

/-- Without a baseline nothing is thrown, whatever the arguments are. -/
theorem loop_returns (env : Env) (rd : Readers) : ∀ (m : Nat) (t : ImgTol) (args : List Str), args.length ≤ m → ∀ (i : Nat) (s : St), s.obj.is = none → s.obj.inFileName = [] →
    ∃ s' v, runProg env (imageLoop rd t i args) s = (s', .ok v) := by
  intro m
  induction m with
  | zero =>
    intro t args h i s _ _
    have : args = [] := List.length_eq_zero_iff.mp (by omega)
    subst this
    exact ⟨s, 0, by rw [imageLoop, runProg]⟩
  | succ m ih =>
    intro t args h i s his hin
    cases args with
    | nil => exact ⟨s, 0, by rw [imageLoop, runProg]⟩
    | cons a rest =>
      simp only [List.length_cons] at h
      by_cases ha : a.head? = some 45
      · rw [imageLoop.eq_def]
        simp only
        rw [if_pos ha]
        repeat' split
        all_goals first
          | exact ⟨s, 1, by rw [runProg]⟩
          | (simp only [List.length_cons] at h; exact ih _ _ (by omega) i s his hin)
      · rw [loop_image rd t i a rest ha]
        have hc := Xml.runCall_record env { s with obj := { s.obj with imageTol := t } } (.fileITK a (b!"ImageFile" ++ natText i)) his hin
        obtain ⟨s1, hs1⟩ : ∃ s1, s1 = St.emit { s with obj := { s.obj with imageTol := t } } (line (recordedMeas (.fileITK a (b!"ImageFile" ++ natText i)))) := ⟨_, rfl⟩
        rw [← hs1] at hc
        have ho1 : s1.obj = { s.obj with imageTol := t } := by rw [hs1, emit_obj]
        obtain ⟨s', v, e⟩ := ih t rest (by omega) (i + 1) s1 (by rw [ho1]; exact his) (by rw [ho1]; exact hin)
        exact ⟨s', v, by simp only [runProg, hc]; exact e⟩

/-- **C110, negative.** With arguments that are no images and tolerances, and without `-I` and `-O`, the program returns 1; but with `-R 1` (any text read as 1) it returns 0: a command line that is not
understood passes for success. -/
theorem C110_bad_arguments_expected (env : Env) (rd : Readers) (dataDir : Str) (fuel : Nat) (w : World) (prog : Str) (ps : List (Str × Str)) (args : List Str)
    (hopt : ∀ p ∈ ps, IsOption p.1) (href : ∀ p ∈ ps, ¬ Refused w.fs p) (hstop : Stops args) (hfuel : ps.length < fuel)
    (hi : lastValue b!"-I" ps = none) (ho : lastValue b!"-O" ps = none) (hbad : ¬ ∃ l, Reads rd.real rd.unsigned {} args l) :
    (imageCompare env rd dataDir fuel (prog :: (flat ps ++ args)) w).2 = .ok (if (lastValue b!"-R" ps).map strtolInt = some 1 then 0 else 1) := by
  have hp := C35_options_removed w.fs fuel { itkObject dataDir with unmatched := (itkObject dataDir).unmatched + 1 } prog ps args hopt href hstop hfuel
  rw [hi, ho] at hp
  obtain ⟨o, hoo⟩ : ∃ o, o = (parseArguments w.fs fuel { itkObject dataDir with unmatched := (itkObject dataDir).unmatched + 1 } (prog :: (flat ps ++ args))).1 := ⟨_, rfl⟩
  have hp1 : parseArguments w.fs fuel { itkObject dataDir with unmatched := (itkObject dataDir).unmatched + 1 } (prog :: (flat ps ++ args)) = (o, .ok (prog :: args)) := by rw [hoo, hp]
  rw [hp] at hoo
  have o1 : o.is = none ∧ o.inFileName = [] ∧ o.outFileName = [] ∧ o.os = none := by
    rw [hoo]; exact ⟨rfl, rfl, rfl, rfl⟩
  obtain ⟨o1, o2, o3, o4⟩ := o1
  have hbegin : beginMeasurement env ⟨o, w⟩ = (⟨o, { w with cout := w.cout ++ header w }⟩, .ok ()) := by
    have hc : St.compareMode ⟨o, w⟩ = false := Xml.recording _ o1 o2
    simp only [beginMeasurement, openOutput, openInput, o2, o3, ne_eq, not_true_eq_false, if_false, Res.andThen, startOrRead, hc, Bool.false_eq_true, St.emit, o4]
  obtain ⟨s1, hs1⟩ : ∃ s1 : St, s1 = { obj := o, world := { w with cout := w.cout ++ header w } } := ⟨_, rfl⟩
  rw [← hs1] at hbegin
  obtain ⟨s2, v, hrun⟩ := loop_returns env rd _ {} args (Nat.le_refl _) 0 s1 (by rw [hs1]; exact o1) (by rw [hs1]; exact o2)
  have hrun' : runProg env (imageTest rd (prog :: args)) s1 = (s2, .ok v) := hrun
  have hv : v = 1 := C73_bad_arguments rd env prog args hbad s1 v (by rw [hrun'])
  subst hv
  have hlast := C41_record_lines env (imageTest rd (prog :: args)) s1 (by rw [hs1]; exact o1) (by rw [hs1]; exact o2) ((loop_settled rd _ _ _ _ (Nat.le_refl _)).2 _)
  rw [hrun'] at hlast
  obtain ⟨-, q1, q2, q3⟩ := hlast
  simp only at q1 q2 q3
  have q1' : s2.obj.os = none := by rw [q1, hs1]; exact o4
  have hrec := Xml.recording s2 q2 q3
  have hstay := (C46_options_stay env (imageTest rd) fuel ⟨itkObject dataDir, w⟩ prog ps args hopt href hstop hfuel (loop_settled rd _ _ _ _ (Nat.le_refl _)).1).1
  have key : tryBlock env (imageTest rd) fuel (prog :: (flat ps ++ args)) ⟨itkObject dataDir, w⟩ =
      (⟨{ s2.obj with os := none, is := none, unmatched := s2.obj.unmatched - 1 }, { s2.world with cout := s2.world.cout ++ footer }⟩, 1, none) := by
    simp only [tryBlock, hp1, hbegin, hrun', endMeasurement, hrec, Bool.false_eq_true, if_false, St.emit, q1']
  have hc2 : St.compareMode ⟨{ s2.obj with os := none, is := none, unmatched := s2.obj.unmatched - 1 }, { s2.world with cout := s2.world.cout ++ footer }⟩ = false := Xml.recording _ rfl q3
  have hstay : s2.obj.expected = match lastValue b!"-R" ps with | some v => strtolInt v | none => 0 := by
    simp only [main, key] at hstay
    rw [hstay]
    cases lastValue b!"-R" ps <;> rfl
  have hmain : mainValue ⟨{ s2.obj with os := none, is := none, unmatched := s2.obj.unmatched - 1 }, { s2.world with cout := s2.world.cout ++ footer }⟩ 1 =
      if (lastValue b!"-R" ps).map strtolInt = some 1 then 0 else 1 := by
    rw [mainValue, hc2]
    simp only [hstay]
    cases lastValue b!"-R" ps with
    | none => simp
    | some v =>
      simp only [Option.map_some, Option.some.injEq]
      by_cases h : strtolInt v = 1
      · simp [h]
      · simp [h, Ne.symm h]
  simp only [imageCompare, main, key, hmain]

/-- A mistyped option and a return value that is expected: success. -/
example : (imageCompare rowEnv threes b!"/data" 9 [b!"prog", b!"-R", b!"1", b!"--radiusTolerence", b!"3", b!"a.mha"] rowsDisk).2 = .ok 0 :=
  C110_bad_arguments_expected rowEnv threes b!"/data" 9 rowsDisk b!"prog" [(b!"-R", b!"1")] [b!"--radiusTolerence", b!"3", b!"a.mha"] (by simp [IsOption]) (by
      intro p hp
      simp only [List.mem_cons, List.not_mem_nil, or_false] at hp
      subst hp
      rintro (⟨h, -⟩ | ⟨h, -⟩) <;> revert h <;> decide) (by simp [Stops, IsOption]) (by decide) (by simp [lastValue]) (by simp [lastValue]) (by
      rintro ⟨l, h⟩
      cases h with
      | image t a rest l h => exact h (by decide))

end Verif.Itk
