import Verif.Regression.ArgsProps

/-!
# Property C101: what the error stream says about the command line, tfRegressionTest.cpp:199-290

`parseLoopM` is `parseLoop` with the lines written to `std::cerr` kept.
-/

set_option linter.unusedSimpArgs false

namespace Verif.Regression
open Spec Verif.Path Verif.Measurement

/-- The message about an output file, tfRegressionTest.cpp:214-216. -/
def cannotWrite (fs : FileSys) (v : Str) : List Str :=
  if Path.isFile fs v && !Path.isWritable fs v then [b!"unable to write to file \"" ++ v ++ b!"\"!\n"] else []

/-- The loop of `ParseAndRemoveArguments`, tfRegressionTest.cpp:205-285, with what it writes to `std::cerr`. -/
def parseLoopM (fs : FileSys) : Nat → Obj → Args → List Str × Obj × Except Fault Args
  | 0, o, _ => ([], o, .error .fuel)
  | fuel + 1, o, a =>
    if 1 < a.argc then
      match a.argv[1]? with
      | none => ([], o, .error (.ub "argv out of range"))
      | some opt =>
        if opt = optO then
          if 1 < a.argc - 1 then
            match a.argv[2]? with
            | none => ([], o, .error (.ub "argv out of range"))
            | some v =>
              let out := if Path.isFile fs v && !Path.isWritable fs v then none else some v
              match a.remove 1 with
              | .error f => (cannotWrite fs v, o, .error f)
              | .ok a =>
                let r := parseLoopM fs fuel o { a with outfname := out }
                (cannotWrite fs v ++ r.1, r.2)
          else parseLoopM fs fuel o a
        else if opt = optI then
          if 1 < a.argc - 1 then
            match a.argv[2]? with
            | none => ([], o, .error (.ub "argv out of range"))
            | some v =>
              if !Path.isFile fs v || !Path.isReadable fs v then ([], o, .error (.thrown "unable to read input file"))
              else match a.remove 1 with
                | .error f => ([], o, .error f)
                | .ok a => parseLoopM fs fuel o { a with infname := some v }
          else parseLoopM fs fuel o a
        else if opt = optR then
          if 1 < a.argc - 1 then
            match a.argv[2]? with
            | none => ([], o, .error (.ub "argv out of range"))
            | some v =>
              match a.remove 1 with
              | .error f => ([], o, .error f)
              | .ok a => parseLoopM fs fuel { o with expected := strtolInt v } a
          else parseLoopM fs fuel o a
        else if opt = optP then
          if 1 < a.argc - 1 then
            match a.argv[2]? with
            | none => ([], o, .error (.ub "argv out of range"))
            | some v =>
              if !Path.isDirectory fs v || !Path.isReadable fs v then ([], o, .error (.thrown "unable to read input path"))
              else match a.remove 1 with
                | .error f => ([], o, .error f)
                | .ok a => parseLoopM fs fuel { o with searchPath := v :: o.searchPath } a
          else parseLoopM fs fuel o a
        else ([], o, .ok a)
    else ([], o, .ok a)

/-- `ParseAndRemoveArguments`, tfRegressionTest.cpp:199-290: what it writes to `std::cerr`, the object afterwards and the arguments that
remain. -/
def parseArgumentsM (fs : FileSys) (fuel : Nat) (o : Obj) (argv : List Str) : List Str × Obj × Except Fault (List Str) :=
  match parseLoopM fs fuel o { argc := argv.length, argv := argv } with
  | (ms, o, .error f) => (ms, o, .error f)
  | (ms, o, .ok a) =>
    let o := match a.infname with | some n => { o with inFileName := n } | none => o
    let o := match a.outfname with | some n => { o with outFileName := n } | none => o
    (ms, o, .ok (a.argv.take a.argc))

theorem parseLoopM_snd (fs : FileSys) : ∀ (fuel : Nat) (o : Obj) (a : Args), (parseLoopM fs fuel o a).2 = parseLoop fs fuel o a := by
  intro fuel
  induction fuel with
  | zero => intro o a; rfl
  | succ n ih =>
    intro o a
    rw [parseLoopM, parseLoop]
    by_cases h1 : 1 < a.argc
    · rw [if_pos h1, if_pos h1]
      cases a.argv[1]? with
      | none => rfl
      | some opt =>
        simp only
        by_cases h2 : opt = optO
        · rw [if_pos h2, if_pos h2]
          by_cases h3 : 1 < a.argc - 1
          · rw [if_pos h3, if_pos h3]
            cases a.argv[2]? with
            | none => rfl
            | some v =>
              simp only
              cases a.remove 1 with
              | error f => rfl
              | ok a => exact ih _ _
          · rw [if_neg h3, if_neg h3]; exact ih _ _
        rw [if_neg h2, if_neg h2]
        by_cases h2 : opt = optI
        · rw [if_pos h2, if_pos h2]
          by_cases h3 : 1 < a.argc - 1
          · rw [if_pos h3, if_pos h3]
            cases a.argv[2]? with
            | none => rfl
            | some v =>
              simp only
              by_cases h4 : (!isFile fs v || !isReadable fs v) = true
              · rw [if_pos h4, if_pos h4]
              rw [if_neg h4, if_neg h4]
              cases a.remove 1 with
              | error f => rfl
              | ok a => exact ih _ _
          · rw [if_neg h3, if_neg h3]; exact ih _ _
        rw [if_neg h2, if_neg h2]
        by_cases h2 : opt = optR
        · rw [if_pos h2, if_pos h2]
          by_cases h3 : 1 < a.argc - 1
          · rw [if_pos h3, if_pos h3]
            cases a.argv[2]? with
            | none => rfl
            | some v =>
              simp only
              cases a.remove 1 with
              | error f => rfl
              | ok a => exact ih _ _
          · rw [if_neg h3, if_neg h3]; exact ih _ _
        rw [if_neg h2, if_neg h2]
        by_cases h2 : opt = optP
        · rw [if_pos h2, if_pos h2]
          by_cases h3 : 1 < a.argc - 1
          · rw [if_pos h3, if_pos h3]
            cases a.argv[2]? with
            | none => rfl
            | some v =>
              simp only
              by_cases h4 : (!isDirectory fs v || !isReadable fs v) = true
              · rw [if_pos h4, if_pos h4]
              rw [if_neg h4, if_neg h4]
              cases a.remove 1 with
              | error f => rfl
              | ok a => exact ih _ _
          · rw [if_neg h3, if_neg h3]; exact ih _ _
        rw [if_neg h2, if_neg h2]
    · rw [if_neg h1, if_neg h1]

/-- **C101.** Keeping what is written to the error stream does not change what is parsed. -/
theorem C101_same_parser (fs : FileSys) (fuel : Nat) (o : Obj) (argv : List Str) :
    (parseArgumentsM fs fuel o argv).2 = parseArguments fs fuel o argv := by
  have h := parseLoopM_snd fs fuel o { argc := argv.length, argv := argv }
  rw [parseArgumentsM, parseArguments, ← h]
  rcases parseLoopM fs fuel o { argc := argv.length, argv := argv } with ⟨ms, o, e | a⟩ <;> rfl

theorem parseArgumentsM_fst (fs : FileSys) (fuel : Nat) (o : Obj) (argv : List Str) :
    (parseArgumentsM fs fuel o argv).1 = (parseLoopM fs fuel o { argc := argv.length, argv := argv }).1 := by
  rw [parseArgumentsM]
  rcases parseLoopM fs fuel o { argc := argv.length, argv := argv } with ⟨ms, o, e | a⟩ <;> rfl

theorem loop_pairM (fs : FileSys) (n : Nat) (o : Obj) (a : Args) (prog x v : Str) (r : List Str)
    (h : View a prog (x :: v :: r)) (hx : IsOption x) :
    (Refused fs (x, v) → (parseLoopM fs (n + 1) o a).1 = []) ∧
    (¬ Refused fs (x, v) → ∃ o' a', View a' prog r ∧
      (parseLoopM fs (n + 1) o a).1 = (if x = optO then cannotWrite fs v else []) ++ (parseLoopM fs n o' a').1) := by
  obtain ⟨argv, hrem, hview⟩ := remove_spec h
  obtain ⟨⟨junk, e⟩, hc⟩ := h
  have hc1 : 1 < a.argc := by rw [hc]; simp
  have hc2 : 1 < a.argc - 1 := by rw [hc]; simp
  have g1 : a.argv[1]? = some x := by rw [e]; simp
  have g2 : a.argv[2]? = some v := by rw [e]; simp
  have hv0 := hview a.infname a.outfname
  have nOI : optO ≠ optI := by decide
  have nOR : optO ≠ optR := by decide
  have nOP : optO ≠ optP := by decide
  have nIR : optI ≠ optR := by decide
  have nIP : optI ≠ optP := by decide
  have nRP : optR ≠ optP := by decide
  rw [parseLoopM, if_pos hc1]
  simp only [g1, g2, if_pos hc2, hrem]
  have hx : x = optO ∨ x = optI ∨ x = optR ∨ x = optP := hx
  rcases hx with rfl | rfl | rfl | rfl
  · refine ⟨fun hr => ?_, fun _ => ⟨o, _, hview a.infname (if isFile fs v && !isWritable fs v then none else some v), ?_⟩⟩
    · rcases hr with ⟨h1, _⟩ | ⟨h1, _⟩
      · exact absurd h1 nOI
      · exact absurd h1 nOP
    · simp only [if_true]
  · simp only [if_neg nOI.symm, if_true, List.nil_append]
    refine ⟨fun hr => ?_, fun hr => ?_⟩
    · rcases hr with ⟨_, h2⟩ | ⟨h1, _⟩
      · rw [if_pos]
        cases h : isFile fs v <;> cases h' : isReadable fs v <;> simp_all
      · exact absurd h1 nIP
    · have : isFile fs v = true ∧ isReadable fs v = true := by
        by_contra hh; exact hr (Or.inl ⟨rfl, hh⟩)
      rw [if_neg (by simp [this])]
      exact ⟨o, _, hview (some v) a.outfname, rfl⟩
  · simp only [if_neg nOR.symm, if_neg nIR.symm, if_true, List.nil_append]
    refine ⟨fun hr => ?_, fun _ => ⟨_, _, hv0, rfl⟩⟩
    rcases hr with ⟨h1, _⟩ | ⟨h1, _⟩
    · exact absurd h1 nIR.symm
    · exact absurd h1 nRP
  · simp only [if_neg nOP.symm, if_neg nIP.symm, if_neg nRP.symm, if_true, List.nil_append]
    refine ⟨fun hr => ?_, fun hr => ?_⟩
    · rcases hr with ⟨h1, _⟩ | ⟨_, h2⟩
      · exact absurd h1 nIP.symm
      · rw [if_pos]
        cases h : isDirectory fs v <;> cases h' : isReadable fs v <;> simp_all
    · have : isDirectory fs v = true ∧ isReadable fs v = true := by
        by_contra hh; exact hr (Or.inr ⟨rfl, hh⟩)
      rw [if_neg (by simp [this])]
      exact ⟨_, _, hv0, rfl⟩

theorem loop_danglingM (fs : FileSys) (o : Obj) (a : Args) (prog x : Str) (h : View a prog [x]) (hx : IsOption x) :
    ∀ n, (parseLoopM fs n o a).1 = []
  | 0 => rfl
  | n + 1 => by
    obtain ⟨⟨junk, e⟩, hc⟩ := id h
    have hc1 : 1 < a.argc := by rw [hc]; simp
    have hc2 : ¬ 1 < a.argc - 1 := by rw [hc]; simp
    have g1 : a.argv[1]? = some x := by rw [e]; simp
    rw [parseLoopM, if_pos hc1]
    simp only [g1, if_neg hc2]
    have ih := loop_danglingM fs o a prog x h hx n
    rcases hx with rfl | rfl | rfl | rfl <;> simp [optO, optI, optR, optP, ih]

theorem loop_stopM (fs : FileSys) (n : Nat) (o : Obj) (a : Args) (prog : Str) (rest : List Str) (h : View a prog rest)
    (hs : Stops rest) : (parseLoopM fs n o a).1 = [] := by
  obtain ⟨⟨junk, e⟩, hc⟩ := h
  cases n with
  | zero => rfl
  | succ n =>
  cases rest with
  | nil => rw [parseLoopM, if_neg (by rw [hc]; simp)]
  | cons x r =>
    have hx : ¬ IsOption x := hs x (by simp)
    have g1 : a.argv[1]? = some x := by rw [e]; simp
    rw [parseLoopM, if_pos (by rw [hc]; simp)]
    simp only [g1]
    simp only [IsOption, not_or] at hx
    rw [if_neg (show x ≠ optO from hx.1), if_neg (show x ≠ optI from hx.2.1), if_neg (show x ≠ optR from hx.2.2.1),
      if_neg (show x ≠ optP from hx.2.2.2)]

/-- **C101.** What the error stream says about the command line.  Every command line is pairs of an option and a value that are not refused, followed by
one of three: a refused pair, an option without a value, or a rest that does not begin with an option.  In each case there is exactly one line
for each `-O` whose value is an existing file that cannot be written, in order, and nothing else. -/
theorem C101_messages (fs : FileSys) (fuel : Nat) (o : Obj) (prog : Str) (ps : List (Str × Str)) (rest : List Str)
    (hopt : ∀ p ∈ ps, IsOption p.1) (href : ∀ p ∈ ps, ¬ Refused fs p)
    (hrest : Stops rest ∨ (∃ x, rest = [x] ∧ IsOption x) ∨ (∃ x v r, rest = x :: v :: r ∧ Refused fs (x, v)))
    (hfuel : ps.length < fuel) :
    (parseArgumentsM fs fuel o (prog :: (flat ps ++ rest))).1 =
      ((values b!"-O" ps).filter fun v => isFile fs v && !isWritable fs v).map fun v => b!"unable to write to file \"" ++ v ++ b!"\"!\n" := by
  rw [parseArgumentsM_fst]
  have key : ∀ (ps : List (Str × Str)) (fuel : Nat) (o : Obj) (a : Args), View a prog (flat ps ++ rest) → (∀ p ∈ ps, IsOption p.1) →
      (∀ p ∈ ps, ¬ Refused fs p) → ps.length < fuel → (parseLoopM fs fuel o a).1 =
      ((values b!"-O" ps).filter fun v => isFile fs v && !isWritable fs v).map fun v => b!"unable to write to file \"" ++ v ++ b!"\"!\n" := by
    intro ps
    induction ps with
    | nil =>
      intro fuel o a hv _ _ hf
      obtain ⟨n, rfl⟩ : ∃ n, fuel = n + 1 := ⟨fuel - 1, by simp only [List.length_nil] at hf; omega⟩
      rcases hrest with h | ⟨x, rfl, hx⟩ | ⟨x, v, r, rfl, hr⟩
      · exact loop_stopM fs _ o a prog rest hv h
      · exact loop_danglingM fs o a prog x hv hx _
      · refine (loop_pairM fs n o a prog x v r hv ?_).1 hr
        rcases hr with ⟨h, _⟩ | ⟨h, _⟩
        · exact .inr (.inl h)
        · exact .inr (.inr (.inr h))
    | cons p ps ih =>
      obtain ⟨x, v⟩ := p
      intro fuel o a hv h1 h2 hf
      obtain ⟨n, rfl⟩ : ∃ n, fuel = n + 1 := ⟨fuel - 1, by simp only [List.length_cons] at hf; omega⟩
      obtain ⟨o', a', hv', he⟩ := (loop_pairM fs n o a prog x v (flat ps ++ rest) hv (h1 (x, v) (by simp))).2 (h2 (x, v) (by simp))
      rw [he, ih n o' a' hv' (fun p hp => h1 p (by simp [hp])) (fun p hp => h2 p (by simp [hp])) (by simp only [List.length_cons] at hf; omega)]
      by_cases hx : x = optO
      · rw [if_pos hx]
        have hx' : x = b!"-O" := hx
        simp only [values, List.filter_cons, hx', decide_true, if_true, List.map_cons, cannotWrite]
        cases hw : (isFile fs v && !isWritable fs v) <;> simp
      · rw [if_neg hx]
        have hx' : x ≠ b!"-O" := hx
        simp [values, List.filter_cons, hx']
  exact key ps fuel o _ (view_first _ prog _ rfl) hopt href hfuel

/-- **C101.** The theorem above speaks about every command line. -/
theorem C101_every_command_line (fs : FileSys) (args : List Str) : ∃ ps rest, args = flat ps ++ rest ∧ (∀ p ∈ ps, IsOption p.1) ∧
    (∀ p ∈ ps, ¬ Refused fs p) ∧
    (Stops rest ∨ (∃ x, rest = [x] ∧ IsOption x) ∨ (∃ x v r, rest = x :: v :: r ∧ Refused fs (x, v))) := by
  have key : ∀ (n : Nat) (args : List Str), args.length ≤ n → ∃ ps rest, args = flat ps ++ rest ∧ (∀ p ∈ ps, IsOption p.1) ∧
    (∀ p ∈ ps, ¬ Refused fs p) ∧
    (Stops rest ∨ (∃ x, rest = [x] ∧ IsOption x) ∨ (∃ x v r, rest = x :: v :: r ∧ Refused fs (x, v))) := by
    intro n
    induction n with
    | zero =>
      intro args h
      have : args = [] := List.length_eq_zero_iff.mp (by omega)
      subst this
      exact ⟨[], [], rfl, by simp, by simp, .inl (by simp [Stops])⟩
    | succ n ih =>
      intro args h
      match args, h with
      | [], _ => exact ⟨[], [], rfl, by simp, by simp, .inl (by simp [Stops])⟩
      | [x], _ =>
        by_cases hx : IsOption x
        · exact ⟨[], [x], rfl, by simp, by simp, .inr (.inl ⟨x, rfl, hx⟩)⟩
        · exact ⟨[], [x], rfl, by simp, by simp, .inl (by simpa [Stops] using hx)⟩
      | x :: v :: r, h =>
        by_cases hx : IsOption x
        · by_cases hr : Refused fs (x, v)
          · exact ⟨[], x :: v :: r, rfl, by simp, by simp, .inr (.inr ⟨x, v, r, rfl, hr⟩)⟩
          · obtain ⟨ps, rest, e, h1, h2, h3⟩ := ih r (by simp only [List.length_cons] at h; omega)
            refine ⟨(x, v) :: ps, rest, by simp [flat, e], ?_, ?_, h3⟩
            · intro p hp
              rcases List.mem_cons.mp hp with rfl | hp
              · exact hx
              · exact h1 p hp
            · intro p hp
              rcases List.mem_cons.mp hp with rfl | hp
              · exact hr
              · exact h2 p hp
        · exact ⟨[], x :: v :: r, rfl, by simp, by simp, .inl (by simpa [Stops] using hx)⟩
  exact key args.length args (le_refl _)

/-- **C101.** An output file that cannot be written does not stop the run: with such a `-O` as the last one, one line is written for it, the option is
removed, and the name of the output file stays what it was, even if an earlier `-O` named a file that can be written. -/
theorem C101_output_lost (fs : FileSys) (fuel : Nat) (o : Obj) (prog good bad : Str) (rest : List Str) (hstop : Stops rest)
    (hgood : ¬ (isFile fs good = true ∧ isWritable fs good = false)) (hbad : isFile fs bad = true ∧ isWritable fs bad = false) (hfuel : 2 < fuel) :
    parseArgumentsM fs fuel o (prog :: b!"-O" :: good :: b!"-O" :: bad :: rest) =
      ([b!"unable to write to file \"" ++ bad ++ b!"\"!\n"], o, .ok (prog :: rest)) := by
  have hO : ∀ p ∈ [((b!"-O" : Str), good), (b!"-O", bad)], IsOption p.1 := by
    intro p hp
    simp only [List.mem_cons, List.not_mem_nil, or_false] at hp
    rcases hp with rfl | rfl <;> exact .inl rfl
  have hR : ∀ p ∈ [((b!"-O" : Str), good), (b!"-O", bad)], ¬ Refused fs p := by
    intro p hp
    simp only [List.mem_cons, List.not_mem_nil, or_false] at hp
    rcases hp with rfl | rfl <;> simp [Refused]
  have h1 := C101_messages fs fuel o prog [(b!"-O", good), (b!"-O", bad)] rest hO hR (.inl hstop) (by simpa using hfuel)
  have h2 := C101_same_parser fs fuel o (prog :: b!"-O" :: good :: b!"-O" :: bad :: rest)
  have h3 := C35_options_removed fs fuel o prog [(b!"-O", good), (b!"-O", bad)] rest hO hR hstop (by simpa using hfuel)
  simp only [flat, List.cons_append, List.nil_append] at h1 h3
  rw [h3] at h2
  have hg : (isFile fs good && !isWritable fs good) = false := by
    cases ha : isFile fs good <;> cases hb : isWritable fs good <;> simp_all
  rw [← Prod.eta (parseArgumentsM fs fuel o _), h1, h2]
  simp [values, lastValue, hg, hbad]

/-- The premises are met: "a" can be created, "b" exists and cannot be written. -/
example : parseArgumentsM ⟨fun n => if n = b!"b" then some .regular else none, fun _ => true, fun _ => false, fun _ => false⟩ 9 {}
    [b!"prog", b!"-O", b!"a", b!"-O", b!"b", b!"x"] = ([b!"unable to write to file \"b\"!\n"], {}, .ok [b!"prog", b!"x"]) :=
  C101_output_lost _ 9 {} b!"prog" b!"a" b!"b" [b!"x"] (by simp [Stops, IsOption]) (by decide) (by decide) (by decide)

/-- Two such files, and a refused pair after them: both are reported. -/
example : (parseArgumentsM ⟨fun n => if n = b!"m" then none else some .regular, fun _ => true, fun _ => false, fun _ => false⟩ 9 {}
    [b!"prog", b!"-O", b!"a", b!"-R", b!"1", b!"-O", b!"b", b!"-I", b!"m"]).1 =
      [b!"unable to write to file \"a\"!\n", b!"unable to write to file \"b\"!\n"] :=
  C101_messages _ 9 {} b!"prog" [(b!"-O", b!"a"), (b!"-R", b!"1"), (b!"-O", b!"b")] [b!"-I", b!"m"] (by simp [IsOption]) (by simp [Refused])
    (.inr (.inr ⟨b!"-I", b!"m", [], rfl, .inl ⟨rfl, by decide⟩⟩)) (by decide)

end Verif.Regression
