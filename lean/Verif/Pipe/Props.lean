import Verif.Pipe.Spec

/-!
# Property C53, C66: capturing the output of a command
-/

set_option linter.unusedSimpArgs false

namespace Verif.Pipe
open Spec Verif.Regression Verif.Regression.Spec Verif.Measurement

theorem readLoop_eq (l : List (Source × Str)) : ∀ acc, readLoop l acc = acc ++ (l.map (·.2)).flatten := by
  induction l with
  | nil => intro acc; simp [readLoop]
  | cons x l ih => intro acc; obtain ⟨_, d⟩ := x; simp [readLoop, ih]

theorem echoLoop_from (l : List Str) : ∀ i, 2 ≤ i → echoLoop i l = (l.map (b!" " ++ ·)).flatten := by
  induction l with
  | nil => intro i _; rfl
  | cons a l ih =>
    intro i hi
    have h1 : i ≠ 1 := by omega
    simp [echoLoop, h1, ih (i + 1) (by omega)]

/-- The text between the quotes on the first line. -/
theorem echoLoop_eq (l : List Str) : echoLoop 1 l = commandLine l := by
  cases l with
  | nil => rfl
  | cons a l => simp [echoLoop, commandLine, echoLoop_from l 2 (by decide)]

/-- **C53.** The program makes exactly one measurement, a plain text measurement called "stdout" of everything the command wrote in
order of arrival; when that call returns, the test returns the exit value of a command that exited, and -1 for any other end. -/
theorem C53_captures (env : Env) (launch : Launch) (prog : Str) (args : List Str) (s : St) :
    (∃ w, observed env (test launch (prog :: args)) s = [⟨.textPlain (everything (launch args)) b!"stdout", s.obj.tolerance, s.obj.imageTol, s.obj.searchPath, w⟩]) ∧
    (∀ s' v, runProg env (test launch (prog :: args)) s = (s', .ok v) →
      (∀ x, (launch args).final = .exited x → v = x) ∧ ((∀ x, (launch args).final ≠ .exited x) → v = -1)) ∧
    (∀ s' r, runCall env (announced s args) (.textPlain (everything (launch args)) b!"stdout") = (s', .ok r) →
      ∃ v, runProg env (test launch (prog :: args)) s = (s', .ok v)) := by
  have he : readLoop (launch args).chunks [] = everything (launch args) := by rw [readLoop_eq, everything, List.nil_append]
  refine ⟨?_, ?_, ?_⟩
  · simp only [test, observed, he]
    refine ⟨_, List.cons_eq_cons.mpr ⟨rfl, ?_⟩⟩
    split <;> rfl
  · intro s' v h
    simp only [test, runProg, he] at h
    split at h
    · cases h
    · cases h
      constructor
      · intro x hx; rw [hx]; rfl
      · intro hx
        cases hf : (launch args).final <;> first | rfl | exact absurd hf (hx _)
  · intro s' r h
    simp only [test, runProg, he, toCout, echoLoop_eq]
    rw [announced] at h
    rw [h]
    exact ⟨_, rfl⟩

/-- **C53.** Recording: the measurement goes to the output, after the line on standard output. -/
theorem C53_recorded (env : Env) (launch : Launch) (prog : Str) (args : List Str) (s : St)
    (hrec : (announced s args).compareMode = false) :
    ∃ t v, (Meas.data { kind := .plain, name := b!"stdout", content := everything (launch args) }).print = .ok t ∧
      runProg env (test launch (prog :: args)) s = ((announced s args).emit (t ++ b!"\n"), .ok v) := by
  obtain ⟨t, ht⟩ := print_ok (.data { kind := .plain, name := b!"stdout", content := everything (launch args) })
  have hc : runCall env (announced s args) (.textPlain (everything (launch args)) b!"stdout") =
      ((announced s args).emit (t ++ b!"\n"), .ok 0) := by
    simp only [runCall, hrec, Bool.false_eq_true, if_false, Call.recorded, Call.meas, ht]
  obtain ⟨v, hv⟩ := (C53_captures env launch prog args s).2.2 _ _ hc
  exact ⟨t, v, ht, hv⟩

/-- **C53.** Comparing: exactly one failure if the recorded text of the baseline is not everything the command wrote, none otherwise. -/
theorem C53_compared (env : Env) (launch : Launch) (prog : Str) (args : List Str) (s : St) (bytes content : Str) (rest : List Meas)
    (his : s.obj.is = some bytes)
    (hin : s.obj.input = .data { kind := .plain, name := b!"stdout", content := content } :: rest)
    (hrest : ∀ b ∈ rest, Plainly b) (hub : ¬ IsUB (runProg env (test launch (prog :: args)) s).2) :
    (runProg env (test launch (prog :: args)) s).1.obj.unmatched =
      s.obj.unmatched + (if content = everything (launch args) then 0 else 1) := by
  obtain ⟨⟨w, hobs⟩, _, _⟩ := C53_captures env launch prog args s
  have hpl : ∀ b ∈ s.obj.input, Plainly b := by
    intro b hb
    rw [hin] at hb
    rcases List.mem_cons.mp hb with rfl | hb
    · simp [Plainly]
    · exact hrest b hb
  have h := (C39_positional_count env (test launch (prog :: args)) s bytes his hpl
    (by rw [hobs]; simp [Call.meas, Meas.name]) hub).1
  rw [h, hobs, hin]
  congr 1
  simp only [failures, Nat.add_zero]
  by_cases hc : content = everything (launch args)
  · rw [if_pos hc, if_pos]
    · rfl
    · exact ⟨rfl, rfl, hc⟩
  · rw [if_neg hc, if_neg]
    · rfl
    · rintro ⟨_, _, h⟩; exact hc h

/-- Without an argument list at all (`argc = 0`) the behaviour is undefined. -/
theorem C53_no_argv (env : Env) (launch : Launch) (s : St) : IsUB (runProg env (test launch []) s).2 := ⟨_, rfl⟩

theorem everything_eq_iff (l : List (Source × Str)) :
    (l.map (·.2)).flatten = ((l.filter (fun x => x.1 = .stdout)).map (·.2)).flatten ↔ ∀ x ∈ l, x.1 = .stderr → x.2 = [] := by
  have hlen : ∀ l : List (Source × Str), (((l.filter (fun x => x.1 = .stdout)).map (·.2)).flatten).length ≤ ((l.map (·.2)).flatten).length := by
    intro l
    induction l with
    | nil => simp
    | cons x l ih =>
      obtain ⟨src, d⟩ := x
      cases src <;> simp at ih ⊢ <;> omega
  induction l with
  | nil => simp
  | cons x l ih =>
    obtain ⟨src, d⟩ := x
    cases src with
    | stdout => simpa using ih
    | stderr =>
      have h0 := hlen l
      constructor
      · intro h
        have hd : d = [] := by
          have h1 := congrArg List.length h
          simp at h1 h0
          exact List.eq_nil_of_length_eq_zero (by omega)
        subst hd
        have := ih.mp (by simpa using h)
        intro y hy
        rcases List.mem_cons.mp hy with rfl | hy
        · intro _; rfl
        · exact this y hy
      · intro h
        have hd : d = [] := h (.stderr, d) List.mem_cons_self rfl
        subst hd
        have := ih.mpr fun y hy => h y (List.mem_cons_of_mem _ hy)
        simpa using this

/-- **C66.** The one measurement the program makes is the standard output of the command exactly when the command writes nothing to
its standard error, however its output is split into chunks. -/
theorem C66_quiet_command (env : Env) (launch : Launch) (prog : Str) (args : List Str) (s : St) :
    (∃ w, observed env (test launch (prog :: args)) s =
      [⟨.textPlain (standardOutput (launch args)) b!"stdout", s.obj.tolerance, s.obj.imageTol, s.obj.searchPath, w⟩]) ↔
    ∀ x ∈ (launch args).chunks, x.1 = .stderr → x.2 = [] := by
  obtain ⟨⟨w', hw'⟩, _⟩ := C53_captures env launch prog args s
  rw [hw', ← everything_eq_iff]
  constructor
  · rintro ⟨w, hw⟩
    have h2 : Call.textPlain _ _ = Call.textPlain _ _ := congrArg Obs.call (List.cons.inj hw).1
    exact (Call.textPlain.inj h2).1
  · intro h
    exact ⟨w', by rw [everything, h, standardOutput]⟩

/-- **C66, negative.** The measurement called "stdout" is not the standard output of the command: what it writes to standard error is in
it. -/
theorem C66_not_standard_output : ¬ ∀ (env : Env) (launch : Launch) (prog : Str) (args : List Str) (s : St),
    ∃ w, observed env (test launch (prog :: args)) s = [⟨.textPlain (standardOutput (launch args)) b!"stdout", s.obj.tolerance, s.obj.imageTol, s.obj.searchPath, w⟩] := by
  intro h
  obtain ⟨w, hw⟩ := h (smallEnv []) (fun _ => ⟨[(.stdout, b!"a"), (.stderr, b!"warning")], .exited 0⟩) b!"p" [b!"cmd"] fresh
  obtain ⟨⟨w', hw'⟩, _⟩ := C53_captures (smallEnv []) (fun _ => ⟨[(.stdout, b!"a"), (.stderr, b!"warning")], .exited 0⟩) b!"p" [b!"cmd"] fresh
  rw [hw'] at hw
  have h1 := (List.cons.inj hw).1
  have h2 : Call.textPlain _ _ = Call.textPlain _ _ := congrArg Obs.call h1
  revert h2
  decide

/-- **C66, negative.** The measurement depends on the schedule: for every text on standard output and every text on standard error, unless one order of them reads as the other, the two
arrivals, one text after the other, give different measurements. -/
theorem C66_schedule_dependent (out err : Str) (h : out ++ err ≠ err ++ out) (final : EndState) : ∃ c d : Child, standardOutput c = out ∧ standardOutput d = out ∧
    ((c.chunks.filter (fun x => x.1 = .stderr)).map (·.2)).flatten = err ∧ ((d.chunks.filter (fun x => x.1 = .stderr)).map (·.2)).flatten = err ∧
    c.final = final ∧ d.final = final ∧
    ∀ (env : Env) (prog : Str) (args : List Str) (s : St),
      (observed env (test (fun _ => c) (prog :: args)) s).map (·.call) ≠ (observed env (test (fun _ => d) (prog :: args)) s).map (·.call) := by
  refine ⟨⟨[(.stdout, out), (.stderr, err)], final⟩, ⟨[(.stderr, err), (.stdout, out)], final⟩, by simp [standardOutput], by simp [standardOutput], by simp, by simp, rfl, rfl, ?_⟩
  intro env prog args s he
  obtain ⟨⟨w, hw⟩, _⟩ := C53_captures env (fun _ => ⟨[(.stdout, out), (.stderr, err)], final⟩) prog args s
  obtain ⟨⟨w', hw'⟩, _⟩ := C53_captures env (fun _ => ⟨[(.stderr, err), (.stdout, out)], final⟩) prog args s
  rw [hw, hw'] at he
  have h1 : Call.textPlain _ _ = Call.textPlain _ _ := (List.cons.inj he).1
  injection h1 with h1
  exact h (by simpa [everything] using h1)

/-- Two texts for which the order matters. -/
example : b!"a" ++ b!"w" ≠ b!"w" ++ b!"a" := by decide

/-- A command that writes nothing to standard error, and one that does. -/
example : (∃ w, observed (smallEnv []) (test (fun _ => ⟨[(.stdout, b!"a"), (.stderr, []), (.stdout, b!"b")], .exited 0⟩) [b!"p", b!"cmd"]) fresh =
      [⟨.textPlain b!"ab" b!"stdout", fresh.obj.tolerance, fresh.obj.imageTol, fresh.obj.searchPath, w⟩]) :=
  (C66_quiet_command (smallEnv []) (fun _ => ⟨[(.stdout, b!"a"), (.stderr, []), (.stdout, b!"b")], .exited 0⟩) b!"p" [b!"cmd"] fresh).mpr (by decide)

/-- The hypotheses of `C53_recorded` are met by a fresh object, and what is written is the text of the command. -/
example : (announced fresh [b!"echo", b!"hi"]).compareMode = false ∧
    (program (smallEnv []) (fun a => ⟨[(.stdout, a.flatten), (.stdout, b!"\n")], .exited 0⟩) 9 [b!"p", b!"echo", b!"hi"] fresh).2 = .ok 0 := by
  decide +kernel

/-- The hypotheses of `C53_compared` are met; the text differs, and the failure is counted. -/
example : let s : St := ⟨{ is := some [], input := [.data { kind := .plain, name := b!"stdout", content := b!"old" }] }, smallWorld⟩
    (runProg (smallEnv []) (test (fun _ => ⟨[(.stdout, b!"new")], .exited 0⟩) [b!"p", b!"cmd"]) s).1.obj.unmatched = 1 ∧
    (runProg (smallEnv []) (test (fun _ => ⟨[(.stdout, b!"new")], .exited 0⟩) [b!"p", b!"cmd"]) s).2 = .ok 0 := by
  decide +kernel

end Verif.Pipe
