import Verif.Pipe.RunProps
import Verif.Xml.Reference
import Verif.Diff.LinesProps

/-!
# Commands that meet the hypotheses of C115
-/

namespace Verif.Pipe
open Spec Verif.Regression Verif.Regression.Spec Verif.Measurement Verif.Measurement.Spec Verif.Xml Verif.Xml.Spec Verif.Whole
open Verif.Path (isFile isReadable isWritable isDirectory searchPathList)
open Verif.Itk.Spec (LookedUp)

/-- A command that writes to both pipes and succeeds, unless its first argument is `fail`: then it writes one line less and exits with 3. -/
def commands : Launch := fun args =>
  if args.head? = some b!"fail" then ⟨[(.stdout, b!"a\n<b>\n")], .exited 3⟩
  else ⟨[(.stdout, b!"a\n<b"), (.stderr, b!">\n"), (.stdout, b!"c & d\n")], .exited 0⟩

theorem ok_result (a : List Str) (h : a.head? ≠ some b!"fail") : Result (commands a) 0 := .exited 0 (by rw [commands, if_neg h])

/-- The world after the recording run. -/
def afterRun : World := (program (whole reference (fun _ => 0, fun _ => 0) 60) commands 3 (b!"pipe" :: (flat [(b!"-R", b!"0"), (b!"-O", b!"f")] ++ [b!"good", b!"x y"])) ⟨{}, plainWorld⟩).1.world

/-- The hypotheses of C115 are met: the command passes again, the other one is seen to have another result; where another result is expected, a command that succeeds passes. -/
example :
    (program (whole reference (fun _ => 0, fun _ => 0) 60) commands 3 (b!"pipe" :: (flat [(b!"-R", b!"0"), (b!"-O", b!"f")] ++ [b!"good", b!"x y"])) ⟨{}, plainWorld⟩).2 = .ok 0 ∧
    (program (whole reference (fun _ => 0, fun _ => 0) 60) commands 3 (b!"pipe" :: (flat [(b!"-I", b!"f")] ++ [b!"good"])) ⟨{}, afterRun⟩).2 = .ok 0 ∧
    (program (whole reference (fun _ => 0, fun _ => 0) 60) commands 3 (b!"pipe" :: (flat [(b!"-I", b!"f"), (b!"-R", b!"3")] ++ [b!"fail"])) ⟨{}, afterRun⟩).2 = .ok 1 ∧
    (program (whole reference (fun _ => 0, fun _ => 0) 60) commands 3 (b!"pipe" :: (flat [(b!"-I", b!"f")] ++ [b!"fail"])) ⟨{}, afterRun⟩).2 = .ok 3 ∧
    (program (whole reference (fun _ => 0, fun _ => 0) 60) commands 3 (b!"pipe" :: (flat [(b!"-I", b!"f"), (b!"-R", b!"7")] ++ [b!"good"])) ⟨{}, afterRun⟩).2 = .ok 0 := by
  have hs : afterRun.fs.stat b!"f" = some .regular ∧ afterRun.fs.canRead b!"f" = true := by decide +kernel
  have href : ∀ p ∈ [(b!"-I", b!"f")], ¬ Refused afterRun.fs p := by
    intro p hp
    rw [List.mem_singleton] at hp
    subst hp
    rintro (⟨-, h⟩ | ⟨h, -⟩)
    · exact h (by decide +kernel)
    · exact absurd h (by decide)
  have key : ∀ (ps' : List (Str × Str)) (args' : List Str) (v' : Int), (∀ p ∈ ps', p.1 = b!"-I" ∧ p.2 = b!"f" ∨ p.1 = b!"-R") → args'.head? ∈ [some b!"good", some b!"fail"] →
      lastValue b!"-I" ps' = some b!"f" → ps'.length < 3 → Result (commands args') v' →
      (program (whole reference (fun _ => 0, fun _ => 0) 60) commands 3 (b!"pipe" :: (flat [(b!"-R", b!"0"), (b!"-O", b!"f")] ++ [b!"good", b!"x y"])) ⟨{}, plainWorld⟩).2 = .ok 0 ∧
      (program (whole reference (fun _ => 0, fun _ => 0) 60) commands 3 (b!"pipe" :: (flat ps' ++ args')) ⟨{}, afterRun⟩).2 =
        .ok (if v' ≠ expectation ps' then v' else if everything (commands args') = everything (commands [b!"good", b!"x y"]) then 0 else 1) := by
    intro ps' args' v' hps hargs hI hlen hv'
    have hne : ∀ o : Str, o ≠ b!"-I" → o ≠ b!"-R" → ∀ p ∈ ps', p.1 ≠ o := by
      intro o h1 h2 p hp h
      rcases hps p hp with ⟨h', -⟩ | h'
      · exact h1 (h.symm.trans h')
      · exact h2 (h.symm.trans h')
    have hO : lastValue b!"-O" ps' = none := by
      have := hne b!"-O" (by decide) (by decide)
      clear * - this
      simp only [lastValue]
      rw [List.filter_eq_nil_iff.mpr]
      · rfl
      · intro p hp; simpa using this p hp
    have hP : values b!"-P" ps' = [] := by
      have := hne b!"-P" (by decide) (by decide)
      simp only [values]
      rw [List.filter_eq_nil_iff.mpr]
      · rfl
      · intro p hp; simpa using this p hp
    have hd : Diff.Spec.Fits (everything (commands [b!"good", b!"x y"])) (everything (commands args')) ∧ Diff.Spec.TopClear (everything (commands [b!"good", b!"x y"])) (everything (commands args')) ∧
      Diff.Spec.Enough 60 (everything (commands [b!"good", b!"x y"])) (everything (commands args')) := by
      have h1 : everything (commands [b!"good", b!"x y"]) = b!"a\n<b>\nc & d\n" := by decide
      have h2 : everything (commands args') = b!"a\n<b>\nc & d\n" ∨ everything (commands args') = b!"a\n<b>\n" := by
        simp only [List.mem_cons, List.not_mem_nil, or_false] at hargs
        rcases hargs with h | h
        · left; rw [commands, if_neg (by rw [h]; decide)]; decide
        · right; rw [commands, if_pos h]; decide
      rw [h1]
      rcases h2 with h | h <;> rw [h]
      · exact ⟨by rw [Diff.Spec.Fits]; decide +kernel, by rw [Diff.topClear_iff]; decide +kernel, by rw [Diff.Spec.Enough]; decide +kernel⟩
      · exact ⟨by rw [Diff.Spec.Fits]; decide +kernel, by rw [Diff.topClear_iff]; decide +kernel, by rw [Diff.Spec.Enough]; decide +kernel⟩
    exact C115_record_and_compare reference reference_conforms (fun _ => 0, fun _ => 0) 60 commands b!"pipe" [(b!"-R", b!"0"), (b!"-O", b!"f")] [b!"good", b!"x y"] 3 plainWorld plain_comment b!"f" 0
      (by simp [IsOption]) (by
        intro p hp
        simp only [List.mem_cons, List.not_mem_nil, or_false] at hp
        rcases hp with rfl | rfl <;> rintro (⟨h, -⟩ | ⟨h, -⟩) <;> exact absurd h (by decide))
      (by simp [Stops, IsOption]) (by decide) (by decide) (by decide) (by decide) rfl (Or.inl rfl) (ok_result _ (by decide)) (by decide) afterRun rfl
      commands b!"pipe" ps' args' 3 afterRun b!"f" b!"f" v'
      (by
        intro p hp
        rcases hps p hp with ⟨h, -⟩ | h
        · exact Or.inr (Or.inl h)
        · exact Or.inr (Or.inr (Or.inl h)))
      (by
        intro p hp
        rcases hps p hp with ⟨h, h'⟩ | h
        · obtain ⟨p1, p2⟩ := p
          simp only at h h'
          subst h; subst h'
          exact href _ (by simp)
        · rintro (⟨h', -⟩ | ⟨h', -⟩) <;> rw [h] at h' <;> exact absurd h' (by decide))
      (by
        intro x hx
        simp only [List.mem_cons, List.not_mem_nil, or_false] at hargs
        rcases hargs with h | h <;> rw [h] at hx <;> cases hx <;> simp [IsOption])
      hlen hI (by decide) hO hv' (by rw [hP]; exact .asIs) rfl hd
  have k1 := key [(b!"-I", b!"f")] [b!"good"] 0 (by decide) (by decide) (by decide) (by decide) (ok_result _ (by decide))
  have k2 := key [(b!"-I", b!"f"), (b!"-R", b!"3")] [b!"fail"] 3 (by decide) (by decide) (by decide) (by decide) (.exited 3 rfl)
  have k3 := key [(b!"-I", b!"f")] [b!"fail"] 3 (by decide) (by decide) (by decide) (by decide) (.exited 3 rfl)
  have k4 := key [(b!"-I", b!"f"), (b!"-R", b!"7")] [b!"good"] 0 (by decide) (by decide) (by decide) (by decide) (ok_result _ (by decide))
  exact ⟨k1.1, k1.2.trans (by decide), k2.2.trans (by decide), k3.2.trans (by decide), k4.2.trans (by decide)⟩

/-- The measurement of the text below. -/
def sneaky : DataM := { kind := .string, name := b!"s", content := b!"t" }

/-- Arguments of which one is the text of a measurement. -/
def sneakyArgs : List Str := [b!"echo", b!"<DartMeasurement name=\"s\" type=\"text/string\">t</DartMeasurement>", b!"\"quoted\""]

theorem sneaky_injected : Injected sneakyArgs [.data sneaky] :=
  .harmless _ _ _ (by decide) (.element _ _ _ _ (by show Clean (.data sneaky); rw [Clean]; decide) rfl (.harmless _ _ _ (by decide) .nil))

/-- What the recording run writes to standard output. -/
def captured : Str := (program (whole reference (fun _ => 0, fun _ => 0) 60) commands 3 (b!"pipe" :: (flat [] ++ sneakyArgs)) ⟨{}, plainWorld⟩).1.world.cout

/-- A world in which every file has these bytes. -/
def capturedWorld : World := { plainWorld with fs := ⟨fun _ => some .regular, fun _ => true, fun _ => true, fun _ => true⟩, bytes := fun _ => captured }

/-- The hypotheses are met: the same command, recorded on standard output and compared with that, fails. -/
example : (program (whole reference (fun _ => 0, fun _ => 0) 60) commands 3 (b!"pipe" :: (flat [(b!"-I", b!"f")] ++ sneakyArgs)) ⟨{}, capturedWorld⟩).2 = .ok 1 := by
  have h1 : everything (commands sneakyArgs) = b!"a\n<b>\nc & d\n" := by decide
  refine C115_injection reference reference_conforms (fun _ => 0, fun _ => 0) 60 commands b!"pipe" [] sneakyArgs 3 plainWorld plain_comment 0 (by simp) (by simp) (by simp [Stops, IsOption, sneakyArgs]) (by decide)
    rfl rfl (ok_result _ (by decide)) sneaky [] sneaky_injected ?_ ?_ (by rw [h1]; decide) captured rfl [(b!"-I", b!"f")] 3 capturedWorld b!"f" b!"f" (by simp [IsOption]) ?_ (by decide) rfl (by decide) rfl (by decide)
    .asIs rfl ?_
  · intro b hb
    rw [List.mem_singleton] at hb
    subst hb
    exact ⟨⟨rfl, by simp [sneaky]⟩, _, rfl⟩
  · intro b hb
    rw [List.mem_singleton] at hb
    subst hb
    decide
  · intro p hp
    rw [List.mem_singleton] at hp
    subst hp
    rintro (⟨-, h⟩ | ⟨h, -⟩)
    · exact h (by decide)
    · exact absurd h (by decide)
  · rw [h1]
    exact ⟨by rw [Diff.Spec.Fits]; decide +kernel, by rw [Diff.topClear_iff]; decide +kernel, by rw [Diff.Spec.Enough]; decide +kernel⟩

end Verif.Pipe
