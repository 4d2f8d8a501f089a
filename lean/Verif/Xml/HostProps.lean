import Verif.Parallel.SharedRead

/-!
# Property C76: exactly which hosts record baselines that can be read
-/

set_option linter.unusedSimpArgs false

namespace Verif.Xml
open Spec Verif.Measurement Verif.Regression Verif.Regression.Spec
open Verif.Path (isFile isReadable isWritable isDirectory searchPathList)

/-- No two hyphens, if there is no hyphen at all in the first part and no two in the second. -/
theorem no_double_prepend (p q : Str) (hp : ∀ c ∈ p, c ≠ 45) (hq : ∀ a b, q ≠ a ++ b!"--" ++ b) : ∀ a b, p ++ q ≠ a ++ b!"--" ++ b := by
  intro a b h
  by_cases hl : p.length ≤ a.length
  · obtain ⟨r, hr⟩ : p <+: a := List.prefix_of_prefix_length_le (l₃ := p ++ q) ⟨q, rfl⟩ ⟨b!"--" ++ b, by rw [h, List.append_assoc]⟩ hl
    rw [← hr] at h
    simp only [List.append_assoc, List.append_cancel_left_eq] at h
    exact hq r b (by rw [h, List.append_assoc])
  · have e : (p ++ q)[a.length]? = some 45 := by rw [h]; simp
    rw [List.getElem?_append_left (by omega)] at e
    exact hp _ (List.mem_of_getElem? e) rfl

/-- The comment is well formed if the host name has no two hyphens in a row. -/
theorem comment_of_host (w : World) (hhost : ∀ c ∈ cstr w.host, Printable c) (htime : ∀ c ∈ w.time, Printable c ∧ c ≠ 45) (hno : ∀ a b, cstr w.host ≠ a ++ b!"--" ++ b) :
    Comment (commentText w) := by
  refine ⟨?_, ?_, ?_⟩
  · intro x hx
    simp only [commentText, List.mem_append] at hx
    rcases hx with (((hx | hx) | hx) | hx) | hx
    · exact (by decide : ∀ x ∈ b!" created on ", Printable x) x hx
    · exact hhost x hx
    · exact (by decide : ∀ x ∈ b!" at ", Printable x) x hx
    · exact (htime x hx).1
    · exact (by decide : ∀ x ∈ b!" ", Printable x) x hx
  · have e : commentText w = b!" created on " ++ (cstr w.host ++ (b!" at " ++ w.time ++ b!" ")) := by simp [commentText]
    rw [e]
    refine no_double_prepend _ _ (by decide) (Parallel.no_double_append _ _ hno ?_)
    intro c hc
    simp only [List.mem_append] at hc
    rcases hc with (hc | hc) | hc
    · exact (by decide : ∀ c ∈ b!" at ", c ≠ 45) c hc
    · exact (htime c hc).2
    · exact (by decide : ∀ c ∈ b!" ", c ≠ 45) c hc
  · rw [commentText, List.getLast?_concat]
    decide

/-- A baseline that cannot be read: `Main` of a new object returns -1. -/
theorem unreadable_main (X : Expat) (env : Env) (test : List Str → Prog) (fuel : Nat) (hfuel : 1 < fuel) (prog f : Str) (hf : f ≠ []) (w : World) (h1 : isFile w.fs f = true) (h2 : isReadable w.fs f = true)
    (bytes : Str) (hopen : w.openRead f = some bytes) (m : String) (hr : readXML X bytes = .error (.thrown m)) :
    (main (withXML X env) test fuel [prog, b!"-I", f] ⟨{}, w⟩).2 = .ok (-1) := by
  have hp : parseArguments w.fs fuel { unmatched := 0 + 1 } [prog, b!"-I", f] = ({ unmatched := 0 + 1, inFileName := f }, .ok [prog]) := by
    have := C35_options_removed w.fs fuel { unmatched := 0 + 1 } prog [(b!"-I", f)] [] (by simp [IsOption]) (by simp [Refused, h1, h2]) (by simp [Stops]) (by simpa using hfuel)
    simpa [flat, lastValue, values, show ¬ (b!"-I" : Str) = b!"-R" by decide, show ¬ (b!"-I" : Str) = b!"-P" by decide, show ¬ (b!"-I" : Str) = b!"-O" by decide] using this
  have hbegin : beginMeasurement (withXML X env) ⟨{ unmatched := 0 + 1, inFileName := f }, w⟩ = (⟨{ unmatched := 0 + 1, inFileName := f, is := some bytes }, w⟩, .error (.thrown m)) := by
    have h3 : openInput ⟨{ unmatched := 0 + 1, inFileName := f }, w⟩ = (⟨{ unmatched := 0 + 1, inFileName := f, is := some bytes }, w⟩, .ok ()) := by
      have hs0 : (⟨{ unmatched := 0 + 1, inFileName := f }, w⟩ : St).obj.searched w.fs = [] := rfl
      simp only [openInput, ne_eq, hf, not_false_eq_true, if_true, hs0, hopen]
    have h4 : openOutput ⟨{ unmatched := 0 + 1, inFileName := f }, w⟩ = (⟨{ unmatched := 0 + 1, inFileName := f }, w⟩, .ok ()) := by simp [openOutput]
    rw [beginMeasurement, h4]
    simp only [Res.andThen, h3]
    simp [startOrRead, St.compareMode, withXML, hr]
  simp only [main, tryBlock, hp, hbegin, mainValue]
  simp

/-- **C76.** Exactly the hosts whose names have no two hyphens in a row record baselines that can be read: the same test of texts and numbers, recorded on the host and repeated with the record as
baseline, returns 0 there, and -1 on every other host. -/
theorem C76_exactly (X : Expat) (hX : Conforms X) (hR : RejectsDoubleHyphen X) (env : Env) (cs : List Call) (fuel : Nat) (hfuel : 1 < fuel) (prog f : Str) (w : World)
    (hhost : ∀ c ∈ cstr w.host, Printable c ∧ c ≠ 62) (htime : ∀ c ∈ w.time, Printable c ∧ c ≠ 45) (hf : f ≠ []) (hcreate : w.creatable (cstr f) = true)
    (hnew : w.fs.stat (cstr f) = none ∨ (w.fs.canRead (cstr f) = true ∧ w.fs.canWrite (cstr f) = true))
    (hdata : ∀ c ∈ cs, ∃ d, c.meas = .data d) (hname : ∀ c ∈ cs, c.meas.name ≠ [] ∧ ∀ x ∈ c.meas.name, AttrChar x)
    (hcontent : ∀ c ∈ cs, ∀ x ∈ c.meas.content, Printable x) (hmin : ∀ v n, .integer v n true ∈ cs → longToInt v ≠ intMin)
    (w1 : World) (hw1 : (main (withXML X env) (fun _ => straight 0 cs) fuel [prog, b!"-O", f] ⟨{}, w⟩).1.world = w1) :
    ((∀ a b, cstr w.host ≠ a ++ b!"--" ++ b) → (main (withXML X env) (fun _ => straight 0 cs) fuel [prog, b!"-I", f] ⟨{}, w1⟩).2 = .ok 0) ∧
    ((∃ a b, cstr w.host = a ++ b!"--" ++ b) → ∀ test, (main (withXML X env) test fuel [prog, b!"-I", f] ⟨{}, w1⟩).2 = .ok (-1)) := by
  refine ⟨fun hno => ?_, fun hyes test => ?_⟩
  · exact (C44_texts_and_numbers X hX env cs fuel hfuel prog f w (comment_of_host w (fun c hc => (hhost c hc).1) htime hno) hf hcreate hnew hdata hname hcontent hmin w1 hw1).2.1
  · obtain ⟨⟨r1, r2, r3, -⟩, -⟩ := record_run_at (64 / 8388608) [] [] (by simp [Stops]) X env 0 cs fuel hfuel prog f w hf hcreate hnew
    rw [show main (withXML X env) (fun _ => straight 0 cs) fuel (prog :: b!"-O" :: f :: []) ⟨{ tolerance := 64 / 8388608, searchPath := [] }, w⟩ =
      main (withXML X env) (fun _ => straight 0 cs) fuel [prog, b!"-O", f] ⟨{}, w⟩ from rfl, hw1] at r1 r2 r3
    exact unreadable_main X env test fuel hfuel prog f hf w1 r1 r2 _ r3 _ (C76_host_name_hyphens X hR w _ hhost hyes)

/-- The hypotheses are met on both kinds of hosts. -/
example (host : Str) (hhost : host = b!"xn--caf-dma.example" ∨ host = b!"a-b-c.example") :
    (main (withXML reference (smallEnv [])) (fun _ => straight 0 twoCalls) 9 [b!"t", b!"-I", b!"f"]
      ⟨{}, (main (withXML reference (smallEnv [])) (fun _ => straight 0 twoCalls) 9 [b!"t", b!"-O", b!"f"] ⟨{}, { plainWorld with host := host }⟩).1.world⟩).2 =
      .ok (if host = b!"a-b-c.example" then 0 else -1) := by
  have h := C76_exactly reference reference_conforms reference_rejects (smallEnv []) twoCalls 9 (by decide) b!"t" b!"f" { plainWorld with host := host }
    (by rcases hhost with rfl | rfl <;> decide) (show ∀ c ∈ plainWorld.time, Printable c ∧ c ≠ 45 by decide) (by decide) rfl (Or.inl rfl) (by simp [twoCalls, Call.meas]) (by simp only [twoCalls, List.mem_cons, List.not_mem_nil, or_false, forall_eq_or_imp, forall_eq]; exact ⟨by decide, by decide⟩)
    (by simp only [twoCalls, List.mem_cons, List.not_mem_nil, or_false, forall_eq_or_imp, forall_eq]; exact ⟨by decide, by decide⟩) (by simp [twoCalls]) _ rfl
  rcases hhost with rfl | rfl
  · rw [if_neg (by decide)]
    exact h.2 ⟨b!"xn", b!"caf-dma.example", rfl⟩ _
  · rw [if_pos rfl]
    exact h.1 (noDouble_spec _ (by decide))

end Verif.Xml
