import Verif.Stderr.RunProps

/-!
# C127: the order of the options
-/

namespace Verif.Stderr
open Verif.Measurement Verif.Regression Verif.Regression.Spec Verif.Xml Verif.Path

/-! ## Specification -/

/-- The two lists of options give the same values, in the same order, to each option; the options are mixed in different ways. -/
def Spec.SameOptions (ps qs : List (Str × Str)) : Prop := ∀ x, IsOption x → values x ps = values x qs

/-- The two lists of options agree in the last values of `-I`, `-O` and `-R` and in all values of `-P`. -/
def Spec.SameSettings (ps qs : List (Str × Str)) : Prop :=
  lastValue b!"-I" ps = lastValue b!"-I" qs ∧ lastValue b!"-O" ps = lastValue b!"-O" qs ∧ lastValue b!"-R" ps = lastValue b!"-R" qs ∧ values b!"-P" ps = values b!"-P" qs

open Spec

/-! ## Proofs -/

theorem sameSettings_of_sameOptions {ps qs : List (Str × Str)} (h : SameOptions ps qs) : SameSettings ps qs :=
  ⟨by have := h b!"-I" (by simp [IsOption]); simp only [values] at this; rw [lastValue, lastValue, this],
   by have := h b!"-O" (by simp [IsOption]); simp only [values] at this; rw [lastValue, lastValue, this],
   by have := h b!"-R" (by simp [IsOption]); simp only [values] at this; rw [lastValue, lastValue, this], h b!"-P" (by simp [IsOption])⟩

theorem parse_sameSettings (fs : FileSys) (fuel fuel' : Nat) (o : Obj) (prog : Str) (ps qs : List (Str × Str)) (rest : List Str)
    (hp : ∀ p ∈ ps, IsOption p.1 ∧ ¬ Refused fs p) (hq : ∀ p ∈ qs, IsOption p.1 ∧ ¬ Refused fs p) (hstop : Stops rest) (hfuel : ps.length < fuel) (hfuel' : qs.length < fuel')
    (h : SameSettings ps qs) :
    parseArguments fs fuel o (prog :: (flat ps ++ rest)) = parseArguments fs fuel' o (prog :: (flat qs ++ rest)) := by
  rw [C35_options_removed fs fuel o prog ps rest (fun p h => (hp p h).1) (fun p h => (hp p h).2) hstop hfuel,
    C35_options_removed fs fuel' o prog qs rest (fun p h => (hq p h).1) (fun p h => (hq p h).2) hstop hfuel', h.1, h.2.1, h.2.2.1, h.2.2.2]

/-- **C127.** Two command lines of accepted options that agree in the last values of `-I`, `-O` and `-R` and in all values of `-P` have the same effect, whatever the test is: the same value of `Main`, the same
object afterwards, the same files and the same standard output.  (Earlier values of `-I`, `-O` and `-R` can be left out.) -/
theorem C127_overruled (env : Env) (test : List Str → Prog) (fuel fuel' : Nat) (prog : Str) (ps qs : List (Str × Str)) (rest : List Str) (s : St)
    (hp : ∀ p ∈ ps, IsOption p.1 ∧ ¬ Refused s.world.fs p) (hq : ∀ p ∈ qs, IsOption p.1 ∧ ¬ Refused s.world.fs p) (hstop : Stops rest)
    (hfuel : ps.length < fuel) (hfuel' : qs.length < fuel') (h : SameSettings ps qs) :
    main env test fuel (prog :: (flat ps ++ rest)) s = main env test fuel' (prog :: (flat qs ++ rest)) s := by
  have := parse_sameSettings s.world.fs fuel fuel' { s.obj with unmatched := s.obj.unmatched + 1 } prog ps qs rest hp hq hstop hfuel hfuel' h
  simp only [main, tryBlock, this]

/-- An accepted option of one list is accepted in the other. -/
theorem accepted_of_same (fs : FileSys) {ps qs : List (Str × Str)} (hq : ∀ p ∈ qs, IsOption p.1) (h : SameOptions ps qs) (hp : ∀ p ∈ ps, ¬ Refused fs p) : ∀ p ∈ qs, ¬ Refused fs p := by
  rintro ⟨x, v⟩ hxv
  have hx := hq _ hxv
  have h1 : v ∈ values x qs := by
    simp only [values, List.mem_map, List.mem_filter]
    exact ⟨(x, v), ⟨hxv, by simp⟩, rfl⟩
  rw [← h x hx] at h1
  simp only [values, List.mem_map, List.mem_filter] at h1
  obtain ⟨⟨y, u⟩, ⟨h2, h3⟩, rfl⟩ := h1
  have : y = x := by simpa using h3
  subst this
  exact hp _ h2

/-- **C127.** Different options can be given in any order: if each option has the same values in the same order in both command lines, and one of them is accepted, the other one is, and everything is the same,
whatever the test is: also what is written to the error stream, in the same order. -/
theorem C127_any_order (X : Expat) (line why : X.State → Str) (env : Env) (voice : ImageVoice) (thrown : Fault → Thrown) (test : List Str → Talk) (fuel fuel' : Nat) (prog : Str)
    (ps qs : List (Str × Str)) (rest : List Str) (s : St) (hp : ∀ p ∈ ps, IsOption p.1) (hq : ∀ p ∈ qs, IsOption p.1) (haccepted : ∀ p ∈ ps, ¬ Refused s.world.fs p)
    (hstop : Stops rest) (hfuel : ps.length < fuel) (hfuel' : qs.length < fuel') (h : SameOptions ps qs) :
    mainS X line why env voice thrown test fuel (prog :: (flat ps ++ rest)) s = mainS X line why env voice thrown test fuel' (prog :: (flat qs ++ rest)) s := by
  have haccepted' := accepted_of_same s.world.fs hq h haccepted
  obtain ⟨o0, ho0⟩ : ∃ o0 : Obj, o0 = { s.obj with unmatched := s.obj.unmatched + 1 } := ⟨_, rfl⟩
  have hsame := parse_sameSettings s.world.fs fuel fuel' o0 prog ps qs rest (fun p h => ⟨hp p h, haccepted p h⟩) (fun p h => ⟨hq p h, haccepted' p h⟩) hstop hfuel hfuel'
    (sameSettings_of_sameOptions h)
  have key : parseArgumentsE s.world.fs fuel o0 (prog :: (flat ps ++ rest)) = parseArgumentsE s.world.fs fuel' o0 (prog :: (flat qs ++ rest)) := by
    have m1 := C101_messages s.world.fs fuel o0 prog ps rest hp haccepted (.inl hstop) hfuel
    have m2 := C101_messages s.world.fs fuel' o0 prog qs rest hq haccepted' (.inl hstop) hfuel'
    rw [h b!"-O" (by simp [IsOption]), ← m2] at m1
    have p1 := C35_options_removed s.world.fs fuel o0 prog ps rest hp haccepted hstop hfuel
    rw [hsame] at p1
    rw [← C101_same_parser, ← C101_same_parser] at hsame
    rw [← C101_same_parser] at p1
    have e : parseArgumentsM s.world.fs fuel o0 (prog :: (flat ps ++ rest)) = parseArgumentsM s.world.fs fuel' o0 (prog :: (flat qs ++ rest)) := Prod.ext m1 hsame
    rw [parseArgumentsE, parseArgumentsE, e]
    rcases hq' : parseArgumentsM s.world.fs fuel' o0 (prog :: (flat qs ++ rest)) with ⟨ms, o, f | out⟩
    · rw [hq'] at p1
      simp at p1
    · rfl
  simp only [mainS, tryBlockS, ← ho0, key]

/-- **C127, negative.** The order of two values of `-P` matters: there are a test and files for which a run passes with one order and fails with the other. -/
theorem C127_paths_order : ∃ (env : Env) (s : St) (d1 d2 : Str) (rest : List (Str × Str)), (∀ p ∈ (b!"-P", d1) :: (b!"-P", d2) :: rest, IsOption p.1 ∧ ¬ Refused s.world.fs p) ∧
    (main env (fun _ => textTest 0) 9 (b!"prog" :: flat ((b!"-P", d1) :: (b!"-P", d2) :: rest)) s).2 = .ok 0 ∧
    (main env (fun _ => textTest 0) 9 (b!"prog" :: flat ((b!"-P", d2) :: (b!"-P", d1) :: rest)) s).2 = .ok (-1) := by
  refine ⟨{ smallEnv [] with readXML := fun b => if b = b!"x" then .ok [] else .error (.thrown "no document") },
    ⟨{}, { smallWorld with
      fs := ⟨fun n => if n = b!"b" ∨ n = b!"p/b" ∨ n = b!"q/b" then some .regular else if n = b!"p" ∨ n = b!"q" then some .directory else none, fun _ => true, fun _ => true, fun _ => true⟩
      bytes := fun n => if n = b!"q/b" then b!"x" else [] }⟩, b!"p", b!"q", [(b!"-I", b!"b")], ?_, ?_, ?_⟩
  · intro p hp
    simp only [List.mem_cons, List.not_mem_nil, or_false] at hp
    rcases hp with rfl | rfl | rfl
    · exact ⟨by simp [IsOption], by rintro (⟨h, -⟩ | ⟨-, h⟩) <;> revert h <;> decide +kernel⟩
    · exact ⟨by simp [IsOption], by rintro (⟨h, -⟩ | ⟨-, h⟩) <;> revert h <;> decide +kernel⟩
    · exact ⟨by simp [IsOption], by rintro (⟨-, h⟩ | ⟨h, -⟩) <;> revert h <;> decide +kernel⟩
  · decide +kernel
  · decide +kernel

/-- The hypotheses are met: four options mixed in two ways. -/
example (X : Expat) (line why : X.State → Str) (env : Env) (voice : ImageVoice) (thrown : Fault → Thrown) (test : List Str → Talk) :
    mainS X line why env voice thrown test 9 [b!"prog", b!"-O", b!"g", b!"-I", b!"b", b!"-R", b!"1", b!"-O", b!"h", b!"arg"] ⟨{}, smallWorld⟩ =
    mainS X line why env voice thrown test 9 [b!"prog", b!"-R", b!"1", b!"-O", b!"g", b!"-O", b!"h", b!"-I", b!"b", b!"arg"] ⟨{}, smallWorld⟩ :=
  C127_any_order X line why env voice thrown test 9 9 b!"prog" [(b!"-O", b!"g"), (b!"-I", b!"b"), (b!"-R", b!"1"), (b!"-O", b!"h")]
    [(b!"-R", b!"1"), (b!"-O", b!"g"), (b!"-O", b!"h"), (b!"-I", b!"b")] [b!"arg"] ⟨{}, smallWorld⟩ (by simp [IsOption]) (by simp [IsOption])
    (by
      intro p hp
      simp only [List.mem_cons, List.not_mem_nil, or_false] at hp
      rcases hp with rfl | rfl | rfl | rfl <;> rintro (⟨h, h'⟩ | ⟨h, h'⟩) <;> revert h h' <;> decide +kernel) (by simp [Stops, IsOption]) (by decide) (by decide)
    (by rintro x (rfl | rfl | rfl | rfl) <;> decide)

/-- The hypotheses are met: the first of two expected values is overruled. -/
example (env : Env) (test : List Str → Prog) :
    main env test 9 [b!"prog", b!"-R", b!"1", b!"-I", b!"b", b!"-R", b!"2"] ⟨{}, smallWorld⟩ = main env test 9 [b!"prog", b!"-R", b!"2", b!"-I", b!"b"] ⟨{}, smallWorld⟩ :=
  C127_overruled env test 9 9 b!"prog" [(b!"-R", b!"1"), (b!"-I", b!"b"), (b!"-R", b!"2")] [(b!"-R", b!"2"), (b!"-I", b!"b")] [] ⟨{}, smallWorld⟩
    (by
      intro p hp
      simp only [List.mem_cons, List.not_mem_nil, or_false] at hp
      rcases hp with rfl | rfl | rfl <;> refine ⟨by simp [IsOption], ?_⟩ <;> rintro (⟨h, h'⟩ | ⟨h, h'⟩) <;> revert h h' <;> decide +kernel)
    (by
      intro p hp
      simp only [List.mem_cons, List.not_mem_nil, or_false] at hp
      rcases hp with rfl | rfl <;> refine ⟨by simp [IsOption], ?_⟩ <;> rintro (⟨h, h'⟩ | ⟨h, h'⟩) <;> revert h h' <;> decide +kernel)
    (by simp [Stops]) (by decide) (by decide) ⟨by decide, by decide, by decide, by decide⟩

end Verif.Stderr
