import Verif.Whole.CallsRun
import Verif.Whole.OwnTests
import Verif.Whole.OwnTestsSpec

/-!
# Property C123: the project's own test of arguments, tfRegressionTestArgumentsTest, recorded and compared with any arguments
-/

set_option linter.unusedSimpArgs false

namespace Verif.Whole
open Verif.Measurement Verif.Measurement.Spec Verif.Regression Verif.Regression.Spec Verif.Decimal Verif.Xml Verif.Xml.Spec Spec RepoTests
open Verif.Itk.Spec (LookedUp)
open Verif.Pipe.Spec (expectation)

/-- The measurements of the test for a run that expects `e`. -/
def argumentCalls (e : Int) (argv : List Str) : List Call := .integer e b!"ExpectedReturn" false :: arguments 0 argv

theorem calls_straight : ∀ l : List Call, calls l = straight 0 l
  | [] => rfl
  | c :: l => by
    show Prog.call c (fun _ => calls l) = Prog.call c fun _ => straight 0 l
    rw [calls_straight l]

theorem argumentsTest_makes (env : Env) (argv : List Str) (e : Int) (comparing : Bool) : Makes env argumentsTest argv e comparing 0 (argumentCalls e argv) := by
  intro s hs _
  subst hs
  simp only [argumentsTest, runProg, observed, calls_straight]
  exact ⟨rfl, rfl⟩

theorem straight_keeps (os : Option Str) (v : Int) : ∀ l : List Call, Keeps os (straight v l)
  | [] => trivial
  | _ :: l => fun _ => straight_keeps os v l

theorem argumentsTest_keeps (os : Option Str) (argv : List Str) : Keeps os (argumentsTest argv) := by
  intro x
  show Keeps os (calls (.integer x.expected b!"ExpectedReturn" false :: arguments 0 argv))
  rw [calls_straight]
  exact straight_keeps os 0 _

theorem differing_nil (as : List Str) : differing as [] = 0 := rfl

theorem differing_cons (as bs : List Str) (b : Str) : differing as (b :: bs) = (if as.head? = some b then 0 else 1) + differing as.tail bs := by
  rw [differing, List.length_cons, List.range_succ_eq_map, List.filter_cons, List.filter_map]
  have h : (List.filter ((fun i => decide (as[i]? ≠ (b :: bs)[i]?)) ∘ Nat.succ) (List.range bs.length)) =
      List.filter (fun i => decide (as.tail[i]? ≠ bs[i]?)) (List.range bs.length) := by
    congr 1
    funext i
    cases as with
    | nil => simp
    | cons a as =>
      simp only [Function.comp, List.tail_cons, List.getElem?_cons_succ, Nat.succ_eq_add_one]
      exact decide_eq_decide.mpr Iff.rfl
  rw [h]
  cases as with
  | nil => simp [differing]; omega
  | cons a as =>
    by_cases hab : a = b
    · simp [hab, differing]
    · simp [hab, differing]; omega

theorem arguments_mismatches : ∀ (as bs : List Str) (i : Nat),
    mismatches ((arguments i as).map Call.meas) ((arguments i bs).map Call.meas) = differing as bs := by
  intro as bs
  induction bs generalizing as with
  | nil => intro i; cases as <;> rfl
  | cons b bs ih =>
    intro i
    rw [differing_cons]
    cases as with
    | nil =>
      have := ih [] (i + 1)
      simp only [arguments, List.map_cons, List.map_nil, mismatches] at this ⊢
      rw [this]
      simp
    | cons a as =>
      have := ih as (i + 1)
      simp only [arguments, List.map_cons, mismatches] at this ⊢
      rw [this]
      by_cases hab : a = b
      · subst hab; simp
      · have hne : ¬ (Call.textString a (b!"Argument " ++ intText i)).meas = (Call.textString b (b!"Argument " ++ intText i)).meas := by
          intro h
          simp only [Call.meas, Meas.data.injEq] at h
          exact hab (congrArg DataM.content h)
        rw [if_neg (show ¬ (a :: as).head? = some b by simp [hab])]
        rw [if_neg hne]
        rfl

theorem longToInt_expectation (ps : List (Str × Str)) : longToInt (expectation ps) = expectation ps := by
  have : ∃ v, expectation ps = longToInt v ∨ expectation ps = 0 := by
    rw [expectation]
    split
    · exact ⟨0, .inr rfl⟩
    · rw [strtolInt]
      split
      · exact ⟨0, .inr rfl⟩
      · exact ⟨_, .inl rfl⟩
  obtain ⟨v, h | h⟩ := this
  · rw [h]; simp only [longToInt]; omega
  · rw [h]; rfl

theorem integer_meas (u v : Int) (hu : longToInt u = u) (hv : longToInt v = v) (n : Str) (t t' : Bool) :
    (Call.integer u n t).meas = (Call.integer v n t').meas ↔ u = v := by
  constructor
  · intro h
    simp only [Call.meas, Meas.data.injEq] at h
    have hc := congrArg (fun d => getInteger d.content) h
    simp only [hu, hv] at hc
    have bound : ∀ x, longToInt x = x → intMin ≤ x ∧ x ≤ intMax := by
      intro x hx
      rw [← hx]
      simp only [longToInt, intMin, intMax]
      omega
    rw [(C27_integer_roundtrip _ u (bound u hu).1 (bound u hu).2).2, (C27_integer_roundtrip _ v (bound v hv).1 (bound v hv).2).2] at hc
    exact hc
  · rintro rfl; rfl

theorem arguments_mem (c : Call) : ∀ (as : List Str) (i : Nat), c ∈ arguments i as → ∃ a ∈ as, ∃ k : Nat, c = .textString a (b!"Argument " ++ intText k) := by
  intro as
  induction as with
  | nil => intro i h; cases h
  | cons a as ih =>
    intro i h
    rw [arguments, List.mem_cons] at h
    rcases h with rfl | h
    · exact ⟨a, by simp, i, rfl⟩
    · obtain ⟨b, hb, k, hk⟩ := ih _ h
      exact ⟨b, by simp [hb], k, hk⟩

theorem argument_name (k : Nat) : ∀ c ∈ b!"Argument " ++ intText k, AttrChar c := by
  obtain ⟨-, h2, -, -⟩ := natText_spec k
  intro c hc
  rw [List.mem_append] at hc
  rcases hc with hc | hc
  · revert c; decide
  · rw [intText, if_neg (by omega)] at hc
    have := h2 c (by simpa using hc)
    obtain ⟨q1, q2⟩ := this
    have q1' := UInt8.le_iff_toNat_le.mp q1
    have q2' := UInt8.le_iff_toNat_le.mp q2
    refine ⟨?_, ?_, ?_, ?_, ?_⟩
    · exact UInt8.le_iff_toNat_le.mpr (le_trans (by decide) q1')
    · exact UInt8.le_iff_toNat_le.mpr (le_trans q2' (by decide))
    all_goals
      rintro rfl
      first
        | exact absurd q1 (by decide)
        | exact absurd q2 (by decide)

theorem argumentCalls_text (e : Int) (argv : List Str) : ∀ c ∈ argumentCalls e argv, TextCall c ∧ c.meas.name ≠ [] := by
  intro c hc
  rw [argumentCalls, List.mem_cons] at hc
  rcases hc with rfl | hc
  · exact ⟨⟨⟨_, rfl⟩, rfl⟩, List.cons_ne_nil _ _⟩
  · obtain ⟨a, -, k, rfl⟩ := arguments_mem c argv 0 hc
    exact ⟨⟨⟨_, rfl⟩, rfl⟩, List.cons_ne_nil _ _⟩

theorem integer_content (e : Int) : ∀ c ∈ intText (longToInt e), Printable c := by
  refine decimal_printable (C27_integer_roundtrip { kind := .plain } (longToInt e) ?_ ?_).1
  · simp only [longToInt, intMin]; omega
  · simp only [longToInt, intMax]; omega

theorem argumentCalls_clean (e : Int) (argv : List Str) (htext : ∀ a ∈ argv, ∀ c ∈ a, Printable c) :
    ∀ c ∈ argumentCalls e argv, Clean (recordedMeas c) := by
  intro c hc
  rw [argumentCalls, List.mem_cons] at hc
  rcases hc with rfl | hc
  · exact recorded_clean _ _ rfl (show ∀ c ∈ b!"ExpectedReturn", AttrChar c by decide) (integer_content e)
  · obtain ⟨a, ha, k, rfl⟩ := arguments_mem c argv 0 hc
    exact recorded_clean _ _ rfl (argument_name k) (htext a ha)

/-- **C123.** The test of arguments is recorded and later compared with the recording, each time with any options (`-R`, `-P`, `-I`, `-O` in any order and number) and any further arguments.  The recording run
returns 0.  The comparing run returns 0 if it is told to expect anything but 0; otherwise the number of its arguments (the name of the program is the first) that are not the recorded ones at their
positions, plus one if the recording run was told to expect anything but 0. -/
theorem C123_arguments (X : Expat) (hX : Conforms X) (mem : (Int → Nat) × (Int → Nat)) (steps : Nat) (tol : ℚ)
    (prog : Str) (ps : List (Str × Str)) (args : List Str) (fuel : Nat) (w : World) (hw : Comment (commentText w)) (f : Str)
    (hopt : ∀ p ∈ ps, IsOption p.1) (href : ∀ p ∈ ps, ¬ Refused w.fs p) (hstop : Stops args) (hfuel : ps.length < fuel)
    (hI : lastValue b!"-I" ps = none) (hO : lastValue b!"-O" ps = some f) (hf : f ≠ []) (hcreate : w.creatable (cstr f) = true)
    (hnew : w.fs.stat (cstr f) = none ∨ (w.fs.canRead (cstr f) = true ∧ w.fs.canWrite (cstr f) = true))
    (htext : ∀ a ∈ prog :: args, ∀ c ∈ a, Printable c)
    (w1 : World) (hw1 : (main (whole X mem steps) argumentsTest fuel (prog :: (flat ps ++ args)) ⟨{}, w⟩).1.world = w1)
    (prog' : Str) (ps' : List (Str × Str)) (args' : List Str) (fuel' : Nat) (w2 : World) (name file : Str)
    (hopt' : ∀ p ∈ ps', IsOption p.1) (href' : ∀ p ∈ ps', ¬ Refused w2.fs p) (hstop' : Stops args') (hfuel' : ps'.length < fuel')
    (hI' : lastValue b!"-I" ps' = some name) (hn : name ≠ []) (hO' : lastValue b!"-O" ps' = none)
    (hfile : LookedUp w2.fs name (values b!"-P" ps').reverse file) (hdoc : w2.openRead file = w1.openRead f) :
    (main (whole X mem steps) argumentsTest fuel (prog :: (flat ps ++ args)) ⟨{}, w⟩).2 = .ok 0 ∧
    (main (whole X mem steps) argumentsTest fuel' (prog' :: (flat ps' ++ args')) ⟨{ tolerance := tol }, w2⟩).2 =
      .ok (if expectation ps' ≠ 0 then 0 else (if expectation ps = 0 then 0 else 1) + (differing (prog :: args) (prog' :: args') : Nat)) := by
  obtain ⟨r1, r2⟩ := record_calls (whole X mem steps) argumentsTest (argumentCalls (expectation ps) (prog :: args)) prog ps args fuel w f 0 hopt href hstop hfuel hI hO hf hcreate hnew
    (argumentsTest_keeps _ _) (argumentsTest_makes _ _ _ _)
  refine ⟨by rw [r1]; split <;> rfl, ?_⟩
  rw [hw1] at r2
  rw [r2] at hdoc
  have hdata := argumentCalls_text
  have hread := read_recording X hX (argumentCalls (expectation ps) (prog :: args)) w hw (argumentCalls_clean _ _ htext)
  rw [show readXML X = (whole X mem steps).readXML from rfl] at hread
  generalize header w ++ _ ++ footer = bytes at hread hdoc
  obtain ⟨os, ho1, -, ho3⟩ := compare_calls tol (whole X mem steps) bytes ((argumentCalls (expectation ps) (prog :: args)).map recordedMeas) hread (by
      intro b hb
      obtain ⟨c, hc, rfl⟩ := List.mem_map.mp hb
      obtain ⟨⟨⟨d, hd⟩, -⟩, -⟩ := hdata _ _ c hc
      exact ⟨recorded_plainly _, d, by rw [recordedMeas, hd]⟩)
    argumentsTest (argumentCalls (expectation ps') (prog' :: args')) prog' ps' args' fuel' w2 name file 0 hopt' href' hstop' hfuel' hI' hn hO'
    (argumentsTest_makes (whole X mem steps) (prog' :: args') (expectation ps') true) hfile hdoc
    (fun c hc => ⟨(hdata _ _ c hc).1.1, (hdata _ _ c hc).2⟩)
    (by
      intro b _ c hc e d k _ _ _ _ ht
      rw [(hdata _ _ c hc).1.2] at ht
      cases ht)
    (by
      intro b _ content name hc
      rw [argumentCalls, List.mem_cons] at hc
      rcases hc with hc | hc
      · cases hc
      · obtain ⟨a, -, k, h⟩ := arguments_mem _ _ 0 hc
        cases h)
  rw [ho3]
  by_cases he : expectation ps' = 0
  · have hall : ∀ o ∈ os, TextCall o.call := fun o ho => (hdata _ _ _ (by rw [← ho1]; exact List.mem_map.mpr ⟨o, ho, rfl⟩)).1
    rw [text_failures _ _ os (fun c hc => (hdata _ _ c hc).1.1) hall]
    have hm : (os.map fun o => o.call.meas) = (argumentCalls (expectation ps') (prog' :: args')).map Call.meas := by
      rw [← ho1, List.map_map]; rfl
    rw [hm]
    have hk := integer_meas (expectation ps) 0 (longToInt_expectation ps) rfl b!"ExpectedReturn" false false
    simp only [he, argumentCalls, List.map_cons, mismatches, ne_eq, not_true_eq_false, if_false, arguments_mismatches]
    by_cases h0 : expectation ps = 0
    · rw [if_pos (hk.2 h0), if_pos h0]; simp
    · rw [if_neg (fun h => h0 (hk.1 h)), if_neg h0]; simp
  · rw [if_pos (Ne.symm he), if_pos he]

/-- The world left by recording with the options `-R 0` and the argument `one`. -/
def recordedArguments : World := (main (whole reference (fun _ => 0, fun _ => 0) 20) argumentsTest 3 [b!"prog", b!"-R", b!"0", b!"-O", b!"f", b!"one"] ⟨{}, plainWorld⟩).1.world

theorem recordedArguments_file : Path.isFile recordedArguments.fs b!"f" = true ∧ Path.isReadable recordedArguments.fs b!"f" = true := by
  unfold recordedArguments
  constructor <;> decide +kernel

/-- Compared with `-R 0` and the arguments `two`, `-R`: one argument is another than the recorded one, and nothing is recorded for the last. -/
example : (main (whole reference (fun _ => 0, fun _ => 0) 20) argumentsTest 3 [b!"prog", b!"-I", b!"f", b!"-R", b!"0", b!"two", b!"-R"] ⟨{}, recordedArguments⟩).2 = .ok 2 := by
  have h := (C123_arguments reference reference_conforms (fun _ => 0, fun _ => 0) 20 (64 / 8388608) b!"prog" [(b!"-R", b!"0"), (b!"-O", b!"f")] [b!"one"] 3 plainWorld plain_comment b!"f"
    (by simp [IsOption]) (by simp [Refused, Path.isFile]) (by simp [Stops, IsOption]) (by decide) (by decide) (by decide) (by decide) rfl (.inl rfl) (by decide) recordedArguments rfl
    b!"prog" [(b!"-I", b!"f"), (b!"-R", b!"0")] [b!"two", b!"-R"] 3 recordedArguments b!"f" b!"f" (by simp [IsOption]) (by simp [Refused, recordedArguments_file]) (by simp [Stops, IsOption]) (by decide) (by decide) (by decide) (by decide)
    (.asIs) rfl).2
  rw [show expectation [(b!"-I", b!"f"), (b!"-R", b!"0")] = 0 by decide +kernel, show expectation [(b!"-R", b!"0"), (b!"-O", b!"f")] = 0 by decide +kernel,
    show differing [b!"prog", b!"one"] [b!"prog", b!"two", b!"-R"] = 2 by decide] at h
  exact h

end Verif.Whole
