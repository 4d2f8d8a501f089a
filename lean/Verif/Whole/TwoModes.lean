import Verif.Whole.ArgumentsTest

/-!
# Property C128: tests that measure one thing when they record and another when they compare
-/

namespace Verif.Whole
open Verif.Measurement Verif.Measurement.Spec Verif.Regression Verif.Regression.Spec Verif.Decimal Verif.Decimal.Spec Verif.Xml Verif.Xml.Spec Spec RepoTests
open Verif.Itk.Spec (LookedUp)
open Verif.Pipe.Spec (expectation)

/-- A test that looks at its arguments and at `GetCompareMode()` (as tfRegressionTestTest3.cxx:5-38 does), makes the measurements chosen by them and returns 0. -/
def modeTest (items : List Str → Bool → List Item) (argv : List Str) : Prog := .ask fun s => straight 0 ((items argv s.compareMode).map Item.call)

theorem modeTest_makes (env : Env) (items : List Str → Bool → List Item) (argv : List Str) (e : Int) (comparing : Bool) :
    Makes env (modeTest items) argv e comparing 0 ((items argv comparing).map Item.call) := by
  intro s _ hs
  subst hs
  simp only [modeTest, runProg, observed]
  exact ⟨rfl, rfl⟩

theorem modeTest_keeps (os : Option Str) (items : List Str → Bool → List Item) (argv : List Str) : Keeps os (modeTest items argv) :=
  fun _ => straight_keeps os 0 _

/-- **C128.** A test whose measurements depend on its arguments and on whether it records or compares is recorded and later compared with the recording, each time with any options and any further arguments.  The
recording run returns 0.  The comparing run returns 0 if it is told to expect anything but 0; otherwise at most the number of the values measured when comparing that need not be accepted against the value
recorded at their position, and at least the number of those that must not be. -/
theorem C128_two_modes (X : Expat) (hX : Conforms X) (mem : (Int → Nat) × (Int → Nat)) (steps : Nat) (tol : ℚ) (h0 : 0 ≤ tol) (h1 : tol ≤ 1) (items : List Str → Bool → List Item)
    (prog : Str) (ps : List (Str × Str)) (args : List Str) (fuel : Nat) (w : World) (hw : Comment (commentText w)) (f : Str)
    (hopt : ∀ p ∈ ps, IsOption p.1) (href : ∀ p ∈ ps, ¬ Refused w.fs p) (hstop : Stops args) (hfuel : ps.length < fuel)
    (hI : lastValue b!"-I" ps = none) (hO : lastValue b!"-O" ps = some f) (hf : f ≠ []) (hcreate : w.creatable (cstr f) = true)
    (hnew : w.fs.stat (cstr f) = none ∨ (w.fs.canRead (cstr f) = true ∧ w.fs.canWrite (cstr f) = true))
    (w1 : World) (hw1 : (main (whole X mem steps) (modeTest items) fuel (prog :: (flat ps ++ args)) ⟨{}, w⟩).1.world = w1)
    (prog' : Str) (ps' : List (Str × Str)) (args' : List Str) (fuel' : Nat) (w2 : World) (name file : Str)
    (hopt' : ∀ p ∈ ps', IsOption p.1) (href' : ∀ p ∈ ps', ¬ Refused w2.fs p) (hstop' : Stops args') (hfuel' : ps'.length < fuel')
    (hI' : lastValue b!"-I" ps' = some name) (hn : name ≠ []) (hO' : lastValue b!"-O" ps' = none)
    (hfile : LookedUp w2.fs name (values b!"-P" ps').reverse file) (hdoc : w2.openRead file = w1.openRead f)
    (xs ys : List Item) (hxs : items (prog :: args) false = xs) (hys : items (prog' :: args') true = ys) (hx : ∀ x ∈ xs, x.Valid) (hy : ∀ y ∈ ys, y.Valid)
    (hplain : ∀ x ∈ xs, ∀ y ∈ ys, ∀ a b, x.value = .plain a → y.value = .plain b → x.name = y.name → Diff.Spec.Fits a b ∧ Diff.Spec.TopClear a b ∧ Diff.Spec.Enough steps a b) :
    (main (whole X mem steps) (modeTest items) fuel (prog :: (flat ps ++ args)) ⟨{}, w⟩).2 = .ok 0 ∧
    ∃ n : Nat, (main (whole X mem steps) (modeTest items) fuel' (prog' :: (flat ps' ++ args')) ⟨{ tolerance := tol }, w2⟩).2 = .ok (if expectation ps' ≠ 0 then 0 else (n : Int)) ∧
      unlike (MayPass tol) xs ys ≤ n ∧ n ≤ unlike (MustPass tol) xs ys := by
  have hm1 := modeTest_makes (whole X mem steps) items (prog :: args) (expectation ps) false
  have hm2 := modeTest_makes (whole X mem steps) items (prog' :: args') (expectation ps') true
  rw [hxs] at hm1
  rw [hys] at hm2
  obtain ⟨r1, r2⟩ := record_calls (whole X mem steps) (modeTest items) (xs.map Item.call) prog ps args fuel w f 0 hopt href hstop hfuel hI hO hf hcreate hnew (modeTest_keeps _ _ _) hm1
  refine ⟨by rw [r1]; split <;> rfl, ?_⟩
  rw [hw1] at r2
  rw [r2] at hdoc
  have hread := read_recording X hX (xs.map Item.call) w hw (fun c hc => by
    obtain ⟨x, hx', rfl⟩ := List.mem_map.mp hc
    refine recorded_clean _ x.data (call_data x) ?_ ?_
    · rw [call_data]
      show ∀ c ∈ x.data.name, AttrChar c
      rw [data_name]; exact (hx x hx').2.1
    · rw [call_data]; exact data_printable x (hx x hx'))
  rw [show readXML X = (whole X mem steps).readXML from rfl] at hread
  generalize header w ++ _ ++ footer = bytes at hread hdoc
  obtain ⟨os, ho1, ho2, ho3⟩ := compare_calls tol (whole X mem steps) bytes ((xs.map Item.call).map recordedMeas) hread (by
      intro b hb
      obtain ⟨c, hc, rfl⟩ := List.mem_map.mp hb
      obtain ⟨x, hx', rfl⟩ := List.mem_map.mp hc
      exact ⟨recorded_plainly _, x.data, recorded_data x⟩)
    (modeTest items) (ys.map Item.call) prog' ps' args' fuel' w2 name file 0 hopt' href' hstop' hfuel' hI' hn hO' hm2 hfile hdoc
    (by
      intro c hc
      obtain ⟨y, hy', rfl⟩ := List.mem_map.mp hc
      rw [call_data]
      refine ⟨⟨_, rfl⟩, ?_⟩
      show y.data.name ≠ []
      rw [data_name]; exact (hy y hy').1)
    (by
      intro b hb c hc
      obtain ⟨c', hc', rfl⟩ := List.mem_map.mp hb
      obtain ⟨x, hx', rfl⟩ := List.mem_map.mp hc'
      obtain ⟨y, hy', rfl⟩ := List.mem_map.mp hc
      intro e d k he hd hke hkd _
      rw [recorded_data] at he
      rw [call_data] at hd
      cases he
      cases hd
      exact comparable_items tol h0 h1 x y (hx x hx') (hy y hy') k hke hkd)
    (by
      intro b hb content name hc hn ht
      obtain ⟨c', hc', rfl⟩ := List.mem_map.mp hb
      obtain ⟨x, hx', rfl⟩ := List.mem_map.mp hc'
      obtain ⟨y, hy', hye⟩ := List.mem_map.mp hc
      rw [recorded_data] at hn ht ⊢
      obtain ⟨y1, y2⟩ := call_plain y content name hye
      obtain ⟨a, x1, x2⟩ := data_plain x ht
      obtain ⟨p1, p2, p3⟩ := hplain x hx' y hy' a content x1 y1 (by rw [y2, ← hn]; exact (data_name x).symm)
      obtain ⟨t, ht⟩ := Diff.C15_total a content p1 p2
      refine ⟨t, ?_⟩
      show Diff.diff (some mem) steps x.data.content content = .ok t
      rw [x2]
      exact ht mem steps p3)
  have := failures_between (whole X mem steps) rfl tol h0 h1 xs ys os hx hy ho1 ho2
  rw [ho3, List.map_map]
  refine ⟨_, ?_, this⟩
  by_cases he : expectation ps' = 0
  · rw [if_neg (by simp [he]), if_neg (by simp [he])]; rfl
  · rw [if_pos (Ne.symm he), if_pos he]

/-- The measurements of tfRegressionTestTest3.cxx:12-31, when comparing and when recording. -/
def items3 (comparing : Bool) : List Item :=
  if comparing then [⟨b!"TextString", .string b!"string text value", true⟩, ⟨b!"TextPlain", .plain b!"this is\n some plain text\n", true⟩,
    ⟨b!"NumericInteger", .integer 0, false⟩, ⟨b!"NumericFloat", .float (9227469 / 8388608), true⟩,
    ⟨b!"NumericDouble", .double (7505999378950827 / 2251799813685248), true⟩, ⟨b!"NumericBoolean", .boolean true, false⟩]
  else [⟨b!"TextString", .string b!"difference string text value", true⟩, ⟨b!"TextPlain", .plain b!"this is different\n some plain text\n", true⟩,
    ⟨b!"NumericInteger", .integer 1, false⟩, ⟨b!"NumericFloat", .float (9227469 / 4194304), true⟩,
    ⟨b!"NumericDouble", .double (2501999792983609 / 562949953421312), true⟩, ⟨b!"NumericBoolean", .boolean false, false⟩]

theorem test3_is : test3 = modeTest fun _ => items3 := by
  funext argv
  rw [test3, modeTest]
  congr 1
  funext s
  have d1 : single.nearest (11 / 10) = 9227469 / 8388608 := by decide +kernel
  have d2 : single.nearest (22 / 10) = 9227469 / 4194304 := by decide +kernel
  have d3 : double.nearest (30 / 9) = 7505999378950827 / 2251799813685248 := by decide +kernel
  have d4 : double.nearest (40 / 9) = 2501999792983609 / 562949953421312 := by decide +kernel
  cases s.compareMode
  · simp only [values2, d2, d4, calls_straight]; rfl
  · simp only [values1, d1, d3, calls_straight]; rfl

theorem items3_valid (comparing : Bool) : ∀ x ∈ items3 comparing, x.Valid := by
  have f1 : IsFloat (9227469 / 8388608) := ⟨9227469, -23, by norm_num, by norm_num, by norm_num, by norm_num⟩
  have f2 : IsFloat (9227469 / 4194304) := ⟨9227469, -22, by norm_num, by norm_num, by norm_num, by norm_num⟩
  have d1 : IsDouble (7505999378950827 / 2251799813685248) := ⟨7505999378950827, -51, by norm_num, by norm_num, by norm_num, by norm_num⟩
  have d2 : IsDouble (2501999792983609 / 562949953421312) := ⟨2501999792983609, -49, by norm_num, by norm_num, by norm_num, by norm_num⟩
  cases comparing <;> simp only [items3, if_true, Bool.false_eq_true, if_false, List.mem_cons, List.not_mem_nil, or_false, forall_eq_or_imp, forall_eq]
  · exact ⟨⟨by decide, by decide, (by decide : ∀ c ∈ b!"difference string text value", Printable c)⟩,
      ⟨by decide, by decide, (by decide : ∀ c ∈ b!"this is different\n some plain text\n", Printable c)⟩, ⟨by decide, by decide, (by norm_num : |(1 : Int)| < 2 ^ 30)⟩,
      ⟨by decide, by decide, f2⟩, ⟨by decide, by decide, d2⟩, ⟨by decide, by decide, trivial⟩⟩
  · exact ⟨⟨by decide, by decide, (by decide : ∀ c ∈ b!"string text value", Printable c)⟩,
      ⟨by decide, by decide, (by decide : ∀ c ∈ b!"this is\n some plain text\n", Printable c)⟩, ⟨by decide, by decide, (by norm_num : |(0 : Int)| < 2 ^ 30)⟩,
      ⟨by decide, by decide, f1⟩, ⟨by decide, by decide, d1⟩, ⟨by decide, by decide, trivial⟩⟩

theorem items3_unlike (tol : ℚ) (h1 : tol ≤ 6 / 25) : unlike (MayPass tol) (items3 false) (items3 true) = 6 ∧ unlike (MustPass tol) (items3 false) (items3 true) = 6 := by
  have key : ∀ R : Item → Item → Prop, (∀ x ∈ items3 false, ∀ y ∈ items3 true, ¬ R x y) → unlike R (items3 false) (items3 true) = 6 := by
    intro R h
    simp only [items3, if_true, Bool.false_eq_true, if_false, List.mem_cons, List.not_mem_nil, or_false, forall_eq_or_imp, forall_eq] at h ⊢
    simp only [unlike, h, if_false]
  constructor <;> refine key _ fun x hx y hy h => ?_
  all_goals
    simp only [items3, if_true, Bool.false_eq_true, if_false, List.mem_cons, List.not_mem_nil, or_false] at hx hy
    obtain ⟨hn, h⟩ := h
    rcases hx with rfl | rfl | rfl | rfl | rfl | rfl <;> rcases hy with rfl | rfl | rfl | rfl | rfl | rfl <;> first
      | (revert hn; decide)
      | (revert h; simp; done)
      | skip
  all_goals
    revert h
    simp only [true_and]
    intro h
    split at h
  all_goals
    first
      | (rcases h with h | h)
      | skip
    all_goals
      norm_num [Close, abs_of_pos, abs_of_neg, abs_of_nonneg] at h
      try (rcases h with h | h <;> linarith)
      try linarith

theorem test3_between (X : Expat) (hX : Conforms X) (mem : (Int → Nat) × (Int → Nat)) (steps : Nat) (hsteps : 40 ≤ steps) (tol : ℚ) (h0 : 0 ≤ tol) (h1 : tol ≤ 1) (k : Nat) (u1 : k ≤ unlike (MayPass tol) (items3 false) (items3 true)) (u2 : unlike (MustPass tol) (items3 false) (items3 true) ≤ k)
    (prog : Str) (ps : List (Str × Str)) (args : List Str) (fuel : Nat) (w : World) (hw : Comment (commentText w)) (f : Str)
    (hopt : ∀ p ∈ ps, IsOption p.1) (href : ∀ p ∈ ps, ¬ Refused w.fs p) (hstop : Stops args) (hfuel : ps.length < fuel)
    (hI : lastValue b!"-I" ps = none) (hO : lastValue b!"-O" ps = some f) (hf : f ≠ []) (hcreate : w.creatable (cstr f) = true)
    (hnew : w.fs.stat (cstr f) = none ∨ (w.fs.canRead (cstr f) = true ∧ w.fs.canWrite (cstr f) = true))
    (w1 : World) (hw1 : (main (whole X mem steps) test3 fuel (prog :: (flat ps ++ args)) ⟨{}, w⟩).1.world = w1)
    (prog' : Str) (ps' : List (Str × Str)) (args' : List Str) (fuel' : Nat) (w2 : World) (name file : Str)
    (hopt' : ∀ p ∈ ps', IsOption p.1) (href' : ∀ p ∈ ps', ¬ Refused w2.fs p) (hstop' : Stops args') (hfuel' : ps'.length < fuel')
    (hI' : lastValue b!"-I" ps' = some name) (hn : name ≠ []) (hO' : lastValue b!"-O" ps' = none)
    (hfile : LookedUp w2.fs name (values b!"-P" ps').reverse file) (hdoc : w2.openRead file = w1.openRead f) :
    (main (whole X mem steps) test3 fuel (prog :: (flat ps ++ args)) ⟨{}, w⟩).2 = .ok 0 ∧
    (main (whole X mem steps) test3 fuel' (prog' :: (flat ps' ++ args')) ⟨{ tolerance := tol }, w2⟩).2 = .ok (if expectation ps' ≠ 0 then 0 else (k : Int)) := by
  rw [test3_is] at hw1 ⊢
  obtain ⟨g1, n, g2, g3, g4⟩ := C128_two_modes X hX mem steps tol h0 h1 (fun _ => items3) prog ps args fuel w hw f hopt href hstop hfuel hI hO hf hcreate hnew w1 hw1
    prog' ps' args' fuel' w2 name file hopt' href' hstop' hfuel' hI' hn hO' hfile hdoc _ _ rfl rfl (items3_valid false) (items3_valid true) (by
      intro x hx y hy a b hxa hyb _
      have ha : a = b!"this is different\n some plain text\n" := by
        simp only [items3, Bool.false_eq_true, if_false, List.mem_cons, List.not_mem_nil, or_false] at hx
        rcases hx with rfl | rfl | rfl | rfl | rfl | rfl <;> simp at hxa
        exact hxa.symm
      have hb : b = b!"this is\n some plain text\n" := by
        simp only [items3, if_true, List.mem_cons, List.not_mem_nil, or_false] at hy
        rcases hy with rfl | rfl | rfl | rfl | rfl | rfl <;> simp at hyb
        exact hyb.symm
      subst ha hb
      refine ⟨by rw [Diff.Spec.Fits]; decide +kernel, by rw [Diff.topClear_iff]; decide +kernel, ?_⟩
      have : Diff.Spec.Enough 40 b!"this is different\n some plain text\n" b!"this is\n some plain text\n" := by rw [Diff.Spec.Enough]; decide +kernel
      rw [Diff.Spec.Enough] at this ⊢
      omega)
  refine ⟨g1, ?_⟩
  rw [g2]
  have : n = k := by omega
  rw [this]

/-- **C128.** The project's own test of differences (tfRegressionTestTest3) records one set of values and compares with another: whatever the options, the recording and the comparing object, it returns the
6 it is written to return for every tolerance up to 0.24 (the default is 64/8388608), and 0 if it is told to expect anything but 0. -/
theorem C128_test3 (X : Expat) (hX : Conforms X) (mem : (Int → Nat) × (Int → Nat)) (steps : Nat) (hsteps : 40 ≤ steps) (tol : ℚ) (h0 : 0 ≤ tol) (h1 : tol ≤ 6 / 25)
    (prog : Str) (ps : List (Str × Str)) (args : List Str) (fuel : Nat) (w : World) (hw : Comment (commentText w)) (f : Str)
    (hopt : ∀ p ∈ ps, IsOption p.1) (href : ∀ p ∈ ps, ¬ Refused w.fs p) (hstop : Stops args) (hfuel : ps.length < fuel)
    (hI : lastValue b!"-I" ps = none) (hO : lastValue b!"-O" ps = some f) (hf : f ≠ []) (hcreate : w.creatable (cstr f) = true)
    (hnew : w.fs.stat (cstr f) = none ∨ (w.fs.canRead (cstr f) = true ∧ w.fs.canWrite (cstr f) = true))
    (w1 : World) (hw1 : (main (whole X mem steps) test3 fuel (prog :: (flat ps ++ args)) ⟨{}, w⟩).1.world = w1)
    (prog' : Str) (ps' : List (Str × Str)) (args' : List Str) (fuel' : Nat) (w2 : World) (name file : Str)
    (hopt' : ∀ p ∈ ps', IsOption p.1) (href' : ∀ p ∈ ps', ¬ Refused w2.fs p) (hstop' : Stops args') (hfuel' : ps'.length < fuel')
    (hI' : lastValue b!"-I" ps' = some name) (hn : name ≠ []) (hO' : lastValue b!"-O" ps' = none)
    (hfile : LookedUp w2.fs name (values b!"-P" ps').reverse file) (hdoc : w2.openRead file = w1.openRead f) :
    (main (whole X mem steps) test3 fuel (prog :: (flat ps ++ args)) ⟨{}, w⟩).2 = .ok 0 ∧
    (main (whole X mem steps) test3 fuel' (prog' :: (flat ps' ++ args')) ⟨{ tolerance := tol }, w2⟩).2 = .ok (if expectation ps' ≠ 0 then 0 else 6) :=
  test3_between X hX mem steps hsteps tol h0 (by linarith) 6 (items3_unlike tol h1).1.ge (items3_unlike tol h1).2.le prog ps args fuel w hw f hopt href hstop hfuel hI hO hf hcreate hnew w1 hw1 prog' ps' args' fuel' w2 name file hopt' href' hstop' hfuel' hI' hn hO' hfile hdoc

theorem items3_tolerant (tol : ℚ) (h0 : 51 / 100 ≤ tol) :
    unlike (MayPass tol) (items3 false) (items3 true) = 4 ∧ unlike (MustPass tol) (items3 false) (items3 true) = 4 := by
  have hne : tol ≠ 0 := by linarith
  have e1 : |(9227469 / 4194304 : ℚ) - 9227469 / 8388608| = 9227469 / 8388608 := by norm_num [abs_of_pos]
  have e2 : |(2501999792983609 / 562949953421312 : ℚ) - 7505999378950827 / 2251799813685248| = 2501999792983609 / 2251799813685248 := by norm_num [abs_of_pos]
  constructor <;> simp [items3, unlike, MayPass, MustPass, Close, hne, abs_of_pos, e1, e2]
  · rw [if_pos (.inl (.inl (by linarith))), if_pos (.inl (.inl (by linarith)))]
  · rw [if_pos (.inl (by linarith)), if_pos (.inl (by linarith))]

/-- **C128, negative.** With a tolerance from 0.51 to 1 the same test returns 4: 1.1 and 2.2, and 30/9 and 40/9, then count as the same. -/
theorem C128_test3_tolerant (X : Expat) (hX : Conforms X) (mem : (Int → Nat) × (Int → Nat)) (steps : Nat) (hsteps : 40 ≤ steps) (tol : ℚ) (h0 : 51 / 100 ≤ tol) (h1 : tol ≤ 1)
    (prog : Str) (ps : List (Str × Str)) (args : List Str) (fuel : Nat) (w : World) (hw : Comment (commentText w)) (f : Str)
    (hopt : ∀ p ∈ ps, IsOption p.1) (href : ∀ p ∈ ps, ¬ Refused w.fs p) (hstop : Stops args) (hfuel : ps.length < fuel)
    (hI : lastValue b!"-I" ps = none) (hO : lastValue b!"-O" ps = some f) (hf : f ≠ []) (hcreate : w.creatable (cstr f) = true)
    (hnew : w.fs.stat (cstr f) = none ∨ (w.fs.canRead (cstr f) = true ∧ w.fs.canWrite (cstr f) = true))
    (w1 : World) (hw1 : (main (whole X mem steps) test3 fuel (prog :: (flat ps ++ args)) ⟨{}, w⟩).1.world = w1)
    (prog' : Str) (ps' : List (Str × Str)) (args' : List Str) (fuel' : Nat) (w2 : World) (name file : Str)
    (hopt' : ∀ p ∈ ps', IsOption p.1) (href' : ∀ p ∈ ps', ¬ Refused w2.fs p) (hstop' : Stops args') (hfuel' : ps'.length < fuel')
    (hI' : lastValue b!"-I" ps' = some name) (hn : name ≠ []) (hO' : lastValue b!"-O" ps' = none)
    (hfile : LookedUp w2.fs name (values b!"-P" ps').reverse file) (hdoc : w2.openRead file = w1.openRead f) :
    (main (whole X mem steps) test3 fuel (prog :: (flat ps ++ args)) ⟨{}, w⟩).2 = .ok 0 ∧
    (main (whole X mem steps) test3 fuel' (prog' :: (flat ps' ++ args')) ⟨{ tolerance := tol }, w2⟩).2 = .ok (if expectation ps' ≠ 0 then 0 else 4) :=
  test3_between X hX mem steps hsteps tol (by linarith) h1 4 (items3_tolerant tol h0).1.ge (items3_tolerant tol h0).2.le prog ps args fuel w hw f hopt href hstop hfuel hI hO hf hcreate hnew w1 hw1 prog' ps' args' fuel' w2 name file hopt' href' hstop' hfuel' hI' hn hO' hfile hdoc

/-- The world left by recording with `-R 0`. -/
def recordedTest3 : World := (main (whole reference (fun _ => 0, fun _ => 0) 40) test3 3 [b!"prog", b!"-R", b!"0", b!"-O", b!"f"] ⟨{}, plainWorld⟩).1.world

theorem recordedTest3_file : Path.isFile recordedTest3.fs b!"f" = true ∧ Path.isReadable recordedTest3.fs b!"f" = true := by
  unfold recordedTest3
  constructor <;> decide +kernel

/-- Compared with the default tolerance. -/
example : (main (whole reference (fun _ => 0, fun _ => 0) 40) test3 3 [b!"prog", b!"-I", b!"f", b!"-R", b!"0", b!"more"] ⟨{}, recordedTest3⟩).2 = .ok 6 := by
  have h := (C128_test3 reference reference_conforms (fun _ => 0, fun _ => 0) 40 (by decide) (64 / 8388608) (by norm_num) (by norm_num) b!"prog" [(b!"-R", b!"0"), (b!"-O", b!"f")] [] 3 plainWorld plain_comment b!"f"
    (by simp [IsOption]) (by simp [Refused, Path.isFile]) (by simp [Stops, IsOption]) (by decide) (by decide) (by decide) (by decide) rfl (.inl rfl) recordedTest3 rfl
    b!"prog" [(b!"-I", b!"f"), (b!"-R", b!"0")] [b!"more"] 3 recordedTest3 b!"f" b!"f" (by simp [IsOption]) (by simp [Refused, recordedTest3_file]) (by simp [Stops, IsOption]) (by decide) (by decide) (by decide) (by decide)
    (.asIs) rfl).2
  rw [show expectation [(b!"-I", b!"f"), (b!"-R", b!"0")] = 0 by decide +kernel] at h
  exact h

end Verif.Whole
