import Verif.Regression.Model
import Verif.Regression.Spec
import Verif.Measurement.Props
import Mathlib.Data.List.Induction

/-!
# Properties C35, C36, C37: the command line
-/

set_option linter.unusedSimpArgs false

namespace Verif.Regression
open Spec Verif.Path Verif.Measurement Verif.Measurement.Spec

/-- The arguments still in view: the program name and `args`, whatever lies behind. -/
def View (a : Args) (prog : Str) (args : List Str) : Prop :=
  (∃ junk, a.argv = (prog :: args) ++ junk) ∧ a.argc = args.length + 1

theorem shiftLoop_spec : ∀ (rest pre junk : List Str) (x y : Str),
    ∃ x' y', shiftLoop rest.length (pre ++ x :: y :: rest ++ junk) pre.length = .ok (pre ++ rest ++ x' :: y' :: junk)
  | [], pre, junk, x, y => ⟨x, y, by simp [shiftLoop]⟩
  | c :: r, pre, junk, x, y => by
    have hswap : swapArgs (pre ++ x :: y :: (c :: r) ++ junk) (pre.length + 2) pre.length =
        .ok ((pre ++ [c]) ++ y :: x :: r ++ junk) := by
      rw [swapArgs]
      have e1 : (pre ++ x :: y :: (c :: r) ++ junk)[pre.length + 2]? = some c := by
        rw [List.append_assoc, List.getElem?_append_right (by omega)]; simp
      have e2 : (pre ++ x :: y :: (c :: r) ++ junk)[pre.length]? = some x := by
        rw [List.append_assoc, List.getElem?_append_right (by omega)]; simp
      rw [e1, e2]
      simp only [Except.ok.injEq]
      rw [List.append_assoc, List.set_append_right _ _ (by omega), List.set_append_right _ _ (by omega)]
      simp
    obtain ⟨x', y', h⟩ := shiftLoop_spec r (pre ++ [c]) junk y x
    refine ⟨x', y', ?_⟩
    rw [List.length_cons, shiftLoop, hswap]
    simp only
    rw [show pre.length + 1 = (pre ++ [c]).length by simp, h]
    simp

theorem remove_spec {a : Args} {prog x y : Str} {r : List Str} (h : View a prog (x :: y :: r)) :
    ∃ argv, a.remove 1 = .ok { a with argc := a.argc - 2, argv := argv } ∧
      ∀ i o, View { a with argc := a.argc - 2, argv := argv, infname := i, outfname := o } prog r := by
  obtain ⟨⟨junk, e⟩, hc⟩ := h
  obtain ⟨x', y', hs⟩ := shiftLoop_spec r [prog] junk x y
  refine ⟨[prog] ++ r ++ x' :: y' :: junk, ?_, ?_⟩
  · rw [Args.remove, e]
    have : shiftCount a.argc 1 = r.length := by simp [shiftCount, hc]
    rw [this]
    have e' : (prog :: x :: y :: r) ++ junk = [prog] ++ x :: y :: r ++ junk := by simp
    rw [e', show (1 : Nat) = [prog].length by rfl, hs]
  · intro i o
    exact ⟨⟨x' :: y' :: junk, by simp⟩, by simp [hc]⟩

/-- The variables a pair can change: the object and the two local names. -/
abbrev Vars := Obj × Option Str × Option Str

/-- The effect of one accepted pair. -/
def effect (fs : FileSys) (s : Vars) (p : Str × Str) : Vars :=
  if p.1 = optO then (s.1, s.2.1, if isFile fs p.2 && !isWritable fs p.2 then none else some p.2)
  else if p.1 = optI then (s.1, some p.2, s.2.2)
  else if p.1 = optR then ({ s.1 with expected := strtolInt p.2 }, s.2.1, s.2.2)
  else ({ s.1 with searchPath := p.2 :: s.1.searchPath }, s.2.1, s.2.2)

theorem loop_pair (fs : FileSys) (n : Nat) (o : Obj) (a : Args) (prog x v : Str) (r : List Str)
    (h : View a prog (x :: v :: r)) (hx : IsOption x) :
    (Refused fs (x, v) → ∃ m, parseLoop fs (n + 1) o a = (o, .error (.thrown m))) ∧
    (¬ Refused fs (x, v) → ∃ a', View a' prog r ∧ a'.infname = (effect fs (o, a.infname, a.outfname) (x, v)).2.1 ∧
      a'.outfname = (effect fs (o, a.infname, a.outfname) (x, v)).2.2 ∧
      parseLoop fs (n + 1) o a = parseLoop fs n (effect fs (o, a.infname, a.outfname) (x, v)).1 a') := by
  obtain ⟨argv, hrem, hview⟩ := remove_spec h
  obtain ⟨⟨junk, e⟩, hc⟩ := h
  have hc1 : 1 < a.argc := by rw [hc]; simp
  have hc2 : 1 < a.argc - 1 := by rw [hc]; simp
  have g1 : a.argv[1]? = some x := by rw [e]; simp
  have g2 : a.argv[2]? = some v := by rw [e]; simp
  rw [parseLoop, if_pos hc1]
  simp only [g1, g2, if_pos hc2, hrem]
  have nOI : optO ≠ optI := by decide
  have nOR : optO ≠ optR := by decide
  have nOP : optO ≠ optP := by decide
  have nIR : optI ≠ optR := by decide
  have nIP : optI ≠ optP := by decide
  have nRP : optR ≠ optP := by decide
  rcases hx with rfl | rfl | rfl | rfl
  · change (Refused fs (optO, v) → _) ∧ (¬ Refused fs (optO, v) → _)
    refine ⟨fun hr => ?_, fun _ => ?_⟩
    · rcases hr with ⟨h1, _⟩ | ⟨h1, _⟩
      · exact absurd h1 nOI
      · exact absurd h1 nOP
    · simp only [effect, optO, if_true]
      refine ⟨_, hview _ _, ?_, ?_, rfl⟩ <;> simp
  · change (Refused fs (optI, v) → _) ∧ (¬ Refused fs (optI, v) → _)
    refine ⟨fun hr => ?_, fun hr => ?_⟩
    · rcases hr with ⟨_, h2⟩ | ⟨h1, _⟩
      · rw [if_neg (by decide), if_pos (by decide), if_pos]
        · exact ⟨_, rfl⟩
        · cases h : isFile fs v <;> cases h' : isReadable fs v <;> simp_all
      · exact absurd h1 nIP
    · have : isFile fs v = true ∧ isReadable fs v = true := by
        by_contra hh; exact hr (Or.inl ⟨rfl, hh⟩)
      rw [if_neg (by decide), if_pos (by decide), if_neg (by simp [this])]
      simp only [effect, Ne.symm nOI, if_false, if_true]
      refine ⟨_, hview _ _, ?_, ?_, rfl⟩ <;> simp [optI, optO]
  · change (Refused fs (optR, v) → _) ∧ (¬ Refused fs (optR, v) → _)
    refine ⟨fun hr => ?_, fun _ => ?_⟩
    · rcases hr with ⟨h1, _⟩ | ⟨h1, _⟩
      · exact absurd h1 (Ne.symm nIR)
      · exact absurd h1 nRP
    · rw [if_neg (by decide), if_neg (by decide), if_pos (by decide)]
      simp only [effect, Ne.symm nOR, Ne.symm nIR, if_false, if_true]
      refine ⟨_, hview a.infname a.outfname, ?_, ?_, ?_⟩ <;> simp [optI, optO, optR]
  · change (Refused fs (optP, v) → _) ∧ (¬ Refused fs (optP, v) → _)
    refine ⟨fun hr => ?_, fun hr => ?_⟩
    · rcases hr with ⟨h1, _⟩ | ⟨_, h2⟩
      · exact absurd h1 (Ne.symm nIP)
      · rw [if_neg (by decide), if_neg (by decide), if_neg (by decide), if_pos (by decide), if_pos]
        · exact ⟨_, rfl⟩
        · cases h : isDirectory fs v <;> cases h' : isReadable fs v <;> simp_all
    · have : isDirectory fs v = true ∧ isReadable fs v = true := by
        by_contra hh; exact hr (Or.inr ⟨rfl, hh⟩)
      rw [if_neg (by decide), if_neg (by decide), if_neg (by decide), if_pos (by decide), if_neg (by simp [this])]
      simp only [effect, Ne.symm nOP, Ne.symm nIP, Ne.symm nRP, if_false, if_true]
      refine ⟨_, hview a.infname a.outfname, ?_, ?_, ?_⟩ <;> simp [optI, optO, optR, optP]

theorem loop_dangling (fs : FileSys) (o : Obj) (a : Args) (prog x : Str) (h : View a prog [x]) (hx : IsOption x) :
    ∀ n, parseLoop fs n o a = (o, .error .fuel)
  | 0 => rfl
  | n + 1 => by
    obtain ⟨⟨junk, e⟩, hc⟩ := id h
    have hc1 : 1 < a.argc := by rw [hc]; simp
    have hc2 : ¬ 1 < a.argc - 1 := by rw [hc]; simp
    have g1 : a.argv[1]? = some x := by rw [e]; simp
    rw [parseLoop, if_pos hc1]
    simp only [g1, if_neg hc2, loop_dangling fs o a prog x h hx n]
    rcases hx with rfl | rfl | rfl | rfl <;> simp [optO, optI, optR, optP]

theorem loop_stop (fs : FileSys) (n : Nat) (o : Obj) (a : Args) (prog : Str) (rest : List Str) (h : View a prog rest)
    (hs : Stops rest) : parseLoop fs (n + 1) o a = (o, .ok a) ∧ a.argv.take a.argc = prog :: rest := by
  obtain ⟨⟨junk, e⟩, hc⟩ := h
  have ht : a.argv.take a.argc = prog :: rest := by
    rw [e, hc, show rest.length + 1 = (prog :: rest).length by rfl, List.take_left]
  refine ⟨?_, ht⟩
  cases rest with
  | nil => rw [parseLoop, if_neg (by rw [hc]; simp)]
  | cons x r =>
    have hx : ¬ IsOption x := hs x (by simp)
    have g1 : a.argv[1]? = some x := by rw [e]; simp
    rw [parseLoop, if_pos (by rw [hc]; simp)]
    simp only [g1]
    simp only [IsOption, not_or] at hx
    rw [if_neg (show x ≠ optO from hx.1), if_neg (show x ≠ optI from hx.2.1), if_neg (show x ≠ optR from hx.2.2.1),
      if_neg (show x ≠ optP from hx.2.2.2)]

theorem loop_pairs (fs : FileSys) (n : Nat) (prog : Str) (rest : List Str) : ∀ (ps : List (Str × Str)) (o : Obj) (a : Args),
    View a prog (flat ps ++ rest) → (∀ p ∈ ps, IsOption p.1) → (∀ p ∈ ps, ¬ Refused fs p) →
    ∃ a', View a' prog rest ∧ a'.infname = (ps.foldl (effect fs) (o, a.infname, a.outfname)).2.1 ∧
      a'.outfname = (ps.foldl (effect fs) (o, a.infname, a.outfname)).2.2 ∧
      parseLoop fs (ps.length + n) o a = parseLoop fs n (ps.foldl (effect fs) (o, a.infname, a.outfname)).1 a'
  | [], o, a, h, _, _ => ⟨a, h, rfl, rfl, by simp⟩
  | (x, v) :: ps, o, a, h, hopt, href => by
    obtain ⟨a1, hv, hi, ho, e⟩ := (loop_pair fs (ps.length + n) o a prog x v (flat ps ++ rest) h
      (hopt (x, v) (by simp))).2 (href (x, v) (by simp))
    obtain ⟨a2, hv2, hi2, ho2, e2⟩ := loop_pairs fs n prog rest ps (effect fs (o, a.infname, a.outfname) (x, v)).1 a1 hv
      (fun p hp => hopt p (by simp [hp])) (fun p hp => href p (by simp [hp]))
    have hvars : ((effect fs (o, a.infname, a.outfname) (x, v)).1, a1.infname, a1.outfname) =
        effect fs (o, a.infname, a.outfname) (x, v) := by rw [hi, ho]
    rw [hvars] at hi2 ho2 e2
    refine ⟨a2, hv2, by simpa using hi2, by simpa using ho2, ?_⟩
    rw [List.length_cons, show ps.length + 1 + n = ps.length + n + 1 by omega, e, e2]
    simp

/-- Every command line is some option pairs followed by a rest that stops, or by one dangling option. -/
theorem decompose : ∀ args : List Str, ∃ ps rest, args = flat ps ++ rest ∧ (∀ p ∈ ps, IsOption p.1) ∧
    (Stops rest ∨ ∃ x, rest = [x] ∧ IsOption x)
  | [] => ⟨[], [], rfl, by simp, Or.inl (by simp [Stops])⟩
  | [x] => by
    by_cases hx : IsOption x
    · exact ⟨[], [x], rfl, by simp, Or.inr ⟨x, rfl, hx⟩⟩
    · exact ⟨[], [x], rfl, by simp, Or.inl (by simpa [Stops] using hx)⟩
  | x :: v :: r => by
    by_cases hx : IsOption x
    · obtain ⟨ps, rest, e, h1, h2⟩ := decompose r
      exact ⟨(x, v) :: ps, rest, by simp [flat, e], by simpa [hx] using h1, h2⟩
    · exact ⟨[], x :: v :: r, rfl, by simp, Or.inl (by simpa [Stops] using hx)⟩

theorem view_initial (prog : Str) (args : List Str) (i o : Option Str) :
    View { argc := (prog :: args).length, argv := prog :: args, infname := i, outfname := o } prog args :=
  ⟨⟨[], by simp⟩, by simp⟩

theorem view_first (argv : List Str) (prog : Str) (args : List Str) (h : argv = prog :: args) :
    View { argc := argv.length, argv := argv } prog args := by
  subst h; exact view_initial prog args none none

/-- What the pairs do to the object, in terms of the last and of all values. -/
theorem foldl_effect (fs : FileSys) : ∀ (ps : List (Str × Str)) (s : Vars), (∀ p ∈ ps, IsOption p.1) →
    ps.foldl (effect fs) s =
      ({ s.1 with
          expected := match lastValue optR ps with | none => s.1.expected | some v => strtolInt v
          searchPath := (values optP ps).reverse ++ s.1.searchPath },
        (match lastValue optI ps with | none => s.2.1 | some v => some v),
        (match lastValue optO ps with
          | none => s.2.2 | some v => if isFile fs v && !isWritable fs v then none else some v)) := by
  intro ps
  induction ps using List.reverseRecOn with
  | nil => intro s _; simp [lastValue, values]
  | append_singleton ps p ih =>
    intro s h
    rw [List.foldl_append, ih s (fun q hq => h q (by simp [hq]))]
    have hp := h p (by simp)
    obtain ⟨x, v⟩ := p
    have nOI : optO ≠ optI := by decide
    have nOR : optO ≠ optR := by decide
    have nOP : optO ≠ optP := by decide
    have nIR : optI ≠ optR := by decide
    have nIP : optI ≠ optP := by decide
    have nRP : optR ≠ optP := by decide
    have hp : x = optO ∨ x = optI ∨ x = optR ∨ x = optP := hp
    rcases hp with rfl | rfl | rfl | rfl <;>
      simp [effect, lastValue, values, List.filter_append, List.filter_cons, nOI, nOR, nOP, nIR, nIP, nRP,
        Ne.symm nOI, Ne.symm nOR, Ne.symm nOP, Ne.symm nIR, Ne.symm nIP, Ne.symm nRP]

/-- **C35, C36.** For a command line of option pairs, none refused, followed by a rest that does not begin with an option, parsing ends
normally, hands on exactly the program name and the rest, and leaves the settings of the last options in force. -/
theorem C35_options_removed (fs : FileSys) (fuel : Nat) (o : Obj) (prog : Str) (ps : List (Str × Str)) (rest : List Str)
    (hopt : ∀ p ∈ ps, IsOption p.1) (href : ∀ p ∈ ps, ¬ Refused fs p) (hstop : Stops rest) (hfuel : ps.length < fuel) :
    parseArguments fs fuel o (prog :: (flat ps ++ rest)) =
      ({ o with
          expected := (match lastValue b!"-R" ps with | none => o.expected | some v => strtolInt v)
          searchPath := (values b!"-P" ps).reverse ++ o.searchPath
          inFileName := (match lastValue b!"-I" ps with | none => o.inFileName | some v => v)
          outFileName := (match lastValue b!"-O" ps with
            | none => o.outFileName
            | some v => if isFile fs v && !isWritable fs v then o.outFileName else v) },
        .ok (prog :: rest)) := by
  obtain ⟨n, rfl⟩ : ∃ n, fuel = ps.length + (n + 1) := ⟨fuel - ps.length - 1, by omega⟩
  obtain ⟨a', hv, hi, ho, e⟩ := loop_pairs fs (n + 1) prog rest ps o _ (view_first _ prog _ rfl) hopt href
  obtain ⟨e', ht⟩ := loop_stop fs n (ps.foldl (effect fs) (o, none, none)).1 a' prog rest hv hstop
  rw [parseArguments, e, e']
  simp only at hi ho
  simp only [hi, ho, ht, foldl_effect fs ps (o, none, none) hopt]
  simp only [show (b!"-R" : Str) = optR from rfl, show (b!"-P" : Str) = optP from rfl, show (b!"-I" : Str) = optI from rfl,
    show (b!"-O" : Str) = optO from rfl]
  cases lastValue optI ps <;> cases lastValue optO ps <;> simp
  all_goals
    next v => by_cases hw : isFile fs v = true ∧ isWritable fs v = false
              · simp only [if_pos hw]
              · simp only [if_neg hw]

/-- **C35.** Whenever parsing ends normally, the arguments handed on are the program name and a suffix of the command line, what
was removed being option pairs that were not refused; the rest does not begin with an option. -/
theorem C35_remaining_is_suffix (fs : FileSys) (fuel : Nat) (o o' : Obj) (prog : Str) (args out : List Str)
    (h : parseArguments fs fuel o (prog :: args) = (o', .ok out)) :
    ∃ ps rest, args = flat ps ++ rest ∧ (∀ p ∈ ps, IsOption p.1 ∧ ¬ Refused fs p) ∧ Stops rest ∧ out = prog :: rest := by
  have key : ∀ (fuel : Nat) (args : List Str) (o : Obj) (a : Args), View a prog args → ∀ o' a', parseLoop fs fuel o a = (o', .ok a') →
      ∃ ps rest, args = flat ps ++ rest ∧ (∀ p ∈ ps, IsOption p.1 ∧ ¬ Refused fs p) ∧ Stops rest ∧
        a'.argv.take a'.argc = prog :: rest := by
    intro fuel
    induction fuel with
    | zero => intro args o a _ o' a' h; cases h
    | succ n ih =>
      intro args o a hv o' a' h
      by_cases hs : Stops args
      · obtain ⟨e, ht⟩ := loop_stop fs n o a prog args hv hs
        rw [e] at h; cases h
        exact ⟨[], args, rfl, by simp, hs, ht⟩
      · match args, hv, hs with
        | [], _, hs => exact absurd (by simp [Stops]) hs
        | [x], hv, hs =>
          have hx : IsOption x := by simpa [Stops] using hs
          rw [loop_dangling fs o a prog x hv hx] at h; cases h
        | x :: v :: r, hv, hs =>
          have hx : IsOption x := by simpa [Stops] using hs
          obtain ⟨h1, h2⟩ := loop_pair fs n o a prog x v r hv hx
          by_cases hr : Refused fs (x, v)
          · obtain ⟨m, e⟩ := h1 hr; rw [e] at h; cases h
          · obtain ⟨a1, hv1, _, _, e⟩ := h2 hr
            rw [e] at h
            obtain ⟨ps, rest, e1, e2, e3, e4⟩ := ih r _ a1 hv1 o' a' h
            refine ⟨(x, v) :: ps, rest, by simp [flat, e1], ?_, e3, e4⟩
            intro p hp
            rcases List.mem_cons.mp hp with rfl | hp
            · exact ⟨hx, hr⟩
            · exact e2 p hp
  rw [parseArguments] at h
  split at h
  · cases h
  · next o1 a1 hl =>
    obtain ⟨ps, rest, e1, e2, e3, e4⟩ := key fuel args o _ (view_first _ prog args rfl) o1 a1 hl
    cases h
    exact ⟨ps, rest, e1, e2, e3, e4⟩

/-- **C36.** The value of `-R` in canonical decimal notation is the number itself, for every `int`. -/
theorem C36_expected_value (v : Int) (s : Str) (hs : IsDecimal v s) (h1 : intMin ≤ v) (h2 : v ≤ intMax) : strtolInt s = v := by
  obtain ⟨ds, rfl, h0, hd, hh, _⟩ := hs
  obtain ⟨r1, r2⟩ := readInt_digits ds h0 hd
  simp only [intMin, intMax] at h1 h2
  rw [strtolInt]
  by_cases hv : v < 0
  · simp only [if_pos hv, List.singleton_append, r2, hh, longToInt]; omega
  · simp only [if_neg hv, List.nil_append, r1, hh, longToInt]; omega

/-- **C36.** A refused pair ends parsing by an exception; expected value and search path then are those of the pairs before
it, and the file names are unchanged. -/
theorem C36_refused_throws (fs : FileSys) (fuel : Nat) (o : Obj) (prog : Str) (ps : List (Str × Str)) (bad : Str × Str)
    (after : List Str) (hopt : ∀ p ∈ ps, IsOption p.1 ∧ ¬ Refused fs p) (hbad : Refused fs bad) (hfuel : ps.length < fuel) :
    ∃ msg, parseArguments fs fuel o (prog :: (flat ps ++ bad.1 :: bad.2 :: after)) =
      ({ o with
          expected := (match lastValue b!"-R" ps with | none => o.expected | some v => strtolInt v)
          searchPath := (values b!"-P" ps).reverse ++ o.searchPath }, .error (.thrown msg)) := by
  obtain ⟨n, rfl⟩ : ∃ n, fuel = ps.length + (n + 1) := ⟨fuel - ps.length - 1, by omega⟩
  obtain ⟨a', hv, _, _, e⟩ := loop_pairs fs (n + 1) prog (bad.1 :: bad.2 :: after) ps o _ (view_first _ prog _ rfl)
    (fun p hp => (hopt p hp).1) (fun p hp => (hopt p hp).2)
  have hb : IsOption bad.1 := by
    rcases hbad with ⟨h, _⟩ | ⟨h, _⟩ <;> simp [IsOption, h]
  obtain ⟨m, e'⟩ := (loop_pair fs n (ps.foldl (effect fs) (o, none, none)).1 a' prog bad.1 bad.2 after hv hb).1 hbad
  refine ⟨m, ?_⟩
  rw [parseArguments, e, e', foldl_effect fs ps (o, none, none) (fun p hp => (hopt p hp).1)]
  rfl

/-- A world without files. -/
def noFiles : FileSys := ⟨fun _ => none, fun _ => false, fun _ => false, fun _ => false⟩

example : parseArguments ⟨fun s => if s = b!"d" then some .directory else none, fun _ => true, fun _ => true, fun _ => true⟩ 9 {}
    [b!"prog", b!"-R", b!"3", b!"-P", b!"d", b!"-O", b!"x", b!"-R", b!"-4", b!"arg", b!"-O", b!"z"] =
    ({ expected := -4, searchPath := [b!"d"], outFileName := b!"x" }, .ok [b!"prog", b!"arg", b!"-O", b!"z"]) :=
  C35_options_removed _ 9 {} b!"prog" [(b!"-R", b!"3"), (b!"-P", b!"d"), (b!"-O", b!"x"), (b!"-R", b!"-4")]
    [b!"arg", b!"-O", b!"z"] (by simp [IsOption]) (by simp [Refused, isDirectory, isReadable, cstr])
    (by simp [Stops, IsOption]) (by decide)

example : ∃ msg, parseArguments noFiles 9 {} [b!"prog", b!"-R", b!"3", b!"-I", b!"missing", b!"x"] =
    ({ expected := strtolInt b!"3" }, .error (.thrown msg)) :=
  C36_refused_throws noFiles 9 {} b!"prog" [(b!"-R", b!"3")] (b!"-I", b!"missing") [b!"x"]
    (by simp [IsOption, Refused]) (by simp [Refused, noFiles, isFile]) (by decide)

/-- **C37.** Parsing runs for ever exactly when the command line is option pairs, none refused, followed by one option
without a value. -/
theorem C37_endless_iff (fs : FileSys) (o : Obj) (prog : Str) (args : List Str) :
    (∀ fuel, (parseArguments fs fuel o (prog :: args)).2 = .error .fuel) ↔
      ∃ ps x, args = flat ps ++ [x] ∧ IsOption x ∧ ∀ p ∈ ps, IsOption p.1 ∧ ¬ Refused fs p := by
  constructor
  · intro h
    have key : ∀ (n : Nat) (args : List Str), args.length ≤ n → ∀ (o : Obj) (a : Args), View a prog args →
        (∀ fuel, (parseLoop fs fuel o a).2 = .error .fuel) →
        ∃ ps x, args = flat ps ++ [x] ∧ IsOption x ∧ ∀ p ∈ ps, IsOption p.1 ∧ ¬ Refused fs p := by
      intro n
      induction n using Nat.strongRecOn with
      | _ n ih =>
        intro args hl o a hv hall
        by_cases hs : Stops args
        · have := hall 1
          rw [(loop_stop fs 0 o a prog args hv hs).1] at this; cases this
        · match args, hv, hs, hl with
          | [], _, hs, _ => exact absurd (by simp [Stops]) hs
          | [x], hv, hs, _ =>
            have hx : IsOption x := by simpa [Stops] using hs
            exact ⟨[], x, rfl, hx, by simp⟩
          | x :: v :: r, hv, hs, hl =>
            have hx : IsOption x := by simpa [Stops] using hs
            by_cases hr : Refused fs (x, v)
            · obtain ⟨m, e⟩ := (loop_pair fs 0 o a prog x v r hv hx).1 hr
              have := hall 1; rw [e] at this; cases this
            · simp only [List.length_cons] at hl
              have hstep := fun n => (loop_pair fs n o a prog x v r hv hx).2 hr
              obtain ⟨a1, hv1, hi1, ho1, _⟩ := hstep 0
              have hall' : ∀ fuel, (parseLoop fs fuel (effect fs (o, a.infname, a.outfname) (x, v)).1 a1).2 = .error .fuel := by
                obtain ⟨argv, hrem, hview⟩ := remove_spec hv
                intro fuel
                by_contra hne
                -- the result does not depend on what lies behind the arguments in view
                obtain ⟨ps, rest, er, hps, hend⟩ := decompose r
                by_cases href : ∀ p ∈ ps, ¬ Refused fs p
                · rcases hend with hend | ⟨y, rfl, hy⟩
                  · obtain ⟨a2, hv2, _, _, e2⟩ := hstep (ps.length + 1)
                    obtain ⟨a3, hv3, _, _, e3⟩ := loop_pairs fs 1 prog rest ps
                      (effect fs (o, a.infname, a.outfname) (x, v)).1 a2 (er ▸ hv2) hps href
                    have := hall (ps.length + 1 + 1)
                    rw [e2, e3, (loop_stop fs 0 _ a3 prog rest hv3 hend).1] at this; cases this
                  · -- dangling: then a1 loops as well
                    apply hne
                    have hany : ∀ (ps : List (Str × Str)) (fuel : Nat) (o : Obj) (a : Args), View a prog (flat ps ++ [y]) →
                        (∀ p ∈ ps, IsOption p.1) → (∀ p ∈ ps, ¬ Refused fs p) → (parseLoop fs fuel o a).2 = .error .fuel := by
                      intro ps
                      induction ps with
                      | nil => intro fuel o a hv _ _; rw [loop_dangling fs o a prog y hv hy]
                      | cons p ps ihp =>
                        intro fuel o a hv h1 h2
                        cases fuel with
                        | zero => rfl
                        | succ m =>
                          obtain ⟨a4, hv4, _, _, e4⟩ := (loop_pair fs m o a prog p.1 p.2 (flat ps ++ [y]) hv
                            (h1 p (by simp))).2 (h2 p (by simp))
                          rw [e4]
                          exact ihp m _ a4 hv4 (fun q hq => h1 q (by simp [hq])) (fun q hq => h2 q (by simp [hq]))
                    exact hany ps fuel _ a1 (er ▸ hv1) hps href
                · -- some pair is refused: contradiction with hall
                  have hbad : ∃ m fuel', (parseLoop fs fuel' o a).2 = .error (.thrown m) := by
                    obtain ⟨a2, hv2, _, _, _⟩ := hstep 0
                    have hthrow : ∀ (ps : List (Str × Str)) (o : Obj) (a : Args), View a prog (flat ps ++ rest) →
                        (∀ p ∈ ps, IsOption p.1) → (¬ ∀ p ∈ ps, ¬ Refused fs p) →
                        ∃ m, (parseLoop fs ps.length o a).2 = .error (.thrown m) := by
                      intro ps
                      induction ps with
                      | nil => intro o a _ _ h; exact absurd (by simp) h
                      | cons p ps ihp =>
                        intro o a hv h1 h2
                        by_cases hp : Refused fs p
                        · obtain ⟨m, e⟩ := (loop_pair fs ps.length o a prog p.1 p.2 (flat ps ++ rest) hv (h1 p (by simp))).1 hp
                          exact ⟨m, by rw [List.length_cons, e]⟩
                        · obtain ⟨a4, hv4, _, _, e4⟩ := (loop_pair fs ps.length o a prog p.1 p.2 (flat ps ++ rest) hv
                            (h1 p (by simp))).2 hp
                          rw [List.length_cons, e4]
                          apply ihp _ a4 hv4 (fun q hq => h1 q (by simp [hq]))
                          intro hh
                          apply h2
                          intro q hq
                          rcases List.mem_cons.mp hq with rfl | hq
                          · exact hp
                          · exact hh q hq
                    obtain ⟨m, hm⟩ := hthrow ((x, v) :: ps) o a (by simpa [flat, er] using hv)
                      (by intro p hp; rcases List.mem_cons.mp hp with rfl | hp; exacts [hx, hps p hp])
                      (by intro hh; exact href (fun p hp => hh p (by simp [hp])))
                    exact ⟨m, _, hm⟩
                  obtain ⟨m, fuel', hm⟩ := hbad
                  rw [hall fuel'] at hm; cases hm
              obtain ⟨ps, y, e, hy, hps⟩ := ih r.length (by omega) r (Nat.le_refl _) _ a1 hv1 hall'
              refine ⟨(x, v) :: ps, y, by simp [flat, e], hy, ?_⟩
              intro p hp
              rcases List.mem_cons.mp hp with rfl | hp
              · exact ⟨hx, hr⟩
              · exact hps p hp
    refine key args.length args (Nat.le_refl _) o _ (view_first _ prog args rfl) ?_
    intro fuel
    have := h fuel
    rw [parseArguments] at this
    split at this
    · next e => rw [e]; cases this; rfl
    · cases this
  · rintro ⟨ps, x, rfl, hx, hps⟩ fuel
    have hany : ∀ (ps : List (Str × Str)) (fuel : Nat) (o : Obj) (a : Args), View a prog (flat ps ++ [x]) →
        (∀ p ∈ ps, IsOption p.1 ∧ ¬ Refused fs p) → (parseLoop fs fuel o a).2 = .error .fuel := by
      intro ps
      induction ps with
      | nil => intro fuel o a hv _; rw [loop_dangling fs o a prog x hv hx]
      | cons p ps ihp =>
        intro fuel o a hv h1
        cases fuel with
        | zero => rfl
        | succ m =>
          obtain ⟨a4, hv4, _, _, e4⟩ := (loop_pair fs m o a prog p.1 p.2 (flat ps ++ [x]) hv
            (h1 p (by simp)).1).2 (h1 p (by simp)).2
          rw [e4]
          exact ihp m _ a4 hv4 (fun q hq => h1 q (by simp [hq]))
    have := hany ps fuel o _ (view_first _ prog _ rfl) hps
    rw [parseArguments]
    split
    · next e => rw [e] at this; cases this; rfl
    · next e => rw [e] at this; cases this

/-- **C37, negative.** There is a command line on which parsing never ends. -/
theorem C37_endless : ¬ ∀ (fs : FileSys) (o : Obj) (argv : List Str), ∃ fuel,
    (parseArguments fs fuel o argv).2 ≠ .error .fuel := by
  intro h
  obtain ⟨fuel, hf⟩ := h noFiles {} [b!"prog", b!"-O"]
  exact hf ((C37_endless_iff noFiles {} b!"prog" [b!"-O"]).mpr ⟨[], b!"-O", rfl, by simp [IsOption], by simp⟩ fuel)

end Verif.Regression
