import Verif.Regression.CallerArgv
import Verif.Regression.SettingsProps

/-!
# Property C125: the caller's array after `Main`, and a second run with it
-/

set_option linter.unusedSimpArgs false

namespace Verif.Regression
open Spec Verif.Path Verif.Measurement Verif.Measurement.Spec Verif.Xml Verif.Xml.Spec

/-! ## Specification -/

/-- The removed pairs as they lie behind the arguments of the test: the last one first, and each with its value before the option if the test gets an odd number of arguments. -/
def Spec.removed (ps : List (Str × Str)) (n : Nat) : List Str :=
  (ps.reverse.map fun p => if n % 2 = 0 then [p.1, p.2] else [p.2, p.1]).flatten

/-! ## Proofs -/

/-- **C125.** The two ways to describe the loop agree: it ends normally with the same variables, by an exception, or not at all, in both. -/
theorem C125_same_parser (fs : FileSys) : ∀ (fuel : Nat) (o : Obj) (a : Args),
    (∀ o' a', parseLoop fs fuel o a = (o', .ok a') → argvLoop fs fuel a = .ok a') ∧
    (∀ o' m, parseLoop fs fuel o a = (o', .error (.thrown m)) → ∃ a', argvLoop fs fuel a = .ok a') ∧
    (∀ f, argvLoop fs fuel a = .error f → ∃ o', parseLoop fs fuel o a = (o', .error f)) := by
  intro fuel
  induction fuel with
  | zero =>
    intro o a
    refine ⟨fun o' a' h => by simp [parseLoop] at h, fun o' m h => by simp [parseLoop] at h, fun f h => ?_⟩
    simp only [argvLoop] at h; cases h; exact ⟨o, rfl⟩
  | succ n ih =>
    intro o a
    have hrem : ∀ m, a.remove 1 ≠ .error (.thrown m) := by
      have hsh : ∀ (k : Nat) (l : List Str) (j : Nat) m, shiftLoop k l j ≠ .error (.thrown m) := by
        intro k
        induction k with
        | zero => intro l j m h; simp [shiftLoop] at h
        | succ k ih =>
          intro l j m h
          rw [shiftLoop] at h
          rcases hs : swapArgs l (j + 2) j with f | l'
          · rw [hs] at h
            simp only [swapArgs] at hs
            split at hs
            · cases hs
            · cases hs; cases h
          · rw [hs] at h; exact ih _ _ _ h
      intro m h
      rw [Args.remove] at h
      rcases hs : shiftLoop (shiftCount a.argc 1) a.argv 1 with f | l
      · rw [hs] at h; cases h; exact hsh _ _ _ _ hs
      · rw [hs] at h; cases h
    have leaf : ∀ (a : Args) (o : Obj), (∀ o' a', ((o, .ok a) : Obj × Except Fault Args) = (o', .ok a') → (Except.ok a : Except Fault Args) = .ok a') ∧
        (∀ o' m, ((o, .ok a) : Obj × Except Fault Args) = (o', .error (.thrown m)) → ∃ a', (Except.ok a : Except Fault Args) = .ok a') ∧
        (∀ f, (Except.ok a : Except Fault Args) = .error f → ∃ o', ((o, .ok a) : Obj × Except Fault Args) = (o', .error f)) :=
      fun a o => ⟨fun _ _ h => (by cases h; rfl), fun _ _ h => (by cases h), fun _ h => (by cases h)⟩
    have refused : ∀ (a : Args) (o : Obj) (m : String), (∀ o' a', ((o, .error (.thrown m)) : Obj × Except Fault Args) = (o', .ok a') → (Except.ok a : Except Fault Args) = .ok a') ∧
        (∀ o' m', ((o, .error (.thrown m)) : Obj × Except Fault Args) = (o', .error (.thrown m')) → ∃ a', (Except.ok a : Except Fault Args) = .ok a') ∧
        (∀ f, (Except.ok a : Except Fault Args) = .error f → ∃ o', ((o, .error (.thrown m)) : Obj × Except Fault Args) = (o', .error f)) :=
      fun a o m => ⟨fun _ _ h => (by cases h), fun _ _ _ => ⟨a, rfl⟩, fun _ h => (by cases h)⟩
    have bad : ∀ (f : Fault) (o : Obj), (∀ m, f ≠ .thrown m) → (∀ o' a', ((o, .error f) : Obj × Except Fault Args) = (o', .ok a') → (Except.error f : Except Fault Args) = .ok a') ∧
        (∀ o' m, ((o, .error f) : Obj × Except Fault Args) = (o', .error (.thrown m)) → ∃ a', (Except.error f : Except Fault Args) = .ok a') ∧
        (∀ f', (Except.error f : Except Fault Args) = .error f' → ∃ o', ((o, .error f) : Obj × Except Fault Args) = (o', .error f')) :=
      fun f o hf => ⟨fun _ _ h => (by cases h), fun _ m h => (by cases h; exact absurd rfl (hf m)), fun f' h => by cases h; exact ⟨o, rfl⟩⟩
    rw [parseLoop, argvLoop]
    by_cases h1 : 1 < a.argc
    · simp only [if_pos h1]
      rcases a.argv[1]? with _ | opt
      · exact bad _ _ (by intro m h; cases h)
      simp only
      by_cases h2 : 1 < a.argc - 1
      · simp only [if_pos h2]
        rcases a.argv[2]? with _ | v
        · simp only
          split <;> [exact bad _ _ (by intro m h; cases h); skip]
          split <;> [exact bad _ _ (by intro m h; cases h); skip]
          split <;> [exact bad _ _ (by intro m h; cases h); skip]
          split <;> [exact bad _ _ (by intro m h; cases h); exact leaf _ _]
        · simp only
          rcases hr : a.remove 1 with f | a1
          · have hf : ∀ m, f ≠ .thrown m := fun m h => hrem m (by rw [hr, h])
            simp only
            split
            · exact bad _ _ hf
            split
            · split
              · exact refused _ _ _
              · exact bad _ _ hf
            split
            · exact bad _ _ hf
            split
            · split
              · exact refused _ _ _
              · exact bad _ _ hf
            · exact leaf _ _
          · simp only
            split
            · exact ih _ _
            split
            · split
              · exact refused _ _ _
              · exact ih _ _
            split
            · exact ih _ _
            split
            · split
              · exact refused _ _ _
              · exact ih _ _
            · exact leaf _ _
      · simp only [if_neg h2]
        split
        · exact ih _ _
        split
        · exact ih _ _
        split
        · exact ih _ _
        split
        · exact ih _ _
        · exact leaf _ _
    · simp only [if_neg h1]
      exact leaf _ _

theorem shiftLoop_exact : ∀ (rest pre junk : List Str) (x y : Str),
    shiftLoop rest.length (pre ++ x :: y :: rest ++ junk) pre.length =
      .ok (pre ++ rest ++ (if rest.length % 2 = 0 then [x, y] else [y, x]) ++ junk)
  | [], pre, junk, x, y => by simp [shiftLoop]
  | c :: r, pre, junk, x, y => by
    have hswap : swapArgs (pre ++ x :: y :: (c :: r) ++ junk) (pre.length + 2) pre.length =
        .ok ((pre ++ [c]) ++ y :: x :: r ++ junk) := by
      rw [swapArgs]
      have e1 : (pre ++ x :: y :: (c :: r) ++ junk)[pre.length + 2]? = some c := by
        rw [List.append_assoc, List.getElem?_append_right (by omega)]; simp
      have e2 : (pre ++ x :: y :: (c :: r) ++ junk)[pre.length]? = some x := by
        rw [List.append_assoc, List.getElem?_append_right (by omega)]; simp
      rw [e1, e2]
      simp only [Except.ok.injEq]
      rw [List.append_assoc, List.set_append_right _ _ (by omega), List.set_append_right _ _ (by omega)]
      simp
    rw [List.length_cons, shiftLoop, hswap]
    simp only
    rw [show pre.length + 1 = (pre ++ [c]).length by simp, shiftLoop_exact r (pre ++ [c]) junk y x]
    rcases Nat.mod_two_eq_zero_or_one r.length with h | h
    · rw [if_pos h, if_neg (by omega)]; simp
    · rw [if_neg (by omega), if_pos (by omega)]; simp

/-- The pair lies behind the `n` arguments it was moved over. -/
def Spec.moved (p : Str × Str) (n : Nat) : List Str := if n % 2 = 0 then [p.1, p.2] else [p.2, p.1]

theorem remove_exact (prog x y : Str) (r junk : List Str) (i o : Option Str) :
    Args.remove ⟨(x :: y :: r).length + 1, prog :: (x :: y :: r) ++ junk, i, o⟩ 1 =
      .ok ⟨r.length + 1, prog :: r ++ (moved (x, y) r.length ++ junk), i, o⟩ := by
  have h := shiftLoop_exact r [prog] junk x y
  rw [Args.remove, show shiftCount ((x :: y :: r).length + 1) 1 = r.length by simp [shiftCount]]
  simp only [List.length_cons, List.length_nil, List.cons_append, List.nil_append, zero_add] at h ⊢
  rw [h]
  simp [moved]

/-- One accepted pair. -/
theorem argv_pair (fs : FileSys) (n : Nat) (prog x v : Str) (r junk : List Str) (i o : Option Str) (hx : IsOption x) (href : ¬ Refused fs (x, v)) :
    ∃ i' o', argvLoop fs (n + 1) ⟨(x :: v :: r).length + 1, prog :: (x :: v :: r) ++ junk, i, o⟩ =
      argvLoop fs n ⟨r.length + 1, prog :: r ++ (moved (x, v) r.length ++ junk), i', o'⟩ := by
  rw [argvLoop, if_pos (by simp)]
  simp only [show (prog :: (x :: v :: r) ++ junk)[1]? = some x by simp, show (prog :: (x :: v :: r) ++ junk)[2]? = some v by simp,
    show 1 < (x :: v :: r).length + 1 - 1 by simp, if_true, remove_exact]
  have hI : x = b!"-I" → isFile fs v = true ∧ isReadable fs v = true := fun h => by by_contra hh; exact href (Or.inl ⟨h, hh⟩)
  have hP : x = b!"-P" → isDirectory fs v = true ∧ isReadable fs v = true := fun h => by by_contra hh; exact href (Or.inr ⟨h, hh⟩)
  rcases hx with rfl | rfl | rfl | rfl
  · exact ⟨_, _, by rw [if_pos (show (b!"-O" : Str) = optO from rfl)]⟩
  · obtain ⟨h1, h2⟩ := hI rfl
    exact ⟨_, _, by rw [if_neg (by decide), if_pos (by decide), if_neg (by simp [h1, h2])]⟩
  · exact ⟨_, _, by rw [if_neg (by decide), if_neg (by decide), if_pos (by decide)]⟩
  · obtain ⟨h1, h2⟩ := hP rfl
    exact ⟨_, _, by rw [if_neg (by decide), if_neg (by decide), if_neg (by decide), if_pos (by decide), if_neg (by simp [h1, h2])]⟩

theorem moved_parity (p : Str × Str) (m n : Nat) (h : m % 2 = n % 2) : moved p m = moved p n := by simp [moved, h]

theorem flat_length : ∀ ps : List (Str × Str), (flat ps).length = 2 * ps.length
  | [] => rfl
  | (_, _) :: ps => by simp [flat, flat_length ps]; omega

theorem argv_pairs (fs : FileSys) (n : Nat) (prog : Str) (rest : List Str) : ∀ (ps : List (Str × Str)) (junk : List Str) (i o : Option Str),
    (∀ p ∈ ps, IsOption p.1) → (∀ p ∈ ps, ¬ Refused fs p) →
    ∃ i' o', argvLoop fs (ps.length + n) ⟨(flat ps ++ rest).length + 1, prog :: (flat ps ++ rest) ++ junk, i, o⟩ =
      argvLoop fs n ⟨rest.length + 1, prog :: rest ++ (removed ps rest.length ++ junk), i', o'⟩
  | [], junk, i, o, _, _ => ⟨i, o, by simp [flat, removed]⟩
  | (x, v) :: ps, junk, i, o, hopt, href => by
    obtain ⟨i1, o1, h1⟩ := argv_pair fs (ps.length + n) prog x v (flat ps ++ rest) junk i o (hopt (x, v) (by simp)) (href (x, v) (by simp))
    obtain ⟨i2, o2, h2⟩ := argv_pairs fs n prog rest ps (moved (x, v) (flat ps ++ rest).length ++ junk) i1 o1
      (fun p hp => hopt p (by simp [hp])) (fun p hp => href p (by simp [hp]))
    refine ⟨i2, o2, ?_⟩
    rw [show ((x, v) :: ps).length + n = ps.length + n + 1 by simp; omega, flat, List.cons_append, List.cons_append, h1, h2]
    have : removed ((x, v) :: ps) rest.length = removed ps rest.length ++ moved (x, v) (flat ps ++ rest).length := by
      rw [moved_parity (x, v) (flat ps ++ rest).length rest.length (by rw [List.length_append, flat_length]; omega)]
      simp [removed, moved]
    rw [this, List.append_assoc]

/-- **C125.** What lies in the caller's array after `Main`: the program name and the arguments the test gets, then the removed options, the last one first; if the test gets an odd number of
arguments every value lies before its option. -/
theorem C125_array (fs : FileSys) (fuel : Nat) (prog : Str) (ps : List (Str × Str)) (rest : List Str) (hopt : ∀ p ∈ ps, IsOption p.1)
    (href : ∀ p ∈ ps, ¬ Refused fs p) (hstop : Stops rest) (hfuel : ps.length < fuel) :
    argvAfter fs fuel (prog :: (flat ps ++ rest)) = .ok (prog :: rest ++ removed ps rest.length) := by
  obtain ⟨n, rfl⟩ : ∃ n, fuel = ps.length + (n + 1) := ⟨fuel - ps.length - 1, by omega⟩
  obtain ⟨i, o, h⟩ := argv_pairs fs (n + 1) prog rest ps [] none none hopt href
  rw [argvAfter]
  simp only [List.append_nil] at h
  rw [show ({ argc := (prog :: (flat ps ++ rest)).length, argv := prog :: (flat ps ++ rest) } : Args) = ⟨(flat ps ++ rest).length + 1, prog :: (flat ps ++ rest), none, none⟩ from rfl, h]
  obtain ⟨e, -⟩ := loop_stop fs n {} ⟨rest.length + 1, prog :: rest ++ removed ps rest.length, i, o⟩ prog rest ⟨⟨_, rfl⟩, rfl⟩ hstop
  rw [(C125_same_parser fs (n + 1) {} _).1 _ _ e]

/-- **C125.** When a refused option ends `Main`, the options before it have been moved behind it and what follows it in the same way. -/
theorem C125_array_refused (fs : FileSys) (fuel : Nat) (prog : Str) (ps : List (Str × Str)) (bad : Str × Str) (after : List Str)
    (hopt : ∀ p ∈ ps, IsOption p.1) (href : ∀ p ∈ ps, ¬ Refused fs p) (hbad : Refused fs bad) (hfuel : ps.length < fuel) :
    argvAfter fs fuel (prog :: (flat ps ++ bad.1 :: bad.2 :: after)) = .ok (prog :: bad.1 :: bad.2 :: after ++ removed ps after.length) := by
  obtain ⟨n, rfl⟩ : ∃ n, fuel = ps.length + (n + 1) := ⟨fuel - ps.length - 1, by omega⟩
  obtain ⟨i, o, h⟩ := argv_pairs fs (n + 1) prog (bad.1 :: bad.2 :: after) ps [] none none hopt href
  rw [argvAfter]
  simp only [List.append_nil] at h
  rw [show ({ argc := (prog :: (flat ps ++ bad.1 :: bad.2 :: after)).length, argv := prog :: (flat ps ++ bad.1 :: bad.2 :: after) } : Args) =
    ⟨(flat ps ++ bad.1 :: bad.2 :: after).length + 1, prog :: (flat ps ++ bad.1 :: bad.2 :: after), none, none⟩ from rfl, h]
  have hr : removed ps (bad.1 :: bad.2 :: after).length = removed ps after.length := by
    simp only [removed, List.length_cons, show (after.length + 1 + 1) % 2 = after.length % 2 by omega]
  rw [argvLoop, if_pos (by simp)]
  simp only [show ∀ l : List Str, (prog :: bad.1 :: bad.2 :: after ++ l)[1]? = some bad.1 by simp, show ∀ l : List Str, (prog :: bad.1 :: bad.2 :: after ++ l)[2]? = some bad.2 by simp,
    show 1 < (bad.1 :: bad.2 :: after).length + 1 - 1 by simp, if_true]
  rcases hbad with ⟨h1, h2⟩ | ⟨h1, h2⟩
  · rw [h1, if_neg (by decide), if_pos (by decide), if_pos (by
      cases h : isFile fs bad.2 <;> cases h' : isReadable fs bad.2 <;> simp_all), ← h1, hr]
  · rw [h1, if_neg (by decide), if_neg (by decide), if_neg (by decide), if_pos (by decide), if_pos (by
      cases h : isDirectory fs bad.2 <;> cases h' : isReadable fs bad.2 <;> simp_all), ← h1, hr]

theorem swapArgs_perm (l l' : List Str) (a b : Nat) (h : swapArgs l a b = .ok l') : l'.Perm l := by
  rw [swapArgs] at h
  rcases ha : l[a]? with _ | x
  · rw [ha] at h; simp at h
  rcases hb : l[b]? with _ | y
  · rw [ha, hb] at h; simp at h
  rw [ha, hb] at h
  cases h
  obtain ⟨h1, rfl⟩ := List.getElem?_eq_some_iff.mp ha
  obtain ⟨h2, rfl⟩ := List.getElem?_eq_some_iff.mp hb
  exact List.set_set_perm h1 h2

theorem shiftLoop_perm : ∀ (n : Nat) (l l' : List Str) (j : Nat), shiftLoop n l j = .ok l' → l'.Perm l
  | 0, l, l', j, h => by cases h; exact List.Perm.refl _
  | n + 1, l, l', j, h => by
    rw [shiftLoop] at h
    rcases hs : swapArgs l (j + 2) j with f | l1
    · rw [hs] at h; cases h
    · rw [hs] at h
      exact (shiftLoop_perm n l1 l' (j + 1) h).trans (swapArgs_perm l l1 _ _ hs)

theorem argvLoop_perm (fs : FileSys) : ∀ (fuel : Nat) (a a' : Args), argvLoop fs fuel a = .ok a' → a'.argv.Perm a.argv := by
  intro fuel
  induction fuel with
  | zero => intro a a' h; simp [argvLoop] at h
  | succ n ih =>
    intro a a' h
    have hrem : ∀ a1, a.remove 1 = .ok a1 → a1.argv.Perm a.argv := by
      intro a1 hr
      rw [Args.remove] at hr
      rcases hs : shiftLoop (shiftCount a.argc 1) a.argv 1 with f | l
      · rw [hs] at hr; cases hr
      · rw [hs] at hr; cases hr; exact shiftLoop_perm _ _ _ _ hs
    rw [argvLoop] at h
    repeat' split at h
    all_goals first
      | cases h; done
      | (cases h; exact List.Perm.refl _)
      | exact ih _ _ h
      | (next hr => exact (show _ from (ih _ _ h).trans (hrem _ hr)))
      | (next b hr => exact (ih _ _ h).trans (show b.argv.Perm a.argv from hrem b hr))

/-- **C125.** Nothing is lost and nothing is added: whatever the command line is, and however parsing ends, the array holds the same arguments as before, in some order. -/
theorem C125_permutation (fs : FileSys) (fuel : Nat) (argv after : List Str) (h : argvAfter fs fuel argv = .ok after) : after.Perm argv := by
  rw [argvAfter] at h
  rcases hl : argvLoop fs fuel { argc := argv.length, argv := argv } with f | a
  · rw [hl] at h; cases h
  · rw [hl] at h; cases h; exact argvLoop_perm fs fuel _ _ hl

/-- **C125.** If the test gets no arguments, a second run with the same array sees the same options in the opposite order, and leaves them in the first order again. -/
theorem C125_second_run_reversed (fs : FileSys) (fuel : Nat) (prog : Str) (ps : List (Str × Str)) (hopt : ∀ p ∈ ps, IsOption p.1)
    (href : ∀ p ∈ ps, ¬ Refused fs p) (hfuel : ps.length < fuel) :
    argvAfter fs fuel (prog :: flat ps) = .ok (prog :: flat ps.reverse) ∧ argvAfter fs fuel (prog :: flat ps.reverse) = .ok (prog :: flat ps) := by
  have hflat : ∀ qs : List (Str × Str), removed qs 0 = flat qs.reverse := by
    intro qs
    rw [removed]
    induction qs.reverse with
    | nil => rfl
    | cons p l ih => rw [List.map_cons, List.flatten_cons, ih]; rfl
  have hstop : Stops [] := by simp [Stops]
  have h1 := C125_array fs fuel prog ps [] hopt href hstop hfuel
  have h2 := C125_array fs fuel prog ps.reverse [] (fun p hp => hopt p (by simpa using hp)) (fun p hp => href p (by simpa using hp)) hstop (by simpa using hfuel)
  simp only [List.append_nil, List.length_nil, hflat, List.reverse_reverse] at h1 h2
  exact ⟨h1, h2⟩

/-- **C125, negative.** If the test gets arguments, a second run with the same array sees no options: it is the run without options of a test that gets the options as arguments. -/
theorem C125_second_run_without_options (env : Env) (test : List Str → Prog) (fuel : Nat) (s : St) (hfuel : 0 < fuel) (fs : FileSys) (fuel1 : Nat) (prog : Str)
    (ps : List (Str × Str)) (rest : List Str) (hopt : ∀ p ∈ ps, IsOption p.1) (href : ∀ p ∈ ps, ¬ Refused fs p) (hstop : Stops rest) (hrest : rest ≠ [])
    (hfuel1 : ps.length < fuel1) (array : List Str) (harray : argvAfter fs fuel1 (prog :: (flat ps ++ rest)) = .ok array) :
    main env test fuel array s = main env (fun _ => test array) fuel [prog] s := by
  rw [C125_array fs fuel1 prog ps rest hopt href hstop hfuel1] at harray
  cases harray
  have hst : Stops (rest ++ removed ps rest.length) := by
    cases rest with
    | nil => exact absurd rfl hrest
    | cons x l => exact hstop
  have h1 := C35_options_removed s.world.fs fuel { s.obj with unmatched := s.obj.unmatched + 1 } prog [] (rest ++ removed ps rest.length) (by simp) (by simp) hst (by simpa using hfuel)
  have h2 := C35_options_removed s.world.fs fuel { s.obj with unmatched := s.obj.unmatched + 1 } prog [] [] (by simp) (by simp) (by simp [Stops]) (by simpa using hfuel)
  simp only [flat, List.nil_append, List.append_nil] at h1 h2
  simp only [main, tryBlock, List.cons_append, h1, h2]

/-- **C125, negative.** So such a second run, on a new object, compares and records nothing: it returns what the test returns, whatever "-I", "-R" and "-O" were given, whatever is measured and
whatever the files are. -/
theorem C125_second_run_compares_nothing (env : Env) (v : List Str → Int) (cs : List Str → List Call) (fuel : Nat) (w : World) (hfuel : 0 < fuel) (fs : FileSys) (fuel1 : Nat) (prog : Str)
    (ps : List (Str × Str)) (rest : List Str) (hopt : ∀ p ∈ ps, IsOption p.1) (href : ∀ p ∈ ps, ¬ Refused fs p) (hstop : Stops rest) (hrest : rest ≠ [])
    (hfuel1 : ps.length < fuel1) (array : List Str) (harray : argvAfter fs fuel1 (prog :: (flat ps ++ rest)) = .ok array) :
    (main env (fun args => straight (v args) (cs args)) fuel array ⟨{}, w⟩).2 = .ok (v array) := by
  rw [C125_second_run_without_options env _ fuel ⟨{}, w⟩ hfuel fs fuel1 prog ps rest hopt href hstop hrest hfuel1 array harray]
  have hp := C35_options_removed w.fs fuel { unmatched := 0 + 1 } prog [] [] (by simp) (by simp) (by simp [Stops]) (by simpa using hfuel)
  simp only [flat, List.append_nil] at hp
  obtain ⟨s1, hs1⟩ : ∃ s1, s1 = St.emit ⟨{ unmatched := 0 + 1 }, w⟩ (header w) := ⟨_, rfl⟩
  have hbegin : beginMeasurement env ⟨{ unmatched := 0 + 1 }, w⟩ = (s1, .ok ()) := by rw [hs1]; rfl
  obtain ⟨a1, a2, a3, a4, -⟩ := observed_straight_record env (v array) (cs array) s1 (by rw [hs1]; rfl) (by rw [hs1]; rfl)
  rcases hr : runProg env (straight (v array) (cs array)) s1 with ⟨s2, r⟩
  rw [hr] at a2 a4
  simp only at a2 a4
  subst a2
  have := C38_record_value env (fun _ => straight (v array) (cs array)) fuel [prog] ⟨{}, w⟩ { unmatched := 0 + 1 } [prog] s1 s2 (v array) hp hbegin hr
    (by rw [a4, hs1]; rfl)
  have hexp : s2.obj.expected = 0 := by rw [a4, hs1]; rfl
  rw [this, hexp]
  by_cases h : v array = 0
  · rw [if_pos h, h]
  · rw [if_neg h]

/-- The hypotheses are met: a run compared with "b" of a test that gets the argument "x" leaves the options behind that argument; with the same array the test compares nothing. -/
example (env : Env) (cs : List Call) (w : World) (hb : isFile w.fs b!"b" = true ∧ isReadable w.fs b!"b" = true) :
    argvAfter w.fs 9 [b!"t", b!"-R", b!"3", b!"-I", b!"b", b!"x"] = .ok [b!"t", b!"x", b!"b", b!"-I", b!"3", b!"-R"] ∧
    (main env (fun _ => straight 0 cs) 9 [b!"t", b!"x", b!"b", b!"-I", b!"3", b!"-R"] ⟨{}, w⟩).2 = .ok 0 := by
  have hopt : ∀ p ∈ [((b!"-R" : Str), (b!"3" : Str)), (b!"-I", b!"b")], IsOption p.1 := by simp [IsOption]
  have href : ∀ p ∈ [((b!"-R" : Str), (b!"3" : Str)), (b!"-I", b!"b")], ¬ Refused w.fs p := by
    intro p hp
    simp only [List.mem_cons, List.not_mem_nil, or_false] at hp
    rcases hp with rfl | rfl
    · rintro (⟨h, -⟩ | ⟨h, -⟩) <;> revert h <;> decide
    · rintro (⟨-, h⟩ | ⟨h, -⟩)
      · exact h hb
      · revert h; decide
  have h := C125_array w.fs 9 b!"t" [(b!"-R", b!"3"), (b!"-I", b!"b")] [b!"x"] hopt href (by simp [Stops, IsOption]) (by decide)
  exact ⟨h, C125_second_run_compares_nothing env (fun _ => 0) (fun _ => cs) 9 w (by decide) w.fs 9 b!"t" [(b!"-R", b!"3"), (b!"-I", b!"b")] [b!"x"] hopt href
    (by simp [Stops, IsOption]) (by simp) (by decide) _ h⟩

end Verif.Regression
