import Verif.Parallel.Spec
import Verif.Regression.ArgsProps

/-!
# The command line looks only at the values of its options
-/

set_option linter.unusedSimpArgs false

namespace Verif.Parallel
open Spec Verif.Regression Verif.Regression.Spec
open Verif.Path (FileSys isFile isReadable isWritable isDirectory)

/-- Two file systems are the same at a name. -/
def SameAt (fs fs' : FileSys) (n : Str) : Prop :=
  fs.stat n = fs'.stat n ∧ fs.canRead n = fs'.canRead n ∧ fs.canWrite n = fs'.canWrite n ∧ fs.canExec n = fs'.canExec n

theorem sameAt_queries {fs fs' : FileSys} {v : Str} (h : SameAt fs fs' (cstr v)) :
    isFile fs v = isFile fs' v ∧ isReadable fs v = isReadable fs' v ∧ isWritable fs v = isWritable fs' v ∧ isDirectory fs v = isDirectory fs' v := by
  obtain ⟨h1, h2, h3, h4⟩ := h
  simp [isFile, isReadable, isWritable, isDirectory, h1, h2, h3, h4]

theorem given_head (x v : Str) (r : List Str) : Given x v (x :: v :: r) := ⟨[], r, rfl⟩

theorem given_tail {opt w : Str} (x : Str) {r : List Str} (h : Given opt w r) : Given opt w (x :: r) := by
  obtain ⟨a, b, rfl⟩ := h
  exact ⟨x :: a, b, rfl⟩

theorem loop_same (fs fs' : FileSys) : ∀ (fuel : Nat) (o : Obj) (a : Args) (prog : Str) (args : List Str), View a prog args →
    (∀ opt v, IsOption opt → opt ≠ optR → Given opt v args → SameAt fs fs' (cstr v)) → parseLoop fs fuel o a = parseLoop fs' fuel o a := by
  intro fuel
  induction fuel with
  | zero => intro o a prog args _ _; rfl
  | succ fuel ih =>
    intro o a prog args hview hsame
    by_cases hs : Stops args
    · rw [(loop_stop fs fuel o a prog args hview hs).1, (loop_stop fs' fuel o a prog args hview hs).1]
    · rcases args with _ | ⟨x, _ | ⟨v, r⟩⟩
      · exact absurd (by simp [Stops]) hs
      · have hx : IsOption x := by simpa [Stops] using hs
        rw [loop_dangling fs o a prog x hview hx, loop_dangling fs' o a prog x hview hx]
      · have hx : IsOption x := by simpa [Stops] using hs
        obtain ⟨argv, hrem, hv⟩ := remove_spec hview
        have hrec : ∀ (o' : Obj) (a' : Args), View a' prog r → parseLoop fs fuel o' a' = parseLoop fs' fuel o' a' :=
          fun o' a' h => ih o' a' prog r h (fun opt w ho hne hg => hsame opt w ho hne (given_tail _ (given_tail _ hg)))
        have hr1 := fun o' => hrec o' _ (hv a.infname a.outfname)
        have hr2 := fun o' i => hrec o' _ (hv i a.outfname)
        have hr3 := fun o' u => hrec o' _ (hv a.infname u)
        obtain ⟨⟨junk, e⟩, hc⟩ := hview
        have hc1 : 1 < a.argc := by rw [hc]; simp
        have hc2 : 1 < a.argc - 1 := by rw [hc]; simp
        have g1 : a.argv[1]? = some x := by rw [e]; simp
        have g2 : a.argv[2]? = some v := by rw [e]; simp
        rw [parseLoop, parseLoop, if_pos hc1, if_pos hc1]
        by_cases hxr : x = optR
        · have n1 : ¬ x = optO := by rw [hxr]; decide
          have n2 : ¬ x = optI := by rw [hxr]; decide
          simp only [g1, g2, if_pos hc2, hrem, if_neg n1, if_neg n2, if_pos hxr, hr1]
        · obtain ⟨q1, q2, q3, q4⟩ := sameAt_queries (hsame x v hx hxr (given_head x v r))
          simp only [g1, g2, if_pos hc2, hrem, q1, q2, q3, q4]
          simp only [hr1, hr2, hr3]

/-- What the command line can set. -/
theorem loop_facts (fs : FileSys) : ∀ (fuel : Nat) (o : Obj) (a : Args) (prog : Str) (args : List Str), View a prog args → ∀ o' r, parseLoop fs fuel o a = (o', r) →
    (∀ d ∈ o'.searchPath, d ∈ o.searchPath ∨ Given b!"-P" d args) ∧
    (∃ e sp, o' = { o with expected := e, searchPath := sp }) ∧
    ∀ a', r = .ok a' → (a'.infname = a.infname ∨ ∃ v, a'.infname = some v ∧ Given b!"-I" v args) ∧
      (a'.outfname = a.outfname ∨ a'.outfname = none ∨ ∃ v, a'.outfname = some v ∧ Given b!"-O" v args) := by
  intro fuel
  induction fuel with
  | zero =>
    intro o a prog args _ o' r h
    rw [parseLoop] at h
    cases h
    exact ⟨fun d hd => Or.inl hd, ⟨_, _, rfl⟩, fun a' h => by cases h⟩
  | succ fuel ih =>
    intro o a prog args hview o' r h
    by_cases hs : Stops args
    · rw [(loop_stop fs fuel o a prog args hview hs).1] at h
      cases h
      exact ⟨fun d hd => Or.inl hd, ⟨_, _, rfl⟩, fun a' h => by cases h; exact ⟨Or.inl rfl, Or.inl rfl⟩⟩
    · rcases args with _ | ⟨x, _ | ⟨v, rest⟩⟩
      · exact absurd (by simp [Stops]) hs
      · have hx : IsOption x := by simpa [Stops] using hs
        rw [loop_dangling fs o a prog x hview hx] at h
        cases h
        exact ⟨fun d hd => Or.inl hd, ⟨_, _, rfl⟩, fun a' h => by cases h⟩
      · have hx : IsOption x := by simpa [Stops] using hs
        obtain ⟨hr, hnr⟩ := loop_pair fs fuel o a prog x v rest hview hx
        by_cases href : Refused fs (x, v)
        · obtain ⟨m, hm⟩ := hr href
          rw [hm] at h
          cases h
          exact ⟨fun d hd => Or.inl hd, ⟨_, _, rfl⟩, fun a' h => by cases h⟩
        · obtain ⟨a1, hv1, hi1, ho1, e1⟩ := hnr href
          rw [e1] at h
          obtain ⟨f1, ⟨e, sp, f2⟩, f3⟩ := ih _ a1 prog rest hv1 o' r h
          have hobj : (∃ e sp, (effect fs (o, a.infname, a.outfname) (x, v)).1 = { o with expected := e, searchPath := sp }) ∧
              (∀ d ∈ (effect fs (o, a.infname, a.outfname) (x, v)).1.searchPath, d ∈ o.searchPath ∨ Given b!"-P" d (x :: v :: rest)) := by
            rcases hx with rfl | rfl | rfl | rfl
            · exact ⟨⟨_, _, rfl⟩, fun d hd => Or.inl hd⟩
            · exact ⟨⟨_, _, rfl⟩, fun d hd => Or.inl hd⟩
            · exact ⟨⟨_, _, rfl⟩, fun d hd => Or.inl hd⟩
            · refine ⟨⟨_, _, rfl⟩, fun d hd => ?_⟩
              rcases List.mem_cons.mp hd with rfl | hd
              · exact Or.inr (given_head _ _ _)
              · exact Or.inl hd
          obtain ⟨⟨e', sp', he'⟩, hsp⟩ := hobj
          refine ⟨?_, ⟨e, sp, by rw [f2, he']⟩, ?_⟩
          · intro d hd
            rcases f1 d hd with hd | hd
            · exact hsp d hd
            · exact Or.inr (given_tail _ (given_tail _ hd))
          · intro a' ha'
            obtain ⟨k1, k2⟩ := f3 a' ha'
            constructor
            · rcases k1 with k1 | ⟨w, k1, k1'⟩
              · rw [k1, hi1]
                rcases hx with rfl | rfl | rfl | rfl
                · exact Or.inl rfl
                · exact Or.inr ⟨v, rfl, given_head _ _ _⟩
                · exact Or.inl rfl
                · exact Or.inl rfl
              · exact Or.inr ⟨w, k1, given_tail _ (given_tail _ k1')⟩
            · rcases k2 with k2 | k2 | ⟨w, k2, k2'⟩
              · rw [k2, ho1]
                rcases hx with rfl | rfl | rfl | rfl
                · show (if isFile fs v && !isWritable fs v then none else some v) = _ ∨ (if isFile fs v && !isWritable fs v then none else some v) = _ ∨
                    ∃ u, (if isFile fs v && !isWritable fs v then none else some v) = _ ∧ _
                  split
                  · exact Or.inr (Or.inl rfl)
                  · exact Or.inr (Or.inr ⟨v, rfl, given_head _ _ _⟩)
                · exact Or.inl rfl
                · exact Or.inl rfl
                · exact Or.inl rfl
              · exact Or.inr (Or.inl k2)
              · exact Or.inr (Or.inr ⟨w, k2, given_tail _ (given_tail _ k2')⟩)

theorem view_argv (prog : Str) (args : List Str) : View { argc := (prog :: args).length, argv := prog :: args } prog args := ⟨⟨[], by simp⟩, by simp⟩

/-- The command line: the same for file systems that are the same at the values of options. -/
theorem arguments_same (fs fs' : FileSys) (fuel : Nat) (o : Obj) (argv : List Str) (h : ∀ opt v, IsOption opt → opt ≠ optR → Given opt v argv → SameAt fs fs' (cstr v)) :
    parseArguments fs fuel o argv = parseArguments fs' fuel o argv := by
  have : parseLoop fs fuel o { argc := argv.length, argv := argv } = parseLoop fs' fuel o { argc := argv.length, argv := argv } := by
    rcases argv with _ | ⟨prog, args⟩
    · cases fuel <;> simp [parseLoop]
    · exact loop_same fs fs' fuel o _ prog args (view_argv prog args) (fun opt v ho hne hg => h opt v ho hne (given_tail _ hg))
  rw [parseArguments, parseArguments, this]

/-- The object after the command line. -/
theorem arguments_facts (fs : FileSys) (fuel : Nat) (o : Obj) (argv : List Str) (o' : Obj) (r : Except Fault (List Str)) (h : parseArguments fs fuel o argv = (o', r)) :
    (∀ d ∈ o'.searchPath, d ∈ o.searchPath ∨ Given b!"-P" d argv) ∧
    (o'.inFileName = o.inFileName ∨ Given b!"-I" o'.inFileName argv) ∧ (o'.outFileName = o.outFileName ∨ Given b!"-O" o'.outFileName argv) ∧
    o'.os = o.os ∧ o'.is = o.is ∧ o'.input = o.input := by
  rw [parseArguments] at h
  rcases hl : parseLoop fs fuel o { argc := argv.length, argv := argv } with ⟨o1, r1⟩
  rw [hl] at h
  have hfacts : (∀ d ∈ o1.searchPath, d ∈ o.searchPath ∨ Given b!"-P" d argv) ∧
    (∃ e sp, o1 = { o with expected := e, searchPath := sp }) ∧
    ∀ a', r1 = .ok a' → (a'.infname = none ∨ ∃ v, a'.infname = some v ∧ Given b!"-I" v argv) ∧
      (a'.outfname = none ∨ ∃ v, a'.outfname = some v ∧ Given b!"-O" v argv) := by
    rcases argv with _ | ⟨prog, args⟩
    · cases fuel with
      | zero => rw [parseLoop] at hl; cases hl; exact ⟨fun d hd => Or.inl hd, ⟨_, _, rfl⟩, fun a' h => by cases h⟩
      | succ n =>
        rw [parseLoop, if_neg (by simp)] at hl
        cases hl
        exact ⟨fun d hd => Or.inl hd, ⟨_, _, rfl⟩, fun a' h => by cases h; exact ⟨Or.inl rfl, Or.inl rfl⟩⟩
    · obtain ⟨f1, f2, f3⟩ := loop_facts fs fuel o _ prog args (view_argv prog args) o1 r1 hl
      refine ⟨fun d hd => ?_, f2, fun a' ha' => ?_⟩
      · rcases f1 d hd with hd | hd
        · exact Or.inl hd
        · exact Or.inr (given_tail _ hd)
      · obtain ⟨k1, k2⟩ := f3 a' ha'
        constructor
        · rcases k1 with k | ⟨v, k, k'⟩
          · exact Or.inl k
          · exact Or.inr ⟨v, k, given_tail _ k'⟩
        · rcases k2 with k | k | ⟨v, k, k'⟩
          · exact Or.inl k
          · exact Or.inl k
          · exact Or.inr ⟨v, k, given_tail _ k'⟩
  obtain ⟨f1, ⟨e, sp, rfl⟩, f3⟩ := hfacts
  rcases r1 with f | a
  · cases h
    exact ⟨f1, Or.inl rfl, Or.inl rfl, rfl, rfl, rfl⟩
  · obtain ⟨k1, k2⟩ := f3 a rfl
    simp only at h
    rcases k1 with k1 | ⟨v, k1, k1'⟩ <;> rcases k2 with k2 | ⟨u, k2, k2'⟩ <;> simp only [k1, k2] at h <;> cases h
    · exact ⟨f1, Or.inl rfl, Or.inl rfl, rfl, rfl, rfl⟩
    · exact ⟨f1, Or.inl rfl, Or.inr k2', rfl, rfl, rfl⟩
    · exact ⟨f1, Or.inr k1', Or.inl rfl, rfl, rfl, rfl⟩
    · exact ⟨f1, Or.inr k1', Or.inr k2', rfl, rfl, rfl⟩

end Verif.Parallel
