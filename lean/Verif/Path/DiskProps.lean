import Verif.Path.Disk
import Verif.Path.Props

namespace Verif.Path
open Spec

variable {N : Type}

/-! ## Resolution of joined paths -/

theorem parts_ne (s : Str) : parts s ≠ [] := by
  cases s with
  | nil => simp [parts]
  | cons c r =>
    rw [parts]
    split
    · simp
    · split <;> simp

theorem parts_cons_ne {c : UInt8} (h : c ≠ 47) (r : Str) : ∃ p ps, parts r = p :: ps ∧ parts (c :: r) = (c :: p) :: ps := by
  cases hr : parts r with
  | nil => exact absurd hr (parts_ne r)
  | cons p ps => exact ⟨p, ps, rfl, by rw [parts, if_neg h, hr]⟩

theorem parts_slash (a b : Str) : parts (a ++ 47 :: b) = parts a ++ parts b := by
  induction a with
  | nil => simp [parts]
  | cons c r ih =>
    by_cases h : c = 47
    · subst h
      rw [List.cons_append, parts, if_pos rfl, ih, parts, if_pos rfl]; rfl
    · obtain ⟨p, ps, h1, h2⟩ := parts_cons_ne h r
      rw [List.cons_append, h2, parts, if_neg h, ih, h1]; rfl

theorem parts_noslash {s : Str} (h : 47 ∉ s) : parts s = [s] := by
  induction s with
  | nil => rfl
  | cons c r ih =>
    rw [List.mem_cons, not_or] at h
    rw [parts, if_neg (fun e => h.1 e.symm), ih h.2]

theorem walk_append (d : Disk N) (n : N) (a b : List Str) : d.walk n (a ++ b) = (d.walk n a).bind fun m => d.walk m b := by
  induction a generalizing n with
  | nil => rfl
  | cons p ps ih =>
    simp only [List.cons_append, Disk.walk]
    split
    · split
      · exact ih n
      · rfl
    · cases d.lookup n p with
      | none => rfl
      | some m => exact ih m

theorem resolve_eq (d : Disk N) (wf : d.WellFormed) (cwd : N) {p : Str} (hp : p ≠ []) :
    d.resolve cwd p = d.walk (if isAbsolute p then d.root else cwd) (parts p) := by
  cases p with
  | nil => exact absurd rfl hp
  | cons c r =>
    rw [Disk.resolve, if_neg hp]
    by_cases h : c = 47
    · subst h
      rw [if_pos (show (47 :: r : Str).head? = some 47 from rfl), if_pos (by simp [isAbsolute]), parts, if_pos rfl, Disk.walk, if_pos rfl, if_pos wf.root_dir]
      rfl
    · rw [if_neg (by simpa using h), if_neg (by simpa [isAbsolute] using h)]

theorem parts_slashes (t : Str) (k : Nat) : parts (t ++ List.replicate k 47) = parts t ++ List.replicate k [] := by
  induction k with
  | zero => simp
  | succ k ih =>
    rw [List.replicate_succ', ← List.append_assoc]
    have := parts_slash (t ++ List.replicate k 47) []
    rw [this, ih, List.append_assoc, List.replicate_succ']
    rfl

theorem walk_empties (d : Disk N) (n : N) (k : Nat) : d.walk n (List.replicate k []) = if k = 0 ∨ d.kind n = .directory then some n else none := by
  induction k with
  | zero => simp [Disk.walk]
  | succ k ih =>
    rw [List.replicate_succ, Disk.walk, if_pos rfl, ih]
    by_cases h : d.kind n = .directory <;> simp [h]

theorem walk_relative_dir (d : Disk N) (wf : d.WellFormed) (n : N) {f : Str} (hf : f ≠ []) (ha : ¬ Absolute f) (hn : d.kind n ≠ .directory) :
    d.walk n (parts f) = none := by
  cases f with
  | nil => exact absurd rfl hf
  | cons c r =>
    have hc : c ≠ 47 := fun h => ha ⟨r, by rw [h]⟩
    obtain ⟨p, ps, -, h2⟩ := parts_cons_ne hc r
    rw [h2, Disk.walk, if_neg (by simp)]
    cases hl : d.lookup n (c :: p) with
    | none => rfl
    | some m => exact absurd (wf.lookup_dir _ _ _ hl) hn

theorem absolute_append {p f : Str} (hp : p ≠ []) (hf : ¬ Absolute f) : isAbsolute (append p f) = isAbsolute p := by
  obtain ⟨t, ⟨k, hk, ht, -⟩, e⟩ := append_rel hp hf
  cases t with
  | nil => exact absurd rfl ht
  | cons c r =>
    rw [e, hk]
    simp [isAbsolute]

/-- **C90.** A joined path leads to what the second path leads to in the directory the first leads to; and nowhere if the first does not lead to a directory. -/
theorem C90_join (d : Disk N) (wf : d.WellFormed) (cwd : N) (p f : Str) (hp : p ≠ []) (hf : f ≠ []) (ha : ¬ Absolute f) :
    d.resolve cwd (append p f) = (d.resolve cwd p).bind fun n => if d.kind n = .directory then d.resolve n f else none := by
  have hne : append p f ≠ [] := by
    obtain ⟨t, -, e⟩ := append_rel hp ha
    rw [e]; simp
  have hna : isAbsolute f = false := by
    cases h : isAbsolute f with
    | false => rfl
    | true => exact absurd ((isAbsolute_iff f).mp h) ha
  rw [resolve_eq d wf cwd hne, resolve_eq d wf cwd hp, absolute_append hp ha]
  obtain ⟨t, ⟨k, hk, ht, -⟩, e⟩ := append_rel hp ha
  generalize (if isAbsolute p = true then d.root else cwd) = s
  rw [e, hk, parts_slash, parts_slashes, walk_append, walk_append]
  cases d.walk s (parts t) with
  | none => rfl
  | some m =>
    simp only [Option.bind_some]
    rw [walk_empties]
    by_cases hm : d.kind m = .directory
    · rw [if_pos (Or.inr hm)]
      simp only [Option.bind_some, if_pos hm]
      rw [resolve_eq d wf m hf, hna]; rfl
    · rw [walk_relative_dir d wf m hf ha hm]
      split
      · simp [hm]
      · rfl

theorem cstr_noNul {s : Str} (h : 0 ∉ s) : cstr s = s := by
  induction s with
  | nil => rfl
  | cons c r ih =>
    rw [List.mem_cons, not_or] at h
    rw [cstr, List.takeWhile_cons_of_pos (by simpa using fun e => h.1 e.symm)]
    exact congrArg _ (ih h.2)

theorem append_noNul {p f : Str} (hp : 0 ∉ p) (hf : 0 ∉ f) (ha : ¬ Absolute f) : 0 ∉ append p f := by
  by_cases h0 : p = []
  · rw [(C19_append p f).2.1 h0]; exact hf
  · obtain ⟨t, ⟨k, hk, -, -⟩, e⟩ := append_rel h0 ha
    rw [e]
    rw [hk] at hp
    simp only [List.mem_append, List.mem_cons, not_or] at hp ⊢
    exact ⟨hp.1, by decide, hf⟩

/-- **C90.** After `SetCurrentDirectory(p)` a relative name `f` means what `p` joined with `f` meant before. -/
theorem C90_after_chdir (d : Disk N) (wf : d.WellFormed) (cwd cwd' : N) (p f : Str) (hp : 0 ∉ p) (hf0 : 0 ∉ f) (hf : f ≠ []) (ha : ¬ Absolute f)
    (h : setCwd d cwd p = (cwd', .ok true)) (r w x : N → Bool) :
    (isFile (fileSys d r w x cwd') f = isFile (fileSys d r w x cwd) (append p f)) ∧
    (isDirectory (fileSys d r w x cwd') f = isDirectory (fileSys d r w x cwd) (append p f)) ∧
    (pathExists (fileSys d r w x cwd') f = pathExists (fileSys d r w x cwd) (append p f)) ∧
    (isReadable (fileSys d r w x cwd') f = isReadable (fileSys d r w x cwd) (append p f)) ∧
    (isWritable (fileSys d r w x cwd') f = isWritable (fileSys d r w x cwd) (append p f)) := by
  have hres : d.resolve cwd p = some cwd' ∧ d.kind cwd' = .directory := by
    rw [setCwd] at h
    split at h
    · rw [cstr_noNul hp, chdir] at h
      cases hr : d.resolve cwd p with
      | none => rw [hr] at h; simp at h
      | some n =>
        rw [hr] at h
        simp only at h
        split at h
        · next hc =>
          simp only [Prod.mk.injEq, and_true] at h
          subst h
          exact ⟨rfl, hc.1⟩
        · simp at h
    · simp at h
  have hp0 : p ≠ [] := by
    rintro rfl
    have h1 := hres.1
    rw [Disk.resolve, if_pos rfl] at h1
    exact absurd h1 (by simp)
  have key : d.resolve cwd (append p f) = d.resolve cwd' f := by
    rw [C90_join d wf cwd p f hp0 hf ha, hres.1]
    simp only [Option.bind_some, if_pos hres.2]
  have c1 := cstr_noNul hf0
  have c2 := cstr_noNul (append_noNul hp hf0 ha)
  simp only [isFile, isDirectory, pathExists, isReadable, isWritable, c1, c2, fileSys, key, and_self]

/-- **C90.** Splitting a path in directory and last component and joining them again leads to the same file, unless the path is a slash and a name. -/
theorem C90_split (d : Disk N) (wf : d.WellFormed) (cwd : N) (p dir t : Str) (hd : directoryName p = .ok dir) (ht : tail p = .ok t)
    (hr : ¬ ∃ b, 47 ∉ b ∧ p = 47 :: b) (hp : p ≠ []) : d.resolve cwd (append dir t) = d.resolve cwd p := by
  rcases tail_cases p with ⟨h, e⟩ | ⟨a, b, rfl, hb, e⟩
  · rw [((C20_directory_tail p).1 h).2] at hd
    cases hd
    rw [e] at ht
    cases ht
    have ha : ¬ Absolute p := by
      rintro ⟨r, rfl⟩
      simp at h
    rw [C90_join d wf cwd _ p (by decide) hp ha]
    have hna : isAbsolute p = false := by
      cases h : isAbsolute p with
      | false => rfl
      | true => exact absurd ((isAbsolute_iff p).mp h) ha
    rw [resolve_eq d wf cwd hp, hna, if_neg (by simp), resolve_eq d wf cwd (by decide)]
    have hdot : parts b!"." = [b!"."] := by decide
    rw [hdot, if_neg (by decide), parts_noslash h]
    simp only [Disk.walk, if_neg hp, if_neg (show b!"." ≠ [] by decide)]
    cases hl : d.lookup cwd p with
    | none =>
      cases hl' : d.lookup cwd b!"." with
      | none => rfl
      | some m =>
        simp only [Option.bind_some, Option.bind_none]
        have := wf.lookup_dot _ _ _ hl'
        rw [hl', Option.some.injEq] at this
        subst this
        rw [if_pos (wf.lookup_dir _ _ _ hl'), resolve_eq d wf _ hp, hna, parts_noslash h]
        simp [Disk.walk, hp, hl]
    | some m =>
      rw [wf.lookup_dot _ _ _ hl]
      simp only [Option.bind_some]
      rw [if_pos (wf.lookup_dir _ _ _ hl), resolve_eq d wf _ hp, hna, parts_noslash h]
      simp [Disk.walk, hp, hl]
  · have hane : a ≠ [] := by
      intro h0
      subst h0
      exact hr ⟨b, hb, rfl⟩
    obtain ⟨e1, e2⟩ := (C20_directory_tail _).2 a b rfl hb
    rw [e2, if_neg hane] at hd
    injection hd with hd
    subst hd
    rw [e1] at ht
    injection ht with ht
    subst ht
    have ha : ¬ Absolute b := by
      rintro ⟨r, rfl⟩
      simp at hb
    obtain ⟨u, ⟨k, hk, hu, -⟩, e⟩ := append_rel hane ha
    have habs : isAbsolute (append a b) = isAbsolute (a ++ 47 :: b) := by
      rw [absolute_append hane ha]
      cases a with
      | nil => exact absurd rfl hane
      | cons c r => simp [isAbsolute]
    rw [resolve_eq d wf cwd (by rw [e]; simp), habs, resolve_eq d wf cwd (p := a ++ 47 :: b) (by simp), e]
    generalize (if isAbsolute (a ++ 47 :: b) = true then d.root else cwd) = s
    rw [hk, parts_slash, parts_slash, parts_slashes, walk_append, walk_append, walk_append]
    cases d.walk s (parts u) with
    | none => rfl
    | some m =>
      simp only [Option.bind_some]
      rw [walk_empties]
      by_cases hm : d.kind m = .directory
      · rw [if_pos (Or.inr hm)]; rfl
      · split
        · rfl
        · simp only [Option.bind_none]
          rw [parts_noslash hb, Disk.walk]
          split
          · rfl
          · cases hl : d.lookup m b with
            | none => rfl
            | some m' => exact absurd (wf.lookup_dir _ _ _ hl) hm

/-- **C90.** The path search finds the file in the first directory of the list that has it: then the result is a name of that file, from the current directory. -/
theorem C90_search (d : Disk N) (wf : d.WellFormed) (cwd : N) (name : Str) (hn : name ≠ []) (ha : ¬ Absolute name) (h0 : 0 ∉ name) (r w x : N → Bool)
    (pre post : List Str) (p : Str) (n m : N) (hpath : ∀ q ∈ pre ++ p :: post, q ≠ [] ∧ 0 ∉ q)
    (hpre : ∀ q ∈ pre, ∀ n m, d.resolve cwd q = some n → d.resolve n name = some m → d.kind m ≠ .regular)
    (hp : d.resolve cwd p = some n) (hm : d.resolve n name = some m) (hk : d.kind m = .regular) :
    d.resolve cwd (searchPathList (fileSys d r w x cwd) name (pre ++ p :: post)) = some m := by
  have file : ∀ q, q ≠ [] → 0 ∉ q → (isFile (fileSys d r w x cwd) (append q name) = true ↔ ∃ n m, d.resolve cwd q = some n ∧ d.resolve n name = some m ∧ d.kind m = .regular) := by
    intro q hq hq0
    rw [isFile, cstr_noNul (append_noNul hq0 h0 ha)]
    simp only [fileSys]
    rw [C90_join d wf cwd q name hq hn ha]
    cases hr : d.resolve cwd q with
    | none => simp
    | some n =>
      simp only [Option.bind_some]
      by_cases hd : d.kind n = .directory
      · rw [if_pos hd]
        cases hr' : d.resolve n name with
        | none =>
          simp only [Option.map_none, beq_iff_eq, reduceCtorEq, false_iff, Option.some.injEq, not_exists, not_and]
          rintro n' m' rfl hm'
          rw [hr'] at hm'
          exact absurd hm' (by simp)
        | some m =>
          simp only [Option.map_some, beq_iff_eq, Option.some.injEq]
          refine ⟨fun h => ⟨n, m, rfl, hr', h⟩, ?_⟩
          rintro ⟨n', m', rfl, hm', h⟩
          rw [hr', Option.some.injEq] at hm'
          subst hm'
          exact h
      · rw [if_neg hd]
        simp only [Option.map_none, beq_iff_eq, reduceCtorEq, false_iff, Option.some.injEq, not_exists, not_and]
        rintro n' m' rfl hm' -
        rw [resolve_eq d wf n hn, show isAbsolute name = false from by
          cases h : isAbsolute name with
          | false => rfl
          | true => exact absurd ((isAbsolute_iff name).mp h) ha, if_neg (by simp), walk_relative_dir d wf n hn ha hd] at hm'
        exact absurd hm' (by simp)
  obtain ⟨hpn, hp0⟩ := hpath p (by simp)
  rw [C22_search_first _ name pre p post (by
    intro q hq
    obtain ⟨hq1, hq2⟩ := hpath q (by simp [hq])
    intro hf
    obtain ⟨n, m, h1, h2, h3⟩ := (file q hq1 hq2).mp ((isFile_eq_true_iff _ _).2 hf)
    exact absurd h3 (hpre q hq n m h1 h2)) ((isFile_eq_true_iff _ _).1 ((file p hpn hp0).mpr ⟨n, m, hp, hm, hk⟩))]
  rw [C90_join d wf cwd p name hpn hn ha, hp]
  simp only [Option.bind_some]
  rw [if_pos, hm]
  by_cases hd : d.kind n = .directory
  · exact hd
  · rw [resolve_eq d wf n hn, show isAbsolute name = false from by
          cases h : isAbsolute name with
          | false => rfl
          | true => exact absurd ((isAbsolute_iff name).mp h) ha, if_neg (by simp), walk_relative_dir d wf n hn ha hd] at hm
    exact absurd hm (by simp)

/-! ## The current directory -/

/-- **C91.** If the current directory has a name of at most 1023 bytes that leads to it, `GetCurrentDirectory` returns the name; and going anywhere and
then to that name comes back. -/
theorem C91_return (d : Disk N) (cwd : N) (s : Str) (hdot : d.resolve cwd b!"." = some cwd) (hname : d.nameOf cwd = some s) (hlen : s.length ≤ 1023)
    (habs : Absolute s) (h0 : 0 ∉ s) (hs : d.resolve cwd s = some cwd) (hdir : d.kind cwd = .directory) (he : d.enterable cwd = true) :
    getCwd d cwd = .ok s ∧ ∀ p, setCwd d (setCwd d cwd p).1 s = (cwd, .ok true) := by
  constructor
  · rw [getCwd, if_pos, hname]
    · simp only
      rw [if_pos (by rw [maxPath]; omega)]
    · simp [statOnly, fileSys, hdot]
  · intro p
    generalize (setCwd d cwd p).1 = c
    have hc : d.resolve c s = some cwd := by
      obtain ⟨r, rfl⟩ := habs
      rw [Disk.resolve, if_neg (by simp), if_pos (show (47 :: r : Str).head? = some 47 from rfl)] at hs ⊢
      exact hs
    rw [setCwd, if_pos, cstr_noNul h0, chdir, hc]
    · simp only [if_pos (⟨hdir, he⟩ : d.kind cwd = .directory ∧ d.enterable cwd = true)]
    · rw [isDirectory, cstr_noNul h0]
      simp [statOnly, fileSys, hc, hdir]

/-- **C91.** What `GetCurrentDirectory` returns: nothing if the current directory cannot be looked at, its name if it has one of at most 1023 bytes; otherwise memory
that was not initialised is read. -/
theorem C91_result (d : Disk N) (cwd : N) :
    (∀ s, getCwd d cwd = .ok s ↔ (d.resolve cwd b!"." = none ∧ s = []) ∨ (d.resolve cwd b!"." ≠ none ∧ d.nameOf cwd = some s ∧ s.length ≤ 1023)) ∧
    (IsUB (getCwd d cwd) ↔ d.resolve cwd b!"." ≠ none ∧ ∀ s, d.nameOf cwd = some s → 1024 ≤ s.length) := by
  simp only [getCwd, IsUB, statOnly, fileSys, Option.isSome_map, maxPath]
  cases hr : d.resolve cwd b!"." with
  | none => simp [eq_comm]
  | some n =>
    cases hn : d.nameOf cwd with
    | none => simp
    | some t =>
      by_cases hl : t.length + 1 ≤ 1024
      · simp [hl]
        omega
      · simp [hl]
        omega

/-- A chain of directories, each with one directory of a name of 255 letters. -/
def deep : Disk Nat where
  root := 0
  kind := fun _ => .directory
  lookup := fun n p => if p = b!"." then some n else if p = b!".." then some (n - 1) else if p = List.replicate 255 100 then some (n + 1) else none
  entries := fun _ => [b!".", b!"..", List.replicate 255 100]
  listable := fun _ => true
  enterable := fun _ => true
  nameOf := fun n => some (if n = 0 then b!"/" else (List.replicate n (47 :: List.replicate 255 100)).flatten)

theorem deep_wf : deep.WellFormed where
  root_dir := rfl
  lookup_dir := fun _ _ _ _ => rfl
  lookup_dot := fun _ _ _ _ => rfl
  entry_name := by
    intro n e he
    have : ∀ e ∈ [b!".", b!"..", List.replicate 255 100], e ≠ [] ∧ 47 ∉ e ∧ 0 ∉ e := by decide
    exact this e he
  lookup_entry := by
    intro n p m _ h
    have key : ∀ q : Str, (if p = b!"." then some n else if p = b!".." then some (n - 1) else if p = q then some (n + 1) else none) = some m → p ∈ [b!".", b!"..", q] := by
      intro q h
      split at h
      · next h1 => subst h1; simp
      · split at h
        · next h1 => subst h1; simp
        · split at h
          · next h1 => subst h1; simp
          · simp at h
    exact key _ h

/-- **C91.** This happens: four calls of `SetCurrentDirectory`, each of which succeeds, and `GetCurrentDirectory` reads memory that was not initialised. -/
theorem C91_deep : ∃ c1 c2 c3 c4 : Nat, setCwd deep 0 (List.replicate 255 100) = (c1, .ok true) ∧ setCwd deep c1 (List.replicate 255 100) = (c2, .ok true) ∧
    setCwd deep c2 (List.replicate 255 100) = (c3, .ok true) ∧ setCwd deep c3 (List.replicate 255 100) = (c4, .ok true) ∧
    (∃ s, getCwd deep c3 = .ok s) ∧ IsUB (getCwd deep c4) :=
  ⟨1, 2, 3, 4, by decide +kernel, by decide +kernel, by decide +kernel, by decide +kernel, ⟨(List.replicate 3 (47 :: List.replicate 255 100)).flatten, by decide +kernel⟩,
    ⟨"uninitialised buffer", by decide +kernel⟩⟩

/-! ## The files in a directory -/

/-- **C92.** `SearchDirectory` returns the names in the directory: joined with the directory each leads to the entry; and whatever one name leads to from the
directory is in the list.  A path that is no directory, or cannot be read, gives the empty list. -/
theorem C92_search_directory (d : Disk N) (wf : d.WellFormed) (cwd : N) (p : Str) (hp : 0 ∉ p) :
    (∀ n, d.resolve cwd p = some n → d.kind n = .directory → d.listable n = true →
      (∀ e ∈ searchDirectory d cwd p, d.resolve cwd (append p e) = d.lookup n e) ∧
      (∀ e m, 47 ∉ e → e ≠ [] → d.resolve cwd (append p e) = some m → e ∈ searchDirectory d cwd p)) ∧
    ((∀ n, d.resolve cwd p = some n → d.kind n = .directory → d.listable n = false) → searchDirectory d cwd p = []) := by
  constructor
  · intro n hn hd hl
    have hs : searchDirectory d cwd p = d.entries n := by
      rw [searchDirectory, cstr_noNul hp, hn]
      simp only [hl, if_true]
      rw [if_neg]
      simp [isDirectory, cstr_noNul hp, statOnly, fileSys, hn, hd]
    have hpn : p ≠ [] := by
      rintro rfl
      rw [Disk.resolve, if_pos rfl] at hn
      exact absurd hn (by simp)
    have join : ∀ e : Str, 47 ∉ e → e ≠ [] → d.resolve cwd (append p e) = d.lookup n e := by
      intro e h1 h2
      have ha : ¬ Absolute e := by
        rintro ⟨r, rfl⟩
        simp at h1
      rw [C90_join d wf cwd p e hpn h2 ha, hn]
      simp only [Option.bind_some, if_pos hd]
      rw [resolve_eq d wf n h2, show isAbsolute e = false from by
          cases h : isAbsolute e with
          | false => rfl
          | true => exact absurd ((isAbsolute_iff e).mp h) ha, if_neg (by simp), parts_noslash h1, Disk.walk, if_neg h2]
      cases d.lookup n e <;> rfl
    rw [hs]
    refine ⟨fun e he => ?_, fun e m h1 h2 h3 => ?_⟩
    · obtain ⟨h1, h2, -⟩ := wf.entry_name n e he
      exact join e h2 h1
    · rw [join e h1 h2] at h3
      exact wf.lookup_entry n e m h2 h3
  · intro h
    rw [searchDirectory]
    split
    · rfl
    · next hd =>
      rw [cstr_noNul hp]
      cases hn : d.resolve cwd p with
      | none => rfl
      | some n =>
        simp only
        have : d.kind n = .directory := by simpa [isDirectory, cstr_noNul hp, statOnly, fileSys, hn] using hd
        rw [h n hn this]; rfl

/-- **C92.** So the list of a directory in which names can be looked up contains the directory itself: a program that descends into all directories of
the list does not end. -/
theorem C92_contains_itself (d : Disk N) (wf : d.WellFormed) (cwd : N) (p : Str) (hp : 0 ∉ p) (n : N) (hn : d.resolve cwd p = some n) (hl : d.listable n = true)
    (e : Str) (m : N) (hm : d.lookup n e = some m) : b!"." ∈ searchDirectory d cwd p ∧ d.resolve cwd (append p b!".") = some n := by
  have hd := wf.lookup_dir _ _ _ hm
  have hdot := wf.lookup_dot _ _ _ hm
  obtain ⟨h, -⟩ := C92_search_directory d wf cwd p hp
  obtain ⟨h1, h2⟩ := h n hn hd hl
  have hs : searchDirectory d cwd p = d.entries n := by
    rw [searchDirectory, cstr_noNul hp, hn]
    simp only [hl, if_true]
    rw [if_neg]
    simp [isDirectory, cstr_noNul hp, statOnly, fileSys, hn, hd]
  have hmem : b!"." ∈ searchDirectory d cwd p := by
    rw [hs]; exact wf.lookup_entry n _ n (by decide) hdot
  exact ⟨hmem, by rw [h1 _ hmem, hdot]⟩

/-! ## The hypotheses are met -/

/-- A directory `/a` with a file `f`, which a link `/l` leads to as well. -/
def small : Disk Nat where
  root := 0
  kind := fun n => if n = 2 then .regular else .directory
  lookup := fun n p =>
    if n = 0 then (if p = b!"a" then some 1 else if p = b!"l" then some 2 else if p = b!"." ∨ p = b!".." then some 0 else none)
    else if n = 1 then (if p = b!"f" then some 2 else if p = b!"." then some 1 else if p = b!".." then some 0 else none)
    else none
  entries := fun n => if n = 0 then [b!".", b!"..", b!"a", b!"l"] else if n = 1 then [b!".", b!"..", b!"f"] else []
  listable := fun _ => true
  enterable := fun _ => true
  nameOf := fun n => if n = 0 then some b!"/" else if n = 1 then some b!"/a" else none

theorem small_wf : small.WellFormed where
  root_dir := rfl
  lookup_dir := by
    intro n p m h
    simp only [small] at h ⊢
    split at h
    · next h0 => rw [h0]; rfl
    · split at h
      · next h0 => rw [h0]; rfl
      · simp at h
  lookup_dot := by
    intro n p m h
    simp only [small] at h ⊢
    split at h
    · next h0 => rw [h0]; rfl
    · split at h
      · next h0 => rw [h0]; rfl
      · simp at h
  entry_name := by
    intro n e he
    simp only [small] at he
    have : ∀ e ∈ [b!".", b!"..", b!"a", b!"l", b!"f"], e ≠ [] ∧ 47 ∉ e ∧ 0 ∉ e := by decide
    apply this
    split at he
    · simp at he ⊢; rcases he with h | h | h | h <;> simp [h]
    · split at he
      · simp at he ⊢; rcases he with h | h | h <;> simp [h]
      · simp at he
  lookup_entry := by
    intro n p m _ h
    simp only [small] at h ⊢
    split at h
    · next h0 =>
      rw [if_pos h0]
      split at h
      · next h1 => rw [h1]; decide
      · split at h
        · next h1 => rw [h1]; decide
        · split at h
          · next h1 => rcases h1 with h1 | h1 <;> rw [h1] <;> decide
          · simp at h
    · split at h
      · next h0 h1 =>
        rw [if_neg h0, if_pos h1]
        split at h
        · next h1 => rw [h1]; decide
        · split at h
          · next h1 => rw [h1]; decide
          · split at h
            · next h1 => rw [h1]; decide
            · simp at h
      · simp at h

example : small.resolve 0 (append b!"a//" b!"f") = some 2 ∧ small.resolve 1 b!"../a/./f" = some 2 ∧ small.resolve 0 (append b!"l" b!"f") = none ∧
    setCwd small 0 b!"/a/" = (1, .ok true) ∧ getCwd small 1 = .ok b!"/a" ∧ searchDirectory small 0 b!"a" = [b!".", b!"..", b!"f"] ∧
    searchPathList (statOnly small 0) b!"f" [b!"l", b!".", b!"a/"] = b!"a/f" := by decide

/-- The path `/l` of the exception in C90_split: its directory is given as `.`, so from another directory it is not found. -/
example : directoryName b!"/l" = .ok b!"." ∧ tail b!"/l" = .ok b!"l" ∧ small.resolve 1 b!"/l" = some 2 ∧ small.resolve 1 (append b!"." b!"l") = none := by decide

end Verif.Path
