import Verif.Path.Model
import Verif.Path.Spec

/-!
# Properties C19–C24, C54, C55: path names
-/

set_option linter.unusedSimpArgs false

namespace Verif.Path
open Spec

theorem isAbsolute_iff (p : Str) : isAbsolute p = true ↔ Absolute p := by
  cases p <;> simp [isAbsolute, Absolute]

theorem trimIndex_spec (p : Str) : ∀ i, i < p.length → ∃ j, trimIndex p i = j ∧ j ≤ i ∧
    p.take (i + 1) = p.take (j + 1) ++ List.replicate (i - j) 47 ∧
    ((p.take (j + 1)).getLast? = some 47 → j = 0)
  | 0, h => ⟨0, rfl, Nat.le_refl _, by simp, by simp⟩
  | i + 1, h => by
    rw [trimIndex]
    split
    · next hs =>
      obtain ⟨j, e, hle, ht, hl⟩ := trimIndex_spec p i (by omega)
      refine ⟨j, e, by omega, ?_, hl⟩
      rw [List.take_add_one, ht, hs, show i + 1 - j = (i - j) + 1 by omega, List.replicate_succ']
      simp
    · next hs =>
      refine ⟨i + 1, rfl, Nat.le_refl _, by simp, ?_⟩
      intro hl
      have e : p.take (i + 1 + 1) = p.take (i + 1) ++ [p[i + 1]] := by
        rw [List.take_add_one, List.getElem?_eq_getElem h]; rfl
      rw [e, List.getLast?_append] at hl
      have hl : p[i + 1] = 47 := by simpa using hl
      exact absurd (by rw [List.getElem?_eq_getElem h, hl]) hs

theorem append_rel {p f : Str} (hp : p ≠ []) (hf : ¬ Absolute f) :
    ∃ t, Trimmed p t ∧ append p f = t ++ 47 :: f := by
  have hl : 0 < p.length := List.length_pos_iff.mpr hp
  obtain ⟨j, e, hle, ht, hlast⟩ := trimIndex_spec p (p.length - 1) (by omega)
  have hfull : p.take (p.length - 1 + 1) = p := List.take_of_length_le (by omega)
  rw [hfull] at ht
  refine ⟨p.take (j + 1), ⟨_, ht, ?_, ?_⟩, ?_⟩
  · intro h; simp at h; exact hp h
  · intro h; have := hlast h; subst this; simp; omega
  · rw [append, if_neg]
    · simp only [e, erase]
      rw [show j + 1 + (p.length - j - 1) = p.length by omega]
      simp
    · simp [hp, (isAbsolute_iff f), hf]

/-- **C19.** `Append`: an absolute name replaces the path, an empty path is replaced, and otherwise
the result is the path without its trailing slashes, a slash, and the name. -/
theorem C19_append (p f : Str) :
    (Absolute f → append p f = f) ∧ (p = [] → append p f = f) ∧
    (p ≠ [] → ¬ Absolute f → ∃ t, Trimmed p t ∧ append p f = t ++ 47 :: f) := by
  refine ⟨fun h => ?_, fun h => ?_, fun hp hf => append_rel hp hf⟩
  · rw [append, if_pos]; simp [(isAbsolute_iff f).mpr h]
  · subst h; rw [append, if_pos]; simp

example : append b!"/a//" b!"b/c" = b!"/a/b/c" ∧ append b!"//" b!"b" = b!"//b" ∧
    append b!"a" b!"/b" = b!"/b" := by decide

/-- Trimming has one result, so `C19_append` fixes the result of `Append`. -/
theorem C19_trimmed_unique (p t u : Str) (h : Trimmed p t) (h' : Trimmed p u) : t = u := by
  obtain ⟨n, hn, ht, hl⟩ := h
  obtain ⟨m, hm, hu, hl'⟩ := h'
  have key : ∀ (t u : Str) (n m : Nat), t ++ List.replicate n 47 = u ++ List.replicate m (47 : UInt8) →
      u ≠ [] → (t.getLast? = some 47 → t.length = 1) → n ≤ m → t = u := by
    intro t u n m e hu hl hle
    obtain ⟨d, rfl⟩ : ∃ d, m = d + n := ⟨m - n, by omega⟩
    rw [← List.replicate_append_replicate, ← List.append_assoc] at e
    have e3 := List.append_cancel_right e
    cases d with
    | zero => simpa using e3
    | succ d =>
      have : t.getLast? = some 47 := by rw [e3, List.replicate_succ']; simp
      have h1 := hl this
      have := List.length_pos_iff.mpr hu
      rw [e3] at h1; simp at h1; omega
  rcases Nat.le_total n m with h | h
  · exact key t u n m (hn ▸ hm) hu hl h
  · exact (key u t m n (hm ▸ hn) ht hl' h).symm

/-- **C19.** A relative name appended to an absolute path stays absolute. -/
theorem C19_absolute_stays (p f : Str) (h : Absolute p) : Absolute (append p f) := by
  by_cases hf : Absolute f
  · rw [(C19_append p f).1 hf]; exact hf
  · obtain ⟨r, rfl⟩ := h
    obtain ⟨t, ⟨n, hn, ht, _⟩, e⟩ := append_rel (p := 47 :: r) (by simp) hf
    cases t with
    | nil => exact absurd rfl ht
    | cons x t =>
      rw [e]; simp at hn
      exact ⟨t ++ 47 :: f, by rw [← hn.1]; rfl⟩

example : Absolute b!"/a" ∧ append b!"/a" b!"b" = b!"/a/b" := ⟨⟨_, rfl⟩, by decide⟩

/-! ## C54: appending is associative -/

theorem trimmed_exists (p : Str) (hp : p ≠ []) : ∃ t, Trimmed p t := by
  obtain ⟨t, h, _⟩ := append_rel (p := p) (f := []) hp (by rintro ⟨r, h⟩; cases h)
  exact ⟨t, h⟩

/-- **C54.** Appending is associative: joining several names gives the same path in whichever order the joins are made. -/
theorem C54_append_assoc (a b c : Str) : append (append a b) c = append a (append b c) := by
  by_cases hc : Absolute c
  · rw [(C19_append _ c).1 hc, (C19_append b c).1 hc, (C19_append a c).1 hc]
  by_cases hb : Absolute b
  · rw [(C19_append a b).1 hb, (C19_append a (append b c)).1 (C19_absolute_stays b c hb)]
  by_cases ha : a = []
  · rw [(C19_append a b).2.1 ha, (C19_append a _).2.1 ha]
  obtain ⟨t, hT, e⟩ := append_rel ha hb
  by_cases hb0 : b = []
  · subst hb0
    rw [(C19_append [] c).2.1 rfl]
    obtain ⟨t', hT', e'⟩ := append_rel ha hc
    rw [e']
    have : append a [] ≠ [] := by rw [e]; simp
    obtain ⟨u, hU, e2⟩ := append_rel this hc
    rw [e2]
    obtain rfl := C19_trimmed_unique a t t' hT hT'
    have : Trimmed (append a []) t := by
      rw [e]; exact ⟨1, by simp, hT.choose_spec.2.1, hT.choose_spec.2.2⟩
    rw [C19_trimmed_unique _ _ _ hU this]
  · have hab : append a b ≠ [] := by rw [e]; simp
    obtain ⟨u, hU, e2⟩ := append_rel hab hc
    obtain ⟨v, hV, e3⟩ := append_rel hb0 hc
    have hbc : ¬ Absolute (append b c) := by
      rw [e3]
      obtain ⟨n, hn, hv, _⟩ := hV
      rintro ⟨r, hr⟩
      cases v with
      | nil => exact hv rfl
      | cons x v => simp at hr; exact hb ⟨v ++ List.replicate n 47, by rw [hn, hr.1]; rfl⟩
    obtain ⟨w, hW, e4⟩ := append_rel ha hbc
    rw [e2, e4]
    obtain rfl := C19_trimmed_unique a t w hT hW
    have hv1 : v.getLast? ≠ some 47 := by
      intro hl
      obtain ⟨n, hn, hv, h1⟩ := hV
      have := h1 hl
      match v, this, hl with
      | [x], _, hl =>
        simp at hl
        exact hb ⟨List.replicate n 47, by rw [hn, hl]; rfl⟩
    have : Trimmed (append a b) (t ++ 47 :: v) := by
      rw [e]
      obtain ⟨n, hn, hv, _⟩ := hV
      refine ⟨n, by rw [hn]; simp, by simp, ?_⟩
      intro hl
      exfalso
      cases v with
      | nil => exact hv rfl
      | cons x v => rw [List.getLast?_append] at hl; simp [List.getLast?_cons_cons] at hl; exact hv1 (by simpa using hl)
    rw [C19_trimmed_unique _ _ _ hU this, e3]
    simp

example : append (append b!"/data/" b!"x/") b!"y" = b!"/data/x/y" := by decide

/-! ## C20 -/

theorem tail_cases (p : Str) :
    (47 ∉ p ∧ tail p = .ok p) ∨ (∃ a b, p = a ++ 47 :: b ∧ 47 ∉ b ∧ tail p = .ok b) := by
  by_cases h0 : p = []
  · subst h0; exact Or.inl ⟨by simp, rfl⟩
  have hl : p.length - 1 + 1 = p.length := by have := List.length_pos_iff.mpr h0; omega
  have e : tail p = match rfind slash p with
    | none => .ok p
    | some i => substr p (i + 1) (p.length - i - 1) := by
    rw [tail, if_neg (by simpa using h0), hl]; rfl
  rw [e]
  cases h : rfind slash p with
  | none => exact Or.inl ⟨rfind_eq_none.mp h, rfl⟩
  | some i =>
    obtain ⟨a, b, rfl, hb, rfl⟩ := rfind_eq_some.mp h
    refine Or.inr ⟨a, b, rfl, hb, ?_⟩
    simp only [substr]
    rw [if_pos (by simp)]
    simp [List.take_of_length_le]

/-- **C20.** The tail is what follows the last slash (everything when there is none); the directory
name is what precedes the last slash, or "." when there is no slash or it is the first character. -/
theorem C20_directory_tail (p : Str) :
    (47 ∉ p → tail p = .ok p ∧ directoryName p = .ok b!".") ∧
    (∀ a b, p = a ++ 47 :: b → 47 ∉ b →
      tail p = .ok b ∧ directoryName p = .ok (if a = [] then b!"." else a)) := by
  refine ⟨fun h => ⟨?_, ?_⟩, fun a b hp hb => ⟨?_, ?_⟩⟩
  · rcases tail_cases p with ⟨_, e⟩ | ⟨a, b, rfl, _⟩
    · exact e
    · simp at h
  · rw [directoryName, rfind_eq_none.mpr h]
  · subst hp
    rcases tail_cases (a ++ 47 :: b) with ⟨h, _⟩ | ⟨a', b', e, hb', et⟩
    · simp at h
    · rw [et]
      have h1 := (rfind_eq_some (c := 47) (s := a ++ 47 :: b)).mpr ⟨a, b, rfl, hb, rfl⟩
      have h2 := (rfind_eq_some (c := 47) (s := a ++ 47 :: b)).mpr ⟨a', b', e, hb', rfl⟩
      have := h1.symm.trans h2
      simp at this
      have := List.append_inj_right e this
      simp at this; rw [this]
  · subst hp
    have h1 := (rfind_eq_some (c := 47) (s := a ++ 47 :: b)).mpr ⟨a, b, rfl, hb, rfl⟩
    rw [directoryName, h1]
    cases a with
    | nil => simp [dot]
    | cons x a => simp [substr]

example : tail b!"/a/b" = .ok b!"b" ∧ directoryName b!"/a/b" = .ok b!"/a" := by decide

/-- **C20.** The tail never contains a slash, and unless the only slash is in front,
directory name, slash and tail give the path back. -/
theorem C20_recompose (p : Str) : ∃ d t, directoryName p = .ok d ∧ tail p = .ok t ∧ 47 ∉ t ∧
    ((∃ a b, p = a ++ 47 :: b ∧ a ≠ []) → d ++ 47 :: t = p) := by
  rcases tail_cases p with ⟨h, e⟩ | ⟨a, b, rfl, hb, e⟩
  · exact ⟨_, _, ((C20_directory_tail p).1 h).2, e, h, by rintro ⟨a, b, rfl, _⟩; simp at h⟩
  · refine ⟨_, _, ((C20_directory_tail _).2 a b rfl hb).2, e, hb, ?_⟩
    rintro ⟨a', b', e', ha'⟩
    by_cases ha : a = []
    · subst ha
      cases a' with
      | nil => exact absurd rfl ha'
      | cons x a' => simp at e'; exact absurd (by rw [e'.2]; simp) hb
    · rw [if_neg ha]

/-- **C20, negative.** The directory of a file in the root directory is reported as ".", so
the decomposition is not the path again. -/
theorem C20_root_directory (b : Str) (hb : 47 ∉ b) : directoryName (47 :: b) = .ok b!"." := by
  have := ((C20_directory_tail (47 :: b)).2 [] b rfl hb).2
  simpa using this

/-! ## C21 -/

/-- **C21.** The extension is what follows the last period of the tail, and empty when there is none. -/
theorem C21_extension (p t : Str) (ht : tail p = .ok t) :
    (46 ∉ t → extension p = .ok []) ∧
    (∀ a b, t = a ++ 46 :: b → 46 ∉ b → extension p = .ok b) := by
  constructor
  · intro h
    rw [extension, ht]
    simp only [bind, Except.bind]
    rw [rfind_eq_none.mpr h]; rfl
  · rintro a b rfl hb
    rw [extension, ht]
    simp only [bind, Except.bind]
    rw [(rfind_eq_some (c := dot)).mpr ⟨a, b, rfl, hb, rfl⟩]
    simp only [substr]
    rw [if_pos (by simp)]
    simp [List.take_of_length_le]

/-- **C21.** An extension always exists and contains neither a period nor a slash. -/
theorem C21_extension_chars (p : Str) : ∃ x, extension p = .ok x ∧ 46 ∉ x ∧ 47 ∉ x := by
  obtain ⟨_, t, _, ht, hs, _⟩ := C20_recompose p
  by_cases h : (46 : UInt8) ∈ t
  · cases hr : rfind 46 t with
    | none => exact absurd h (rfind_eq_none.mp hr)
    | some i =>
      obtain ⟨a, b, rfl, hb, _⟩ := rfind_eq_some.mp hr
      exact ⟨b, (C21_extension p _ ht).2 a b rfl hb, hb, fun hm => hs (by simp [hm])⟩
  · exact ⟨[], (C21_extension p t ht).1 h, by simp, by simp⟩

example : extension b!"/a.b/c.tar.gz" = .ok b!"gz" ∧ extension b!"/a.b/c" = .ok [] := by decide

/-! ## C22, C23 -/

theorem searchLoop_found (fs : FileSys) (name : Str) (pre : List Str) (p : Str) (post : List Str) (full : Str)
    (hpre : ∀ q ∈ pre, isFile fs (append q name) = false) (hp : isFile fs (append p name) = true) :
    searchLoop fs name (pre ++ p :: post) full = append p name := by
  induction pre generalizing full with
  | nil => simp [searchLoop, hp]
  | cons q pre ih =>
    simp only [List.cons_append, searchLoop]
    rw [if_neg (by simp [hpre q (by simp)])]
    exact ih _ (fun x hx => hpre x (by simp [hx]))

/-- `IsFile` asks `stat` for a regular file. -/
theorem isFile_eq_true_iff (fs : FileSys) (p : Str) : isFile fs p = true ↔ fs.stat (cstr p) = some .regular := by
  simp only [isFile, beq_iff_eq]

theorem isFile_eq_false_iff (fs : FileSys) (p : Str) : isFile fs p = false ↔ fs.stat (cstr p) ≠ some .regular := by
  rw [← Bool.not_eq_true, isFile_eq_true_iff]

/-- **C22.** The result is the candidate of the first directory in which the name is a regular file (says `stat`). -/
theorem C22_search_first (fs : FileSys) (name : Str) (pre : List Str) (p : Str) (post : List Str)
    (hpre : ∀ q ∈ pre, fs.stat (cstr (append q name)) ≠ some .regular) (hp : fs.stat (cstr (append p name)) = some .regular) :
    searchPathList fs name (pre ++ p :: post) = append p name :=
  searchLoop_found fs name pre p post [] (fun q hq => (isFile_eq_false_iff fs _).2 (hpre q hq)) ((isFile_eq_true_iff fs _).2 hp)

example : searchPathList ⟨fun s => if s = b!"/y/n" then some .regular else none, fun _ => true,
    fun _ => true, fun _ => true⟩ b!"n" [b!"/x", b!"/y", b!"/z"] = b!"/y/n" := by decide

theorem searchLoop_none (fs : FileSys) (name : Str) (ps : List Str) (full : Str)
    (h : ∀ q ∈ ps, isFile fs (append q name) = false) :
    searchLoop fs name ps full = (ps.getLast?.map fun q => append q name).getD full := by
  induction ps generalizing full with
  | nil => rfl
  | cons q ps ih =>
    simp only [searchLoop]
    rw [if_neg (by simp [h q (by simp)]), ih _ (fun x hx => h x (by simp [hx]))]
    cases ps with
    | nil => rfl
    | cons r ps => rw [List.getLast?_cons_cons]; rw [List.getLast?_eq_some_getLast (by simp)]; rfl

/-- **C23.** When the name is a regular file in no directory of the list, the result is the
candidate of the last directory, not the empty path the documentation promises. -/
theorem C23_search_nothing (fs : FileSys) (name : Str) (ps : List Str)
    (h : ∀ q ∈ ps, fs.stat (cstr (append q name)) ≠ some .regular) :
    (ps = [] → searchPathList fs name ps = []) ∧
    (∀ init last, ps = init ++ [last] → searchPathList fs name ps = append last name) := by
  rw [searchPathList, searchLoop_none fs name ps [] (fun q hq => (isFile_eq_false_iff fs _).2 (h q hq))]
  constructor
  · rintro rfl; rfl
  · rintro init last rfl; simp

/-- **C23, negative.** The documented empty result is not what is returned. -/
theorem C23_documented_false : ¬ ∀ (fs : FileSys) (name : Str) (ps : List Str),
    (∀ q ∈ ps, fs.stat (cstr (append q name)) ≠ some .regular) → searchPathList fs name ps = [] := by
  intro h
  have := h ⟨fun _ => none, fun _ => false, fun _ => false, fun _ => false⟩ b!"n" [b!"d"] (by decide)
  revert this; decide

/-- **C23.** A result of the search is a regular file exactly when some candidate is. -/
theorem C23_result_is_file_iff (fs : FileSys) (name : Str) (ps : List Str) (h0 : ps ≠ []) :
    fs.stat (cstr (searchPathList fs name ps)) = some .regular ↔ ∃ q ∈ ps, fs.stat (cstr (append q name)) = some .regular := by
  simp only [← isFile_eq_true_iff]
  suffices H : ∀ full, ps ≠ [] → (isFile fs (searchLoop fs name ps full) = true ↔
      ∃ q ∈ ps, isFile fs (append q name) = true) from H [] h0
  clear h0
  induction ps with
  | nil => intro _ h; exact absurd rfl h
  | cons q ps ih =>
    intro full _
    simp only [searchLoop]
    by_cases hq : isFile fs (append q name) = true
    · rw [if_pos hq]; simp [hq]
    · rw [if_neg hq]
      cases ps with
      | nil => simp [searchLoop, hq]
      | cons r ps => rw [ih _ (by simp)]; simp [hq]

/-! ## C24 -/

theorem colonLoop_ok (value : Str) : ∀ (fuel j : Nat), j ≤ value.length → value.length - j < fuel →
    ∃ r, colonLoop value fuel j = .ok r ∧ r ≠ [] ∧ (∀ e ∈ r, 58 ∉ e) ∧ join r = value.drop j
  | 0, j, _, h => by omega
  | fuel + 1, j, hj, h => by
    rw [colonLoop]
    cases hf : find colon value j with
    | none =>
      have hn := findIn_eq_none.mp hf
      refine ⟨[value.drop j], ?_, by simp, by simpa using hn, rfl⟩
      simp only [substr, if_pos hj, bind, Except.bind, pure, Except.pure]
      rw [List.take_of_length_le (by simp)]
    | some i =>
      obtain ⟨a, b, e, ha, rfl⟩ := findIn_eq_some.mp hf
      have hlen := congrArg List.length e
      simp at hlen
      obtain ⟨r, hr, hne, hc, hjoin⟩ := colonLoop_ok value fuel (j + a.length + 1) (by omega) (by omega)
      refine ⟨a :: r, ?_, by simp, ?_, ?_⟩
      · simp only [substr, if_pos hj, bind, Except.bind, pure, Except.pure, hr, e]
        simp
      · intro x hx
        rcases List.mem_cons.mp hx with rfl | hx
        · exact ha
        · exact hc x hx
      · have hd : value.drop (j + a.length + 1) = b := by
          rw [Nat.add_assoc, ← List.drop_drop, e]; simp
        cases r with
        | nil => exact absurd rfl hne
        | cons y r => rw [join, hjoin, hd, e]

/-- **C24.** The value is split at every colon: the elements joined with colons are the value again,
no element contains a colon, and only the empty value gives no element. -/
theorem C24_colon_list (value : Str) : ∃ l, colonList value = .ok l ∧ join l = value ∧
    (∀ e ∈ l, 58 ∉ e) ∧ (l = [] ↔ value = []) := by
  by_cases h : value = []
  · subst h; exact ⟨[], rfl, rfl, by simp, by simp⟩
  · rw [colonList, if_neg h]
    obtain ⟨r, hr, hne, hc, hj⟩ := colonLoop_ok value (value.length + 1) 0 (by omega) (by omega)
    exact ⟨r, hr, by simpa using hj, hc, by simp [hne, h]⟩

theorem join_injective : ∀ (l m : List Str), l ≠ [] → m ≠ [] → (∀ e ∈ l, 58 ∉ e) → (∀ e ∈ m, 58 ∉ e) →
    join l = join m → l = m := by
  have split : ∀ (x y r s : Str), 58 ∉ x → 58 ∉ y → x ++ 58 :: r = y ++ 58 :: s → x = y ∧ r = s := by
    intro x y r s hx hy e
    have h1 := (findIn_eq_some (c := 58) (base := 0)).mpr ⟨x, r, rfl, hx, rfl⟩
    have h2 := (findIn_eq_some (c := 58) (base := 0)).mpr ⟨y, s, rfl, hy, rfl⟩
    rw [e] at h1
    have := h1.symm.trans h2
    simp at this
    have e1 := List.append_inj_left e this
    subst e1
    simpa using e
  intro l
  induction l with
  | nil => intro m h; exact absurd rfl h
  | cons x l ih =>
    intro m _ hm hl hmc e
    cases m with
    | nil => exact absurd rfl hm
    | cons y m =>
      cases l with
      | nil =>
        cases m with
        | nil => simp [join] at e; simp [e]
        | cons z m =>
          simp only [join] at e
          exact absurd (by rw [e]; simp) (hl x (by simp))
      | cons w l =>
        cases m with
        | nil =>
          simp only [join] at e
          exact absurd (by rw [← e]; simp) (hmc y (by simp))
        | cons z m =>
          simp only [join] at e
          obtain ⟨e1, e2⟩ := split x y _ _ (hl x (by simp)) (hmc y (by simp)) e
          rw [e1, ih (z :: m) (by simp) (by simp) (fun a ha => hl a (by simp [ha]))
            (fun a ha => hmc a (by simp [ha])) e2]

/-- **C24.** A non-empty list of names without colons, joined with colons, is read back exactly
(unless the joined text is empty). -/
theorem C24_join_split (l : List Str) (h0 : join l ≠ []) (hc : ∀ e ∈ l, 58 ∉ e) :
    colonList (join l) = .ok l := by
  obtain ⟨m, hm, hj, hmc, hme⟩ := C24_colon_list (join l)
  have hl : l ≠ [] := by rintro rfl; exact h0 rfl
  rw [hm, join_injective l m hl (by rw [ne_eq, hme]; exact h0) hc hmc hj.symm]

example : colonList b!"/a::b:" = .ok [b!"/a", [], b!"b", []] := by decide

/-! ## C55: tail and directory of a joined path -/

/-- **C55.** The last component of a joined path is the last component of the appended name. -/
theorem C55_tail_append (p f : Str) : tail (append p f) = tail f := by
  by_cases hf : Absolute f
  · rw [(C19_append p f).1 hf]
  by_cases hp : p = []
  · rw [(C19_append p f).2.1 hp]
  obtain ⟨t, _, e⟩ := append_rel hp hf
  rw [e]
  rcases tail_cases f with ⟨h, ef⟩ | ⟨a, b, rfl, hb, ef⟩
  · rw [ef, ((C20_directory_tail _).2 t f rfl h).1]
  · rw [ef, ((C20_directory_tail _).2 (t ++ 47 :: a) b (by simp) hb).1]

/-- **C55.** The directory of a path joined with a single component is the path without its
trailing slashes. -/
theorem C55_directory_append (p f t : Str) (hp : p ≠ []) (hf : 47 ∉ f) (ht : Trimmed p t) :
    directoryName (append p f) = .ok t := by
  have hf' : ¬ Absolute f := by rintro ⟨r, rfl⟩; simp at hf
  obtain ⟨u, hu, e⟩ := append_rel hp hf'
  rw [e, ((C20_directory_tail _).2 u f rfl hf).2, C19_trimmed_unique p u t hu ht, if_neg ht.choose_spec.2.1]

example : Trimmed b!"a//" b!"a" := ⟨2, by decide, by decide, by decide⟩

end Verif.Path
