import Verif.Itk.ImagesSpec
import Verif.Itk.ReportProps
import Verif.Itk.NamesProps

/-!
# What a measurement call and the writing of an image leave alone
-/

namespace Verif.Itk
open Spec Verif.Path Verif.Measurement Verif.Measurement.Spec Verif.Regression Verif.Regression.Spec

/-- Nothing has changed but the counter, the baseline measurements left, standard output and the output file. -/
structure Frame (s s' : St) : Prop where
  obj : ∃ u i, s'.obj = { s.obj with unmatched := u, input := i }
  world : ∃ b c, s'.world = { s.world with bytes := b, cout := c } ∧ ∀ m, (∀ o, s.obj.os = some o → m ≠ cstr o) → b m = s.world.bytes m

theorem Frame.refl (s : St) : Frame s s := ⟨⟨_, _, rfl⟩, ⟨_, _, rfl, fun _ _ => rfl⟩⟩

theorem Frame.trans {a b c : St} (h : Frame a b) (h' : Frame b c) : Frame a c := by
  obtain ⟨⟨u, i, e⟩, ⟨x, y, f, g⟩⟩ := h
  obtain ⟨⟨u', i', e'⟩, ⟨x', y', f', g'⟩⟩ := h'
  refine ⟨⟨u', i', by rw [e', e]⟩, ⟨x', y', by rw [f', f], fun m hm => ?_⟩⟩
  rw [g' m (by rw [e]; exact hm), f]
  exact g m hm

theorem Frame.of_obj (s : St) (u : Int) (i : List Meas) : Frame s { s with obj := { s.obj with unmatched := u, input := i } } :=
  ⟨⟨u, i, rfl⟩, ⟨_, _, rfl, fun _ _ => rfl⟩⟩

theorem frame_emit (s : St) (t : Str) : Frame s (s.emit t) := by
  refine ⟨⟨s.obj.unmatched, s.obj.input, by rw [emit_obj]⟩, ?_⟩
  rw [St.emit]
  split
  · exact ⟨_, _, rfl, fun _ _ => rfl⟩
  · next n hn => exact ⟨_, s.world.cout, rfl, fun m hm => if_neg (hm n hn)⟩

theorem frame_cout (s : St) (t : Str) : Frame s (s.toCout t) := ⟨⟨s.obj.unmatched, s.obj.input, rfl⟩, ⟨_, _, rfl, fun _ _ => rfl⟩⟩

theorem frame_unmatched (s : St) (m : Meas) : Frame s (unmatchedMeasurement s m).1 := by
  have h := Frame.of_obj s (s.obj.unmatched + 1) s.obj.input
  simp only [unmatchedMeasurement]
  split
  · exact h
  · exact h.trans (frame_emit _ _)

theorem frame_difference (env : Env) (s : St) (t b : Meas) : Frame s (differenceMeasurement env s t b).1 := by
  have h := Frame.of_obj s (s.obj.unmatched + 1) s.obj.input
  simp only [differenceMeasurement]
  split
  · split
    · exact h.trans (frame_cout _ _)
    · exact h.trans (frame_cout _ _)
  · split
    · exact h
    · exact h.trans (frame_emit _ _)

theorem frame_then {α : Type} (s : St) (r : Res α) (v : Int) (h : Frame s r.1) : Frame s (r.andThen fun s _ => (s, .ok v)).1 := by
  rcases r with ⟨s', e | a⟩ <;> exact h

theorem frame_visit (env : Env) (s : St) (tol : Bool) (b t : Meas) : Frame s (compareVisit env s tol b t).1 := by
  simp only [compareVisit]
  split
  · exact frame_cout _ _
  · exact .refl s

theorem frame_compare (env : Env) (s : St) (m : Meas) (tol : Bool) : Frame s (compareMeasurement env s m tol).1 := by
  cases hi : s.obj.input with
  | nil => simp only [compareMeasurement, hi]; exact frame_then _ _ _ (frame_unmatched s m)
  | cons b rest =>
    have h := Frame.of_obj s s.obj.unmatched rest
    simp only [compareMeasurement, hi]
    split
    · cases locateBaseline { s with obj := { s.obj with input := rest } } b m with
      | error f => exact h
      | ok b' =>
        simp only
        have hv := frame_visit env { s with obj := { s.obj with input := rest } } tol b' m
        rcases hcv : compareVisit env { s with obj := { s.obj with input := rest } } tol b' m with ⟨s', b'', t', f | same⟩
        · rw [hcv] at hv; exact h.trans hv
        · rw [hcv] at hv
          cases same with
          | true => exact h.trans hv
          | false =>
            simp only [Bool.false_eq_true, if_false]
            exact (h.trans hv).trans (frame_then _ _ _ (frame_difference env s' t' b''))
    · exact h.trans (frame_then _ _ _ (frame_unmatched _ m))

theorem frame_call (env : Env) (s : St) (c : Call) : Frame s (runCall env s c).1 := by
  rw [runCall]
  split
  · exact frame_compare ..
  · cases c.recorded with
    | error f => exact .refl s
    | ok m =>
      simp only
      split
      · exact .refl s
      · exact frame_emit _ _

/-! ## Names -/

theorem hexText_safe (n : Nat) : 0 ∉ hexText n ∧ 47 ∉ hexText n ∧ 95 ∉ hexText n ∧ ∀ c ∈ hexText n, Xml.Spec.Printable c := by
  have hd : ∀ a < 16, hexDigit a ≠ 0 ∧ hexDigit a ≠ 47 ∧ hexDigit a ≠ 95 ∧ Xml.Spec.Printable (hexDigit a) := by decide +kernel
  induction n using Nat.strongRecOn with
  | ind n ih =>
    rw [hexText]
    split
    · next h => obtain ⟨a, b, c, d⟩ := hd n h; simp [Ne.symm a, Ne.symm b, Ne.symm c, d]
    · next h =>
      obtain ⟨a, b, c, d⟩ := ih (n / 16) (by omega)
      obtain ⟨a', b', c', d'⟩ := hd (n % 16) (by omega)
      simp only [List.mem_append, List.mem_singleton, not_or]
      refine ⟨⟨a, Ne.symm a'⟩, ⟨b, Ne.symm b'⟩, ⟨c, Ne.symm c'⟩, ?_⟩
      rintro x (hx | rfl)
      · exact d x hx
      · exact d'

/-- The file of the image with the number `c`. -/
def fileAt (a : Str) (args : List Str) (c : UInt32) : Str := stem (a :: args) a ++ hexText c.toNat ++ b!".mha"

theorem generate_mha (a : Str) (args : List Str) (c : UInt32) :
    Names.generate ⟨a :: args, c⟩ b!"mha" [] = (⟨a :: args, c + 1⟩, .ok (fileAt a args (c + 1))) := by
  rw [generate_eq]
  simp [Path.append, fileAt]

theorem cstr_id (s : Str) (h : 0 ∉ s) : cstr s = s := by
  have := List.takeWhile_append_of_pos (p := fun c : UInt8 => decide (c ≠ 0)) (l₁ := s) (l₂ := []) (by
    intro x hx; simp; rintro rfl; exact h hx)
  simpa [cstr] using this

theorem fileAt_nul (a : Str) (args : List Str) (c : UInt32) (h : 0 ∉ a) : cstr (fileAt a args c) = fileAt a args c := by
  apply cstr_id
  have h1 := (hexText_safe c.toNat).1
  have h2 := (hexText_safe (hashArgs (a :: args)).toNat).1
  simp only [fileAt, stem, List.mem_append, not_or]
  exact ⟨⟨⟨⟨⟨h, by decide⟩, h2⟩, by decide⟩, h1⟩, by decide⟩

theorem baseName_append (a b : Str) (h : 47 ∉ b) : baseName (a ++ b) = baseName a ++ b := by
  rw [baseName, List.reverse_append, List.takeWhile_append_of_pos, List.reverse_append, List.reverse_reverse, baseName]
  intro x hx
  rw [List.mem_reverse] at hx
  simp
  rintro rfl
  exact h hx

theorem baseName_fileAt (a : Str) (args : List Str) (c : UInt32) :
    baseName (fileAt a args c) = baseName a ++ b!"_" ++ hexText (hashArgs (a :: args)).toNat ++ b!"_" ++ hexText c.toNat ++ b!".mha" := by
  have h1 := (hexText_safe c.toNat).2.1
  have h2 := (hexText_safe (hashArgs (a :: args)).toNat).2.1
  rw [show fileAt a args c = a ++ (b!"_" ++ hexText (hashArgs (a :: args)).toNat ++ b!"_" ++ hexText c.toNat ++ b!".mha") by
    simp [fileAt, stem], baseName_append]
  · simp
  · simp only [List.mem_append, not_or]
    exact ⟨⟨⟨⟨by decide, h2⟩, by decide⟩, h1⟩, by decide⟩

/-- What stands before and after the last occurrence of a character. -/
theorem last_inj (x : UInt8) (a b c d : Str) (hb : x ∉ b) (hd : x ∉ d) (h : a ++ x :: b = c ++ x :: d) : a = c ∧ b = d := by
  have h := congrArg List.reverse h
  simp only [List.reverse_append, List.reverse_cons, List.append_assoc, List.singleton_append] at h
  have hb' : x ∉ b.reverse := by simpa using hb
  have hd' : x ∉ d.reverse := by simpa using hd
  rcases List.append_eq_append_iff.mp h with ⟨e, h1, h2⟩ | ⟨e, h1, h2⟩
  · cases e with
    | nil => simp at h1 h2; exact ⟨h2, h1.symm⟩
    | cons z e =>
      simp only [List.cons_append, List.cons.injEq] at h2
      exact absurd (by rw [h1, ← h2.1]; simp) hd'
  · cases e with
    | nil => simp at h1 h2; exact ⟨h2.symm, h1⟩
    | cons z e =>
      simp only [List.cons_append, List.cons.injEq] at h2
      exact absurd (by rw [h1, ← h2.1]; simp) hb'

/-- The base name tells the hash and the number. -/
theorem base_inj (a a' : Str) (args args' : List Str) (c c' : UInt32) (h : baseName (fileAt a args c) = baseName (fileAt a' args' c')) :
    hashArgs (a :: args) = hashArgs (a' :: args') ∧ c = c' := by
  rw [baseName_fileAt, baseName_fileAt] at h
  have h := List.append_cancel_right h
  have e : ∀ (x y z w : Str), x ++ b!"_" ++ y ++ b!"_" ++ z = (x ++ b!"_" ++ y) ++ (95 :: z) := by intro x y z w; simp
  rw [e _ _ _ [], e _ _ _ []] at h
  obtain ⟨h1, h2⟩ := last_inj 95 _ _ _ _ (hexText_safe _).2.2.1 (hexText_safe _).2.2.1 h
  have e : ∀ (x y : Str), x ++ b!"_" ++ y = x ++ (95 :: y) := by intro x y; simp
  rw [e, e] at h1
  obtain ⟨-, h3⟩ := last_inj 95 _ _ _ _ (hexText_safe _).2.2.1 (hexText_safe _).2.2.1 h1
  exact ⟨UInt16.toNat_inj.mp (hexText_inj _ _ h3), UInt32.toNat_inj.mp (hexText_inj _ _ h2)⟩

/-- The files of a run. -/
theorem files_eq (a : Str) (args : List Str) : ∀ (n : Nat) (c : UInt32) (files : List Str), FilesOf ⟨a :: args, c⟩ n files →
    files.length = n ∧ ∀ i < n, files[i]? = some (fileAt a args (c + 1 + UInt32.ofNat i))
  | 0, c, files, h => by
    simp only [FilesOf, List.replicate_zero, Names.generateAll, Except.ok.injEq] at h
    subst h
    simp
  | n + 1, c, files, h => by
    simp only [FilesOf, List.replicate_succ, Names.generateAll, generate_mha] at h
    rcases hr : Names.generateAll ⟨a :: args, c + 1⟩ (List.replicate n (b!"mha", [])) with e | fs
    · rw [hr] at h; cases h
    · rw [hr] at h
      cases h
      obtain ⟨h1, h2⟩ := files_eq a args n (c + 1) fs hr
      refine ⟨by simp [h1], fun i hi => ?_⟩
      cases i with
      | zero => simp
      | succ i =>
        rw [List.getElem?_cons_succ, h2 i (by omega)]
        congr 2
        rw [UInt32.ofNat_add, UInt32.add_assoc (c + 1), UInt32.add_comm (UInt32.ofNat i)]
        rfl

theorem files_cons (a : Str) (args : List Str) (n : Nat) (c : UInt32) (files : List Str) (h : FilesOf ⟨a :: args, c⟩ (n + 1) files) :
    ∃ rest, files = fileAt a args (c + 1) :: rest ∧ FilesOf ⟨a :: args, c + 1⟩ n rest := by
  simp only [FilesOf, List.replicate_succ, Names.generateAll, generate_mha] at h
  rcases hr : Names.generateAll ⟨a :: args, c + 1⟩ (List.replicate n (b!"mha", [])) with e | fs
  · rw [hr] at h; cases h
  · rw [hr] at h
    cases h
    exact ⟨fs, rfl, hr⟩

/-- There is a list of files for every run with arguments. -/
theorem files_exist (a : Str) (args : List Str) (n : Nat) (c : UInt32) : ∃ files, FilesOf ⟨a :: args, c⟩ n files :=
  ⟨_, generateAll_eq a args _ c⟩

/-- The files of a run of up to 2^32 images are different in the last components of their names. -/
theorem files_distinct (a : Str) (args : List Str) (n : Nat) (hn : n ≤ 4294967296) (c : UInt32) (files : List Str) (h : FilesOf ⟨a :: args, c⟩ n files)
    (i j : Nat) (hi : i < n) (hj : j < n) (f g : Str) (hf : files[i]? = some f) (hg : files[j]? = some g) (he : baseName f = baseName g) : i = j := by
  obtain ⟨h1, h2⟩ := files_eq a args n c files h
  rw [h2 i hi] at hf
  rw [h2 j hj] at hg
  cases hf
  cases hg
  obtain ⟨-, h3⟩ := base_inj _ _ _ _ _ _ he
  by_contra hne
  rcases Nat.lt_or_gt_of_ne hne with hlt | hlt
  · exact counter_inj _ i j hlt (by omega) h3
  · exact counter_inj _ j i hlt (by omega) h3.symm

/-! ## Writing an image -/

theorem save_eq (enc : Image → Str) (w : World) (file : Str) (im : Image) (h : w.creatable (cstr file) = true) :
    ∃ cr, saveImage enc w file im = { w with
      bytes := fun m => if m = cstr file then enc im else w.bytes m
      fs := { w.fs with stat := fun m => if m = cstr file then some .regular else w.fs.stat m, canRead := cr } } ∧
      (∀ m, cr m = true ↔ (m = cstr file ∧ w.fs.stat m = none) ∨ w.fs.canRead m = true) := by
  simp only [saveImage, World.openWrite, if_pos h]
  refine ⟨fun m => if m = cstr file ∧ w.fs.stat (cstr file) = none then true else w.fs.canRead m, ?_, ?_⟩
  · congr 1
    funext m
    by_cases hm : m = cstr file <;> simp [hm]
  · intro m
    by_cases hm : m = cstr file
    · subst hm
      by_cases h0 : w.fs.stat (cstr file) = none <;> simp [h0]
    · simp [hm]

theorem save_creatable (enc : Image → Str) (w : World) (file : Str) (im : Image) : (saveImage enc w file im).creatable = w.creatable := by
  by_cases h : w.creatable (cstr file) = true
  · obtain ⟨cr, e, -⟩ := save_eq enc w file im h
    rw [e]
  · simp only [saveImage, World.openWrite]
    rw [if_neg h]

end Verif.Itk
