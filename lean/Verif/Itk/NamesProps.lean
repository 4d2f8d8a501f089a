import Verif.Itk.Names
import Verif.Itk.NamesSpec
import Verif.Path.Props
import Verif.Regression.MainProps
import Mathlib.Data.Fintype.Pigeonhole

/-!
# Properties C52, C71–C73: generated names, compound measurements, the image comparison program
-/

set_option linter.unusedSimpArgs false

namespace Verif.Itk
open Spec Verif.Regression Verif.Regression.Spec Verif.Measurement

/-! ## Hexadecimal text -/

theorem hexDigit_inj : ∀ a < 16, ∀ b < 16, hexDigit a = hexDigit b → a = b := by decide +kernel

theorem hexDigit_dot : ∀ a < 16, hexDigit a ≠ 46 := by decide +kernel

theorem hexText_spec (n : Nat) : hexText n ≠ [] ∧ 46 ∉ hexText n := by
  induction n using Nat.strongRecOn with
  | _ n ih =>
    rw [hexText]
    split
    · next h => exact ⟨by simp, by simpa using (hexDigit_dot n h).symm⟩
    · next h =>
      refine ⟨by simp, ?_⟩
      simp only [List.mem_append, List.mem_singleton, not_or]
      exact ⟨(ih (n / 16) (by omega)).2, (hexDigit_dot (n % 16) (by omega)).symm⟩

theorem hexText_inj : ∀ m n, hexText m = hexText n → m = n := by
  intro m
  induction m using Nat.strongRecOn with
  | _ m ih =>
    intro n h
    rw [hexText, hexText.eq_def n] at h
    have hne := fun k => List.length_pos_iff.mpr (hexText_spec k).1
    split at h <;> split at h
    · exact hexDigit_inj m (by assumption) n (by assumption) (by simpa using h)
    · have h1 := congrArg List.length h; have h2 := hne (n / 16); simp only [List.length_append, List.length_singleton] at h1; omega
    · have h1 := congrArg List.length h; have h2 := hne (m / 16); simp only [List.length_append, List.length_singleton] at h1; omega
    · next h1 h2 =>
      have ha := List.append_inj_left' h rfl
      have hb := List.append_inj_right' h rfl
      have hd := hexDigit_inj (m % 16) (by omega) (n % 16) (by omega) (by simpa using hb)
      have hq := ih (m / 16) (by omega) (n / 16) ha
      omega

/-- Two texts without a dot, each followed by a dot. -/
theorem dot_inj (a b x y : Str) (ha : 46 ∉ a) (hb : 46 ∉ b) (h : a ++ 46 :: x = b ++ 46 :: y) : a = b ∧ x = y := by
  rcases List.append_eq_append_iff.mp h with ⟨c, h1, h2⟩ | ⟨c, h1, h2⟩
  · cases c with
    | nil => simp at h1 h2; exact ⟨h1.symm, h2⟩
    | cons z c =>
      simp only [List.cons_append, List.cons.injEq] at h2
      exact absurd (by rw [h1, ← h2.1]; simp) hb
  · cases c with
    | nil => simp at h1 h2; exact ⟨h1, h2.symm⟩
    | cons z c =>
      simp only [List.cons_append, List.cons.injEq] at h2
      exact absurd (by rw [h1, ← h2.1]; simp) ha

/-! ## C52, C71 -/

/-- The part of the name before the number. -/
def stem (args : List Str) (a : Str) : Str := a ++ b!"_" ++ hexText (hashArgs args).toNat ++ b!"_"

theorem generate_eq (a : Str) (args : List Str) (c : UInt32) (ext root : Str) :
    Names.generate ⟨a :: args, c⟩ ext root = (⟨a :: args, c + 1⟩,
      .ok (Path.append root (stem (a :: args) a ++ hexText (c + 1).toNat ++ 46 :: ext))) := by
  simp only [Names.generate, stem]
  congr 2
  by_cases h : root = []
  · subst h
    simp [Path.append]
  · simp [h]

/-- The numbers given out. -/
theorem generateAll_eq (a : Str) (args : List Str) : ∀ (reqs : List (Str × Str)) (c : UInt32),
    Names.generateAll ⟨a :: args, c⟩ reqs = .ok ((reqs.zipIdx 1).map fun (r, i) =>
      Path.append r.2 (stem (a :: args) a ++ hexText (c + UInt32.ofNat i).toNat ++ 46 :: r.1))
  | [], _ => rfl
  | (ext, root) :: rest, c => by
    rw [Names.generateAll, generate_eq]
    simp only
    rw [generateAll_eq a args rest (c + 1)]
    simp only [List.zipIdx_cons, List.map_cons, Except.ok.injEq, List.cons.injEq]
    refine ⟨by simp, ?_⟩
    have hz : rest.zipIdx (1 + 1) = (rest.zipIdx 1).map fun x => (x.1, x.2 + 1) := by
      rw [List.zipIdx_succ]
    rw [hz, List.map_map]
    apply List.map_congr_left
    rintro ⟨⟨e, r⟩, i⟩ _
    simp only [Function.comp]
    congr 5
    rw [UInt32.add_assoc]
    congr 1
    rw [UInt32.ofNat_add, UInt32.add_comm]; rfl

/-- The counter takes different values for different numbers of names up to 2^32. -/
theorem counter_inj (c : UInt32) (i j : Nat) (hi : i < j) (hj : j - i < 4294967296)
    (h : c + UInt32.ofNat i = c + UInt32.ofNat j) : False := by
  have h := (UInt32.add_right_inj c).mp h
  have := congrArg UInt32.toNat h
  simp at this
  omega

/-- **C52.** Up to 2^32 names generated one after the other by an object, for one root path and any file extensions, are different. -/
theorem C52_names_distinct (s : Names) (reqs : List (Str × Str)) (root : Str) (hroot : ∀ r ∈ reqs, r.2 = root)
    (hlen : reqs.length ≤ 4294967296) (names : List Str) (h : s.generateAll reqs = .ok names) : names.Nodup := by
  obtain ⟨args, c⟩ := s
  cases args with
  | nil =>
    cases reqs with
    | nil => cases h; simp
    | cons r reqs => simp [Names.generateAll, Names.generate] at h
  | cons a args =>
    rw [generateAll_eq] at h
    cases h
    rw [List.Nodup, List.pairwise_iff_getElem]
    intro i j hi hj hij
    simp only [List.length_map, List.length_zipIdx] at hi hj
    simp only [List.getElem_map, List.getElem_zipIdx, ne_eq]
    intro he
    rw [hroot _ (List.getElem_mem hi), hroot _ (List.getElem_mem hj)] at he
    have hsame : ∀ x y : Str, Path.append root (stem (a :: args) a ++ x) = Path.append root (stem (a :: args) a ++ y) → x = y := by
      intro x y hxy
      by_cases hr : root = []
      · rw [(Path.C19_append _ _).2.1 hr, (Path.C19_append _ _).2.1 hr] at hxy
        exact List.append_cancel_left hxy
      by_cases ha : Path.Spec.Absolute a
      · obtain ⟨r, hr⟩ := ha
        rw [(Path.C19_append _ _).1 ⟨_, by rw [hr]; rfl⟩, (Path.C19_append _ _).1 ⟨_, by rw [hr]; rfl⟩] at hxy
        exact List.append_cancel_left hxy
      · have hna : ∀ x, ¬ Path.Spec.Absolute (stem (a :: args) a ++ x) := by
          rintro x ⟨r, hr⟩
          cases a with
          | nil => simp [stem] at hr
          | cons z a => simp only [stem, List.cons_append, List.cons.injEq] at hr; exact ha ⟨a, by rw [hr.1]⟩
        obtain ⟨t, ht, e1⟩ := Path.append_rel hr (hna x)
        obtain ⟨t', ht', e2⟩ := Path.append_rel hr (hna y)
        rw [e1, e2, Path.C19_trimmed_unique _ _ _ ht ht'] at hxy
        exact List.append_cancel_left (List.cons.inj (List.append_cancel_left hxy)).2
    rw [List.append_assoc, List.append_assoc] at he
    have he := hsame _ _ he
    have := (dot_inj _ _ _ _ (hexText_spec _).2 (hexText_spec _).2 he).1
    have := hexText_inj _ _ this
    exact counter_inj c (1 + i) (1 + j) (by omega) (by omega) (UInt32.toNat_inj.mp this)

/-- Three names of one test. -/
example : Names.generateAll ⟨[b!"test", b!"-v"], 0⟩ [(b!"mha", []), (b!"mha", []), (b!"png", b!"out/")] =
    .ok [b!"test_84c0_1.mha", b!"test_84c0_2.mha", b!"out/test_84c0_3.png"] := by
  rw [generateAll_eq]
  have : hashArgs [b!"test", b!"-v"] = 0x84c0 := by decide +kernel
  have h0 : hexText 0x84c0 = b!"84c0" := by
    rw [hexText, if_neg (by decide), hexText, if_neg (by decide), hexText, if_neg (by decide), hexText, if_pos (by decide)]
    decide +kernel
  have h1 : hexText 1 = b!"1" := by rw [hexText, if_pos (by decide)]; decide +kernel
  have h2 : hexText 2 = b!"2" := by rw [hexText, if_pos (by decide)]; decide +kernel
  have h3 : hexText 3 = b!"3" := by rw [hexText, if_pos (by decide)]; decide +kernel
  have e0 : (0x84c0 : UInt16).toNat = 0x84c0 := rfl
  have e1 : (0 + UInt32.ofNat 1).toNat = 1 := rfl
  have e2 : (0 + UInt32.ofNat 2).toNat = 2 := rfl
  have e3 : (0 + UInt32.ofNat 3).toNat = 3 := rfl
  simp only [stem, this, List.zipIdx, List.map, Nat.reduceAdd, e0, e1, e2, e3, h0, h1, h2, h3]
  decide +kernel

/-- **C52.** Up to 2^32 names are also different for different root paths, if the file extensions contain no slash: they
differ even in their last component. -/
theorem C52_last_components_distinct (s : Names) (reqs : List (Str × Str)) (hext : ∀ r ∈ reqs, 47 ∉ r.1)
    (hlen : reqs.length ≤ 4294967296) (names : List Str) (h : s.generateAll reqs = .ok names) : (names.map baseName).Nodup := by
  obtain ⟨args, c⟩ := s
  cases args with
  | nil =>
    cases reqs with
    | nil => cases h; simp
    | cons r reqs => simp [Names.generateAll, Names.generate] at h
  | cons a args =>
    rw [generateAll_eq] at h
    cases h
    rw [List.Nodup, List.pairwise_iff_getElem]
    intro i j hi hj hij
    simp only [List.length_map, List.length_zipIdx] at hi hj
    simp only [List.getElem_map, List.getElem_zipIdx, ne_eq]
    intro he
    have hbase : ∀ root f : Str, baseName (Path.append root f) = baseName f := by
      intro root f
      have := Path.C55_tail_append root f
      rw [tail_baseName, tail_baseName] at this
      exact Except.ok.inj this
    have hhex : ∀ n, 47 ∉ hexText n := by
      intro n
      have hd : ∀ a < 16, hexDigit a ≠ 47 := by decide +kernel
      induction n using Nat.strongRecOn with
      | _ n ih =>
        rw [hexText]
        split
        · next h => simpa using (hd n h).symm
        · simp only [List.mem_append, List.mem_singleton, not_or]
          exact ⟨ih (n / 16) (by omega), (hd (n % 16) (by omega)).symm⟩
    have hsplit : ∀ x y : Str, 47 ∉ y → baseName (x ++ y) = baseName x ++ y := by
      intro x y hy
      rw [baseName, List.reverse_append, List.takeWhile_append_of_pos, List.reverse_append, List.reverse_reverse, baseName]
      intro z hz
      simp only [List.mem_reverse] at hz
      simp; rintro rfl; exact hy hz
    rw [hbase, hbase] at he
    simp only [stem, List.append_assoc] at he
    have hno : ∀ n (e : Str), 47 ∉ e → 47 ∉ (b!"_" ++ (hexText (hashArgs (a :: args)).toNat ++ (b!"_" ++ (hexText n ++ 46 :: e)))) := by
      intro n e he
      simp [hhex, he]
    rw [hsplit _ _ (hno _ _ (hext _ (List.getElem_mem hi))), hsplit _ _ (hno _ _ (hext _ (List.getElem_mem hj)))] at he
    have he := List.append_cancel_left (List.append_cancel_left (List.append_cancel_left (List.append_cancel_left he)))
    have := (dot_inj _ _ _ _ (hexText_spec _).2 (hexText_spec _).2 he).1
    have := hexText_inj _ _ this
    exact counter_inj c (1 + i) (1 + j) (by omega) (by omega) (UInt32.toNat_inj.mp this)

/-- Names with different roots and a strange extension can be the same. -/
theorem C52_slash_in_extension : ∃ s reqs n, Names.generateAll s reqs = .ok [n, n] ∧ reqs.length = 2 := by
  refine ⟨⟨[b!"t"], 0⟩, [(b!"/" ++ stem [b!"t"] b!"t" ++ hexText 2 ++ b!".e", []),
    (b!"e", stem [b!"t"] b!"t" ++ hexText 1 ++ b!".")], b!"t_b989_1./t_b989_2.e", ?_, rfl⟩
  rw [generateAll_eq]
  have e1 : (0 + UInt32.ofNat 1).toNat = 1 := rfl
  have e2 : (0 + UInt32.ofNat 2).toNat = 2 := rfl
  simp only [List.zipIdx, List.map, Nat.reduceAdd, e1, e2]
  have h1 : hexText 1 = b!"1" := by rw [hexText, if_pos (by decide)]; decide +kernel
  have h2 : hexText 2 = b!"2" := by rw [hexText, if_pos (by decide)]; decide +kernel
  have : hashArgs [b!"t"] = 0xb989 := by decide +kernel
  have h0 : hexText 0xb989 = b!"b989" := by
    rw [hexText, if_neg (by decide), hexText, if_neg (by decide), hexText, if_neg (by decide), hexText, if_pos (by decide)]
    decide +kernel
  have e0 : (0xb989 : UInt16).toNat = 0xb989 := rfl
  simp only [stem, this, e0, h0, h1, h2]
  decide +kernel

/-- **C52, negative.** After 2^32 names the object gives the first one again. -/
theorem C52_names_repeat (s : Names) (ext root : Str) (n : Nat) (hn : 4294967296 < n) (names : List Str)
    (h : s.generateAll (List.replicate n (ext, root)) = .ok names) : ¬ names.Nodup := by
  obtain ⟨args, c⟩ := s
  cases args with
  | nil =>
    obtain ⟨m, rfl⟩ : ∃ m, n = m + 1 := ⟨n - 1, by omega⟩
    simp [List.replicate_succ, Names.generateAll, Names.generate] at h
  | cons a args =>
    rw [generateAll_eq] at h
    cases h
    intro hd
    rw [List.Nodup, List.pairwise_iff_getElem] at hd
    refine hd 0 4294967296 (by simp; omega) (by simpa using hn) (by omega) ?_
    simp only [List.getElem_map, List.getElem_zipIdx, List.getElem_replicate]
    have : UInt32.ofNat (1 + 0) = UInt32.ofNat (1 + 4294967296) := UInt32.toNat_inj.mp (by simp)
    rw [this]

/-- **C71, negative.** The names do not depend on where one argument ends and the next one begins: different arguments can give the same
names. -/
theorem C71_argument_boundaries_lost (a : Str) (args args' : List Str) (hcat : args.flatten = args'.flatten) (c : UInt32)
    (ext root : Str) :
    (Names.generate ⟨a :: args, c⟩ ext root).2 = (Names.generate ⟨a :: args', c⟩ ext root).2 := by
  have hf : ∀ (l : List Str) (acc : Str), l.foldl (· ++ ·) acc = acc ++ l.flatten := by
    intro l
    induction l with
    | nil => simp
    | cons x l ih => intro acc; rw [List.foldl_cons, ih]; simp
  rw [generate_eq, generate_eq]
  simp only [stem, hashArgs, hf, List.flatten_cons, hcat]

/-- Two different command lines. -/
example : [b!"1", b!"23"].flatten = [b!"12", b!"3"].flatten ∧ [b!"1", b!"23"] ≠ [b!"12", b!"3"] := by decide

/-- **C71, negative.** Different argument texts can have the same hash: among any 65537 argument lists two have. -/
theorem C71_hash_collides (a : Str) (lists : List (List Str)) (hlen : 65536 < lists.length) (c : UInt32) (ext root : Str) :
    ∃ i j : Fin lists.length, i ≠ j ∧
      (Names.generate ⟨a :: lists[i], c⟩ ext root).2 = (Names.generate ⟨a :: lists[j], c⟩ ext root).2 := by
  obtain ⟨i, j, hij, h⟩ := Fintype.exists_ne_map_eq_of_card_lt
    (fun i : Fin lists.length => (⟨(hashArgs (a :: lists[i])).toNat, (hashArgs (a :: lists[i])).toNat_lt⟩ : Fin 65536)) (by simpa using hlen)
  refine ⟨i, j, hij, ?_⟩
  have h : (hashArgs (a :: lists[i])).toNat = (hashArgs (a :: lists[j])).toNat := congrArg Fin.val h
  rw [generate_eq, generate_eq]
  simp only [stem, h]

/-- **C71.** The name begins with the first argument, unless a root path is put in front. -/
theorem C71_format (a : Str) (args : List Str) (c : UInt32) (ext : Str) :
    ∃ h : UInt16, (Names.generate ⟨a :: args, c⟩ ext []).2 =
      .ok (a ++ b!"_" ++ hexText h.toNat ++ b!"_" ++ hexText (c + 1).toNat ++ b!"." ++ ext) := by
  refine ⟨hashArgs (a :: args), ?_⟩
  rw [generate_eq]
  simp [Path.append, stem]

end Verif.Itk
