import Verif.Itk.ReportSpec
import Verif.Itk.InsightProps
import Verif.Xml.RunProps
import Verif.Regression.LeftoverProps

/-!
# Property C95: what is written about two images that differ
-/

set_option linter.unusedSimpArgs false

namespace Verif.Itk
open Spec Verif.Path Verif.Measurement Verif.Measurement.Spec Verif.Regression Verif.Regression.Spec

theorem differVec_iff : ∀ (a b : List Dbl), differVec a b = true ↔ VecDiffers a b
  | [], b => by simp [differVec, VecDiffers]
  | a :: as, [] => by simp [differVec, VecDiffers]
  | a :: as, b :: bs => by
    have ih := differVec_iff as bs
    have hab : (!a.eq b) = true ↔ ¬ ∃ q, a = some q ∧ b = some q := by
      cases a <;> cases b <;> simp [Dbl.eq]
      exact ⟨fun h h' => h h'.symm, fun h h' => h h'.symm⟩
    rw [differVec, Bool.or_eq_true, ih, hab]
    constructor
    · rintro (h | ⟨i, x, y, h1, h2, h3⟩)
      · exact ⟨0, a, b, rfl, rfl, h⟩
      · exact ⟨i + 1, x, y, by simpa using h1, by simpa using h2, h3⟩
    · rintro ⟨i, x, y, h1, h2, h3⟩
      cases i with
      | zero => simp at h1 h2; subst h1 h2; exact .inl h3
      | succ i => exact .inr ⟨i, x, y, by simpa using h1, by simpa using h2, h3⟩

theorem statusText_eq (k : Measurement.Kind) (n c : Str) : statusText k n c = .ok (line (.data { kind := k, name := n, content := c })) := by
  simp only [statusText, Meas.print, Meas.printContent, Meas.escape, if_true, C25_escape_exact, bind, Except.bind, pure, Except.pure]
  simp [Meas.startTag, Meas.endTag, Meas.element, line, Meas.name, Meas.type, Meas.content, List.append_assoc]

theorem imageThing_eq (I : Toolkit) (r : Region) (f n : Str) : imageThing I r f n =
    .ok (I.texts.region (middle r) ++ line (.file { type := b!"image/png", name := b!"Difference " ++ n, fileName := f })) := by
  simp only [imageThing, Meas.print, Meas.printContent, Meas.escape, if_true, C25_escape_exact, bind, Except.bind, pure, Except.pure]
  simp [Meas.startTag, Meas.endTag, Meas.element, line, Meas.name, Meas.type, Meas.content, List.append_assoc, middle]

theorem writeAll_oks (ts : List Str) (rest : List (Except Fault Str)) :
    writeAll (ts.map .ok ++ rest) = (ts.flatten ++ (writeAll rest).1, (writeAll rest).2) := by
  induction ts with
  | nil => simp
  | cons t ts ih => simp [writeAll, ih]

theorem statusPair_eq (d : Bool) (k : Measurement.Kind) (nb cb nt ct : Str) : statusPair d k nb cb nt ct =
    ((if d = true then [Meas.data { kind := k, name := nb, content := cb }, .data { kind := k, name := nt, content := ct }] else []).map line).map .ok := by
  cases d <;> simp [statusPair, statusText_eq]

theorem out_name (d f ext : Str) (hd : d ≠ []) (hs : d.getLast? ≠ some 47) (he : ∃ e, ext = 46 :: e) :
    Path.append d (baseName f ++ ext) = d ++ b!"/" ++ baseName f ++ ext := by
  obtain ⟨e, rfl⟩ := he
  have hna : ¬ Path.Spec.Absolute (baseName f ++ 46 :: e) := by
    rintro ⟨r, hr⟩
    have h47 : (47 : UInt8) ∉ baseName f := by
      intro h
      rw [baseName, List.mem_reverse] at h
      have : ∀ l : Str, (47 : UInt8) ∉ l.takeWhile (· ≠ 47) := by
        intro l
        induction l with
        | nil => simp
        | cons x xs ih =>
          rw [List.takeWhile_cons]
          split
          · next hx =>
            simp only [List.mem_cons, not_or]
            exact ⟨fun h => by subst h; simp at hx, ih⟩
          · simp
      exact this _ h
    cases hb : baseName f with
    | nil => rw [hb] at hr; simp at hr
    | cons x xs =>
      rw [hb] at hr h47
      simp at hr
      exact h47 (by simp [hr.1])
  obtain ⟨t, ⟨n, hn, ht, _⟩, e'⟩ := append_rel (p := d) hd hna
  have hn0 : n = 0 := by
    rcases n with _ | n
    · rfl
    · exfalso
      apply hs
      rw [hn, List.replicate_succ']
      simp
  subst hn0
  simp at hn
  rw [e', ← hn]
  simp

theorem described_eq (I : Toolkit) (name : Str) (lb lt : Loaded) (cb ct : Str) :
    (if differVec lb.image.spacing lt.image.spacing = true then
      [Meas.data { kind := .string, name := b!"Baseline Spacing " ++ name, content := I.texts.vector lb.image.spacing },
        Meas.data { kind := .string, name := b!"Test Spacing " ++ name, content := I.texts.vector lt.image.spacing }] else []) ++
    (if differVec lb.image.origin lt.image.origin = true then
      [Meas.data { kind := .string, name := b!"Baseline Origin " ++ name, content := I.texts.vector lb.image.origin },
        Meas.data { kind := .string, name := b!"Test Origin " ++ name, content := I.texts.vector lt.image.origin }] else []) ++
    (if decide (lb.pixelType ≠ lt.pixelType) = true then
      [Meas.data { kind := .string, name := b!"Baseline PixelType " ++ name, content := lb.pixelType },
        Meas.data { kind := .string, name := b!"Test PixelType " ++ name, content := lt.pixelType }] else []) ++
    (if decide (lb.componentType ≠ lt.componentType) = true then
      [Meas.data { kind := .string, name := b!"Baseline ComponentType " ++ name, content := lb.componentType },
        Meas.data { kind := .string, name := b!"Test ComponentType " ++ name, content := lt.componentType }] else []) ++
    (if decide (lb.components ≠ lt.components) = true then
      [Meas.data { kind := .num .integer, name := b!"Baseline Number Of Components " ++ name, content := cb },
        Meas.data { kind := .num .integer, name := b!"Test Number Of Components " ++ name, content := ct }] else []) =
    described I name lb lt cb ct := by
  have pick : ∀ {p q : Prop} (_ : Decidable p) (_ : Decidable q) (x : List Meas), (p ↔ q) → (if p then x else []) = if q then x else [] := by
    intro p q _ _ x h
    by_cases hp : p
    · rw [if_pos hp, if_pos (h.mp hp)]
    · rw [if_neg hp, if_neg (fun hq => hp (h.mpr hq))]
  rw [described]
  simp only [text]
  refine congrArg₂ _ (congrArg₂ _ (congrArg₂ _ (congrArg₂ _ (pick _ _ _ (differVec_iff _ _)) (pick _ _ _ (differVec_iff _ _))) (pick _ _ _ (by simp)))
    (pick _ _ _ (by simp))) (pick _ _ _ (by simp))

/-- The text of a difference, for two images that could be read. -/
theorem difference_report (I : Toolkit) (hI : Sound I) (w : World) (t : ImgTol) (g f : FileM) (lt lb : Loaded)
    (ht : I.read w g.fileName = some lt) (hb : I.read w f.fileName = some lb)
    (hdir : I.texts.outputDirectory ≠ [] ∧ I.texts.outputDirectory.getLast? ≠ some 47)
    (cb ct : Str) (hcb : IsDecimal lb.components cb) (hct : IsDecimal lt.components ct)
    (hib : (lb.components : Int) ≤ intMax) (hit : (lt.components : Int) ≤ intMax) :
    (lb.image.region.size ≠ lt.image.region.size → I.differenceText w t g f =
      (line (text (b!"Baseline Size " ++ g.name) (I.texts.size lb.image.region.size)) ++
        line (text (b!"Test ImageSize " ++ g.name) (I.texts.size lt.image.region.size)), none)) ∧
    (lb.image.region.size = lt.image.region.size → I.differenceText w t g f =
      (report I g.name g.fileName lb lt cb ct (count lb.image.region (Differs I.arith t.intensity t.radius lb.image lt.image)), none)) := by
  have hdec : ∀ (n : Nat) (c : Str), IsDecimal n c → (n : Int) ≤ intMax → intText (longToInt n) = c := by
    intro n c hc hn
    have h1 : longToInt n = n := by simp only [intMax] at hn; simp only [longToInt]; omega
    have h2 := (C27_integer_roundtrip { kind := .string } (n : Int) (by simp only [intMin]; omega) hn).1
    rw [h1]
    exact decimal_text_unique h2 hc
  refine ⟨fun hs => ?_, fun hs => ?_⟩
  · simp only [Toolkit.differenceText, ht, hb, if_pos hs, statusPair, if_true, statusText_eq, writeAll, text, List.append_nil]
  · have hr : lb.image.region = lt.image.region := region_of_size _ _ (hI.1 _ _ _ hb) (hI.1 _ _ _ ht) hs
    have hc := C47_count I.arith t.intensity t.radius (I.threads lb.image.region) lb.image lt.image (hI.2 _)
      (by rw [hr]; exact contains_refl _)
    have hpng : ∀ r ext, (∃ e, ext = 46 :: e) → pngText I r g.fileName ext g.name =
        .ok (I.texts.region (middle r) ++ line (picture I g.name g.fileName ext)) := by
      intro r ext he
      simp only [pngText, tail_baseName, imageThing_eq, out_name _ _ _ hdir.1 hdir.2 he, picture]
    have hpairs := hdec lb.components cb hcb hib
    have hpairt := hdec lt.components ct hct hit
    simp only [Toolkit.differenceText, ht, hb]
    rw [if_neg (by simpa using hs)]
    simp only [errorText, hc, statusText_eq, statusPair_eq, hpng _ b!".diff.png" ⟨_, rfl⟩, hpng _ b!".base.png" ⟨_, rfl⟩, hpng _ b!".test.png" ⟨_, rfl⟩,
      hpairs, hpairt]
    rw [← List.map_append, ← List.map_append, ← List.map_append, ← List.map_append, ← List.map_append, ← List.map_append, ← List.map_append, ← List.map_append,
      writeAll_oks]
    rw [described_eq]
    simp only [writeAll, List.append_nil, report, decide_eq_true_eq, List.flatMap_def, List.append_assoc]

/-- **C95.** When an image measurement differs from the image file of the baseline, both being readable, the call returns 0, counts one failure
and writes to standard output, after a line that names both files: if the sizes differ, the two sizes and nothing else; otherwise two
measurements for each of spacing, origin, pixel type, component type and number of components that differs, the number of pixels that differ,
and the names of three pictures, each after the text of the slice it shows.  (All three pictures have the same name.) -/
theorem C95_report (I : Toolkit) (hI : Sound I) (env : Env) (henv : env.image = some I.imageEnv) (s : St) (fileName name : Str)
    (bytes : Str) (his : s.obj.is = some bytes) (f : FileM) (rest : List Meas) (hinput : s.obj.input = .file f :: rest)
    (hname : f.name = name) (htype : f.type = b!"image/itk") (h0 : 0 ∉ fileName) (lt lb : Loaded)
    (ht : ∀ c, I.read { s.world with cout := c } fileName = some lt)
    (hb : ∀ c, I.read { s.world with cout := c } (located s.world s.obj.searchPath f.fileName) = some lb)
    (hdir : I.texts.outputDirectory ≠ [] ∧ I.texts.outputDirectory.getLast? ≠ some 47)
    (cb ct : Str) (hcb : IsDecimal lb.components cb) (hct : IsDecimal lt.components ct)
    (hib : (lb.components : Int) ≤ intMax) (hit : (lt.components : Int) ≤ intMax)
    (hdiffer : ¬ Agree env (.file f) (s.obs (.fileITK fileName name))) :
    ∃ s' written, runCall env s (.fileITK fileName name) = (s', .ok 0) ∧
      s'.obj = { s.obj with input := rest, unmatched := s.obj.unmatched + 1 } ∧
      s'.world = { s.world with cout := (s.world.cout ++ b!"Comparing test image: \"" ++ fileName ++ b!"\" to baseline image: \"" ++
        cstr (located s.world s.obj.searchPath f.fileName) ++ b!"\"\n" ++ written) } ∧
      (lb.image.region.size ≠ lt.image.region.size → written =
        line (text (b!"Baseline Size " ++ name) (I.texts.size lb.image.region.size)) ++
        line (text (b!"Test ImageSize " ++ name) (I.texts.size lt.image.region.size))) ∧
      (lb.image.region.size = lt.image.region.size → written = report I name fileName lb lt cb ct
        (count lb.image.region (Differs I.arith s.obj.imageTol.intensity s.obj.imageTol.radius lb.image lt.image))) := by
  subst hname
  have hc : (cstr fileName) = fileName := by
    have := List.takeWhile_append_of_pos (p := fun c : UInt8 => decide (c ≠ 0)) (l₁ := fileName) (l₂ := []) (by
      intro x hx; simp; rintro rfl; exact h0 hx)
    simpa [cstr] using this
  have hl := locate_eq { s with obj := { s.obj with input := rest } } (.file f) (Call.fileITK fileName f.name).meas
  obtain ⟨b', hl, h1, h2, _, hb'⟩ := hl
  simp only [Call.meas] at hb'
  subst hb'
  have hcmp : Toolkit.compare I s.world s.obj.imageTol fileName (cstr (located s.world s.obj.searchPath f.fileName)) = false := by
    simpa [Agree, Call.meas, Meas.name, Meas.type, SameValue, henv, htype, Toolkit.imageEnv, hc] using hdiffer
  have key := fun c => difference_report I hI { s.world with cout := c } s.obj.imageTol ⟨b!"image/itk", f.name, fileName, true⟩
    { f with fileName := located s.world s.obj.searchPath f.fileName } lt lb (ht c) (hb c) hdir cb ct hcb hct hib hit
  have hrun : ∀ wr, (∀ c, I.differenceText { s.world with cout := c } s.obj.imageTol ⟨b!"image/itk", f.name, fileName, true⟩
      { f with fileName := located s.world s.obj.searchPath f.fileName } = (wr, none)) →
      ∃ s', runCall env s (.fileITK fileName f.name) = (s', .ok 0) ∧
      s'.obj = { s.obj with input := rest, unmatched := s.obj.unmatched + 1 } ∧
      s'.world = { s.world with cout := (s.world.cout ++ b!"Comparing test image: \"" ++ fileName ++ b!"\" to baseline image: \"" ++
        cstr (located s.world s.obj.searchPath f.fileName) ++ b!"\"\n" ++ wr) } := by
    intro wr hwr
    rw [runCall, compareMode_is his, if_pos rfl, compareMeasurement]
    simp only [hinput]
    rw [if_pos ⟨rfl, by simp [Meas.type, htype, Call.meas]⟩, hl]
    simp only [compareVisit, imagePair, henv, Call.meas, if_true, hc, Toolkit.imageEnv, hcmp, Bool.false_eq_true, if_false,
      differenceMeasurement]
    simp only [St.toCout, hwr, Res.andThen]
    refine ⟨_, rfl, rfl, ?_⟩
    simp only [List.append_assoc]
  by_cases hs : lb.image.region.size = lt.image.region.size
  · obtain ⟨s', e1, e2, e3⟩ := hrun _ fun c => (key c).2 hs
    exact ⟨s', _, e1, e2, e3, fun h => absurd hs h, fun _ => rfl⟩
  · obtain ⟨s', e1, e2, e3⟩ := hrun _ fun c => (key c).1 hs
    exact ⟨s', _, e1, e2, e3, fun _ => rfl, fun h => absurd h hs⟩

/-- A run that meets these hypotheses: two of three pixels differ. -/
example : let env : Env := { smallEnv [] with image := some threeKit.imageEnv }
    let s : St := ⟨{ is := some [], input := [.file { type := b!"image/itk", name := b!"i", fileName := b!"b.mha" }] }, smallWorld⟩
    ¬ Agree env (.file { type := b!"image/itk", name := b!"i", fileName := b!"b.mha" }) (s.obs (.fileITK b!"t.mha" b!"i")) ∧
    (runCall env s (.fileITK b!"t.mha" b!"i")).1.world.cout =
      b!"Comparing test image: \"t.mha\" to baseline image: \"b.mha\"\n<DartMeasurement name=\"ImageError i\" type=\"numeric/double\">2</DartMeasurement>\nR<DartMeasurementFile name=\"Difference i\" type=\"image/png\">out/t.mha.diff.png</DartMeasurementFile>\nR<DartMeasurementFile name=\"Difference i\" type=\"image/png\">out/t.mha.base.png</DartMeasurementFile>\nR<DartMeasurementFile name=\"Difference i\" type=\"image/png\">out/t.mha.test.png</DartMeasurementFile>\n" := by
  intro env s
  refine ⟨?_, by decide +kernel⟩
  rintro ⟨_, _, h⟩
  have : Toolkit.compare threeKit smallWorld {} b!"t.mha" b!"b.mha" = true := h
  exact absurd this (by decide +kernel)

end Verif.Itk
