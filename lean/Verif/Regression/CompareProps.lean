import Verif.Regression.CompareSpec
import Verif.Path.Props
import Verif.Measurement.CompareProps

/-!
# Properties C38–C40, C46, C60–C65: comparing with a baseline, and `Main`
-/

set_option linter.unusedSimpArgs false

namespace Verif.Regression
open Spec Verif.Path Verif.Measurement

theorem tail_baseName (p : Str) : tail p = .ok (baseName p) := by
  have h1 : ∀ b : Str, 47 ∉ b → b.reverse.takeWhile (· ≠ 47) = b.reverse := by
    intro b hb
    have := List.takeWhile_append_of_pos (p := (· ≠ (47 : UInt8))) (l₁ := b.reverse) (l₂ := []) (by
      intro x hx
      simp only [List.mem_reverse] at hx
      simp; rintro rfl; exact hb hx)
    simpa using this
  rcases tail_cases p with ⟨h, e⟩ | ⟨a, b, rfl, hb, e⟩
  · rw [e, baseName, h1 p h]; simp
  · rw [e, baseName]
    have : (a ++ 47 :: b).reverse.takeWhile (· ≠ 47) = b.reverse := by
      rw [List.reverse_append, List.reverse_cons, List.append_assoc, List.takeWhile_append_of_pos]
      · simp
      · intro x hx
        simp only [List.mem_reverse] at hx
        simp; rintro rfl; exact hb hx
    rw [this]; simp

/-! ## Printing never fails -/

theorem print_ok (m : Meas) : ∃ t, m.print = .ok t := by
  rw [Meas.print, Meas.printContent]
  split
  · rw [C25_escape_exact]; exact ⟨_, rfl⟩
  · exact ⟨_, rfl⟩

theorem emit_obj (s : St) (t : Str) : (s.emit t).obj = s.obj := by
  rw [St.emit]; split <;> rfl

theorem compareMode_is {s : St} {b : Str} (h : s.obj.is = some b) : s.compareMode = true := by
  simp [St.compareMode, h]

theorem holds_of_plainly {d : DataM} (h : Plainly (.data d)) : Holds d d.content := Or.inr ⟨h.1, h.2, rfl⟩

theorem call_plainly (c : Call) (d : DataM) (h : c.meas = .data d) : Plainly (.data d) := by
  cases c <;> simp only [Call.meas, Meas.data.injEq, reduceCtorEq] at h <;> subst h <;>
    refine ⟨by rfl, ?_⟩ <;> simp [DataM.setInteger, DataM.setBoolean, DataM.setContent]

theorem call_kind (c : Call) (h : ∀ d k, c.meas = .data d → d.kind ≠ .num k) : c.tolerant = false := by
  cases c <;> first | rfl | (exfalso; exact h _ _ rfl rfl)

theorem openRead_cstr (w : World) (n : Str) : w.openRead (cstrOf n) = w.openRead n := by
  have : cstr (cstrOf n) = cstr n := by
    simp only [cstr, cstrOf]
    have : ∀ l : Str, (l.takeWhile (· ≠ 0)).takeWhile (· ≠ 0) = l.takeWhile (· ≠ 0) := by
      intro l
      induction l with
      | nil => rfl
      | cons x l ih =>
        by_cases hx : x = 0
        · simp [hx]
        · simp only [List.takeWhile_cons, hx, ne_eq, not_false_eq_true, decide_true, if_true]
          rw [ih]
    exact this n
  simp only [World.openRead, this]

/-- The visitor set up for a measurement has the tolerance of the object, if the call asks for it. -/
theorem visitorFor_tolerance (s : St) (t : Bool) : (visitorFor s t).getTolerance = if t then s.obj.tolerance else 0 := by
  cases t with
  | false => simp [visitorFor, CompareVisitor.setToleranceOff, CompareVisitor.getTolerance]
  | true =>
    simp only [visitorFor, if_true]
    exact (C30_last_setting_wins {} [] (.tolerance s.obj.tolerance)).1

theorem locate_eq (s : St) (b t : Meas) : ∃ b', locateBaseline s b t = .ok b' ∧ b'.name = b.name ∧ b'.type = b.type ∧
    (Plainly b → Plainly b') ∧
    (match b, t with
      | .file f, .file _ => b' = .file { f with fileName := located s.world s.obj.searchPath f.fileName }
      | _, _ => b' = b) := by
  cases b with
  | data d => exact ⟨_, rfl, rfl, rfl, id, rfl⟩
  | file f =>
    cases t with
    | data d => exact ⟨_, rfl, rfl, rfl, id, rfl⟩
    | file g =>
      simp only [locateBaseline, tail_baseName]
      refine ⟨_, rfl, ?_, ?_, fun _ => trivial, ?_⟩
      · split <;> rfl
      · split <;> rfl
      · simp only [located]
        by_cases h : searchPathList s.world.fs (baseName f.fileName) s.obj.searchPath = []
        · simp [h]
        · simp [h]

theorem data_file_equal (w : World) (d : DataM) (g : FileM) (hd : Plainly (.data d)) (hn : d.name ≠ []) (hname : d.name = g.name)
    (htype : d.kind.typeName = g.type) :
    ∃ r, ((Meas.data d).isEqual w.openRead (.file g)).2.2 = .ok r ∧ (r = true ↔ w.openRead g.fileName = some d.content) ∧
      (Meas.file g).isEqual w.openRead (.data d) = (.file g, .data d, .ok r) := by
  obtain ⟨h0, h1, h2⟩ := C33_file_data_equal w.openRead g d d.content (holds_of_plainly hd)
  rw [openRead_cstr] at h1 h2
  cases ho : w.openRead g.fileName with
  | none =>
    refine ⟨_, h2 ho, by simp [hn], by rw [h0, h2 ho]⟩
  | some x =>
    refine ⟨_, h1 x ho, by simp [hname, htype], by rw [h0, h1 x ho]⟩

theorem file_file_equal (w : World) (f g : FileM) (hn : g.name ≠ []) (hname : f.name = g.name) (htype : f.type = g.type) :
    ∃ r, (Meas.file f).isEqual w.openRead (.file g) = (.file f, .file g, .ok r) ∧
      (r = true ↔ (∃ k : Measurement.Kind, k.typeName = g.type) ∧ ∃ x, w.openRead g.fileName = some x ∧ w.openRead f.fileName = some x) := by
  have hkind : (createDataMeasurement f.type).isSome = true ↔ ∃ k : Measurement.Kind, k.typeName = g.type := by
    constructor
    · intro h
      obtain ⟨m, hm⟩ := Option.isSome_iff_exists.mp h
      exact ⟨m.kind, by rw [((C58_factory f.type).1 m hm).1, htype]⟩
    · rintro ⟨k, hk⟩
      rw [htype, ← hk, create_kind]; rfl
  cases hf : w.openRead f.fileName with
  | none =>
    refine ⟨false, ?_, by simp⟩
    simp only [Meas.isEqual, hname, htype, ne_eq, not_true_eq_false, or_self, if_false]
    rw [(load_holds w.openRead f).1 (by rw [openRead_cstr]; exact hf)]
    simp only [FileM.isEqualData]
    rw [if_pos (Or.inl hn)]
  | some x =>
    cases hg : w.openRead g.fileName with
    | none =>
      refine ⟨false, ?_, by simp⟩
      simp only [Meas.isEqual, hname, htype, ne_eq, not_true_eq_false, or_self, if_false]
      obtain ⟨h1, h2, h3⟩ := (load_holds w.openRead f).2 x (by rw [openRead_cstr]; exact hf)
      have := (C33_file_data_equal w.openRead g (f.load w.openRead) x h2).2.2 (by rw [openRead_cstr]; exact hg)
      simp only [Meas.isEqual] at this
      rw [this, h1, hname]
      simp [hn]
    | some y =>
      rw [C33_file_file_equal w.openRead f g x y (by rw [openRead_cstr]; exact hf) (by rw [openRead_cstr]; exact hg)]
      refine ⟨_, rfl, ?_⟩
      rw [decide_eq_true_iff, hkind]
      constructor
      · rintro ⟨_, _, h3, rfl⟩; exact ⟨h3, x, rfl, rfl⟩
      · rintro ⟨h3, z, h4, h5⟩
        exact ⟨hname, htype, h3, by rw [Option.some.inj h4, Option.some.inj h5]⟩

/-- The answer of the visitor is agreement, unless an integer operation is undefined. -/
theorem visit_agree (env : Env) (s : St) (b : Meas) (c : Call) (hb : Plainly b) (hn : c.meas.name ≠ [])
    (hname : b.name = c.meas.name) (htype : b.type = c.meas.type) (b' : Meas) (hl : locateBaseline s b c.meas = .ok b')
    (himg : imagePair env b' c.meas = none) :
    (¬ Agree env b (s.obs c) ∧ c.tolerant = true ∧ IsUB ((visitorFor s c.tolerant).visit env.num s.world.openRead b' c.meas).2.2) ∨
    ∃ r t' b'', (visitorFor s c.tolerant).visit env.num s.world.openRead b' c.meas = (b'', t', .ok r) ∧
      (r = true ↔ Agree env b (s.obs c)) := by
  obtain ⟨b1, e1, hn1, ht1, hp1, hcase⟩ := locate_eq s b c.meas
  rw [hl] at e1; cases e1
  have hag : Agree env b (s.obs c) ↔
      SameValue env (s.obs c) b c.meas := by
    simp only [Agree, hname, htype, true_and]
  cases hm : c.meas with
  | file g =>
    rw [hm] at hcase hag hname htype hn
    rw [SameValue.eq_def] at hag
    right
    have hv : ∀ x, (visitorFor s c.tolerant).visit env.num s.world.openRead x (.file g) = x.isEqual s.world.openRead (.file g) :=
      fun x => visit_file _ _ _ _ _
    rw [hv]
    cases b with
    | data d =>
      simp only at hcase; subst hcase
      obtain ⟨r, h1, h2, _⟩ := data_file_equal s.world d g hb (by rw [show d.name = g.name from hname]; exact hn) hname htype
      refine ⟨r, ((Meas.data d).isEqual s.world.openRead (.file g)).2.1, ((Meas.data d).isEqual s.world.openRead (.file g)).1, ?_, ?_⟩
      · rw [← h1]
      · rw [h2, hag]
    | file f =>
      simp only at hcase; subst hcase
      obtain ⟨r, h1, h2⟩ := file_file_equal s.world { f with fileName := located s.world s.obj.searchPath f.fileName } g hn hname htype
      refine ⟨r, _, _, h1, ?_⟩
      rw [h2, hag]
      rw [hm] at himg
      simp only [imagePair] at himg
      cases hi : env.image with
      | none => rfl
      | some im =>
        have : ¬ g.type = b!"image/itk" := by
          intro h; simp [hi, h] at himg
        simp only [this, decide_false]
  | data t =>
    rw [hm] at hcase hag hname htype hn
    rw [SameValue.eq_def] at hag
    have htp : Plainly (.data t) := call_plainly c t hm
    rw [show b' = b by cases b <;> exact hcase]
    by_cases hnum : ∃ k, t.kind = .num k
    · obtain ⟨k, hk⟩ := hnum
      cases b with
      | file f =>
        right
        refine ⟨false, .data t, .file f, ?_, ?_⟩
        · rw [visit_data, hk]; rfl
        · rw [hag]; simp [hk]
      | data d =>
        have hdk : d.kind = .num k := by
          have := typeName_injective d.kind t.kind htype
          rw [this, hk]
        rw [visit_data, hk]
        simp only
        rw [compareNumeric_eq _ _ _ d t k k hdk hk, visitorFor_tolerance]
        simp only [hk] at hag
        by_cases htol : c.tolerant = true ∧ s.obj.tolerance ≠ 0
        · rw [if_pos (by simpa [htol.1] using htol.2)]
          simp only [htol.1, if_true] at hag ⊢
          rw [if_pos ⟨trivial, htol.2⟩] at hag
          cases hr : isEqualTolerant env.num k d.content k t.content s.obj.tolerance with
          | ok r => exact Or.inr ⟨r, _, _, rfl, by rw [hag, hr]; simp⟩
          | error f =>
            left
            refine ⟨by rw [hag, hr]; simp, trivial, ?_⟩
            simp only [isEqualTolerant, ne_eq, not_true_eq_false, if_false] at hr
            cases k with
            | integer =>
              simp only [tolerantEqualInt] at hr
              repeat' split at hr
              all_goals first | (cases hr; exact ⟨_, rfl⟩) | cases hr
            | float => cases hr
            | double => cases hr
            | boolean => cases hr
        · rw [if_neg (by
            rintro h
            apply htol
            cases ht : c.tolerant with
            | false => simp [ht] at h
            | true => exact ⟨rfl, by simpa [ht] using h⟩)]
          rw [if_neg htol] at hag
          right
          refine ⟨_, _, _, C33_data_equal _ d t _ _ (holds_of_plainly hb) (holds_of_plainly htp), ?_⟩
          rw [decide_eq_true_iff, hag]
          constructor
          · exact fun h => h.2.2
          · exact fun h => ⟨hname, by rw [hdk, hk], h⟩
    · have hnot : ∀ k, t.kind ≠ .num k := fun k hk => hnum ⟨k, hk⟩
      right
      rw [C59_tolerance_only_numbers _ _ _ _ _ (by rintro d k h; cases h; exact hnot k)]
      cases b with
      | file f =>
        simp only at hag
        obtain ⟨r, _, h2, h3⟩ := data_file_equal s.world t f htp hn hname.symm htype.symm
        exact ⟨r, _, _, h3, by rw [h2, hag]; exact ⟨fun h => ⟨hnot, h⟩, fun h => h.2⟩⟩
      | data d =>
        refine ⟨_, _, _, C33_data_equal _ d t _ _ (holds_of_plainly hb) (holds_of_plainly htp), ?_⟩
        have hdk : d.kind = t.kind := typeName_injective d.kind t.kind htype
        rw [decide_eq_true_iff, hag]
        have hmatch : (match t.kind with
            | .num k => if c.tolerant = true ∧ s.obj.tolerance ≠ 0 then
                isEqualTolerant env.num k d.content k t.content s.obj.tolerance = .ok true else d.content = t.content
            | _ => d.content = t.content) ↔ d.content = t.content := by
          cases hk : t.kind with
          | num k => exact absurd hk (hnot k)
          | plain => rfl
          | string => rfl
        exact Iff.trans ⟨fun h => h.2.2, fun h => ⟨hname, hdk, h⟩⟩ hmatch.symm

/-- The answer of the visitor of the class. -/
theorem compareVisit_agree (env : Env) (s : St) (b : Meas) (c : Call) (hb : Plainly b) (hn : c.meas.name ≠ [])
    (hname : b.name = c.meas.name) (htype : b.type = c.meas.type) (b' : Meas) (hl : locateBaseline s b c.meas = .ok b') :
    (¬ Agree env b (s.obs c) ∧ IsUB (compareVisit env s c.tolerant b' c.meas).2.2.2) ∨
    ∃ s' r t' b'', compareVisit env s c.tolerant b' c.meas = (s', b'', t', .ok r) ∧
      (r = true ↔ Agree env b (s.obs c)) ∧ s'.obj = s.obj ∧
      (imagePair env b' c.meas = none → s' = s ∧
        (visitorFor s c.tolerant).visit env.num s.world.openRead b' c.meas = (b'', t', .ok r)) := by
  cases hi : imagePair env b' c.meas with
  | none =>
    rcases visit_agree env s b c hb hn hname htype b' hl hi with h | ⟨r, t', b'', h1, h2⟩
    · left; exact ⟨h.1, by simpa [compareVisit, hi] using h.2.2⟩
    · right; exact ⟨s, r, t', b'', by simp only [compareVisit, hi, h1], h2, rfl, fun _ => ⟨rfl, h1⟩⟩
  | some x =>
    obtain ⟨im, f, g⟩ := x
    right
    refine ⟨s.toCout (b!"Comparing test image: \"" ++ cstr g.fileName ++ b!"\" to baseline image: \"" ++ cstr f.fileName ++ b!"\"\n"),
      im.compare s.world s.obj.imageTol (cstr g.fileName) (cstr f.fileName), c.meas, b', by simp only [compareVisit, hi], ?_, rfl, by simp⟩
    obtain ⟨b1, e1, hn1, ht1, hp1, hcase⟩ := locate_eq s b c.meas
    rw [hl] at e1; cases e1
    have hx : env.image = some im ∧ b' = .file f ∧ c.meas = .file g ∧ g.type = b!"image/itk" := by
      simp only [imagePair] at hi
      split at hi
      · split at hi
        · cases hi; exact ⟨by assumption, rfl, by assumption, by assumption⟩
        · cases hi
      · cases hi
    obtain ⟨h1, h2, h3, h4⟩ := hx
    simp only [Agree, hname, htype, true_and]
    rw [h3] at hcase ⊢
    cases b with
    | data d => simp only at hcase; rw [hcase] at h2; cases h2
    | file f' =>
      simp only at hcase
      rw [hcase] at h2
      cases h2
      simp only [SameValue, h1, h4, decide_true]

/-! ## C39, C60, C61 -/

/-- The text printed for a measurement without counterpart, for a difference of plain text, and for any other difference. -/
theorem difference_eq (diff : Str → Str → Except Fault Str) (b t : Meas) :
    difference diff b t = match t with
      | .data ⟨.plain, _, _, _, _, _, _⟩ => differencePlain diff b t
      | _ => differenceGeneral b t := by
  rcases t with ⟨_ | _ | (_ | _ | _ | _), n, c, e, z, s, d⟩ | f <;>
    simp only [difference, Meas.cls] <;> rw [dispatch_findSome] <;> rfl

theorem difference_obj (env : Env) (s : St) (t b : Meas) :
    (differenceMeasurement env s t b).1.obj = { s.obj with unmatched := s.obj.unmatched + 1 } := by
  simp only [differenceMeasurement]
  split
  · split <;> rfl
  · split
    · rfl
    · rw [emit_obj]

/-- What one call in compare mode does: the baseline is consumed by one, and either the call agrees and nothing else
changes, or it does not and the counter grows by one, or an integer operation is undefined. -/
theorem call_step (env : Env) (s : St) (c : Call) (bytes : Str) (his : s.obj.is = some bytes)
    (hb : ∀ b ∈ s.obj.input, Plainly b) (hn : c.meas.name ≠ []) :
    ((∀ b rest, s.obj.input = b :: rest → ¬ Agree env b (s.obs c)) ∧ IsUB (runCall env s c).2) ∨
    (∃ b rest, s.obj.input = b :: rest ∧ Agree env b (s.obs c) ∧
      (runCall env s c).1.obj = { s.obj with input := rest } ∧ (runCall env s c).2 = .ok 1) ∨
    ((∀ b rest, s.obj.input = b :: rest → ¬ Agree env b (s.obs c)) ∧
      (runCall env s c).1.obj = { s.obj with input := s.obj.input.drop 1, unmatched := s.obj.unmatched + 1 } ∧
      ((∃ f, (runCall env s c).2 = .error f) ∨
       (∃ b rest, s.obj.input = b :: rest ∧ b.name = c.meas.name ∧ b.type = c.meas.type ∧ (runCall env s c).2 = .ok 0) ∨
       ((∀ b rest, s.obj.input = b :: rest → ¬ (b.name = c.meas.name ∧ b.type = c.meas.type)) ∧
        (runCall env s c).2 = .ok 1))) := by
  rw [runCall, compareMode_is his, if_pos rfl, compareMeasurement]
  have hun : ∀ s : St, ∃ s', unmatchedMeasurement s c.meas = (s', .ok ()) ∧
      s'.obj = { s.obj with unmatched := s.obj.unmatched + 1 } := by
    intro s
    obtain ⟨t, ht⟩ := print_ok (c.meas.setName (b!"Unmatched " ++ c.meas.name))
    simp only [unmatchedMeasurement, ht]
    exact ⟨_, rfl, by rw [emit_obj]⟩
  cases hi : s.obj.input with
  | nil =>
    obtain ⟨s', h1, h2⟩ := hun s
    simp only [h1, Res.andThen]
    refine Or.inr (Or.inr ⟨by simp, by rw [h2, List.drop_nil, ← hi], Or.inr (Or.inr ⟨by simp, trivial⟩)⟩)
  | cons b rest =>
    simp only
    by_cases hnt : b.name = c.meas.name ∧ b.type = c.meas.type
    · rw [if_pos hnt]
      obtain ⟨b', hl, _⟩ := locate_eq { s with obj := { s.obj with input := rest } } b c.meas
      simp only [hl]
      have hv := compareVisit_agree env { s with obj := { s.obj with input := rest } } b c (hb b (by simp [hi])) hn hnt.1 hnt.2 b' hl
      rcases hv with ⟨hna, w, hub⟩ | ⟨s', r, t', b'', hv, hr, hobj, _⟩
      · left
        refine ⟨by rintro _ _ h; cases h; exact hna, ?_⟩
        split
        · next h => rw [h] at hub; simp only at hub; cases hub; exact ⟨_, rfl⟩
        · next h => rw [h] at hub; cases hub
      · rw [hv]
        simp only
        cases r with
        | true =>
          right; left
          exact ⟨b, rest, rfl, hr.mp rfl, by simp [hobj], by simp⟩
        | false =>
          right; right
          have hna : ¬ Agree env b (s.obs c) := fun h => by simpa using hr.mpr h
          refine ⟨by rintro _ _ h; cases h; exact hna, ?_, ?_⟩
          · simp only [Res.andThen, Bool.false_eq_true, if_false]
            have hdo := difference_obj env s' t' b''
            rcases hd : differenceMeasurement env s' t' b'' with ⟨s2, _ | _⟩ <;> rw [hd] at hdo <;> simp only at hdo ⊢ <;>
              rw [hdo, hobj] <;> rfl
          · simp only [Res.andThen, Bool.false_eq_true, if_false]
            rcases differenceMeasurement env s' t' b'' with ⟨s2, _ | _⟩
            · exact Or.inl ⟨_, rfl⟩
            · exact Or.inr (Or.inl ⟨b, rest, rfl, hnt.1, hnt.2, rfl⟩)
    · rw [if_neg hnt]
      obtain ⟨s', h1, h2⟩ := hun { s with obj := { s.obj with input := rest } }
      simp only [h1, Res.andThen]
      refine Or.inr (Or.inr ⟨?_, by rw [h2]; rfl, Or.inr (Or.inr ⟨by rintro _ _ h; cases h; exact hnt, trivial⟩)⟩)
      rintro _ _ h; cases h
      exact fun h => hnt ⟨h.1, h.2.1⟩

/-- A measurement call changes nothing of the object but the counter and the baseline measurements left. -/
theorem runCall_frame (env : Env) (s : St) (c : Call) :
    ∃ i u, (runCall env s c).1.obj = { s.obj with input := i, unmatched := u } := by
  have hun : ∀ s : St, ∃ u, ((unmatchedMeasurement s c.meas).andThen fun s _ => (s, .ok (1 : Int))).1.obj = { s.obj with unmatched := u } := by
    intro s
    obtain ⟨t, ht⟩ := print_ok (c.meas.setName (b!"Unmatched " ++ c.meas.name))
    simp only [unmatchedMeasurement, ht, Res.andThen, emit_obj]
    exact ⟨_, rfl⟩
  rw [runCall]
  split
  · rw [compareMeasurement]
    split
    · obtain ⟨u, hu⟩ := hun s
      exact ⟨s.obj.input, u, by rw [hu]⟩
    · next b rest hi =>
      simp only
      split
      · cases locateBaseline { s with obj := { s.obj with input := rest } } b c.meas with
        | error f => exact ⟨rest, s.obj.unmatched, rfl⟩
        | ok b' =>
          simp only
          have hv : (compareVisit env { s with obj := { s.obj with input := rest } } c.tolerant b' c.meas).1.obj = { s.obj with input := rest } := by
            simp only [compareVisit]; split <;> rfl
          rcases hcv : compareVisit env { s with obj := { s.obj with input := rest } } c.tolerant b' c.meas with ⟨s', b'', t', f | same⟩
          · rw [hcv] at hv; exact ⟨rest, s.obj.unmatched, hv⟩
          · rw [hcv] at hv
            simp only at hv ⊢
            cases same with
            | true => exact ⟨rest, s.obj.unmatched, hv⟩
            | false =>
              have hd := difference_obj env s' t' b''
              simp only [Bool.false_eq_true, if_false, Res.andThen]
              refine ⟨rest, s'.obj.unmatched + 1, ?_⟩
              rcases hdm : differenceMeasurement env s' t' b'' with ⟨s2, f | u⟩ <;> rw [hdm] at hd <;> simp only at hd ⊢ <;> rw [hd, hv]
      · obtain ⟨u, hu⟩ := hun { s with obj := { s.obj with input := rest } }
        exact ⟨rest, u, hu⟩
  · refine ⟨s.obj.input, s.obj.unmatched, ?_⟩
    split
    · rfl
    · split
      · rfl
      · rw [emit_obj]

/-- The calls a program makes in a run, with the tolerances, the search path and the files at that moment. -/
def observed (env : Env) : Prog → St → List Obs
  | .ret _, _ => []
  | .fails _, _ => []
  | .call c k, s => (s.obs c) ::
    (match runCall env s c with
      | (_, .error _) => []
      | (s, .ok r) => observed env (k r) s)
  | .act f k, s => observed env k { s with world := f s.world }
  | .look k, s => observed env (k s.world) s
  | .ask k, s => observed env (k s.settings) s
  | .setTolerance t k, s => observed env k { s with obj := { s.obj with tolerance := t } }
  | .setExpected v k, s => observed env k { s with obj := { s.obj with expected := v } }
  | .setImageTolerance t k, s => observed env k { s with obj := { s.obj with imageTol := t } }
  | .setSearchPath ps k, s => observed env k { s with obj := { s.obj with searchPath := ps } }
  | .prependSearchPath p k, s => observed env k { s with obj := { s.obj with searchPath := p :: s.obj.searchPath } }
  | .setInFileName n k, s => observed env k { s with obj := { s.obj with inFileName := n } }
  | .setOutFileName n k, s => observed env k { s with obj := { s.obj with outFileName := n } }

/-- **C39.** In compare mode, whatever the test does, the counter grows by exactly the number of positions at which
the measurement made and the baseline measurement disagree or the baseline is exhausted, and the baseline shrinks by one per
measurement.  (The run ends normally or by an exception; baselines carry no base64 data; measurements have a name.) -/
theorem C39_positional_count (env : Env) (p : Prog) : ∀ (s : St) (bytes : Str), s.obj.is = some bytes →
    (∀ b ∈ s.obj.input, Plainly b) → (∀ o ∈ observed env p s, o.call.meas.name ≠ []) →
    ¬ IsUB (runProg env p s).2 →
    (runProg env p s).1.obj.unmatched = s.obj.unmatched + failures env s.obj.input (observed env p s) ∧
    (runProg env p s).1.obj.input = s.obj.input.drop (observed env p s).length ∧
    (runProg env p s).1.obj.is = some bytes := by
  induction p with
  | ret v => intro s bytes his _ _ _; simp [runProg, observed, failures, his]
  | fails e => intro s bytes his _ _ _; simp [runProg, observed, failures, his]
  | act f k ih =>
    intro s bytes his hb hn hub
    exact ih { s with world := f s.world } bytes his hb hn hub
  | look k ih =>
    intro s bytes his hb hn hub
    exact ih s.world s bytes his hb hn hub
  | ask k ih =>
    intro s bytes his hb hn hub
    exact ih s.settings s bytes his hb hn hub
  | setTolerance t k ih =>
    intro s bytes his hb hn hub
    exact ih { s with obj := { s.obj with tolerance := t } } bytes his hb hn hub
  | setExpected v k ih =>
    intro s bytes his hb hn hub
    exact ih { s with obj := { s.obj with expected := v } } bytes his hb hn hub
  | setImageTolerance t k ih =>
    intro s bytes his hb hn hub
    exact ih { s with obj := { s.obj with imageTol := t } } bytes his hb hn hub
  | setSearchPath ps k ih =>
    intro s bytes his hb hn hub
    exact ih { s with obj := { s.obj with searchPath := ps } } bytes his hb hn hub
  | prependSearchPath p k ih =>
    intro s bytes his hb hn hub
    exact ih { s with obj := { s.obj with searchPath := p :: s.obj.searchPath } } bytes his hb hn hub
  | setInFileName n k ih =>
    intro s bytes his hb hn hub
    exact ih { s with obj := { s.obj with inFileName := n } } bytes his hb hn hub
  | setOutFileName n k ih =>
    intro s bytes his hb hn hub
    exact ih { s with obj := { s.obj with outFileName := n } } bytes his hb hn hub
  | call c k ih =>
    intro s bytes his hb hn hub
    have hc := call_step env s c bytes his hb (hn (s.obs c) (by simp [observed]))
    rw [runProg, observed] at *
    rcases hr : runCall env s c with ⟨s1, r⟩
    rw [hr] at hc hub hn
    rcases hc with ⟨_, w, hc⟩ | ⟨b, rest, hi, hag, hobj, hc⟩ | ⟨hna, hobj, hc⟩
    · simp only at hc; subst hc
      exact absurd ⟨w, rfl⟩ hub
    · simp only at hc hobj; subst hc
      simp only at hub hn ⊢
      obtain ⟨h1, h2, h3⟩ := ih 1 s1 bytes (by rw [hobj]; exact his)
        (fun x hx => hb x (by rw [hobj] at hx; rw [hi]; exact List.mem_cons_of_mem _ hx)) (fun o ho => hn o (List.mem_cons_of_mem _ ho)) hub
      rw [hobj] at h1 h2
      refine ⟨?_, ?_, h3⟩
      · rw [h1, hi]; simp only [failures, if_pos hag]; simp
      · rw [h2, hi]; simp
    · have hfail : ∀ os, failures env s.obj.input ((s.obs c) :: os) =
          1 + failures env (s.obj.input.drop 1) os := by
        intro os
        cases hi : s.obj.input with
        | nil => rfl
        | cons b rest => simp only [failures, if_neg (hna b rest hi)]; rfl
      simp only at hobj
      cases r with
      | error f =>
        simp only at hub hn ⊢
        rw [hobj, hfail]
        simp [failures, his]
      | ok v =>
        simp only at hub hn ⊢
        have his1 : s1.obj.is = some bytes := by rw [hobj]; exact his
        obtain ⟨h1, h2, h3⟩ := ih v s1 bytes his1
          (fun x hx => hb x (by rw [hobj] at hx; exact List.mem_of_mem_drop hx)) (fun o ho => hn o (List.mem_cons_of_mem _ ho)) hub
        rw [hobj] at h1 h2
        refine ⟨?_, ?_, h3⟩
        · rw [h1, hfail]; simp only; push_cast; omega
        · rw [h2]; simp [Nat.add_comm]

end Verif.Regression
