import Verif.Regression.CompareProps
import Verif.Regression.ArgsProps

/-!
# Properties C38–C40, C46, C60–C66: comparison results and the return value of `Main`
-/

set_option linter.unusedSimpArgs false

namespace Verif.Regression
open Spec Verif.Path Verif.Measurement

/-! ## C60, C61: one comparison -/

theorem fin3 {α β γ : Type} {a a' : α} {b b' : β} {r r' : γ} (h : (a, b, r) = (a', b', r')) : a' = a ∧ b' = b := by
  cases h; exact ⟨rfl, rfl⟩

theorem ub_split {α β : Type} {r : α × β × Except Fault Bool} {w : String} (h : r.2.2 = .error (.ub w)) :
    ∃ x y, r = (x, y, .error (.ub w)) := ⟨r.1, r.2.1, by rw [← h]⟩

/-- **C60.** What a comparison writes: nothing when the measurements agree; the measurement, its name prefixed with "Unmatched ", when
the baseline is exhausted or has another name or type there; for plain text that differs the difference of the two texts under the name
prefixed with "Difference "; for any other difference the two measurements, prefixed "Test " and "Baseline ". -/
theorem C60_comparison_output (env : Env) (s : St) (c : Call) (bytes : Str) (his : s.obj.is = some bytes)
    (hb : ∀ b ∈ s.obj.input, Plainly b) (hn : c.meas.name ≠ [])
    (himg : env.image = none ∨ c.meas.type ≠ b!"image/itk") (v : Int) (hv : (runCall env s c).2 = .ok v) :
    ((∀ b rest, s.obj.input = b :: rest → ¬ (b.name = c.meas.name ∧ b.type = c.meas.type)) →
      ∃ t, (c.meas.setName (b!"Unmatched " ++ c.meas.name)).print = .ok t ∧
        (runCall env s c).1.world = (s.emit (t ++ b!"\n")).world) ∧
    (∀ b rest, s.obj.input = b :: rest → Agree env b (s.obs c) →
      (runCall env s c).1.world = s.world) ∧
    (∀ b rest, s.obj.input = b :: rest → b.name = c.meas.name → b.type = c.meas.type →
      ¬ Agree env b (s.obs c) →
      ∀ content name, c = .textPlain content name →
        ∃ d t, env.diff b.content content = .ok d ∧
          (Meas.data { kind := .plain, name := b!"Difference " ++ name, content := d }).print = .ok t ∧
          (runCall env s c).1.world = (s.emit (t ++ b!"\n")).world) ∧
    (∀ b rest, s.obj.input = b :: rest → b.name = c.meas.name → b.type = c.meas.type →
      ¬ Agree env b (s.obs c) → (∀ content name, c ≠ .textPlain content name) →
      (∀ f, b ≠ .file f) →
        ∃ t u, (c.meas.setName (b!"Test " ++ c.meas.name)).print = .ok t ∧
          (b.setName (b!"Baseline " ++ b.name)).print = .ok u ∧
          (runCall env s c).1.world = (s.emit (t ++ b!"\n" ++ u ++ b!"\n")).world) := by
  have hworld : ∀ (o : Obj) (t : Str), o.os = s.obj.os → (St.emit ⟨o, s.world⟩ t).world = (s.emit t).world := by
    intro o t ho; simp only [St.emit, ho]; split <;> rfl
  have hrun : runCall env s c = compareMeasurement env s c.meas c.tolerant := by
    rw [runCall, compareMode_is his, if_pos rfl]
  rw [hrun] at hv ⊢
  rw [compareMeasurement] at hv ⊢
  have hip : ∀ b t, t.type = c.meas.type → imagePair env b t = none := by
    intro b t ht
    simp only [imagePair]
    split
    · next im f g hi =>
      rcases himg with h | h
      · rw [h] at hi; cases hi
      · exact if_neg (by rw [← ht] at h; exact h)
    · rfl
  have hvis0 : ∀ (s : St) b, compareVisit env s c.tolerant b c.meas =
      (s, (visitorFor s c.tolerant).visit env.num s.world.openRead b c.meas) := by
    intro s b
    simp only [compareVisit, hip b c.meas rfl]
  have hdiff0 : ∀ (s : St) b, differenceMeasurement env s c.meas b =
      match difference env.diff b c.meas with
      | .error f => ({ s with obj := { s.obj with unmatched := s.obj.unmatched + 1 } }, .error f)
      | .ok t => (({ s with obj := { s.obj with unmatched := s.obj.unmatched + 1 } } : St).emit t, .ok ()) := by
    intro s b
    simp only [differenceMeasurement, hip b c.meas rfl]
    cases difference env.diff b c.meas <;> rfl
  refine ⟨?_, ?_, ?_, ?_⟩
  · intro hno
    obtain ⟨t, ht⟩ := print_ok (c.meas.setName (b!"Unmatched " ++ c.meas.name))
    refine ⟨t, ht, ?_⟩
    cases hi : s.obj.input with
    | nil =>
      simp only [unmatchedMeasurement, ht, Res.andThen]
      exact hworld _ _ rfl
    | cons b rest =>
      simp only
      rw [if_neg (hno b rest hi)]
      simp only [unmatchedMeasurement, ht, Res.andThen]
      exact hworld _ _ rfl
  · intro b rest hi hag
    simp only [hi, if_pos (And.intro hag.1 hag.2.1)]
    obtain ⟨b', hl, _⟩ := locate_eq { s with obj := { s.obj with input := rest } } b c.meas
    simp only [hl, hvis0]
    rcases visit_agree env { s with obj := { s.obj with input := rest } } b c (hb b (by simp [hi])) hn hag.1 hag.2.1 b' hl (hip _ _ rfl) with
      ⟨_, _, w, hub⟩ | ⟨r, t', b'', hvis, hr⟩
    · obtain ⟨x, y, hxy⟩ := ub_split hub
      rw [hxy]
    · rw [hvis]
      rw [show r = true from hr.mpr hag]
      rfl
  · intro b rest hi hname htype hna content name hc
    simp only [hi, if_pos (And.intro hname htype)] at hv ⊢
    obtain ⟨b', hl, _, _, _, hcase⟩ := locate_eq { s with obj := { s.obj with input := rest } } b c.meas
    simp only [hl, hvis0] at hv ⊢
    have hbb : b' = b := by subst hc; cases b <;> exact hcase
    subst hbb
    rcases visit_agree env { s with obj := { s.obj with input := rest } } b' c (hb b' (by simp [hi])) hn hname htype b' hl (hip _ _ rfl) with
      ⟨_, _, w, hub⟩ | ⟨r, t', b'', hvis, hr⟩
    · exfalso
      obtain ⟨x, y, hxy⟩ := ub_split hub
      rw [hxy] at hv
      cases hv
    · have hrf : r = false := by
        cases r with
        | false => rfl
        | true => exact absurd (hr.mp rfl) hna
      subst hrf
      rw [hvis] at hv ⊢
      have hsame : b'' = b' ∧ t' = c.meas := by
        subst hc
        simp only [Call.meas] at hvis
        rw [C59_tolerance_only_numbers _ _ _ _ _ (by rintro d k h; cases h; simp)] at hvis
        cases b' with
        | data d =>
          rw [C33_data_equal _ d _ d.content content (holds_of_plainly (hb _ (by simp [hi]))) (Or.inr ⟨rfl, by simp, rfl⟩)] at hvis
          exact fin3 hvis
        | file f =>
          obtain ⟨r, _, _, h3⟩ := data_file_equal s.world { kind := .plain, name := name, content := content } f
            ⟨rfl, by simp⟩ hn hname.symm htype.symm
          rw [h3] at hvis
          exact fin3 hvis
      rw [hsame.1, hsame.2] at hv ⊢
      simp only [Bool.false_eq_true, if_false, hdiff0] at hv ⊢
      subst hc
      simp only [Bool.false_eq_true, if_false, Res.andThen, difference_eq, Call.meas, differencePlain] at hv ⊢
      cases hd : env.diff b'.content content with
      | error f =>
        rw [show (Meas.data { kind := .plain, name := name, content := content }).content = content from rfl] at hv
        simp only [hd] at hv; cases hv
      | ok d =>
        obtain ⟨t, ht⟩ := print_ok (.data { kind := .plain, name := b!"Difference " ++ name, content := d })
        refine ⟨d, t, rfl, ht, ?_⟩
        have e : (Meas.data { kind := .plain, name := name, content := content }).name = name := rfl
        have e2 : (Meas.data { kind := .plain, name := name, content := content }).content = content := rfl
        simp only [e, e2, hd, ht]
        exact hworld _ _ rfl
  · intro b rest hi hname htype hna hc hnf
    simp only [hi, if_pos (And.intro hname htype)] at hv ⊢
    obtain ⟨b', hl, _, _, _, hcase⟩ := locate_eq { s with obj := { s.obj with input := rest } } b c.meas
    simp only [hl, hvis0] at hv ⊢
    obtain ⟨d, rfl⟩ : ∃ d, b = .data d := by
      cases b with
      | data d => exact ⟨d, rfl⟩
      | file f => exact absurd rfl (hnf f)
    have hbb : b' = .data d := hcase
    subst hbb
    rcases visit_agree env { s with obj := { s.obj with input := rest } } (.data d) c (hb _ (by simp [hi])) hn hname htype _ hl (hip _ _ rfl) with
      ⟨_, _, w, hub⟩ | ⟨r, t', b'', hvis, hr⟩
    · exfalso
      obtain ⟨x, y, hxy⟩ := ub_split hub
      rw [hxy] at hv
      cases hv
    · have hrf : r = false := by
        cases r with
        | false => rfl
        | true => exact absurd (hr.mp rfl) hna
      subst hrf
      rw [hvis] at hv ⊢
      have hdh := holds_of_plainly (hb (.data d) (by simp [hi]))
      have hsame : b'' = .data d ∧ t' = c.meas := by
        cases hm : c.meas with
        | file g =>
          rw [hm] at hvis hname htype hn
          rw [visit_file] at hvis
          obtain ⟨r, h1, _, h3⟩ := data_file_equal s.world d g (hb (.data d) (by simp [hi]))
            (by rw [show d.name = g.name from hname]; exact hn) hname htype
          have e : (Meas.data d).isEqual s.world.openRead (.file g) = (.data d, .file g, .ok r) := by
            have h4 : (g.isEqualData s.world.openRead d).1 = d := by
              have := congrArg (fun x => x.2.1) h3
              simp only [Meas.isEqual] at this
              exact Meas.data.inj this
            have h5 := h1
            simp only [Meas.isEqual] at h5 ⊢
            rw [h4, h5]
          rw [e] at hvis; exact fin3 hvis
        | data t =>
          rw [hm] at hvis
          have hth := holds_of_plainly (call_plainly c t hm)
          rw [visit_data] at hvis
          cases hk : t.kind with
          | plain =>
            simp only [hk, compareGeneral] at hvis
            rw [C33_data_equal _ d t _ _ hdh hth] at hvis; exact fin3 hvis
          | string =>
            simp only [hk, compareGeneral] at hvis
            rw [C33_data_equal _ d t _ _ hdh hth] at hvis; exact fin3 hvis
          | num k =>
            simp only [hk] at hvis
            by_cases hj : ∃ j, d.kind = .num j
            · obtain ⟨j, hj⟩ := hj
              rw [compareNumeric_eq _ _ _ d t j k hj hk] at hvis
              split at hvis
              · exact fin3 hvis
              · rw [C33_data_equal _ d t _ _ hdh hth] at hvis; exact fin3 hvis
            · rw [compareNumeric_other _ _ _ d t (fun j h => hj ⟨j, h⟩)] at hvis
              exact fin3 hvis
      rw [hsame.1, hsame.2]
      obtain ⟨t, ht⟩ := print_ok (c.meas.setName (b!"Test " ++ c.meas.name))
      obtain ⟨u, hu⟩ := print_ok ((Meas.data d).setName (b!"Baseline " ++ (Meas.data d).name))
      refine ⟨t, u, ht, hu, ?_⟩
      have hgen : difference env.diff (.data d) c.meas = differenceGeneral (.data d) c.meas := by
        rw [difference_eq]
        cases c <;> first | rfl | (exfalso; exact hc _ _ rfl)
      simp only [Bool.false_eq_true, if_false, hdiff0, Res.andThen, hgen, differenceGeneral, ht, hu]
      exact hworld _ _ rfl

/-- **C61.** The value a measurement call returns in compare mode: 1 when the measurement agrees with the baseline and also when there is
no counterpart, 0 when there is one and the values differ (the documentation says 0 when they are the same and non-zero otherwise). -/
theorem C61_call_result (env : Env) (s : St) (c : Call) (bytes : Str) (his : s.obj.is = some bytes)
    (hb : ∀ b ∈ s.obj.input, Plainly b) (hn : c.meas.name ≠ []) (v : Int) (hv : (runCall env s c).2 = .ok v) :
    (v = 0 ∨ v = 1) ∧
    (v = 0 ↔ ∃ b rest, s.obj.input = b :: rest ∧ b.name = c.meas.name ∧ b.type = c.meas.type ∧
      ¬ Agree env b (s.obs c)) := by
  rcases call_step env s c bytes his hb hn with ⟨_, w, h⟩ | ⟨b, rest, hi, hag, _, h⟩ | ⟨hna, _, h⟩
  · rw [h] at hv; cases hv
  · rw [h] at hv; cases hv
    refine ⟨Or.inr rfl, ?_⟩
    constructor
    · intro h; cases h
    · rintro ⟨b', rest', h1, _, _, h4⟩
      rw [hi] at h1; cases h1; exact absurd hag h4
  · rcases h with ⟨f, h⟩ | ⟨b, rest, hi, h1, h2, h⟩ | ⟨h1, h⟩
    · rw [h] at hv; cases hv
    · rw [h] at hv; cases hv
      exact ⟨Or.inl rfl, by simp only [true_iff]; exact ⟨b, rest, hi, h1, h2, hna b rest hi⟩⟩
    · rw [h] at hv; cases hv
      refine ⟨Or.inr rfl, ?_⟩
      constructor
      · intro h; cases h
      · rintro ⟨b, rest, h3, h4, h5, _⟩
        exact absurd ⟨h4, h5⟩ (h1 b rest h3)

/-! ## C38, C39: Main -/

/-- What a successful start of the measurements leaves. -/
theorem begin_ok (env : Env) (s s1 : St) (h : beginMeasurement env s = (s1, .ok ())) :
    s1.obj.unmatched = s.obj.unmatched ∧ s1.obj.searchPath = s.obj.searchPath ∧ s1.obj.inFileName = s.obj.inFileName ∧
    s1.obj.expected = s.obj.expected ∧ s1.obj.tolerance = s.obj.tolerance ∧
    (s.obj.inFileName ≠ [] → ∃ b, s1.obj.is = some b ∧ env.readXML b = .ok s1.obj.input) ∧
    (s.obj.inFileName = [] → s.obj.is = none → s1.obj.is = none) := by
  rw [beginMeasurement] at h
  have hout : ∀ s s', openOutput s = (s', .ok ()) → s'.obj.unmatched = s.obj.unmatched ∧ s'.obj.searchPath = s.obj.searchPath ∧
      s'.obj.inFileName = s.obj.inFileName ∧ s'.obj.expected = s.obj.expected ∧ s'.obj.tolerance = s.obj.tolerance ∧
      s'.obj.is = s.obj.is := by
    intro s s' h
    simp only [openOutput] at h
    repeat' split at h
    all_goals (cases h; try exact ⟨rfl, rfl, rfl, rfl, rfl, rfl⟩)
  have hin : ∀ s s', openInput s = (s', .ok ()) → s'.obj.unmatched = s.obj.unmatched ∧ s'.obj.searchPath = s.obj.searchPath ∧
      s'.obj.inFileName = s.obj.inFileName ∧ s'.obj.expected = s.obj.expected ∧ s'.obj.tolerance = s.obj.tolerance ∧
      (s.obj.inFileName ≠ [] → ∃ b, s'.obj.is = some b) ∧ (s.obj.inFileName = [] → s'.obj.is = s.obj.is) := by
    intro s s' h
    simp only [openInput] at h
    by_cases hi : s.obj.inFileName = []
    · rw [if_neg (by simp [hi])] at h
      cases h
      exact ⟨rfl, rfl, rfl, rfl, rfl, fun h => absurd hi h, fun _ => rfl⟩
    · rw [if_pos hi] at h
      split at h
      · cases h
      · next b _ => cases h; exact ⟨rfl, rfl, rfl, rfl, rfl, fun _ => ⟨b, rfl⟩, fun h => absurd h hi⟩
  rcases ho : openOutput s with ⟨s', r⟩
  rw [ho] at h
  cases r with
  | error f => cases h
  | ok u =>
    simp only [Res.andThen] at h
    obtain ⟨a1, a2, a3, a4, a5, a6⟩ := hout s s' ho
    rcases hi : openInput s' with ⟨s'', r⟩
    rw [hi] at h
    cases r with
    | error f => cases h
    | ok u =>
      simp only at h
      obtain ⟨b1, b2, b3, b4, b5, b6, b7⟩ := hin s' s'' hi
      rw [startOrRead] at h
      rw [a3] at b6 b7
      rw [a6] at b7
      split at h
      · split at h
        · next hnone =>
          cases h
          refine ⟨by rw [b1, a1], by rw [b2, a2], by rw [b3, a3], by rw [b4, a4], by rw [b5, a5], ?_, fun h1 h2 => hnone⟩
          intro hne
          obtain ⟨b, hb⟩ := b6 hne
          rw [hb] at hnone; cases hnone
        · next b hb =>
          split at h
          · cases h
          · next ms hms =>
            cases h
            refine ⟨by simp only; rw [b1, a1], by simp only; rw [b2, a2], by simp only; rw [b3, a3], by simp only; rw [b4, a4],
              by simp only; rw [b5, a5], fun _ => ⟨b, hb, hms⟩, fun h1 h2 => ?_⟩
            simp only; rw [b7 h1]; exact h2
      · next hcm =>
        cases h
        rw [emit_obj]
        refine ⟨by rw [b1, a1], by rw [b2, a2], by rw [b3, a3], by rw [b4, a4], by rw [b5, a5], ?_, fun h1 h2 => by rw [b7 h1]; exact h2⟩
        intro hne
        obtain ⟨b, hb⟩ := b6 hne
        exact absurd (compareMode_is hb) (by simpa using hcm)

/-- Is the baseline of the object there, as a readable file? -/
def baselinePresent (o : Obj) (fs : FileSys) : Prop :=
  o.inFileName ≠ [] ∧ (let p := searchPathList fs o.inFileName o.searchPath
    let q := if p = [] then o.inFileName else p
    isFile fs q = true ∧ isReadable fs q = true)

theorem compareMode_noStream (s : St) (h : s.obj.is = none) : s.compareMode = true ↔ baselinePresent s.obj s.world.fs := by
  simp only [St.compareMode, h, baselinePresent, Obj.searched]
  by_cases h1 : s.obj.inFileName = []
  · simp [h1]
  · by_cases h2 : searchPathList s.world.fs s.obj.inFileName s.obj.searchPath = []
    · simp [h1, h2]
    · simp [h1, h2]

/-- **C38, C39.** The value of `Main` in compare mode, when the test ends normally: the value of the test if it is not the expected
one; otherwise what the object had counted before plus the number of positions at which test and baseline disagree. -/
theorem C39_main_value (env : Env) (test : List Str → Prog) (fuel : Nat) (argv : List Str) (s : St)
    (o : Obj) (rest : List Str) (s1 s2 : St) (ret : Int)
    (hparse : parseArguments s.world.fs fuel { s.obj with unmatched := s.obj.unmatched + 1 } argv = (o, .ok rest))
    (hbegin : beginMeasurement env ⟨o, s.world⟩ = (s1, .ok ()))
    (hrun : runProg env (test rest) s1 = (s2, .ok ret))
    (hunm : o.unmatched = s.obj.unmatched + 1)
    (hin : o.inFileName ≠ []) (hplain : ∀ b ∈ s1.obj.input, Plainly b)
    (hnames : ∀ x ∈ observed env (test rest) s1, x.call.meas.name ≠ [])
    (hpresent : baselinePresent s2.obj s2.world.fs) :
    (main env test fuel argv s).2 = .ok (if ret ≠ s2.obj.expected then ret
      else s.obj.unmatched + failures env s1.obj.input (observed env (test rest) s1)) := by
  obtain ⟨b1, b2, b3, b4, b5, b6, b7⟩ := begin_ok env _ s1 hbegin
  obtain ⟨bytes, his, _⟩ := b6 hin
  obtain ⟨c1, c2, c3⟩ := C39_positional_count env (test rest) s1 bytes his hplain hnames (by rw [hrun]; rintro ⟨w, h⟩; cases h)
  rw [hrun] at c1 c2 c3
  have hcm : s2.compareMode = true := compareMode_is c3
  simp only [main, tryBlock, hparse, hbegin, hrun, mainValue]
  simp only [endMeasurement, hcm, if_true]
  by_cases hret : ret = s2.obj.expected
  · simp only [hret, ne_eq, not_true_eq_false, if_false]
    rw [if_pos]
    · simp only at b1; rw [c1, b1, hunm]; congr 1; omega
    · rw [compareMode_noStream _ rfl]
      exact hpresent
  · simp [hret]

/-- **C38.** The value of `Main` without a baseline, when the test ends normally, is 0 if the test returned the expected value and what
the test returned otherwise. -/
theorem C38_record_value (env : Env) (test : List Str → Prog) (fuel : Nat) (argv : List Str) (s : St)
    (o : Obj) (rest : List Str) (s1 s2 : St) (ret : Int)
    (hparse : parseArguments s.world.fs fuel { s.obj with unmatched := s.obj.unmatched + 1 } argv = (o, .ok rest))
    (hbegin : beginMeasurement env ⟨o, s.world⟩ = (s1, .ok ()))
    (hrun : runProg env (test rest) s1 = (s2, .ok ret)) (hin : s2.obj.inFileName = []) :
    (main env test fuel argv s).2 = .ok (if ret = s2.obj.expected then 0 else ret) := by
  simp only [main, tryBlock, hparse, hbegin, hrun, mainValue, endMeasurement]
  have hif : ∀ (P : Bool) (x y : St), (if P then x else y).obj.expected = if P then x.obj.expected else y.obj.expected := by
    intro P x y; cases P <;> rfl
  have hexp : (if s2.compareMode then ({ s2 with obj := { s2.obj with input := [] } } : St) else s2.emit footer).obj.expected = s2.obj.expected := by
    split
    · rfl
    · rw [emit_obj]
  have hinf : (if s2.compareMode then ({ s2 with obj := { s2.obj with input := [] } } : St) else s2.emit footer).obj.inFileName = [] := by
    split
    · exact hin
    · rw [emit_obj]; exact hin
  rw [hexp]
  by_cases hret : ret = s2.obj.expected
  · simp only [hret, ne_eq, not_true_eq_false, if_false, if_true]
    rw [if_neg]
    rw [compareMode_noStream _ rfl]
    rintro ⟨h, _⟩; exact h hinf
  · simp [hret]

/-- **C38.** When an exception is thrown anywhere, `Main` returns -1, unless -1 is the expected value. -/
theorem C38_exception_value (env : Env) (test : List Str → Prog) (fuel : Nat) (argv : List Str) (s s' : St) (m : String) (r : Int)
    (h : tryBlock env test fuel argv s = (s', r, some (.thrown m))) :
    r = -1 ∧ (main env test fuel argv s).1 = s' ∧
    (s'.obj.expected ≠ -1 → (main env test fuel argv s).2 = .ok (-1)) ∧
    (s'.obj.expected = -1 → (main env test fuel argv s).2 = .ok (if s'.compareMode then s'.obj.unmatched else 0)) := by
  have hr : r = -1 := by
    simp only [tryBlock] at h
    repeat' split at h
    all_goals (cases h; try rfl)
  subst hr
  refine ⟨rfl, by simp only [main, h], fun he => ?_, fun he => ?_⟩
  · simp only [main, h, mainValue, if_pos (Ne.symm he)]
  · simp only [main, h, mainValue, he, ne_eq, not_true_eq_false, if_false]

/-! ### A small surroundings for examples and witnesses -/

/-- The file "b" exists and can be read. -/
def smallWorld : World where
  fs := ⟨fun n => if n = b!"b" then some .regular else none, fun n => n = b!"b", fun _ => true, fun _ => true⟩
  bytes := fun _ => []
  creatable := fun _ => true
  cout := []
  host := b!"h"
  time := b!"t\n"

/-- A library in which every baseline reads as `ms`. -/
def smallEnv (ms : List Meas) : Env where
  num := ⟨.exact, .exact, 0, 0, fun _ => 0, fun _ => 0⟩
  readXML := fun _ => .ok ms
  diff := fun _ _ => .ok []

/-- A fresh object in that world. -/
def fresh : St := ⟨{}, smallWorld⟩

/-- The command line "prog -I b". -/
def withBaseline : List Str := [b!"prog", b!"-I", b!"b"]

/-- A test that makes `n` text measurements and returns 0. -/
def textTest (n : Nat) : Prog :=
  match n with
  | 0 => .ret 0
  | n + 1 => .call (.textString b!"x" b!"n") fun _ => textTest n

theorem parse_small (n : Int) : parseArguments smallWorld.fs 9 { unmatched := n } withBaseline =
    ({ unmatched := n, inFileName := b!"b" }, .ok [b!"prog"]) := by
  have := C35_options_removed smallWorld.fs 9 { unmatched := n } b!"prog" [(b!"-I", b!"b")] [] (by simp [IsOption])
    (by simp [Refused]; constructor <;> decide) (by simp [Stops]) (by decide)
  simpa [flat, withBaseline, lastValue, values] using this

theorem begin_small (ms : List Meas) (n : Int) :
    beginMeasurement (smallEnv ms) ⟨{ unmatched := n, inFileName := b!"b" }, smallWorld⟩ =
      (⟨{ unmatched := n, inFileName := b!"b", is := some [], input := ms }, smallWorld⟩, .ok ()) := by
  have h1 : searchPathList smallWorld.fs b!"b" [] = [] := rfl
  have h2 : smallWorld.openRead b!"b" = some [] := by decide
  simp [beginMeasurement, openOutput, openInput, Res.andThen, startOrRead, Obj.searched, h1, h2, St.compareMode, smallEnv]

theorem present_small (o : Obj) (ho : o.inFileName = b!"b" ∧ o.searchPath = []) (w : World) (hw : w.fs = smallWorld.fs) :
    baselinePresent o w.fs := by
  rw [hw, baselinePresent, ho.1, ho.2]
  refine ⟨by simp, ?_⟩
  have h1 : searchPathList smallWorld.fs b!"b" [] = [] := rfl
  simp only [h1, if_true]
  decide

/-- The value of `Main` for an object in the small world that has counted `n` before. -/
theorem main_small (ms : List Meas) (test : List Str → Prog) (n : Int) (s2 : St) (ret : Int)
    (hrun : runProg (smallEnv ms) (test [b!"prog"])
      ⟨{ unmatched := n + 1, inFileName := b!"b", is := some [], input := ms }, smallWorld⟩ = (s2, .ok ret))
    (hfs : s2.world.fs = smallWorld.fs) (hobj : s2.obj.inFileName = b!"b" ∧ s2.obj.searchPath = []) (hplain : ∀ b ∈ ms, Plainly b)
    (hnames : ∀ x ∈ observed (smallEnv ms) (test [b!"prog"])
      ⟨{ unmatched := n + 1, inFileName := b!"b", is := some [], input := ms }, smallWorld⟩, x.call.meas.name ≠ []) :
    (main (smallEnv ms) test 9 withBaseline ⟨{ unmatched := n }, smallWorld⟩).2 = .ok (if ret ≠ s2.obj.expected then ret
      else n + failures (smallEnv ms) ms (observed (smallEnv ms) (test [b!"prog"])
        ⟨{ unmatched := n + 1, inFileName := b!"b", is := some [], input := ms }, smallWorld⟩)) := by
  have := C39_main_value (smallEnv ms) test 9 withBaseline ⟨{ unmatched := n }, smallWorld⟩ _ _ _ s2 ret (parse_small (n + 1))
    (begin_small ms (n + 1)) hrun rfl (by simp) hplain hnames (present_small s2.obj hobj s2.world hfs)
  simpa using this

theorem run_textTest (ms : List Meas) (n : Nat) : ∀ (s : St), s.obj.is = some [] → s.obj.input = [] →
    ∃ s2, runProg (smallEnv ms) (textTest n) s = (s2, .ok 0) ∧ s2.world.fs = s.world.fs ∧ s2.obj.expected = s.obj.expected ∧
      (s2.obj.inFileName = s.obj.inFileName ∧ s2.obj.searchPath = s.obj.searchPath) ∧
      (observed (smallEnv ms) (textTest n) s).length = n ∧
      ∀ x ∈ observed (smallEnv ms) (textTest n) s, x.call.meas.name = b!"n" := by
  induction n with
  | zero => intro s _ _; exact ⟨s, rfl, rfl, rfl, ⟨rfl, rfl⟩, rfl, by simp [observed, textTest]⟩
  | succ n ih =>
    intro s his hin
    obtain ⟨t, ht⟩ := print_ok ((Call.textString b!"x" b!"n").meas.setName (b!"Unmatched " ++ (Call.textString b!"x" b!"n").meas.name))
    have hcall : runCall (smallEnv ms) s (.textString b!"x" b!"n") =
        (({ s with obj := { s.obj with unmatched := s.obj.unmatched + 1 } } : St).emit (t ++ b!"\n"), .ok 1) := by
      rw [runCall, compareMode_is his, if_pos rfl, compareMeasurement, hin]
      simp only [unmatchedMeasurement, ht, Res.andThen]
    obtain ⟨s2, h1, h2, h3, h6, h4, h5⟩ := ih (({ s with obj := { s.obj with unmatched := s.obj.unmatched + 1 } } : St).emit (t ++ b!"\n"))
      (by rw [emit_obj]; exact his) (by rw [emit_obj]; exact hin)
    refine ⟨s2, ?_, ?_, ?_, by rw [emit_obj] at h6; exact h6, ?_, ?_⟩
    · simp only [textTest, runProg, hcall]; exact h1
    · rw [h2]; simp only [St.emit]; split <;> rfl
    · rw [h3, emit_obj]
    · simp only [textTest, observed, hcall, List.length_cons, h4]
    · intro x hx
      simp only [textTest, observed, hcall, List.mem_cons] at hx
      rcases hx with rfl | hx
      · rfl
      · exact h5 x hx

theorem failures_nil (env : Env) (os : List Obs) : failures env [] os = os.length := by
  induction os with
  | nil => rfl
  | cons o os ih => simp only [failures, ih, List.length_cons]; omega

/-- A test of `n` measurements against an empty baseline, on an object that has counted `k` before, returns `k + n`. -/
theorem main_textTest (k : Int) (n : Nat) :
    (main (smallEnv []) (fun _ => textTest n) 9 withBaseline ⟨{ unmatched := k }, smallWorld⟩).2 = .ok (k + n) := by
  obtain ⟨s2, h1, h2, h3, h6, h4, h5⟩ := run_textTest [] n
    ⟨{ unmatched := k + 1, inFileName := b!"b", is := some [], input := [] }, smallWorld⟩ rfl rfl
  rw [main_small [] (fun _ => textTest n) k s2 0 h1 h2 h6 (by simp) (fun x hx => by rw [h5 x hx]; decide), h3]
  rw [failures_nil, h4]
  simp

/-- The hypotheses of C60 and C61 are met by a test whose text differs from the baseline; the call returns 0. -/
example : ∃ (env : Env) (s : St) (c : Call), s.obj.is = some [] ∧ s.obj.input ≠ [] ∧ (∀ b ∈ s.obj.input, Plainly b) ∧
    c.meas.name ≠ [] ∧ (runCall env s c).2 = .ok 0 :=
  ⟨smallEnv [], ⟨{ is := some [], input := [.data { kind := .string, name := b!"n", content := b!"y" }] }, smallWorld⟩,
    .textString b!"x" b!"n", rfl, by simp, by simp [Plainly], by decide, by decide +kernel⟩

/-- The same for a measurement that agrees: the call returns 1. -/
example : (runCall (smallEnv []) ⟨{ is := some [], input := [.data { kind := .string, name := b!"n", content := b!"x" }] }, smallWorld⟩
    (.textString b!"x" b!"n")).2 = .ok 1 := by decide +kernel

/-! ## C40: leftovers -/

/-- **C40, negative.** Whatever the baseline holds, a test that makes no measurement at all passes. -/
theorem C40_nothing_measured_passes (ms : List Meas) (hplain : ∀ b ∈ ms, Plainly b) :
    (main (smallEnv ms) (fun _ => .ret 0) 9 withBaseline fresh).2 = .ok 0 := by
  have := main_small ms (fun _ => .ret 0) 0 ⟨{ unmatched := 0 + 1, inFileName := b!"b", is := some [], input := ms }, smallWorld⟩ 0
    rfl rfl ⟨rfl, rfl⟩ hplain (by simp [observed])
  simpa [observed, failures, fresh] using this

/-! ## C46: repeated runs -/

/-- **C46, negative.** Running the same test twice on one object, with the same arguments and files, need not give the same
value: the failures of the first run are counted again. -/
theorem C46_runs_not_independent : ∃ (env : Env) (test : List Str → Prog) (argv : List Str) (s s' : St),
    (main env test 9 argv s).1 = s' ∧ s'.world.fs = s.world.fs ∧ (main env test 9 argv s).2 = .ok 1 ∧ (main env test 9 argv s').2 = .ok 2 := by
  refine ⟨smallEnv [], fun _ => textTest 1, withBaseline, fresh, _, rfl, rfl, by decide +kernel, by decide +kernel⟩

/-- **C46.** A run adds its own failures to those the object has counted before. -/
theorem C46_counts_add (k : Int) (n : Nat) :
    (main (smallEnv []) (fun _ => textTest n) 9 withBaseline ⟨{ unmatched := k }, smallWorld⟩).2 = .ok (k + n) := main_textTest k n

/-! ## C62: the exit status -/

/-- **C62.** The exit status tells failure from success exactly unless the value returned is a non-zero multiple of 256. -/
theorem C62_exit_status (v : Int) : exitStatus v = 0 ↔ ∃ k, v = 256 * k := by
  rw [exitStatus]
  constructor
  · intro h; exact ⟨v / 256, by omega⟩
  · rintro ⟨k, rfl⟩; omega

/-- **C62, negative.** A test with 256 failing measurements has exit status 0. -/
theorem C62_256_failures_pass : ∃ v, (main (smallEnv []) (fun _ => textTest 256) 9 withBaseline fresh).2 = .ok v ∧ v = 256 ∧
    exitStatus v = 0 := ⟨256, by have := main_textTest 0 256; simpa [fresh] using this, rfl, by decide⟩

/-! ## C63, C64: finding the baseline -/

/-- **C63, negative.** When there is a search path and no directory of it holds the baseline, the baseline is not opened even though the
file named exists and can be read. -/
theorem C63_search_path_hides_file (env : Env) (s : St) (hin : s.obj.inFileName ≠ []) (hp : s.obj.searchPath ≠ [])
    (hout : s.obj.outFileName = [])
    (hnone : ∀ q ∈ s.obj.searchPath, s.world.fs.stat (Verif.cstr (append q s.obj.inFileName)) ≠ some .regular) :
    ∃ m, (beginMeasurement env s).2 = .error (.thrown m) := by
  obtain ⟨init, last, hsp⟩ := List.eq_nil_or_concat s.obj.searchPath |>.resolve_left hp
  rw [List.concat_eq_append] at hsp
  have hs : s.obj.searched s.world.fs = append last s.obj.inFileName :=
    (C23_search_nothing s.world.fs s.obj.inFileName s.obj.searchPath hnone).2 init last hsp
  have hne : append last s.obj.inFileName ≠ [] := by
    simp only [append]
    split
    · exact hin
    · simp
  have hf := (isFile_eq_false_iff s.world.fs _).2 (hnone last (by simp [hsp]))
  have hopen : s.world.openRead (append last s.obj.inFileName) = none := by
    rw [World.openRead, if_neg]
    rintro ⟨h, _⟩
    simp [isFile, h] at hf
  refine ⟨"unable to open input file", ?_⟩
  simp only [beginMeasurement, openOutput, hout, ne_eq, not_true_eq_false, if_false, Res.andThen, openInput, hin,
    not_false_eq_true, if_true, hs, hne, hopen]

example : (main (smallEnv []) (fun _ => .ret 0) 9 withBaseline ⟨{ searchPath := [b!"d"] }, smallWorld⟩).2 = .ok (-1) := by
  decide +kernel

/-- **C64, negative.** When output and baseline are the same file, the baseline is destroyed before it is read: what is read is the empty
document, whatever the file held, and the file is left empty. -/
theorem C64_output_overwrites_baseline (env : Env) (s : St) (hin : s.obj.inFileName ≠ []) (hsame : s.obj.outFileName = s.obj.inFileName)
    (hp : s.obj.searchPath = []) (hcreate : s.world.creatable (cstr s.obj.inFileName) = true)
    (hread : s.world.fs.canRead (cstr s.obj.inFileName) = true) :
    (beginMeasurement env s).1.obj.is = some [] ∧ (beginMeasurement env s).1.world.bytes (cstr s.obj.inFileName) = [] ∧
    (∀ ms, env.readXML [] = .ok ms → (beginMeasurement env s).1.obj.input = ms ∧ (beginMeasurement env s).2 = .ok ()) ∧
    (∀ f, env.readXML [] = .error f → (beginMeasurement env s).2 = .error f) := by
  have hw : ∃ w, s.world.openWrite s.obj.inFileName = some w ∧ w.openRead s.obj.inFileName = some [] ∧
      w.bytes (cstr s.obj.inFileName) = [] := by
    refine ⟨_, by rw [World.openWrite, if_pos hcreate], ?_, by simp⟩
    rw [World.openRead, if_pos (by simp [hread])]
    simp
  obtain ⟨w, hw, hr, hb⟩ := hw
  have h1 : openOutput s = (⟨{ s.obj with os := some s.obj.outFileName }, w⟩, .ok ()) := by
    simp only [openOutput, hsame, ne_eq, hin, not_false_eq_true, if_true, hw]
  have h2 : openInput ⟨{ s.obj with os := some s.obj.outFileName }, w⟩ =
      (⟨{ s.obj with os := some s.obj.outFileName, is := some [] }, w⟩, .ok ()) := by
    simp only [openInput, ne_eq, hin, not_false_eq_true, if_true, Obj.searched, hp, searchPathList, searchLoop, hr]
  simp only [beginMeasurement, h1, h2, Res.andThen, startOrRead, St.compareMode, if_true]
  cases he : env.readXML [] with
  | error f => simp [hb]
  | ok ms => simp [hb]

/-- The premises of C64 are met: "prog -I b -O b" where the baseline holds something. -/
example : ∃ s : St, s.obj.inFileName ≠ [] ∧ s.obj.outFileName = s.obj.inFileName ∧ s.obj.searchPath = [] ∧
    s.world.creatable (cstr s.obj.inFileName) = true ∧ s.world.fs.canRead (cstr s.obj.inFileName) = true ∧
    s.world.bytes (cstr s.obj.inFileName) ≠ [] :=
  ⟨⟨{ inFileName := b!"b", outFileName := b!"b" }, { smallWorld with bytes := fun _ => b!"<output></output>" }⟩, by decide, rfl, rfl, by decide, by decide, by decide⟩

/-! ## C65: files of images -/

/-- **C65, negative.** An image file measurement never agrees with its baseline under the basic comparison, even if it is the very same
file. -/
theorem C65_images_never_agree (env : Env) (b : Meas) (fileName name : Str) (tol : ℚ) (it : ImgTol) (path : List Str) (w : World) :
    ¬ Agree env b ⟨.filePNG fileName name, tol, it, path, w⟩ ∧ ¬ Agree env b ⟨.fileJPEG fileName name, tol, it, path, w⟩ := by
  have hk : ∀ k : Measurement.Kind, k.typeName ≠ b!"image/png" ∧ k.typeName ≠ b!"image/jpeg" := by
    rintro (_ | _ | (_ | _ | _ | _)) <;> decide
  have d1 : decide ((b!"image/png" : Str) = b!"image/itk") = false := by decide
  have d2 : decide ((b!"image/jpeg" : Str) = b!"image/itk") = false := by decide
  constructor
  · rintro ⟨_, h2, h3⟩
    cases b with
    | data d => exact (hk d.kind).1 h2
    | file f =>
      have h4 : ∃ k : Measurement.Kind, k.typeName = b!"image/png" := by
        simp only [SameValue, Call.meas, d1] at h3
        cases he : env.image <;> rw [he] at h3 <;> exact h3.1
      obtain ⟨k, e⟩ := h4; exact (hk k).1 e
  · rintro ⟨_, h2, h3⟩
    cases b with
    | data d => exact (hk d.kind).2 h2
    | file f =>
      have h4 : ∃ k : Measurement.Kind, k.typeName = b!"image/jpeg" := by
        simp only [SameValue, Call.meas, d2] at h3
        cases he : env.image <;> rw [he] at h3 <;> exact h3.1
      obtain ⟨k, e⟩ := h4; exact (hk k).2 e

/-- The calls that measure an image file the comparison cannot handle: PNG and JPEG files always, image files of `itk::Regression` in a framework without it. -/
def Spec.Incomparable (env : Env) : Call → Bool
  | .filePNG _ _ | .fileJPEG _ _ => true
  | .fileITK _ _ => env.image.isNone
  | _ => false

theorem incomparable_never_agrees (env : Env) (b : Meas) (o : Obs) (h : Spec.Incomparable env o.call = true) : ¬ Agree env b o := by
  obtain ⟨c, tol, it, path, w⟩ := o
  cases c with
  | filePNG f n => exact (C65_images_never_agree env b f n tol it path w).1
  | fileJPEG f n => exact (C65_images_never_agree env b f n tol it path w).2
  | fileITK f n =>
    have hk : ∀ k : Measurement.Kind, k.typeName ≠ b!"image/itk" := by
      rintro (_ | _ | (_ | _ | _ | _)) <;> decide
    have he : env.image = none := by simpa [Spec.Incomparable] using h
    rintro ⟨_, h2, h3⟩
    cases b with
    | data d => exact hk d.kind h2
    | file g =>
      simp only [SameValue, Call.meas, he] at h3
      obtain ⟨⟨k, e⟩, -⟩ := h3
      exact hk k e
  | _ => simp [Spec.Incomparable] at h

theorem incomparable_failures (env : Env) : ∀ (bs : List Meas) (os : List Obs),
    os.countP (fun o => Spec.Incomparable env o.call) ≤ failures env bs os
  | bs, [] => by cases bs <;> simp [failures]
  | [], o :: os => by
    have := incomparable_failures env [] os
    rw [failures, List.countP_cons]
    split <;> omega
  | b :: bs, o :: os => by
    have := incomparable_failures env bs os
    rw [failures, List.countP_cons]
    by_cases h : Spec.Incomparable env o.call = true
    · rw [if_pos h, if_neg (incomparable_never_agrees env b o h)]; omega
    · rw [if_neg h]; omega

/-- **C65, negative.** Whatever the baseline and the files are, in a comparing run every measurement of a PNG or JPEG file counts as a failure, and without the
subclass `itk::Regression` every measurement of an image file at all. -/
theorem C65_every_image_fails (env : Env) (p : Prog) (s : St) (bytes : Str) (his : s.obj.is = some bytes) (hplain : ∀ b ∈ s.obj.input, Plainly b)
    (hnames : ∀ o ∈ observed env p s, o.call.meas.name ≠ []) (hub : ¬ IsUB (runProg env p s).2) :
    s.obj.unmatched + (observed env p s).countP (fun o => Spec.Incomparable env o.call) ≤ (runProg env p s).1.obj.unmatched := by
  rw [(C39_positional_count env p s bytes his hplain hnames hub).1]
  have := incomparable_failures env s.obj.input (observed env p s)
  omega

/-- The hypotheses are met: a test that measures the PNG file of its own baseline. -/
example : let s : St := ⟨{ is := some [], input := [.file { type := b!"image/png", name := b!"n", fileName := b!"b" }] }, smallWorld⟩
    s.obj.unmatched + 1 ≤ (runProg (smallEnv []) (.call (.filePNG b!"b" b!"n") fun _ => .ret 0) s).1.obj.unmatched := by
  intro s
  have h := C65_every_image_fails (smallEnv []) (.call (.filePNG b!"b" b!"n") fun _ => .ret 0) s [] rfl
    (by simp [s, Plainly]) (by decide +kernel)
    (by rw [show (runProg (smallEnv []) (.call (.filePNG b!"b" b!"n") fun _ => .ret 0) s).2 = .ok 0 by decide +kernel]; rintro ⟨w, hw⟩; cases hw)
  rw [show List.countP _ (observed (smallEnv []) (.call (.filePNG b!"b" b!"n") fun _ => .ret 0) s) = 1 by decide +kernel] at h
  exact h

end Verif.Regression
