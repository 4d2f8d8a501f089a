import Verif.Whole.Files
import Verif.Whole.MixSpec

/-!
# Property C132: tests that measure values and files and set tolerances
-/

set_option linter.unusedSimpArgs false

namespace Verif.Whole
open Verif.Measurement Verif.Measurement.Spec Verif.Regression Verif.Regression.Spec Verif.Decimal Verif.Decimal.Spec Verif.Xml Verif.Xml.Spec Spec RepoTests
open Verif.Itk (lookedUp_search last_baseName baseName_last)
open Verif.Itk.Spec (LookedUp LastComponent)
open Verif.Pipe.Spec (expectation)

/-- The call that measures it. -/
def _root_.Verif.Whole.Spec.Thing.call : Thing → Call
  | .value x => x.call
  | .file x => x.call

/-- The calls of `SetRelativeTolerance` (tfRegressionTest.cpp:109-111) and of the measurement functions (tfRegressionTest.h:154-193) one after the other, and `return 0`. -/
def actsProg : List Act → Prog
  | [] => .ret 0
  | .tolerance t :: l => .setTolerance t (actsProg l)
  | .measure x :: l => .call x.call fun _ => actsProg l

/-- A test that looks at its arguments and at `GetCompareMode()` and does what is chosen by them. -/
def actsTest (acts : List Str → Bool → List Act) (argv : List Str) : Prog := .ask fun s => actsProg (acts argv s.compareMode)

theorem actsProg_keeps (os : Option Str) : ∀ l : List Act, Keeps os (actsProg l)
  | [] => trivial
  | .tolerance _ :: l => actsProg_keeps os l
  | .measure _ :: l => fun _ => actsProg_keeps os l

theorem underWay_things : ∀ (l : List Act) (s t : ℚ), (underWay s l).map (·.2) = (underWay t l).map (·.2)
  | [], _, _ => rfl
  | .tolerance _ :: _, _, _ => rfl
  | .measure x :: l, s, t => by simp only [underWay, List.map_cons, underWay_things l s t]

theorem underWay_calls (l : List Act) (s t : ℚ) : (underWay s l).map (fun p => p.2.call) = (underWay t l).map fun p => p.2.call := by
  have := congrArg (List.map Thing.call) (underWay_things l s t)
  rw [List.map_map, List.map_map] at this
  exact this

theorem acts_record (env : Env) : ∀ (l : List Act) (s : St), s.obj.is = none → s.obj.inFileName = [] →
    (observed env (actsProg l) s).map (·.call) = (underWay 0 l).map (fun p => p.2.call) ∧ (runProg env (actsProg l) s).2 = .ok 0 ∧ (runProg env (actsProg l) s).1.world.fs = s.world.fs ∧
    (runProg env (actsProg l) s).1.obj.is = none ∧ (runProg env (actsProg l) s).1.obj.inFileName = [] ∧ (runProg env (actsProg l) s).1.obj.expected = s.obj.expected := by
  intro l
  induction l with
  | nil => intro s h1 h2; exact ⟨rfl, rfl, rfl, h1, h2, rfl⟩
  | cons x l ih =>
    intro s h1 h2
    cases x with
    | tolerance t =>
      obtain ⟨a1, a2, a3, a4, a5, a6⟩ := ih { s with obj := { s.obj with tolerance := t } } h1 h2
      simp only [actsProg, observed, runProg]
      refine ⟨?_, a2, a3, a4, a5, a6⟩
      rw [a1, underWay]
      exact underWay_calls l _ _
    | measure x =>
      have hc := runCall_record env s x.call h1 h2
      have ho := emit_obj s (line (recordedMeas x.call))
      obtain ⟨a1, a2, a3, a4, a5, a6⟩ := ih (s.emit (line (recordedMeas x.call))) (by rw [ho, h1]) (by rw [ho, h2])
      simp only [actsProg, observed, runProg, hc]
      exact ⟨by rw [List.map_cons, a1]; rfl, a2, by rw [a3, emit_fs], a4, a5, by rw [a6, ho]⟩

/-- A call whose comparisons can be carried out ends normally in compare mode and changes nothing but standard output, the baseline that is left and the counter. -/
theorem plain_call (env : Env) (himg : env.image = none) (s : St) (c : Call) (bytes : Str) (his : s.obj.is = some bytes) (hos : s.obj.os = none)
    (hvisit : ∀ b ∈ s.obj.input.head?, b.name = c.meas.name → b.type = c.meas.type → ∀ b', locateBaseline s b c.meas = .ok b' →
      ∃ r b'', (visitorFor s c.tolerant).visit env.num s.world.openRead b' c.meas = (b'', c.meas, .ok r) ∧ (r = false → ∃ d, difference env.diff b'' c.meas = .ok d)) :
    ∃ s' v t u, runCall env s c = (s', .ok v) ∧ s'.world = { s.world with cout := t } ∧ s'.obj = { s.obj with input := s.obj.input.drop 1, unmatched := u } := by
  rw [runCall, compareMode_is his, if_pos rfl, compareMeasurement]
  have hun : ∀ s : St, s.obj.os = none → ∃ s' t, unmatchedMeasurement s c.meas = (s', .ok ()) ∧
      s'.obj = { s.obj with unmatched := s.obj.unmatched + 1 } ∧ s'.world = { s.world with cout := t } := by
    intro s h
    obtain ⟨t, ht⟩ := print_ok (c.meas.setName (b!"Unmatched " ++ c.meas.name))
    simp only [unmatchedMeasurement, ht]
    rw [emit_noStream _ _ (by exact h)]
    exact ⟨_, _, rfl, rfl, rfl⟩
  cases hi : s.obj.input with
  | nil =>
    obtain ⟨s', t, h1, h2, h3⟩ := hun s hos
    simp only [h1, Res.andThen]
    exact ⟨_, _, t, _, rfl, h3, by rw [h2, List.drop_nil, ← hi]⟩
  | cons b rest =>
    simp only
    by_cases hnt : b.name = c.meas.name ∧ b.type = c.meas.type
    · rw [if_pos hnt]
      obtain ⟨s0, hs0⟩ : ∃ s0 : St, s0 = { s with obj := { s.obj with input := rest } } := ⟨_, rfl⟩
      rw [← hs0]
      obtain ⟨b', hl, -⟩ := locate_eq s0 b c.meas
      have hip : ∀ b t, imagePair env b t = none := by intro b t; simp only [imagePair, himg]
      obtain ⟨r, b'', hv, hdiff⟩ := hvisit b (by simp [hi]) hnt.1 hnt.2 b' (by rw [← hl, hs0]; rfl)
      have hv' : (visitorFor s0 c.tolerant).visit env.num s0.world.openRead b' c.meas = (b'', c.meas, .ok r) := by rw [← hv, hs0]; rfl
      rw [hl]
      simp only
      rw [compareVisit, hip]
      simp only [hv']
      cases r with
      | true => exact ⟨_, _, s.world.cout, s.obj.unmatched, rfl, by rw [hs0], by rw [hs0]; rfl⟩
      | false =>
        obtain ⟨d, hd⟩ := hdiff rfl
        simp only [Bool.false_eq_true, if_false, differenceMeasurement, hip, hd, Res.andThen]
        rw [emit_noStream _ _ (by rw [hs0]; exact hos)]
        exact ⟨_, _, _, _, rfl, by rw [hs0], by rw [hs0]; rfl⟩
    · rw [if_neg hnt]
      obtain ⟨s', t, h1, h2, h3⟩ := hun { s with obj := { s.obj with input := rest } } hos
      simp only [h1, Res.andThen]
      exact ⟨_, _, t, _, rfl, h3, by rw [h2]; rfl⟩

theorem not_textPlain (x : FileItem) (content name : Str) : x.call ≠ .textPlain content name := by
  obtain ⟨n, k, p⟩ := x
  cases k <;> exact fun h => nomatch h

/-- The comparison of a measured file with any baseline can be carried out. -/
theorem file_visit (env : Env) (himg : env.image = none) (s : St) (x : FileItem) (b : Meas) (hb : Plainly b) (hn : x.name ≠ []) (h1 : b.name = x.call.meas.name) (h2 : b.type = x.call.meas.type)
    (b' : Meas) (hl : locateBaseline s b x.call.meas = .ok b') :
    ∃ r b'', (visitorFor s x.call.tolerant).visit env.num s.world.openRead b' x.call.meas = (b'', x.call.meas, .ok r) ∧ (r = false → ∃ d, difference env.diff b'' x.call.meas = .ok d) := by
  rcases visit_agree env s b x.call hb (by rw [file_meas]; exact hn) h1 h2 b' hl (by simp only [imagePair, himg]) with ⟨_, h, _⟩ | ⟨r, t', b'', hv, _⟩
  · rw [file_tolerant] at h
    cases h
  · have ht' : t' = x.call.meas := by
      have : ∀ (v : CompareVisitor) (n : NumEnv) (f : Files) (b : Meas) (g : FileM), (v.visit n f b (.file g)).2.1 = .file g := by
        intro v n f b g
        rw [visit_file]
        cases b with
        | data d => rfl
        | file f => rw [Meas.isEqual]; split <;> rfl
      have h := this (visitorFor s x.call.tolerant) env.num s.world.openRead b' { type := x.kind.type, name := x.name, fileName := x.path }
      rw [← file_meas, hv] at h
      exact h
    subst ht'
    exact ⟨r, b'', hv, fun _ => difference_ok env b'' x.call fun content name h => absurd h (not_textPlain x content name)⟩

/-- So can the comparison of a value with a value, if the numbers can be compared and the texts be patched. -/
theorem value_visit (env : Env) (s : St) (y : Item) (e : DataM) (hb : Plainly (.data e)) (hn : y.name ≠ []) (h1 : (Meas.data e).name = y.call.meas.name) (h2 : (Meas.data e).type = y.call.meas.type)
    (himg : env.image = none) (hsafe : Comparable env s.obj.tolerance (.data e) y.call) (hdiff : ¬ Agree env (.data e) (s.obs y.call) → ∀ content, y.value = .plain content → ∃ t, env.diff e.content content = .ok t)
    (b' : Meas) (hl : locateBaseline s (.data e) y.call.meas = .ok b') :
    ∃ r b'', (visitorFor s y.call.tolerant).visit env.num s.world.openRead b' y.call.meas = (b'', y.call.meas, .ok r) ∧ (r = false → ∃ d, difference env.diff b'' y.call.meas = .ok d) := by
  have hd := call_data y
  have hdp := call_plainly y.call y.data hd
  have hl' : b' = .data e := by
    rw [hd] at hl
    cases hl
    rfl
  subst hl'
  have hdo : ¬ Agree env (.data e) (s.obs y.call) → ∃ d, difference env.diff (.data e) y.call.meas = .ok d := fun ha =>
    difference_ok env (.data e) y.call fun content name h => hdiff ha content (call_plain y content name h).1
  rcases visit_agree env s (.data e) y.call hb (by rw [hd]; show y.data.name ≠ []; rw [data_name]; exact hn) h1 h2 _ hl (by simp only [imagePair, himg]) with ⟨_, h, hu⟩ | ⟨r, t', b'', hv, hag⟩
  · exfalso
    have hk : ∃ k, y.data.kind = .num k := by
      by_contra hno
      have := call_kind y.call (fun d' k hd' hk' => by rw [hd] at hd'; cases hd'; exact hno ⟨k, hk'⟩)
      rw [this] at h; cases h
    obtain ⟨k, hk⟩ := hk
    have hke : e.kind = .num k := by
      rw [hd] at h2
      rw [typeName_injective e.kind y.data.kind h2, hk]
    rw [hd, visit_data, hk] at hu
    simp only at hu
    rw [compareNumeric_eq _ _ _ e y.data k k hke hk] at hu
    by_cases h0 : (visitorFor s y.call.tolerant).getTolerance ≠ 0
    · rw [if_pos h0, visitorFor_tolerance, h, if_pos rfl] at hu
      exact hsafe e y.data k rfl hd hke hk h hu
    · rw [if_neg h0, C33_data_equal _ e y.data _ _ (holds_of_plainly hb) (holds_of_plainly hdp)] at hu
      obtain ⟨w, hw⟩ := hu
      cases hw
  · have h2 := visit_same (visitorFor s y.call.tolerant) env.num s.world.openRead e y.data hb hdp
    rw [← hd, hv] at h2
    simp only at h2
    obtain ⟨h2, h3⟩ := h2
    subst h2 h3
    exact ⟨r, _, hv, fun hr => hdo fun g => by rw [hag.mpr g] at hr; cases hr⟩

/-- And of a value with a recorded file of text. -/
theorem value_file_visit (env : Env) (s : St) (y : Item) (x : FileItem) (h2 : (recordedMeas x.call).type = y.call.meas.type)
    (hn : y.name ≠ []) (h1 : (recordedMeas x.call).name = y.call.meas.name) (himg : env.image = none) (hdiff : ¬ Agree env (recordedMeas x.call) (s.obs y.call) → ∀ content, y.value = .plain content → ∃ t, env.diff (baseName x.path) content = .ok t)
    (b' : Meas) (hl : locateBaseline s (recordedMeas x.call) y.call.meas = .ok b') :
    ∃ r b'', (visitorFor s y.call.tolerant).visit env.num s.world.openRead b' y.call.meas = (b'', y.call.meas, .ok r) ∧ (r = false → ∃ d, difference env.diff b'' y.call.meas = .ok d) := by
  have hd := call_data y
  have hb := recorded_plainly x.call
  have hag := visit_agree env s _ y.call hb (by rw [hd]; show y.data.name ≠ []; rw [data_name]; exact hn) h1 h2 b' hl (by simp only [imagePair, himg])
  have hdp := call_plainly y.call y.data hd
  rw [file_recorded] at h2 hl hdiff hag
  have hl' : b' = .file { type := x.kind.type, name := x.name, fileName := baseName x.path } := by
    rw [hd] at hl
    cases hl
    rfl
  subst hl'
  have hdo := fun ha => difference_ok env (.file { type := x.kind.type, name := x.name, fileName := baseName x.path }) y.call fun content name h => hdiff ha content (call_plain y content name h).1
  have hk : ∀ k, y.data.kind ≠ .num k := by
    intro k hk
    rw [hd] at h2
    simp only [Meas.type, hk] at h2
    revert h2
    cases x.kind <;> rcases k with _ | _ | _ | _ <;> decide
  obtain ⟨g1, g2, g3⟩ := C33_file_data_equal s.world.openRead { type := x.kind.type, name := x.name, fileName := baseName x.path } y.data _ (holds_of_plainly hdp)
  have hv : ∀ v : CompareVisitor, v.visit env.num s.world.openRead (.file { type := x.kind.type, name := x.name, fileName := baseName x.path }) (.data y.data) =
      (Meas.file { type := x.kind.type, name := x.name, fileName := baseName x.path }).isEqual s.world.openRead (.data y.data) := by
    intro v
    rw [visit_data]
    cases hy : y.data.kind with
    | num k => exact absurd hy (hk k)
    | plain => rfl
    | string => rfl
  obtain ⟨r, hr⟩ : ∃ r, ((Meas.file { type := x.kind.type, name := x.name, fileName := baseName x.path }).isEqual s.world.openRead (.data y.data)).2.2 = .ok r := by
    rw [g1]
    cases hf : s.world.openRead (cstrOf (baseName x.path)) with
    | none => exact ⟨_, g3 hf⟩
    | some bytes => exact ⟨_, g2 bytes hf⟩
  have hfull : (visitorFor s y.call.tolerant).visit env.num s.world.openRead (.file { type := x.kind.type, name := x.name, fileName := baseName x.path }) y.call.meas =
      (.file { type := x.kind.type, name := x.name, fileName := baseName x.path }, y.call.meas, .ok r) := by
    rw [hd, hv, ← hr]
    rw [g1]
  refine ⟨r, _, hfull, fun hr' => hdo fun g => ?_⟩
  rw [hfull] at hag
  rcases hag with ⟨_, _, w, hw⟩ | ⟨r', t', b'', e, h⟩
  · cases hw
  · cases e
    rw [h.mpr g] at hr'
    cases hr'

/-- What a run relies on: the recorded thing and the measured one can be compared, and texts be patched if they need not be accepted. -/
def Meets (env : Env) (w : World) (dirs : List Str) (tol : ℚ) (x y : Thing) : Prop :=
  match y with
  | .file _ => True
  | .value i => (∀ j, x = .value j → Comparable env tol (.data j.data) i.call) ∧
      (¬ Takes MustPass w dirs tol x y → x.name = i.name → ∀ a b, Recorded x a → i.value = .plain b → ∃ t, env.diff a b = .ok t)

theorem thing_name (x : Thing) : x.call.meas.name = x.name := by
  cases x with
  | value x => show (x.call).meas.name = x.name; rw [call_data]; exact data_name x
  | file x => show (x.call).meas.name = x.name; rw [file_meas]; rfl

theorem recorded_name (x : Thing) : (recordedMeas x.call).name = x.name := by
  cases x with
  | value x => show (recordedMeas x.call).name = x.name; rw [recorded_data]; exact data_name x
  | file x => show (recordedMeas x.call).name = x.name; rw [file_recorded]; rfl

theorem plain_data (x : Item) (a : Str) (h : x.value = .plain a) : x.data = { kind := .plain, name := x.name, content := a } := by
  rcases x with ⟨n, v, t⟩
  cases h
  rfl

theorem kind_text (x : FileItem) (h : x.kind.type = b!"text/plain") : x.kind = .text := by
  revert h
  cases x.kind with
  | text => intro _; rfl
  | png => intro h; exact absurd h (by decide)
  | jpeg => intro h; exact absurd h (by decide)

theorem kind_data (x : FileItem) (y : Item) (h : x.kind.type = (Meas.data y.data).type) : x.kind = .text ∧ ∃ a, y.value = .plain a ∧ y.data.content = a := by
  have : (Meas.data y.data).type = b!"text/plain" := by
    revert h
    obtain ⟨k, hk⟩ : ∃ k, k = y.data.kind := ⟨_, rfl⟩
    show _ = y.data.kind.typeName → y.data.kind.typeName = _
    rw [← hk]
    cases x.kind <;> rcases k with _ | _ | (_ | _ | _ | _) <;> decide
  exact ⟨kind_text x (by rw [h, this]), data_plain y this⟩

/-- When a measurement agrees with a recorded one. -/
theorem agree_thing (env : Env) (hnum : env.num = ieee) (himg : env.image = none) (w : World) (dirs : List Str) (tol : ℚ) (h0 : 0 ≤ tol) (h1 : tol ≤ 1) (x y : Thing) (hx : x.Valid) (hy : y.Valid) (o : Obs)
    (ho : o.call = y.call) (ht : o.tolerance = tol) (hp : o.path = dirs) (hfs : o.world.fs = w.fs) (hb : o.world.bytes = w.bytes) :
    (Takes MustPass w dirs tol x y → Agree env (recordedMeas x.call) o) ∧ (Agree env (recordedMeas x.call) o → Takes MayPass w dirs tol x y) := by
  cases x with
  | value x =>
    have hr : recordedMeas (Thing.value x).call = .data x.data := recorded_data x
    rw [hr]
    cases y with
    | value y => exact agree_between env hnum tol h0 h1 x y hx hy o ho ht
    | file y =>
      have hm : (Thing.file y).call.meas = _ := file_meas y
      rw [Agree, ho, hm, SameValue]
      simp only [Meas.name, Meas.type, openRead_of w o.world hfs hb, data_name, Takes]
      constructor
      · rintro ⟨e1, e2, a, e3, e4⟩
        rw [plain_data x a e3, e2]
        exact ⟨e1, rfl, e4⟩
      · rintro ⟨e1, e2, e3⟩
        obtain ⟨k1, a, k2, k3⟩ := kind_data y x e2.symm
        rw [k3] at e3
        exact ⟨e1, k1, a, k2, e3⟩
  | file x =>
    have hr : recordedMeas (Thing.file x).call = _ := file_recorded x
    cases y with
    | file y =>
      have := agree_file env himg w dirs x y hx o ho hp hfs hb
      exact ⟨this.mpr, this.mp⟩
    | value y =>
      have hm : (Thing.value y).call.meas = _ := call_data y
      rw [hr, Agree, ho, hm, SameValue]
      simp only [Meas.name, Meas.type, openRead_of w o.world hfs hb, data_name, Takes]
      constructor
      · rintro ⟨e1, e2, a, last, e3, e4, e5⟩
        have := last_baseName _ _ e4
        subst this
        rw [plain_data y a e3, e2]
        exact ⟨e1, rfl, fun k h => (nomatch h), e5⟩
      · rintro ⟨e1, e2, -, e3⟩
        obtain ⟨k1, a, k2, k3⟩ := kind_data x y e2
        rw [k3] at e3
        exact ⟨e1, k1, a, _, k2, baseName_last _, e3⟩

theorem thing_visit (env : Env) (hnum : env.num = ieee) (himg : env.image = none) (w : World) (s : St) (hfs : s.world.fs = w.fs) (hbytes : s.world.bytes = w.bytes) (x y : Thing) (hx : x.Valid) (hy : y.Valid)
    (h0 : 0 ≤ s.obj.tolerance) (h0' : s.obj.tolerance ≤ 1) (hm : Meets env w s.obj.searchPath s.obj.tolerance x y)
    (h1 : (recordedMeas x.call).name = y.call.meas.name) (h2 : (recordedMeas x.call).type = y.call.meas.type) (b' : Meas) (hl : locateBaseline s (recordedMeas x.call) y.call.meas = .ok b') :
    ∃ r b'', (visitorFor s y.call.tolerant).visit env.num s.world.openRead b' y.call.meas = (b'', y.call.meas, .ok r) ∧ (r = false → ∃ d, difference env.diff b'' y.call.meas = .ok d) := by
  have hnames : x.name = y.name := by rw [← recorded_name, h1, thing_name]
  have hag := (agree_thing env hnum himg w s.obj.searchPath s.obj.tolerance h0 h0' x y hx hy (s.obs y.call) rfl rfl rfl hfs hbytes).1
  cases y with
  | file y => exact file_visit env himg s y _ (recorded_plainly _) hy.1 h1 h2 b' hl
  | value y =>
    obtain ⟨m1, m2⟩ := hm
    cases x with
    | value x =>
      have hr : recordedMeas (Thing.value x).call = .data x.data := recorded_data x
      rw [hr] at h1 h2 hl hag
      refine value_visit env s y x.data (by rw [← recorded_data]; exact recorded_plainly _) hy.1 h1 h2 himg (m1 x rfl) ?_ b' hl
      intro hno content hc
      obtain ⟨a, p1, p2⟩ := data_plain x (by
        rw [h2]
        show y.call.meas.type = _
        rcases y with ⟨n, v, t⟩
        cases hc
        rfl)
      rw [p2]
      exact m2 (fun g => hno (hag g)) hnames a content p1 hc
    | file x =>
      refine value_file_visit env s y x h2 hy.1 h1 himg ?_ b' hl
      intro hno content hc
      refine m2 (fun g => hno (hag g)) hnames _ content ⟨?_, baseName_last _⟩ hc
      have h2' : (recordedMeas x.call).type = y.call.meas.type := h2
      rw [file_recorded] at h2'
      refine kind_text x (Eq.trans h2' ?_)
      rcases y with ⟨n, v, t⟩
      cases hc
      rfl

/-- A run of the test in compare mode ends normally and observes the measurements in order, each with the tolerance in force; the files are as they were and the search path stays. -/
theorem acts_run (env : Env) (hnum : env.num = ieee) (himg : env.image = none) (w : World) (dirs : List Str) : ∀ (l : List Act) (xs : List Thing) (s : St) (bytes : Str), s.obj.is = some bytes → s.obj.os = none →
    s.world.fs = w.fs → s.world.bytes = w.bytes → s.obj.searchPath = dirs → s.obj.input = xs.map (fun x => recordedMeas x.call) →
    (∀ x ∈ xs, x.Valid) → (∀ p ∈ underWay s.obj.tolerance l, p.2.Valid ∧ 0 ≤ p.1 ∧ p.1 ≤ 1) →
    (∀ q ∈ xs.zip (underWay s.obj.tolerance l), Meets env w dirs q.2.1 q.1 q.2.2) →
    ∃ s', runProg env (actsProg l) s = (s', .ok 0) ∧ (s'.world.fs = s.world.fs ∧ s'.world.bytes = s.world.bytes) ∧ s'.obj.expected = s.obj.expected ∧
      (s'.obj.inFileName = s.obj.inFileName ∧ s'.obj.searchPath = s.obj.searchPath) ∧
      (observed env (actsProg l) s).map (fun o => (o.tolerance, o.call)) = (underWay s.obj.tolerance l).map (fun p => (p.1, p.2.call)) ∧
      ∀ o ∈ observed env (actsProg l) s, o.path = dirs ∧ o.world.fs = w.fs ∧ o.world.bytes = w.bytes := by
  intro l
  induction l with
  | nil => intro xs s _ _ _ _ _ _ _ _ _ _; exact ⟨s, rfl, ⟨rfl, rfl⟩, rfl, ⟨rfl, rfl⟩, rfl, by simp [actsProg, observed]⟩
  | cons a l ih =>
    intro xs s bytes his hos hfs hby hp hin hx hy hm
    cases a with
    | tolerance t =>
      obtain ⟨s', g⟩ := ih xs { s with obj := { s.obj with tolerance := t } } bytes his hos hfs hby hp hin hx hy hm
      exact ⟨s', g⟩
    | measure y =>
      obtain ⟨v1, v2, v3⟩ := hy (s.obj.tolerance, y) (by simp [underWay])
      obtain ⟨s', r, t, u, h1, h2, h3⟩ := plain_call env himg s y.call bytes his hos (by
        intro b hbm e1 e2 b' hl
        rw [hin] at hbm
        cases xs with
        | nil => cases hbm
        | cons x xs =>
          cases hbm
          exact thing_visit env hnum himg w s hfs hby x y (hx x (by simp)) v1 v2 v3 (by rw [hp]; exact hm (x, s.obj.tolerance, y) (by simp [underWay])) e1 e2 b' hl)
      have ht : s'.obj.tolerance = s.obj.tolerance := by rw [h3]
      obtain ⟨s'', g1, g2, g3, g6, g4, g5⟩ := ih (xs.drop 1) s' bytes (by rw [h3]; exact his) (by rw [h3]; exact hos)
        (by rw [h2]; exact hfs) (by rw [h2]; exact hby) (by rw [h3]; exact hp) (by rw [h3, List.map_drop]; simp only [hin])
        (fun x h => hx x (List.mem_of_mem_drop h))
        (by rw [ht]; exact fun p hp => hy p (by simp [underWay, hp]))
        (by
          rw [ht]
          intro q hq
          cases xs with
          | nil => simp at hq
          | cons x xs => exact hm q (by simp only [underWay, List.zip_cons_cons, List.mem_cons]; exact .inr hq))
      rw [actsProg, runProg, observed, h1]
      refine ⟨s'', g1, by rw [g2.1, g2.2, h2]; exact ⟨rfl, rfl⟩, by rw [g3, h3], by rw [g6.1, g6.2, h3]; exact ⟨rfl, rfl⟩, by simp only [List.map_cons, g4, ht, underWay, St.obs], ?_⟩
      intro o ho
      rcases List.mem_cons.mp ho with rfl | ho
      · exact ⟨hp, hfs, hby⟩
      · exact g5 o ho

theorem failures_things (env : Env) (hnum : env.num = ieee) (himg : env.image = none) (w : World) (dirs : List Str) : ∀ (ys : List (ℚ × Thing)) (xs : List Thing) (os : List Obs),
    (∀ x ∈ xs, x.Valid) → (∀ y ∈ ys, y.2.Valid ∧ 0 ≤ y.1 ∧ y.1 ≤ 1) → os.map (fun o => (o.tolerance, o.call)) = ys.map (fun p => (p.1, p.2.call)) →
    (∀ o ∈ os, o.path = dirs ∧ o.world.fs = w.fs ∧ o.world.bytes = w.bytes) →
    refusals (Takes MayPass w dirs) xs ys ≤ failures env ((xs.map Thing.call).map recordedMeas) os ∧
      failures env ((xs.map Thing.call).map recordedMeas) os ≤ refusals (Takes MustPass w dirs) xs ys := by
  intro ys
  induction ys with
  | nil =>
    intro xs os _ _ ho _
    have : os = [] := by simpa using ho
    subst this
    cases xs <;> simp [refusals, failures]
  | cons y ys ih =>
    intro xs os hx hy ho hw
    cases os with
    | nil => simp at ho
    | cons o os =>
      simp only [List.map_cons, List.cons.injEq, Prod.mk.injEq] at ho
      cases xs with
      | nil =>
        have := ih [] os (by simp) (fun z hz => hy z (by simp [hz])) ho.2 (fun o h => hw o (by simp [h]))
        simp only [List.map_nil, refusals, failures] at this ⊢
        omega
      | cons x xs =>
        have := ih xs os (fun z hz => hx z (by simp [hz])) (fun z hz => hy z (by simp [hz])) ho.2 (fun o h => hw o (by simp [h]))
        obtain ⟨hv, h0, h1⟩ := hy y (by simp)
        obtain ⟨w1, w2, w3⟩ := hw o (by simp)
        obtain ⟨g1, g2⟩ := agree_thing env hnum himg w dirs y.1 h0 h1 x y.2 (hx x (by simp)) hv o ho.1.2 ho.1.1 w1 w2 w3
        obtain ⟨t, y⟩ := y
        simp only [List.map_cons, refusals, failures] at this g1 g2 ⊢
        by_cases a : Takes MustPass w dirs t x y
        · rw [if_pos a, if_pos (g1 a), if_pos (g2 (g1 a))]; omega
        · rw [if_neg a]
          by_cases b : Agree env (recordedMeas x.call) o
          · rw [if_pos b, if_pos (g2 b)]; omega
          · rw [if_neg b]
            split <;> omega

/-- **C132.** A test that measures values and files and sets tolerances (from 0 to 1) between, all of it depending on its arguments and on whether it records or compares, is recorded and later compared with the
recording, each time with any options and any further arguments.  The recording run returns 0.  The comparing run returns 0 if it is told to expect anything but 0; otherwise at most the number of the measurements
that need not be accepted, with the tolerance set last before them, for what was recorded at their position, and at least the number of those that must not be.  A text recorded as a value may be measured as a
file with those bytes, and the other way round, but the recorded file is then looked for in the current directory only. -/
theorem C132_mixed (X : Expat) (hX : Conforms X) (mem : (Int → Nat) × (Int → Nat)) (steps : Nat) (tol tol' : ℚ) (sp0 sp : List Str) (test : List Str → Bool → List Act)
    (prog : Str) (ps : List (Str × Str)) (args : List Str) (fuel : Nat) (w : World) (hw : Comment (commentText w)) (f : Str)
    (hopt : ∀ p ∈ ps, IsOption p.1) (href : ∀ p ∈ ps, ¬ Refused w.fs p) (hstop : Stops args) (hfuel : ps.length < fuel)
    (hI : lastValue b!"-I" ps = none) (hO : lastValue b!"-O" ps = some f) (hf : f ≠ []) (hcreate : w.creatable (cstr f) = true)
    (hnew : w.fs.stat (cstr f) = none ∨ (w.fs.canRead (cstr f) = true ∧ w.fs.canWrite (cstr f) = true))
    (w1 : World) (hw1 : (main (whole X mem steps) (actsTest test) fuel (prog :: (flat ps ++ args)) ⟨{ searchPath := sp0 }, w⟩).1.world = w1)
    (prog' : Str) (ps' : List (Str × Str)) (args' : List Str) (fuel' : Nat) (w2 : World) (name file : Str)
    (hopt' : ∀ p ∈ ps', IsOption p.1) (href' : ∀ p ∈ ps', ¬ Refused w2.fs p) (hstop' : Stops args') (hfuel' : ps'.length < fuel')
    (hI' : lastValue b!"-I" ps' = some name) (hn : name ≠ []) (hO' : lastValue b!"-O" ps' = none)
    (hfile : LookedUp w2.fs name ((values b!"-P" ps').reverse ++ sp) file) (hdoc : w2.openRead file = w1.openRead f)
    (xs : List Thing) (ys : List (ℚ × Thing)) (hxs : (underWay tol (test (prog :: args) false)).map (·.2) = xs) (hys : underWay tol' (test (prog' :: args') true) = ys)
    (hx : ∀ x ∈ xs, x.Valid) (hy : ∀ y ∈ ys, y.2.Valid ∧ 0 ≤ y.1 ∧ y.1 ≤ 1)
    (hplain : ∀ x t i a b, (x, t, .value i) ∈ xs.zip ys → ¬ Takes MustPass w2 ((values b!"-P" ps').reverse ++ sp) t x (.value i) → Recorded x a → i.value = .plain b → x.name = i.name → Diff.Spec.Fits a b ∧ Diff.Spec.TopClear a b ∧ Diff.Spec.Enough steps a b) :
    (main (whole X mem steps) (actsTest test) fuel (prog :: (flat ps ++ args)) ⟨{ searchPath := sp0 }, w⟩).2 = .ok 0 ∧
    ∃ n : Nat, (main (whole X mem steps) (actsTest test) fuel' (prog' :: (flat ps' ++ args')) ⟨{ tolerance := tol', searchPath := sp }, w2⟩).2 = .ok (if expectation ps' ≠ 0 then 0 else (n : Int)) ∧
      refusals (Takes MayPass w2 ((values b!"-P" ps').reverse ++ sp)) xs ys ≤ n ∧ n ≤ refusals (Takes MustPass w2 ((values b!"-P" ps').reverse ++ sp)) xs ys := by
  have hcs : (underWay 0 (test (prog :: args) false)).map (fun p => p.2.call) = xs.map Thing.call := by
    rw [← hxs, List.map_map]
    exact underWay_calls _ _ _
  obtain ⟨r1, r2⟩ := record_general_path sp0 (whole X mem steps) (actsTest test) (xs.map Thing.call) prog ps args fuel w f 0 hopt href hstop hfuel hI hO hf hcreate hnew
    (fun _ => actsProg_keeps _ _) (by
      intro s h1 h2 _
      have hm : s.settings.compareMode = false := recording s h1 h2
      obtain ⟨a1, a2⟩ := acts_record (whole X mem steps) (test (prog :: args) false) s h1 h2
      simp only [actsTest, observed, runProg, hm]
      exact ⟨by rw [a1, hcs], a2⟩)
  refine ⟨by rw [r1]; split <;> rfl, ?_⟩
  rw [hw1] at r2
  rw [r2] at hdoc
  have hread := read_recording X hX (xs.map Thing.call) w hw (fun c hc => by
    obtain ⟨x, hx', rfl⟩ := List.mem_map.mp hc
    have hv := hx x hx'
    cases x with
    | value x =>
      refine recorded_clean x.call x.data (call_data x) ?_ ?_
      · rw [call_data]
        show ∀ c ∈ x.data.name, AttrChar c
        rw [data_name]; exact hv.2.1
      · rw [call_data]; exact data_printable x hv
    | file x =>
      show Clean (recordedMeas x.call)
      rw [file_recorded]
      refine ⟨hv.2.1, ?_, (hv.2.2 _ (baseName_last _)).2, rfl⟩
      show ∀ c ∈ x.kind.type, AttrChar c
      generalize x.kind = k
      cases k <;> decide)
  rw [show readXML X = (whole X mem steps).readXML from rfl] at hread
  generalize header w ++ _ ++ footer = bytes at hread hdoc
  have hnames : ∀ y ∈ ys, y.2.name ≠ [] := by
    intro y hy'
    have hv := (hy y hy').1
    rcases y with ⟨t, _ | _⟩ <;> exact hv.1
  obtain ⟨os, -, ho2, ho3⟩ := compare_general_path tol' sp (whole X mem steps) bytes ((xs.map Thing.call).map recordedMeas) hread (by
      intro b hb
      obtain ⟨c, hc, rfl⟩ := List.mem_map.mp hb
      exact recorded_plainly _)
    (actsTest test) (ys.map fun p => p.2.call) prog' ps' args' fuel' w2 name file 0 hopt' href' hstop' hfuel' hI' hn hO' hfile hdoc
    (by
      intro c hc
      obtain ⟨y, hy', rfl⟩ := List.mem_map.mp hc
      rw [thing_name]
      exact hnames y hy')
    (fun os => os.map (fun o => (o.tolerance, o.call)) = ys.map (fun p => (p.1, p.2.call)) ∧
      ∀ o ∈ os, o.path = (values b!"-P" ps').reverse ++ sp ∧ o.world.fs = w2.fs ∧ o.world.bytes = w2.bytes)
    (by
      intro s1 h1 h2 h3 h4 h5 h6 h7
      have hm : s1.settings.compareMode = true := compareMode_is h1
      have hys' : underWay s1.obj.tolerance (test (prog' :: args') true) = ys := by rw [h4, hys]
      obtain ⟨s2, g1, g2, g3, g6, g4, g5⟩ := acts_run (whole X mem steps) rfl rfl w2 ((values b!"-P" ps').reverse ++ sp) (test (prog' :: args') true) xs s1 bytes h1 h7 (by rw [h5]) (by rw [h5]) h6
        (by rw [h2, List.map_map]; rfl) hx (by rw [hys']; exact hy)
        (by
          rw [hys']
          rintro ⟨x, t, y⟩ hq
          have hx' := (List.of_mem_zip hq).1
          have hp := (List.of_mem_zip hq).2
          have hv := hx x hx'
          obtain ⟨v1, v2, v3⟩ := hy _ hp
          cases y with
          | file y => trivial
          | value y =>
            refine ⟨?_, ?_⟩
            · rintro j rfl e d k he hd hke hkd _
              rw [call_data] at hd
              cases he
              cases hd
              exact comparable_items t v2 v3 j y hv v1 k hke hkd
            · intro hno hname a b ha hb
              obtain ⟨p1, p2, p3⟩ := hplain x t y a b hq hno ha hb hname
              obtain ⟨u, hu⟩ := Diff.C15_total a b p1 p2
              exact ⟨u, hu mem steps p3⟩)
      rw [hys'] at g4
      simp only [actsTest, observed, runProg, hm]
      refine ⟨s2, g1, g2.1, g3, g6, ?_, g4, g5⟩
      have := congrArg (List.map Prod.snd) g4
      rw [List.map_map, List.map_map] at this
      exact this)
  have := failures_things (whole X mem steps) rfl rfl w2 _ ys xs os hx hy ho2.1 ho2.2
  rw [ho3]
  refine ⟨_, ?_, this⟩
  by_cases he : expectation ps' = 0
  · rw [if_neg (by simp [he]), if_neg (by simp [he])]
  · rw [if_pos (Ne.symm he), if_pos he]

theorem close_self (t : ℚ) (h : 0 ≤ t) (q : ℚ) : Close t q q := by
  left
  rw [sub_self, abs_zero]
  exact mul_nonneg h (abs_nonneg _)

/-- A value is accepted for itself. -/
theorem mustPass_self (t : ℚ) (h : t = 0 ∨ (5 / 10 ^ 6 ≤ t ∧ t ≤ 1)) (x : Item) : MustPass t x x := by
  have g : t ≠ 0 → 5 / 10 ^ 6 ≤ t := fun hne => h.elim (fun e => absurd e hne) (·.1)
  refine ⟨rfl, ?_⟩
  rcases x with ⟨n, v, b⟩
  cases v <;> simp only
  · split
    · next h => exact close_self _ (by linarith [g h.2]) _
    · trivial
  · split
    · next h => exact close_self _ (by linarith [g h.2]) _
    · trivial
  · split
    · next h => exact close_self _ (by linarith [g h.2]) _
    · trivial

theorem refusals_self (R : ℚ → Thing → Thing → Prop) : ∀ ys : List (ℚ × Thing), refusals R (ys.map (·.2)) ys = 0 ↔ ∀ p ∈ ys, R p.1 p.2 p.2
  | [] => by simp [refusals]
  | (t, y) :: ys => by
    have := refusals_self R ys
    simp only [List.map_cons, refusals, List.forall_mem_cons]
    by_cases h : R t y y
    · rw [if_pos h, Nat.zero_add, this]; exact ⟨fun g => ⟨h, g⟩, fun g => g.2⟩
    · rw [if_neg h]; exact ⟨fun g => absurd g (by omega), fun g => absurd g.1 h⟩

/-- **C132.** A test that always does the same, setting tolerances (0, or from 5 in a million to 1) and measuring values and files, passes when it is compared with a recording of itself if and only if each of its
files is a text file that can be read and has the same bytes as the file found for it: the one with its last component in the first of the directories given by `-P` and those of the object that has one. -/
theorem C132_own_recording (X : Expat) (hX : Conforms X) (mem : (Int → Nat) × (Int → Nat)) (steps : Nat) (tol' : ℚ) (sp0 sp : List Str) (acts : List Act)
    (prog : Str) (ps : List (Str × Str)) (args : List Str) (fuel : Nat) (w : World) (hw : Comment (commentText w)) (f : Str)
    (hopt : ∀ p ∈ ps, IsOption p.1) (href : ∀ p ∈ ps, ¬ Refused w.fs p) (hstop : Stops args) (hfuel : ps.length < fuel)
    (hI : lastValue b!"-I" ps = none) (hO : lastValue b!"-O" ps = some f) (hf : f ≠ []) (hcreate : w.creatable (cstr f) = true)
    (hnew : w.fs.stat (cstr f) = none ∨ (w.fs.canRead (cstr f) = true ∧ w.fs.canWrite (cstr f) = true))
    (w1 : World) (hw1 : (main (whole X mem steps) (actsTest fun _ _ => acts) fuel (prog :: (flat ps ++ args)) ⟨{ searchPath := sp0 }, w⟩).1.world = w1)
    (prog' : Str) (ps' : List (Str × Str)) (args' : List Str) (fuel' : Nat) (w2 : World) (name file : Str)
    (hopt' : ∀ p ∈ ps', IsOption p.1) (href' : ∀ p ∈ ps', ¬ Refused w2.fs p) (hstop' : Stops args') (hfuel' : ps'.length < fuel')
    (hI' : lastValue b!"-I" ps' = some name) (hn : name ≠ []) (hO' : lastValue b!"-O" ps' = none) (hexp : expectation ps' = 0)
    (hfile : LookedUp w2.fs name ((values b!"-P" ps').reverse ++ sp) file) (hdoc : w2.openRead file = w1.openRead f)
    (hy : ∀ y ∈ underWay tol' acts, y.2.Valid ∧ (y.1 = 0 ∨ (5 / 10 ^ 6 ≤ y.1 ∧ y.1 ≤ 1))) :
    (main (whole X mem steps) (actsTest fun _ _ => acts) fuel' (prog' :: (flat ps' ++ args')) ⟨{ tolerance := tol', searchPath := sp }, w2⟩).2 = .ok 0 ↔
      ∀ x, Act.measure (.file x) ∈ acts → SameText w2 ((values b!"-P" ps').reverse ++ sp) x x := by
  have hrange : ∀ y ∈ underWay tol' acts, y.2.Valid ∧ 0 ≤ y.1 ∧ y.1 ≤ 1 := by
    intro y h
    refine ⟨(hy y h).1, ?_⟩
    rcases (hy y h).2 with e | e
    · rw [e]; norm_num
    · exact ⟨by linarith [e.1], e.2⟩
  have hself : ∀ V w dirs, (∀ y ∈ underWay tol' acts, ∀ i, y.2 = .value i → V y.1 i i) → ((∀ y ∈ underWay tol' acts, Takes V w dirs y.1 y.2 y.2) ↔ ∀ x, Act.measure (.file x) ∈ acts → SameText w dirs x x) := by
    intro V w dirs hV
    have hmem : ∀ (l : List Act) (t : ℚ) (x : Thing), Act.measure x ∈ l ↔ ∃ u, (u, x) ∈ underWay t l := by
      intro l
      induction l with
      | nil => intro t x; simp [underWay]
      | cons a l ih =>
        intro t x
        cases a with
        | tolerance u => simp only [List.mem_cons, underWay, ← ih u x, reduceCtorEq, false_or]
        | measure y =>
          simp only [List.mem_cons, underWay, Act.measure.injEq, ih t x, Prod.mk.injEq]
          constructor
          · rintro (h | ⟨u, h⟩)
            · exact ⟨t, .inl ⟨rfl, h⟩⟩
            · exact ⟨u, .inr h⟩
          · rintro ⟨u, h | h⟩
            · exact .inl h.2
            · exact .inr ⟨u, h⟩
    constructor
    · intro h x hx
      obtain ⟨u, hu⟩ := (hmem acts tol' _).mp hx
      exact h _ hu
    · rintro h ⟨t, y⟩ hy
      cases y with
      | value i => exact hV _ hy i rfl
      | file x => exact h x ((hmem acts tol' _).mpr ⟨t, hy⟩)
  have hmust : ∀ y ∈ underWay tol' acts, ∀ i, y.2 = .value i → MustPass y.1 i i := fun y h i _ => mustPass_self y.1 (hy y h).2 i
  obtain ⟨-, n, h1, h2, h3⟩ := C132_mixed X hX mem steps tol' tol' sp0 sp (fun _ _ => acts) prog ps args fuel w hw f hopt href hstop hfuel hI hO hf hcreate hnew w1 hw1
    prog' ps' args' fuel' w2 name file hopt' href' hstop' hfuel' hI' hn hO' hfile hdoc _ _ rfl rfl
    (by
      intro x hx
      obtain ⟨y, hy', rfl⟩ := List.mem_map.mp hx
      exact (hy y hy').1) hrange (by
      intro x t i a b hq hno _ _ _
      have hzip : ∀ (l : List (ℚ × Thing)) (x : Thing) (t : ℚ) (y : Thing), (x, t, y) ∈ (l.map (·.2)).zip l → x = y := by
        intro l x t y h
        induction l with
        | nil => simp at h
        | cons p l ih =>
          simp only [List.map_cons, List.zip_cons_cons, List.mem_cons, Prod.mk.injEq] at h
          rcases h with ⟨h, h'⟩ | h
          · rw [h, ← h']
          · exact ih h
      have := hzip _ _ _ _ hq
      subst this
      exact absurd (hmust _ (List.of_mem_zip hq).2 i rfl) hno)
  rw [h1, if_neg (by simp [hexp])]
  constructor
  · intro h
    have hn : n = 0 := by simpa using h
    subst hn
    have h0 := (refusals_self _ _).mp (Nat.le_zero.mp h2)
    intro x hx
    exact (hself (fun _ _ _ => True) w2 _ (fun _ _ _ _ => trivial)).mp (fun y hy' => by
      have := h0 y hy'
      rcases y with ⟨t, _ | _⟩
      · trivial
      · exact this) x hx
  · intro h
    have h0 := (refusals_self (Takes MustPass w2 ((values b!"-P" ps').reverse ++ sp)) (underWay tol' acts)).mpr ((hself MustPass w2 _ hmust).mpr h)
    have hn : n = 0 := by omega
    subst hn
    rfl

end Verif.Whole
