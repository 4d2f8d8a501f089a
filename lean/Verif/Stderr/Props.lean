import Verif.Stderr.Spec
import Verif.Measurement.MessagesProps
import Verif.Xml.ErrorStreamProps
import Verif.Regression.CompareProps

/-!
# Property C119: the whole error stream of a run
-/

set_option linter.unusedSimpArgs false

namespace Verif.Stderr
open Verif.Measurement Verif.Measurement.Spec Verif.Regression Verif.Regression.Spec Verif.Xml Verif.Xml.Spec Verif.Path
open _root_.Verif.Stderr.Spec

/-! ## Keeping what is said does not change the run -/

theorem visitS_snd (v : CompareVisitor) (env : NumEnv) (files : Measurement.Files) (b t : Meas) : (visitS v env files b t).2 = v.visit env files b t := by
  have hg : ∀ b t, (compareGeneralS files b t).2 = compareGeneral files b t := fun b t => C102_same_answers files b t
  have hn : ∀ b t, (compareNumericS v env files b t).2 = v.compareNumeric env files b t := by
    intro b t
    rcases b with ⟨bk, bn, bc, be, bz, bs, bd⟩ | f <;> rcases t with ⟨tk, tn, tc, te, tz, ts, td⟩ | g
    · rcases bk with _ | _ | bk <;> rcases tk with _ | _ | tk
      all_goals first | rfl | skip
      simp only [compareNumericS, CompareVisitor.compareNumeric]
      split
      · rfl
      · exact C102_same_answers files _ _
    · rcases bk with _ | _ | bk <;> rfl
    · rfl
    · rfl
  cases t with
  | file g => 
    simp only [visitS, CompareVisitor.visit, Meas.cls]
    rw [dispatch, dispatch]
    simp only [ownS, CompareVisitor.own, Cls.next]
    rw [dispatch, dispatch]
    exact hg _ _
  | data d =>
    obtain ⟨k, n, c, e, z, s, dd⟩ := d
    rcases k with _ | _ | k
    · simp only [visitS, CompareVisitor.visit, Meas.cls]
      iterate 3
        rw [dispatch, dispatch]
        simp only [ownS, CompareVisitor.own, Cls.next]
      rw [dispatch, dispatch]
      exact hg _ _
    · simp only [visitS, CompareVisitor.visit, Meas.cls]
      iterate 3
        rw [dispatch, dispatch]
        simp only [ownS, CompareVisitor.own, Cls.next]
      rw [dispatch, dispatch]
      exact hg _ _
    · cases k <;>
      · simp only [visitS, CompareVisitor.visit, Meas.cls]
        rw [dispatch, dispatch]
        simp only [ownS, CompareVisitor.own, Cls.next]
        rw [dispatch, dispatch]
        exact hn _ _

theorem compareVisitS_snd (env : Env) (voice : ImageVoice) (s : St) (tol : Bool) (b t : Meas) : (compareVisitS env voice s tol b t).2 = compareVisit env s tol b t := by
  rw [compareVisitS, compareVisit]
  cases imagePair env b t with
  | some p => rfl
  | none =>
    simp only
    rw [← visitS_snd]

theorem compareMeasurementS_snd (env : Env) (voice : ImageVoice) (s : St) (t : Meas) (tol : Bool) : (compareMeasurementS env voice s t tol).2 = compareMeasurement env s t tol := by
  rw [compareMeasurementS, compareMeasurement]
  cases s.obj.input with
  | nil => rfl
  | cons b rest =>
    simp only
    by_cases h : b.name = t.name ∧ b.type = t.type
    · rw [if_pos h, if_pos h]
      cases locateBaseline { s with obj := { s.obj with input := rest } } b t with
      | error f => rfl
      | ok b =>
        simp only
        rw [← compareVisitS_snd env voice]
        rcases compareVisitS env voice { s with obj := { s.obj with input := rest } } tol b t with ⟨ms, s', b', t', f | same⟩
        · rfl
        · cases same <;> rfl
    · rw [if_neg h, if_neg h]

theorem runCallS_snd (env : Env) (voice : ImageVoice) (s : St) (c : Call) : (runCallS env voice s c).2 = runCall env s c := by
  rw [runCallS, runCall]
  split
  · exact compareMeasurementS_snd ..
  · cases c.recorded with
    | error f => rfl
    | ok m => simp only; cases m.print <;> rfl

theorem runTalk_snd (env : Env) (voice : ImageVoice) : ∀ (t : Talk) (s : St), (runTalk env voice t s).2 = runProg env t.silent s := by
  intro t
  induction t with
  | say x k ih => intro s; rw [runTalk, Talk.silent, ← ih]
  | ret v => intro s; rfl
  | fails f => intro s; rfl
  | call c k ih =>
    intro s
    rw [runTalk, Talk.silent, runProg, ← runCallS_snd env voice]
    rcases runCallS env voice s c with ⟨ms, s', f | r⟩
    · rfl
    · simp only; exact ih r s'
  | act f k ih => intro s; exact ih _
  | look k ih => intro s; exact ih _ _
  | ask k ih => intro s; exact ih _ _
  | setTolerance t k ih => intro s; exact ih _
  | setExpected t k ih => intro s; exact ih _
  | setImageTolerance t k ih => intro s; exact ih _
  | setSearchPath t k ih => intro s; exact ih _
  | prependSearchPath t k ih => intro s; exact ih _
  | setInFileName t k ih => intro s; exact ih _
  | setOutFileName t k ih => intro s; exact ih _

/-- The `try` block with everything that is said, and with what `Main` itself says (C112). -/
theorem tryBlockS_eq (X : Expat) (line why : X.State → Str) (env : Env) (voice : ImageVoice) (thrown : Fault → Thrown) (test : List Str → Talk) (fuel : Nat) (argv : List Str) (s : St) :
    (tryBlockS X line why env voice thrown test fuel argv s).2 = (tryBlockE X line why env thrown (fun a => (test a).silent) fuel argv s).2 := by
  rw [tryBlockS, tryBlockE]
  simp only
  rcases parseArgumentsE s.world.fs fuel { s.obj with unmatched := s.obj.unmatched + 1 } argv with ⟨ms, o, f | rest⟩
  · rfl
  simp only
  rcases beginMeasurementE X line why { s with obj := o } with ⟨ms', s1, f | ⟨⟩⟩
  · rfl
  simp only
  rw [← runTalk_snd (withXML X env) voice]
  rcases runTalk (withXML X env) voice (test rest) s1 with ⟨ms'', s2, f | r⟩ <;> rfl

/-- **C119.** Keeping what is said does not change the run. -/
theorem C119_same_run (X : Expat) (line why : X.State → Str) (env : Env) (voice : ImageVoice) (thrown : Fault → Thrown) (test : List Str → Talk) (fuel : Nat) (argv : List Str) (s : St) :
    (mainS X line why env voice thrown test fuel argv s).2 = main (withXML X env) (fun a => (test a).silent) fuel argv s := by
  rw [← C112_same_main X line why env thrown]
  have h := tryBlockS_eq X line why env voice thrown test fuel argv s
  rw [mainS, mainE]
  generalize tryBlockS X line why env voice thrown test fuel argv s = x at h
  generalize tryBlockE X line why env thrown (fun a => (test a).silent) fuel argv s = y at h
  obtain ⟨ms, x⟩ := x
  obtain ⟨ms', y⟩ := y
  simp only at h
  subst h
  obtain ⟨s', r, _ | ⟨f, e⟩⟩ := x
  · rfl
  · cases f <;> rfl

/-! ## What a measurement call says -/

theorem getSizeM_plain (t : DataM) (h : t.data = none ∧ t.encoding = b!"none" ∧ t.compression = b!"none") : t.getSizeM = ([], t, .ok t.content.length) ∧ t.getDataM = ([], t, .ok (t.content.map some)) := by
  obtain ⟨k, n, c, e, z, s, d⟩ := t
  simp only at h
  obtain ⟨rfl, rfl, rfl⟩ := h
  exact ⟨rfl, rfl⟩

theorem getSizeM_kept (t : DataM) (x : List Cell) (h : t.data = some x) : t.getSizeM = ([], t, .ok x.length) ∧ t.getDataM = ([], t, .ok x) := by
  rw [DataM.getSizeM, DataM.getDataM, h]
  exact ⟨rfl, rfl⟩

/-- Reading an entry that keeps no data and is not base64 (or not base64 that can be decoded) leaves it as it is. -/
theorem getSizeM_unread (b : DataM) (hd : b.data = none) (h : b.encoding ≠ b!"base64" ∨ Base64.isBase64 false b.content = .ok 0) :
    b.getSizeM = (readLines b, b, .ok b.content.length) ∧ b.getDataM = (readLines b, b, .ok (b.content.map some)) := by
  have hu : b.updateM = (readLines b, b, .ok ()) := by
    have h1 := updateM_fst b
    have : b.updateM.2 = (b, .ok ()) := by
      obtain ⟨k, n, c, e, z, s, d⟩ := b
      simp only at hd h
      subst hd
      rw [DataM.updateM]
      by_cases h1 : e = b!"none"
      · simp only [h1, if_true]
      simp only [h1, if_false]
      by_cases h2 : e = b!"base64"
      · rcases h with h | h
        · exact absurd h2 h
        · simp only [h2, if_true, h]
          simp
      · simp only [h2, if_false]
    rw [← h1, ← this]
  rw [DataM.getSizeM, DataM.getDataM]
  simp only [hd, hu, and_self]

/-- A base64 entry that keeps no data: after the first reading it keeps some, or the reading has failed. -/
theorem getSizeM_base64 (b : DataM) (hd : b.data = none) (he : b.encoding = b!"base64") (h : Base64.isBase64 false b.content ≠ .ok 0) :
    (∃ b' f, b.getSizeM = (readLines b, b', .error f)) ∨ ∃ b' x, b.getSizeM = (readLines b, b', .ok x.length) ∧ b'.data = some x := by
  have h1 := updateM_fst b
  rw [DataM.getSizeM]
  simp only [hd]
  rw [DataM.updateM] at h1 ⊢
  have hne : ¬ b!"base64" = b!"none" := by decide
  simp only [he, if_neg hne, if_true] at h1 ⊢
  cases hb : Base64.isBase64 false b.content with
  | error f => rw [hb] at h1; simp only at h1 ⊢; exact Or.inl ⟨_, f, by rw [h1]⟩
  | ok n =>
    rw [hb] at h1 h
    simp only at h1 ⊢
    have hn : n ≠ 0 := fun e => h (by rw [e])
    simp only [if_pos hn] at h1 ⊢
    cases ho : overlay (Base64.decode false b.content).written (List.replicate n none) with
    | error f => rw [ho] at h1; simp only at h1 ⊢; exact Or.inl ⟨_, f, by rw [h1]⟩
    | ok x =>
      rw [ho] at h1
      simp only at h1 ⊢
      cases hx : (Base64.decode false b.content).outcome with
      | error f => simp only [Except.map]; exact Or.inl ⟨_, f, by rw [h1]⟩
      | ok u => simp only [Except.map]; exact Or.inr ⟨_, x, by rw [h1], rfl⟩

/-- What comparing an entry with data that is read in silence says. -/
theorem isEqualM_lines (b t : DataM) (n : Nat) (x : List Cell) (ht : t.getSizeM = ([], t, .ok n) ∧ t.getDataM = ([], t, .ok x)) (hname : b.name = t.name) (htype : b.kind.typeName = t.kind.typeName) :
    (b.isEqualM t).1 = entryLines b n := by
  rw [DataM.isEqualM, if_pos ⟨hname, htype⟩, entryLines]
  by_cases hd : b.data ≠ none
  · rw [if_pos hd]
    obtain ⟨y, hy⟩ := Option.ne_none_iff_exists'.mp hd
    obtain ⟨k1, k2⟩ := getSizeM_kept b y hy
    simp only [k1, ht.1, k2, ht.2]
    split <;> rfl
  rw [if_neg hd]
  simp only [ne_eq, not_not] at hd
  by_cases h64 : b.encoding = b!"base64" ∧ Base64.isBase64 false b.content ≠ .ok 0
  · rw [if_pos (Or.inl h64)]
    rcases getSizeM_base64 b hd h64.1 h64.2 with ⟨b', f, e⟩ | ⟨b', y, e, hy⟩
    · rw [e]
    · obtain ⟨k1, k2⟩ := getSizeM_kept b' y hy
      simp only [e, ht.1]
      split
      · simp only [k1, ht.2, k2, List.append_nil]
      · simp only [List.append_nil]
  · obtain ⟨k1, k2⟩ := getSizeM_unread b hd (by by_cases he : b.encoding = b!"base64"; exact Or.inr (not_not.mp fun h => h64 ⟨he, h⟩); exact Or.inl he)
    simp only [k1, ht.1]
    by_cases hlen : b.content.length = n
    · rw [if_pos hlen, if_neg (by rintro (h | h); exact h64 h; exact h hlen)]
      simp only [k1, ht.2, k2, List.append_nil]
    · rw [if_neg hlen, if_pos (Or.inr hlen)]
      simp only [List.append_nil]

theorem loadM_none (w : World) (f : FileM) (h : w.openRead f.fileName = none) : f.loadM w.openRead = ([notOpened f.fileName], { kind := .plain }) := by
  rw [FileM.loadM, show w.openRead (f.fileName.takeWhile (· ≠ 0)) = none by rw [show f.fileName.takeWhile (· ≠ 0) = cstrOf f.fileName from rfl, openRead_cstr]; exact h]
  rfl

theorem loadM_some (w : World) (f : FileM) (x : Str) (h : w.openRead f.fileName = some x) :
    f.loadM w.openRead = (if createDataMeasurement f.type = none then [noClass f.type] else [],
      { kind := ((createDataMeasurement f.type).getD { kind := .plain }).kind, name := f.name, data := some (x.map some) }) := by
  rw [FileM.loadM, show w.openRead (f.fileName.takeWhile (· ≠ 0)) = some x by rw [show f.fileName.takeWhile (· ≠ 0) = cstrOf f.fileName from rfl, openRead_cstr]; exact h]
  simp only
  cases hc : createDataMeasurement f.type with
  | none => rfl
  | some m =>
    obtain ⟨_, e⟩ := (C58_factory f.type).1 m hc
    generalize m.kind = k at e
    subst e
    rfl

/-- The measurement of a call is read in silence. -/
theorem call_plain (c : Call) (d : DataM) (h : c.meas = .data d) : d.data = none ∧ d.encoding = b!"none" ∧ d.compression = b!"none" := by
  cases c <;> simp only [Call.meas, Meas.data.injEq, reduceCtorEq] at h <;> subst h <;> exact ⟨rfl, rfl, rfl⟩

/-- The type of the file of a call: text, or an image. -/
theorem call_file (c : Call) (g : FileM) (h : c.meas = .file g) : g.type = b!"text/plain" ∨ createDataMeasurement g.type = none := by
  cases c <;> simp only [Call.meas, Meas.file.injEq, reduceCtorEq] at h <;> subst h
  · exact Or.inl rfl
  · exact Or.inr (show createDataMeasurement b!"image/png" = none by decide)
  · exact Or.inr (show createDataMeasurement b!"image/jpeg" = none by decide)
  · exact Or.inr (show createDataMeasurement b!"image/itk" = none by decide)

theorem isEqualM_pair (w : World) (c : Call) (b : Meas) (hname : b.name = c.meas.name) (htype : b.type = c.meas.type) (hnum : (∃ f, b = .file f) → ∀ t, c.meas = .data t → number t.kind = false) :
    (b.isEqualM w.openRead c.meas).1 = pairLines w b c.meas := by
  cases ht : c.meas with
  | data t =>
    rw [ht] at hname htype
    have hp := call_plain c t ht
    cases b with
    | data b => 
      rw [Meas.isEqualM, pairLines]
      exact isEqualM_lines b t _ _ (getSizeM_plain t hp) hname htype
    | file f =>
      have hk := hnum ⟨f, rfl⟩ t ht
      rw [Meas.isEqualM, pairLines, FileM.isEqualDataM]
      simp only [hk]
      have e1 : f.name = t.name := hname
      have e2 : f.type = t.kind.typeName := htype
      rw [if_neg (by rw [e1, e2]; simp)]
      simp only
      cases ho : w.openRead f.fileName with
      | none =>
        rw [loadM_none w f ho]
        simp only
        have : (t.isEqualM { kind := .plain }).1 = [] := by
          by_cases hh : t.name = [] ∧ t.kind.typeName = b!"text/plain"
          · rw [isEqualM_lines t { kind := .plain } 0 [] ⟨rfl, rfl⟩ hh.1 hh.2, entryLines]
            simp [hp, readLines]
          · rw [DataM.isEqualM, if_neg (show ¬ (t.name = ({ kind := .plain } : DataM).name ∧ t.kind.typeName = ({ kind := .plain } : DataM).kind.typeName) from hh)]
        rw [this]
        simp
      | some x =>
        rw [loadM_some w f x ho]
        simp only
        have hc : createDataMeasurement f.type = some { kind := t.kind } := by rw [e2, create_kind]
        rw [hc]
        simp only [reduceCtorEq, if_false, Option.getD_some, List.nil_append]
        rw [isEqualM_lines t { kind := t.kind, name := f.name, data := some (x.map some) } x.length (x.map some) ⟨by rw [DataM.getSizeM]; simp, rfl⟩ e1.symm rfl, entryLines]
        simp [hp, readLines]
  | file g =>
    rw [ht] at hname htype
    have hg := call_file c g ht
    cases b with
    | data b =>
      rw [Meas.isEqualM, pairLines, FileM.isEqualDataM]
      have e1 : b.name = g.name := hname
      have e2 : b.kind.typeName = g.type := htype
      simp only
      rw [if_neg (by rw [e1, e2]; simp)]
      simp only
      have hplain : g.type = b!"text/plain" := by
        rcases hg with h | h
        · exact h
        · rw [← e2, create_kind] at h
          cases h
      cases ho : w.openRead g.fileName with
      | none =>
        rw [loadM_none w g ho]
        simp only [List.singleton_append]
        congr 1
        by_cases hh : b.name = []
        · rw [if_pos hh]
          exact isEqualM_lines b { kind := .plain } 0 [] ⟨rfl, rfl⟩ hh (e2.trans hplain)
        · rw [if_neg hh, DataM.isEqualM, if_neg]
          exact fun h => hh h.1
      | some x =>
        rw [loadM_some w g x ho]
        have hc : createDataMeasurement g.type = some { kind := b.kind } := by rw [← e2, create_kind]
        rw [hc]
        simp only [reduceCtorEq, if_false, Option.getD_some, List.nil_append]
        exact isEqualM_lines b _ x.length (x.map some) ⟨by rw [DataM.getSizeM]; simp, rfl⟩ e1 rfl
    | file f =>
      rw [Meas.isEqualM, pairLines]
      have e1 : f.name = g.name := hname
      have e2 : f.type = g.type := htype
      rw [if_neg (by rw [e1, e2]; simp)]
      simp only
      rw [← e2] at hg
      cases ho : w.openRead f.fileName with
      | none =>
        rw [loadM_none w f ho]
        simp only [if_true, List.singleton_append]
        congr 1
        rw [FileM.isEqualDataM]
        by_cases hh : g.name = [] ∧ g.type = b!"text/plain"
        · rw [if_neg (by rintro (h | h); exact h hh.1; exact h hh.2)]
          simp only
          cases hq : w.openRead g.fileName with
          | none =>
            rw [loadM_none w g hq, if_pos ⟨e1.trans hh.1, e2.trans hh.2, rfl⟩]
            rfl
          | some x =>
            rw [if_neg (show ¬ (f.name = [] ∧ f.type = b!"text/plain" ∧ (some x : Option Str) = none) by
              rintro ⟨-, -, h⟩; cases h), loadM_some w g x hq, hh.2]
            simp only [show createDataMeasurement b!"text/plain" = some { kind := .plain } by decide, reduceCtorEq, if_false, Option.getD_some, List.nil_append]
            rw [isEqualM_lines { kind := .plain } { kind := .plain, name := g.name, data := some (x.map some) } x.length (x.map some) ⟨by rw [DataM.getSizeM]; simp, rfl⟩ hh.1.symm rfl, entryLines]
            simp [readLines]
        · rw [if_pos (by by_contra h; rw [not_or, not_not, not_not] at h; exact hh h), if_neg]
          rintro ⟨h1, h2, -⟩
          exact hh ⟨e1.symm.trans h1, e2.symm.trans h2⟩
      | some x =>
        rw [loadM_some w f x ho]
        simp only [reduceCtorEq, if_false]
        rcases hg with h | h
        · rw [if_pos h, h]
          simp only [show createDataMeasurement b!"text/plain" = some { kind := .plain } by decide, reduceCtorEq, if_false, Option.getD_some, List.nil_append]
          rw [FileM.isEqualDataM, if_neg (by rw [← e1, ← e2, h]; simp [Measurement.Kind.typeName])]
          simp only
          cases hq : w.openRead g.fileName with
          | none =>
            rw [loadM_none w g hq]
            simp only [if_true]
            have : (DataM.isEqualM { kind := .plain, name := f.name, data := some (x.map some) } { kind := .plain }).1 = [] := by
              by_cases hh : f.name = []
              · rw [isEqualM_lines { kind := .plain, name := f.name, data := some (x.map some) } { kind := .plain } 0 [] ⟨rfl, rfl⟩ hh rfl, entryLines]
                simp
              · rw [DataM.isEqualM, if_neg]
                exact fun h => hh h.1
            rw [this]
            rfl
          | some y =>
            rw [loadM_some w g y hq, ← e2, h]
            simp only [show createDataMeasurement b!"text/plain" = some { kind := .plain } by decide, reduceCtorEq, if_false, Option.getD_some, List.nil_append]
            rw [isEqualM_lines { kind := .plain, name := f.name, data := some (x.map some) } { kind := .plain, name := g.name, data := some (y.map some) } y.length (y.map some) ⟨by rw [DataM.getSizeM]; simp, rfl⟩ e1 rfl, entryLines]
            simp
        · rw [if_pos h, h, if_neg (by intro e; rw [e] at h; revert h; decide)]
          simp only [Option.getD_none]
          rw [FileM.isEqualDataM, if_pos, List.append_nil]
          right
          rw [← e2]
          intro e
          rw [e, create_kind] at h
          cases h

theorem visitS_general (v : CompareVisitor) (env : NumEnv) (files : Measurement.Files) (b t : Meas) (h : ∀ d, t = .data d → number d.kind = false) :
    visitS v env files b t = b.isEqualM files t := by
  cases t with
  | file g =>
    simp only [visitS, Meas.cls]
    rw [dispatch]
    simp only [ownS, Cls.next]
    rw [dispatch]
    rfl
  | data d =>
    obtain ⟨k, n, c, e, z, s, dd⟩ := d
    rcases k with _ | _ | k
    · simp only [visitS, Meas.cls]
      iterate 3
        rw [dispatch]
        simp only [ownS, Cls.next]
      rw [dispatch]
      rfl
    · simp only [visitS, Meas.cls]
      iterate 3
        rw [dispatch]
        simp only [ownS, Cls.next]
      rw [dispatch]
      rfl
    · exact absurd (h _ rfl) (by simp [number])

/-- The visitor does not look at the data of numbers that are compared with a tolerance, and not at a file that is recorded for a number. -/
theorem visitS_number (v : CompareVisitor) (env : NumEnv) (files : Measurement.Files) (b : Meas) (t : DataM) (h : number t.kind = true) (htype : b.type = t.kind.typeName) :
    (v.getTolerance ≠ 0 → (visitS v env files b (.data t)).1 = []) ∧ (∀ f, b = .file f → (visitS v env files b (.data t)).1 = []) ∧
    (v.getTolerance = 0 → ∀ d, b = .data d → visitS v env files b (.data t) = b.isEqualM files (.data t)) := by
  obtain ⟨k, n, c, e, z, s, dd⟩ := t
  rcases k with _ | _ | k
  · cases h
  · cases h
  have : (visitS v env files b (.data ⟨.num k, n, c, e, z, s, dd⟩)) = compareNumericS v env files b (.data ⟨.num k, n, c, e, z, s, dd⟩) := by
    cases k <;>
    · simp only [visitS, Meas.cls]
      rw [dispatch]
      simp only [ownS, Cls.next]
      rw [dispatch]
      rfl
  rw [this]
  cases b with
  | file f => exact ⟨fun _ => rfl, fun _ _ => rfl, fun _ d h => by cases h⟩
  | data b =>
    obtain ⟨bk, bn, bc, be, bz, bs, bd⟩ := b
    rcases bk with _ | _ | bk
    · cases k <;> simp [Meas.type, Measurement.Kind.typeName] at htype
    · cases k <;> simp [Meas.type, Measurement.Kind.typeName] at htype
    · simp only [compareNumericS]
      refine ⟨fun h0 => ?_, (fun f hf => by cases hf), fun h0 _ _ => ?_⟩
      · rw [if_pos h0]
      · rw [if_neg (by simp [h0])]

theorem visit_keeps (v : CompareVisitor) (env : NumEnv) (files : Measurement.Files) (b t : Meas) :
    (∀ f, (v.visit env files b t).1 = .file f → b = .file f) ∧ (∀ g, (v.visit env files b t).2.1 = .file g → t = .file g) := by
  have he : ∀ b t : Meas, (∀ f, (b.isEqual files t).1 = .file f → b = .file f) ∧ (∀ g, (b.isEqual files t).2.1 = .file g → t = .file g) := by
    intro b t
    cases b <;> cases t <;> simp only [Meas.isEqual] <;> refine ⟨fun f h => ?_, fun g h => ?_⟩
    all_goals first | (split at h <;> exact h) | exact h | cases h
  have hn : ∀ b t : Meas, (∀ f, (v.compareNumeric env files b t).1 = .file f → b = .file f) ∧ (∀ g, (v.compareNumeric env files b t).2.1 = .file g → t = .file g) := by
    intro b t
    rw [CompareVisitor.compareNumeric.eq_def]
    split
    · simp only
      split
      · exact ⟨fun f h => h, fun g h => h⟩
      · exact he _ _
    · exact ⟨fun f h => h, fun g h => h⟩
  rw [CompareVisitor.visit]
  cases hd : dispatch (v.own env files) t.cls with
  | none => exact ⟨fun f h => h, fun g h => h⟩
  | some h =>
    have : h = compareGeneral files ∨ h = v.compareNumeric env files := by
      generalize t.cls = c at hd
      have key : ∀ n, ∀ c : Cls, c.depth ≤ n → dispatch (v.own env files) c = some h → h = compareGeneral files ∨ h = v.compareNumeric env files := by
        intro n
        induction n with
        | zero => intro c hc h0; cases c <;> simp [Cls.depth] at hc; rw [dispatch] at h0; simp only [CompareVisitor.own, Option.some.injEq] at h0; exact Or.inl h0.symm
        | succ n ih =>
          intro c hc h0
          rw [dispatch] at h0
          split at h0
          · next x hx =>
            cases h0
            cases c <;> simp only [CompareVisitor.own, Option.some.injEq, reduceCtorEq] at hx
            · exact Or.inl hx.symm
            · exact Or.inr hx.symm
          · split at h0
            · cases h0
            · next c' hc' => exact ih c' (by have := Cls.next_depth hc'; omega) h0
      exact key _ c le_rfl hd
    rcases this with rfl | rfl
    · exact he _ _
    · exact hn _ _

/-- **C119.** While recording, no measurement call says anything. -/
theorem C119_recording (env : Env) (voice : ImageVoice) (s : St) (c : Call) (h : s.compareMode = false) : (runCallS env voice s c).1 = [] := by
  rw [runCallS, if_neg (by rw [h]; simp)]
  cases c.recorded with
  | error f => rfl
  | ok m => simp only; cases m.print <;> rfl

/-- **C119.** While comparing, a measurement for which there is no entry, or one of another name or type, is reported in the output only: nothing is said. -/
theorem C119_unmatched (env : Env) (voice : ImageVoice) (s : St) (c : Call) (h : ∀ b rest, s.obj.input = b :: rest → ¬ (b.name = c.meas.name ∧ b.type = c.meas.type)) :
    (runCallS env voice s c).1 = [] := by
  by_cases hc : s.compareMode = true
  · rw [runCallS, if_pos hc, compareMeasurementS]
    cases hi : s.obj.input with
    | nil => rfl
    | cons b rest =>
      simp only
      rw [if_neg (h b rest hi)]
  · exact C119_recording env voice s c (by simpa using hc)

theorem imagePair_none (env : Env) (b t : Meas) (h : ¬ Images env b t) : imagePair env b t = none := by
  rw [imagePair.eq_def]
  split
  · split
    · next hi ht => exact absurd ⟨by rw [hi]; simp, ht, ⟨_, rfl⟩, _, rfl⟩ h
    · rfl
  · rfl

theorem entry_located (s : St) (b t : Meas) : locateBaseline s b t = .ok (entryFor s b t) := by
  obtain ⟨b', h, -, -, -, he⟩ := locate_eq s b t
  rw [h]
  cases b <;> cases t <;> simp only [entryFor] <;> simp only at he <;> rw [he]

theorem entryFor_name (s : St) (b t : Meas) : (entryFor s b t).name = b.name ∧ (entryFor s b t).type = b.type := by
  cases b <;> cases t <;> exact ⟨rfl, rfl⟩

/-- **C119.** While comparing with an entry of the same name and type (images of an `itk::Regression` apart): a number that is compared with a tolerance is compared in silence; otherwise what is said depends on
how the data of entry and measurement is read only, not on whether it is the same. -/
theorem C119_call (env : Env) (voice : ImageVoice) (s : St) (c : Call) (b : Meas) (rest : List Meas) (hmode : s.compareMode = true) (hin : s.obj.input = b :: rest)
    (hname : b.name = c.meas.name) (htype : b.type = c.meas.type) (himg : ¬ Images env b c.meas) :
    (runCallS env voice s c).1 = if c.tolerant = true ∧ s.obj.tolerance ≠ 0 then [] else pairLines s.world (entryFor s b c.meas) c.meas := by
  rw [runCallS, if_pos hmode, compareMeasurementS]
  simp only [hin]
  rw [if_pos ⟨hname, htype⟩, entry_located]
  simp only
  have he : entryFor { s with obj := { s.obj with input := rest } } b c.meas = entryFor s b c.meas := by
    cases b <;> cases c.meas <;> rfl
  rw [he]
  obtain ⟨n1, n2⟩ := entryFor_name s b c.meas
  have himg' : imagePair env (entryFor s b c.meas) c.meas = none := by
    apply imagePair_none
    rintro ⟨i1, i2, ⟨f, i3⟩, i4⟩
    refine himg ⟨i1, i2, ?_, i4⟩
    cases b with
    | file f => exact ⟨f, rfl⟩
    | data d =>
      obtain ⟨g, hg⟩ := i4
      rw [hg] at i3
      cases i3
  rw [compareVisitS, himg']
  simp only
  have hv : (visitS (visitorFor { s with obj := { s.obj with input := rest } } c.tolerant) env.num s.world.openRead (entryFor s b c.meas) c.meas).1 =
      if c.tolerant = true ∧ s.obj.tolerance ≠ 0 then [] else pairLines s.world (entryFor s b c.meas) c.meas := by
    generalize hE : entryFor s b c.meas = E at n1 n2 ⊢
    have hp : ((∃ f, E = .file f) → ∀ t, c.meas = .data t → number t.kind = false) → (E.isEqualM s.world.openRead c.meas).1 = pairLines s.world E c.meas :=
      isEqualM_pair s.world c E (n1.trans hname) (n2.trans htype)
    by_cases hk : ∀ d, c.meas = .data d → number d.kind = false
    · have ht : c.tolerant = false := call_kind c (by intro d k h e; have := hk d h; rw [e] at this; cases this)
      rw [visitS_general _ _ _ _ _ hk, if_neg (by rw [ht]; simp)]
      exact hp (fun _ => hk)
    · obtain ⟨d, hm, hnum⟩ : ∃ d, c.meas = .data d ∧ number d.kind = true := by
        by_contra hcon
        exact hk fun d hd => by
          cases hn : number d.kind with
          | false => rfl
          | true => exact absurd ⟨d, hd, hn⟩ hcon
      obtain ⟨v1, v2, v3⟩ := visitS_number (visitorFor { s with obj := { s.obj with input := rest } } c.tolerant) env.num s.world.openRead E d hnum (by rw [n2, htype, hm]; rfl)
      rw [visitorFor_tolerance] at v1 v3
      rw [← hm] at v1 v2 v3
      by_cases hh : c.tolerant = true ∧ s.obj.tolerance ≠ 0
      · rw [if_pos hh]
        exact v1 (by rw [if_pos hh.1]; exact hh.2)
      · rw [if_neg hh]
        cases hEE : E with
        | file f =>
          rw [hEE] at v2
          rw [v2 f rfl, hm]
          simp only [pairLines]
          rw [if_pos (Or.inl hnum)]
        | data b' =>
          rw [← hEE, v3 (by by_cases h : c.tolerant = true; rw [if_pos h]; exact not_not.mp fun h0 => hh ⟨h, h0⟩; rw [if_neg h]) b' hEE]
          exact hp (fun h => by obtain ⟨f, h⟩ := h; rw [hEE] at h; cases h)
  rw [← hv]
  have hk := visit_keeps (visitorFor { s with obj := { s.obj with input := rest } } c.tolerant) env.num s.world.openRead (entryFor s b c.meas) c.meas
  rw [← visitS_snd] at hk
  revert hk
  rcases visitS (visitorFor { s with obj := { s.obj with input := rest } } c.tolerant) env.num s.world.openRead (entryFor s b c.meas) c.meas with ⟨ms, b', t', f | same⟩
  · intro _; rfl
  intro hk
  simp only at hk ⊢
  cases same with
  | true => rfl
  | false =>
    simp only [Bool.false_eq_true, if_false]
    have : imagePair env b' t' = none := by
      apply imagePair_none
      rintro ⟨i1, i2, ⟨f, i3⟩, g, i4⟩
      have e1 := hk.1 f i3
      have e2 := hk.2 g i4
      rw [i4, ← e2] at i2
      rw [imagePair.eq_def, e1, e2] at himg'
      rw [e2] at i2
      cases hi : env.image with
      | none => exact i1 hi
      | some im =>
        rw [hi] at himg'
        simp only at himg'
        rw [if_pos (show g.type = _ from i2)] at himg'
        cases himg'
    rw [differenceSays, this]
    simp only [List.append_nil]

end Verif.Stderr
