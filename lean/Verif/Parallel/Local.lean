import Verif.Parallel.Arguments
import Verif.Regression.CompareProps
import Verif.Itk.DataDirProps

/-!
# A step depends only on the files of the footprint
-/

set_option linter.unusedSimpArgs false

namespace Verif.Parallel
open Spec Verif.Regression Verif.Regression.Spec Verif.Measurement
open Verif.Path (FileSys isFile isReadable isWritable isDirectory searchPathList searchLoop append tail)
open Verif.Itk (append_inDir)

/-- Writing to a file, or to standard output. -/
def put (w : World) (os : Option Str) (t : Str) : World :=
  match os with
  | none => { w with cout := w.cout ++ t }
  | some n => { w with bytes := fun m => if m = cstr n then w.bytes m ++ t else w.bytes m }

theorem emit_put (s : St) (t : Str) : s.emit t = ⟨s.obj, put s.world s.obj.os t⟩ := by
  rw [St.emit]
  cases h : s.obj.os <;> rfl

/-- The files in a world. -/
def files (w : World) : Files := ⟨w.fs, w.bytes, w.creatable⟩

/-- A relation between worlds that the steps of a run preserve: the files of the footprint `F` are the same; `N` are the names the run can have for its output. -/
structure Carries (F : Footprint) (N : Str → Prop) (R : World → World → Prop) : Prop where
  same : ∀ {w w'}, R w w' → Same F (files w) (files w')
  put : ∀ {w w'}, R w w' → ∀ os t, R (put w os t) (put w' os t)
  args : ∀ {w w'}, R w w' → ∀ n, N n → SameAt w.fs w'.fs (cstr n)
  opens : ∀ {w w'}, R w w' → ∀ n, N n → (w.openWrite n = none ∧ w'.openWrite n = none) ∨ ∃ v v', w.openWrite n = some v ∧ w'.openWrite n = some v' ∧ R v v'
  start : ∀ {w w'}, R w w' → ∀ os, (∀ n, os = some n → N n) → R (Parallel.put w os (header w)) (Parallel.put w' os (header w'))

/-- What the object may refer to. -/
structure Ok (F : Footprint) (N : Str → Prop) (o : Obj) : Prop where
  path : ∀ d ∈ o.searchPath, F.dirs d
  input : o.inFileName = [] ∨ F.names o.inFileName
  output : o.outFileName = [] ∨ N o.outFileName
  os : ∀ n, o.os = some n → N n
  base : Names F o.input

variable {N : Str → Prop} {R : World → World → Prop}

theorem has_name {F : Footprint} {n : Str} (h : F.names n) : F.Has (cstr n) := ⟨n, h, Or.inl rfl⟩

theorem has_append {F : Footprint} {d n : Str} (hd : F.dirs d) (h : F.names n) : F.Has (cstr (append d n)) :=
  ⟨n, h, Or.inr ⟨d, _, hd, append_inDir d n, rfl⟩⟩

theorem same_at {F : Footprint} {w w' : World} (h : Same F (files w) (files w')) {n : Str} (hn : F.Has n) : SameAt w.fs w'.fs n :=
  ⟨(h n hn).1, (h n hn).2.1, (h n hn).2.2.1, (h n hn).2.2.2.1⟩

theorem search_same {F : Footprint} {w w' : World} (h : Same F (files w) (files w')) {n : Str} (hn : F.names n) : ∀ (ds : List Str) (full : Str), (∀ d ∈ ds, F.dirs d) →
    searchLoop w.fs n ds full = searchLoop w'.fs n ds full := by
  intro ds
  induction ds with
  | nil => intro full _; rfl
  | cons d ds ih =>
    intro full hd
    have hq := (sameAt_queries (same_at h (has_append (hd d (by simp)) hn))).1
    simp only [searchLoop, hq]
    rw [ih _ (fun x hx => hd x (by simp [hx]))]

theorem search_has {F : Footprint} (fs : FileSys) {n : Str} (hn : F.names n) : ∀ (ds : List Str) (full : Str), (∀ d ∈ ds, F.dirs d) → (full = [] ∨ F.Has (cstr full)) →
    searchLoop fs n ds full = [] ∨ F.Has (cstr (searchLoop fs n ds full)) := by
  intro ds
  induction ds with
  | nil => intro full _ h; exact h
  | cons d ds ih =>
    intro full hd _
    simp only [searchLoop]
    split
    · exact Or.inr (has_append (hd d (by simp)) hn)
    · exact ih _ (fun x hx => hd x (by simp [hx])) (Or.inr (has_append (hd d (by simp)) hn))

theorem open_same {F : Footprint} {w w' : World} (h : Same F (files w) (files w')) {n : Str} (hn : F.Has (cstr n)) : w.openRead n = w'.openRead n := by
  obtain ⟨h1, h2, -, -, h5, -⟩ := h _ hn
  simp only [files] at h1 h2 h5
  rw [World.openRead, World.openRead, h1, h2, h5]

/-- The same object in related worlds. -/
def Like (R : World → World → Prop) (s s' : St) : Prop := s.obj = s'.obj ∧ R s.world s'.world

theorem mode_like {F : Footprint} (C : Carries F N R) {s s' : St} (h : Like R s s') (ok : Ok F N s.obj) : s.compareMode = s'.compareMode := by
  obtain ⟨o, w⟩ := s
  obtain ⟨o', w'⟩ := s'
  obtain ⟨rfl, hw⟩ := h
  have hw := C.same hw
  simp only at hw ok
  simp only [St.compareMode]
  cases o.is with
  | some _ => rfl
  | none =>
    simp only
    by_cases hn : o.inFileName = []
    · rw [if_pos hn, if_pos hn]
    · have hin := ok.input.resolve_left hn
      rw [if_neg hn, if_neg hn]
      have hs : o.searched w.fs = o.searched w'.fs := search_same hw hin _ _ ok.path
      have hp := search_has w'.fs hin o.searchPath [] ok.path (Or.inl rfl)
      simp only [hs]
      by_cases he : o.searched w'.fs = []
      · obtain ⟨q1, q2, -, -⟩ := sameAt_queries (same_at hw (has_name hin))
        simp [he, q1, q2]
      · obtain ⟨q1, q2, -, -⟩ := sameAt_queries (same_at hw (hp.resolve_left he))
        have q1' : isFile w.fs (o.searched w'.fs) = isFile w'.fs (o.searched w'.fs) := q1
        have q2' : isReadable w.fs (o.searched w'.fs) = isReadable w'.fs (o.searched w'.fs) := q2
        simp [he, q1', q2']

theorem emit_like {F : Footprint} (C : Carries F N R) {s s' : St} (h : Like R s s') (t : Str) : Like R (s.emit t) (s'.emit t) := by
  rw [emit_put, emit_put, ← h.1]
  exact ⟨rfl, C.put h.2 _ t⟩

theorem toCout_like {F : Footprint} (C : Carries F N R) {s s' : St} (h : Like R s s') (t : Str) : Like R (s.toCout t) (s'.toCout t) :=
  ⟨h.1, C.put h.2 none t⟩

/-- Two steps with the same outcome. -/
def LikeRes {α : Type} (R : World → World → Prop) (r r' : Res α) : Prop := r.2 = r'.2 ∧ Like R r.1 r'.1

theorem unmatched_like {F : Footprint} (C : Carries F N R) {s s' : St} (h : Like R s s') (m : Meas) : LikeRes R (unmatchedMeasurement s m) (unmatchedMeasurement s' m) := by
  obtain ⟨t, ht⟩ := print_ok (m.setName (b!"Unmatched " ++ m.name))
  have h' : Like R { s with obj := { s.obj with unmatched := s.obj.unmatched + 1 } } { s' with obj := { s'.obj with unmatched := s'.obj.unmatched + 1 } } := ⟨by simp [h.1], h.2⟩
  simp only [unmatchedMeasurement, ht]
  exact ⟨rfl, emit_like C h' _⟩

/-- A measurement whose file, if it is one, is in the footprint. -/
def FileIn (F : Footprint) (m : Meas) : Prop := ∀ f, m = .file f → F.Has (cstr f.fileName)

theorem cstr_cstr : ∀ x : Str, cstr (cstr x) = cstr x := by
  intro x
  induction x with
  | nil => rfl
  | cons a x ih =>
    by_cases h : a = 0
    · simp [cstr, h]
    · simp only [cstr, List.takeWhile_cons, ne_eq, h, not_false_eq_true, decide_true, if_true] at ih ⊢
      rw [ih]

theorem load_same {F : Footprint} {w w' : World} (h : Same F (files w) (files w')) {f : FileM} (hf : F.Has (cstr f.fileName)) : f.load w.openRead = f.load w'.openRead := by
  have hc : cstr (f.fileName.takeWhile (· ≠ 0)) = cstr f.fileName := cstr_cstr f.fileName
  rw [FileM.load, FileM.load, open_same h (n := f.fileName.takeWhile (· ≠ 0)) (by rw [hc]; exact hf)]

theorem equal_same {F : Footprint} {w w' : World} (h : Same F (files w) (files w')) {b t : Meas} (hb : FileIn F b) (ht : FileIn F t) :
    b.isEqual w.openRead t = b.isEqual w'.openRead t := by
  cases b with
  | data a =>
    cases t with
    | data c => rfl
    | file g => simp only [Meas.isEqual, FileM.isEqualData, load_same h (ht g rfl)]
  | file f =>
    cases t with
    | data c => simp only [Meas.isEqual, FileM.isEqualData, load_same h (hb f rfl)]
    | file g => simp only [Meas.isEqual, FileM.isEqualData, load_same h (hb f rfl), load_same h (ht g rfl)]

theorem visit_like {F : Footprint} {w w' : World} (h : Same F (files w) (files w')) (v : CompareVisitor) (env : NumEnv) {b t : Meas} (hb : FileIn F b) (ht : FileIn F t) :
    v.visit env w.openRead b t = v.visit env w'.openRead b t := by
  have heq := equal_same h hb ht
  cases t with
  | file g => rw [visit_file, visit_file, heq]
  | data d =>
    rw [visit_data, visit_data]
    have hn : v.compareNumeric env w.openRead b (.data d) = v.compareNumeric env w'.openRead b (.data d) := by
      rcases b with ⟨_ | _ | k, n, c, e, z, y, x⟩ | f
      · rfl
      · rfl
      · rcases d with ⟨_ | _ | k, n, c, e, z, y, x⟩ <;> simp only [CompareVisitor.compareNumeric]
        rw [heq]
      · rfl
    cases hk : d.kind with
    | num k => exact hn
    | plain => exact heq
    | string => exact heq

theorem visitor_like {s s' : St} (h : s.obj = s'.obj) (t : Bool) : visitorFor s t = visitorFor s' t := by simp only [visitorFor, h]

theorem compareVisit_like {F : Footprint} (C : Carries F N R) {env : Env} (him : ByFiles F env) {s s' : St} (h : Like R s s') (tol : Bool) {b t : Meas} (hb : FileIn F b) (ht : FileIn F t) :
    (compareVisit env s tol b t).2 = (compareVisit env s' tol b t).2 ∧ Like R (compareVisit env s tol b t).1 (compareVisit env s' tol b t).1 := by
  simp only [compareVisit]
  cases hp : imagePair env b t with
  | none =>
    simp only
    rw [visitor_like h.1, visit_like (C.same h.2) _ _ hb ht]
    exact ⟨rfl, h⟩
  | some x =>
    obtain ⟨im, f, g⟩ := x
    simp only
    have hx : env.image = some im ∧ b = .file f ∧ t = .file g := by
      simp only [imagePair] at hp
      split at hp
      · next h1 =>
        split at hp
        · cases hp; exact ⟨h1, rfl, rfl⟩
        · cases hp
      · cases hp
    have hcc := cstr_cstr
    rw [(him im hx.1 s.world s'.world (C.same h.2)).1 _ (cstr g.fileName) (cstr f.fileName) (by rw [hcc]; exact ht g hx.2.2) (by rw [hcc]; exact hb f hx.2.1), h.1]
    exact ⟨rfl, toCout_like C h _⟩

theorem difference_like {F : Footprint} (C : Carries F N R) {env : Env} (him : ByFiles F env) {s s' : St} (h : Like R s s') {b t : Meas} (hb : FileIn F b) (ht : FileIn F t) :
    LikeRes R (differenceMeasurement env s t b) (differenceMeasurement env s' t b) := by
  have h' : Like R { s with obj := { s.obj with unmatched := s.obj.unmatched + 1 } } { s' with obj := { s'.obj with unmatched := s'.obj.unmatched + 1 } } := ⟨by simp [h.1], h.2⟩
  simp only [differenceMeasurement]
  cases hp : imagePair env b t with
  | none =>
    simp only
    cases difference env.diff b t with
    | error f => exact ⟨rfl, h'⟩
    | ok x => exact ⟨rfl, emit_like C h' x⟩
  | some x =>
    obtain ⟨im, f, g⟩ := x
    simp only
    have hx : env.image = some im ∧ b = .file f ∧ t = .file g := by
      simp only [imagePair] at hp
      split at hp
      · next h1 =>
        split at hp
        · cases hp; exact ⟨h1, rfl, rfl⟩
        · cases hp
      · cases hp
    rw [(him im hx.1 s.world s'.world (C.same h.2)).2 _ g f (ht g hx.2.2) (hb f hx.2.1), ← h.1]
    have h2 : Like R { s with obj := { s.obj with unmatched := s.obj.unmatched + 1 } } { s' with obj := { s.obj with unmatched := s.obj.unmatched + 1 } } := ⟨rfl, h.2⟩
    rcases im.diff s'.world s.obj.imageTol g f with ⟨x, _ | e⟩
    · exact ⟨rfl, toCout_like C h2 x⟩
    · exact ⟨rfl, toCout_like C h2 x⟩

theorem andThen_like {α β : Type} {r r' : Res α} (h : LikeRes R r r') (f f' : St → α → Res β) (hf : ∀ s s' a, r = (s, .ok a) → r' = (s', .ok a) → Like R s s' → LikeRes R (f s a) (f' s' a)) :
    LikeRes R (r.andThen f) (r'.andThen f') := by
  obtain ⟨s, x⟩ := r
  obtain ⟨s', x'⟩ := r'
  obtain ⟨h1, h2⟩ := h
  simp only at h1
  subst h1
  cases x with
  | error e => exact ⟨rfl, h2⟩
  | ok a => exact hf s s' a rfl rfl h2

theorem locate_like {F : Footprint} (C : Carries F N R) {s s' : St} (h : Like R s s') (ok : Ok F N s.obj) {b t : Meas} (hb : ∀ f, b = .file f → F.names f.fileName ∧ ∀ t, tail f.fileName = .ok t → F.names t) :
    locateBaseline s b t = locateBaseline s' b t ∧ ∀ b', locateBaseline s b t = .ok b' → FileIn F b' := by
  cases b with
  | data d => exact ⟨rfl, fun b' hb' f hf => by cases hb'; cases hf⟩
  | file f =>
    obtain ⟨n1, n2⟩ := hb f rfl
    cases t with
    | data d =>
      refine ⟨rfl, fun b' hb' g hg => ?_⟩
      cases hb'; cases hg; exact has_name n1
    | file g =>
      simp only [locateBaseline]
      cases ht : tail f.fileName with
      | error e => exact ⟨rfl, fun b' hb' => by cases hb'⟩
      | ok x =>
        simp only
        have hs : searchPathList s.world.fs x s.obj.searchPath = searchPathList s'.world.fs x s'.obj.searchPath := by
          rw [← h.1]; exact search_same (C.same h.2) (n2 x ht) _ _ ok.path
        refine ⟨by rw [hs], ?_⟩
        intro b' hb' f' hf'
        cases hb'
        cases hf'
        split
        · next hne => exact (search_has s.world.fs (n2 x ht) s.obj.searchPath [] ok.path (Or.inl rfl)).resolve_left hne
        · exact has_name n1

/-- A comparison leaves measurements of files as they are. -/
theorem equal_files (files : Measurement.Files) (b t : Meas) (m : FileM) : ((b.isEqual files t).1 = .file m → b = .file m) ∧ ((b.isEqual files t).2.1 = .file m → t = .file m) := by
  cases b with
  | data a =>
    cases t with
    | data c => exact ⟨fun h => by simp [Meas.isEqual] at h, fun h => by simp [Meas.isEqual] at h⟩
    | file g => exact ⟨fun h => by simp [Meas.isEqual] at h, fun h => by simpa [Meas.isEqual] using h⟩
  | file f =>
    cases t with
    | data c => exact ⟨fun h => by simpa [Meas.isEqual] using h, fun h => by simp [Meas.isEqual] at h⟩
    | file g =>
      simp only [Meas.isEqual]
      split <;> exact ⟨id, id⟩

theorem visit_files (v : CompareVisitor) (env : NumEnv) (files : Measurement.Files) (b t : Meas) (m : FileM) :
    ((v.visit env files b t).1 = .file m → b = .file m) ∧ ((v.visit env files b t).2.1 = .file m → t = .file m) := by
  have heq := equal_files files b t m
  cases t with
  | file g => rw [visit_file]; exact heq
  | data d =>
    rw [visit_data]
    have hn : ((v.compareNumeric env files b (.data d)).1 = .file m → b = .file m) ∧ ((v.compareNumeric env files b (.data d)).2.1 = .file m → Meas.data d = .file m) := by
      rcases b with ⟨_ | _ | k, n, c, e, z, y, x⟩ | f
      · exact ⟨id, id⟩
      · exact ⟨id, id⟩
      · rcases d with ⟨_ | _ | k, n, c, e, z, y, x⟩ <;> simp only [CompareVisitor.compareNumeric]
        · exact ⟨id, id⟩
        · exact ⟨id, id⟩
        · split
          · exact ⟨id, id⟩
          · exact heq
      · exact ⟨id, id⟩
    cases hk : d.kind with
    | num k => exact hn
    | plain => exact heq
    | string => exact heq

theorem keep_files (env : Env) (s : St) (tol : Bool) (b t : Meas) (s1 : St) (b1 t1 : Meas) (r : Except Fault Bool) (h : compareVisit env s tol b t = (s1, b1, t1, r)) (m : FileM) :
    (b1 = .file m → b = .file m) ∧ (t1 = .file m → t = .file m) := by
  simp only [compareVisit] at h
  split at h
  · cases h; exact ⟨id, id⟩
  · have := visit_files (visitorFor s tol) env.num s.world.openRead b t m
    simp only [Prod.mk.injEq] at h
    rw [h.2] at this
    exact this

/-- A measurement call. -/
theorem call_like {F : Footprint} (C : Carries F N R) {env : Env} (him : ByFiles F env) {s s' : St} (h : Like R s s') (ok : Ok F N s.obj) (c : Call) (hc : ∀ f, c.meas = .file f → F.names f.fileName) :
    LikeRes R (runCall env s c) (runCall env s' c) := by
  rw [runCall, runCall, ← mode_like C h ok]
  have hcf : FileIn F c.meas := fun f hf => has_name (hc f hf)
  split
  · rw [compareMeasurement, compareMeasurement, ← h.1]
    cases hi : s.obj.input with
    | nil => exact andThen_like (unmatched_like C h _) _ _ (fun _ _ _ _ _ hl => ⟨rfl, hl⟩)
    | cons b rest =>
      simp only
      have h1 : Like R { s with obj := { s.obj with input := rest } } { s' with obj := { s.obj with input := rest } } := ⟨rfl, h.2⟩
      have ok1 : Ok F N ({ s with obj := { s.obj with input := rest } } : St).obj := ⟨ok.path, ok.input, ok.output, ok.os, fun f hf => ok.base f (by rw [hi]; exact List.mem_cons_of_mem _ hf)⟩
      split
      · obtain ⟨l1, l2⟩ := locate_like C (t := c.meas) h1 ok1 (b := b) (fun f hf => ok.base f (by rw [hi, hf]; simp))
        rw [← l1]
        cases hl : locateBaseline { s with obj := { s.obj with input := rest } } b c.meas with
        | error e => exact ⟨rfl, h1⟩
        | ok b' =>
          simp only
          have hb' := l2 b' hl
          obtain ⟨v1, v2⟩ := compareVisit_like C him h1 c.tolerant hb' hcf
          rcases hv : compareVisit env { s with obj := { s.obj with input := rest } } c.tolerant b' c.meas with ⟨s1, b1, t1, r⟩
          rcases hv' : compareVisit env { s' with obj := { s.obj with input := rest } } c.tolerant b' c.meas with ⟨s2, b2, t2, r2⟩
          rw [hv, hv'] at v1 v2
          simp only [Prod.mk.injEq] at v1 v2
          obtain ⟨rfl, rfl, rfl⟩ := v1
          cases r with
          | error e => exact ⟨rfl, v2⟩
          | ok same =>
            simp only
            cases same with
            | true => exact ⟨rfl, v2⟩
            | false =>
              simp only [Bool.false_eq_true, if_false]
              have hfiles : FileIn F b1 ∧ FileIn F t1 := by
                have hkeep : ∀ m, (b1 = .file m → b' = .file m) ∧ (t1 = .file m → c.meas = .file m) := by
                  intro m
                  exact keep_files env _ c.tolerant b' c.meas s1 b1 t1 _ hv m
                exact ⟨fun f hf => hb' f ((hkeep f).1 hf), fun f hf => hcf f ((hkeep f).2 hf)⟩
              exact andThen_like (difference_like C him v2 hfiles.1 hfiles.2) _ _ (fun _ _ _ _ _ hl => ⟨rfl, hl⟩)
      · exact andThen_like (unmatched_like C h1 _) _ _ (fun _ _ _ _ _ hl => ⟨rfl, hl⟩)
  · cases c.recorded with
    | error e => exact ⟨rfl, h⟩
    | ok m =>
      simp only
      cases m.print with
      | error e => exact ⟨rfl, h⟩
      | ok t => exact ⟨rfl, emit_like C h _⟩

end Verif.Parallel
