import Verif.Parallel.Local
import Verif.Regression.SettingsProps

/-!
# Steps: of a process that keeps to the footprint, and of a process that is apart from it
-/

set_option linter.unusedSimpArgs false

namespace Verif.Parallel
open Spec Verif.Regression Verif.Regression.Spec Verif.Measurement

/-! ## The process itself -/

variable {N : Str → Prop} {R : World → World → Prop}

theorem same_refl (F : Footprint) (g : Files) : Same F g g := fun _ _ => ⟨rfl, rfl, rfl, rfl, rfl, rfl⟩

theorem same_symm {F : Footprint} {g g' : Files} (h : Same F g g') : Same F g' g := fun n hn => by
  obtain ⟨a, b, c, d, e, f⟩ := h n hn
  exact ⟨a.symm, b.symm, c.symm, d.symm, e.symm, f.symm⟩

theorem same_trans {F : Footprint} {g g' g'' : Files} (h : Same F g g') (h' : Same F g' g'') : Same F g g'' := fun n hn => by
  obtain ⟨a, b, c, d, e, f⟩ := h n hn
  obtain ⟨a', b', c', d', e', f'⟩ := h' n hn
  exact ⟨a.trans a', b.trans b', c.trans c', d.trans d', e.trans e', f.trans f'⟩

/-- A test that keeps to the footprint, for a relation between worlds. -/
def KeepsBy (F : Footprint) (N : Str → Prop) (R : World → World → Prop) : Prog → Prop
  | .ret _ => True
  | .fails _ => True
  | .call c k => (∀ f, c.meas = .file f → F.names f.fileName) ∧ ∀ r, KeepsBy F N R (k r)
  | .act f k => (∀ w w', R w w' → R (f w) (f w')) ∧ KeepsBy F N R k
  | .look k => (∀ w w', R w w' → k w = k w') ∧ ∀ w, KeepsBy F N R (k w)
  | .ask k => ∀ s, KeepsBy F N R (k s)
  | .setTolerance _ k => KeepsBy F N R k
  | .setExpected _ k => KeepsBy F N R k
  | .setImageTolerance _ k => KeepsBy F N R k
  | .setSearchPath ps k => (∀ d ∈ ps, F.dirs d) ∧ KeepsBy F N R k
  | .prependSearchPath d k => F.dirs d ∧ KeepsBy F N R k
  | .setInFileName n k => F.names n ∧ KeepsBy F N R k
  | .setOutFileName n k => N n ∧ KeepsBy F N R k

/-- Two processes at the same point in related worlds. -/
structure Twin (R : World → World → Prop) (p : Process) (g : Files) (p' : Process) (g' : Files) : Prop where
  env : p.env = p'.env
  test : p.test = p'.test
  obj : p.obj = p'.obj
  stage : p.stage = p'.stage
  world : R (p.state g).world (p'.state g').world

theorem Twin.like {p p' : Process} {g g' : Files} (h : Twin R p g p' g') : Like R (p.state g) (p'.state g') := ⟨h.obj, h.world⟩

/-- What is left of the baseline after a call. -/
theorem call_input (env : Env) (s : St) (c : Call) : (runCall env s c).1.obj.input = s.obj.input ∨ (runCall env s c).1.obj.input = s.obj.input.tail := by
  have hun : ∀ s : St, ((unmatchedMeasurement s c.meas).andThen fun s _ => (s, .ok (1 : Int))).1.obj.input = s.obj.input := by
    intro s
    obtain ⟨t, ht⟩ := print_ok (c.meas.setName (b!"Unmatched " ++ c.meas.name))
    simp only [unmatchedMeasurement, ht, Res.andThen, emit_obj]
  have hdi : ∀ (s : St) (t b : Meas), ((differenceMeasurement env s t b).andThen fun s _ => (s, .ok (0 : Int))).1.obj.input = s.obj.input := by
    intro s t b
    simp only [differenceMeasurement]
    split
    · split <;> rfl
    · split
      · rfl
      · simp only [Res.andThen, emit_obj]
  have hcv : ∀ (s : St) (b : Bool) (m t : Meas), (compareVisit env s b m t).1.obj = s.obj := by
    intro s b m t
    simp only [compareVisit]
    split <;> rfl
  rw [runCall]
  split
  · rw [compareMeasurement]
    cases hi : s.obj.input with
    | nil => simp only; rw [hun, hi]; exact Or.inl rfl
    | cons b rest =>
      refine Or.inr ?_
      simp only [List.tail_cons]
      split
      · split
        · rfl
        · next b' _ =>
          have h1 := hcv { s with obj := { s.obj with input := rest } } c.tolerant b' c.meas
          split
          · next hv => rw [hv] at h1; simp only at h1; rw [h1]
          · next s1 b1 t1 same hv =>
            rw [hv] at h1
            simp only at h1
            split
            · simp only [h1]
            · rw [hdi, h1]
      · rw [hun]
  · split
    · exact Or.inl rfl
    · split
      · exact Or.inl rfl
      · rw [emit_obj]; exact Or.inl rfl

theorem call_ok {F : Footprint} {s : St} (ok : Ok F N s.obj) (env : Env) (c : Call) : Ok F N (runCall env s c).1.obj := by
  obtain ⟨i, u, h⟩ := runCall_frame env s c
  have hi := call_input env s c
  rw [h] at hi ⊢
  refine ⟨ok.path, ok.input, ok.output, ok.os, fun f hf => ok.base f ?_⟩
  simp only at hi hf
  rcases hi with rfl | rfl
  · exact hf
  · exact List.mem_of_mem_tail hf

/-- The documents of the footprint name only files of the footprint. -/
def Docs (F : Footprint) (env : Env) (g : Files) : Prop :=
  ∀ bytes ms, (bytes = [] ∨ ∃ n, F.Has n ∧ g.bytes n = bytes) → env.readXML bytes = .ok ms → Names F ms

theorem docs_same {F : Footprint} {env : Env} {g g' : Files} (h : Same F g g') (hd : Docs F env g) : Docs F env g' := by
  intro bytes ms hb hr
  refine hd bytes ms ?_ hr
  rcases hb with hb | ⟨n, hn, hb⟩
  · exact Or.inl hb
  · exact Or.inr ⟨n, hn, by rw [(h n hn).2.2.2.2.1, hb]⟩

theorem output_like {F : Footprint} (C : Carries F N R) {s s' : St} (h : Like R s s') (ok : Ok F N s.obj) :
    LikeRes R (openOutput s) (openOutput s') ∧ Ok F N (openOutput s).1.obj ∧ ∀ env, Docs F env (filesOf s) → Docs F env (filesOf (openOutput s).1) := by
  obtain ⟨o, w⟩ := s
  obtain ⟨o', w'⟩ := s'
  obtain ⟨rfl, hw⟩ := h
  simp only at hw ok
  simp only [openOutput]
  by_cases hn : o.outFileName = []
  · simp only [hn, ne_eq, not_true, if_false]
    exact ⟨⟨rfl, rfl, hw⟩, ok, fun _ h => h⟩
  · have hout := ok.output.resolve_left hn
    simp only [hn, ne_eq, not_false_eq_true, if_true]
    rcases C.opens hw _ hout with ⟨e1, e2⟩ | ⟨v, v', e1, e2, hv⟩
    · rw [e1, e2]
      exact ⟨⟨rfl, rfl, hw⟩, ⟨ok.path, ok.input, ok.output, (fun n hn => by cases hn), ok.base⟩, fun _ h => h⟩
    · rw [e1, e2]
      refine ⟨⟨rfl, rfl, hv⟩, ⟨ok.path, ok.input, ok.output, fun n hn => by cases hn; exact hout, ok.base⟩, ?_⟩
      intro env hd bytes ms hb hr
      refine hd bytes ms ?_ hr
      rcases hb with hb | ⟨n, hn, hb⟩
      · exact Or.inl hb
      · simp only [World.openWrite] at e1
        split at e1
        · cases e1
          simp only [filesOf] at hb ⊢
          split at hb
          · exact Or.inl hb.symm
          · exact Or.inr ⟨n, hn, hb⟩
        · cases e1

theorem input_like {F : Footprint} (C : Carries F N R) {s s' : St} (h : Like R s s') (ok : Ok F N s.obj) :
    LikeRes R (openInput s) (openInput s') ∧ Ok F N (openInput s).1.obj ∧
      ∀ env, Docs F env (filesOf s) → s.obj.is = none → ∀ b ms, (openInput s).1.obj.is = some b → env.readXML b = .ok ms → Names F ms := by
  obtain ⟨o, w⟩ := s
  obtain ⟨o', w'⟩ := s'
  obtain ⟨rfl, hw⟩ := h
  simp only at hw ok
  simp only [openInput]
  by_cases hn : o.inFileName = []
  · simp only [hn, ne_eq, not_true, if_false]
    exact ⟨⟨rfl, rfl, hw⟩, ok, fun _ _ hi b ms hb => by rw [hi] at hb; cases hb⟩
  · have hin := ok.input.resolve_left hn
    simp only [hn, ne_eq, not_false_eq_true, if_true]
    have hsame := C.same hw
    have hs : o.searched w.fs = o.searched w'.fs := search_same hsame hin _ _ ok.path
    have hhas : F.Has (cstr (if o.searched w'.fs = [] then o.inFileName else o.searched w'.fs)) := by
      split
      · exact has_name hin
      · next he => exact (search_has w'.fs hin o.searchPath [] ok.path (Or.inl rfl)).resolve_left he
    rw [hs]
    generalize (if o.searched w'.fs = [] then o.inFileName else o.searched w'.fs) = p at hhas
    rw [open_same hsame hhas]
    have hrd := open_same hsame hhas
    cases hr : w'.openRead p with
    | none => exact ⟨⟨rfl, rfl, hw⟩, ⟨ok.path, ok.input, ok.output, ok.os, ok.base⟩, fun _ _ _ b ms hb => by cases hb⟩
    | some x =>
      refine ⟨⟨rfl, rfl, hw⟩, ⟨ok.path, ok.input, ok.output, ok.os, ok.base⟩, fun env hd _ b ms hb hx => ?_⟩
      cases hb
      refine hd x ms (Or.inr ⟨cstr p, hhas, ?_⟩) hx
      rw [hr, World.openRead] at hrd
      split at hrd
      · exact Option.some.inj hrd
      · cases hrd

theorem start_like {F : Footprint} (C : Carries F N R) {s s' : St} (h : Like R s s') (ok : Ok F N s.obj) (env : Env)
    (hd : ∀ b ms, s.obj.is = some b → env.readXML b = .ok ms → Names F ms) : LikeRes R (startOrRead env s) (startOrRead env s') ∧ Ok F N (startOrRead env s).1.obj := by
  rw [startOrRead, startOrRead, ← mode_like C h ok]
  split
  · rw [← h.1]
    cases his : s.obj.is with
    | none => exact ⟨⟨rfl, h⟩, ok⟩
    | some b =>
      simp only
      cases hr : env.readXML b with
      | error e => exact ⟨⟨rfl, h⟩, ok⟩
      | ok ms => exact ⟨⟨rfl, rfl, h.2⟩, ok.path, ok.input, ok.output, ok.os, hd b ms his hr⟩
  · refine ⟨⟨rfl, ?_⟩, by rw [emit_obj]; exact ok⟩
    rw [emit_put, emit_put, ← h.1]
    exact ⟨rfl, C.start h.2 _ ok.os⟩

theorem end_like {F : Footprint} (C : Carries F N R) {s s' : St} (h : Like R s s') (ok : Ok F N s.obj) : Like R (finish s) (finish s') ∧ Ok F N (finish s).obj := by
  simp only [finish, endMeasurement]
  rw [← mode_like C h ok]
  split
  · exact ⟨⟨by simp only [h.1], h.2⟩, ok.path, ok.input, ok.output, (fun n hn => by cases hn), fun f hf => by cases hf⟩
  · have he := emit_like C h footer
    refine ⟨⟨by simp only [he.1], he.2⟩, ?_⟩
    rw [emit_obj]
    exact ⟨ok.path, ok.input, ok.output, (fun n hn => by cases hn), ok.base⟩

theorem value_like {F : Footprint} (C : Carries F N R) {s s' : St} (h : Like R s s') (ok : Ok F N s.obj) (v : Int) : mainValue s v = mainValue s' v := by
  rw [mainValue, mainValue, ← mode_like C h ok, h.1]

theorem caught_like {F : Footprint} (C : Carries F N R) {s s' : St} (h : Like R s s') (ok : Ok F N s.obj) (f : Fault) : caught s f = caught s' f := by
  cases f <;> simp only [caught]
  rw [value_like C h ok]

theorem to_like {s s' : St} (h : Like R s s') {p p' : Process} (he : p.env = p'.env) (ht : p.test = p'.test) {stage stage' : Stage} (hs : stage = stage') :
    Twin R (p.to s stage).2 (p.to s stage).1 (p'.to s' stage').2 (p'.to s' stage').1 := ⟨he, ht, h.1, hs, h.2⟩

theorem after_like {F : Footprint} (C : Carries F N R) {α : Type} {r r' : Res α} (h : LikeRes R r r') (ok : Ok F N r.1.obj) {p p' : Process} (he : p.env = p'.env) (ht : p.test = p'.test)
    (stage : α → Stage) : Twin R (p.after r stage).2 (p.after r stage).1 (p'.after r' stage).2 (p'.after r' stage).1 := by
  obtain ⟨s, x⟩ := r
  obtain ⟨s', x'⟩ := r'
  obtain ⟨h1, h2⟩ := h
  simp only at h1 h2 ok
  subst h1
  cases x with
  | error f =>
    simp only [Process.after]
    exact to_like h2 he ht (by rw [caught_like C h2 ok])
  | ok a => exact to_like h2 he ht rfl

/-- What holds of a process that keeps to the footprint at its stage. -/
def AtStage (F : Footprint) (N : Str → Prop) (R : World → World → Prop) (env : Env) (o : Obj) (g : Files) : Stage → Prop
  | .starting _ argv => (Ok F N o ∧ o.is = none ∧ Docs F env g) ∧ (∀ v, (Given b!"-I" v argv ∨ Given b!"-P" v argv) → F.names v) ∧ (∀ v, Given b!"-O" v argv → N v) ∧ ∀ v, Given b!"-P" v argv → F.dirs v
  | .output _ => Ok F N o ∧ o.is = none ∧ Docs F env g
  | .input _ => Ok F N o ∧ o.is = none ∧ Docs F env g
  | .baseline _ => Ok F N o ∧ ∀ b ms, o.is = some b → env.readXML b = .ok ms → Names F ms
  | .testing q => Ok F N o ∧ KeepsBy F N R q
  | .ended _ => ∀ n, o.os = some n → N n

/-- A process that keeps to the footprint. -/
structure Ready (F : Footprint) (N : Str → Prop) (R : World → World → Prop) (p : Process) (g : Files) : Prop where
  images : ByFiles F p.env
  tests : ∀ args, KeepsBy F N R (p.test args)
  stage : AtStage F N R p.env p.obj g p.stage

theorem ready_same {F : Footprint} {p : Process} {g g' : Files} (h : Same F g g') (hr : Ready F N R p g) : Ready F N R p g' := by
  refine ⟨hr.images, hr.tests, ?_⟩
  have := hr.stage
  cases hs : p.stage with
  | starting f a => rw [hs] at this; exact ⟨⟨this.1.1, this.1.2.1, docs_same h this.1.2.2⟩, this.2⟩
  | output r => rw [hs] at this; exact ⟨this.1, this.2.1, docs_same h this.2.2⟩
  | input r => rw [hs] at this; exact ⟨this.1, this.2.1, docs_same h this.2.2⟩
  | baseline r => rw [hs] at this; exact this
  | testing q => rw [hs] at this; exact this
  | ended r => rw [hs] at this; exact this

theorem output_is (s : St) : (openOutput s).1.obj.is = s.obj.is := by
  rw [openOutput]
  split
  · split <;> rfl
  · rfl

theorem after_ready {F : Footprint} {α : Type} (p : Process) (hp : ByFiles F p.env) (ht : ∀ args, KeepsBy F N R (p.test args)) (r : Res α) (stage : α → Stage)
    (hos : ∀ n, r.1.obj.os = some n → N n) (h : ∀ a, r.2 = .ok a → AtStage F N R p.env r.1.obj (filesOf r.1) (stage a)) : Ready F N R (p.after r stage).2 (p.after r stage).1 := by
  obtain ⟨s, x⟩ := r
  cases x with
  | error f => exact ⟨hp, ht, hos⟩
  | ok a => exact ⟨hp, ht, h a rfl⟩

theorem settings_like {F : Footprint} (C : Carries F N R) {s s' : St} (h : Like R s s') (ok : Ok F N s.obj) : s.settings = s'.settings := by
  rw [St.settings, St.settings, ← mode_like C h ok, h.1]

/-- The step of a test. -/
theorem test_local {F : Footprint} (C : Carries F N R) {p p' : Process} (he : p.env = p'.env) (hte : p.test = p'.test) (hp : ByFiles F p.env) (ht : ∀ args, KeepsBy F N R (p.test args)) {s s' : St} (h : Like R s s')
    (ok : Ok F N s.obj) (q : Prog) (hq : KeepsBy F N R q) :
    Twin R (stepTest p s q).2 (stepTest p s q).1 (stepTest p' s' q).2 (stepTest p' s' q).1 ∧ Ready F N R (stepTest p s q).2 (stepTest p s q).1 := by
  have hto : ∀ (x x' : St) (k : Prog), Like R x x' → Ok F N x.obj → KeepsBy F N R k →
      Twin R (p.to x (.testing k)).2 (p.to x (.testing k)).1 (p'.to x' (.testing k)).2 (p'.to x' (.testing k)).1 ∧ Ready F N R (p.to x (.testing k)).2 (p.to x (.testing k)).1 :=
    fun x x' k hl hok hk => ⟨to_like hl he hte rfl, hp, ht, hok, hk⟩
  cases q with
  | ret v =>
    obtain ⟨e1, e2⟩ := end_like C h ok
    simp only [stepTest]
    exact ⟨to_like e1 he hte (by rw [value_like C e1 e2]), hp, ht, e2.os⟩
  | fails f =>
    simp only [stepTest]
    exact ⟨to_like h he hte (by rw [caught_like C h ok]), hp, ht, ok.os⟩
  | call c k =>
    have hc := call_like C hp h ok c hq.1
    have hok := call_ok ok p.env c
    simp only [stepTest]
    rw [← he]
    exact ⟨after_like C hc hok he hte _, after_ready p hp ht _ _ hok.os (fun a _ => ⟨hok, hq.2 a⟩)⟩
  | act f k => exact hto ⟨s.obj, f s.world⟩ ⟨s'.obj, f s'.world⟩ k ⟨h.1, hq.1 _ _ h.2⟩ ok hq.2
  | look k =>
    simp only [stepTest]
    rw [hq.1 _ _ h.2]
    exact hto _ _ _ h ok (hq.2 _)
  | ask k =>
    simp only [stepTest]
    rw [settings_like C h ok]
    exact hto _ _ _ h ok (hq _)
  | setTolerance t k => exact hto { s with obj := { s.obj with tolerance := t } } { s' with obj := { s'.obj with tolerance := t } } k ⟨by simp only [h.1], h.2⟩ ⟨ok.path, ok.input, ok.output, ok.os, ok.base⟩ hq
  | setExpected t k => exact hto { s with obj := { s.obj with expected := t } } { s' with obj := { s'.obj with expected := t } } k ⟨by simp only [h.1], h.2⟩ ⟨ok.path, ok.input, ok.output, ok.os, ok.base⟩ hq
  | setImageTolerance t k => exact hto { s with obj := { s.obj with imageTol := t } } { s' with obj := { s'.obj with imageTol := t } } k ⟨by simp only [h.1], h.2⟩ ⟨ok.path, ok.input, ok.output, ok.os, ok.base⟩ hq
  | setSearchPath ps k => exact hto { s with obj := { s.obj with searchPath := ps } } { s' with obj := { s'.obj with searchPath := ps } } k ⟨by simp only [h.1], h.2⟩ ⟨hq.1, ok.input, ok.output, ok.os, ok.base⟩ hq.2
  | prependSearchPath d k =>
    refine hto { s with obj := { s.obj with searchPath := d :: s.obj.searchPath } } { s' with obj := { s'.obj with searchPath := d :: s'.obj.searchPath } } k ⟨by simp only [h.1], h.2⟩ ⟨fun x hx => ?_, ok.input, ok.output, ok.os, ok.base⟩ hq.2
    rcases List.mem_cons.mp hx with rfl | hx
    · exact hq.1
    · exact ok.path x hx
  | setInFileName n k => exact hto { s with obj := { s.obj with inFileName := n } } { s' with obj := { s'.obj with inFileName := n } } k ⟨by simp only [h.1], h.2⟩ ⟨ok.path, Or.inr hq.1, ok.output, ok.os, ok.base⟩ hq.2
  | setOutFileName n k => exact hto { s with obj := { s.obj with outFileName := n } } { s' with obj := { s'.obj with outFileName := n } } k ⟨by simp only [h.1], h.2⟩ ⟨ok.path, ok.input, Or.inr hq.1, ok.os, ok.base⟩ hq.2

/-- The steps of two processes at the same point in related worlds. -/
theorem step_twin {F : Footprint} (C : Carries F N R) {p p' : Process} {g g' : Files} (h : Twin R p g p' g') (hr : Ready F N R p g) :
    Twin R (p.step g).2 (p.step g).1 (p'.step g').2 (p'.step g').1 ∧ Ready F N R (p.step g).2 (p.step g).1 := by
  have hl := h.like
  have hst := hr.stage
  have hst' := h.stage
  cases hs : p.stage with
  | starting fuel argv =>
    rw [hs] at hst hst'
    obtain ⟨⟨ok, his, hd⟩, hv, hvo, hdir⟩ := hst
    have hsame := arguments_same g.fs g'.fs fuel { p.obj with unmatched := p.obj.unmatched + 1 } argv (by
      intro opt v ho hne hg
      rcases ho with rfl | rfl | rfl | rfl
      · exact C.args h.world v (hvo v hg)
      · exact same_at (C.same h.world) (has_name (hv v (Or.inl hg)))
      · exact absurd rfl hne
      · exact same_at (C.same h.world) (has_name (hv v (Or.inr hg))))
    have hobj : (p'.state g').obj = p.obj := h.obj.symm
    simp only [Process.step, hs, ← hst', stepArguments]
    have e' : parseArguments (p'.state g').world.fs fuel { (p'.state g').obj with unmatched := (p'.state g').obj.unmatched + 1 } argv =
      parseArguments g.fs fuel { p.obj with unmatched := p.obj.unmatched + 1 } argv := by rw [hobj]; exact hsame.symm
    have e : parseArguments (p.state g).world.fs fuel { (p.state g).obj with unmatched := (p.state g).obj.unmatched + 1 } argv =
      parseArguments g.fs fuel { p.obj with unmatched := p.obj.unmatched + 1 } argv := rfl
    rw [e', e]
    rcases hpa : parseArguments g.fs fuel { p.obj with unmatched := p.obj.unmatched + 1 } argv with ⟨o, r⟩
    obtain ⟨f1, f2, f3, f4, f5, f6⟩ := arguments_facts _ _ _ _ _ _ hpa
    simp only at f1 f2 f3 f4 f5 f6
    have oko : Ok F N o := by
      refine ⟨?_, ?_, ?_, ?_, ?_⟩
      · intro d hd
        rcases f1 d hd with hd | hd
        · exact ok.path d hd
        · exact hdir d hd
      · rcases f2 with f2 | f2
        · rw [f2]; exact ok.input
        · exact Or.inr (hv _ (Or.inl f2))
      · rcases f3 with f3 | f3
        · rw [f3]; exact ok.output
        · exact Or.inr (hvo _ f3)
      · rw [f4]; exact ok.os
      · rw [f6]; exact ok.base
    have hl2 : Like R ⟨o, (p.state g).world⟩ ⟨o, (p'.state g').world⟩ := ⟨rfl, hl.2⟩
    cases r with
    | error f => exact ⟨to_like hl2 h.env h.test (by rw [caught_like C hl2 oko]), hr.images, hr.tests, oko.os⟩
    | ok rest => exact ⟨to_like hl2 h.env h.test rfl, hr.images, hr.tests, oko, by rw [← his]; exact f5, hd⟩
  | output rest =>
    rw [hs] at hst hst'
    obtain ⟨ok, his, hd⟩ := hst
    obtain ⟨h1, h2, h3⟩ := output_like C hl ok
    simp only [Process.step, hs, ← hst']
    refine ⟨after_like C h1 h2 h.env h.test _, after_ready p hr.images hr.tests _ _ h2.os (fun _ _ => ⟨h2, ?_, h3 _ hd⟩)⟩
    rw [output_is]; exact his
  | input rest =>
    rw [hs] at hst hst'
    obtain ⟨ok, his, hd⟩ := hst
    obtain ⟨h1, h2, h3⟩ := input_like C hl ok
    simp only [Process.step, hs, ← hst']
    exact ⟨after_like C h1 h2 h.env h.test _, after_ready p hr.images hr.tests _ _ h2.os (fun _ _ => ⟨h2, h3 p.env hd his⟩)⟩
  | baseline rest =>
    rw [hs] at hst hst'
    obtain ⟨ok, hd⟩ := hst
    obtain ⟨h1, h2⟩ := start_like C hl ok p.env hd
    simp only [Process.step, hs, ← hst', ← h.env, ← h.test]
    exact ⟨after_like C h1 h2 h.env h.test _, after_ready p hr.images hr.tests _ _ h2.os (fun _ _ => ⟨h2, hr.tests rest⟩)⟩
  | testing q =>
    rw [hs] at hst hst'
    simp only [Process.step, hs, ← hst']
    exact test_local C h.env h.test hr.images hr.tests hl hst.1 q hst.2
  | ended r =>
    rw [hs] at hst'
    simp only [Process.step, hs, ← hst']
    exact ⟨h, hr⟩

/-! ## The footprint alone -/

theorem openWrite_same {F : Footprint} {w w' : World} (h : SameTo F w w') {n : Str} (hn : F.Has (cstr n)) :
    (w.openWrite n = none ∧ w'.openWrite n = none) ∨ ∃ v v', w.openWrite n = some v ∧ w'.openWrite n = some v' ∧ SameTo F v v' := by
  obtain ⟨a1, a2, a3, a4, a5, a6⟩ := h.1 _ hn
  simp only at a1 a2 a3 a4 a5 a6
  rw [World.openWrite, World.openWrite]
  simp only [← a6]
  split
  · refine Or.inr ⟨_, _, rfl, rfl, ?_, h.2⟩
    intro m hm
    obtain ⟨b1, b2, b3, b4, b5, b6⟩ := h.1 m hm
    simp only at b1 b2 b3 b4 b5 b6
    exact ⟨by simp only [b1], by simp only [a1, b2], b3, b4, by simp only [b5], b6⟩
  · exact Or.inl ⟨rfl, rfl⟩

/-- Being the same to a process with the footprint is kept by its steps. -/
theorem same_carries (F : Footprint) : Carries F F.names (SameTo F) where
  same := fun h => h.1
  put := by
    intro w w' ⟨h1, h2, h3, h4⟩ os t
    cases os with
    | none => exact ⟨h1, by simp [put, h2], h3, h4⟩
    | some n =>
      refine ⟨?_, h2, h3, h4⟩
      intro m hm
      obtain ⟨a1, a2, a3, a4, a5, a6⟩ := h1 m hm
      simp only at a1 a2 a3 a4 a5 a6
      exact ⟨a1, a2, a3, a4, by simp only [put, a5], a6⟩
  args := fun h n hn => same_at h.1 (has_name hn)
  opens := fun h n hn => openWrite_same h (has_name hn)
  start := by
    intro w w' h os _
    have : header w = header w' := by rw [header, header, h.2.2.1, h.2.2.2]
    rw [this]
    obtain ⟨h1, h2, h3, h4⟩ := h
    cases os with
    | none => exact ⟨h1, by simp [put, h2], h3, h4⟩
    | some n =>
      refine ⟨?_, h2, h3, h4⟩
      intro m hm
      obtain ⟨a1, a2, a3, a4, a5, a6⟩ := h1 m hm
      simp only at a1 a2 a3 a4 a5 a6
      exact ⟨a1, a2, a3, a4, by simp only [put, a5], a6⟩

theorem keepsBy_same (F : Footprint) : ∀ q : Prog, Keeps F q → KeepsBy F F.names (SameTo F) q := by
  intro q
  induction q with
  | ret v => intro _; trivial
  | fails v => intro _; trivial
  | call c k ih => intro h; exact ⟨h.1, fun r => ih r (h.2 r)⟩
  | act a k ih => intro h; exact ⟨h.1, ih h.2⟩
  | look k ih => intro h; exact ⟨h.1, fun w => ih w (h.2 w)⟩
  | ask k ih => intro h w; exact ih w (h w)
  | setTolerance t k ih => intro h; exact ih h
  | setExpected t k ih => intro h; exact ih h
  | setImageTolerance t k ih => intro h; exact ih h
  | setSearchPath t k ih => intro h; exact ⟨h.1, ih h.2⟩
  | prependSearchPath t k ih => intro h; exact ⟨h.1, ih h.2⟩
  | setInFileName t k ih => intro h; exact ⟨h.1, ih h.2⟩
  | setOutFileName t k ih => intro h; exact ⟨h.1, ih h.2⟩

theorem twin_same {F : Footprint} {g g' : Files} (h : Same F g g') (p : Process) : Twin (SameTo F) p g p g' := ⟨rfl, rfl, rfl, rfl, h, rfl, rfl, rfl⟩

/-- A step depends only on the files of the footprint. -/
theorem step_local {F : Footprint} {p : Process} {g g' : Files} (h : Same F g g') (hr : Ready F F.names (SameTo F) p g) :
    (p.step g).2 = (p.step g').2 ∧ Same F (p.step g).1 (p.step g').1 ∧ Ready F F.names (SameTo F) (p.step g).2 (p.step g).1 := by
  obtain ⟨⟨h1, h2, h3, h4, h5, h6, h7, h8⟩, hr'⟩ := step_twin (same_carries F) (twin_same h p) hr
  refine ⟨?_, h5, hr'⟩
  generalize (p.step g).2 = a at *
  generalize (p.step g').2 = b at *
  cases a
  cases b
  simp_all [Process.state]

/-! ## The other processes -/

/-- A process whose output is not in the footprint. -/
def Away (F : Footprint) (o : Obj) : Prop := ∀ n, o.os = some n → ¬ F.Has (cstr n)

theorem emit_away {F : Footprint} {s : St} (h : Away F s.obj) (t : Str) : Same F (filesOf s) (filesOf (s.emit t)) := by
  rw [St.emit]
  cases ho : s.obj.os with
  | none => exact same_refl F _
  | some n =>
    intro m hm
    refine ⟨rfl, rfl, rfl, rfl, ?_, rfl⟩
    have : m ≠ cstr n := fun e => h n ho (e ▸ hm)
    simp only [filesOf, if_neg this]

theorem call_away {F : Footprint} {s : St} (h : Away F s.obj) (env : Env) (c : Call) : Same F (filesOf s) (filesOf (runCall env s c).1) := by
  have hun : ∀ s : St, Away F s.obj → Same F (filesOf s) (filesOf ((unmatchedMeasurement s c.meas).andThen fun s _ => (s, .ok (1 : Int))).1) := by
    intro s hs
    obtain ⟨t, ht⟩ := print_ok (c.meas.setName (b!"Unmatched " ++ c.meas.name))
    simp only [unmatchedMeasurement, ht, Res.andThen]
    exact emit_away (s := { s with obj := { s.obj with unmatched := s.obj.unmatched + 1 } }) hs _
  have hdi : ∀ (s : St) (t b : Meas), Away F s.obj → Same F (filesOf s) (filesOf ((differenceMeasurement env s t b).andThen fun s _ => (s, .ok (0 : Int))).1) := by
    intro s t b hs
    simp only [differenceMeasurement]
    split
    · split <;> exact same_refl F _
    · split
      · exact same_refl F _
      · simp only [Res.andThen]
        exact emit_away (s := { s with obj := { s.obj with unmatched := s.obj.unmatched + 1 } }) hs _
  have hcv : ∀ (s : St) (b : Bool) (m t : Meas), (compareVisit env s b m t).1.obj = s.obj ∧ filesOf (compareVisit env s b m t).1 = filesOf s := by
    intro s b m t
    simp only [compareVisit]
    split <;> exact ⟨rfl, rfl⟩
  rw [runCall]
  split
  · rw [compareMeasurement]
    cases hi : s.obj.input with
    | nil => exact hun s h
    | cons b rest =>
      simp only
      have h1 : Away F ({ s with obj := { s.obj with input := rest } } : St).obj := h
      split
      · split
        · exact same_refl F _
        · next b' _ =>
          obtain ⟨e1, e2⟩ := hcv { s with obj := { s.obj with input := rest } } c.tolerant b' c.meas
          split
          · next hv => rw [hv] at e2; simp only at e2 ⊢; rw [e2]; exact same_refl F _
          · next s1 b1 t1 same hv =>
            rw [hv] at e1 e2
            simp only at e1 e2
            have hs1 : Same F (filesOf s) (filesOf s1) := by rw [e2]; exact same_refl F _
            split
            · exact hs1
            · exact same_trans hs1 (hdi s1 t1 b1 (by rw [e1]; exact h1))
      · exact hun { s with obj := { s.obj with input := rest } } h1
  · split
    · exact same_refl F _
    · split
      · exact same_refl F _
      · exact emit_away h _

/-- What holds of a process that is apart from the footprint at its stage. -/
def FarAt (F : Footprint) (o : Obj) : Stage → Prop
  | .starting _ argv => (o.outFileName = [] ∨ ¬ F.Has (cstr o.outFileName)) ∧ ∀ v, Given b!"-O" v argv → ¬ F.Has (cstr v)
  | .output _ => o.outFileName = [] ∨ ¬ F.Has (cstr o.outFileName)
  | .testing q => Spares F q
  | _ => True

/-- A process that is apart from the footprint. -/
structure Far (F : Footprint) (p : Process) : Prop where
  away : Away F p.obj
  tests : ∀ args, Spares F (p.test args)
  stage : FarAt F p.obj p.stage

theorem after_far {F : Footprint} {α : Type} (p : Process) (ht : ∀ args, Spares F (p.test args)) (g : Files) (r : Res α) (stage : α → Stage)
    (h : Same F g (filesOf r.1)) (ha : Away F r.1.obj) (hs : ∀ a, r.2 = .ok a → FarAt F r.1.obj (stage a)) :
    Same F g (p.after r stage).1 ∧ Far F (p.after r stage).2 := by
  obtain ⟨s, x⟩ := r
  cases x with
  | error f => exact ⟨h, ha, ht, trivial⟩
  | ok a => exact ⟨h, ha, ht, hs a rfl⟩

theorem finish_away {F : Footprint} {s : St} (h : Away F s.obj) : Same F (filesOf s) (filesOf (finish s)) ∧ Away F (finish s).obj := by
  simp only [finish, endMeasurement]
  split
  · exact ⟨same_refl F _, fun n hn => by cases hn⟩
  · exact ⟨emit_away h _, fun n hn => by cases hn⟩

theorem test_far {F : Footprint} {p : Process} (ht : ∀ args, Spares F (p.test args)) {s : St} (h : Away F s.obj) (q : Prog) (hq : Spares F q) :
    Same F (filesOf s) (stepTest p s q).1 ∧ Far F (stepTest p s q).2 := by
  cases q with
  | ret v => exact ⟨(finish_away h).1, (finish_away h).2, ht, trivial⟩
  | fails f => exact ⟨same_refl F _, h, ht, trivial⟩
  | call c k =>
    obtain ⟨i, u, hf⟩ := runCall_frame p.env s c
    exact after_far p ht _ _ _ (call_away h p.env c) (by rw [hf]; exact h) (fun a _ => hq a)
  | act f k => exact ⟨hq.1 _, h, ht, hq.2⟩
  | look k => exact ⟨same_refl F _, h, ht, hq _⟩
  | ask k => exact ⟨same_refl F _, h, ht, hq _⟩
  | setTolerance t k => exact ⟨same_refl F _, h, ht, hq⟩
  | setExpected t k => exact ⟨same_refl F _, h, ht, hq⟩
  | setImageTolerance t k => exact ⟨same_refl F _, h, ht, hq⟩
  | setSearchPath ps k => exact ⟨same_refl F _, h, ht, hq⟩
  | prependSearchPath d k => exact ⟨same_refl F _, h, ht, hq⟩
  | setInFileName n k => exact ⟨same_refl F _, h, ht, hq⟩
  | setOutFileName n k => exact ⟨same_refl F _, h, ht, hq⟩

/-- A step of a process that is apart from the footprint changes none of its files. -/
theorem step_far {F : Footprint} {p : Process} (g : Files) (hp : Far F p) : Same F g (p.step g).1 ∧ Far F (p.step g).2 := by
  have hst := hp.stage
  cases hs : p.stage with
  | starting fuel argv =>
    rw [hs] at hst
    simp only [Process.step, hs, stepArguments]
    rcases hpa : parseArguments (p.state g).world.fs fuel { (p.state g).obj with unmatched := (p.state g).obj.unmatched + 1 } argv with ⟨o, r⟩
    obtain ⟨f1, f2, f3, f4, f5, f6⟩ := arguments_facts _ _ _ _ _ _ hpa
    have ha : Away F o := fun n hn => hp.away n (by rw [f4] at hn; exact hn)
    cases r with
    | error f => exact ⟨same_refl F _, ha, hp.tests, trivial⟩
    | ok rest =>
      refine ⟨same_refl F _, ha, hp.tests, ?_⟩
      rcases f3 with f3 | f3
      · have f3' : o.outFileName = p.obj.outFileName := f3
        show o.outFileName = [] ∨ ¬ F.Has (cstr o.outFileName)
        rw [f3']; exact hst.1
      · exact Or.inr (hst.2 _ f3)
  | output rest =>
    rw [hs] at hst
    simp only [Process.step, hs]
    refine after_far p hp.tests _ _ _ ?_ ?_ (fun _ _ => trivial)
    · show Same F (filesOf (p.state g)) _
      simp only [openOutput]
      split
      · next hne =>
        have hno := hst.resolve_left hne
        split
        · exact same_refl F _
        · next w hw =>
          simp only [World.openWrite] at hw
          split at hw
          · cases hw
            intro m hm
            have hm' : m ≠ cstr (p.state g).obj.outFileName := fun e => hno (e ▸ hm)
            simp [filesOf, hm']
          · cases hw
      · exact same_refl F _
    · simp only [openOutput]
      split
      · next hne =>
        split
        · exact fun n hn => by cases hn
        · exact fun n hn => by cases hn; exact hst.resolve_left hne
      · exact hp.away
  | input rest =>
    simp only [Process.step, hs]
    refine after_far p hp.tests _ _ _ ?_ ?_ (fun _ _ => trivial)
    · show Same F (filesOf (p.state g)) _
      simp only [openInput]
      split
      · split <;> exact same_refl F _
      · exact same_refl F _
    · simp only [openInput]
      split
      · split <;> exact hp.away
      · exact hp.away
  | baseline rest =>
    simp only [Process.step, hs]
    refine after_far p hp.tests _ _ _ ?_ ?_ (fun _ _ => hp.tests rest)
    · show Same F (filesOf (p.state g)) _
      simp only [startOrRead]
      split
      · split
        · exact same_refl F _
        · split <;> exact same_refl F _
      · exact emit_away (s := p.state g) hp.away _
    · simp only [startOrRead]
      split
      · split
        · exact hp.away
        · split <;> exact hp.away
      · rw [emit_obj]; exact hp.away
  | testing q =>
    rw [hs] at hst
    simp only [Process.step, hs]
    exact test_far (s := p.state g) hp.tests hp.away q hst
  | ended r =>
    simp only [Process.step, hs]
    exact ⟨same_refl F _, hp⟩

end Verif.Parallel
