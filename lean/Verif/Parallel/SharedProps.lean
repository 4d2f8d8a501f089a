import Verif.Parallel.Shared
import Verif.Parallel.SharedSpec
import Verif.Parallel.FullDiskProps

/-!
# Property C124: runs that record to the same file at the same time
-/

set_option linter.unusedSimpArgs false

namespace Verif.Parallel
open Spec Verif.Regression Verif.Regression.Spec Verif.Measurement Verif.Xml Verif.Xml.Spec
open Verif.Path (isFile isReadable isWritable isDirectory searchPathList)

/-! ## A text put into a file -/

theorem putAt_get (b : Str) (pos : Nat) (t : Str) (k : Nat) :
    (putAt b pos t)[k]? =
      if t = [] then b[k]? else if k < pos then (if k < b.length then b[k]? else some 0) else if k < pos + t.length then t[k - pos]? else b[k]? := by
  rw [putAt]
  split
  · rfl
  have hl : ((b ++ List.replicate (pos - b.length) 0).take pos).length = pos := by
    rw [List.length_take, List.length_append, List.length_replicate]; omega
  by_cases h1 : k < pos
  · rw [if_pos h1, List.append_assoc, List.getElem?_append_left (by rw [hl]; exact h1), List.getElem?_take_of_lt h1]
    by_cases h2 : k < b.length
    · rw [if_pos h2, List.getElem?_append_left h2]
    · rw [if_neg h2, List.getElem?_append_right (by omega), List.getElem?_replicate_of_lt (by omega)]
  · rw [if_neg h1]
    by_cases h2 : k < pos + t.length
    · rw [if_pos h2, List.append_assoc, List.getElem?_append_right (by rw [hl]; omega), hl, List.getElem?_append_left (by omega)]
    · rw [if_neg h2, List.getElem?_append_right (by rw [List.length_append, hl]; omega), List.length_append, hl, List.getElem?_drop]
      congr 1
      omega

/-! ## Streams on one file -/

/-- What is in the file comes from the streams: all bytes up to the place of the stream that was opened last, and what follows comes from the others or is NUL. -/
structure Cover {ι : Type} (b : Str) (pos : ι → Nat) (doc : ι → Str) (j : ι) : Prop where
  first : ∀ k, k < pos j → ∃ i, k < pos i ∧ b[k]? = (doc i)[k]?
  byte : ∀ k c, b[k]? = some c → c = 0 ∨ ∃ i, k < pos i ∧ (doc i)[k]? = some c
  reach : ∀ k, k < b.length → ∃ i, k < pos i

theorem cover_grow {ι : Type} [DecidableEq ι] {b : Str} {pos : ι → Nat} {doc : ι → Str} {j : ι} (h : Cover b pos doc j) (hpos : ∀ i, pos i ≤ (doc i).length) (i : ι) (t : Str) :
    Cover b pos (Function.update doc i (doc i ++ t)) j := by
  have hg : ∀ i' k, k < pos i' → (Function.update doc i (doc i ++ t) i')[k]? = (doc i')[k]? := by
    intro i' k hk
    by_cases hi : i' = i
    · subst hi
      rw [Function.update_self, List.getElem?_append_left (lt_of_lt_of_le hk (hpos i'))]
    · rw [Function.update_of_ne hi]
  refine ⟨fun k hk => ?_, fun k c hc => ?_, h.reach⟩
  · obtain ⟨i', h1, h2⟩ := h.first k hk
    exact ⟨i', h1, by rw [hg i' k h1]; exact h2⟩
  · rcases h.byte k c hc with h0 | ⟨i', h1, h2⟩
    · exact Or.inl h0
    · exact Or.inr ⟨i', h1, by rw [hg i' k h1]; exact h2⟩

theorem cover_flush {ι : Type} [DecidableEq ι] {b : Str} {pos : ι → Nat} {doc : ι → Str} {j : ι} (h : Cover b pos doc j) (hpos : ∀ i, pos i ≤ (doc i).length) (i : ι) (n : Nat) :
    Cover (putAt b (pos i) (((doc i).drop (pos i)).take n)) (Function.update pos i (pos i + (((doc i).drop (pos i)).take n).length)) doc j := by
  obtain ⟨t, ht⟩ : ∃ t, t = ((doc i).drop (pos i)).take n := ⟨_, rfl⟩
  rw [← ht]
  by_cases ht0 : t = []
  · rw [ht0]
    have : Function.update pos i (pos i + ([] : Str).length) = pos := by simp
    rw [this]
    have : putAt b (pos i) [] = b := if_pos rfl
    rw [this]
    exact h
  have hle : ∀ i', pos i' ≤ Function.update pos i (pos i + t.length) i' := by
    intro i'
    by_cases hi : i' = i
    · subst hi; rw [Function.update_self]; omega
    · rw [Function.update_of_ne hi]
  have hself : Function.update pos i (pos i + t.length) i = pos i + t.length := Function.update_self ..
  have htk : ∀ k, pos i ≤ k → k < pos i + t.length → t[k - pos i]? = (doc i)[k]? := by
    intro k h1 h2
    rw [ht, List.getElem?_take_of_lt, List.getElem?_drop]
    · congr 1; omega
    · have : t.length ≤ n := by rw [ht]; exact List.length_take_le ..
      omega
  have old : ∀ k, k < pos j → ∃ i', k < Function.update pos i (pos i + t.length) i' ∧ (putAt b (pos i) t)[k]? = (doc i')[k]? := by
    intro k hk
    obtain ⟨i', h1, h2⟩ := h.first k hk
    have hlen : k < b.length := by
      by_contra hge
      rw [List.getElem?_eq_none (by omega)] at h2
      have := List.getElem?_eq_none_iff.mp h2.symm
      have := hpos i'
      omega
    rw [putAt_get, if_neg ht0]
    by_cases c1 : k < pos i
    · rw [if_pos c1, if_pos hlen]
      exact ⟨i', lt_of_lt_of_le h1 (hle i'), h2⟩
    · rw [if_neg c1]
      by_cases c2 : k < pos i + t.length
      · rw [if_pos c2]
        exact ⟨i, by rw [hself]; exact c2, htk k (by omega) c2⟩
      · rw [if_neg c2]
        exact ⟨i', lt_of_lt_of_le h1 (hle i'), h2⟩
  refine ⟨fun k hk => ?_, fun k c hc => ?_, fun k hk => ?_⟩
  · by_cases hk' : k < pos j
    · exact old k hk'
    · have hij : j = i := by
        by_contra hne
        rw [Function.update_of_ne hne] at hk
        exact hk' hk
      subst hij
      rw [hself] at hk
      refine ⟨j, by rw [hself]; exact hk, ?_⟩
      rw [putAt_get, if_neg ht0, if_neg hk', if_pos hk]
      exact htk k (by omega) hk
  · rw [putAt_get, if_neg ht0] at hc
    have hb : b[k]? = some c → c = 0 ∨ ∃ i', k < Function.update pos i (pos i + t.length) i' ∧ (doc i')[k]? = some c := by
      intro hb
      rcases h.byte k c hb with h0 | ⟨i', h1, h2⟩
      · exact Or.inl h0
      · exact Or.inr ⟨i', lt_of_lt_of_le h1 (hle i'), h2⟩
    by_cases c1 : k < pos i
    · rw [if_pos c1] at hc
      by_cases c2 : k < b.length
      · rw [if_pos c2] at hc; exact hb hc
      · rw [if_neg c2] at hc; exact Or.inl (Option.some.inj hc).symm
    · rw [if_neg c1] at hc
      by_cases c2 : k < pos i + t.length
      · rw [if_pos c2, htk k (by omega) c2] at hc
        exact Or.inr ⟨i, by rw [hself]; exact c2, hc⟩
      · rw [if_neg c2] at hc; exact hb hc
  · have hg : (putAt b (pos i) t)[k]? ≠ none := by
      rw [ne_eq, List.getElem?_eq_none_iff]; omega
    rw [putAt_get, if_neg ht0] at hg
    by_cases c2 : k < pos i + t.length
    · exact ⟨i, by rw [hself]; exact c2⟩
    · rw [if_neg (by omega), if_neg c2] at hg
      have hkb : k < b.length := by
        by_contra hge
        exact hg (List.getElem?_eq_none (by omega))
      obtain ⟨i', hi'⟩ := h.reach k hkb
      exact ⟨i', lt_of_lt_of_le hi' (hle i')⟩

theorem cover_open {ι : Type} [DecidableEq ι] (pos : ι → Nat) (doc : ι → Str) (j : ι) : Cover [] (Function.update pos j 0) doc j :=
  ⟨fun k hk => by rw [Function.update_self] at hk; omega, fun k c hc => by simp at hc, fun k hk => by simp at hk⟩

/-! ## A recording does not look at files -/

/-- The files with a text at the end of one of them. -/
def addTo (g : Files) (f : Str) (t : Str) : Files := { g with bytes := fun m => if m = cstr f then g.bytes m ++ t else g.bytes m }

theorem addTo_nil (g : Files) (f : Str) : addTo g f [] = g := by
  simp [addTo]

/-- What holds of a process that has opened the output. -/
def Opened (f : Str) (p : Process) : Stage → Prop
  | .starting _ _ => False
  | .output _ => False
  | .input rest => Recording f p ∧ Measures (p.test rest)
  | .baseline rest => Recording f p ∧ Measures (p.test rest)
  | .testing q => Recording f p ∧ Measures q
  | .ended _ => p.obj.os = none ∨ p.obj.os = some f

theorem state_emit {f : Str} {p : Process} (hp : Recording f p) (g : Files) (t : Str) (stage : Stage) : p.to ((p.state g).emit t) stage = (addTo g f t, { p with stage := stage }) := by
  have h : (p.state g).emit t = ⟨p.obj, { (p.state g).world with bytes := fun m => if m = cstr f then g.bytes m ++ t else g.bytes m }⟩ := by
    have : (p.state g).obj.os = some f := hp.os
    rw [St.emit, this]
    rfl
  rw [h]
  rfl

theorem opened_stage {f : Str} {p : Process} (q : Prog) (hp : Recording f p) (hq : Measures q) : Opened f { p with stage := .testing q } (.testing q) := ⟨⟨hp.os, hp.is, hp.input⟩, hq⟩

/-- A step of a process that records adds a text to the output, which does not depend on the files, and does nothing else. -/
theorem step_adds (f : Str) (p : Process) (hp : Opened f p p.stage) :
    ∃ t p', Opened f p' p'.stage ∧ (p.obj.os = none → t = [] ∧ p'.obj.os = none) ∧ ∀ g, p.step g = (addTo g f t, p') := by
  have quiet : ∀ p', Opened f p' p'.stage → (p.obj.os = none → p'.obj.os = none) → (∀ g, p.step g = (g, p')) →
      ∃ t p', Opened f p' p'.stage ∧ (p.obj.os = none → t = [] ∧ p'.obj.os = none) ∧ ∀ g, p.step g = (addTo g f t, p') := by
    intro p' h1 h2 h3
    exact ⟨[], p', h1, fun h => ⟨rfl, h2 h⟩, fun g => by rw [addTo_nil]; exact h3 g⟩
  cases hst : p.stage with
  | starting a b => rw [hst] at hp; exact hp.elim
  | output r => rw [hst] at hp; exact hp.elim
  | input rest =>
    rw [hst] at hp
    have hos : p.obj.os ≠ none := by rw [hp.1.os]; simp
    refine quiet { p with stage := .baseline rest } ⟨⟨hp.1.os, hp.1.is, hp.1.input⟩, hp.2⟩ (fun h => absurd h hos) (fun g => ?_)
    have hin : (p.state g).obj.inFileName = [] := hp.1.input
    simp only [Process.step, hst, openInput, hin, ne_eq, not_true, if_false, Process.after]
    rfl
  | baseline rest =>
    rw [hst] at hp
    have hos : p.obj.os ≠ none := by rw [hp.1.os]; simp
    refine ⟨header (p.state ⟨⟨fun _ => none, fun _ => true, fun _ => true, fun _ => true⟩, fun _ => [], fun _ => true⟩).world, { p with stage := .testing (p.test rest) }, opened_stage _ hp.1 hp.2, fun h => absurd h hos, fun g => ?_⟩
    simp only [Process.step, hst, startOrRead, recording_mode hp.1 g, Bool.false_eq_true, if_false, Process.after]
    rw [state_emit hp.1]
    rfl
  | testing q =>
    rw [hst] at hp
    obtain ⟨hr, hq⟩ := hp
    have hos : p.obj.os ≠ none := by rw [hr.os]; simp
    cases q with
    | ret v =>
      refine ⟨footer, { p with obj := { p.obj with os := none, is := none, unmatched := p.obj.unmatched - 1 }, stage := .ended (.ok (if v = p.obj.expected then 0 else v)) }, Or.inl rfl, fun h => absurd h hos, fun g => ?_⟩
      have hf : finish (p.state g) = ⟨{ p.obj with os := none, is := none, unmatched := p.obj.unmatched - 1 }, ((p.state g).emit footer).world⟩ := by
        simp only [finish, endMeasurement, recording_mode hr g, Bool.false_eq_true, if_false]
        rw [emit_obj]
        rfl
      simp only [Process.step, hst, stepTest, hf]
      have hv : mainValue ⟨{ p.obj with os := none, is := none, unmatched := p.obj.unmatched - 1 }, ((p.state g).emit footer).world⟩ v = if v = p.obj.expected then 0 else v := by
        simp [mainValue, St.compareMode, hr.input]
      rw [hv]
      have he : ((p.state g).emit footer).world = { (p.state g).world with bytes := fun m => if m = cstr f then g.bytes m ++ footer else g.bytes m } := by
        have : (p.state g).obj.os = some f := hr.os
        rw [St.emit, this]
        rfl
      rw [he]
      rfl
    | fails e =>
      obtain ⟨r, hrr⟩ : ∃ r, ∀ g, caught (p.state g) e = r := ⟨_, fun g => caught_recording hr g ⟨⟨fun _ => none, fun _ => true, fun _ => true, fun _ => true⟩, fun _ => [], fun _ => true⟩ e⟩
      refine quiet { p with stage := .ended r } (Or.inr hr.os) (fun h => absurd h hos) (fun g => ?_)
      simp only [Process.step, hst, stepTest, hrr]
      rfl
    | call c k =>
      have hc : ∀ g : Files, runCall p.env (p.state g) c = match c.recorded with
          | .error e => (p.state g, .error e)
          | .ok m => match m.print with
            | .error e => (p.state g, .error e)
            | .ok t => ((p.state g).emit (t ++ b!"\n"), .ok 0) := by
        intro g
        rw [runCall, recording_mode hr g]
        rfl
      have hfail : ∀ e, (∀ g, runCall p.env (p.state g) c = (p.state g, .error e)) →
          ∃ t p', Opened f p' p'.stage ∧ (p.obj.os = none → t = [] ∧ p'.obj.os = none) ∧ ∀ g, p.step g = (addTo g f t, p') := by
        intro e he
        obtain ⟨r, hrr⟩ : ∃ r, ∀ g, caught (p.state g) e = r := ⟨_, fun g => caught_recording hr g ⟨⟨fun _ => none, fun _ => true, fun _ => true, fun _ => true⟩, fun _ => [], fun _ => true⟩ e⟩
        refine quiet { p with stage := .ended r } (Or.inr hr.os) (fun h => absurd h hos) (fun g => ?_)
        simp only [Process.step, hst, stepTest, he, Process.after, hrr]
        rfl
      cases hrec : c.recorded with
      | error e => exact hfail e (fun g => by rw [hc, hrec])
      | ok m =>
        cases hpr : m.print with
        | error e => exact hfail e (fun g => by rw [hc, hrec]; simp only [hpr])
        | ok t =>
          refine ⟨t ++ b!"\n", { p with stage := .testing (k 0) }, opened_stage _ hr (hq 0), fun h => absurd h hos, fun g => ?_⟩
          simp only [Process.step, hst, stepTest, hc, hrec, hpr, Process.after]
          rw [state_emit hr]
    | act a k => exact hq.elim
    | look k => exact hq.elim
    | ask k =>
      obtain ⟨r, hrr⟩ : ∃ r, ∀ g, (p.state g).settings = r := ⟨(p.state ⟨⟨fun _ => none, fun _ => true, fun _ => true, fun _ => true⟩, fun _ => [], fun _ => true⟩).settings, fun g => by
        rw [St.settings, St.settings, recording_mode hr g, recording_mode hr]
        rfl⟩
      refine quiet { p with stage := .testing (k r) } (opened_stage _ hr (hq r)) (fun h => absurd h hos) (fun g => ?_)
      simp only [Process.step, hst, stepTest, hrr]
      rfl
    | setTolerance t k => exact quiet { p with obj := { p.obj with tolerance := t }, stage := .testing k } ⟨⟨hr.os, hr.is, hr.input⟩, hq⟩ (fun h => absurd h hos) (fun g => by simp only [Process.step, hst, stepTest]; rfl)
    | setExpected t k => exact quiet { p with obj := { p.obj with expected := t }, stage := .testing k } ⟨⟨hr.os, hr.is, hr.input⟩, hq⟩ (fun h => absurd h hos) (fun g => by simp only [Process.step, hst, stepTest]; rfl)
    | setImageTolerance t k => exact quiet { p with obj := { p.obj with imageTol := t }, stage := .testing k } ⟨⟨hr.os, hr.is, hr.input⟩, hq⟩ (fun h => absurd h hos) (fun g => by simp only [Process.step, hst, stepTest]; rfl)
    | setSearchPath t k => exact quiet { p with obj := { p.obj with searchPath := t }, stage := .testing k } ⟨⟨hr.os, hr.is, hr.input⟩, hq⟩ (fun h => absurd h hos) (fun g => by simp only [Process.step, hst, stepTest]; rfl)
    | prependSearchPath t k => exact quiet { p with obj := { p.obj with searchPath := t :: p.obj.searchPath }, stage := .testing k } ⟨⟨hr.os, hr.is, hr.input⟩, hq⟩ (fun h => absurd h hos) (fun g => by simp only [Process.step, hst, stepTest]; rfl)
    | setInFileName t k => exact quiet { p with obj := { p.obj with inFileName := t }, stage := .testing k } ⟨⟨hr.os, hr.is, hq.1⟩, hq.2⟩ (fun h => absurd h hos) (fun g => by simp only [Process.step, hst, stepTest]; rfl)
    | setOutFileName t k => exact quiet { p with obj := { p.obj with outFileName := t }, stage := .testing k } ⟨⟨hr.os, hr.is, hr.input⟩, hq⟩ (fun h => absurd h hos) (fun g => by simp only [Process.step, hst, stepTest]; rfl)
  | ended r =>
    rw [hst] at hp
    refine quiet p (by rw [hst]; exact hp) id (fun g => ?_)
    simp only [Process.step, hst]

/-! ## The first two steps -/

/-- The files as they were, but for the output file, which may exist or not and hold anything. -/
structure Near (f : Str) (g0 g : Files) : Prop where
  creatable : g.creatable = g0.creatable
  bytes : ∀ m, m ≠ cstr f → g.bytes m = g0.bytes m
  stat : ∀ m, m ≠ cstr f → g.fs.stat m = g0.fs.stat m
  canRead : ∀ m, m ≠ cstr f → g.fs.canRead m = g0.fs.canRead m
  canWrite : g.fs.canWrite = g0.fs.canWrite
  canExec : g.fs.canExec = g0.fs.canExec
  here : g.fs.stat (cstr f) = none ∨ g.fs.stat (cstr f) = some .regular

/-- The files when the output has been opened. -/
def openedFiles (f : Str) (g : Files) : Files :=
  ⟨{ g.fs with
      stat := fun m => if m = cstr f then some .regular else g.fs.stat m
      canRead := fun m => if m = cstr f ∧ g.fs.stat (cstr f) = none then true else g.fs.canRead m }, fun m => if m = cstr f then [] else g.bytes m, g.creatable⟩

theorem near_refl {f : Str} {g : Files} (h : CanBeOutput g f) : Near f g g := ⟨rfl, fun _ _ => rfl, fun _ _ => rfl, fun _ _ => rfl, rfl, rfl, h.1⟩

theorem near_opened {f : Str} {g0 g : Files} (h : Near f g0 g) : Near f g0 (openedFiles f g) := by
  refine ⟨h.creatable, fun m hm => ?_, fun m hm => ?_, fun m hm => ?_, h.canWrite, h.canExec, Or.inr ?_⟩
  · simp only [openedFiles, if_neg hm]; exact h.bytes m hm
  · simp only [openedFiles, if_neg hm]; exact h.stat m hm
  · simp only [openedFiles, hm, false_and, if_false]; exact h.canRead m hm
  · simp [openedFiles]

theorem near_with {f : Str} {g0 g : Files} (h : Near f g0 g) (b : Str) : Near f g0 (g.with f b) := by
  refine ⟨h.creatable, fun m hm => ?_, h.stat, h.canRead, h.canWrite, h.canExec, h.here⟩
  simp only [Files.with, if_neg hm]; exact h.bytes m hm

theorem near_add {f : Str} {g0 g : Files} (h : Near f g0 g) (t : Str) : Near f g0 (addTo g f t) := by
  refine ⟨h.creatable, fun m hm => ?_, h.stat, h.canRead, h.canWrite, h.canExec, h.here⟩
  simp only [addTo, if_neg hm]; exact h.bytes m hm

theorem no_option {o : Str} : ∀ {ps : List (Str × Str)}, lastValue o ps = none → ∀ p ∈ ps, p.1 ≠ o := by
  intro ps h p hp he
  simp only [lastValue, values, List.getLast?_eq_none_iff, List.map_eq_nil_iff, List.filter_eq_nil_iff] at h
  exact h p hp (by simp [he])

theorem near_refused {f : Str} {g0 g : Files} (h : Near f g0 g) (h0 : CanBeOutput g0 f) {ps : List (Str × Str)} (hI : lastValue b!"-I" ps = none) (href : ∀ p ∈ ps, ¬ Refused g0.fs p) :
    ∀ p ∈ ps, ¬ Refused g.fs p := by
  intro p hp hr
  rcases hr with ⟨h1, -⟩ | ⟨h1, h2⟩
  · exact no_option hI p hp h1
  · apply href p hp
    refine Or.inr ⟨h1, fun h3 => h2 ?_⟩
    have hne : cstr p.2 ≠ cstr f := by
      intro he
      have := h3.1
      simp only [isDirectory, he] at this
      rcases h0.1 with h0 | h0 <;> rw [h0] at this <;> simp at this
    simpa only [isDirectory, isReadable, h.stat _ hne, h.canRead _ hne, h.canExec] using h3

/-- The command line is the same for all of them, and then the output is opened. -/
theorem first_steps {f : Str} {g0 : Files} {x : Start} (h0 : CanBeOutput g0 f) (hf : f ≠ []) (hx : Records g0 f x) :
    ∃ p1 p2, (∀ g, Near f g0 g → x.process.step g = (g, p1) ∧ p1.step g = (openedFiles f g, p2)) ∧ x.process.obj.os = none ∧ p1.obj.os = none ∧ p2.obj.os = some f ∧ Opened f p2 p2.stage := by
  obtain ⟨prog, ps, args, ha, hopt, href, hstop, hfuel, hI, hO, h1, h2, h3, ht⟩ := hx
  obtain ⟨o, ho⟩ : ∃ o : Obj, ∀ g, Near f g0 g → parseArguments g.fs x.fuel { x.obj with unmatched := x.obj.unmatched + 1 } x.argv = (o, .ok (prog :: args)) ∧
      o.os = none ∧ o.is = none ∧ o.inFileName = [] ∧ o.outFileName = f := by
    refine ⟨(parseArguments g0.fs x.fuel { x.obj with unmatched := x.obj.unmatched + 1 } x.argv).1, fun g hg => ?_⟩
    have hnw : ∀ g, Near f g0 g → (isFile g.fs f && !isWritable g.fs f) = false := by
      intro g hg
      rcases hg.here with h | h
      · simp [isFile, h]
      · simp [isFile, isWritable, isDirectory, h, hg.canWrite, h0.2.1]
    have hp : ∀ g, Near f g0 g → _ := fun g hg => C35_options_removed g.fs x.fuel { x.obj with unmatched := x.obj.unmatched + 1 } prog ps args hopt (near_refused hg h0 hI href) hstop hfuel
    have e1 := hp g hg
    have e0 := hp g0 (near_refl h0)
    rw [hI, hO] at e1 e0
    simp only [hnw g hg, hnw g0 (near_refl h0), Bool.false_eq_true, if_false] at e1 e0
    rw [ha, e1, e0]
    exact ⟨rfl, h1, h2, h3, rfl⟩
  obtain ⟨-, q1, q2, q3, q4⟩ := ho g0 (near_refl h0)
  refine ⟨{ x.process with obj := o, stage := .output (prog :: args) }, { x.process with obj := { o with os := some f }, stage := .input (prog :: args) }, fun g hg => ⟨?_, ?_⟩, h1, q1, rfl, ⟨rfl, q2, q3⟩, ht⟩
  · have hp := (ho g hg).1
    have : parseArguments (x.process.state g).world.fs x.fuel { (x.process.state g).obj with unmatched := (x.process.state g).obj.unmatched + 1 } x.argv = (o, .ok (prog :: args)) := hp
    simp only [Process.step, Start.process, stepArguments] at this ⊢
    rw [this]
    rfl
  · have hc : g.creatable (cstr f) = true := by rw [hg.creatable]; exact h0.2.2
    simp only [Process.step, openOutput, Process.state, q4, ne_eq, hf, not_false_eq_true, if_true, World.openWrite, hc, Process.after]
    rfl

/-! ## Any schedule -/

variable {ι : Type} [DecidableEq ι]

/-- What a process has written after some steps, alone. -/
def writes (f : Str) (g0 : Files) (x : Start) (n : Nat) : Str := if 2 ≤ n then (alone n (g0, x.process)).1.bytes (cstr f) else []

/-- The invariant: every process is where it would be alone after some number of steps, its stream has put the first part of what it has written into the file and has the rest in its buffer. -/
structure Inv (f : Str) (g0 : Files) (xs : ι → Start) (n : ι → Nat) (z : Shared ι) : Prop where
  proc : ∀ i, (alone (n i) (g0, (xs i).process)).2 = z.procs i
  near : ∀ i, Near f g0 (alone (n i) (g0, (xs i).process)).1
  opened : ∀ i, 2 ≤ n i → Opened f (z.procs i) (z.procs i).stage
  pos : ∀ i, (z.stream i).pos ≤ (writes f g0 (xs i) (n i)).length
  pending : ∀ i, (z.stream i).pending = (writes f g0 (xs i) (n i)).drop (z.stream i).pos
  files : Near f g0 z.files
  cover : (∀ i, n i < 2) ∨ ∃ j, 2 ≤ n j ∧ Cover (z.files.bytes (cstr f)) (fun i => (z.stream i).pos) (fun i => writes f g0 (xs i) (n i)) j

theorem alone_succ (n : Nat) (y : Files × Process) : alone (n + 1) y = ((alone n y).2).step (alone n y).1 := by
  rw [alone_add]
  rfl

theorem opened_os {f : Str} {p : Process} {st : Stage} (h : Opened f p st) : p.obj.os = none ∨ p.obj.os = some f := by
  cases st with
  | starting a b => exact h.elim
  | output r => exact h.elim
  | input r => exact Or.inr h.1.os
  | baseline r => exact Or.inr h.1.os
  | testing q => exact Or.inr h.1.os
  | ended r => exact h

theorem update_fun {α : Type} (n : ι → Nat) (F : ι → Nat → α) (i : ι) (v : Nat) : (fun i' => F i' (Function.update n i v i')) = Function.update (fun i' => F i' (n i')) i (F i v) := by
  funext i'
  by_cases h : i' = i
  · subst h; simp
  · simp [Function.update_of_ne h]

theorem add_with (g : Files) (f : Str) (t : Str) : (addTo g f t).with f (g.bytes (cstr f)) = g := by
  obtain ⟨fs, b, c⟩ := g
  simp only [addTo, Files.with, Files.mk.injEq, true_and, and_true]
  funext m
  by_cases h : m = cstr f
  · simp [h]
  · simp [h]

theorem inv_step {f : Str} {g0 : Files} {xs : ι → Start} (h0 : CanBeOutput g0 f) (hf : f ≠ []) (hx : ∀ i, Records g0 f (xs i)) {n : ι → Nat} {z : Shared ι} (h : Inv f g0 xs n z) (i : ι) :
    Inv f g0 xs (Function.update n i (n i + 1)) (turn f (.step i) z) := by
  obtain ⟨p1, p2, hs, o0, o1, o2, hop⟩ := first_steps h0 hf (hx i)
  have hs0 := hs g0 (near_refl h0)
  have hsz := hs z.files h.files
  have off : ∀ i', i' ≠ i → Function.update n i (n i + 1) i' = n i' := fun i' hi => Function.update_of_ne hi ..
  have on : Function.update n i (n i + 1) i = n i + 1 := Function.update_self ..
  have onp : ∀ q, Function.update z.procs i q i = q := fun q => Function.update_self ..
  have offp : ∀ q i', i' ≠ i → Function.update z.procs i q i' = z.procs i' := fun q i' hi => Function.update_of_ne hi ..
  -- what has to be shown, for the process whose turn it is and the files
  have build : ∀ (g' : Files) (q : Process) (st : Stream), turn f (.step i) z = ⟨g', Function.update z.procs i q, Function.update z.stream i st⟩ →
      (alone (n i + 1) (g0, (xs i).process)).2 = q → Near f g0 (alone (n i + 1) (g0, (xs i).process)).1 → (2 ≤ n i + 1 → Opened f q q.stage) →
      st.pos ≤ (writes f g0 (xs i) (n i + 1)).length → st.pending = (writes f g0 (xs i) (n i + 1)).drop st.pos → Near f g0 g' →
      ((∀ i', Function.update n i (n i + 1) i' < 2) ∨ ∃ j, 2 ≤ Function.update n i (n i + 1) j ∧
        Cover (g'.bytes (cstr f)) (fun i' => (Function.update z.stream i st i').pos) (Function.update (fun i' => writes f g0 (xs i') (n i')) i (writes f g0 (xs i) (n i + 1))) j) →
      Inv f g0 xs (Function.update n i (n i + 1)) (turn f (.step i) z) := by
    intro g' q st e1 e2 e3 e4 e5 e6 e7 e8
    rw [e1]
    have ons : ∀ q, Function.update z.stream i q i = q := fun q => Function.update_self ..
    have offs : ∀ q i', i' ≠ i → Function.update z.stream i q i' = z.stream i' := fun q i' hi => Function.update_of_ne hi ..
    refine ⟨fun i' => ?_, fun i' => ?_, fun i' => ?_, fun i' => ?_, fun i' => ?_, e7, ?_⟩
    · by_cases hi : i' = i
      · subst hi; simp only [on, onp]; exact e2
      · simp only [off i' hi, offp _ i' hi]; exact h.proc i'
    · by_cases hi : i' = i
      · subst hi; simp only [on]; exact e3
      · simp only [off i' hi]; exact h.near i'
    · by_cases hi : i' = i
      · subst hi; simp only [on, onp]; exact e4
      · simp only [off i' hi, offp _ i' hi]; exact h.opened i'
    · by_cases hi : i' = i
      · subst hi; simp only [on, ons]; exact e5
      · simp only [off i' hi, offs _ i' hi]; exact h.pos i'
    · by_cases hi : i' = i
      · subst hi; simp only [on, ons]; exact e6
      · simp only [off i' hi, offs _ i' hi]; exact h.pending i'
    · rcases e8 with e8 | ⟨j, e8, e9⟩
      · exact Or.inl e8
      · refine Or.inr ⟨j, e8, ?_⟩
        rw [update_fun n (fun i' => writes f g0 (xs i'))]
        exact e9
  have same : z.stream = Function.update z.stream i (z.stream i) := (Function.update_eq_self i z.stream).symm
  have hpi := h.proc i
  have hni := h.near i
  by_cases c0 : n i = 0
  · rw [c0] at hpi hni
    have hp0 : (xs i).process = z.procs i := hpi
    have hturn : turn f (.step i) z = ⟨z.files, Function.update z.procs i p1, Function.update z.stream i (z.stream i)⟩ := by
      simp only [turn, ← hp0, hsz.1, o0, o1, reduceCtorEq, if_false]
      rw [← same]
    have ha : alone (n i + 1) (g0, (xs i).process) = (g0, p1) := by rw [c0]; exact hs0.1
    have hw : writes f g0 (xs i) (n i + 1) = writes f g0 (xs i) (n i) := by rw [writes, writes, if_neg (by omega), if_neg (by omega)]
    refine build z.files p1 (z.stream i) hturn (by rw [ha]) (by rw [ha]; exact near_refl h0) (fun hh => by omega) (by rw [hw]; exact h.pos i) (by rw [hw]; exact h.pending i) h.files ?_
    rcases h.cover with hc | ⟨j, hj, hc⟩
    · left
      intro i'
      by_cases hi : i' = i
      · subst hi; rw [on]; omega
      · rw [off i' hi]; exact hc i'
    · right
      refine ⟨j, ?_, ?_⟩
      · by_cases hi : j = i
        · subst hi; omega
        · rw [off j hi]; exact hj
      · rw [hw, ← same, Function.update_eq_self i (fun i' => writes f g0 (xs i') (n i'))]
        exact hc
  by_cases c1 : n i = 1
  · rw [c1] at hpi hni
    have hp1 : p1 = z.procs i := by rw [← hpi]; exact (congrArg Prod.snd hs0.1).symm
    have hturn : turn f (.step i) z = ⟨openedFiles f z.files, Function.update z.procs i p2, Function.update z.stream i ⟨0, []⟩⟩ := by
      simp only [turn, ← hp1, hsz.2, o1, o2, reduceCtorEq, if_false, if_true]
    have ha : alone (n i + 1) (g0, (xs i).process) = (openedFiles f g0, p2) := by
      rw [c1, alone_succ]
      have : alone 1 (g0, (xs i).process) = (g0, p1) := hs0.1
      rw [this]
      exact hs0.2
    have hw : writes f g0 (xs i) (n i + 1) = [] := by
      rw [writes, if_pos (by omega), ha]
      simp [openedFiles]
    refine build (openedFiles f z.files) p2 ⟨0, []⟩ hturn (by rw [ha]) (by rw [ha]; exact near_opened (near_refl h0)) (fun _ => hop) (by simp) (by rw [hw]; rfl) (near_opened h.files) (Or.inr ⟨i, by rw [on]; omega, ?_⟩)
    have hb : (openedFiles f z.files).bytes (cstr f) = [] := by simp [openedFiles]
    have hpos : (fun i' => (Function.update z.stream i (⟨0, []⟩ : Stream) i').pos) = Function.update (fun i' => (z.stream i').pos) i 0 := by
      funext i'
      by_cases hi : i' = i
      · subst hi; simp
      · simp [Function.update_of_ne hi]
    rw [hb, hpos]
    exact cover_open _ _ i
  · have hn2 : 2 ≤ n i := by omega
    obtain ⟨t, p', ho', hnone, hstep⟩ := step_adds f (z.procs i) (h.opened i hn2)
    have ha : alone (n i + 1) (g0, (xs i).process) = (addTo (alone (n i) (g0, (xs i).process)).1 f t, p') := by
      rw [alone_succ, hpi]
      exact hstep _
    have hw : writes f g0 (xs i) (n i + 1) = writes f g0 (xs i) (n i) ++ t := by
      rw [writes, writes, if_pos (by omega), if_pos hn2, ha]
      simp [addTo]
    have hturn : turn f (.step i) z = ⟨z.files, Function.update z.procs i p', Function.update z.stream i ⟨(z.stream i).pos, (z.stream i).pending ++ t⟩⟩ := by
      rcases opened_os (h.opened i hn2) with hos | hos
      · obtain ⟨ht, hos'⟩ := hnone hos
        simp only [turn, hstep, hos, hos', reduceCtorEq, if_false, ht, addTo_nil, List.append_nil]
        rw [← same]
      · simp only [turn, hstep, hos, if_true, add_with]
        have : ((addTo z.files f t).bytes (cstr f)).drop (z.files.bytes (cstr f)).length = t := by simp [addTo]
        rw [this]
    refine build z.files p' ⟨(z.stream i).pos, (z.stream i).pending ++ t⟩ hturn (by rw [ha]) (by rw [ha]; exact near_add hni t) (fun _ => ho') ?_ ?_ h.files ?_
    · rw [hw, List.length_append]; exact le_trans (h.pos i) (by omega)
    · rw [hw, List.drop_append_of_le_length (h.pos i), h.pending i]
    · rcases h.cover with hc | ⟨j, hj, hc⟩
      · exact absurd (hc i) (by omega)
      · right
        refine ⟨j, ?_, ?_⟩
        · by_cases hi : j = i
          · subst hi; rw [on]; omega
          · rw [off j hi]; exact hj
        · have hpos : (fun i' => (Function.update z.stream i (⟨(z.stream i).pos, (z.stream i).pending ++ t⟩ : Stream) i').pos) = fun i' => (z.stream i').pos := by
            funext i'
            by_cases hi : i' = i
            · subst hi; simp
            · simp [Function.update_of_ne hi]
          rw [hpos, hw]
          exact cover_grow hc h.pos i t

theorem inv_flush {f : Str} {g0 : Files} {xs : ι → Start} {n : ι → Nat} {z : Shared ι} (h : Inv f g0 xs n z) (i : ι) (k : Nat) : Inv f g0 xs n (turn f (.flush i k) z) := by
  obtain ⟨t, ht⟩ : ∃ t, t = (z.stream i).pending.take k := ⟨_, rfl⟩
  have hturn : turn f (.flush i k) z = ⟨z.files.with f (putAt (z.files.bytes (cstr f)) (z.stream i).pos t), z.procs,
      Function.update z.stream i ⟨(z.stream i).pos + t.length, (z.stream i).pending.drop k⟩⟩ := by rw [ht]; rfl
  rw [hturn]
  have hlen : (z.stream i).pos + t.length ≤ (writes f g0 (xs i) (n i)).length := by
    have h1 : t.length ≤ (z.stream i).pending.length := by rw [ht]; exact List.length_take_le' ..
    rw [h.pending i, List.length_drop] at h1
    have := h.pos i
    omega
  have hdrop : (z.stream i).pending.drop k = (writes f g0 (xs i) (n i)).drop ((z.stream i).pos + t.length) := by
    rw [← List.drop_drop, ← h.pending i, ht, List.length_take]
    by_cases hk : k ≤ (z.stream i).pending.length
    · rw [Nat.min_eq_left hk]
    · rw [Nat.min_eq_right (by omega), List.drop_of_length_le (by omega), List.drop_length]
  refine ⟨h.proc, h.near, h.opened, fun i' => ?_, fun i' => ?_, near_with h.files _, ?_⟩
  · dsimp only
    by_cases hi : i' = i
    · subst hi; rw [Function.update_self]; exact hlen
    · rw [Function.update_of_ne hi]; exact h.pos i'
  · dsimp only
    by_cases hi : i' = i
    · subst hi; rw [Function.update_self]; exact hdrop
    · rw [Function.update_of_ne hi]; exact h.pending i'
  · rcases h.cover with hc | ⟨j, hj, hc⟩
    · exact Or.inl hc
    · right
      refine ⟨j, hj, ?_⟩
      have hb : (z.files.with f (putAt (z.files.bytes (cstr f)) (z.stream i).pos t)).bytes (cstr f) = putAt (z.files.bytes (cstr f)) (z.stream i).pos t := by simp [Files.with]
      have hpos : (fun i' => (Function.update z.stream i (⟨(z.stream i).pos + t.length, (z.stream i).pending.drop k⟩ : Stream) i').pos) =
          Function.update (fun i' => (z.stream i').pos) i ((z.stream i).pos + t.length) := by
        funext i'
        by_cases hi : i' = i
        · subst hi; simp
        · simp [Function.update_of_ne hi]
      rw [hb, hpos, ht, h.pending i]
      exact cover_flush hc h.pos i k

theorem inv_turns {f : Str} {g0 : Files} {xs : ι → Start} (h0 : CanBeOutput g0 f) (hf : f ≠ []) (hx : ∀ i, Records g0 f (xs i)) : ∀ (sched : List (Turn ι)) (n : ι → Nat) (z : Shared ι),
    Inv f g0 xs n z → ∃ n', Inv f g0 xs n' (turns f sched z) := by
  intro sched
  induction sched with
  | nil => intro n z h; exact ⟨n, h⟩
  | cons t sched ih =>
    intro n z h
    cases t with
    | step i =>
      exact ih _ _ (inv_step h0 hf hx h i)
    | flush i k => exact ih n _ (inv_flush h i k)

/-- The processes before anything has happened. -/
def begin {ι : Type} (g : Files) (xs : ι → Start) : Shared ι := ⟨g, fun i => (xs i).process, fun _ => {}⟩

theorem inv_begin {f : Str} {g0 : Files} {xs : ι → Start} (h0 : CanBeOutput g0 f) : Inv f g0 xs (fun _ => 0) (begin g0 xs) :=
  ⟨fun _ => rfl, fun _ => near_refl h0, fun _ h => by omega, fun _ => Nat.zero_le _, fun _ => by simp [begin, writes], near_refl h0, Or.inl fun _ => by omega⟩

/-- **C124.** Several runs record to the same file at the same time, in any order of their steps, and whenever parts of what they write reach the file.  When all have ended and all has been written:
every run has returned what it returns alone; there is one (the one that opened the file last) such that every byte of the file, up to the length of its document, is the byte that the
document of one of the runs has at that place; each byte beyond is one of a document at that place or NUL; the file is not longer than the longest document; and no other file is changed. -/
theorem C124_shared_output [Nonempty ι] (f : Str) (hf : f ≠ []) (g : Files) (h0 : CanBeOutput g f) (xs : ι → Start) (hx : ∀ i, Records g f (xs i)) (sched : List (Turn ι)) (z : Shared ι)
    (hz : turns f sched (begin g xs) = z) (hend : ∀ i, ∃ r, (z.procs i).stage = .ended r) (hdone : ∀ i, (z.stream i).pending = []) :
    (∀ i, (z.procs i).stage = .ended (result g (xs i))) ∧
    (∃ j, ∀ k : Nat, k < (document g f (xs j)).length → ∃ i, k < (document g f (xs i)).length ∧ (z.files.bytes (cstr f))[k]? = (document g f (xs i))[k]?) ∧
    (∀ (k : Nat) (c : UInt8), (z.files.bytes (cstr f))[k]? = some c → c = 0 ∨ ∃ i, (document g f (xs i))[k]? = some c) ∧
    (∃ i, (z.files.bytes (cstr f)).length ≤ (document g f (xs i)).length) ∧
    ∀ m, m ≠ cstr f → z.files.bytes m = g.bytes m ∧ z.files.fs.stat m = g.fs.stat m := by
  obtain ⟨n, h⟩ := inv_turns h0 hf hx sched _ _ (inv_begin (xs := xs) h0)
  rw [hz] at h
  -- every process is at the end of its run
  have hfin : ∀ i, (z.procs i).stage = .ended (result g (xs i)) ∧ writes f g (xs i) (n i) = document g f (xs i) ∧ 2 ≤ n i := by
    intro i
    obtain ⟨r, hr⟩ := hend i
    obtain ⟨m, hm⟩ := C116_alone (xs i) g
    have hs : alone (n i + m) (g, (xs i).process) = alone (n i) (g, (xs i).process) := by
      rw [alone_add]
      exact alone_ended m _ _ r (by rw [h.proc i]; exact hr)
    obtain ⟨a1, a2, -, -⟩ := hm (n i + m) (by omega)
    rw [hs] at a1 a2
    rw [h.proc i] at a2
    have hn2 : 2 ≤ n i := by
      obtain ⟨p1, p2, hst, -, -, -, -⟩ := first_steps h0 hf (hx i)
      have hs0 := hst g (near_refl h0)
      by_contra hlt
      have hc : n i = 0 ∨ n i = 1 := by omega
      have hpi := h.proc i
      rcases hc with hc | hc
      · rw [hc] at hpi
        have : (xs i).process = z.procs i := hpi
        rw [← this] at hr
        cases hr
      · rw [hc] at hpi
        have h1 : alone 1 (g, (xs i).process) = (g, p1) := hs0.1
        rw [h1] at hpi
        have hp2 : p1.step g = (g, p1) := by
          have hpi' : p1 = z.procs i := hpi
          rw [← hpi'] at hr
          simp only [Process.step, hr]
        rw [hp2] at hs0
        have e := congrArg (fun y => y.2.obj.os) hs0.2
        obtain ⟨q1, q2, q3, q4, q5, q6, q7⟩ := first_steps h0 hf (hx i)
        have hq := q3 g (near_refl h0)
        have e1 : q1 = p1 := by
          have := hs0.1.symm.trans hq.1
          exact (congrArg Prod.snd this).symm
        rw [e1, hp2] at hq
        have := congrArg (fun y => y.2.obj.os) hq.2
        simp only at this
        rw [e1] at q5
        rw [q5, q6] at this
        cases this
    refine ⟨a2, ?_, hn2⟩
    rw [writes, if_pos hn2, a1]
    rfl
  have hpos : ∀ i, (z.stream i).pos = (document g f (xs i)).length := by
    intro i
    have h1 := h.pending i
    rw [hdone i, (hfin i).2.1] at h1
    have h2 := h.pos i
    rw [(hfin i).2.1] at h2
    have := List.drop_eq_nil_iff.mp h1.symm
    omega
  obtain ⟨i0⟩ := ‹Nonempty ι›
  obtain ⟨j, -, hc⟩ : ∃ j, 2 ≤ n j ∧ Cover (z.files.bytes (cstr f)) (fun i => (z.stream i).pos) (fun i => writes f g (xs i) (n i)) j := by
    rcases h.cover with hc | hc
    · exact absurd (hc i0) (by have := (hfin i0).2.2; omega)
    · exact hc
  refine ⟨fun i => (hfin i).1, ⟨j, fun k hk => ?_⟩, fun k c hkc => ?_, ?_, fun m hm => ⟨h.files.bytes m hm, h.files.stat m hm⟩⟩
  · obtain ⟨i, h1, h2⟩ := hc.first k (by rw [hpos j]; exact hk)
    exact ⟨i, by rw [← hpos i]; exact h1, by rw [h2, (hfin i).2.1]⟩
  · rcases hc.byte k c hkc with h1 | ⟨i, -, h1⟩
    · exact Or.inl h1
    · exact Or.inr ⟨i, by rw [← (hfin i).2.1]; exact h1⟩
  · by_cases hl : (z.files.bytes (cstr f)).length = 0
    · exact ⟨i0, by omega⟩
    · obtain ⟨i, hi⟩ := hc.reach ((z.files.bytes (cstr f)).length - 1) (by omega)
      simp only [hpos i] at hi
      exact ⟨i, by omega⟩

end Verif.Parallel
