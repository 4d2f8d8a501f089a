import Verif.Parallel.FullDisk
import Verif.Parallel.FullDiskSpec
import Verif.Parallel.Props
import Verif.Xml.CrashProps

/-!
# C117: a recording that does not fit on the disk
-/

set_option linter.unusedSimpArgs false

namespace Verif.Parallel
open Spec Verif.Regression Verif.Regression.Spec Verif.Measurement Verif.Xml Verif.Xml.Spec
open Verif.Path (isFile isReadable isWritable searchPathList)

/-- The second world is the first, with at most `n` bytes in the file. -/
def Lim (n : Nat) (f : Str) (g g' : Files) : Prop :=
  g.fs = g'.fs ∧ g.creatable = g'.creatable ∧ (∀ m, m ≠ cstr f → g.bytes m = g'.bytes m) ∧ g'.bytes (cstr f) = (g.bytes (cstr f)).take n

theorem cut_lim (n : Nat) (f : Str) (g : Files) : Lim n f g (g.cut n (some f)) :=
  ⟨rfl, rfl, fun _ hm => (if_neg hm).symm, if_pos rfl⟩

theorem take_append_take {α : Type} (n : Nat) (a t : List α) : (a.take n ++ t).take n = (a ++ t).take n := by
  rcases Nat.le_total n a.length with h | h
  · rw [List.take_append_of_le_length (by simp [h]), List.take_append_of_le_length h, List.take_take, Nat.min_self]
  · rw [List.take_of_length_le h]

/-- The invariant of a process that records to the file. -/
structure Recording (f : Str) (p : Process) : Prop where
  os : p.obj.os = some f
  is : p.obj.is = none
  input : p.obj.inFileName = []

/-- Files and worlds. -/
theorem lim_world {n : Nat} {f : Str} {g g' : Files} (h : Lim n f g g') (p : Process) : SameBut f (p.state g).world (p.state g').world :=
  ⟨h.1, h.2.1, rfl, rfl, rfl, h.2.2.1⟩

theorem recording_mode {f : Str} {p : Process} (h : Recording f p) (g : Files) : (p.state g).compareMode = false := by
  simp [St.compareMode, Process.state, h.is, h.input]

theorem caught_recording {f : Str} {p : Process} (h : Recording f p) (g g' : Files) (e : Fault) : caught (p.state g) e = caught (p.state g') e := by
  have hv : mainValue (p.state g) (-1) = mainValue (p.state g') (-1) := by
    rw [mainValue, mainValue, recording_mode h g, recording_mode h g']
    rfl
  cases e <;> simp only [caught, hv]

/-- Writing a text: the same, cut. -/
theorem emit_cut {n : Nat} {f : Str} {g g' : Files} (h : Lim n f g g') {p : Process} (hp : Recording f p) (t : Str) :
    Lim n f (filesOf ((p.state g).emit t)) ((filesOf ((p.state g').emit t)).cut n (some f)) ∧
      ((p.state g).emit t).obj = p.obj ∧ ((p.state g').emit t).obj = p.obj ∧
      ∀ stage, p.next ((p.state g).emit t) stage = p.next ((p.state g').emit t) stage := by
  have e : ∀ g : Files, (p.state g).emit t = ⟨p.obj, { (p.state g).world with bytes := fun m => if m = cstr f then g.bytes m ++ t else g.bytes m }⟩ := by
    intro g
    have : (p.state g).obj.os = some f := hp.os
    rw [St.emit, this]
    rfl
  rw [e, e]
  refine ⟨⟨h.1, h.2.1, ?_, ?_⟩, rfl, rfl, fun _ => rfl⟩
  · intro m hm
    simp only [filesOf, Files.cut, if_neg hm]
    exact h.2.2.1 m hm
  · simp only [filesOf, Files.cut, if_true]
    rw [h.2.2.2, take_append_take]

/-- What holds at a stage. -/
def RecordingAt (f : Str) (p : Process) : Stage → Prop
  | .starting _ _ => False
  | .output _ => False
  | .input rest => Recording f p ∧ Ignores f (p.test rest)
  | .baseline rest => Recording f p ∧ Ignores f (p.test rest)
  | .testing q => Recording f p ∧ Ignores f q
  | .ended _ => p.obj.os = none ∨ p.obj.os = some f

/-- Two states with the same object whose files are the same but for the cut. -/
theorem to_cut {n : Nat} {f : Str} {p : Process} (hp : Recording f p) (s s' : St) (hs : s.obj = s'.obj) (hw : s.world.cout = s'.world.cout ∧ s.world.host = s'.world.host ∧ s.world.time = s'.world.time)
    (h : Lim n f (filesOf s) ((filesOf s').cut n (some f))) (stage : Stage) (hst : RecordingAt f (p.next s stage) stage) :
    (p.to s stage).2 = (p.to s' stage).2 ∧ Lim n f (p.to s stage).1 ((p.to s' stage).1.cut n p.obj.os) ∧ RecordingAt f (p.to s stage).2 (p.to s stage).2.stage := by
  refine ⟨?_, by rw [hp.os]; exact h, hst⟩
  simp only [Process.to, Process.next, hs, hw.1, hw.2.1, hw.2.2]

theorem lim_cut {n : Nat} {f : Str} {g g' : Files} (h : Lim n f g g') : Lim n f g (g'.cut n (some f)) := by
  refine ⟨h.1, h.2.1, fun m hm => ?_, ?_⟩
  · simp only [Files.cut, if_neg hm]; exact h.2.2.1 m hm
  · simp only [Files.cut, if_true]; rw [h.2.2.2, List.take_take, Nat.min_self]

theorem step_cut {n : Nat} {f : Str} {g g' : Files} (h : Lim n f g g') (p : Process) (hp : RecordingAt f p p.stage) :
    (p.step g).2 = (p.stepOn n g').2 ∧ Lim n f (p.step g).1 (p.stepOn n g').1 ∧ RecordingAt f (p.step g).2 (p.step g).2.stage := by
  have hlc := lim_cut h
  cases hst : p.stage with
  | starting a b => rw [hst] at hp; exact hp.elim
  | output r => rw [hst] at hp; exact hp.elim
  | input rest =>
    rw [hst] at hp
    have hin : (p.state g).obj.inFileName = [] := hp.1.input
    have hin' : (p.state g').obj.inFileName = [] := hp.1.input
    simp only [Process.stepOn, Process.step, hst, openInput, hin, hin', ne_eq, not_true, if_false, Process.after]
    exact to_cut hp.1 (p.state g) (p.state g') rfl ⟨rfl, rfl, rfl⟩ hlc _ ⟨⟨hp.1.os, hp.1.is, hp.1.input⟩, hp.2⟩
  | baseline rest =>
    rw [hst] at hp
    have hh : header (p.state g').world = header (p.state g).world := rfl
    obtain ⟨e1, e2, e3, e4⟩ := emit_cut h hp.1 (header (p.state g).world)
    simp only [Process.stepOn, Process.step, hst, startOrRead, recording_mode hp.1 g, recording_mode hp.1 g', Bool.false_eq_true, if_false, Process.after, hh]
    refine ⟨e4 _, by rw [hp.1.os]; exact e1, ?_⟩
    exact ⟨⟨by simp only [Process.to, Process.next]; rw [e2]; exact hp.1.os, by simp only [Process.to, Process.next]; rw [e2]; exact hp.1.is, by simp only [Process.to, Process.next]; rw [e2]; exact hp.1.input⟩, hp.2⟩
  | testing q =>
    rw [hst] at hp
    obtain ⟨hr, hq⟩ := hp
    simp only [Process.stepOn, Process.step, hst]
    cases q with
    | ret v =>
      obtain ⟨e1, e2, e3, e4⟩ := emit_cut h hr footer
      have hf : ∀ g : Files, finish (p.state g) = ⟨{ p.obj with os := none, is := none, unmatched := p.obj.unmatched - 1 }, ((p.state g).emit footer).world⟩ := by
        intro g
        simp only [finish, endMeasurement, recording_mode hr g, Bool.false_eq_true, if_false]
        rw [emit_obj]
        rfl
      simp only [stepTest, hf]
      have hv : ∀ w w' : World, mainValue ⟨{ p.obj with os := none, is := none, unmatched := p.obj.unmatched - 1 }, w⟩ v = mainValue ⟨{ p.obj with os := none, is := none, unmatched := p.obj.unmatched - 1 }, w'⟩ v := by
        intro w w'
        simp [mainValue, St.compareMode, hr.input]
      rw [hv ((p.state g).emit footer).world ((p.state g').emit footer).world]
      have hw : ∀ g : Files, ((p.state g).emit footer).world.cout = p.cout ∧ ((p.state g).emit footer).world.host = p.host ∧ ((p.state g).emit footer).world.time = p.time := by
        intro g
        have : (p.state g).obj.os = some f := hr.os
        rw [St.emit, this]
        exact ⟨rfl, rfl, rfl⟩
      refine ⟨?_, by rw [hr.os]; exact e1, Or.inl rfl⟩
      simp only [Process.to, Process.next, (hw g).1, (hw g).2.1, (hw g).2.2, (hw g').1, (hw g').2.1, (hw g').2.2]
    | fails e =>
      have hc : caught (p.state g) e = caught (p.state g') e := by
        exact caught_recording hr g g' e
      simp only [stepTest, hc]
      exact to_cut hr (p.state g) (p.state g') rfl ⟨rfl, rfl, rfl⟩ hlc _ (Or.inr hr.os)
    | call c k =>
      have hc : ∀ g : Files, runCall p.env (p.state g) c = match c.recorded with
          | .error e => (p.state g, .error e)
          | .ok m => match m.print with
            | .error e => (p.state g, .error e)
            | .ok t => ((p.state g).emit (t ++ b!"\n"), .ok 0) := by
        intro g
        rw [runCall, recording_mode hr g]
        rfl
      have hce : ∀ e, caught (p.state g) e = caught (p.state g') e := by
        exact fun e => caught_recording hr g g' e
      simp only [stepTest, hc]
      cases c.recorded with
      | error e =>
        simp only [Process.after, hce]
        exact to_cut hr (p.state g) (p.state g') rfl ⟨rfl, rfl, rfl⟩ hlc _ (Or.inr hr.os)
      | ok m =>
        simp only
        cases m.print with
        | error e =>
          simp only [Process.after, hce]
          exact to_cut hr (p.state g) (p.state g') rfl ⟨rfl, rfl, rfl⟩ hlc _ (Or.inr hr.os)
        | ok t =>
          obtain ⟨e1, e2, e3, e4⟩ := emit_cut h hr (t ++ b!"\n")
          refine ⟨e4 _, by rw [hr.os]; exact e1, ?_⟩
          exact ⟨⟨by simp only [Process.after, Process.to, Process.next]; rw [e2]; exact hr.os, by simp only [Process.after, Process.to, Process.next]; rw [e2]; exact hr.is,
            by simp only [Process.after, Process.to, Process.next]; rw [e2]; exact hr.input⟩, hq 0⟩
    | act a k =>
      simp only [stepTest]
      obtain ⟨b1, b2, b3, b4, b5, b6⟩ := hq.1.2 _ _ (lim_world h p)
      refine to_cut hr ⟨p.obj, a (p.state g).world⟩ ⟨p.obj, a (p.state g').world⟩ rfl ⟨b3, b4, b5⟩ ⟨b1, b2, ?_, ?_⟩ (.testing k) ⟨⟨hr.os, hr.is, hr.input⟩, hq.2⟩
      · intro m hm
        simp only [filesOf, Files.cut, if_neg hm]
        exact b6 m hm
      · simp only [filesOf, Files.cut, if_true, hq.1.1]
        show (g'.bytes (cstr f)).take n = (g.bytes (cstr f)).take n
        rw [h.2.2.2, List.take_take, Nat.min_self]
    | look k =>
      simp only [stepTest]
      rw [hq.1 _ _ (lim_world h p)]
      exact to_cut hr (p.state g) (p.state g') rfl ⟨rfl, rfl, rfl⟩ hlc _ ⟨⟨hr.os, hr.is, hr.input⟩, hq.2 _⟩
    | ask k =>
      simp only [stepTest]
      have hse : (p.state g).settings = (p.state g').settings := by
        rw [St.settings, St.settings, recording_mode hr g, recording_mode hr g']
        rfl
      rw [hse]
      exact to_cut hr (p.state g) (p.state g') rfl ⟨rfl, rfl, rfl⟩ hlc _ ⟨⟨hr.os, hr.is, hr.input⟩, hq _⟩
    | setTolerance t k =>
      exact to_cut hr ⟨{ p.obj with tolerance := t }, (p.state g).world⟩ ⟨{ p.obj with tolerance := t }, (p.state g').world⟩ rfl ⟨rfl, rfl, rfl⟩ hlc (.testing k) ⟨⟨hr.os, hr.is, hr.input⟩, hq⟩
    | setExpected t k =>
      exact to_cut hr ⟨{ p.obj with expected := t }, (p.state g).world⟩ ⟨{ p.obj with expected := t }, (p.state g').world⟩ rfl ⟨rfl, rfl, rfl⟩ hlc (.testing k) ⟨⟨hr.os, hr.is, hr.input⟩, hq⟩
    | setImageTolerance t k =>
      exact to_cut hr ⟨{ p.obj with imageTol := t }, (p.state g).world⟩ ⟨{ p.obj with imageTol := t }, (p.state g').world⟩ rfl ⟨rfl, rfl, rfl⟩ hlc (.testing k) ⟨⟨hr.os, hr.is, hr.input⟩, hq⟩
    | setSearchPath t k =>
      exact to_cut hr ⟨{ p.obj with searchPath := t }, (p.state g).world⟩ ⟨{ p.obj with searchPath := t }, (p.state g').world⟩ rfl ⟨rfl, rfl, rfl⟩ hlc (.testing k) ⟨⟨hr.os, hr.is, hr.input⟩, hq⟩
    | prependSearchPath t k =>
      exact to_cut hr ⟨{ p.obj with searchPath := t :: p.obj.searchPath }, (p.state g).world⟩ ⟨{ p.obj with searchPath := t :: p.obj.searchPath }, (p.state g').world⟩ rfl ⟨rfl, rfl, rfl⟩ hlc (.testing k) ⟨⟨hr.os, hr.is, hr.input⟩, hq⟩
    | setInFileName t k =>
      exact to_cut hr ⟨{ p.obj with inFileName := t }, (p.state g).world⟩ ⟨{ p.obj with inFileName := t }, (p.state g').world⟩ rfl ⟨rfl, rfl, rfl⟩ hlc (.testing k) ⟨⟨hr.os, hr.is, hq.1⟩, hq.2⟩
    | setOutFileName t k =>
      exact to_cut hr ⟨{ p.obj with outFileName := t }, (p.state g).world⟩ ⟨{ p.obj with outFileName := t }, (p.state g').world⟩ rfl ⟨rfl, rfl, rfl⟩ hlc (.testing k) ⟨⟨hr.os, hr.is, hr.input⟩, hq⟩
  | ended r =>
    rw [hst] at hp
    simp only [Process.stepOn, Process.step, hst]
    refine ⟨trivial, ?_, hp⟩
    rcases hp with hp | hp
    · rw [hp]; exact h
    · rw [hp]; exact hlc

theorem alone_cut {n : Nat} {f : Str} : ∀ (k : Nat) (g g' : Files) (p : Process), Lim n f g g' → RecordingAt f p p.stage →
    (alone k (g, p)).2 = (aloneOn n k (g', p)).2 ∧ Lim n f (alone k (g, p)).1 (aloneOn n k (g', p)).1 := by
  intro k
  induction k with
  | zero => intro g g' p h _; exact ⟨rfl, h⟩
  | succ k ih =>
    intro g g' p h hp
    obtain ⟨e1, e2, e3⟩ := step_cut h p hp
    have := ih (p.step g).1 (p.stepOn n g').1 (p.step g).2 e2 e3
    rw [alone, aloneOn]
    rw [show p.stepOn n g' = ((p.stepOn n g').1, (p.step g).2) from Prod.ext rfl e1.symm]
    exact this

/-- **C117.** A recording on a disk that takes only the first `n` bytes of the output, whatever `n`: it ends, with the value, the object and the standard output of a recording on a disk
that takes all, and no file is different but the output, which has the first `n` bytes of what it would have. -/
theorem C117_full_disk (x : Start) (g : Files) (o : Obj) (rest : List Str) (n : Nat)
    (hparse : parseArguments g.fs x.fuel { x.obj with unmatched := x.obj.unmatched + 1 } x.argv = (o, .ok rest)) (hidle : x.obj.os = none)
    (h1 : o.is = none) (h2 : o.inFileName = []) (h3 : o.outFileName ≠ []) (h4 : g.creatable (cstr o.outFileName) = true) (ht : Ignores o.outFileName (x.test rest)) :
    let m := main x.env x.test x.fuel x.argv (x.state g)
    ∃ k0, ∀ k, k0 ≤ k →
      (aloneOn n k (g, x.process)).2.stage = .ended m.2 ∧ (aloneOn n k (g, x.process)).2.obj = m.1.obj ∧ (aloneOn n k (g, x.process)).2.cout = m.1.world.cout ∧
      (aloneOn n k (g, x.process)).1.fs = m.1.world.fs ∧ (∀ file, file ≠ cstr o.outFileName → (aloneOn n k (g, x.process)).1.bytes file = m.1.world.bytes file) ∧
      (aloneOn n k (g, x.process)).1.bytes (cstr o.outFileName) = (m.1.world.bytes (cstr o.outFileName)).take n := by
  intro m
  obtain ⟨k0, hk0⟩ := C116_alone x g
  -- the first two steps are the same
  obtain ⟨w', hw⟩ : ∃ w', (x.state g).world.openWrite o.outFileName = some w' ∧ w'.bytes (cstr o.outFileName) = [] := by
    have : (x.state g).world.creatable (cstr o.outFileName) = true := h4
    rw [World.openWrite]
    simp only [if_pos this]
    exact ⟨_, rfl, by simp⟩
  have hf := arguments_facts _ _ _ _ _ _ hparse
  have hos : o.os = none := by rw [hf.2.2.2.1]; exact hidle
  obtain ⟨p1, hp1⟩ : ∃ p1, p1 = x.process.next ⟨o, (x.state g).world⟩ (.output rest) := ⟨_, rfl⟩
  obtain ⟨p2, hp2⟩ : ∃ p2, p2 = x.process.next ⟨{ o with os := some o.outFileName }, w'⟩ (.input rest) := ⟨_, rfl⟩
  obtain ⟨g2, hg2⟩ : ∃ g2, g2 = filesOf ⟨{ o with os := some o.outFileName }, w'⟩ := ⟨_, rfl⟩
  have hs1 : x.process.step g = (g, p1) := by
    have : parseArguments (x.process.state g).world.fs x.fuel { (x.process.state g).obj with unmatched := (x.process.state g).obj.unmatched + 1 } x.argv = (o, .ok rest) := hparse
    simp only [Process.step, Start.process, stepArguments] at this ⊢
    rw [this, hp1]
    rfl
  have hs2 : p1.step g = (g2, p2) := by
    have e : p1.step g = p1.after (openOutput ⟨o, (x.state g).world⟩) (fun _ => .input rest) := by rw [hp1]; rfl
    have : openOutput ⟨o, (x.state g).world⟩ = (⟨{ o with os := some o.outFileName }, w'⟩, .ok ()) := by
      simp only [openOutput, ne_eq, h3, not_false_eq_true, if_true, hw.1]
    rw [e, this, hp1, hp2, hg2]
    rfl
  have hc1 : x.process.stepOn n g = (g, p1) := by
    have : x.process.obj.os = none := hidle
    rw [Process.stepOn, hs1, this]
    rfl
  have hc2 : p1.stepOn n g = (g2, p2) := by
    have : p1.obj.os = none := by rw [hp1]; exact hos
    rw [Process.stepOn, hs2, this]
    rfl
  have hlim : Lim n o.outFileName g2 g2 := by
    refine ⟨rfl, rfl, fun _ _ => rfl, ?_⟩
    have : g2.bytes (cstr o.outFileName) = [] := by rw [hg2]; exact hw.2
    rw [this, List.take_nil]
  have hrec : RecordingAt o.outFileName p2 p2.stage := by
    rw [hp2]
    exact ⟨⟨rfl, h1, h2⟩, ht⟩
  refine ⟨k0 + 2, fun k hk => ?_⟩
  obtain ⟨j, rfl⟩ : ∃ j, k = j + 2 := ⟨k - 2, by omega⟩
  obtain ⟨a1, a2⟩ := alone_cut (n := n) j g2 g2 p2 hlim hrec
  have e1 : alone (j + 2) (g, x.process) = alone j (g2, p2) := by
    show alone j (((x.process.step g).2).step (x.process.step g).1) = _
    rw [hs1, hs2]
  have e2 : aloneOn n (j + 2) (g, x.process) = aloneOn n j (g2, p2) := by
    show aloneOn n j (((x.process.stepOn n g).2).stepOn n (x.process.stepOn n g).1) = _
    rw [hc1, hc2]
  obtain ⟨b1, b2, b3, b4⟩ := hk0 (j + 2) (by omega)
  rw [e1] at b1 b2 b3 b4
  rw [e2]
  rw [b1] at a2
  rw [a1] at b2 b3 b4
  exact ⟨b2, b3, b4, a2.1.symm, fun file hfile => (a2.2.2.1 file hfile).symm, a2.2.2.2⟩

/-- A test that ignores a file keeps it. -/
theorem ignores_keeps (f : Str) : ∀ q : Prog, Ignores f q → Regression.Spec.Keeps (some f) q := by
  intro q
  induction q with
  | ret v => intro _; trivial
  | fails v => intro _; trivial
  | call c k ih => intro h r; exact ih r (h r)
  | act a k ih => intro h; exact ⟨h.1.1, ih h.2⟩
  | look k ih => intro h w; exact ih w (h.2 w)
  | ask k ih => intro h w; exact ih w (h w)
  | setTolerance t k ih => intro h; exact ih h
  | setExpected t k ih => intro h; exact ih h
  | setImageTolerance t k ih => intro h; exact ih h
  | setSearchPath t k ih => intro h; exact ih h
  | prependSearchPath t k ih => intro h; exact ih h
  | setInFileName t k ih => intro h; exact ⟨h.1, ih h.2⟩
  | setOutFileName t k ih => intro h; exact ih h

theorem ignores_straight (f : Str) (v : Int) : ∀ cs : List Call, Ignores f (straight v cs) := by
  intro cs
  induction cs with
  | nil => trivial
  | cons c cs ih => exact fun _ => ih

/-- The recording of a number of measurements. -/
def recordingRun (X : Expat) (env : Env) (v : Int) (cs : List Call) (fuel : Nat) (prog f host time : Str) : Start :=
  { env := withXML X env, test := fun _ => straight v cs, fuel := fuel, argv := [prog, b!"-O", f], host := host, time := time }

/-- **C117, negative.** A recording that does not fit is not noticed: `Main` returns what the test returns (0, say), however few bytes of the output could be written.
**C117.** If two bytes or more are missing, no later run with that file as baseline passes, whatever its test measures and returns. -/
theorem C117_incomplete_never_passes (X : Expat) (hX : RejectsTruncated X) (env : Env) (v : Int) (cs : List Call) (hclean : ∀ c ∈ cs, Clean (recordedMeas c)) (fuel : Nat) (hfuel : 1 < fuel)
    (prog f host time : Str) (g : Files) (hf : f ≠ []) (hcreate : g.creatable (cstr f) = true)
    (hnew : g.fs.stat (cstr f) = none ∨ (g.fs.canRead (cstr f) = true ∧ g.fs.canWrite (cstr f) = true)) (n : Nat) :
    let x := recordingRun X env v cs fuel prog f host time
    let document := header (x.state g).world ++ (cs.map fun c => line (recordedMeas c)).flatten ++ footer
    ∃ k0, ∀ k, k0 ≤ k →
      (aloneOn n k (g, x.process)).2.stage = .ended (.ok v) ∧ (aloneOn n k (g, x.process)).1.bytes (cstr f) = document.take n ∧
      (Comment (commentText (x.state g).world) → n + 2 ≤ document.length → ∀ (y : Start) (env' : Env) (prog' : Str), y.env = withXML X env' → y.argv = [prog', b!"-I", f] → y.obj = {} → 1 < y.fuel →
        (main y.env y.test y.fuel y.argv (y.state (aloneOn n k (g, x.process)).1)).2 ≠ .ok 0) := by
  intro x document
  obtain ⟨⟨r1, r2, r3, r4⟩, r5⟩ := record_run_at (64 / 8388608) [] [] (by simp [Stops]) X env v cs fuel hfuel prog f (x.state g).world hf hcreate hnew
  have hnw : ¬ (isFile g.fs f = true ∧ isWritable g.fs f = false) := by
    rintro ⟨h1, h2⟩
    rcases hnew with h | ⟨_, h⟩
    · simp [isFile, h] at h1
    · simp [isWritable, Path.isDirectory, h] at h2
      simp [isFile, h2.1] at h1
  have hparse : parseArguments g.fs fuel { unmatched := 0 + 1 } [prog, b!"-O", f] = ({ unmatched := 0 + 1, outFileName := f }, .ok [prog]) := by
    have := C35_options_removed g.fs fuel { unmatched := 0 + 1 } prog [(b!"-O", f)] [] (by simp [IsOption]) (by simp [Refused]) (by simp [Stops]) (by simpa using hfuel)
    simpa [flat, lastValue, values, hnw, show ¬ (b!"-O" : Str) = b!"-R" by decide, show ¬ (b!"-O" : Str) = b!"-P" by decide, show ¬ (b!"-O" : Str) = b!"-I" by decide] using this
  obtain ⟨k0, hk⟩ := C117_full_disk x g _ _ n hparse rfl rfl rfl hf hcreate (ignores_straight _ v cs)
  refine ⟨k0, fun k hk0 => ?_⟩
  obtain ⟨a1, a2, a3, a4, a5, a6⟩ := hk k hk0
  have hm : main x.env x.test x.fuel x.argv (x.state g) = main (withXML X env) (fun _ => straight v cs) fuel [prog, b!"-O", f] ⟨{ tolerance := 64 / 8388608, searchPath := [] }, (x.state g).world⟩ := rfl
  rw [hm] at a1 a4 a6
  have hb : (main (withXML X env) (fun _ => straight v cs) fuel [prog, b!"-O", f] ⟨{ tolerance := 64 / 8388608, searchPath := [] }, (x.state g).world⟩).1.world.bytes (cstr f) = document := by
    rw [World.openRead] at r3
    split at r3
    · exact Option.some.inj r3
    · cases r3
  rw [r5] at a1
  simp only at a6
  rw [hb] at a6
  refine ⟨a1, a6, fun hw hlen y env' prog' hy1 hy2 hy3 hy4 => ?_⟩
  obtain ⟨g', hg'⟩ : ∃ g', g' = (aloneOn n k (g, x.process)).1 := ⟨_, rfl⟩
  rw [← hg'] at a4 a6 ⊢
  rw [← a4] at r1 r2
  have hp : parseArguments (y.state g').world.fs y.fuel { (y.state g').obj with unmatched := (y.state g').obj.unmatched + 1 } y.argv = ({ unmatched := 0 + 1, inFileName := f }, .ok [prog']) := by
    have := C35_options_removed g'.fs y.fuel { unmatched := 0 + 1 } prog' [(b!"-I", f)] [] (by simp [IsOption]) (by simp [Refused, r1, r2]) (by simp [Stops]) (by simpa using hy4)
    have e : (y.state g').obj = {} := hy3
    rw [e, hy2]
    show parseArguments g'.fs y.fuel { unmatched := 0 + 1 } _ = _
    simpa [flat, lastValue, values, show ¬ (b!"-I" : Str) = b!"-R" by decide, show ¬ (b!"-I" : Str) = b!"-P" by decide, show ¬ (b!"-I" : Str) = b!"-O" by decide] using this
  have hopen : (y.state g').world.openRead f = some (document.take n) := by
    have h1 : g'.fs.stat (cstr f) = some .regular := by simpa [isFile] using r1
    have h2 : g'.fs.canRead (cstr f) = true := by
      simp only [isReadable, Bool.and_eq_true] at r2
      exact r2.1
    rw [World.openRead, if_pos ⟨h1, h2⟩]
    exact congrArg some a6
  rw [hy1]
  exact (C96_truncated_baseline_fails X hX env' y.test y.fuel y.argv (y.state g') _ _ hp hf rfl (show (0 : Int) < 0 + 1 by decide) (x.state g).world hw cs hclean (document.take n) (document.drop n)
    (by rw [List.length_drop]; omega) (List.take_append_drop n _).symm (by
      have : searchPathList (y.state g').world.fs f [] = [] := rfl
      rw [if_pos this]; exact hopen)).2.1

/-- The hypotheses are met: two measurements on a disk that takes 100 bytes. -/
example : ∃ k0, ∀ k, k0 ≤ k → (aloneOn 100 k ((⟨plainWorld.fs, plainWorld.bytes, plainWorld.creatable⟩ : Files), (recordingRun reference (smallEnv []) 0 twoCalls 9 b!"t" b!"f" b!"host" b!"Thu Jan  1 00:00:00 1970\n").process)).2.stage = .ended (.ok 0) ∧
    ∀ test : List Str → Prog, (main (withXML reference (smallEnv [])) test 9 [b!"t", b!"-I", b!"f"] (({ env := withXML reference (smallEnv []), test := test, fuel := 9, argv := [b!"t", b!"-I", b!"f"] } : Start).state
      (aloneOn 100 k ((⟨plainWorld.fs, plainWorld.bytes, plainWorld.creatable⟩ : Files), (recordingRun reference (smallEnv []) 0 twoCalls 9 b!"t" b!"f" b!"host" b!"Thu Jan  1 00:00:00 1970\n").process)).1)).2 ≠ .ok 0 := by
  obtain ⟨k0, h⟩ := C117_incomplete_never_passes reference reference_rejects_truncated (smallEnv []) 0 twoCalls two_clean 9 (by decide) b!"t" b!"f" b!"host" b!"Thu Jan  1 00:00:00 1970\n"
    ⟨plainWorld.fs, plainWorld.bytes, plainWorld.creatable⟩ (by decide) rfl (Or.inl rfl) 100
  refine ⟨k0, fun k hk => ⟨(h k hk).1, fun test => ?_⟩⟩
  exact (h k hk).2.2 plain_comment (by decide +kernel) { env := withXML reference (smallEnv []), test := test, fuel := 9, argv := [b!"t", b!"-I", b!"f"] } (smallEnv []) b!"t" rfl rfl rfl (show 1 < 9 by decide)

end Verif.Parallel
