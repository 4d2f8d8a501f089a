import Verif.Parallel.Props
import Verif.Itk.ImagesSpec

/-!
# Which classes compare by files; and what happens to a run whose baseline is being written
-/

set_option linter.unusedSimpArgs false

namespace Verif.Parallel
open Spec Verif.Regression Verif.Regression.Spec Verif.Measurement
open Verif.Path (isFile isReadable isWritable)

/-- **C116.** The image comparison of `itk::Regression` looks at nothing but the two files, whatever the footprint. -/
theorem C116_images (F : Footprint) (I : Itk.Toolkit) (dec : Str → Option Itk.Loaded) (hR : Itk.Spec.ReadsFiles I dec) (env : Env) (henv : env.image = some I.imageEnv ∨ env.image = none) : ByFiles F env := by
  intro im him w w' h
  rcases henv with henv | henv
  · rw [henv] at him
    cases him
    have hr : ∀ n, F.Has (cstr n) → I.read w n = I.read w' n := fun n hn => by rw [hR, hR, open_same h hn]
    constructor
    · intro t a b ha hb
      have e : ∀ T, Itk.regressionTestImage I.arith T (fun n => (I.read w n).map (·.image)) a b (some t.intensity) t.pixels t.radius =
          Itk.regressionTestImage I.arith T (fun n => (I.read w' n).map (·.image)) a b (some t.intensity) t.pixels t.radius := by
        intro T
        simp only [Itk.regressionTestImage, hr a ha, hr b hb]
      simp only [Itk.Toolkit.imageEnv, Itk.Toolkit.compare, hr b hb, e]
    · intro t f g hf hg
      simp only [Itk.Toolkit.imageEnv, Itk.Toolkit.differenceText, hr _ hf, hr _ hg]
  · rw [henv] at him
    cases him

/-- **C116 (limit).** A run that compares with a document that another run is just recording: if the recording has been started first, but only just opened its output, the comparison finds an
empty document and fails.  (The first process opens the output; the second goes through the command line and its opening; the schedule is the one given.) -/
theorem C116_race (x y : Start) (p q f : Str) (g : Files) (hx : x.argv = [p, b!"-O", f]) (hy : y.argv = [q, b!"-I", f]) (hxo : x.obj = {}) (hyo : y.obj = {}) (hfx : 1 < x.fuel) (hfy : 1 < y.fuel)
    (hf : f ≠ []) (hnew : g.fs.stat (cstr f) = none) (hcr : g.creatable (cstr f) = true) (m : String) (hxml : y.env.readXML [] = .error (.thrown m)) :
    ((run [false, false, true, true, true, true] (g, fun b => if b then y.process else x.process)).2 true).stage = .ended (.ok (-1)) := by
  have hopt : ∀ o : Str, (o = b!"-O" ∨ o = b!"-I") → ∀ pr ∈ [(o, f)], IsOption pr.1 := by
    intro o ho pr hpr
    rw [List.mem_singleton.mp hpr]
    rcases ho with rfl | rfl
    · exact Or.inl rfl
    · exact Or.inr (Or.inl rfl)
  -- the recording
  have hnf : isFile g.fs f = false := by simp [isFile, hnew]
  have hpx := C35_options_removed g.fs x.fuel { unmatched := 1 } p [(b!"-O", f)] [] (hopt _ (Or.inl rfl))
    (fun pr hpr => by rw [List.mem_singleton.mp hpr]; rintro (⟨h, -⟩ | ⟨h, -⟩) <;> simp at h) (by simp [Stops]) hfx
  have hpx' : parseArguments g.fs x.fuel { unmatched := 1 } [p, b!"-O", f] = ({ unmatched := 1, outFileName := f }, .ok [p]) := by
    simpa [flat, lastValue, values, hnf, show ¬ (b!"-O" : Str) = b!"-R" by decide, show ¬ (b!"-O" : Str) = b!"-P" by decide, show ¬ (b!"-O" : Str) = b!"-I" by decide] using hpx
  obtain ⟨g1, hg1⟩ : ∃ g1 : Files, g1 = ⟨{ g.fs with
        stat := fun m => if m = cstr f then some .regular else g.fs.stat m
        canRead := fun m => if m = cstr f ∧ g.fs.stat (cstr f) = none then true else g.fs.canRead m }, fun m => if m = cstr f then [] else g.bytes m, g.creatable⟩ := ⟨_, rfl⟩
  have hx1 : x.process.step g = (g, x.process.next ⟨{ unmatched := 1, outFileName := f }, (x.state g).world⟩ (.output [p])) := by
    have : parseArguments (x.process.state g).world.fs x.fuel { (x.process.state g).obj with unmatched := (x.process.state g).obj.unmatched + 1 } x.argv =
        ({ unmatched := 1, outFileName := f }, .ok [p]) := by
      rw [← hpx', hx]
      simp only [Process.state, Start.process, hxo]
      rfl
    simp only [Process.step, Start.process, stepArguments] at this ⊢
    rw [this]
    rfl
  have hx2 : (x.process.next ⟨{ unmatched := 1, outFileName := f }, (x.state g).world⟩ (.output [p])).step g =
      (g1, x.process.next ⟨{ unmatched := 1, outFileName := f, os := some f }, (x.state g).world⟩ (.input [p])) := by
    have : openOutput ⟨{ unmatched := 1, outFileName := f }, (x.state g).world⟩ =
        (⟨{ unmatched := 1, outFileName := f, os := some f }, { (x.state g).world with fs := g1.fs, bytes := g1.bytes }⟩, .ok ()) := by
      have hc : (x.state g).world.creatable (cstr f) = true := hcr
      simp only [openOutput, World.openWrite, ne_eq, hf, not_false_eq_true, if_true, hc, hg1]
      rfl
    have e : (x.process.next ⟨{ unmatched := 1, outFileName := f }, (x.state g).world⟩ (.output [p])).step g =
      (x.process.next ⟨{ unmatched := 1, outFileName := f }, (x.state g).world⟩ (.output [p])).after (openOutput ⟨{ unmatched := 1, outFileName := f }, (x.state g).world⟩) (fun _ => .input [p]) := rfl
    rw [e, this]
    simp only [Process.after, Process.to, Process.next, filesOf, Start.state, Start.process, hg1]
  -- the comparison
  have hif : isFile g1.fs f = true := by simp [isFile, hg1]
  have hir : isReadable g1.fs f = true := by simp [isReadable, Path.isDirectory, hg1, hnew]
  have hpy := C35_options_removed g1.fs y.fuel { unmatched := 1 } q [(b!"-I", f)] [] (hopt _ (Or.inr rfl))
    (fun pr hpr => by
      rw [List.mem_singleton.mp hpr]
      rintro (⟨-, h⟩ | ⟨h, -⟩)
      · exact h ⟨hif, hir⟩
      · simp at h) (by simp [Stops]) hfy
  have hpy' : parseArguments g1.fs y.fuel { unmatched := 1 } [q, b!"-I", f] = ({ unmatched := 1, inFileName := f }, .ok [q]) := by
    simpa [flat, lastValue, values, show ¬ (b!"-I" : Str) = b!"-R" by decide, show ¬ (b!"-I" : Str) = b!"-P" by decide, show ¬ (b!"-I" : Str) = b!"-O" by decide] using hpy
  have hy1 : y.process.step g1 = (g1, y.process.next ⟨{ unmatched := 1, inFileName := f }, (y.state g1).world⟩ (.output [q])) := by
    have : parseArguments (y.process.state g1).world.fs y.fuel { (y.process.state g1).obj with unmatched := (y.process.state g1).obj.unmatched + 1 } y.argv =
        ({ unmatched := 1, inFileName := f }, .ok [q]) := by
      rw [← hpy', hy]
      simp only [Process.state, Start.process, hyo]
      rfl
    simp only [Process.step, Start.process, stepArguments] at this ⊢
    rw [this]
    rfl
  have hy2 : (y.process.next ⟨{ unmatched := 1, inFileName := f }, (y.state g1).world⟩ (.output [q])).step g1 =
      (g1, y.process.next ⟨{ unmatched := 1, inFileName := f }, (y.state g1).world⟩ (.input [q])) := rfl
  have hse : (Obj.searched { unmatched := 1, inFileName := f } g1.fs) = [] := rfl
  have hrd : (y.state g1).world.openRead f = some [] := by simp [World.openRead, Start.state, hg1, hnew]
  have hy3 : (y.process.next ⟨{ unmatched := 1, inFileName := f }, (y.state g1).world⟩ (.input [q])).step g1 =
      (g1, y.process.next ⟨{ unmatched := 1, inFileName := f, is := some [] }, (y.state g1).world⟩ (.baseline [q])) := by
    have : openInput ⟨{ unmatched := 1, inFileName := f }, (y.state g1).world⟩ = (⟨{ unmatched := 1, inFileName := f, is := some [] }, (y.state g1).world⟩, .ok ()) := by
      have hs' : (Obj.searched { unmatched := 1, inFileName := f } (y.state g1).world.fs) = [] := rfl
      simp only [openInput, hs', if_true, hrd, ne_eq, hf, not_false_eq_true]
    have e : (y.process.next ⟨{ unmatched := 1, inFileName := f }, (y.state g1).world⟩ (.input [q])).step g1 =
      (y.process.next ⟨{ unmatched := 1, inFileName := f }, (y.state g1).world⟩ (.input [q])).after (openInput ⟨{ unmatched := 1, inFileName := f }, (y.state g1).world⟩) (fun _ => .baseline [q]) := rfl
    rw [e, this]
    rfl
  have hy4 : ((y.process.next ⟨{ unmatched := 1, inFileName := f, is := some [] }, (y.state g1).world⟩ (.baseline [q])).step g1).2.stage = .ended (.ok (-1)) := by
    have : startOrRead y.env ⟨{ unmatched := 1, inFileName := f, is := some [] }, (y.state g1).world⟩ =
        (⟨{ unmatched := 1, inFileName := f, is := some [] }, (y.state g1).world⟩, .error (.thrown m)) := by
      simp only [startOrRead, St.compareMode, if_true, hxml]
    have e : (y.process.next ⟨{ unmatched := 1, inFileName := f, is := some [] }, (y.state g1).world⟩ (.baseline [q])).step g1 =
      (y.process.next ⟨{ unmatched := 1, inFileName := f, is := some [] }, (y.state g1).world⟩ (.baseline [q])).after
        (startOrRead y.env ⟨{ unmatched := 1, inFileName := f, is := some [] }, (y.state g1).world⟩) (fun _ => .testing (y.test [q])) := rfl
    rw [e, this]
    rfl
  simp only [run, Function.update_self, Function.update_of_ne (show true ≠ false by decide), Function.update_of_ne (show false ≠ true by decide), if_true, if_false, Bool.false_eq_true, hx1, hx2, hy1, hy2, hy3, hy4]

end Verif.Parallel
