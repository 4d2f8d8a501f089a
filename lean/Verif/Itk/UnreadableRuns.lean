import Verif.Itk.InsightProps

/-!
# C75 for whole runs: an image that cannot be read ends the test
-/

namespace Verif.Itk
open Spec Verif.Regression Verif.Regression.Spec Verif.Measurement

/-! ## Specification -/

/-- What is measured cannot be read as an image, whatever has been written to standard output. -/
def Spec.Unreadable (I : Toolkit) (o : Obs) (fileName : Str) : Prop := 0 ∉ fileName ∧ ∀ c, I.read { o.world with cout := c } fileName = none

/-- The measurement `i` of those made is of an image that cannot be read, and has its entry in the baseline. -/
def Spec.UnreadableAt (I : Toolkit) (made : List Obs) (baseline : List Meas) (i : Nat) : Prop :=
  ∃ o fileName f, made[i]? = some o ∧ o.call = .fileITK fileName f.name ∧ baseline[i]? = some (.file f) ∧ f.type = b!"image/itk" ∧ Unreadable I o fileName

/-! ## Proofs -/

theorem consumes (env : Env) (s s' : St) (c : Call) (bytes : Str) (his : s.obj.is = some bytes) (r : Int) (h : runCall env s c = (s', .ok r)) :
    s'.obj.input = s.obj.input.drop 1 ∧ s'.obj.is = some bytes := by
  refine ⟨?_, ?_⟩
  · rw [runCall, compareMode_is his, if_pos rfl, compareMeasurement] at h
    have hun : ∀ s : St, ((unmatchedMeasurement s c.meas).andThen fun s _ => (s, .ok (1 : Int))).1.obj.input = s.obj.input := by
      intro s
      obtain ⟨t, ht⟩ := print_ok (c.meas.setName (b!"Unmatched " ++ c.meas.name))
      simp only [unmatchedMeasurement, ht, Res.andThen, emit_obj]
    split at h
    · next hi =>
      have := hun s
      rw [h, hi] at this
      rw [this, hi]; rfl
    · next b rest hi =>
      rw [hi]
      simp only [List.drop_one, List.tail_cons]
      simp only at h
      split at h
      · split at h
        · cases h
        · next b' _ =>
          have hv : (compareVisit env { s with obj := { s.obj with input := rest } } c.tolerant b' c.meas).1.obj = { s.obj with input := rest } := by
            simp only [compareVisit]; split <;> rfl
          split at h
          · cases h
          · next s2 b2 t2 same hcv =>
            rw [hcv] at hv
            simp only at hv
            split at h
            · cases h; rw [hv]
            · have hd := difference_obj env s2 t2 b2
              simp only [Res.andThen] at h
              rcases hdm : differenceMeasurement env s2 t2 b2 with ⟨s3, f | u⟩ <;> rw [hdm] at hd h
              · cases h
              · cases h
                rw [hd, hv]
      · have := hun { s with obj := { s.obj with input := rest } }
        rw [h] at this
        exact this
  · obtain ⟨i, u, hf⟩ := runCall_frame env s c
    rw [h] at hf
    rw [hf]
    exact his

/-- **C75, negative.** In a comparing run of any test: an image with an entry in the baseline that cannot be read is the last thing measured, and the test ends with an exception there. -/
theorem C75_last_measurement (I : Toolkit) (env : Env) (henv : env.image = some I.imageEnv) (p : Prog) : ∀ (s : St) (bytes : Str) (_ : s.obj.is = some bytes) (i : Nat)
    (_ : UnreadableAt I (observed env p s) s.obj.input i),
    (observed env p s).length = i + 1 ∧ (runProg env p s).2 = .error (.thrown "itk::ExceptionObject") := by
  induction p with
  | ret v => rintro s bytes his i ⟨o, _, _, h, _⟩; cases h
  | fails f => rintro s bytes his i ⟨o, _, _, h, _⟩; cases h
  | call c k ih =>
    rintro s bytes his i ⟨o, fileName, f, ho, hc, hb, ht, h0, hread⟩
    cases i with
    | zero =>
      rw [observed] at ho
      cases ho
      have hc : c = .fileITK fileName f.name := hc
      subst hc
      rcases hin : s.obj.input with _ | ⟨b, rest⟩
      · rw [hin] at hb; cases hb
      rw [hin] at hb
      cases hb
      have := C75_unreadable_image_ends_test I env henv s fileName f.name bytes his f rest hin rfl ht h0 hread k
      exact ⟨this.2, this.1⟩
    | succ i =>
      simp only [runProg]
      simp only [observed] at ho ⊢
      rcases hr : runCall env s c with ⟨s', e | r⟩
      · rw [hr] at ho; cases ho
      · rw [hr] at ho
        simp only [List.length_cons]
        obtain ⟨h1, h2⟩ := consumes env s s' c bytes his r hr
        have := ih r s' bytes h2 i ⟨o, fileName, f, ho, hc, by rw [h1]; simpa [Nat.add_comm] using hb, ht, h0, hread⟩
        exact ⟨by rw [this.1], this.2⟩
  | act f k ih => intro s bytes his i h; exact ih { s with world := f s.world } bytes his i h
  | look k ih => intro s bytes his i h; exact ih s.world s bytes his i h
  | ask k ih => intro s bytes his i h; exact ih s.settings s bytes his i h
  | setTolerance t k ih => intro s bytes his i h; exact ih { s with obj := { s.obj with tolerance := t } } bytes his i h
  | setExpected t k ih => intro s bytes his i h; exact ih { s with obj := { s.obj with expected := t } } bytes his i h
  | setImageTolerance t k ih => intro s bytes his i h; exact ih { s with obj := { s.obj with imageTol := t } } bytes his i h
  | setSearchPath t k ih => intro s bytes his i h; exact ih { s with obj := { s.obj with searchPath := t } } bytes his i h
  | prependSearchPath t k ih => intro s bytes his i h; exact ih { s with obj := { s.obj with searchPath := t :: s.obj.searchPath } } bytes his i h
  | setInFileName t k ih => intro s bytes his i h; exact ih { s with obj := { s.obj with inFileName := t } } bytes his i h
  | setOutFileName t k ih => intro s bytes his i h; exact ih { s with obj := { s.obj with outFileName := t } } bytes his i h

/-- **C75, negative.** `Main` then returns -1, unless that is what the test was made to be expected to return at that time, whatever the test would go on to do and return. -/
theorem C75_main (I : Toolkit) (env : Env) (henv : env.image = some I.imageEnv) (test : List Str → Prog) (fuel : Nat) (argv : List Str) (s : St) (o : Obj) (args : List Str)
    (hparse : parseArguments s.world.fs fuel { s.obj with unmatched := s.obj.unmatched + 1 } argv = (o, .ok args))
    (s1 : St) (hbegin : beginMeasurement env ⟨o, s.world⟩ = (s1, .ok ())) (hcompare : s1.obj.is ≠ none) (i : Nat)
    (hun : UnreadableAt I (observed env (test args) s1) s1.obj.input i)
    (hexp : (runProg env (test args) s1).1.obj.expected ≠ -1) :
    (main env test fuel argv s).2 = .ok (-1) := by
  obtain ⟨bytes, his⟩ := Option.ne_none_iff_exists'.mp hcompare
  have h := (C75_last_measurement I env henv (test args) s1 bytes his i hun).2
  have key : tryBlock env test fuel argv s = ((runProg env (test args) s1).1, -1, some (.thrown "itk::ExceptionObject")) := by
    simp only [tryBlock, hparse, hbegin]
    rcases hr : runProg env (test args) s1 with ⟨s2, e | ret⟩
    · rw [hr] at h; cases h; rfl
    · rw [hr] at h; cases h
  simp only [main, key, mainValue]
  rw [if_pos (Ne.symm hexp)]

/-- A toolkit that can read nothing, and a baseline of two images. -/
def blind : Toolkit := ⟨exact, fun r => ⟨1, r.pixels.map (0, ·), fun _ => none⟩, fun _ _ => none, ⟨fun _ => [], fun _ => [], fun _ => [], fun _ => [], []⟩⟩

def blindEnv : Env := { smallEnv [.file { type := b!"image/itk", name := b!"m", fileName := b!"u" }, .file { type := b!"image/itk", name := b!"n", fileName := b!"v" }] with
  image := some blind.imageEnv }

/-- The hypotheses are met by a test of two images that would return 5: the first one cannot be read. -/
example : (main blindEnv (fun _ => .call (.fileITK b!"s" b!"m") fun _ => .call (.fileITK b!"t" b!"n") fun _ => .ret 5) 9 withBaseline fresh).2 = .ok (-1) := by
  have hb := begin_small [.file { type := b!"image/itk", name := b!"m", fileName := b!"u" }, .file { type := b!"image/itk", name := b!"n", fileName := b!"v" }] 1
  exact C75_main blind blindEnv rfl _ 9 withBaseline fresh _ _ (parse_small 1) _ hb (by decide) 0
    ⟨_, b!"s", { type := b!"image/itk", name := b!"m", fileName := b!"u" }, rfl, rfl, rfl, rfl, by decide, fun _ => rfl⟩ (by decide +kernel)

end Verif.Itk
