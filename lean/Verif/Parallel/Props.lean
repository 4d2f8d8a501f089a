import Verif.Parallel.Steps
import Mathlib.Data.List.Count

/-!
# A run of `Main` is not disturbed by runs that leave its files alone
-/

set_option linter.unusedSimpArgs false

namespace Verif.Parallel
open Spec Verif.Regression Verif.Regression.Spec Verif.Measurement

/-! ## Alone: the steps are `Main` -/

theorem alone_add (m n : Nat) : ∀ x : Files × Process, alone (m + n) x = alone n (alone m x) := by
  induction m with
  | zero => intro x; rw [Nat.zero_add]; rfl
  | succ m ih => intro x; rw [Nat.succ_add]; exact ih _

theorem alone_ended : ∀ (n : Nat) (g : Files) (p : Process) (r : Except Fault Int), p.stage = .ended r → alone n (g, p) = (g, p) := by
  intro n
  induction n with
  | zero => intro g p r _; rfl
  | succ n ih =>
    intro g p r h
    have : p.step g = (g, p) := by simp only [Process.step, h]
    rw [alone, this]
    exact ih g p r h

/-- Files and process are those of a state, with the process at a stage. -/
def At (x : Start) (s : St) (stage : Stage) : Files × Process := x.process.to s stage

theorem at_step (x : Start) (s : St) (stage : Stage) : alone 1 (At x s stage) = (x.process.next s stage).step (filesOf s) := rfl

theorem at_state (x : Start) (s : St) (stage : Stage) : (x.process.next s stage).state (filesOf s) = s := rfl

theorem to_next (x : Start) (s s' : St) (stage stage' : Stage) : (x.process.next s stage).to s' stage' = At x s' stage' := rfl

theorem at_test (x : Start) : ∀ (q : Prog) (s : St), ∃ n, alone n (At x s (.testing q)) = match runProg x.env q s with
    | (s', .ok v) => At x (finish s') (.ended (.ok (mainValue (finish s') v)))
    | (s', .error f) => At x s' (.ended (caught s' f)) := by
  intro q
  induction q with
  | ret v => intro s; exact ⟨1, rfl⟩
  | fails f => intro s; exact ⟨1, rfl⟩
  | call c k ih =>
    intro s
    have h1 : alone 1 (At x s (.testing (.call c k))) = (x.process.next s (.testing (.call c k))).after (runCall x.env s c) (fun r => .testing (k r)) := rfl
    rcases hc : runCall x.env s c with ⟨s1, f | r⟩
    · refine ⟨1, ?_⟩
      rw [h1, runProg, hc]
      rfl
    · obtain ⟨n, hn⟩ := ih r s1
      refine ⟨1 + n, ?_⟩
      rw [alone_add, h1, runProg, hc]
      exact hn
  | act f k ih => intro s; obtain ⟨n, hn⟩ := ih { s with world := f s.world }; exact ⟨n + 1, hn⟩
  | look k ih => intro s; obtain ⟨n, hn⟩ := ih s.world s; exact ⟨n + 1, hn⟩
  | ask k ih => intro s; obtain ⟨n, hn⟩ := ih s.settings s; exact ⟨n + 1, hn⟩
  | setTolerance t k ih => intro s; obtain ⟨n, hn⟩ := ih { s with obj := { s.obj with tolerance := t } }; exact ⟨n + 1, hn⟩
  | setExpected t k ih => intro s; obtain ⟨n, hn⟩ := ih { s with obj := { s.obj with expected := t } }; exact ⟨n + 1, hn⟩
  | setImageTolerance t k ih => intro s; obtain ⟨n, hn⟩ := ih { s with obj := { s.obj with imageTol := t } }; exact ⟨n + 1, hn⟩
  | setSearchPath t k ih => intro s; obtain ⟨n, hn⟩ := ih { s with obj := { s.obj with searchPath := t } }; exact ⟨n + 1, hn⟩
  | prependSearchPath t k ih => intro s; obtain ⟨n, hn⟩ := ih { s with obj := { s.obj with searchPath := t :: s.obj.searchPath } }; exact ⟨n + 1, hn⟩
  | setInFileName t k ih => intro s; obtain ⟨n, hn⟩ := ih { s with obj := { s.obj with inFileName := t } }; exact ⟨n + 1, hn⟩
  | setOutFileName t k ih => intro s; obtain ⟨n, hn⟩ := ih { s with obj := { s.obj with outFileName := t } }; exact ⟨n + 1, hn⟩

theorem main_of_try (env : Env) (test : List Str → Prog) (fuel : Nat) (argv : List Str) (s s' : St) (f : Fault) (h : tryBlock env test fuel argv s = (s', -1, some f)) :
    main env test fuel argv s = (s', caught s' f) := by
  rw [main, h]
  cases f <;> rfl

/-- The run that `Main` makes, step by step. -/
theorem at_main (x : Start) (g : Files) : ∃ n, alone n (g, x.process) =
    At x (main x.env x.test x.fuel x.argv (x.state g)).1 (.ended (main x.env x.test x.fuel x.argv (x.state g)).2) := by
  obtain ⟨s0, hs0⟩ : ∃ s0, s0 = x.state g := ⟨_, rfl⟩
  have h0 : (g, x.process) = At x s0 (.starting x.fuel x.argv) := by rw [hs0]; rfl
  rw [h0, ← hs0]
  clear hs0 h0
  have h1 : alone 1 (At x s0 (.starting x.fuel x.argv)) = stepArguments (x.process.next s0 (.starting x.fuel x.argv)) s0 x.fuel x.argv := rfl
  rcases hpa : parseArguments s0.world.fs x.fuel { s0.obj with unmatched := s0.obj.unmatched + 1 } x.argv with ⟨o, f | rest⟩
  · refine ⟨1, ?_⟩
    have ht : tryBlock x.env x.test x.fuel x.argv s0 = (⟨o, s0.world⟩, -1, some f) := by
      simp only [tryBlock, hpa]
    rw [h1, main_of_try _ _ _ _ _ _ _ ht, stepArguments, hpa]
    rfl
  · have h1' : alone 1 (At x s0 (.starting x.fuel x.argv)) = At x ⟨o, s0.world⟩ (.output rest) := by rw [h1, stepArguments, hpa]; rfl
    have h2 : alone 1 (At x ⟨o, s0.world⟩ (.output rest)) = (x.process.next ⟨o, s0.world⟩ (.output rest)).after (openOutput ⟨o, s0.world⟩) (fun _ => .input rest) := rfl
    rcases ho : openOutput ⟨o, s0.world⟩ with ⟨s1, f | u⟩
    · refine ⟨1 + 1, ?_⟩
      have ht : tryBlock x.env x.test x.fuel x.argv s0 = (s1, -1, some f) := by
        simp only [tryBlock, hpa, beginMeasurement, ho, Res.andThen]
      rw [alone_add, h1', h2, ho, main_of_try _ _ _ _ _ _ _ ht]
      rfl
    · rw [ho] at h2
      have h2' : alone 1 (At x ⟨o, s0.world⟩ (.output rest)) = At x s1 (.input rest) := h2
      have h3 : alone 1 (At x s1 (.input rest)) = (x.process.next s1 (.input rest)).after (openInput s1) (fun _ => .baseline rest) := rfl
      rcases hi : openInput s1 with ⟨s2, f | u⟩
      · refine ⟨1 + 1 + 1, ?_⟩
        have ht : tryBlock x.env x.test x.fuel x.argv s0 = (s2, -1, some f) := by
          simp only [tryBlock, hpa, beginMeasurement, ho, hi, Res.andThen]
        rw [alone_add, alone_add, h1', h2', h3, hi, main_of_try _ _ _ _ _ _ _ ht]
        rfl
      · rw [hi] at h3
        have h3' : alone 1 (At x s1 (.input rest)) = At x s2 (.baseline rest) := h3
        have h4 : alone 1 (At x s2 (.baseline rest)) = (x.process.next s2 (.baseline rest)).after (startOrRead x.env s2) (fun _ => .testing (x.test rest)) := rfl
        rcases hb : startOrRead x.env s2 with ⟨s3, f | u⟩
        · refine ⟨1 + 1 + 1 + 1, ?_⟩
          have ht : tryBlock x.env x.test x.fuel x.argv s0 = (s3, -1, some f) := by
            simp only [tryBlock, hpa, beginMeasurement, ho, hi, hb, Res.andThen]
          rw [alone_add, alone_add, alone_add, h1', h2', h3', h4, hb, main_of_try _ _ _ _ _ _ _ ht]
          rfl
        · rw [hb] at h4
          have h4' : alone 1 (At x s2 (.baseline rest)) = At x s3 (.testing (x.test rest)) := h4
          obtain ⟨n, hn⟩ := at_test x (x.test rest) s3
          refine ⟨1 + 1 + 1 + 1 + n, ?_⟩
          rw [alone_add, alone_add, alone_add, alone_add, h1', h2', h3', h4', hn]
          rcases hr : runProg x.env (x.test rest) s3 with ⟨s4, f | v⟩
          · have ht : tryBlock x.env x.test x.fuel x.argv s0 = (s4, -1, some f) := by
              simp only [tryBlock, hpa, beginMeasurement, ho, hi, hb, hr, Res.andThen]
            rw [main_of_try _ _ _ _ _ _ _ ht]
          · have ht : tryBlock x.env x.test x.fuel x.argv s0 = (finish s4, v, none) := by
              simp only [tryBlock, hpa, beginMeasurement, ho, hi, hb, hr, Res.andThen, finish]
            have hm : main x.env x.test x.fuel x.argv s0 = (finish s4, .ok (mainValue (finish s4) v)) := by rw [main, ht]
            rw [hm]

/-- **C116.** A process alone does what `Main` does: after some number of steps it has ended with the value of `Main`, and its object, its standard output and all files
are those `Main` leaves. -/
theorem C116_alone (x : Start) (g : Files) : ∃ n, ∀ k, n ≤ k →
    let m := main x.env x.test x.fuel x.argv (x.state g)
    (alone k (g, x.process)).1 = filesOf m.1 ∧ (alone k (g, x.process)).2.stage = .ended m.2 ∧
      (alone k (g, x.process)).2.obj = m.1.obj ∧ (alone k (g, x.process)).2.cout = m.1.world.cout := by
  obtain ⟨n, hn⟩ := at_main x g
  refine ⟨n, fun k hk => ?_⟩
  obtain ⟨j, rfl⟩ := Nat.exists_eq_add_of_le hk
  intro m
  have he : alone (n + j) (g, x.process) = At x m.1 (.ended m.2) := by
    rw [alone_add, hn]
    exact alone_ended j _ _ _ rfl
  rw [he]
  exact ⟨rfl, rfl, rfl, rfl⟩

/-! ## Among others -/

variable {ι : Type} [DecidableEq ι]

/-- The invariant: the process itself, and the others. -/
theorem run_local {F : Footprint} (i : ι) : ∀ (sched : List ι) (g g' : Files) (ps : ι → Process), Same F g g' → Ready F F.names (SameTo F) (ps i) g → (∀ j, j ≠ i → Far F (ps j)) →
    (run sched (g, ps)).2 i = (alone (sched.count i) (g', ps i)).2 ∧ Same F (run sched (g, ps)).1 (alone (sched.count i) (g', ps i)).1 := by
  intro sched
  induction sched with
  | nil => intro g g' ps h _ _; exact ⟨rfl, h⟩
  | cons j sched ih =>
    intro g g' ps h hr hf
    by_cases hj : j = i
    · subst hj
      obtain ⟨s1, s2, s3⟩ := step_local h hr
      have h1 : Function.update ps j ((ps j).step g).2 j = ((ps j).step g).2 := Function.update_self ..
      have := ih ((ps j).step g).1 ((ps j).step g').1 (Function.update ps j ((ps j).step g).2) s2 (by rw [h1]; exact s3)
        (fun k hk => by rw [Function.update_of_ne hk]; exact hf k hk)
      rw [h1, s1] at this
      rw [List.count_cons_self]
      rw [← s1] at this
      have e : alone (sched.count j + 1) (g', ps j) = alone (sched.count j) (((ps j).step g').1, ((ps j).step g).2) := by rw [alone, s1]
      rw [e]
      exact this
    · obtain ⟨s1, s2⟩ := step_far g (hf j hj)
      have h1 : Function.update ps j ((ps j).step g).2 i = ps i := Function.update_of_ne (fun e => hj e.symm) ..
      have := ih ((ps j).step g).1 g' (Function.update ps j ((ps j).step g).2) (same_trans (same_symm s1) h) (by rw [h1]; exact ready_same s1 hr)
        (fun k hk => by
          by_cases hkj : k = j
          · subst hkj; rw [Function.update_self]; exact s2
          · rw [Function.update_of_ne hkj]; exact hf k hk)
      rw [h1] at this
      rw [List.count_cons_of_ne hj]
      exact this

theorem ready_start {F : Footprint} {x : Start} {g : Files} (h : Within F x g) : Ready F F.names (SameTo F) x.process g := by
  have hos : ∀ n, x.process.obj.os = some n → F.names n := by
    intro n hn
    have := h.idle.1.symm.trans hn
    cases this
  have hin : Names F x.process.obj.input := by
    intro f hf
    have : x.process.obj.input = [] := h.idle.2.2
    rw [this] at hf
    cases hf
  refine ⟨h.images, fun args => keepsBy_same F _ (h.tests args), ⟨⟨h.path, h.input, h.output, hos, hin⟩, h.idle.2.1, h.documents⟩, ?_, ?_, h.dirs⟩
  · rintro v (hg | hg)
    · exact h.values _ v (Or.inr (Or.inl rfl)) (by decide) hg
    · exact h.values _ v (Or.inr (Or.inr (Or.inr rfl))) (by decide) hg
  · exact fun v hg => h.values _ v (Or.inl rfl) (by decide) hg

theorem far_start {F : Footprint} {x : Start} (h : Apart F x) : Far F x.process := by
  refine ⟨?_, h.tests, h.before, h.output⟩
  intro n hn
  have := h.idle.symm.trans hn
  cases this

/-- **C116.** However many processes run, whatever they do and however their steps are interleaved: if a process keeps to some files and the others do nothing to these files,
the process is after any time exactly where it would be alone after the turns it had, and so are its files. -/
theorem C116_any_schedule (F : Footprint) (xs : ι → Start) (i : ι) (g : Files) (hin : Within F (xs i) g) (hout : ∀ j, j ≠ i → Apart F (xs j)) (sched : List ι) :
    (run sched (g, fun j => (xs j).process)).2 i = (alone (sched.count i) (g, (xs i).process)).2 ∧
      Same F (run sched (g, fun j => (xs j).process)).1 (alone (sched.count i) (g, (xs i).process)).1 :=
  run_local i sched g g _ (same_refl F g) (ready_start hin) (fun j hj => far_start (hout j hj))

/-- **C116.** A run of `Main` among others that leave its files alone: given enough turns it ends, and whenever it has ended, the value, the object, what was written to standard output
and the files are those of `Main` alone. -/
theorem C116_result (F : Footprint) (xs : ι → Start) (i : ι) (g : Files) (hin : Within F (xs i) g) (hout : ∀ j, j ≠ i → Apart F (xs j)) :
    let m := main (xs i).env (xs i).test (xs i).fuel (xs i).argv ((xs i).state g)
    (∃ n, ∀ sched : List ι, n ≤ sched.count i → ∃ r, ((run sched (g, fun j => (xs j).process)).2 i).stage = .ended r) ∧
    ∀ (sched : List ι) r, ((run sched (g, fun j => (xs j).process)).2 i).stage = .ended r →
      r = m.2 ∧ ((run sched (g, fun j => (xs j).process)).2 i).obj = m.1.obj ∧ ((run sched (g, fun j => (xs j).process)).2 i).cout = m.1.world.cout ∧
      Same F (run sched (g, fun j => (xs j).process)).1 (filesOf m.1) := by
  intro m
  obtain ⟨n, hn⟩ := C116_alone (xs i) g
  constructor
  · refine ⟨n, fun sched hk => ⟨m.2, ?_⟩⟩
    rw [(C116_any_schedule F xs i g hin hout sched).1]
    exact (hn _ hk).2.1
  · intro sched r hr
    obtain ⟨h1, h2⟩ := C116_any_schedule F xs i g hin hout sched
    rw [h1] at hr ⊢
    obtain ⟨a1, a2, a3, a4⟩ := hn (sched.count i + n) (Nat.le_add_left _ _)
    have he : alone (sched.count i + n) (g, (xs i).process) = alone (sched.count i) (g, (xs i).process) := by
      rw [alone_add]
      exact alone_ended n _ _ r hr
    rw [he] at a1 a2 a3 a4
    rw [hr] at a2
    refine ⟨by cases a2; rfl, a3, a4, ?_⟩
    rw [← a1]
    exact h2

/-- **C116.** Runs that leave the files of each other alone can be made in any order and at the same time: all of them end as they would alone. -/
theorem C116_all (F : ι → Footprint) (xs : ι → Start) (g : Files) (hin : ∀ i, Within (F i) (xs i) g) (hout : ∀ i j, j ≠ i → Apart (F i) (xs j)) (sched : List ι)
    (hend : ∀ i ∈ sched, ∃ r, ((run sched (g, fun j => (xs j).process)).2 i).stage = .ended r) :
    ∀ i ∈ sched, ((run sched (g, fun j => (xs j).process)).2 i).stage = .ended (main (xs i).env (xs i).test (xs i).fuel (xs i).argv ((xs i).state g)).2 := by
  intro i hi
  obtain ⟨r, hr⟩ := hend i hi
  rw [hr, ((C116_result (F i) xs i g (hin i) (hout i)).2 sched r hr).1]

end Verif.Parallel
