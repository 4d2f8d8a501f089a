import Verif.Parallel.IndependentSpec
import Verif.Parallel.FullDiskProps

/-!
# C118: the verdict depends on the files that are read, and on nothing else
-/

set_option linter.unusedSimpArgs false

namespace Verif.Parallel
open Spec Verif.Regression Verif.Regression.Spec Verif.Measurement

theorem alike_put {F : Footprint} {outputs : Str → Prop} {w w' : World} (h : AlikeTo F outputs w w') (os : Option Str) (t : Str) : AlikeTo F outputs (put w os t) (put w' os t) := by
  cases os with
  | none => exact h
  | some n =>
    refine ⟨fun m hm => ?_, h.2⟩
    obtain ⟨a1, a2, a3, a4, a5, a6⟩ := h.1 m hm
    simp only at a1 a2 a3 a4 a5 a6
    exact ⟨a1, a2, a3, a4, by simp only [put, a5], a6⟩

theorem alike_put_output {F : Footprint} {outputs : Str → Prop} (hapart : ∀ n, outputs n → ¬ F.Has (cstr n)) {w w' : World} (h : AlikeTo F outputs w w') (os : Option Str)
    (hos : ∀ n, os = some n → outputs n) (t t' : Str) : AlikeTo F outputs (put w os t) (put w' os t') := by
  cases os with
  | none => exact h
  | some n =>
    refine ⟨fun m hm => ?_, h.2⟩
    obtain ⟨a1, a2, a3, a4, a5, a6⟩ := h.1 m hm
    simp only at a1 a2 a3 a4 a5 a6
    have hne : m ≠ cstr n := fun e => hapart n (hos n rfl) (e ▸ hm)
    exact ⟨a1, a2, a3, a4, by simp only [put, if_neg hne, a5], a6⟩

theorem alike_opens {F : Footprint} {outputs : Str → Prop} {w w' : World} (h : AlikeTo F outputs w w') (n : Str) (hn : outputs n) :
    (w.openWrite n = none ∧ w'.openWrite n = none) ∨ ∃ v v', w.openWrite n = some v ∧ w'.openWrite n = some v' ∧ AlikeTo F outputs v v' ∧
      (v.cout = w.cout ∧ v.host = w.host ∧ v.time = w.time) ∧ (v'.cout = w'.cout ∧ v'.host = w'.host ∧ v'.time = w'.time) := by
  obtain ⟨a1, a2, a3, a4, a6⟩ := h.2 n hn
  simp only at a1 a2 a3 a4 a6
  rw [World.openWrite, World.openWrite]
  simp only [← a6]
  split
  · refine Or.inr ⟨_, _, rfl, rfl, ⟨?_, ?_⟩, ⟨rfl, rfl, rfl⟩, rfl, rfl, rfl⟩
    · intro m hm
      obtain ⟨b1, b2, b3, b4, b5, b6⟩ := h.1 m hm
      simp only at b1 b2 b3 b4 b5 b6
      exact ⟨by simp only [b1], by simp only [a1, b2], b3, b4, by simp only [b5], b6⟩
    · intro m hm
      obtain ⟨b1, b2, b3, b4, b6⟩ := h.2 m hm
      simp only at b1 b2 b3 b4 b6
      exact ⟨by simp only [b1], by simp only [a1, b2], b3, b4, b6⟩
  · exact Or.inl ⟨rfl, rfl⟩

theorem alike_carries {F : Footprint} {outputs : Str → Prop} (hapart : ∀ n, outputs n → ¬ F.Has (cstr n)) : Carries F outputs (AlikeTo F outputs) where
  same := fun h => h.1
  put := fun h os t => alike_put h os t
  args := fun h n hn => ⟨(h.2 n hn).1, (h.2 n hn).2.1, (h.2 n hn).2.2.1, (h.2 n hn).2.2.2.1⟩
  opens := by
    intro w w' h n hn
    rcases alike_opens h n hn with e | ⟨v, v', e1, e2, e3, -⟩
    · exact Or.inl e
    · exact Or.inr ⟨v, v', e1, e2, e3⟩
  start := fun h os hos => alike_put_output hapart h os hos _ _

theorem keepsBy_blind {F : Footprint} {outputs : Str → Prop} : ∀ q : Prog, Blind F outputs q → KeepsBy F outputs (AlikeTo F outputs) q := by
  intro q
  induction q with
  | ret v => intro _; trivial
  | fails v => intro _; trivial
  | call c k ih => intro h; exact ⟨h.1, fun r => ih r (h.2 r)⟩
  | act a k ih => intro h; exact ⟨h.1, ih h.2⟩
  | look k ih => intro h; exact ⟨h.1, fun w => ih w (h.2 w)⟩
  | ask k ih => intro h w; exact ih w (h w)
  | setTolerance t k ih => intro h; exact ih h
  | setExpected t k ih => intro h; exact ih h
  | setImageTolerance t k ih => intro h; exact ih h
  | setSearchPath t k ih => intro h; exact ⟨h.1, ih h.2⟩
  | prependSearchPath t k ih => intro h; exact ⟨h.1, ih h.2⟩
  | setInFileName t k ih => intro h; exact ⟨h.1, ih h.2⟩
  | setOutFileName t k ih => intro h; exact ⟨h.1, ih h.2⟩

theorem ready_blind {F : Footprint} {outputs : Str → Prop} {x : Start} {g : Files} (h : ReadsWrites F outputs x g) : Ready F outputs (AlikeTo F outputs) x.process g := by
  have hos : ∀ n, x.process.obj.os = some n → outputs n := by
    intro n hn
    have := h.idle.1.symm.trans hn
    cases this
  have hin : Names F x.process.obj.input := by
    intro f hf
    have : x.process.obj.input = [] := h.idle.2.2
    rw [this] at hf
    cases hf
  exact ⟨h.images, fun args => keepsBy_blind _ (h.tests args), ⟨⟨h.path, h.input, h.output, hos, hin⟩, h.idle.2.1, h.documents⟩, h.values, h.writes, h.dirs⟩

theorem alike_refl (F : Footprint) (outputs : Str → Prop) (g : Files) : Alike F outputs g g := ⟨same_refl F g, fun _ _ => ⟨rfl, rfl, rfl, rfl, rfl⟩⟩

theorem alike_trans {F : Footprint} {outputs : Str → Prop} {a b c : Files} (h : Alike F outputs a b) (h' : Alike F outputs b c) : Alike F outputs a c := by
  refine ⟨same_trans h.1 h'.1, fun n hn => ?_⟩
  obtain ⟨a1, a2, a3, a4, a5⟩ := h.2 n hn
  obtain ⟨b1, b2, b3, b4, b5⟩ := h'.2 n hn
  exact ⟨a1.trans b1, a2.trans b2, a3.trans b3, a4.trans b4, a5.trans b5⟩

/-- Steps during which something happens to the outputs are in step with steps during which nothing happens. -/
theorem tampered_twin {F : Footprint} {outputs : Str → Prop} (hapart : ∀ n, outputs n → ¬ F.Has (cstr n)) : ∀ (k : Nat) (g g' : Files) (p p' : Process) (z : Files × Process),
    Twin (AlikeTo F outputs) p g p' g' → Ready F outputs (AlikeTo F outputs) p g → Tampered F outputs k (g', p') z →
    Twin (AlikeTo F outputs) (alone k (g, p)).2 (alone k (g, p)).1 z.2 z.1 := by
  intro k
  induction k with
  | zero =>
    intro g g' p p' z h _ ht
    cases ht
    exact h
  | succ k ih =>
    intro g g' p p' z h hr ht
    cases ht with
    | step _ _ _ g1 _ ha hrest =>
      obtain ⟨t1, t2⟩ := step_twin (alike_carries hapart) h hr
      exact ih _ _ _ _ z ⟨t1.env, t1.test, t1.obj, t1.stage, alike_trans t1.world ha⟩ t2 hrest

/-- **C118.** Whatever is different about host, time, standard output and the contents of output files, and whatever happens to the contents of the output files during the run: the run
ends with the same value, the same object and the same files (of those that are read). -/
theorem C118_verdict (F : Footprint) (outputs : Str → Prop) (x : Start) (g g' : Files) (h : ReadsWrites F outputs x g) (halike : Alike F outputs g g') (cout host time : Str) :
    let m := main x.env x.test x.fuel x.argv (x.state g)
    ∃ k0, ∀ k, k0 ≤ k → ∀ z, Tampered F outputs k (g', { x with cout := cout, host := host, time := time : Start }.process) z →
      z.2.stage = .ended m.2 ∧ z.2.obj = m.1.obj ∧ Same F z.1 (filesOf m.1) := by
  intro m
  obtain ⟨k0, hk⟩ := C116_alone x g
  refine ⟨k0, fun k hk0 z hz => ?_⟩
  obtain ⟨a1, a2, a3, a4⟩ := hk k hk0
  have ht := tampered_twin h.apart k g g' x.process { x with cout := cout, host := host, time := time : Start }.process z ⟨rfl, rfl, rfl, rfl, halike⟩ (ready_blind h) hz
  refine ⟨by rw [← ht.stage]; exact a2, by rw [← ht.obj]; exact a3, ?_⟩
  have hw : Same F (alone k (g, x.process)).1 z.1 := ht.world.1
  rw [a1] at hw
  exact same_symm hw

/-- **C118.** In particular `Main` returns the same value on another host, at another time, with other standard output and with other contents in the output file. -/
theorem C118_main (F : Footprint) (outputs : Str → Prop) (x : Start) (g g' : Files) (h : ReadsWrites F outputs x g) (halike : Alike F outputs g g') (cout host time : Str) :
    (main x.env x.test x.fuel x.argv (x.state g)).2 = (main x.env x.test x.fuel x.argv ({ x with cout := cout, host := host, time := time : Start }.state g')).2 := by
  obtain ⟨k0, hk⟩ := C118_verdict F outputs x g g' h halike cout host time
  obtain ⟨k1, hk1⟩ := C116_alone { x with cout := cout, host := host, time := time } g'
  have htamp : ∀ (k : Nat) (y : Files × Process), Tampered F outputs k y (alone k y) := by
    intro k
    induction k with
    | zero => intro y; exact .here y
    | succ k ih => intro y; obtain ⟨a, b⟩ := y; exact .step k a b _ _ (alike_refl _ _ _) (ih _)
  have e1 := (hk (max k0 k1) (Nat.le_max_left _ _) _ (htamp _ _)).1
  have e2 := (hk1 (max k0 k1) (Nat.le_max_right _ _)).2.1
  rw [e1] at e2
  injection e2

theorem cut_alike {F : Footprint} {outputs : Str → Prop} (hapart : ∀ n, outputs n → ¬ F.Has (cstr n)) (n : Nat) (os : Option Str) (hos : ∀ f, os = some f → outputs f) (g : Files) :
    Alike F outputs g (g.cut n os) := by
  cases os with
  | none => exact alike_refl _ _ _
  | some f =>
    refine ⟨fun m hm => ⟨rfl, rfl, rfl, rfl, ?_, rfl⟩, fun _ _ => ⟨rfl, rfl, rfl, rfl, rfl⟩⟩
    have : m ≠ cstr f := fun e => hapart f (hos f rfl) (e ▸ hm)
    simp only [Files.cut, if_neg this]

theorem ready_os {F : Footprint} {N : Str → Prop} {R : World → World → Prop} {p : Process} {g : Files} (h : Ready F N R p g) : ∀ n, p.obj.os = some n → N n := by
  have := h.stage
  cases hs : p.stage with
  | starting f a => rw [hs] at this; exact this.1.1.os
  | output r => rw [hs] at this; exact this.1.os
  | input r => rw [hs] at this; exact this.1.os
  | baseline r => rw [hs] at this; exact this.1.os
  | testing q => rw [hs] at this; exact this.1.os
  | ended r => rw [hs] at this; exact this

/-- A run whose output takes `n` bytes is one to whose output something happens. -/
theorem cut_tampered {F : Footprint} {outputs : Str → Prop} (hapart : ∀ n, outputs n → ¬ F.Has (cstr n)) (n : Nat) : ∀ (k : Nat) (g g' : Files) (p p' : Process),
    Twin (AlikeTo F outputs) p g p' g' → Ready F outputs (AlikeTo F outputs) p g → Tampered F outputs k (g', p') (aloneOn n k (g', p')) := by
  intro k
  induction k with
  | zero => intro g g' p p' _ _; exact .here _
  | succ k ih =>
    intro g g' p p' h hr
    obtain ⟨t1, t2⟩ := step_twin (alike_carries hapart) h hr
    have ha := cut_alike hapart n p'.obj.os (by rw [← h.obj]; exact ready_os hr) (p'.step g').1
    exact .step k g' p' _ _ ha (ih _ _ _ _ ⟨t1.env, t1.test, t1.obj, t1.stage, alike_trans t1.world ha⟩ t2)

/-- **C117.** Also a comparing run, or any other, returns the same value when only the first `n` bytes of its output can be written. -/
theorem C117_any_run (F : Footprint) (outputs : Str → Prop) (x : Start) (g : Files) (h : ReadsWrites F outputs x g) (n : Nat) :
    let m := main x.env x.test x.fuel x.argv (x.state g)
    ∃ k0, ∀ k, k0 ≤ k → (aloneOn n k (g, x.process)).2.stage = .ended m.2 ∧ (aloneOn n k (g, x.process)).2.obj = m.1.obj ∧ Same F (aloneOn n k (g, x.process)).1 (filesOf m.1) := by
  intro m
  obtain ⟨k0, hk⟩ := C118_verdict F outputs x g g h (alike_refl _ _ _) x.cout x.host x.time
  exact ⟨k0, fun k hk0 => hk k hk0 _ (cut_tampered h.apart n k g g x.process x.process ⟨rfl, rfl, rfl, rfl, alike_refl _ _ _⟩ (ready_blind h))⟩

end Verif.Parallel
