import Verif.Parallel.Race
import Verif.Parallel.IndependentProps
import Verif.Regression.MainProps

/-!
# The hypotheses of C116 and C118 are met: two comparisons with one baseline, each with its own output
-/

namespace Verif.Parallel
open Spec Verif.Regression Verif.Regression.Spec Verif.Measurement

theorem given_pairs (opt v : Str) : ∀ l : List Str, Given opt v l → (opt, v) ∈ l.zip l.tail := by
  intro l ⟨a, b, h⟩
  subst h
  induction a with
  | nil => simp
  | cons x a ih =>
    cases a with
    | nil => simp
    | cons y a => simp only [List.cons_append, List.tail_cons, List.zip_cons_cons, List.mem_cons] at ih ⊢; exact Or.inr ih

/-- A comparison of two numbers with the baseline "b", writing to a file. -/
def comparison (out : Str) : Start where
  env := smallEnv [.data { kind := .num .integer, name := b!"n", content := b!"1" }]
  test := fun _ => .call (.integer 1 b!"n" false) fun _ => .call (.integer 2 b!"m" false) fun _ => .ret 0
  fuel := 9
  argv := [b!"t", b!"-I", b!"b", b!"-O", out]

/-- What such a run is about: the baseline and its output. -/
def twoFiles (out : Str) : Footprint := ⟨fun n => n = b!"b" ∨ n = out, fun _ => False⟩

theorem within_two (out : Str) (g : Files) : Within (twoFiles out) (comparison out) g where
  images := fun im h => by cases h
  values := by
    intro opt v ho _ hg
    have := given_pairs _ _ _ hg
    simp only [comparison, List.tail_cons, List.zip_cons_cons, List.zip_nil_right, List.mem_cons, Prod.mk.injEq, List.not_mem_nil, or_false] at this
    rcases this with ⟨rfl, rfl⟩ | ⟨rfl, rfl⟩ | ⟨rfl, rfl⟩ | ⟨rfl, rfl⟩
    · rcases ho with ho | ho | ho | ho <;> exact absurd ho (by decide)
    · exact Or.inl rfl
    · rcases ho with ho | ho | ho | ho <;> exact absurd ho (by decide)
    · exact Or.inr rfl
  dirs := by
    intro v hg
    have := given_pairs _ _ _ hg
    simp [comparison] at this
  path := fun d hd => by cases hd
  input := Or.inl rfl
  output := Or.inl rfl
  idle := ⟨rfl, rfl, rfl⟩
  documents := by
    intro bytes ms _ hr
    cases hr
    intro f hf
    simp at hf
  tests := fun _ => ⟨(fun f hf => by cases hf), fun _ => ⟨(fun f hf => by cases hf), fun _ => trivial⟩⟩

theorem apart_two (out out' : Str) (h : cstr out' ≠ b!"b") (h' : cstr out' ≠ cstr out) : Apart (twoFiles out) (comparison out') where
  output := by
    intro v hg
    have := given_pairs _ _ _ hg
    simp only [comparison, List.tail_cons, List.zip_cons_cons, List.zip_nil_right, List.mem_cons, Prod.mk.injEq, List.not_mem_nil, or_false] at this
    have hv : v = out' := by
      rcases this with ⟨h, -⟩ | ⟨h, -⟩ | ⟨h, -⟩ | ⟨-, h⟩
      · exact absurd h (by decide)
      · exact absurd h (by decide)
      · exact absurd h (by decide)
      · exact h
    subst hv
    rintro ⟨n, hn, hf | ⟨d, _, hd, _⟩⟩
    · rcases hn with rfl | rfl
      · exact h hf.symm
      · exact h' hf.symm
    · exact hd
  before := Or.inl rfl
  idle := rfl
  tests := fun _ _ _ => trivial

/-- Both end as they would alone, whatever the schedule. -/
example (g : Files) (sched : List Bool) (b : Bool) (r : Except Fault Int)
    (hend : ((run sched (g, fun j => (if j then comparison b!"x" else comparison b!"y").process)).2 b).stage = .ended r) :
    r = (let c := if b then comparison b!"x" else comparison b!"y"; main c.env c.test c.fuel c.argv (c.state g)).2 := by
  cases b with
  | true => exact ((C116_result (twoFiles b!"x") (fun j : Bool => if j then comparison b!"x" else comparison b!"y") true g (within_two _ g)
      (fun j hj => by cases j <;> [exact apart_two _ _ (by decide) (by decide); exact absurd rfl hj])).2 sched r hend).1
  | false => exact ((C116_result (twoFiles b!"y") (fun j : Bool => if j then comparison b!"x" else comparison b!"y") false g (within_two _ g)
      (fun j hj => by cases j <;> [exact absurd rfl hj; exact apart_two _ _ (by decide) (by decide)])).2 sched r hend).1

/-- Where both files can be written and the baseline can be read, both find the number that is not in the baseline: 1. -/
def shared : Files := ⟨⟨fun n => if n = b!"b" then some .regular else none, fun _ => true, fun _ => true, fun _ => true⟩, fun _ => [], fun _ => true⟩

example : (match ((run [true, false, true, false, false, true, true, false, false, true, false, true, true, false, false, true, true, false]
    (shared, fun j => (if j then comparison b!"x" else comparison b!"y").process)).2 true).stage with | .ended (.ok v) => v | _ => 77) = 1 := by decide +kernel

/-- The race: the hypotheses are met by a recording and a comparison on an empty disk. -/
example : ((run [false, false, true, true, true, true] ((⟨⟨fun _ => none, fun _ => true, fun _ => true, fun _ => true⟩, fun _ => [], fun _ => true⟩ : Files), fun b =>
    if b then ({ env := { smallEnv [] with readXML := fun b => if b = [] then .error (.thrown "no element found") else .ok [] }, test := fun _ => .ret 0, fuel := 9, argv := [b!"t", b!"-I", b!"r"] } : Start).process
    else ({ env := smallEnv [], test := fun _ => .ret 0, fuel := 9, argv := [b!"t", b!"-O", b!"r"] } : Start).process)).2 true).stage = .ended (.ok (-1)) :=
  C116_race _ _ b!"t" b!"t" b!"r" _ rfl rfl rfl rfl (by decide) (by decide) (by decide) rfl rfl "no element found" rfl

/-- Such a comparison reads the baseline and writes its output. -/
theorem reads_baseline (out : Str) (g : Files) (h : cstr out ≠ b!"b") : ReadsWrites ⟨fun n => n = b!"b", fun _ => False⟩ (fun n => n = out) (comparison out) g where
  apart := by
    rintro n rfl ⟨m, rfl, hm | ⟨d, _, hd, _⟩⟩
    · exact h hm.symm
    · exact hd
  images := fun im h => by cases h
  values := by
    intro v hg
    have hp : (b!"-I", v) ∈ (comparison out).argv.zip (comparison out).argv.tail ∨ (b!"-P", v) ∈ (comparison out).argv.zip (comparison out).argv.tail :=
      hg.imp (given_pairs _ _ _) (given_pairs _ _ _)
    simpa [comparison] using hp
  dirs := by
    intro v hg
    have := given_pairs _ _ _ hg
    simp [comparison] at this
  writes := by
    intro v hg
    have := given_pairs _ _ _ hg
    simpa [comparison] using this
  path := fun d hd => by cases hd
  input := Or.inl rfl
  output := Or.inl rfl
  idle := ⟨rfl, rfl, rfl⟩
  documents := by
    intro bytes ms _ hr
    cases hr
    intro f hf
    simp at hf
  tests := fun _ => ⟨(fun f hf => by cases hf), fun _ => ⟨(fun f hf => by cases hf), fun _ => trivial⟩⟩

/-- It finds the number that is not in the baseline on every host, at every time, and when nothing of its output can be written. -/
example (host time : Str) : ∃ k0, ∀ k, k0 ≤ k → (aloneOn 0 k (shared, { comparison b!"x" with host := host, time := time : Start }.process)).2.stage = .ended (.ok 1) := by
  have h := reads_baseline b!"x" shared (by decide)
  obtain ⟨k0, hk⟩ := C118_verdict _ _ _ _ _ h (alike_refl _ _ shared) [] host time
  refine ⟨k0, fun k hk0 => ?_⟩
  have := (hk k hk0 _ (cut_tampered h.apart 0 k shared shared { comparison b!"x" with cout := [], host := host, time := time : Start }.process _ ⟨rfl, rfl, rfl, rfl, alike_refl _ _ _⟩
    (ready_blind { h with }))).1
  rw [show (main (comparison b!"x").env (comparison b!"x").test (comparison b!"x").fuel (comparison b!"x").argv ((comparison b!"x").state shared)).2 = .ok 1 by decide +kernel] at this
  exact this

/-- The value does not depend on what was in the output file before. -/
example : (main (comparison b!"x").env (comparison b!"x").test (comparison b!"x").fuel (comparison b!"x").argv ((comparison b!"x").state shared)).2 =
    (main (comparison b!"x").env (comparison b!"x").test (comparison b!"x").fuel (comparison b!"x").argv
      ({ comparison b!"x" with cout := b!"hello", host := b!"here", time := b!"now" : Start }.state ⟨shared.fs, fun n => if n = b!"x" then b!"old" else [], shared.creatable⟩)).2 :=
  C118_main _ _ (comparison b!"x") shared ⟨shared.fs, fun n => if n = b!"x" then b!"old" else [], shared.creatable⟩ (reads_baseline b!"x" shared (by decide)) ⟨fun n hn => ⟨rfl, rfl, rfl, rfl, by
    have : n ≠ b!"x" := by
      rintro rfl
      exact (reads_baseline b!"x" shared (by decide)).apart b!"x" rfl hn
    simp only [if_neg this]; rfl, rfl⟩, fun _ _ => ⟨rfl, rfl, rfl, rfl, rfl⟩⟩ b!"hello" b!"here" b!"now"

end Verif.Parallel
