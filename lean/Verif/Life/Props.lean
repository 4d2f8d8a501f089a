import Verif.Life.Object
import Verif.Regression.SettingsProps

/-!
# C98: lifetimes
-/

namespace Verif.Life
open Spec Verif.Measurement Verif.Regression Verif.Xml
open Verif.Path (FileSys)

theorem parseLoop_pointers (fs : FileSys) : ∀ (fuel : Nat) (o : Obj) (a : Args), (parseLoop fs fuel o a).1.input = o.input ∧
    (parseLoop fs fuel o a).1.os = o.os ∧ (parseLoop fs fuel o a).1.is = o.is := by
  intro fuel
  induction fuel with
  | zero => intro o a; exact ⟨rfl, rfl, rfl⟩
  | succ n ih =>
    intro o a
    rw [parseLoop]
    repeat' split
    all_goals first
      | exact ⟨rfl, rfl, rfl⟩
      | exact ih _ _

theorem parse_pointers (fs : FileSys) (fuel : Nat) (o : Obj) (argv : List Str) : (parseArguments fs fuel o argv).1.input = o.input ∧
    (parseArguments fs fuel o argv).1.os = o.os ∧ (parseArguments fs fuel o argv).1.is = o.is := by
  have h := parseLoop_pointers fs fuel o { argc := argv.length, argv := argv }
  rw [parseArguments]
  rcases hl : parseLoop fs fuel o { argc := argv.length, argv := argv } with ⟨o', f | a⟩
  · rw [hl] at h; exact h
  · rw [hl] at h
    simp only at h ⊢
    cases a.infname <;> cases a.outfname <;> exact h

/-- The object points to nothing. -/
def Clean (g : G) : Prop := g.input = [] ∧ g.os = none ∧ g.is = none

theorem compareMode_of_is {s : St} (h : s.obj.is.isSome = true) : s.compareMode = true := by
  obtain ⟨b, hb⟩ := Option.isSome_iff_exists.mp h
  rw [St.compareMode, hb]

theorem traceMain_step (X : Expat) (env : Env) (test : List Str → Prog) (fuel : Nat) (argv : List Str) (s : St) (g : G) (hs : Sync s.obj g) :
    Step (NoTwice X ∧ Clean g ∧ (tryBlock (withXML X env) test fuel argv s).2.2 = none) (g.cfg []) ((traceMain X env test fuel argv s g).cfg []) ∧
      Sync (tryBlock (withXML X env) test fuel argv s).1.obj (traceMain X env test fuel argv s g) ∧
      (Clean g → (tryBlock (withXML X env) test fuel argv s).2.2 = none → Clean (traceMain X env test fuel argv s g)) := by
  simp only [traceMain, tryBlock]
  obtain ⟨p1, p2, p3⟩ := parse_pointers s.world.fs fuel { s.obj with unmatched := s.obj.unmatched + 1 } argv
  have hs1 : Sync (parseArguments s.world.fs fuel { s.obj with unmatched := s.obj.unmatched + 1 } argv).1 g := hs.obj p1 p2 p3
  rcases hp : parseArguments s.world.fs fuel { s.obj with unmatched := s.obj.unmatched + 1 } argv with ⟨o, f | rest⟩
  · rw [hp] at hs1
    exact ⟨.refl _ _, hs1, fun _ h => by cases h⟩
  · rw [hp] at hs1
    simp only at hs1 ⊢
    obtain ⟨b1, b2, b3⟩ := traceBegin_step X env ⟨o, s.world⟩ g hs1
    rcases hb : beginMeasurement (withXML X env) ⟨o, s.world⟩ with ⟨s1, f | u⟩
    · rw [hb] at b2
      exact ⟨b1.imp fun ⟨_, _, h⟩ => (by cases h), b2, fun _ h => by cases h⟩
    · rw [hb] at b1 b2 b3
      simp only at b2 b3 ⊢
      obtain ⟨t1, t2, t3, t4⟩ := traceProg_step (withXML X env) (test rest) s1 (traceBegin X ⟨o, s.world⟩ g) b2
      have b1' := b1.imp (U := NoTwice X ∧ Clean g) fun ⟨a, b, c, d⟩ => ⟨a, b, c, d, rfl⟩
      rcases hr : runProg (withXML X env) (test rest) s1 with ⟨s2, f | v⟩
      · rw [hr] at t1 t2
        exact ⟨(b1'.trans t1).imp fun ⟨_, _, h⟩ => (by cases h), t2, fun _ h => by cases h⟩
      · rw [hr] at t1 t2
        simp only at t2 ⊢
        obtain ⟨e1, e2, e3, e4, e5⟩ := traceEnd_step s2 (traceProg (withXML X env) (test rest) s1 (traceBegin X ⟨o, s.world⟩ g)) t2
        refine ⟨((b1'.trans t1).trans e1).imp fun ⟨a, b, _⟩ => ⟨⟨⟨a, b⟩, v, rfl⟩, trivial⟩, e2.obj rfl rfl rfl, fun hc _ => ⟨?_, e3, e4⟩⟩
        rw [e5]
        split
        · rfl
        · next hm =>
          have hn : (traceProg (withXML X env) (test rest) s1 (traceBegin X ⟨o, s.world⟩ g)).is = none := by
            cases hi : (traceProg (withXML X env) (test rest) s1 (traceBegin X ⟨o, s.world⟩ g)).is with
            | none => rfl
            | some i =>
              have := t2.is
              rw [hi] at this
              exact absurd (compareMode_of_is this.symm) hm
          exact t4 (b3 hc.1 trivial (by rw [← t3]; exact hn))

theorem main_state (env : Env) (test : List Str → Prog) (fuel : Nat) (argv : List Str) (s : St) :
    (main env test fuel argv s).1 = (tryBlock env test fuel argv s).1 := by
  rw [main]
  rcases tryBlock env test fuel argv s with ⟨s', v, _ | ⟨_ | _ | _ | _⟩⟩ <;> rfl

/-- Every `try` block of the calls of `Main` ends without an exception or other fault. -/
def Quiet (env : Env) : List Run → St → Prop
  | [], _ => True
  | r :: rs, s => (tryBlock env r.test r.fuel r.argv (r.before s)).2.2 = none ∧ Quiet env rs (main env r.test r.fuel r.argv (r.before s)).1

theorem life_step (X : Expat) (env : Env) (runs : List Run) : ∀ (s : St) (g : G), Sync s.obj g →
    Step (NoTwice X ∧ Clean g ∧ Quiet (withXML X env) runs s) (g.cfg []) ((life X env runs s g).cfg []) ∧
      (Clean g → Quiet (withXML X env) runs s → Clean (life X env runs s g)) := by
  induction runs with
  | nil =>
    intro s g hs
    obtain ⟨f1, f2, f3, f4⟩ := traceFree_step g
    exact ⟨f1.imp fun _ => trivial, fun hc _ => ⟨f2, f3.trans hc.2.1, f4.trans hc.2.2⟩⟩
  | cons r rs ih =>
    intro s g hs
    have hs' : Sync (r.before s).obj g := hs.obj rfl rfl rfl
    obtain ⟨m1, m2, m3⟩ := traceMain_step X env r.test r.fuel r.argv (r.before s) g hs'
    rw [← main_state] at m2
    have hq : Quiet (withXML X env) (r :: rs) s → (tryBlock (withXML X env) r.test r.fuel r.argv (r.before s)).2.2 = none ∧
      Quiet (withXML X env) rs (main (withXML X env) r.test r.fuel r.argv (r.before s)).1 := fun h => h
    rw [life]
    rcases hm : main (withXML X env) r.test r.fuel r.argv (r.before s) with ⟨s1, f | v⟩
    · refine ⟨m1.imp fun ⟨a, b, c⟩ => ⟨a, b, (hq c).1⟩, fun hc h => m3 hc (hq h).1⟩
    · rw [hm] at m2
      rw [hm] at hq
      obtain ⟨i1, i2⟩ := ih s1 (traceMain X env r.test r.fuel r.argv (r.before s) g) m2
      refine ⟨(m1.trans i1).imp fun ⟨a, b, c⟩ => ⟨⟨a, b, (hq c).1⟩, a, m3 b (hq c).1, (hq c).2⟩, fun hc h => i2 (m3 hc (hq h).1) (hq h).2⟩

theorem inv_start : Inv (G.cfg {} []) := by
  refine ⟨fun before e after h => ?_, fun i h => ?_, ?_, fun i h => ?_⟩
  · exact absurd (congrArg List.length h) (by simp [G.cfg])
  · simp [G.cfg] at h
  · simp [G.cfg]
  · simp [G.cfg] at h

theorem sync_fresh (w : World) : Sync (fresh w).obj {} := ⟨rfl, rfl, rfl⟩

/-- Whatever the parser, the libraries, the tests, the arguments, the surroundings and the changes of the settings are, and however the calls of `Main` end: no measurement
made from a baseline and no stream is used before it is made or after it was destroyed, and none is destroyed twice. -/
theorem C98_lifetimes (X : Expat) (env : Env) (runs : List Run) (w : World) : Valid (life X env runs (fresh w) {}).log :=
  ((life_step X env runs (fresh w) {} (sync_fresh w)).1.inv inv_start).valid

theorem oneType_of_nodup {attrs : List (Str × Str)} (h : (attrs.map Prod.fst).Nodup) : types attrs ≤ 1 := by
  induction attrs with
  | nil => simp [types]
  | cons a rest ih =>
    obtain ⟨a, v⟩ := a
    simp only [List.map_cons, List.nodup_cons] at h
    have := ih h.2
    by_cases ha : a = b!"type"
    · have h0 : types rest = 0 := by
        simp only [types, List.length_eq_zero_iff, List.filter_eq_nil_iff]
        intro x hx hx2
        exact h.1 (List.mem_map.mpr ⟨x, hx, by rw [ha]; exact of_decide_eq_true hx2⟩)
      have : types ((a, v) :: rest) = types rest + 1 := by simp [types, ha]
      omega
    · have : types ((a, v) :: rest) = types rest := by simp [types, ha]
      omega

/-- The parser reports no element in which an attribute is given twice (XML calls such a document not well-formed). -/
def Unrepeated (X : Expat) : Prop := ∀ st chunk last el attrs, .start el attrs ∈ (X.feed st chunk last).2.1 → (attrs.map Prod.fst).Nodup

theorem noTwice_of_unrepeated {X : Expat} (h : Unrepeated X) : NoTwice X := by
  intro st chunk last e he
  cases e with
  | start el attrs => exact oneType_of_nodup (h st chunk last el attrs he)
  | stop n => trivial
  | text t => trivial

/-- If no exception is thrown and the parser reports no attribute twice, everything made is destroyed when the object is. -/
theorem C98_nothing_lost (X : Expat) (hX : Unrepeated X) (env : Env) (runs : List Run) (w : World) (hq : Quiet (withXML X env) runs (fresh w)) (i : Nat) :
    ¬ Leaked (life X env runs (fresh w) {}).log i := by
  intro hl
  obtain ⟨h1, h2⟩ := life_step X env runs (fresh w) {} (sync_fresh w)
  have hm := h1.tight ⟨noTwice_of_unrepeated hX, ⟨rfl, rfl, rfl⟩, hq⟩ inv_start (fun i h => absurd h.1 (by simp [G.cfg])) i hl
  obtain ⟨a, b, c⟩ := h2 ⟨rfl, rfl, rfl⟩ hq
  simp [G.cfg, a, b, c] at hm

end Verif.Life
