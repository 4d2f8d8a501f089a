import Verif.Life.Props
import Verif.Xml.CrashProps

/-!
# C98: what is lost when an exception is thrown
-/

namespace Verif.Life
open Spec Verif.Measurement Verif.Regression Verif.Regression.Spec Verif.Xml Verif.Xml.Spec

/-! ## Histories -/

/-- The state after calls of `Main`, if none of them ended the program. -/
def After (env : Env) : List Run → St → Option St
  | [], s => some s
  | r :: rs, s => match main env r.test r.fuel r.argv (r.before s) with
    | (_, .error _) => none
    | (s', .ok _) => After env rs s'

theorem after_life (X : Expat) (env : Env) (before : List Run) : ∀ (s s' : St) (g : G), Sync s.obj g → Inv (g.cfg []) → After (withXML X env) before s = some s' →
    ∃ g', Sync s'.obj g' ∧ Inv (g'.cfg []) ∧ ∀ rs, life X env (before ++ rs) s g = life X env rs s' g' := by
  induction before with
  | nil => intro s s' g hs hi h; injection h with h; subst h; exact ⟨g, hs, hi, fun rs => rfl⟩
  | cons r before ih =>
    intro s s' g hs hi h
    obtain ⟨m1, m2, -⟩ := traceMain_step X env r.test r.fuel r.argv (r.before s) g (hs.obj rfl rfl rfl)
    rw [After] at h
    rw [← main_state] at m2
    rcases hm : main (withXML X env) r.test r.fuel r.argv (r.before s) with ⟨s1, f | v⟩
    · rw [hm] at h; cases h
    · rw [hm] at h m2
      obtain ⟨g', a, b, c⟩ := ih s1 s' _ m2 (m1.inv hi) h
      refine ⟨g', a, b, fun rs => ?_⟩
      rw [List.cons_append, life, hm]
      exact c rs

/-- What is lost stays lost. -/
theorem life_keep (X : Expat) (env : Env) (rs : List Run) (s : St) (g : G) (hs : Sync s.obj g) (hi : Inv (g.cfg [])) (i : Nat) (hl : Leaked g.log i)
    (hh : i ∉ (g.cfg []).held) : Leaked (life X env rs s g).log i :=
  ((life_step X env rs s g hs).1.keep hi i hl hh).1

/-- What a call of `Main` loses is lost for good. -/
theorem main_loses (X : Expat) (env : Env) (r : Run) (rs : List Run) (s : St) (g : G) (hs : Sync s.obj g) (hi : Inv (g.cfg [])) (i : Nat)
    (hl : Leaked (traceMain X env r.test r.fuel r.argv (r.before s) g).log i) (hh : i ∉ ((traceMain X env r.test r.fuel r.argv (r.before s) g).cfg []).held) :
    Leaked (life X env (r :: rs) s g).log i := by
  obtain ⟨m1, m2, -⟩ := traceMain_step X env r.test r.fuel r.argv (r.before s) g (hs.obj rfl rfl rfl)
  rw [← main_state] at m2
  rw [life]
  rcases hm : main (withXML X env) r.test r.fuel r.argv (r.before s) with ⟨s1, f | v⟩
  · exact hl
  · rw [hm] at m2
    exact life_keep X env rs s1 _ m2 (m1.inv hi) i hl hh

/-! ## Exceptions while comparing -/

/-- The test ends because a comparison with a measurement of the baseline ends by a fault. -/
def FailsComparing (env : Env) : Prog → St → Prop
  | .ret _, _ => False
  | .fails _, _ => False
  | .call c k, s => match runCall env s c with
    | (_, .error _) => s.compareMode = true ∧ s.obj.input ≠ []
    | (s', .ok r) => FailsComparing env (k r) s'
  | .act f k, s => FailsComparing env k { s with world := f s.world }
  | .look k, s => FailsComparing env (k s.world) s
  | .ask k, s => FailsComparing env (k s.settings) s
  | .setTolerance t k, s => FailsComparing env k { s with obj := { s.obj with tolerance := t } }
  | .setExpected v k, s => FailsComparing env k { s with obj := { s.obj with expected := v } }
  | .setImageTolerance t k, s => FailsComparing env k { s with obj := { s.obj with imageTol := t } }
  | .setSearchPath ps k, s => FailsComparing env k { s with obj := { s.obj with searchPath := ps } }
  | .prependSearchPath p k, s => FailsComparing env k { s with obj := { s.obj with searchPath := p :: s.obj.searchPath } }
  | .setInFileName n k, s => FailsComparing env k { s with obj := { s.obj with inFileName := n } }
  | .setOutFileName n k, s => FailsComparing env k { s with obj := { s.obj with outFileName := n } }

theorem traceCompare_loses (env : Env) (s : St) (m : Meas) (tol : Bool) (g : G) (hi : Inv (g.cfg [])) (i : Nat) (rest : List Nat) (hg : g.input = i :: rest) (s' : St) (f : Fault)
    (hr : compareMeasurement env s m tol = (s', .error f)) :
    Leaked (traceCompare env s m tol g).log i ∧ i ∉ ((traceCompare env s m tol g).cfg []).held := by
  have hl := hi.live i (by simp [G.cfg, hg])
  have hn := hi.nodup
  have hh : (g.cfg []).held = i :: (rest ++ (g.os.toList ++ g.is.toList)) := by simp [G.cfg, hg]
  rw [hh, List.nodup_cons] at hn
  rw [traceCompare, hg]
  simp only [hr]
  have key : ∀ g1 : G, Leaked g1.log i → Leaked (g1.useOpt g1.os).log i := by
    intro g1 h
    cases g1.os with
    | none => exact h
    | some j => exact ⟨by simp [G.useOpt, G.add, h.1], by simpa [G.useOpt, G.add] using h.2⟩
  obtain ⟨-, h3⟩ := G.useOs_step { g.add (.use i) with input := rest } []
  refine ⟨key _ ⟨by simp [G.add]; exact hl.1, by simp [G.add]; exact hl.2⟩, ?_⟩
  rw [G.cfg_eq h3]
  simpa [G.cfg, G.add] using hn.1

theorem traceProg_loses (env : Env) (p : Prog) : ∀ (s : St) (g : G), Sync s.obj g → Inv (g.cfg []) → FailsComparing env p s →
    ∃ i, Leaked (traceProg env p s g).log i ∧ i ∉ ((traceProg env p s g).cfg []).held := by
  induction p with
  | ret v => intro s g _ _ h; exact h.elim
  | fails e => intro s g _ _ h; exact h.elim
  | act f k ih => intro s g hs hi h; exact ih { s with world := f s.world } g hs hi h
  | look k ih => intro s g hs hi h; exact ih s.world s g hs hi h
  | ask k ih => intro s g hs hi h; exact ih s.settings s g hs hi h
  | setTolerance t k ih => intro s g hs hi h; exact ih { s with obj := { s.obj with tolerance := t } } g ⟨hs.input, hs.os, hs.is⟩ hi h
  | setExpected v k ih => intro s g hs hi h; exact ih { s with obj := { s.obj with expected := v } } g ⟨hs.input, hs.os, hs.is⟩ hi h
  | setImageTolerance t k ih => intro s g hs hi h; exact ih { s with obj := { s.obj with imageTol := t } } g ⟨hs.input, hs.os, hs.is⟩ hi h
  | setSearchPath ps k ih => intro s g hs hi h; exact ih { s with obj := { s.obj with searchPath := ps } } g ⟨hs.input, hs.os, hs.is⟩ hi h
  | prependSearchPath p k ih => intro s g hs hi h; exact ih { s with obj := { s.obj with searchPath := p :: s.obj.searchPath } } g ⟨hs.input, hs.os, hs.is⟩ hi h
  | setInFileName n k ih => intro s g hs hi h; exact ih { s with obj := { s.obj with inFileName := n } } g ⟨hs.input, hs.os, hs.is⟩ hi h
  | setOutFileName n k ih => intro s g hs hi h; exact ih { s with obj := { s.obj with outFileName := n } } g ⟨hs.input, hs.os, hs.is⟩ hi h
  | call c k ih =>
    intro s g hs hi h
    rw [FailsComparing] at h
    rw [traceProg]
    obtain ⟨h1, h2, -, -⟩ := traceCall_step env s c g hs
    rcases hr : runCall env s c with ⟨s', f | r⟩
    · rw [hr] at h
      obtain ⟨hm, hne⟩ := h
      simp only
      rw [traceCall, if_pos hm]
      rw [runCall, if_pos hm] at hr
      cases hg : g.input with
      | nil =>
        have := hs.input
        rw [hg] at this
        exact absurd (List.length_eq_zero_iff.mp this.symm) hne
      | cons i rest => exact ⟨i, traceCompare_loses env s _ _ g hi i rest hg s' f hr⟩
    · rw [hr] at h h2
      exact ih r s' _ h2 (h1.inv hi) h

/-- A comparison with a measurement of the baseline that ends by an exception loses that measurement, whatever happened before and happens afterwards. -/
theorem C98_exception_in_comparison (X : Expat) (env : Env) (before : List Run) (w : World) (s : St) (hb : After (withXML X env) before (fresh w) = some s) (r : Run)
    (o : Obj) (rest : List Str) (s1 : St)
    (hp : parseArguments (r.before s).world.fs r.fuel { (r.before s).obj with unmatched := (r.before s).obj.unmatched + 1 } r.argv = (o, .ok rest))
    (hbegin : beginMeasurement (withXML X env) ⟨o, (r.before s).world⟩ = (s1, .ok ())) (hf : FailsComparing (withXML X env) (r.test rest) s1) :
    ∃ i, ∀ rs, Leaked (life X env (before ++ r :: rs) (fresh w) {}).log i := by
  obtain ⟨g, hs, hi, hl⟩ := after_life X env before (fresh w) s {} (sync_fresh w) inv_start hb
  obtain ⟨p1, p2, p3⟩ := parse_pointers (r.before s).world.fs r.fuel { (r.before s).obj with unmatched := (r.before s).obj.unmatched + 1 } r.argv
  have hs1 : Sync o g := by
    rw [hp] at p1 p2 p3
    exact hs.obj p1 p2 p3
  obtain ⟨b1, b2, -⟩ := traceBegin_step X env ⟨o, (r.before s).world⟩ g hs1
  rw [hbegin] at b2
  have hi2 := b1.inv hi
  obtain ⟨i, h1, h2⟩ := traceProg_loses (withXML X env) (r.test rest) s1 _ b2 hi2 hf
  have hne : ∃ s2 f, runProg (withXML X env) (r.test rest) s1 = (s2, .error f) := by
    clear h1 h2 b2 hi2 hbegin
    generalize r.test rest = p at hf
    induction p generalizing s1 with
    | ret v => exact hf.elim
    | fails e => exact hf.elim
    | call c k ih =>
      rw [FailsComparing] at hf
      rw [runProg]
      rcases hr : runCall (withXML X env) s1 c with ⟨s', f | v⟩
      · exact ⟨s', f, rfl⟩
      · rw [hr] at hf; exact ih v s' hf
    | act f k ih => exact ih _ hf
    | look k ih => exact ih _ _ hf
    | ask k ih => exact ih _ _ hf
    | setTolerance t k ih => exact ih _ hf
    | setExpected v k ih => exact ih _ hf
    | setImageTolerance t k ih => exact ih _ hf
    | setSearchPath ps k ih => exact ih _ hf
    | prependSearchPath p k ih => exact ih _ hf
    | setInFileName n k ih => exact ih _ hf
    | setOutFileName n k ih => exact ih _ hf
  obtain ⟨s2, f, hrun⟩ := hne
  have he : traceMain X env r.test r.fuel r.argv (r.before s) g = traceProg (withXML X env) (r.test rest) s1 (traceBegin X ⟨o, (r.before s).world⟩ g) := by
    simp only [traceMain]
    rw [hp]
    simp only
    rw [hbegin]
    simp only
    rw [hrun]
  refine ⟨i, fun rs => ?_⟩
  rw [hl]
  exact main_loses X env r rs s g hs hi i (by rw [he]; exact h1) (by rw [he]; exact h2)

/-! ## Streams -/

/-- The destructor closes no stream: if after the last call of `Main` the object still has one open (after an exception), it is lost. -/
theorem C98_streams_left_open (X : Expat) (env : Env) (runs : List Run) (w : World) (s : St) (hb : After (withXML X env) runs (fresh w) = some s)
    (h : s.obj.os.isSome = true ∨ s.obj.is.isSome = true) : ∃ i, Leaked (life X env runs (fresh w) {}).log i := by
  obtain ⟨g, hs, hi, hl⟩ := after_life X env runs (fresh w) s {} (sync_fresh w) inv_start hb
  have e := hl []
  rw [List.append_nil] at e
  rw [e, life]
  obtain ⟨f1, f2, f3, f4⟩ := traceFree_step g
  have hi' := f1.inv hi
  have : ∃ i, i ∈ ((traceFree g).cfg []).held := by
    rw [← hs.os, ← hs.is, ← f3, ← f4] at h
    rcases h with h | h <;> obtain ⟨i, hx⟩ := Option.isSome_iff_exists.mp h <;> exact ⟨i, by simp [G.cfg, hx]⟩
  obtain ⟨i, h⟩ := this
  exact ⟨i, hi'.live i h⟩

/-! ## Baselines that are not read to the end -/

theorem traceLoop_succ (X : Expat) (size fuel : Nat) (rest : Str) (st : X.State) (pd : ParseData) (g : G) (r : RG) :
    traceLoop X size (fuel + 1) rest st pd g r =
      if (rest.take 1024).length < (if decide (rest.length < 1024) then size % 1024 else 1024) then (g.useOpt g.is, r)
      else
        let f := X.feed st ((rest.take 1024).take (if decide (rest.length < 1024) then size % 1024 else 1024)) (decide (rest.length < 1024))
        let t := traceEvents pd f.2.1 (g.useOpt g.is) r
        match onEvents pd f.2.1 with
        | .error _ => t
        | .ok pd => if f.2.2 then
            if decide (rest.length < 1024) then t else traceLoop X size fuel (rest.drop 1024) f.1 pd t.1 t.2
          else t := rfl

theorem traceLoop_chunked (X : Expat) (size : Nat) : ∀ (n : Nat) (rest : Str) (st : X.State) (pd pd' : ParseData) (g : G) (r : RG),
    rest.length / 1024 = n → size % 1024 = rest.length % 1024 → RSync pd r → onEvents pd (feeds X st (chunked n rest)).1 = .ok pd' →
    RSync pd' (traceLoop X size (n + 1) rest st pd g r).2 := by
  intro n
  induction n with
  | zero =>
    intro rest st pd pd' g r hn hs hr hok
    have hlt : rest.length < 1024 := by omega
    rw [traceLoop_succ]
    have h1 : size % 1024 = rest.length := by omega
    have h2 : rest.take 1024 = rest := List.take_of_length_le (by omega)
    simp only [hlt, decide_true, if_true, h1, h2, Nat.lt_irrefl, if_false, List.take_length]
    rcases hq : X.feed st rest true with ⟨st', es, ok⟩
    rw [chunked, feeds_cons, hq] at hok
    have hok' : onEvents pd es = .ok pd' := by cases ok <;> simpa [feeds] using hok
    have := (traceEvents_step es pd (g.useOpt g.is) r hr).2.2 pd' hok'
    simp only [hok']
    cases ok <;> exact this
  | succ n ih =>
    intro rest st pd pd' g r hn hs hr hok
    have hge : ¬ rest.length < 1024 := by omega
    rw [traceLoop_succ]
    have h3 : (rest.take 1024).length = 1024 := by rw [List.length_take]; omega
    simp only [hge, decide_false, Bool.false_eq_true, if_false, h3, Nat.lt_irrefl]
    have h2 : (rest.take 1024).take 1024 = rest.take 1024 := List.take_of_length_le (by omega)
    rw [h2]
    rcases hq : X.feed st (rest.take 1024) false with ⟨st', es, ok⟩
    rw [chunked, if_neg hge, feeds_cons, hq] at hok
    have hes := (traceEvents_step es pd (g.useOpt g.is) r hr).2.2
    cases ok with
    | false =>
      simp only [Bool.false_eq_true, if_false] at hok ⊢
      simp only [hok]
      exact hes pd' hok
    | true =>
      simp only [onEvents_append, if_true] at hok ⊢
      cases he : onEvents pd es with
      | error f => rw [he] at hok; cases hok
      | ok pd1 =>
        rw [he] at hok
        simp only
        exact ih _ st' pd1 pd' _ _ (by rw [List.length_drop]; omega) (by rw [List.length_drop]; omega) (hes pd1 he) hok

theorem traceRead_loses (X : Expat) (bytes : Str) (g : G) (hi : Inv (g.cfg [])) (pd : ParseData) (f : Fault)
    (hev : onEvents {} (feeds X X.init (chunked (bytes.length / 1024) bytes)).1 = .ok pd) (hr : readXML X bytes = .error f) :
    ∃ l : List Nat, l.Nodup ∧ l.length = pd.measurements.length ∧ ∀ i ∈ l, Leaked (traceRead X bytes g).log i ∧ i ∉ ((traceRead X bytes g).cfg []).held := by
  obtain ⟨h1, h2, -⟩ := traceLoop_step X bytes.length (bytes.length / 1024 + 1) bytes X.init {} g {} ⟨rfl, rfl⟩
  have hs := traceLoop_chunked X bytes.length (bytes.length / 1024) bytes X.init {} pd g {} rfl rfl ⟨rfl, rfl⟩ hev
  have hi2 := h1.inv hi
  have e : traceRead X bytes g = (traceLoop X bytes.length (bytes.length / 1024 + 1) bytes X.init {} g {}).1 := by
    simp only [traceRead, hr]
  rw [e]
  generalize traceLoop X bytes.length (bytes.length / 1024 + 1) bytes X.init {} g {} = t at *
  have hn := hi2.nodup
  have hh : (t.1.cfg t.2.held).held = t.2.m.toList ++ (t.2.list ++ (t.1.cfg []).held) := by simp [G.cfg, RG.held]
  rw [hh] at hn
  obtain ⟨-, hn2, -⟩ := List.nodup_append.mp hn
  obtain ⟨hn3, -, hd⟩ := List.nodup_append.mp hn2
  refine ⟨t.2.list, hn3, hs.list, fun i hm => ⟨hi2.live i (by rw [hh]; simp [hm]), fun h => hd i hm i h rfl⟩⟩

/-- A baseline the parser rejects: every measurement read before the error is lost, whatever happened before and happens afterwards.  (The parser is given the bytes of the
file in `chunks`; its callbacks made the measurements `pd.measurements`.) -/
theorem C98_rejected_baseline (X : Expat) (bytes : Str) : ∃ chunks, bytesOf chunks = bytes ∧ Flagged chunks ∧
    ∀ pd, (feeds X X.init chunks).2 = false → onEvents {} (feeds X X.init chunks).1 = .ok pd →
    ∀ (env : Env) (before : List Run) (w : World) (s : St), After (withXML X env) before (fresh w) = some s → ∀ (r : Run) (o : Obj) (rest : List Str) (s1 s2 : St),
    parseArguments (r.before s).world.fs r.fuel { (r.before s).obj with unmatched := (r.before s).obj.unmatched + 1 } r.argv = (o, .ok rest) →
    openOutput ⟨o, (r.before s).world⟩ = (s1, .ok ()) → openInput s1 = (s2, .ok ()) → s2.obj.is = some bytes →
    ∃ l : List Nat, l.Nodup ∧ l.length = pd.measurements.length ∧ ∀ i ∈ l, ∀ rs, Leaked (life X env (before ++ r :: rs) (fresh w) {}).log i := by
  refine ⟨chunked (bytes.length / 1024) bytes, chunked_bytes _ _, chunked_flagged _ _, ?_⟩
  intro pd hno hev env before w s hb r o rest s1 s2 hp ho hin his
  obtain ⟨g, hs, hi, hl⟩ := after_life X env before (fresh w) s {} (sync_fresh w) inv_start hb
  obtain ⟨o1, o2, o3, o4⟩ := traceOutput_step ⟨o, (r.before s).world⟩ g
  obtain ⟨i1, i2, i3, i4⟩ := traceInput_step s1 (traceOutput ⟨o, (r.before s).world⟩ g)
  have hi2 := i1.inv (o1.inv hi)
  have hread : ∃ f, readXML X bytes = .error f := by
    have : readXML X bytes = conclude (feeds X X.init (chunked (bytes.length / 1024) bytes)) {} := readLoop_chunked X _ _ _ _ _ rfl rfl
    rw [this, conclude, hev, hno]
    simp only [leave]
    split <;> exact ⟨_, rfl⟩
  obtain ⟨f, hread⟩ := hread
  have hm : s2.compareMode = true := compareMode_of_is (by rw [his]; rfl)
  have hbegin : beginMeasurement (withXML X env) ⟨o, (r.before s).world⟩ = (s2, .error f) := by
    simp only [beginMeasurement, ho, Res.andThen, hin, startOrRead, hm, if_true, his, withXML, hread]
  have e : traceMain X env r.test r.fuel r.argv (r.before s) g = traceRead X bytes (traceInput s1 (traceOutput ⟨o, (r.before s).world⟩ g)) := by
    simp only [traceMain]
    rw [hp]
    simp only
    rw [hbegin]
    simp only [traceBegin, ho, hin, traceStartOrRead, hm, if_true, his]
  obtain ⟨l, l1, l2, l3⟩ := traceRead_loses X bytes _ hi2 pd f hev hread
  refine ⟨l, l1, l2, fun i him rs => ?_⟩
  rw [hl]
  rw [← e] at l3
  exact main_loses X env r rs s g hs hi i (l3 i him).1 (l3 i him).2

/-- In particular a recording that was interrupted: comparing with it loses every measurement recorded. -/
theorem C98_interrupted_recording (X : Expat) (hX : RejectsUnfinished X) (w0 : World) (hw : Comment (commentText w0)) (cs : List Call)
    (hclean : ∀ c ∈ cs, Verif.Xml.Spec.Clean (recordedMeas c)) (env : Env) (before : List Run) (w : World) (s : St) (hb : After (withXML X env) before (fresh w) = some s)
    (r : Run) (o : Obj) (rest : List Str) (s1 s2 : St)
    (hp : parseArguments (r.before s).world.fs r.fuel { (r.before s).obj with unmatched := (r.before s).obj.unmatched + 1 } r.argv = (o, .ok rest))
    (ho : openOutput ⟨o, (r.before s).world⟩ = (s1, .ok ())) (hin : openInput s1 = (s2, .ok ()))
    (his : s2.obj.is = some (header w0 ++ (cs.map fun c => line (recordedMeas c)).flatten)) :
    ∃ l : List Nat, l.Nodup ∧ l.length = cs.length ∧ ∀ i ∈ l, ∀ rs, Leaked (life X env (before ++ r :: rs) (fresh w) {}).log i := by
  obtain ⟨texts, ht1, ht2⟩ := printed_lines cs
  have hnl : Content b!"\n" (letters b!"\n") := .char 10 _ _ (by decide) .nil
  have hc := content_lines (cs.map recordedMeas) texts ht1 (by intro m hm; obtain ⟨c, hc, rfl⟩ := List.mem_map.mp hm; exact hclean c hc)
  rw [ht2] at hc
  obtain ⟨chunks, c1, c2, c3⟩ := C98_rejected_baseline X (header w0 ++ (cs.map fun c => line (recordedMeas c)).flatten)
  obtain ⟨h1, h3⟩ := hX _ _ _ _ _ _ hw name_output .nil (.here _ _ (hnl.append hc)) chunks c2 (by
    rw [c1]; simp [header, commentText, declaration, List.append_assoc])
  have hev : onEvents {} (feeds X X.init chunks).1 = .ok { depth := 1, measurements := cs.map recordedMeas } := by
    rw [C43_text_splits _ _ _ h3]; exact recording_events cs hclean
  obtain ⟨l, a, b, c⟩ := c3 _ h1 hev env before w s hb r o rest s1 s2 hp ho hin his
  exact ⟨l, a, by rw [b]; simp, c⟩

/-! ## A second call of `Main` after an exception -/

theorem traceRead_replaces (X : Expat) (bytes : Str) (g : G) (hi : Inv (g.cfg [])) (ms : List Meas) (hr : readXML X bytes = .ok ms) (i : Nat) (h : i ∈ g.input) :
    Leaked (traceRead X bytes g).log i ∧ i ∉ ((traceRead X bytes g).cfg []).held := by
  obtain ⟨h1, h2, -⟩ := traceLoop_step X bytes.length (bytes.length / 1024 + 1) bytes X.init {} g {} ⟨rfl, rfl⟩
  have hi2 := h1.inv hi
  simp only [traceRead, hr]
  generalize traceLoop X bytes.length (bytes.length / 1024 + 1) bytes X.init {} g {} = t at *
  have hm : i ∈ t.1.input := by rw [h2.1]; exact h
  refine ⟨hi2.live i (by simp [G.cfg, hm]), fun hh => ?_⟩
  have hn := hi2.nodup
  obtain ⟨-, hn2, hd⟩ := List.nodup_append.mp hn
  obtain ⟨-, -, hd2⟩ := List.nodup_append.mp hn2
  simp only [G.cfg, List.nil_append, List.mem_append] at hh
  rcases hh with hh | hh
  · exact hd i (by simp [RG.held, hh]) i (by simp [hm]) rfl
  · exact hd2 i hm i (by simpa using hh) rfl

/-- What is lost until the test begins stays lost. -/
theorem begin_loses (X : Expat) (env : Env) (r : Run) (rs : List Run) (s : St) (g : G) (hs : Sync s.obj g) (hi : Inv (g.cfg [])) (o : Obj) (rest : List Str)
    (hp : parseArguments (r.before s).world.fs r.fuel { (r.before s).obj with unmatched := (r.before s).obj.unmatched + 1 } r.argv = (o, .ok rest)) (i : Nat)
    (hl : Leaked (traceBegin X ⟨o, (r.before s).world⟩ g).log i) (hh : i ∉ ((traceBegin X ⟨o, (r.before s).world⟩ g).cfg []).held) :
    Leaked (life X env (r :: rs) s g).log i := by
  have hs1 : Sync o g := by
    obtain ⟨p1, p2, p3⟩ := parse_pointers (r.before s).world.fs r.fuel { (r.before s).obj with unmatched := (r.before s).obj.unmatched + 1 } r.argv
    rw [hp] at p1 p2 p3
    exact hs.obj p1 p2 p3
  obtain ⟨b1, b2, -⟩ := traceBegin_step X env ⟨o, (r.before s).world⟩ g hs1
  have key : Leaked (traceMain X env r.test r.fuel r.argv (r.before s) g).log i ∧ i ∉ ((traceMain X env r.test r.fuel r.argv (r.before s) g).cfg []).held := by
    simp only [traceMain]
    rw [hp]
    simp only
    rcases hb : beginMeasurement (withXML X env) ⟨o, (r.before s).world⟩ with ⟨s1, f | u⟩
    · exact ⟨hl, hh⟩
    · rw [hb] at b2
      simp only
      obtain ⟨t1, t2, -, -⟩ := traceProg_step (withXML X env) (r.test rest) s1 (traceBegin X ⟨o, (r.before s).world⟩ g) b2
      have k1 := t1.keep (b1.inv hi) i hl hh
      rcases hr : runProg (withXML X env) (r.test rest) s1 with ⟨s2, f | v⟩
      · exact k1
      · rw [hr] at t2
        exact (traceEnd_step s2 _ t2).1.keep (t1.inv (b1.inv hi)) i k1.1 k1.2
  exact main_loses X env r rs s g hs hi i key.1 key.2

/-- What a baseline left in the object is lost when the next call of `Main` reads a baseline: after an exception the rest of the measurements stays, and reading again replaces it
without destroying it. -/
theorem C98_rest_of_baseline (X : Expat) (env : Env) (before : List Run) (w : World) (s : St) (hb : After (withXML X env) before (fresh w) = some s)
    (r : Run) (o : Obj) (rest : List Str) (s1 : St) (bytes : Str)
    (hp : parseArguments (r.before s).world.fs r.fuel { (r.before s).obj with unmatched := (r.before s).obj.unmatched + 1 } r.argv = (o, .ok rest))
    (hbegin : beginMeasurement (withXML X env) ⟨o, (r.before s).world⟩ = (s1, .ok ())) (his : s1.obj.is = some bytes) :
    ∃ l : List Nat, l.Nodup ∧ l.length = s.obj.input.length ∧ ∀ i ∈ l, ∀ rs, Leaked (life X env (before ++ r :: rs) (fresh w) {}).log i := by
  obtain ⟨g, hs, hi, hl⟩ := after_life X env before (fresh w) s {} (sync_fresh w) inv_start hb
  have hn := hi.nodup
  simp only [G.cfg, List.nil_append] at hn
  obtain ⟨hn1, -, -⟩ := List.nodup_append.mp hn
  refine ⟨g.input, hn1, hs.input, fun i him rs => ?_⟩
  rw [hl]
  obtain ⟨o1, o2, -, -⟩ := traceOutput_step ⟨o, (r.before s).world⟩ g
  have key : Leaked (traceBegin X ⟨o, (r.before s).world⟩ g).log i ∧ i ∉ ((traceBegin X ⟨o, (r.before s).world⟩ g).cfg []).held := by
    simp only [beginMeasurement, Res.andThen] at hbegin
    simp only [traceBegin]
    rcases ho : openOutput ⟨o, (r.before s).world⟩ with ⟨sa, f | u⟩
    · rw [ho] at hbegin; cases hbegin
    · rw [ho] at hbegin
      simp only at hbegin ⊢
      obtain ⟨i1, i2, -, -⟩ := traceInput_step sa (traceOutput ⟨o, (r.before s).world⟩ g)
      rcases hin : openInput sa with ⟨sb, f | u⟩
      · rw [hin] at hbegin; cases hbegin
      · rw [hin] at hbegin
        simp only at hbegin ⊢
        have hsb : ∃ b, sb.obj.is = some b := by
          rw [startOrRead] at hbegin
          split at hbegin
          · split at hbegin
            · next hb' =>
              injection hbegin with h1 h2; subst h1; rw [hb'] at his; cases his
            · next b hb' => exact ⟨b, hb'⟩
          · injection hbegin with h1 h2
            rw [← h1, emit_obj] at his
            exact ⟨bytes, his⟩
        obtain ⟨b, hsb⟩ := hsb
        have hm : sb.compareMode = true := compareMode_of_is (by rw [hsb]; rfl)
        rw [traceStartOrRead, if_pos hm, hsb]
        simp only [startOrRead, hm, if_true, hsb, withXML] at hbegin
        rcases hr : readXML X b with f | ms
        · rw [hr] at hbegin; cases hbegin
        · exact traceRead_replaces X b _ (i1.inv (o1.inv hi)) ms hr i (by rw [i2, o2]; exact him)
  exact begin_loses X env r rs s g hs hi o rest hp i key.1 key.2

theorem traceOutput_replaces (s : St) (g : G) (hi : Inv (g.cfg [])) (hout : s.obj.outFileName ≠ []) (i : Nat) (h : g.os = some i) :
    Leaked (traceOutput s g).log i ∧ i ∉ ((traceOutput s g).cfg []).held := by
  have hc : Step True (g.cfg []) (g.create.cfg [g.next]) := step_create g.next g.log _
  have hi1 := hc.inv hi
  have hl := hi1.live i (by simp [G.cfg, G.create, h])
  have hn := hi1.nodup
  have hne : g.next ≠ i := by
    have := hi.bound i (hi.live i (by simp [G.cfg, h])).1
    have : i < g.next := this
    omega
  simp [G.cfg, G.create, h, List.nodup_append] at hn
  rw [traceOutput, if_pos hout]
  cases s.world.openWrite s.obj.outFileName with
  | none =>
    refine ⟨⟨by simp only [G.add, List.mem_append]; exact Or.inl hl.1, by simp only [G.add, List.mem_append, List.mem_singleton, Ev.destroy.injEq]; rintro (h | h); exacts [hl.2 h, hne h.symm]⟩, ?_⟩
    simp [G.cfg, G.create, G.add]
    refine ⟨fun hm => ?_, fun hm => ?_⟩
    · exact (hn.2.2.2 i hm).1 rfl
    · exact hn.2.2.1.1 hm
  | some w =>
    refine ⟨hl, ?_⟩
    simp [G.cfg, G.create]
    refine ⟨fun hm => ?_, fun hm => hne hm.symm, fun hm => ?_⟩
    · exact (hn.2.2.2 i hm).1 rfl
    · exact hn.2.2.1.1 hm

/-- An output file left open (after an exception) is lost when the next call of `Main` opens an output file. -/
theorem C98_reopened_output (X : Expat) (env : Env) (before : List Run) (w : World) (s : St) (hb : After (withXML X env) before (fresh w) = some s) (hos : s.obj.os.isSome = true)
    (r : Run) (o : Obj) (rest : List Str)
    (hp : parseArguments (r.before s).world.fs r.fuel { (r.before s).obj with unmatched := (r.before s).obj.unmatched + 1 } r.argv = (o, .ok rest))
    (hout : o.outFileName ≠ []) : ∃ i, ∀ rs, Leaked (life X env (before ++ r :: rs) (fresh w) {}).log i := by
  obtain ⟨g, hs, hi, hl⟩ := after_life X env before (fresh w) s {} (sync_fresh w) inv_start hb
  have hs1 : Sync o g := by
    obtain ⟨p1, p2, p3⟩ := parse_pointers (r.before s).world.fs r.fuel { (r.before s).obj with unmatched := (r.before s).obj.unmatched + 1 } r.argv
    rw [hp] at p1 p2 p3
    exact hs.obj p1 p2 p3
  obtain ⟨i, hgi⟩ := Option.isSome_iff_exists.mp (hs.os.trans hos)
  refine ⟨i, fun rs => ?_⟩
  rw [hl]
  obtain ⟨o1, o2, o3, o4⟩ := traceOutput_step ⟨o, (r.before s).world⟩ g
  obtain ⟨p1, p2⟩ := openOutput_obj ⟨o, (r.before s).world⟩
  have so : Sync (openOutput ⟨o, (r.before s).world⟩).1.obj (traceOutput ⟨o, (r.before s).world⟩ g) :=
    ⟨by rw [o2, p1]; exact hs1.input, o4 hs1.os, by rw [o3, p2]; exact hs1.is⟩
  obtain ⟨k1, k2⟩ := traceOutput_replaces ⟨o, (r.before s).world⟩ g hi hout i hgi
  have key : Leaked (traceBegin X ⟨o, (r.before s).world⟩ g).log i ∧ i ∉ ((traceBegin X ⟨o, (r.before s).world⟩ g).cfg []).held := by
    simp only [traceBegin]
    rcases ho : openOutput ⟨o, (r.before s).world⟩ with ⟨sa, f | u⟩
    · exact ⟨k1, k2⟩
    · rw [ho] at so
      simp only at so ⊢
      obtain ⟨i1, i2, i3, i4⟩ := traceInput_step sa (traceOutput ⟨o, (r.before s).world⟩ g)
      obtain ⟨q1, q2⟩ := openInput_obj sa
      have si : Sync (openInput sa).1.obj (traceInput sa (traceOutput ⟨o, (r.before s).world⟩ g)) := ⟨by rw [i2, q1]; exact so.input, by rw [i3, q2]; exact so.os, i4 so.is⟩
      have k3 := i1.keep (o1.inv hi) i k1 k2
      rcases hin : openInput sa with ⟨sb, f | u⟩
      · exact k3
      · rw [hin] at si
        exact (traceStartOrRead_step X env sb _ si).1.keep (i1.inv (o1.inv hi)) i k3.1 k3.2
  exact begin_loses X env r rs s g hs hi o rest hp i key.1 key.2

theorem traceInput_replaces (s : St) (g : G) (hi : Inv (g.cfg [])) (hin : s.obj.inFileName ≠ []) (i : Nat) (h : g.is = some i) :
    Leaked (traceInput s g).log i ∧ i ∉ ((traceInput s g).cfg []).held := by
  have hc : Step True (g.cfg []) (g.create.cfg [g.next]) := step_create g.next g.log _
  have hi1 := hc.inv hi
  have hl := hi1.live i (by simp [G.cfg, G.create, h])
  have hn := hi1.nodup
  have hne : g.next ≠ i := by
    have := hi.bound i (hi.live i (by simp [G.cfg, h])).1
    have : i < g.next := this
    omega
  simp [G.cfg, G.create, h, List.nodup_append] at hn
  rw [traceInput, if_pos hin]
  simp only
  generalize (if s.obj.searched s.world.fs = [] then s.obj.inFileName else s.obj.searched s.world.fs) = p
  cases s.world.openRead p with
  | none =>
    refine ⟨⟨by simp only [G.add, List.mem_append]; exact Or.inl hl.1, by simp only [G.add, List.mem_append, List.mem_singleton, Ev.destroy.injEq]; rintro (h | h); exacts [hl.2 h, hne h.symm]⟩, ?_⟩
    simp [G.cfg, G.create, G.add]
    refine ⟨fun hm => ?_, fun hm => ?_⟩
    · exact hn.2.2.2 i hm i (Or.inr rfl) rfl
    · exact hn.2.2.1.2 i hm rfl
  | some w =>
    refine ⟨hl, ?_⟩
    simp [G.cfg, G.create]
    refine ⟨fun hm => ?_, fun hm => ?_, fun hm => hne hm.symm⟩
    · exact hn.2.2.2 i hm i (Or.inr rfl) rfl
    · exact hn.2.2.1.2 i hm rfl

/-- A baseline file left open (after an exception) is lost when the next call of `Main` opens a baseline file. -/
theorem C98_reopened_input (X : Expat) (env : Env) (before : List Run) (w : World) (s : St) (hb : After (withXML X env) before (fresh w) = some s) (his : s.obj.is.isSome = true)
    (r : Run) (o : Obj) (rest : List Str) (s1 : St)
    (hp : parseArguments (r.before s).world.fs r.fuel { (r.before s).obj with unmatched := (r.before s).obj.unmatched + 1 } r.argv = (o, .ok rest))
    (hout : openOutput ⟨o, (r.before s).world⟩ = (s1, .ok ())) (hin : o.inFileName ≠ []) :
    ∃ i, ∀ rs, Leaked (life X env (before ++ r :: rs) (fresh w) {}).log i := by
  obtain ⟨g, hs, hi, hl⟩ := after_life X env before (fresh w) s {} (sync_fresh w) inv_start hb
  have hs1 : Sync o g := by
    obtain ⟨p1, p2, p3⟩ := parse_pointers (r.before s).world.fs r.fuel { (r.before s).obj with unmatched := (r.before s).obj.unmatched + 1 } r.argv
    rw [hp] at p1 p2 p3
    exact hs.obj p1 p2 p3
  obtain ⟨i, hgi⟩ := Option.isSome_iff_exists.mp (hs.is.trans his)
  refine ⟨i, fun rs => ?_⟩
  rw [hl]
  obtain ⟨o1, o2, o3, o4⟩ := traceOutput_step ⟨o, (r.before s).world⟩ g
  obtain ⟨p1, p2⟩ := openOutput_obj ⟨o, (r.before s).world⟩
  have hname : s1.obj.inFileName = o.inFileName := by
    rw [openOutput] at hout
    split at hout
    · split at hout
      · cases hout
      · injection hout with h1 h2; rw [← h1]
    · injection hout with h1 h2; rw [← h1]
  have so : Sync (openOutput ⟨o, (r.before s).world⟩).1.obj (traceOutput ⟨o, (r.before s).world⟩ g) :=
    ⟨by rw [o2, p1]; exact hs1.input, o4 hs1.os, by rw [o3, p2]; exact hs1.is⟩
  have key : Leaked (traceBegin X ⟨o, (r.before s).world⟩ g).log i ∧ i ∉ ((traceBegin X ⟨o, (r.before s).world⟩ g).cfg []).held := by
    simp only [traceBegin]
    rw [hout] at so ⊢
    simp only at so ⊢
    obtain ⟨i1, i2, i3, i4⟩ := traceInput_step s1 (traceOutput ⟨o, (r.before s).world⟩ g)
    obtain ⟨q1, q2⟩ := openInput_obj s1
    have si : Sync (openInput s1).1.obj (traceInput s1 (traceOutput ⟨o, (r.before s).world⟩ g)) := ⟨by rw [i2, q1]; exact so.input, by rw [i3, q2]; exact so.os, i4 so.is⟩
    have k3 := traceInput_replaces s1 (traceOutput ⟨o, (r.before s).world⟩ g) (o1.inv hi) (by rw [hname]; exact hin) i (by rw [o3]; exact hgi)
    rcases hin : openInput s1 with ⟨sb, f | u⟩
    · exact k3
    · rw [hin] at si
      exact (traceStartOrRead_step X env sb _ si).1.keep (i1.inv (o1.inv hi)) i k3.1 k3.2
  exact begin_loses X env r rs s g hs hi o rest hp i key.1 key.2

/-- The destructor destroys exactly as many measurements as are left of the baseline. -/
theorem C98_destructor (X : Expat) (env : Env) (runs : List Run) (w : World) (s : St) (hb : After (withXML X env) runs (fresh w) = some s) :
    ∃ (log : List Ev) (l : List Nat), (life X env runs (fresh w) {}).log = log ++ l.map .destroy ∧ l.length = s.obj.input.length ∧ ∀ i ∈ l, Leaked log i := by
  obtain ⟨g, hs, hi, hl⟩ := after_life X env runs (fresh w) s {} (sync_fresh w) inv_start hb
  have e := hl []
  rw [List.append_nil] at e
  refine ⟨g.log, g.input, ?_, hs.input, fun i h => hi.live i (by simp [G.cfg, h])⟩
  rw [e, life, traceFree]
  have : ∀ (l : List Nat) (g : G), (g.destroyAll l).log = g.log ++ l.map .destroy := by
    intro l
    induction l with
    | nil => intro g; simp [G.destroyAll]
    | cons i l ih => intro g; rw [G.destroyAll, ih]; simp [G.add]
  exact this g.input g

end Verif.Life
