import Verif.Xml.ErrorStreamSpec
import Verif.Xml.MessagesProps
import Verif.Xml.RunProps

/-!
# Property C112: what the error stream says about exceptions
-/

set_option linter.unusedSimpArgs false

namespace Verif.Xml
open Verif.Measurement Verif.Regression Verif.Regression.Spec Verif.Path
open _root_.Verif.Xml.Spec

/-! ## The handlers -/

theorem standard_iff (c : Str) : Standard c ↔ c ∈ handlers := by
  simp only [Standard, baseClass, handlers, List.mem_cons, List.not_mem_nil, or_false]
  constructor
  · rintro (h | h)
    · split at h
      · tauto
      · split at h
        · tauto
        · split at h
          · tauto
          · cases h
    · tauto
  · rintro (rfl | rfl | rfl | rfl | rfl | rfl | rfl | rfl | rfl | rfl | rfl | rfl) <;> first | exact Or.inr rfl | (left; decide)

/-- The base classes of a standard class, one after the other. -/
def ancestors (c : Str) : List Str :=
  match baseClass c with
  | none => []
  | some b => match baseClass b with
    | none => [b]
    | some d => [b, d]

theorem possible_tail (before after : List Str) (c : Str) (h : Possible (before ++ c :: after)) (hc : Standard c) : after = ancestors c := by
  have g : ∀ (i : Nat) (x : Str), (c :: after)[i]? = some x → Standard x → after[i]? = baseClass x := by
    intro i x hx hs
    have := h (before.length + i) x (by rw [List.getElem?_append_right (by omega)]; simpa using hx) hs
    rw [List.getElem?_append_right (by omega), show before.length + i + 1 - before.length = i + 1 by omega] at this
    simpa using this
  have g0 := g 0 c rfl hc
  have hend : ∀ k, after[k]? = none → after.length ≤ k := fun k hk => List.getElem?_eq_none_iff.mp hk
  rw [standard_iff] at hc
  have fin : ∀ b, baseClass c = some b → Standard b → after = b :: after.tail ∧ after.tail[0]? = baseClass b := by
    intro b hb hs
    rw [hb] at g0
    have := g 1 b (by simpa using g0) hs
    cases after with
    | nil => simp at g0
    | cons x xs =>
      simp only [List.getElem?_cons_zero, Option.some.injEq] at g0
      subst g0
      exact ⟨rfl, by simpa using this⟩
  have nil_of : ∀ l : List Str, l[0]? = none → l = [] := by intro l hl; cases l with | nil => rfl | cons => simp at hl
  have two : ∀ b d, baseClass c = some b → Standard b → baseClass b = some d → Standard d → baseClass d = none → after = [b, d] := by
    intro b d hb hsb hd hsd hn
    obtain ⟨e1, e2⟩ := fin b hb hsb
    rw [hd] at e2
    obtain ⟨t, ht⟩ : ∃ t, after.tail = d :: t := by
      cases hx : after.tail with
      | nil => rw [hx] at e2; simp at e2
      | cons x xs =>
        rw [hx] at e2
        simp only [List.getElem?_cons_zero, Option.some.injEq] at e2
        exact ⟨xs, by rw [e2]⟩
    rw [ht] at e1
    have := g 2 d (by rw [e1]; rfl) hsd
    rw [hn, e1] at this
    simp only [List.getElem?_cons_succ] at this
    rw [e1, nil_of t this]
  have one : ∀ b, baseClass c = some b → Standard b → baseClass b = none → after = [b] := by
    intro b hb hsb hn
    obtain ⟨e1, e2⟩ := fin b hb hsb
    rw [hn] at e2
    rw [e1, nil_of _ e2]
  have s1 : Standard b!"std::logic_error" := Or.inl (by decide)
  have s2 : Standard b!"std::runtime_error" := Or.inl (by decide)
  have s3 : Standard b!"std::exception" := Or.inr rfl
  simp only [handlers, List.mem_cons, List.not_mem_nil, or_false] at hc
  rcases hc with rfl | rfl | rfl | rfl | rfl | rfl | rfl | rfl | rfl | rfl | rfl | rfl
  · exact two b!"std::logic_error" b!"std::exception" (by decide) s1 (by decide) s3 (by decide)
  · exact two b!"std::logic_error" b!"std::exception" (by decide) s1 (by decide) s3 (by decide)
  · exact two b!"std::logic_error" b!"std::exception" (by decide) s1 (by decide) s3 (by decide)
  · exact two b!"std::logic_error" b!"std::exception" (by decide) s1 (by decide) s3 (by decide)
  · exact one b!"std::exception" (by decide) s3 (by decide)
  · exact one b!"std::exception" (by decide) s3 (by decide)
  · exact two b!"std::runtime_error" b!"std::exception" (by decide) s2 (by decide) s3 (by decide)
  · exact two b!"std::runtime_error" b!"std::exception" (by decide) s2 (by decide) s3 (by decide)
  · exact two b!"std::runtime_error" b!"std::exception" (by decide) s2 (by decide) s3 (by decide)
  · exact one b!"std::exception" (by decide) s3 (by decide)
  · exact one b!"std::exception" (by decide) s3 (by decide)
  · exact nil_of _ (by rw [g0]; decide)

/-- **C112.** Whatever the class of an exception is, exactly one line is written for it: with the name of its most specific standard class and its text, or, if it is not derived from `std::exception`, the
line for unknown exceptions.  No handler is hidden by an earlier one. -/
theorem C112_handler (e : Thrown) (h : Possible e.classes) :
    (∀ c, MostSpecific e.classes c → caught e = lineAbout c e.what) ∧ ((∀ c ∈ e.classes, ¬ Standard c) → caught e = b!"unknow exception\n") := by
  constructor
  · rintro c ⟨before, after, hcl, hc, hb⟩
    rw [hcl] at h
    have hafter := possible_tail before after c h hc
    have key : handlers.find? (fun x => decide (x ∈ e.classes)) = handlers.find? (fun x => decide (x ∈ c :: ancestors c)) := by
      have : ∀ l : List Str, (∀ x ∈ l, x ∈ handlers) → l.find? (fun x => decide (x ∈ e.classes)) = l.find? (fun x => decide (x ∈ c :: ancestors c)) := by
        intro l
        induction l with
        | nil => intro _; rfl
        | cons x l ih =>
          intro hl
          have hx : decide (x ∈ e.classes) = decide (x ∈ c :: ancestors c) := by
            rw [decide_eq_decide, hcl, hafter, List.mem_append]
            exact ⟨fun h => h.resolve_left fun hb' => hb x hb' ((standard_iff x).mpr (hl x (by simp))), Or.inr⟩
          rw [List.find?_cons, List.find?_cons, hx, ih fun y hy => hl y (by simp [hy])]
      exact this handlers fun x hx => hx
    have hfound : handlers.find? (fun x => decide (x ∈ c :: ancestors c)) = some c := by
      rw [standard_iff] at hc
      simp only [handlers, List.mem_cons, List.not_mem_nil, or_false] at hc
      rcases hc with rfl | rfl | rfl | rfl | rfl | rfl | rfl | rfl | rfl | rfl | rfl | rfl <;> decide
    rw [caught, key, hfound]
    rfl
  · intro hn
    have : handlers.find? (fun x => decide (x ∈ e.classes)) = none := by
      rw [List.find?_eq_none]
      intro x hx
      simp only [decide_eq_true_eq]
      exact fun hm => hn x hm ((standard_iff x).mpr hx)
    rw [caught, this]

/-- A class derived from `std::ios_base::failure` as in C++98, one not derived from anything, and a standard one. -/
example : caught ⟨[b!"MyError", b!"std::ios_base::failure", b!"std::exception"], b!"no"⟩ = b!"std::exception: \"no\"\n" ∧ caught ⟨[b!"int"], []⟩ = b!"unknow exception\n" ∧
    caught ⟨[b!"std::out_of_range", b!"std::logic_error", b!"std::exception"], b!"no"⟩ = b!"std::out_of_range: \"no\"\n" := by decide

example : Possible [b!"MyError", b!"std::out_of_range", b!"std::logic_error", b!"std::exception"] ∧
    MostSpecific [b!"MyError", b!"std::out_of_range", b!"std::logic_error", b!"std::exception"] b!"std::out_of_range" := by
  refine ⟨?_, [b!"MyError"], _, rfl, Or.inl (by decide), ?_⟩
  · intro i c h hs
    match i with
    | 0 => cases h; exact absurd hs (by rw [standard_iff]; decide)
    | 1 => cases h; decide
    | 2 => cases h; decide
    | 3 => cases h; decide
    | i + 4 => cases h
  · intro x hx
    simp only [List.mem_singleton] at hx
    subst hx
    rw [standard_iff]; decide

theorem caught_runtime (text : Str) : caught (runtimeError text) = lineAbout b!"std::runtime_error" text := by
  have : handlers.find? (fun h => decide (h ∈ [b!"std::runtime_error", b!"std::exception"])) = some b!"std::runtime_error" := by decide
  rw [caught, runtimeError, this]
  rfl

/-! ## The lines do not change the run -/

theorem parseArgumentsE_forget (fs : FileSys) (fuel : Nat) (o : Obj) (argv : List Str) : (parseArgumentsE fs fuel o argv).1 = (parseArgumentsM fs fuel o argv).1 ∧
    (parseArgumentsE fs fuel o argv).2.1 = (parseArguments fs fuel o argv).1 ∧
    (parseArgumentsE fs fuel o argv).2.2.mapError Prod.fst = (parseArguments fs fuel o argv).2 := by
  rw [← C101_same_parser, parseArgumentsE]
  rcases parseArgumentsM fs fuel o argv with ⟨ms, o, (f | r)⟩ <;> exact ⟨rfl, rfl, rfl⟩

theorem startOrReadE_forget (X : Expat) (line why : X.State → Str) (env : Env) (s : St) :
    startOrRead (withXML X env) s = ((startOrReadE X line why s).2.1, (startOrReadE X line why s).2.2.mapError Prod.fst) := by
  rw [startOrReadE, startOrRead]
  by_cases hc : s.compareMode = true
  · rw [if_pos hc, if_pos hc]
    cases s.obj.is with
    | none => rfl
    | some b =>
      simp only
      rw [show (withXML X env).readXML = readXML X from rfl, ← C100_same_reader X line why b]
      rcases readXMLM X line why b with ⟨ms, f | xs⟩ <;> rfl
  · rw [if_neg hc, if_neg hc]
    rfl

theorem beginMeasurementE_forget (X : Expat) (line why : X.State → Str) (env : Env) (s : St) :
    beginMeasurement (withXML X env) s = ((beginMeasurementE X line why s).2.1, (beginMeasurementE X line why s).2.2.mapError Prod.fst) := by
  rw [beginMeasurementE, beginMeasurement]
  rcases openOutput s with ⟨s1, f | ⟨⟩⟩
  · rfl
  · simp only [throwing, Res.andThen]
    rcases openInput s1 with ⟨s2, f | ⟨⟩⟩
    · rfl
    · exact startOrReadE_forget X line why env s2

theorem tryBlockE_forget (X : Expat) (line why : X.State → Str) (env : Env) (thrown : Fault → Thrown) (test : List Str → Prog) (fuel : Nat) (argv : List Str) (s : St) :
    tryBlock (withXML X env) test fuel argv s = ((tryBlockE X line why env thrown test fuel argv s).2.1, (tryBlockE X line why env thrown test fuel argv s).2.2.1,
      (tryBlockE X line why env thrown test fuel argv s).2.2.2.map Prod.fst) := by
  rw [tryBlockE, tryBlock]
  simp only
  generalize ({ s.obj with unmatched := s.obj.unmatched + 1 } : Obj) = o0
  obtain ⟨-, h2, h3⟩ := parseArgumentsE_forget s.world.fs fuel o0 argv
  rw [← Prod.eta (parseArguments s.world.fs fuel o0 argv), ← h2, ← h3]
  clear h2 h3
  rcases parseArgumentsE s.world.fs fuel o0 argv with ⟨ms, o, f | rest⟩
  · rfl
  · simp only [Except.mapError]
    rw [beginMeasurementE_forget X line why env { s with obj := o }]
    rcases beginMeasurementE X line why { s with obj := o } with ⟨ms', s1, f | ⟨⟩⟩
    · rfl
    · simp only [Except.mapError]
      rcases runProg (withXML X env) (test rest) s1 with ⟨s2, f | r⟩ <;> rfl

/-- **C112.** Keeping the lines does not change the run. -/
theorem C112_same_main (X : Expat) (line why : X.State → Str) (env : Env) (thrown : Fault → Thrown) (test : List Str → Prog) (fuel : Nat) (argv : List Str) (s : St) :
    (mainE X line why env thrown test fuel argv s).2 = main (withXML X env) test fuel argv s := by
  rw [mainE, main, tryBlockE_forget X line why env thrown test fuel argv s]
  rcases tryBlockE X line why env thrown test fuel argv s with ⟨ms, s', ret, _ | ⟨f, e⟩⟩
  · rfl
  · cases f <;> rfl

/-! ## The lines of a run -/

theorem refusal_pairs (fs : FileSys) (prog x v : Str) (r : List Str) (hr : Refused fs (x, v)) : ∀ (ps : List (Str × Str)) (fuel : Nat) (a : Args), View a prog (flat ps ++ x :: v :: r) →
    (∀ p ∈ ps, IsOption p.1) → (∀ p ∈ ps, ¬ Refused fs p) → ps.length < fuel → refusal fs fuel a = some (refusedText x v) := by
  intro ps
  induction ps with
  | nil =>
    intro fuel a hv _ _ hf
    obtain ⟨n, rfl⟩ : ∃ n, fuel = n + 1 := ⟨fuel - 1, by simp only [List.length_nil] at hf; omega⟩
    obtain ⟨⟨junk, e⟩, hc⟩ := hv
    have hc1 : 1 < a.argc := by rw [hc]; simp [flat]
    have hc2 : 1 < a.argc - 1 := by rw [hc]; simp [flat]
    have g1 : a.argv[1]? = some x := by rw [e]; simp [flat]
    have g2 : a.argv[2]? = some v := by rw [e]; simp [flat]
    rw [refusal, if_pos hc1, g1, g2]
    simp only [if_pos hc2]
    rcases hr with ⟨rfl, h⟩ | ⟨rfl, h⟩
    · rw [if_pos]
      · rfl
      · cases h1 : isFile fs v <;> cases h2 : isReadable fs v <;> simp_all [optI]
    · rw [if_neg (by simp [optI]), if_pos]
      · rfl
      · cases h1 : isDirectory fs v <;> cases h2 : isReadable fs v <;> simp_all [optP]
  | cons p ps ih =>
    obtain ⟨y, w⟩ := p
    intro fuel a hv h1 h2 hf
    obtain ⟨n, rfl⟩ : ∃ n, fuel = n + 1 := ⟨fuel - 1, by simp only [List.length_cons] at hf; omega⟩
    have hv' : View a prog (y :: w :: (flat ps ++ x :: v :: r)) := hv
    obtain ⟨argv, hrem, hview⟩ := remove_spec hv'
    obtain ⟨⟨junk, e⟩, hc⟩ := hv'
    have hc1 : 1 < a.argc := by rw [hc]; simp
    have hc2 : 1 < a.argc - 1 := by rw [hc]; simp
    have g1 : a.argv[1]? = some y := by rw [e]; simp
    have g2 : a.argv[2]? = some w := by rw [e]; simp
    have hacc := h2 (y, w) (by simp)
    have hy := h1 (y, w) (by simp)
    rw [refusal, if_pos hc1, g1, g2]
    simp only [if_pos hc2, hrem]
    rw [if_neg, if_neg, if_pos]
    · exact ih n _ (hview a.infname a.outfname) (fun p hp => h1 p (by simp [hp])) (fun p hp => h2 p (by simp [hp])) (by simp only [List.length_cons] at hf; omega)
    · rcases hy with h | h | h | h <;> simp only at h <;> subst h <;> decide
    · intro hh
      refine hacc (Or.inr ?_)
      simp only [Bool.and_eq_true, decide_eq_true_eq, Bool.or_eq_true, Bool.not_eq_true'] at hh
      exact ⟨hh.1, fun hg => by rcases hh.2 with h | h <;> simp_all⟩
    · intro hh
      refine hacc (Or.inl ?_)
      simp only [Bool.and_eq_true, decide_eq_true_eq, Bool.or_eq_true, Bool.not_eq_true'] at hh
      exact ⟨hh.1, fun hg => by rcases hh.2 with h | h <;> simp_all⟩

/-- **C112.** A refused `-I` or `-P`: after the lines about `-O` (C101) exactly one more, which names the value. -/
theorem C112_refused (X : Expat) (line why : X.State → Str) (env : Env) (thrown : Fault → Thrown) (test : List Str → Prog) (fuel : Nat) (prog x v : Str) (ps : List (Str × Str))
    (r : List Str) (s : St) (hopt : ∀ p ∈ ps, IsOption p.1) (href : ∀ p ∈ ps, ¬ Refused s.world.fs p) (hr : Refused s.world.fs (x, v)) (hfuel : ps.length < fuel) :
    (mainE X line why env thrown test fuel (prog :: (flat ps ++ x :: v :: r)) s).1 = outputLines s.world.fs ps ++ [lineAbout b!"std::runtime_error" (refusedText x v)] := by
  obtain ⟨o0, ho0⟩ : ∃ o0 : Obj, o0 = { s.obj with unmatched := s.obj.unmatched + 1 } := ⟨_, rfl⟩
  have hm := C101_messages s.world.fs fuel o0 prog ps (x :: v :: r) hopt href (.inr (.inr ⟨x, v, r, rfl, hr⟩)) hfuel
  have ht := refusal_pairs s.world.fs prog x v r hr ps fuel { argc := (prog :: (flat ps ++ x :: v :: r)).length, argv := prog :: (flat ps ++ x :: v :: r) } (view_first _ prog _ rfl) hopt href hfuel
  obtain ⟨m, he⟩ := C36_refused_throws s.world.fs fuel o0 prog ps (x, v) r (fun p hp => ⟨hopt p hp, href p hp⟩) hr hfuel
  rw [← C101_same_parser] at he
  rw [mainE, tryBlockE]
  simp only
  rw [← ho0, parseArgumentsE]
  rcases h : parseArgumentsM s.world.fs fuel o0 (prog :: (flat ps ++ x :: v :: r)) with ⟨ms, o, f | rest⟩
  · rw [h] at he hm
    simp only at he hm ⊢
    cases he
    simp only
    rw [ht, hm, caught_runtime]
    rfl
  · rw [h] at he
    simp at he

/-- What happens after the options: the lines of `BeginMeasurement` and a report. -/
theorem mainE_after (X : Expat) (line why : X.State → Str) (env : Env) (thrown : Fault → Thrown) (test : List Str → Prog) (fuel : Nat) (prog : Str) (ps : List (Str × Str))
    (rest : List Str) (s : St) (hopt : ∀ p ∈ ps, IsOption p.1) (href : ∀ p ∈ ps, ¬ Refused s.world.fs p) (hstop : Stops rest) (hfuel : ps.length < fuel) :
    (mainE X line why env thrown test fuel (prog :: (flat ps ++ rest)) s).1 = outputLines s.world.fs ps ++
      (match beginMeasurementE X line why (started s ps) with
        | (ms, _, .error (.thrown _, e)) => ms ++ [caught e]
        | (ms, _, .error _) => ms
        | (ms, s1, .ok ()) => match (runProg (withXML X env) (test (prog :: rest)) s1).2 with
          | .error (.thrown m) => ms ++ [caught (thrown (.thrown m))]
          | _ => ms) := by
  obtain ⟨o0, ho0⟩ : ∃ o0 : Obj, o0 = { s.obj with unmatched := s.obj.unmatched + 1 } := ⟨_, rfl⟩
  have hm := C101_messages s.world.fs fuel o0 prog ps rest hopt href (.inl hstop) hfuel
  have hp := C35_options_removed s.world.fs fuel o0 prog ps rest hopt href hstop hfuel
  rw [← C101_same_parser] at hp
  rw [mainE, tryBlockE]
  simp only
  rw [← ho0, parseArgumentsE]
  rcases h : parseArgumentsM s.world.fs fuel o0 (prog :: (flat ps ++ rest)) with ⟨ms, o, f | out⟩
  · rw [h] at hp
    simp at hp
  · rw [h] at hp hm
    simp only [Prod.mk.injEq, Except.ok.injEq] at hp hm ⊢
    obtain ⟨hp1, rfl⟩ := hp
    have hs : ({ s with obj := o } : St) = started s ps := by rw [hp1, ho0]; rfl
    rw [hs, hm]
    rcases beginMeasurementE X line why (started s ps) with ⟨ms', s1, ⟨f, e⟩ | ⟨⟩⟩
    · simp only
      cases f <;> simp [outputLines]
    · simp only
      rcases runProg (withXML X env) (test (prog :: rest)) s1 with ⟨s2, f | ret⟩
      · cases f <;> simp [outputLines]
      · simp [outputLines]

/-- The options are fine and the output file, if one is named, can be opened: the rest of `BeginMeasurement`. -/
theorem begin_opened (X : Expat) (line why : X.State → Str) (s : St) (w : World) (hw : Opened s w) :
    beginMeasurementE X line why s = match throwing (cannotOpen b!"input" s.obj.inFileName) (openInput (outputOpened s w)) with
      | (s, .error f) => ([], s, .error f)
      | (s, .ok ()) => startOrReadE X line why s := by
  rw [beginMeasurementE, openOutput]
  rcases hw with ⟨h, rfl⟩ | ⟨h1, h2⟩
  · rw [if_neg (by simp [h]), outputOpened, if_pos h]
    rfl
  · rw [if_pos h1, h2, outputOpened, if_neg h1]
    rfl

/-- **C112.** An output file that cannot be opened: after the lines about `-O` exactly one more, which names it. -/
theorem C112_output (X : Expat) (line why : X.State → Str) (env : Env) (thrown : Fault → Thrown) (test : List Str → Prog) (fuel : Nat) (prog : Str) (ps : List (Str × Str))
    (rest : List Str) (s : St) (hopt : ∀ p ∈ ps, IsOption p.1) (href : ∀ p ∈ ps, ¬ Refused s.world.fs p) (hstop : Stops rest) (hfuel : ps.length < fuel)
    (name : Str) (hname : (started s ps).obj.outFileName = name) (hne : name ≠ []) (hopen : s.world.openWrite name = none) :
    (mainE X line why env thrown test fuel (prog :: (flat ps ++ rest)) s).1 =
      outputLines s.world.fs ps ++ [lineAbout b!"std::runtime_error" (b!"unable to open output file \"" ++ name ++ b!"\"!")] := by
  rw [mainE_after X line why env thrown test fuel prog ps rest s hopt href hstop hfuel]
  congr 1
  have h1 : (started s ps).obj.outFileName ≠ [] := by rw [hname]; exact hne
  have h2 : (started s ps).world.openWrite (started s ps).obj.outFileName = none := by rw [hname]; exact hopen
  rw [beginMeasurementE, openOutput, if_pos h1, h2]
  simp only [throwing, List.nil_append]
  rw [caught_runtime, hname]
  rfl

/-- **C112.** An input file that cannot be opened: after the lines about `-O` exactly one more.  It names the file as it was given, also if another file was looked up for it. -/
theorem C112_input (X : Expat) (line why : X.State → Str) (env : Env) (thrown : Fault → Thrown) (test : List Str → Prog) (fuel : Nat) (prog : Str) (ps : List (Str × Str))
    (rest : List Str) (s : St) (hopt : ∀ p ∈ ps, IsOption p.1) (href : ∀ p ∈ ps, ¬ Refused s.world.fs p) (hstop : Stops rest) (hfuel : ps.length < fuel)
    (w : World) (hw : Opened (started s ps) w) (name : Str) (hname : (started s ps).obj.inFileName = name) (hne : name ≠ [])
    (hopen : w.openRead (lookedUp w.fs name (started s ps).obj.searchPath) = none) :
    (mainE X line why env thrown test fuel (prog :: (flat ps ++ rest)) s).1 =
      outputLines s.world.fs ps ++ [lineAbout b!"std::runtime_error" (b!"unable to open input file \"" ++ name ++ b!"\"!")] := by
  rw [mainE_after X line why env thrown test fuel prog ps rest s hopt href hstop hfuel]
  congr 1
  rw [begin_opened X line why _ w hw]
  generalize started s ps = s1 at hname hw hopen ⊢
  have e1 : (outputOpened s1 w).obj.inFileName = name := by rw [← hname, outputOpened]; split <;> rfl
  have e2 : (outputOpened s1 w).obj.searchPath = s1.obj.searchPath := by rw [outputOpened]; split <;> rfl
  have e3 : (outputOpened s1 w).world = w := by
    rw [outputOpened]
    rcases hw with ⟨h, rfl⟩ | ⟨h1, _⟩
    · rw [if_pos h]
    · rw [if_neg h1]
  rw [openInput, if_pos (by rw [e1]; exact hne)]
  simp only [Obj.searched, e1, e2, e3]
  rw [lookedUp] at hopen
  rw [hopen]
  simp only [throwing, List.nil_append]
  rw [caught_runtime, hname]
  rfl

/-- **C112.** A baseline that is not XML: after the lines about `-O` those of the reader (C100), and one more. -/
theorem C112_parse_error (X : Expat) (line why : X.State → Str) (env : Env) (thrown : Fault → Thrown) (test : List Str → Prog) (fuel : Nat) (prog : Str) (ps : List (Str × Str))
    (rest : List Str) (s : St) (hopt : ∀ p ∈ ps, IsOption p.1) (href : ∀ p ∈ ps, ¬ Refused s.world.fs p) (hstop : Stops rest) (hfuel : ps.length < fuel)
    (w : World) (hw : Opened (started s ps) w) (name bytes : Str) (hname : (started s ps).obj.inFileName = name) (hne : name ≠ [])
    (hopen : w.openRead (lookedUp w.fs name (started s ps).obj.searchPath) = some bytes) (hbad : Throws (readXML X bytes)) :
    (mainE X line why env thrown test fuel (prog :: (flat ps ++ rest)) s).1 =
      outputLines s.world.fs ps ++ (readXMLM X line why bytes).1 ++ [lineAbout b!"std::runtime_error" b!"parse error"] := by
  rw [mainE_after X line why env thrown test fuel prog ps rest s hopt href hstop hfuel, List.append_assoc]
  congr 1
  rw [begin_opened X line why _ w hw]
  generalize started s ps = s1 at hname hw hopen ⊢
  have e1 : (outputOpened s1 w).obj.inFileName = name := by rw [← hname, outputOpened]; split <;> rfl
  have e2 : (outputOpened s1 w).obj.searchPath = s1.obj.searchPath := by rw [outputOpened]; split <;> rfl
  have e3 : (outputOpened s1 w).world = w := by
    rw [outputOpened]
    rcases hw with ⟨h, rfl⟩ | ⟨h1, _⟩
    · rw [if_pos h]
    · rw [if_neg h1]
  rw [openInput, if_pos (by rw [e1]; exact hne)]
  simp only [Obj.searched, e1, e2, e3]
  rw [lookedUp] at hopen
  rw [hopen]
  simp only [throwing]
  rw [startOrReadE, if_pos (by simp [St.compareMode])]
  simp only
  obtain ⟨m, hbad⟩ := hbad
  rw [← C100_same_reader X line why bytes] at hbad
  rcases h : readXMLM X line why bytes with ⟨ms, f | xs⟩
  · rw [h] at hbad
    simp only [Except.error.injEq] at hbad
    subst hbad
    simp only
    rw [caught_runtime]
  · rw [h] at hbad
    cases hbad

/-- **C112.** The test has been called: after the lines about `-O` and those of the reader (C100), one more if the test ends by an exception, with its class and text, and none otherwise. -/
theorem C112_test (X : Expat) (line why : X.State → Str) (env : Env) (thrown : Fault → Thrown) (test : List Str → Prog) (fuel : Nat) (prog : Str) (ps : List (Str × Str))
    (rest : List Str) (s : St) (hopt : ∀ p ∈ ps, IsOption p.1) (href : ∀ p ∈ ps, ¬ Refused s.world.fs p) (hstop : Stops rest) (hfuel : ps.length < fuel)
    (s1 : St) (hbegin : beginMeasurement (withXML X env) (started s ps) = (s1, .ok ())) :
    (∀ m, (runProg (withXML X env) (test (prog :: rest)) s1).2 = .error (.thrown m) →
      (mainE X line why env thrown test fuel (prog :: (flat ps ++ rest)) s).1 = outputLines s.world.fs ps ++ baselineLines X line why s1 ++ [caught (thrown (.thrown m))]) ∧
    (¬ Throws (runProg (withXML X env) (test (prog :: rest)) s1).2 →
      (mainE X line why env thrown test fuel (prog :: (flat ps ++ rest)) s).1 = outputLines s.world.fs ps ++ baselineLines X line why s1) := by
  rw [mainE_after X line why env thrown test fuel prog ps rest s hopt href hstop hfuel]
  have hl : beginMeasurementE X line why (started s ps) = (baselineLines X line why s1, s1, .ok ()) := by
    have hf := beginMeasurementE_forget X line why env (started s ps)
    rw [hbegin] at hf
    generalize started s ps = s0 at hf hbegin ⊢
    rw [beginMeasurementE] at hf ⊢
    rcases h1 : openOutput s0 with ⟨s2, f | ⟨⟩⟩
    · rw [h1] at hf
      cases hf
    rw [h1] at hf
    simp only [throwing] at hf ⊢
    rcases h2 : openInput s2 with ⟨s3, f | ⟨⟩⟩
    · rw [h2] at hf
      cases hf
    rw [h2] at hf
    simp only [throwing] at hf ⊢
    rw [startOrReadE] at hf ⊢
    rw [baselineLines]
    by_cases hc : s3.compareMode = true
    · rw [if_pos hc] at hf ⊢
      cases hi : s3.obj.is with
      | none =>
        rw [hi] at hf
        simp only at hf ⊢
        cases hf
        rw [hi]
      | some b =>
        rw [hi] at hf
        simp only at hf ⊢
        rcases hr : readXMLM X line why b with ⟨ms, f | xs⟩
        · rw [hr] at hf
          cases hf
        · rw [hr] at hf
          simp only [Except.mapError, Prod.mk.injEq, and_true] at hf
          subst hf
          simp only [hi, hr]
    · rw [if_neg hc] at hf ⊢
      simp only [Except.mapError, Prod.mk.injEq, and_true] at hf
      subst hf
      have : (s3.emit (header s3.world)).obj.is = none := by
        have : s3.obj.is = none := by
          cases hi : s3.obj.is with
          | none => rfl
          | some b => exact absurd (by simp [St.compareMode, hi]) hc
        rw [St.emit]
        split <;> exact this
      rw [this]
  rw [hl]
  simp only
  constructor
  · intro m hm
    rw [hm, List.append_assoc]
  · intro hn
    rcases hr : (runProg (withXML X env) (test (prog :: rest)) s1).2 with f | v
    · cases f with
      | thrown m => exact absurd ⟨m, hr⟩ hn
      | _ => rfl
    · rfl

/-! ## Examples -/

/-- A world with the readable file "f", the file "g" that cannot be written and the directory "d"; nothing can be written to "x". -/
def errorWorld : World :=
  { fs := ⟨fun n => if n = b!"f" ∨ n = b!"g" then some .regular else if n = b!"d" then some .directory else none, fun _ => true, fun n => n ≠ b!"g", fun _ => true⟩
    bytes := fun _ => b!"<output>"
    creatable := fun n => n ≠ b!"x"
    cout := [], host := [], time := [] }

/-- The test of the examples throws "no". -/
def errorThrown (_ : Fault) : Thrown := ⟨[b!"std::range_error", b!"std::runtime_error", b!"std::exception"], b!"no"⟩

def errorRun (argv : List Str) : List Str :=
  (mainE reference (fun _ => b!"1") (fun _ => b!"why") (smallEnv []) errorThrown (fun _ => .fails (.thrown "no")) 9 argv ⟨{}, errorWorld⟩).1

/-- A refused file, after an output file that cannot be written. -/
example : errorRun [b!"prog", b!"-O", b!"g", b!"-I", b!"h", b!"-R", b!"1"] =
    [b!"unable to write to file \"g\"!\n", b!"std::runtime_error: \"unable to read input file \"h\"!\"\n"] :=
  C112_refused reference _ _ (smallEnv []) errorThrown _ 9 b!"prog" b!"-I" b!"h" [(b!"-O", b!"g")] [b!"-R", b!"1"] ⟨{}, errorWorld⟩ (by simp [IsOption]) (by simp [Refused])
    (.inl ⟨rfl, by decide⟩) (by decide)

/-- An output file that cannot be created. -/
example : errorRun [b!"prog", b!"-O", b!"x"] = [b!"std::runtime_error: \"unable to open output file \"x\"!\"\n"] :=
  C112_output reference _ _ (smallEnv []) errorThrown _ 9 b!"prog" [(b!"-O", b!"x")] [] ⟨{}, errorWorld⟩ (by simp [IsOption]) (by simp [Refused]) (by simp [Stops]) (by decide)
    b!"x" (by decide) (by decide) (by decide)

/-- The baseline is looked up as "d/f", which does not exist, while the line names "f", which does. -/
example : errorRun [b!"prog", b!"-P", b!"d", b!"-I", b!"f"] = [b!"std::runtime_error: \"unable to open input file \"f\"!\"\n"] :=
  C112_input reference _ _ (smallEnv []) errorThrown _ 9 b!"prog" [(b!"-P", b!"d"), (b!"-I", b!"f")] [] ⟨{}, errorWorld⟩ (by simp [IsOption])
    (by simp only [List.mem_cons, List.not_mem_nil, or_false, forall_eq_or_imp, forall_eq, Refused]; decide) (by simp [Stops]) (by decide)
    errorWorld (.inl ⟨by decide, rfl⟩) b!"f" (by decide) (by decide) (by decide)

/-- The baseline "f" is no document: two lines. -/
example : errorRun [b!"prog", b!"-I", b!"f"] = [b!"XML:Parse error at line 1: \"why\"\n", b!"std::runtime_error: \"parse error\"\n"] := by
  have h := C112_parse_error reference (fun _ => b!"1") (fun _ => b!"why") (smallEnv []) errorThrown (fun _ => .fails (.thrown "no")) 9 b!"prog" [(b!"-I", b!"f")] [] ⟨{}, errorWorld⟩
    (by simp [IsOption]) (by simp only [List.mem_cons, List.not_mem_nil, or_false, forall_eq, Refused]; decide) (by simp [Stops]) (by decide)
    errorWorld (.inl ⟨by decide, rfl⟩) b!"f" b!"<output>" (by decide) (by decide) (by decide) ⟨"parse error", by decide +kernel⟩
  rw [show (readXMLM reference (fun _ => b!"1") (fun _ => b!"why") b!"<output>").1 = [b!"XML:Parse error at line 1: \"why\"\n"] by decide +kernel] at h
  exact h

/-- Recording, and the test throws. -/
example : errorRun [b!"prog"] = [b!"std::range_error: \"no\"\n"] :=
  (C112_test reference _ _ (smallEnv []) errorThrown _ 9 b!"prog" [] [] ⟨{}, errorWorld⟩ (by simp) (by simp) (by simp [Stops]) (by decide) _ rfl).1 "no" rfl

end Verif.Xml
