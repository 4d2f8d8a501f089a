import Verif.Regression.MainProps

/-!
# Properties C39–C41: what each call measures; leftovers of the baseline
-/

set_option linter.unusedSimpArgs false

namespace Verif.Regression
open Spec Verif.Path Verif.Measurement Verif.Measurement.Spec

/-! ## C39, C41: what a call measures -/

/-- **C39, C41.** What each measurement call measures: the kind of element, the type, the name, the content and whether it is compared with
tolerance are those of the call (a `long` taken modulo `2^32` into the range of `int`).  No data is attached, nothing is encoded. -/
theorem C39_measured (c : Call) : Measures c c.meas.element c.meas.type c.meas.name c.meas.content c.tolerant ∧
    ∀ d, c.meas = .data d → d.encoding = b!"none" ∧ d.compression = b!"none" ∧ d.data = none := by
  constructor
  · cases c with
    | integer v n t =>
      obtain ⟨k, hk⟩ : ∃ k, longToInt v = v + 4294967296 * k := by
        refine ⟨-((v + 2147483648) / 4294967296), ?_⟩
        have := Int.mul_ediv_add_emod (v + 2147483648) 4294967296
        simp only [longToInt]; omega
      have h1 : -2147483648 ≤ longToInt v := by
        have := Int.emod_nonneg (v + 2147483648) (b := 4294967296) (by decide)
        simp only [longToInt]; omega
      have h2 : longToInt v ≤ 2147483647 := by
        have := Int.emod_lt_of_pos (v + 2147483648) (b := 4294967296) (by decide)
        simp only [longToInt]; omega
      have := (C27_integer_roundtrip { kind := .num .integer, name := n } (longToInt v) h1 h2).1
      exact .integer v (longToInt v) k n _ t hk h1 h2 this
    | boolean b n t => cases b <;> constructor
    | _ => constructor
  · intro d hd
    cases c <;> simp only [Call.meas, Meas.data.injEq, reduceCtorEq] at hd <;> subst hd <;> exact ⟨rfl, rfl, rfl⟩

/-- A number of `k + 1` digits without leading zero is at least `10^k`; any number of `k` digits is below `10^k`. -/
theorem horner_bounds (ds : Str) (hd : ∀ c ∈ ds, 48 ≤ c ∧ c ≤ (57 : UInt8)) : horner ds < 10 ^ ds.length := by
  induction ds with
  | nil => simp [horner]
  | cons c r ih =>
    have := ih fun x hx => hd x (List.mem_cons_of_mem _ hx)
    have hc := hd c (by simp)
    have : c.toNat - 48 ≤ 9 := by
      have : c.toNat ≤ 57 := by simpa using UInt8.le_iff_toNat_le.mp hc.2
      omega
    simp only [horner, List.length_cons, Nat.pow_succ]
    nlinarith [Nat.pow_pos (n := r.length) (by decide : 0 < 10)]

theorem horner_inj : ∀ (ds es : Str), (∀ c ∈ ds, 48 ≤ c ∧ c ≤ (57 : UInt8)) → (∀ c ∈ es, 48 ≤ c ∧ c ≤ (57 : UInt8)) →
    ds.length = es.length → horner ds = horner es → ds = es
  | [], [], _, _, _, _ => rfl
  | [], _ :: _, _, _, h, _ => by simp at h
  | _ :: _, [], _, _, h, _ => by simp at h
  | c :: ds, e :: es, hd, he, hl, hh => by
    have hl' : ds.length = es.length := by simpa using hl
    have b1 := horner_bounds ds fun x hx => hd x (List.mem_cons_of_mem _ hx)
    have b2 := horner_bounds es fun x hx => he x (List.mem_cons_of_mem _ hx)
    have hc := UInt8.le_iff_toNat_le.mp (hd c (by simp)).1
    have hc' := UInt8.le_iff_toNat_le.mp (he e (by simp)).1
    simp only [horner] at hh
    rw [hl'] at hh b1
    have hq : c.toNat - 48 = e.toNat - 48 := by
      have h1 := congrArg (· / 10 ^ es.length) hh
      rw [Nat.mul_comm, Nat.mul_comm (e.toNat - 48), Nat.mul_add_div (by positivity), Nat.mul_add_div (by positivity),
        Nat.div_eq_of_lt b1, Nat.div_eq_of_lt b2] at h1
      simpa using h1
    have hce : c = e := by
      apply UInt8.toNat_inj.mp
      have : (48 : UInt8).toNat = 48 := rfl
      omega
    subst hce
    have : horner ds = horner es := by omega
    rw [horner_inj ds es (fun x hx => hd x (List.mem_cons_of_mem _ hx)) (fun x hx => he x (List.mem_cons_of_mem _ hx)) hl' this]

theorem horner_lower (c : UInt8) (r : Str) (hd : ∀ x ∈ c :: r, 48 ≤ x ∧ x ≤ (57 : UInt8)) (hc : c ≠ 48) :
    10 ^ r.length ≤ horner (c :: r) := by
  have h1 := UInt8.le_iff_toNat_le.mp (hd c (by simp)).1
  have h2 : c.toNat ≠ 48 := fun h => hc (UInt8.toNat_inj.mp h)
  have h3 : 1 ≤ c.toNat - 48 := by
    have : (48 : UInt8).toNat = 48 := rfl
    omega
  simp only [horner]
  nlinarith [Nat.pow_pos (n := r.length) (by decide : 0 < 10)]

/-- A number has only one decimal notation. -/
theorem decimal_text_unique {v : Int} {s s' : Str} (h : IsDecimal v s) (h' : IsDecimal v s') : s = s' := by
  obtain ⟨ds, rfl, h0, hd, hh, hz⟩ := h
  obtain ⟨es, rfl, g0, gd, gh, gz⟩ := h'
  congr 1
  refine horner_inj ds es hd gd ?_ (by rw [hh, gh])
  rw [← gh] at hh
  have key : ∀ (ds es : Str), ds ≠ [] → es ≠ [] → (∀ c ∈ ds, 48 ≤ c ∧ c ≤ (57 : UInt8)) → (∀ c ∈ es, 48 ≤ c ∧ c ≤ (57 : UInt8)) →
      (es.head? = some 48 → es.length = 1) → horner ds = horner es → es.length ≤ ds.length := by
    intro ds es h0 g0 hd gd gz hh
    cases es with
    | nil => exact absurd rfl g0
    | cons c r =>
      by_cases hc : c = 48
      · have := gz (by simp [hc])
        have : ds.length ≠ 0 := by simpa using h0
        omega
      · have h1 := horner_lower c r gd hc
        have h2 := horner_bounds ds hd
        have : 10 ^ r.length < 10 ^ ds.length := by omega
        have := (Nat.pow_lt_pow_iff_right (by decide : 1 < 10)).mp this
        simp only [List.length_cons]; omega
  have a := key ds es h0 g0 hd gd gz hh
  have b := key es ds g0 h0 gd hd hz hh.symm
  omega

/-- **C39, C41.** A call measures one thing only: the description determines type, name, content and tolerance. -/
theorem C39_measured_unique (c : Call) (f f' t t' n n' x x' : Str) (b b' : Bool) (h : Measures c f t n x b)
    (h' : Measures c f' t' n' x' b') : f = f' ∧ t = t' ∧ n = n' ∧ x = x' ∧ b = b' := by
  cases h <;> cases h' <;> try exact ⟨rfl, rfl, rfl, rfl, rfl⟩
  case integer.integer =>
    rename_i w k h1 h2 h3 h4 w' k' h1' h2' h3' h4'
    have : w = w' := by omega
    subst this
    exact ⟨rfl, rfl, rfl, decimal_text_unique h4 h4', rfl⟩

/-! ## C40: leftovers -/

/-- The state with more measurements at the end of the baseline. -/
def St.more (s : St) (extra : List Meas) : St := { s with obj := { s.obj with input := s.obj.input ++ extra } }

theorem emit_more (s : St) (t : Str) (extra : List Meas) : (s.more extra).emit t = (s.emit t).more extra := by
  cases hs : s.obj.os <;> simp only [St.emit, St.more, hs]

theorem toCout_more (s : St) (t : Str) (extra : List Meas) : (s.more extra).toCout t = (s.toCout t).more extra := rfl

theorem compareMode_more (s : St) (extra : List Meas) : (s.more extra).compareMode = s.compareMode := rfl

theorem unmatched_more (s : St) (m : Meas) (extra : List Meas) :
    unmatchedMeasurement (s.more extra) m = ((unmatchedMeasurement s m).1.more extra, (unmatchedMeasurement s m).2) := by
  simp only [unmatchedMeasurement]
  cases (m.setName (b!"Unmatched " ++ m.name)).print with
  | error f => rfl
  | ok t => simp only; rw [← emit_more]; rfl

theorem difference_more (env : Env) (s : St) (t b : Meas) (extra : List Meas) :
    differenceMeasurement env (s.more extra) t b =
      ((differenceMeasurement env s t b).1.more extra, (differenceMeasurement env s t b).2) := by
  simp only [differenceMeasurement]
  cases imagePair env b t with
  | some x =>
    obtain ⟨im, f, g⟩ := x
    simp only [St.more]
    rcases im.diff s.world s.obj.imageTol g f with ⟨t, _ | e⟩ <;> rfl
  | none =>
    cases difference env.diff b t with
    | error f => rfl
    | ok x => simp only; rw [← emit_more]; rfl

theorem compareVisit_more (env : Env) (s : St) (tol : Bool) (b t : Meas) (extra : List Meas) :
    compareVisit env (s.more extra) tol b t = ((compareVisit env s tol b t).1.more extra, (compareVisit env s tol b t).2) := by
  simp only [compareVisit]
  cases imagePair env b t with
  | some x => obtain ⟨im, f, g⟩ := x; rfl
  | none => rfl

theorem compare_more (env : Env) (s : St) (m : Meas) (tol : Bool) (extra : List Meas) (h : s.obj.input ≠ []) :
    compareMeasurement env (s.more extra) m tol =
      ((compareMeasurement env s m tol).1.more extra, (compareMeasurement env s m tol).2) := by
  cases hi : s.obj.input with
  | nil => exact absurd hi h
  | cons b rest =>
    have h1 : (s.more extra).obj.input = b :: (rest ++ extra) := by simp [St.more, hi]
    have h2 : ({ s.more extra with obj := { (s.more extra).obj with input := rest ++ extra } } : St) =
      ({ s with obj := { s.obj with input := rest } } : St).more extra := rfl
    simp only [compareMeasurement, h1, hi, h2]
    generalize ({ s with obj := { s.obj with input := rest } } : St) = s
    by_cases hnt : b.name = m.name ∧ b.type = m.type
    · simp only [if_pos hnt]
      have hl : locateBaseline (s.more extra) b m = locateBaseline s b m := rfl
      rw [hl]
      cases locateBaseline s b m with
      | error f => rfl
      | ok b' =>
        simp only [compareVisit_more]
        rcases compareVisit env s tol b' m with ⟨s', b'', t', f | same⟩
        · rfl
        · simp only
          cases same with
          | true => rfl
          | false =>
            simp only [Bool.false_eq_true, if_false, Res.andThen, difference_more]
            rcases differenceMeasurement env s' t' b'' with ⟨s2, f | u⟩ <;> rfl
    · simp only [if_neg hnt, unmatched_more, Res.andThen]
      rcases unmatchedMeasurement s m with ⟨s2, f | u⟩ <;> rfl

theorem runCall_more (env : Env) (s : St) (c : Call) (extra : List Meas) (h : s.compareMode = true → s.obj.input ≠ []) :
    runCall env (s.more extra) c = ((runCall env s c).1.more extra, (runCall env s c).2) := by
  simp only [runCall, compareMode_more]
  by_cases hm : s.compareMode = true
  · simp only [hm, if_true]; exact compare_more env s _ _ extra (h hm)
  · simp only [hm, if_false, Bool.false_eq_true]
    cases c.recorded with
    | error f => rfl
    | ok m =>
      cases hp : m.print with
      | error f => simp only [hp]
      | ok t => simp only [hp]; rw [← emit_more]

theorem unmatched_input (s : St) (m : Meas) : (unmatchedMeasurement s m).1.obj.input = s.obj.input ∧
    (unmatchedMeasurement s m).1.obj.is = s.obj.is := by
  simp only [unmatchedMeasurement]
  split
  · exact ⟨rfl, rfl⟩
  · simp only [emit_obj]; exact ⟨trivial, trivial⟩

theorem compare_input (env : Env) (s : St) (m : Meas) (tol : Bool) :
    (compareMeasurement env s m tol).1.obj.input = s.obj.input.drop 1 ∧ (compareMeasurement env s m tol).1.obj.is = s.obj.is := by
  have hun : ∀ s : St, ((unmatchedMeasurement s m).andThen fun s _ => (s, .ok (1 : Int))).1.obj.input = s.obj.input ∧
      ((unmatchedMeasurement s m).andThen fun s _ => (s, .ok (1 : Int))).1.obj.is = s.obj.is := by
    intro s
    have := unmatched_input s m
    rcases hu : unmatchedMeasurement s m with ⟨s2, f | u⟩ <;> rw [hu] at this <;> exact this
  cases hi : s.obj.input with
  | nil => simp only [compareMeasurement, hi]; have := hun s; rw [hi] at this; simpa using this
  | cons b rest =>
    simp only [compareMeasurement, hi]
    split
    · cases locateBaseline { s with obj := { s.obj with input := rest } } b m with
      | error f => simp
      | ok b' =>
        simp only
        have hv : (compareVisit env { s with obj := { s.obj with input := rest } } tol b' m).1.obj = { s.obj with input := rest } := by
          simp only [compareVisit]; split <;> rfl
        rcases hcv : compareVisit env { s with obj := { s.obj with input := rest } } tol b' m with ⟨s', b'', t', f | same⟩
        · rw [hcv] at hv; simp only at hv ⊢; rw [hv]; simp
        · rw [hcv] at hv
          simp only at hv ⊢
          cases same with
          | true => simp only [if_true]; rw [hv]; simp
          | false =>
            have hd := difference_obj env s' t' b''
            simp only [Bool.false_eq_true, if_false, Res.andThen]
            rcases hdm : differenceMeasurement env s' t' b'' with ⟨s2, f | u⟩ <;> rw [hdm] at hd <;> simp only at hd ⊢ <;>
              rw [hd, hv] <;> simp
    · have := hun { s with obj := { s.obj with input := rest } }
      simpa using this

theorem runCall_input (env : Env) (s : St) (c : Call) (bytes : Str) (his : s.obj.is = some bytes) :
    (runCall env s c).1.obj.input = s.obj.input.drop 1 ∧ (runCall env s c).1.obj.is = some bytes := by
  rw [runCall, compareMode_is his, if_pos rfl, ← his]
  exact compare_input env s _ _

/-- In compare mode, measurements added at the end of a baseline that is long enough for the test change nothing. -/
theorem runProg_more (env : Env) (extra : List Meas) (p : Prog) : ∀ (s : St) (bytes : Str), s.obj.is = some bytes →
    (observed env p s).length ≤ s.obj.input.length →
    runProg env p (s.more extra) = ((runProg env p s).1.more extra, (runProg env p s).2) ∧
    (runProg env p s).1.obj.is = some bytes := by
  induction p with
  | ret v => intro s bytes his _; exact ⟨rfl, his⟩
  | fails e => intro s bytes his _; exact ⟨rfl, his⟩
  | act f k ih => intro s bytes his hl; exact ih { s with world := f s.world } bytes his hl
  | look k ih => intro s bytes his hl; exact ih s.world s bytes his hl
  | ask k ih => intro s bytes his hl; exact ih s.settings s bytes his hl
  | setTolerance t k ih => intro s bytes his hl; exact ih { s with obj := { s.obj with tolerance := t } } bytes his hl
  | setExpected v k ih => intro s bytes his hl; exact ih { s with obj := { s.obj with expected := v } } bytes his hl
  | setImageTolerance t k ih => intro s bytes his hl; exact ih { s with obj := { s.obj with imageTol := t } } bytes his hl
  | setSearchPath ps k ih => intro s bytes his hl; exact ih { s with obj := { s.obj with searchPath := ps } } bytes his hl
  | prependSearchPath p k ih => intro s bytes his hl; exact ih { s with obj := { s.obj with searchPath := p :: s.obj.searchPath } } bytes his hl
  | setInFileName n k ih => intro s bytes his hl; exact ih { s with obj := { s.obj with inFileName := n } } bytes his hl
  | setOutFileName n k ih => intro s bytes his hl; exact ih { s with obj := { s.obj with outFileName := n } } bytes his hl
  | call c k ih =>
    intro s bytes his hl
    have hne : s.obj.input ≠ [] := by
      intro h; rw [h] at hl; simp [observed] at hl
    have h1 := runCall_more env s c extra fun _ => hne
    have h2 := runCall_input env s c bytes his
    rw [runProg, runProg, h1]
    rw [observed] at hl
    rcases hr : runCall env s c with ⟨s1, f | r⟩
    · rw [hr] at h2; exact ⟨rfl, h2.2⟩
    · rw [hr] at h2 hl
      simp only at h2 hl ⊢
      exact ih r s1 bytes h2.2 (by rw [h2.1]; simp only [List.length_cons, List.length_drop] at hl ⊢; omega)

/-- The library with a baseline that holds further measurements at the end. -/
def Env.longer (env : Env) (extra : Str → List Meas) : Env :=
  { env with readXML := fun x => (env.readXML x).map (· ++ extra x) }

theorem begin_longer (env : Env) (extra : Str → List Meas) (s : St) :
    beginMeasurement (env.longer extra) s = beginMeasurement env s ∨
    ∃ s1 bytes, beginMeasurement env s = (s1, .ok ()) ∧ s1.obj.is = some bytes ∧
      beginMeasurement (env.longer extra) s = (s1.more (extra bytes), .ok ()) := by
  have key : ∀ s, startOrRead (env.longer extra) s = startOrRead env s ∨
      ∃ s1 bytes, startOrRead env s = (s1, .ok ()) ∧ s1.obj.is = some bytes ∧
        startOrRead (env.longer extra) s = (s1.more (extra bytes), .ok ()) := by
    intro s
    simp only [startOrRead]
    by_cases hc : s.compareMode = true
    · simp only [hc, if_true]
      cases hs : s.obj.is with
      | none => exact Or.inl rfl
      | some b =>
        have hl : (env.longer extra).readXML b = (env.readXML b).map (· ++ extra b) := rfl
        simp only [hl]
        cases env.readXML b with
        | error f => exact Or.inl rfl
        | ok ms => exact Or.inr ⟨_, b, rfl, rfl, rfl⟩
    · simp only [hc, Bool.false_eq_true, if_false]; exact Or.inl trivial
  simp only [beginMeasurement, Res.andThen]
  rcases openOutput s with ⟨s1, f | u⟩
  · exact Or.inl rfl
  · simp only
    rcases openInput s1 with ⟨s2, f | u⟩
    · exact Or.inl rfl
    · exact key s2

/-- **C40, negative.** Leftovers are never noticed: when the baseline is long enough for the measurements the test makes, adding any further
measurements at its end changes neither the value of `Main` nor anything written. -/
theorem C40_leftovers_ignored (env : Env) (extra : Str → List Meas) (test : List Str → Prog) (fuel : Nat) (argv : List Str) (s : St)
    (hlong : ∀ o rest s1, parseArguments s.world.fs fuel { s.obj with unmatched := s.obj.unmatched + 1 } argv = (o, .ok rest) →
      beginMeasurement env ⟨o, s.world⟩ = (s1, .ok ()) → (observed env (test rest) s1).length ≤ s1.obj.input.length) :
    (main (env.longer extra) test fuel argv s).2 = (main env test fuel argv s).2 ∧
    (main (env.longer extra) test fuel argv s).1.world = (main env test fuel argv s).1.world ∧
    (main (env.longer extra) test fuel argv s).1.obj.unmatched = (main env test fuel argv s).1.obj.unmatched := by
  have hrun : ∀ p s, runProg (env.longer extra) p s = runProg env p s := by
    intro p
    induction p with
    | ret v => intro s; rfl
    | fails e => intro s; rfl
    | act f k ih => intro s; exact ih _
    | look k ih => intro s; exact ih _ _
    | ask k ih => intro s; exact ih _ _
    | setTolerance t k ih => intro s; exact ih _
    | setExpected v k ih => intro s; exact ih _
    | setImageTolerance t k ih => intro s; exact ih _
    | setSearchPath ps k ih => intro s; exact ih _
    | prependSearchPath p k ih => intro s; exact ih _
    | setInFileName n k ih => intro s; exact ih _
    | setOutFileName n k ih => intro s; exact ih _
    | call c k ih =>
      intro s
      have hc : runCall (env.longer extra) s c = runCall env s c := rfl
      rw [runProg, runProg, hc]
      rcases runCall env s c with ⟨s1, f | r⟩
      · rfl
      · exact ih r s1
  simp only [main, tryBlock]
  rcases hp : parseArguments s.world.fs fuel { s.obj with unmatched := s.obj.unmatched + 1 } argv with ⟨o, f | rest⟩
  · exact ⟨rfl, rfl, rfl⟩
  · simp only
    rcases begin_longer env extra ⟨o, s.world⟩ with hb | ⟨s1, bytes, hb, his, hb'⟩
    · rw [hb]
      rcases beginMeasurement env ⟨o, s.world⟩ with ⟨s1, f | u⟩
      · exact ⟨rfl, rfl, rfl⟩
      · simp only [hrun]; exact ⟨trivial, trivial, trivial⟩
    · rw [hb, hb']
      simp only [hrun]
      obtain ⟨hr, hi⟩ := runProg_more env (extra bytes) (test rest) s1 bytes his (hlong o rest s1 hp hb)
      rw [hr]
      rcases he : runProg env (test rest) s1 with ⟨s2, f | r⟩
      · rw [he] at hi
        simp only
        cases f <;> exact ⟨rfl, rfl, rfl⟩
      · rw [he] at hi
        have hcm : s2.compareMode = true := compareMode_is hi
        have hcm' : (s2.more (extra bytes)).compareMode = true := hcm
        simp only [endMeasurement, hcm, hcm', if_true]
        exact ⟨rfl, rfl, rfl⟩

/-- The premise of C40 is met: two measurements in the baseline, one made by the test, which agrees; `Main` returns 0. -/
example : (∀ o rest s1, parseArguments smallWorld.fs 9 { fresh.obj with unmatched := fresh.obj.unmatched + 1 } withBaseline = (o, .ok rest) →
      beginMeasurement (smallEnv [.data { kind := .string, name := b!"n", content := b!"x" }]) ⟨o, smallWorld⟩ = (s1, .ok ()) →
      (observed (smallEnv [.data { kind := .string, name := b!"n", content := b!"x" }]) (textTest 1) s1).length ≤ s1.obj.input.length) ∧
    (main ((smallEnv [.data { kind := .string, name := b!"n", content := b!"x" }]).longer
      fun _ => [.data { kind := .string, name := b!"m", content := b!"y" }]) (fun _ => textTest 1) 9 withBaseline fresh).2 = .ok 0 := by
  refine ⟨?_, by decide +kernel⟩
  intro o rest s1 h1 h2
  have h3 := parse_small 1
  rw [show (fresh.obj.unmatched + 1 : Int) = 1 from rfl] at h1
  rw [show ({ fresh.obj with unmatched := 1 } : Obj) = { unmatched := 1 } from rfl, h3] at h1
  cases h1
  rw [begin_small] at h2
  cases h2
  decide +kernel

end Verif.Regression
