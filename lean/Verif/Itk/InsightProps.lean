import Verif.Itk.NamesProps
import Verif.Itk.Visitor
import Verif.Itk.Props

/-!
# Properties C50 (in a run), C72–C75: compound measurements, the image comparison program, images in a regression run
-/

set_option linter.unusedSimpArgs false

namespace Verif.Itk
open Spec Verif.Regression Verif.Regression.Spec Verif.Measurement

/-! ## C72: compound measurements -/

theorem run_sumCalls (env : Env) : ∀ (cs : List Call) (acc : Int) (k : Int → Prog) (s : St),
    runProg env (sumCalls cs acc k) s = match runCalls env cs s with
      | (s, .error f) => (s, .error f)
      | (s, .ok t) => runProg env (k (acc + t)) s
  | [], acc, k, s => by simp [sumCalls, runCalls]
  | c :: cs, acc, k, s => by
    simp only [sumCalls, runProg, runCalls]
    rcases runCall env s c with ⟨s', f | r⟩
    · rfl
    · simp only
      rw [run_sumCalls env cs (acc + r) k s']
      rcases runCalls env cs s' with ⟨s'', f | q⟩
      · rfl
      · simp only [Int.add_assoc]

theorem integerLoop_eq (name : Str) (tol : Bool) : ∀ (vs : List Int) (i : Nat),
    integerLoop name tol i vs = (vs.zipIdx i).map fun (v, i) => Call.integer v (name ++ b!"_" ++ natText i) tol
  | [], _ => rfl
  | v :: vs, i => by simp only [integerLoop, List.zipIdx_cons, List.map_cons, integerLoop_eq name tol vs (i + 1), indexed]

theorem doubleLoop_eq (name : Str) (tol : Bool) : ∀ (vs : List Str) (i : Nat),
    doubleLoop name tol i vs = (vs.zipIdx i).map fun (v, i) => Call.double v (name ++ b!"_" ++ natText i) tol
  | [], _ => rfl
  | v :: vs, i => by simp only [doubleLoop, List.zipIdx_cons, List.map_cons, doubleLoop_eq name tol vs (i + 1), indexed]

theorem matrixLoop_eq (name : Str) (tol : Bool) : ∀ (rows : List (List Str)) (i : Nat),
    matrixLoop name tol i rows = (rows.zipIdx i).flatMap fun (row, i) => row.zipIdx.map fun (v, j) =>
      Call.double v (name ++ b!"_" ++ natText i ++ b!"_" ++ natText j) tol
  | [], _ => rfl
  | row :: rows, i => by
    simp only [matrixLoop, List.zipIdx_cons, List.flatMap_cons, matrixLoop_eq name tol rows (i + 1), doubleLoop_eq, indexed]

theorem run_sum_ret (env : Env) (cs : List Call) (s : St) : runProg env (sumCalls cs 0 .ret) s = runCalls env cs s := by
  rw [run_sumCalls]
  rcases runCalls env cs s with ⟨s', f | t⟩ <;> simp [runProg]

/-- **C72.** Measuring a size or an index measures each element as an integer, in order, under the name of the whole followed by the number of
the element, and returns the sum of what the elements return. -/
theorem C72_integers (env : Env) (values : List Int) (name : Str) (tolerant : Bool) (s : St) :
    runProg env (insightIntegers values name tolerant .ret) s =
      runCalls env (perElement (fun v n => .integer v n tolerant) name values) s := by
  rw [insightIntegers, run_sum_ret, integerLoop_eq]; rfl

/-- **C72.** The same for a point, a vector or an array, as numbers of double precision. -/
theorem C72_doubles (env : Env) (texts : List Str) (name : Str) (tolerant : Bool) (s : St) :
    runProg env (insightDoubles texts name tolerant .ret) s =
      runCalls env (perElement (fun v n => .double v n tolerant) name texts) s := by
  rw [insightDoubles, run_sum_ret, doubleLoop_eq]; rfl

/-- **C72.** A matrix is measured row by row. -/
theorem C72_matrix (env : Env) (rows : List (List Str)) (name : Str) (tolerant : Bool) (s : St) :
    runProg env (insightMatrix rows name tolerant .ret) s =
      runCalls env (perEntry (fun v n => .double v n tolerant) name rows) s := by
  rw [insightMatrix, run_sum_ret, matrixLoop_eq]; rfl

theorem runCalls_append (env : Env) : ∀ (a b : List Call) (s : St), runCalls env (a ++ b) s = match runCalls env a s with
      | (s, .error f) => (s, .error f)
      | (s, .ok t) => match runCalls env b s with
        | (s, .error f) => (s, .error f)
        | (s, .ok q) => (s, .ok (t + q))
  | [], b, s => by
    simp only [List.nil_append, runCalls]
    rcases runCalls env b s with ⟨s', f | t⟩ <;> simp
  | c :: a, b, s => by
    simp only [List.cons_append, runCalls]
    rcases runCall env s c with ⟨s', f | r⟩
    · rfl
    · simp only
      rw [runCalls_append env a b s']
      rcases runCalls env a s' with ⟨s'', f | q⟩
      · rfl
      · simp only
        rcases runCalls env b s'' with ⟨s3, f | q'⟩
        · rfl
        · simp [Int.add_assoc]

/-- **C72.** A region is measured as its index and then its size. -/
theorem C72_region (env : Env) (index size : List Int) (name : Str) (tolerant : Bool) (s : St) :
    runProg env (insightRegion index size name tolerant .ret) s =
      runCalls env (perElement (fun v n => .integer v n tolerant) (name ++ b!" Index") index ++
        perElement (fun v n => .integer v n tolerant) (name ++ b!" Size") size) s := by
  have e : ∀ n vs, integerLoop n tolerant 0 vs = perElement (fun v n => .integer v n tolerant) n vs := fun n vs => integerLoop_eq n tolerant vs 0
  rw [insightRegion, insightIntegers, run_sumCalls, runCalls_append, e]
  rcases runCalls env (perElement (fun v n => .integer v n tolerant) (name ++ b!" Index") index) s with ⟨s', f | t⟩
  · rfl
  · simp only
    rw [insightIntegers, run_sumCalls, e]
    rcases runCalls env (perElement (fun v n => .integer v n tolerant) (name ++ b!" Size") size) s' with ⟨s'', f | q⟩ <;> simp [runProg]

/-- A 2 by 2 matrix. -/
example : perEntry (fun v n => .double v n true) b!"m" [[b!"1", b!"2"], [b!"3", b!"4"]] =
    [.double b!"1" b!"m_0_0" true, .double b!"2" b!"m_0_1" true, .double b!"3" b!"m_1_0" true, .double b!"4" b!"m_1_1" true] := by
  have h0 : natText 0 = b!"0" := by rw [natText, if_pos (by decide)]; decide +kernel
  have h1 : natText 1 = b!"1" := by rw [natText, if_pos (by decide)]; decide +kernel
  simp [perEntry, List.zipIdx, h0, h1]

theorem natText_inj (m n : Nat) (h : natText m = natText n) : m = n := by
  rw [← (natText_spec m).2.2.1, ← (natText_spec n).2.2.1, h]

theorem natText_no95 (n : Nat) : 95 ∉ natText n := by
  intro h
  have := (natText_spec n).2.1 95 h
  exact absurd this (by decide)

theorem sep_inj (c : UInt8) (a b x y : Str) (ha : c ∉ a) (hb : c ∉ b) (h : a ++ c :: x = b ++ c :: y) : a = b ∧ x = y := by
  rcases List.append_eq_append_iff.mp h with ⟨d, h1, h2⟩ | ⟨d, h1, h2⟩
  · cases d with
    | nil => simp at h1 h2; exact ⟨h1.symm, h2⟩
    | cons z d =>
      simp only [List.cons_append, List.cons.injEq] at h2
      exact absurd (by rw [h1, ← h2.1]; simp) hb
  · cases d with
    | nil => simp at h1 h2; exact ⟨h1, h2.symm⟩
    | cons z d =>
      simp only [List.cons_append, List.cons.injEq] at h2
      exact absurd (by rw [h1, ← h2.1]; simp) ha

/-- **C72.** The entries of a matrix get different names. -/
theorem C72_names_distinct (rows : List (List Str)) (name : Str) (tolerant : Bool) :
    ((perEntry (fun v n => .double v n tolerant) name rows).map fun c => c.meas.name).Nodup := by
  have key : ∀ (rows : List (List Str)) (k : Nat), (((rows.zipIdx k).flatMap fun (row, i) => row.zipIdx.map fun (v, j) =>
      Call.double v (name ++ b!"_" ++ natText i ++ b!"_" ++ natText j) tolerant).map fun c => c.meas.name).Nodup ∧
      ∀ x ∈ ((rows.zipIdx k).flatMap fun (row, i) => row.zipIdx.map fun (v, j) =>
      Call.double v (name ++ b!"_" ++ natText i ++ b!"_" ++ natText j) tolerant).map fun c => c.meas.name,
        ∃ i j, k ≤ i ∧ x = name ++ b!"_" ++ natText i ++ b!"_" ++ natText j := by
    intro rows
    induction rows with
    | nil => intro k; simp
    | cons row rows ih =>
      intro k
      obtain ⟨h1, h2⟩ := ih (k + 1)
      rw [List.zipIdx_cons, List.flatMap_cons, List.map_append]
      have hrow : ∀ x ∈ (row.zipIdx.map fun (v, j) =>
          Call.double v (name ++ b!"_" ++ natText k ++ b!"_" ++ natText j) tolerant).map (fun c => c.meas.name),
          ∃ j, x = name ++ b!"_" ++ natText k ++ b!"_" ++ natText j := by
        intro x hx
        simp only [List.map_map, List.mem_map, Function.comp] at hx
        obtain ⟨⟨v, j⟩, _, rfl⟩ := hx
        exact ⟨j, rfl⟩
      refine ⟨?_, ?_⟩
      · rw [List.nodup_append]
        refine ⟨?_, h1, ?_⟩
        · have : ∀ (l : List Str) (m : Nat), (((l.zipIdx m).map fun (v, j) =>
              Call.double v (name ++ b!"_" ++ natText k ++ b!"_" ++ natText j) tolerant).map (fun c => c.meas.name)).Nodup := by
            intro l m
            rw [List.Nodup, List.pairwise_iff_getElem]
            intro i j hi hj hij he
            simp only [List.getElem_map, List.getElem_zipIdx, Call.meas, Meas.name] at he
            have := natText_inj _ _ (List.append_cancel_left he)
            omega
          exact this row 0
        · intro x hx y hy he
          obtain ⟨j, rfl⟩ := hrow x hx
          obtain ⟨i', j', hi', rfl⟩ := h2 y hy
          simp only [List.append_assoc] at he
          have he := List.append_cancel_left (List.append_cancel_left he)
          have := natText_inj _ _ (sep_inj 95 _ _ _ _ (natText_no95 _) (natText_no95 _) he).1
          omega
      · intro x hx
        rcases List.mem_append.mp hx with hx | hx
        · obtain ⟨j, rfl⟩ := hrow x hx
          exact ⟨k, j, Nat.le_refl _, rfl⟩
        · obtain ⟨i, j, hi, rfl⟩ := h2 x hx
          exact ⟨i, j, by omega, rfl⟩
  exact (key rows 0).1

/-! ## C73: the image comparison program -/

/-- **C73.** If the arguments are images and tolerances, the program measures the images in order, under the names `ImageFile0`,
`ImageFile1`, ..., each with the tolerances given before it, and returns 0 (if no measurement ends the program). -/
theorem C73_images_measured (rd : Readers) (env : Env) (name0 : Str) (args : List Str) (l : List (ImgTol × Str))
    (hl : Reads rd.real rd.unsigned {} args l) (s : St) (v : Int)
    (hv : (runProg env (imageTest rd (name0 :: args)) s).2 = .ok v) :
    v = 0 ∧ (observed env (imageTest rd (name0 :: args)) s).map (fun o => (o.imageTol, o.call)) =
      l.zipIdx.map fun ((t, f), i) => (t, Call.fileITK f (b!"ImageFile" ++ natText i)) := by
  have key : ∀ t args l, Reads rd.real rd.unsigned t args l → ∀ (n : Nat) (s : St) (v : Int),
      (runProg env (imageLoop rd t n args) s).2 = .ok v →
      v = 0 ∧ (observed env (imageLoop rd t n args) s).map (fun o => (o.imageTol, o.call)) =
        (l.zipIdx n).map fun ((t, f), i) => (t, Call.fileITK f (b!"ImageFile" ++ natText i)) := by
    intro t args l h
    induction h with
    | done t => intro n s v h; simp only [imageLoop, runProg, Except.ok.injEq] at h; simp [imageLoop, observed, h]
    | intensity t v x rest l h1 h2 ih =>
      intro n s w h
      have e : imageLoop rd t n (b!"--intensityTolerance" :: v :: rest) = imageLoop rd { t with intensity := x } n rest := by
        rw [imageLoop, if_pos (by decide), if_pos rfl]; simp only [h1]
      rw [e] at h ⊢; exact ih n s w h
    | pixels t v x rest l h1 h2 ih =>
      intro n s w h
      have e : imageLoop rd t n (b!"--numberOfPixelTolerance" :: v :: rest) = imageLoop rd { t with pixels := x } n rest := by
        rw [imageLoop, if_pos (by decide), if_neg (by decide), if_pos rfl]; simp only [h1]
      rw [e] at h ⊢; exact ih n s w h
    | radius t v x rest l h1 h2 ih =>
      intro n s w h
      have e : imageLoop rd t n (b!"--radiusTolerance" :: v :: rest) = imageLoop rd { t with radius := x } n rest := by
        rw [imageLoop, if_pos (by decide), if_neg (by decide), if_neg (by decide), if_pos rfl]; simp only [h1]
      rw [e] at h ⊢; exact ih n s w h
    | image t a rest l h1 h2 ih =>
      intro n s w h
      have e : imageLoop rd t n (a :: rest) = .setImageTolerance t (.call (.fileITK a (b!"ImageFile" ++ natText n))
          fun _ => imageLoop rd t (n + 1) rest) := by
        rw [imageLoop.eq_def]; simp only; rw [if_neg h1]
      rw [e] at h ⊢
      simp only [runProg] at h
      simp only [observed, List.map_cons, List.zipIdx_cons]
      rcases hr : runCall env { s with obj := { s.obj with imageTol := t } } (.fileITK a (b!"ImageFile" ++ natText n)) with ⟨s', f | r⟩
      · rw [hr] at h; cases h
      · rw [hr] at h
        obtain ⟨h3, h4⟩ := ih (n + 1) s' w h
        exact ⟨h3, by rw [h4]⟩
  exact key {} args l hl 0 s v hv

/-- **C73.** Any other arguments, an unknown option or a missing or unreadable value, end the program with 1 (if no measurement made before ends
it). -/
theorem C73_bad_arguments (rd : Readers) (env : Env) (name0 : Str) (args : List Str)
    (hl : ¬ ∃ l, Reads rd.real rd.unsigned {} args l) (s : St) (v : Int)
    (hv : (runProg env (imageTest rd (name0 :: args)) s).2 = .ok v) : v = 1 := by
  have key : ∀ (m : Nat) (t : ImgTol) (args : List Str), args.length ≤ m → (¬ ∃ l, Reads rd.real rd.unsigned t args l) →
      ∀ (n : Nat) (s : St) (v : Int), (runProg env (imageLoop rd t n args) s).2 = .ok v → v = 1 := by
    intro m
    induction m with
    | zero =>
      intro t args hlen hno
      have : args = [] := List.length_eq_zero_iff.mp (by omega)
      subst this
      exact absurd ⟨[], .done t⟩ hno
    | succ m ih =>
      intro t args hlen hno n s v hv
      cases args with
      | nil => exact absurd ⟨[], .done t⟩ hno
      | cons a rest =>
        simp only [List.length_cons] at hlen
        rw [imageLoop.eq_def] at hv
        simp only at hv
        by_cases ha : a.head? = some 45
        · rw [if_pos ha] at hv
          by_cases h1 : a = b!"--intensityTolerance"
          · subst h1
            rw [if_pos rfl] at hv
            cases rest with
            | nil => simpa [runProg, eq_comm] using hv
            | cons w rest =>
              simp only at hv
              cases hw : rd.real w with
              | none => simpa [hw, runProg, eq_comm] using hv
              | some x =>
                simp only [hw] at hv
                simp only [List.length_cons] at hlen
                exact ih _ rest (by omega) (fun ⟨l, hl⟩ => hno ⟨l, .intensity t w x rest l hw hl⟩) n s v hv
          rw [if_neg h1] at hv
          by_cases h2 : a = b!"--numberOfPixelTolerance"
          · subst h2
            rw [if_pos rfl] at hv
            cases rest with
            | nil => simpa [runProg, eq_comm] using hv
            | cons w rest =>
              simp only at hv
              cases hw : rd.unsigned w with
              | none => simpa [hw, runProg, eq_comm] using hv
              | some x =>
                simp only [hw] at hv
                simp only [List.length_cons] at hlen
                exact ih _ rest (by omega) (fun ⟨l, hl⟩ => hno ⟨l, .pixels t w x rest l hw hl⟩) n s v hv
          rw [if_neg h2] at hv
          by_cases h3 : a = b!"--radiusTolerance"
          · subst h3
            rw [if_pos rfl] at hv
            cases rest with
            | nil => simpa [runProg, eq_comm] using hv
            | cons w rest =>
              simp only at hv
              cases hw : rd.unsigned w with
              | none => simpa [hw, runProg, eq_comm] using hv
              | some x =>
                simp only [hw] at hv
                simp only [List.length_cons] at hlen
                exact ih _ rest (by omega) (fun ⟨l, hl⟩ => hno ⟨l, .radius t w x rest l hw hl⟩) n s v hv
          rw [if_neg h3] at hv
          simpa [runProg, eq_comm] using hv
        · rw [if_neg ha] at hv
          simp only [runProg] at hv
          rcases hr : runCall env { s with obj := { s.obj with imageTol := t } } (.fileITK a (b!"ImageFile" ++ natText n)) with ⟨s', f | r⟩
          · rw [hr] at hv; cases hv
          · rw [hr] at hv
            exact ih t rest (by omega) (fun ⟨l, hl⟩ => hno ⟨_, .image t a rest l ha hl⟩) (n + 1) s' v hv
  exact key args.length {} args (Nat.le_refl _) hl 0 s v hv

/-- The tolerance applies to the images after it. -/
example : Reads (fun _ => some 2) (fun _ => some 3) {} [b!"a.mha", b!"--intensityTolerance", b!"2", b!"b.mha", b!"--radiusTolerance", b!"3", b!"c"]
    [({}, b!"a.mha"), ({ intensity := 2 }, b!"b.mha"), ({ intensity := 2, radius := 3 }, b!"c")] :=
  .image _ _ _ _ (by decide) (.intensity _ _ _ _ _ rfl (.image _ _ _ _ (by decide) (.radius _ _ _ _ _ rfl (.image _ _ _ _ (by decide) (.done _)))))

/-- An option in last place is not an argument list. -/
example : ¬ ∃ l, Reads (fun _ => some 2) (fun _ => some 3) {} [b!"a.mha", b!"-x"] l := by
  rintro ⟨l, h⟩
  cases h with
  | image _ _ _ l _ h => cases h with | image _ _ _ _ h _ => exact h rfl

/-! ## Images in a run -/

/-- The reader delivers images that start at index 0, and each region is worked on completely, once per pixel. -/
def Sound (I : Toolkit) : Prop :=
  (∀ w n l, I.read w n = some l → FromFile l.image) ∧ ∀ r, Covers (I.threads r) r

/-- **C50, in a run.** In an `itk::Regression`, an image measurement and a baseline agree exactly if the baseline names a file under the
same name and type, both files can be read, sizes and spacings agree, the origin of the baseline is a number and at most twice the tolerated
number of pixels differ. -/
theorem C50_run_passes_iff (I : Toolkit) (hI : Sound I) (env : Env) (henv : env.image = some I.imageEnv) (path : List Str) (b : Meas)
    (fileName name : Str) (tol : ℚ) (it : ImgTol) (w : World) :
    Agree env b ⟨.fileITK fileName name, tol, it, path, w⟩ ↔
      ∃ f valid test, b = .file f ∧ f.name = name ∧ f.type = b!"image/itk" ∧
        I.read w (cstr (located w path f.fileName)) = some valid ∧ I.read w (cstr fileName) = some test ∧
        valid.image.region.size = test.image.region.size ∧ differVec valid.image.spacing test.image.spacing = false ∧
        differVec valid.image.origin valid.image.origin = false ∧
        count valid.image.region (Differs I.arith it.intensity it.radius valid.image test.image) ≤ 2 * it.pixels := by
  have hk : ∀ k : Measurement.Kind, k.typeName ≠ b!"image/itk" := by
    rintro (_ | _ | (_ | _ | _ | _)) <;> decide
  cases b with
  | data d =>
    constructor
    · rintro ⟨_, h2, _⟩; exact absurd h2 (hk d.kind)
    · rintro ⟨f, _, _, h, _⟩; cases h
  | file f =>
    have key : Toolkit.compare I w it (cstr fileName) (cstr (located w path f.fileName)) = true ↔
        ∃ valid test, I.read w (cstr (located w path f.fileName)) = some valid ∧ I.read w (cstr fileName) = some test ∧
        valid.image.region.size = test.image.region.size ∧ differVec valid.image.spacing test.image.spacing = false ∧
        differVec valid.image.origin valid.image.origin = false ∧
        count valid.image.region (Differs I.arith it.intensity it.radius valid.image test.image) ≤ 2 * it.pixels := by
      rw [Toolkit.compare, decide_eq_true_iff, C50_passes_iff]
      · constructor
        · rintro ⟨v, t, h1, h2, h3⟩
          rw [Option.map_eq_some_iff] at h1 h2
          obtain ⟨lv, h1, rfl⟩ := h1
          obtain ⟨lt, h2, rfl⟩ := h2
          exact ⟨lv, lt, h1, h2, h3⟩
        · rintro ⟨lv, lt, h1, h2, h3⟩
          exact ⟨lv.image, lt.image, by rw [h1]; rfl, by rw [h2]; rfl, h3⟩
      · intro n i h
        rw [Option.map_eq_some_iff] at h
        obtain ⟨l, h, rfl⟩ := h
        exact hI.1 w n l h
      · intro i h
        rw [Option.map_eq_some_iff] at h
        obtain ⟨l, h, rfl⟩ := h
        rw [h]
        exact hI.2 _
    have hag : Agree env (.file f) ⟨.fileITK fileName name, tol, it, path, w⟩ ↔ f.name = name ∧ f.type = b!"image/itk" ∧
        Toolkit.compare I w it (cstr fileName) (cstr (located w path f.fileName)) = true := by
      simp only [Agree, Call.meas, Meas.name, Meas.type, SameValue, henv, decide_true, Toolkit.imageEnv]
    rw [hag, key]
    constructor
    · rintro ⟨h1, h2, v, t, h3⟩; exact ⟨f, v, t, rfl, h1, h2, h3⟩
    · rintro ⟨f', v, t, h0, h1, h2, h3⟩
      cases h0
      exact ⟨h1, h2, v, t, h3⟩

/-- **C74, negative.** Whatever a comparison of two image files finds, nothing is written to the output file named with `-O`: all files stay as
they are, and what is written goes to standard output. -/
theorem C74_difference_not_in_output (env : Env) (im : ImageEnv) (henv : env.image = some im) (s : St) (fileName name : Str)
    (bytes : Str) (his : s.obj.is = some bytes) (f : FileM) (rest : List Meas) (hinput : s.obj.input = .file f :: rest)
    (hname : f.name = name) (htype : f.type = b!"image/itk") :
    (runCall env s (.fileITK fileName name)).1.world.bytes = s.world.bytes ∧
    ∃ t, (runCall env s (.fileITK fileName name)).1.world.cout = s.world.cout ++ t := by
  subst hname
  have hl := locate_eq { s with obj := { s.obj with input := rest } } (.file f) (Call.fileITK fileName f.name).meas
  obtain ⟨b', hl, h1, h2, _, hb'⟩ := hl
  simp only [Call.meas] at hb'
  subst hb'
  rw [runCall, compareMode_is his, if_pos rfl, compareMeasurement]
  simp only [hinput]
  rw [if_pos ⟨rfl, by simp [Meas.type, htype, Call.meas]⟩, hl]
  simp only [compareVisit, imagePair, henv, Call.meas, if_true]
  split
  · exact ⟨rfl, _, rfl⟩
  · simp only [differenceMeasurement, imagePair, henv, if_true]
    generalize im.diff _ _ _ _ = r
    rcases r with ⟨t, _ | e⟩ <;> exact ⟨rfl, _, by simp only [Res.andThen, St.toCout, List.append_assoc]; rfl⟩

/-- **C75, negative.** An image file that cannot be read is not counted as a failing measurement: the comparison of its difference ends the test
by an exception, and no later measurement is made, whatever the test would go on to do. -/
theorem C75_unreadable_image_ends_test (I : Toolkit) (env : Env) (henv : env.image = some I.imageEnv) (s : St) (fileName name : Str)
    (bytes : Str) (his : s.obj.is = some bytes) (f : FileM) (rest : List Meas) (hinput : s.obj.input = .file f :: rest)
    (hname : f.name = name) (htype : f.type = b!"image/itk") (h0 : 0 ∉ fileName) (hread : ∀ c, I.read { s.world with cout := c } fileName = none) (k : Int → Prog) :
    (runProg env (.call (.fileITK fileName name) k) s).2 = .error (.thrown "itk::ExceptionObject") ∧
    (observed env (.call (.fileITK fileName name) k) s).length = 1 := by
  subst hname
  have hc : (cstr fileName) = fileName := by
    have := List.takeWhile_append_of_pos (p := fun c : UInt8 => decide (c ≠ 0)) (l₁ := fileName) (l₂ := []) (by
      intro x hx; simp; rintro rfl; exact h0 hx)
    simpa [cstr] using this
  have hl := locate_eq { s with obj := { s.obj with input := rest } } (.file f) (Call.fileITK fileName f.name).meas
  obtain ⟨b', hl, h1, h2, _, hb'⟩ := hl
  simp only [Call.meas] at hb'
  subst hb'
  have hcmp : ∀ n, Toolkit.compare I s.world s.obj.imageTol fileName n = false := by
    intro n
    rw [Toolkit.compare, decide_eq_false_iff_not, C51_unreadable _ _ _ _ _ _ _ _ (Or.inr (by have := hread s.world.cout; rw [show { s.world with cout := s.world.cout } = s.world from rfl] at this; rw [this]; rfl))]
    simp
  have hdiff : ∀ c t n f, Toolkit.differenceText I { s.world with cout := c } t (FileM.mk b!"image/itk" n fileName true) f =
      ([], some (.thrown "itk::ExceptionObject")) := by
    intro c t n f
    rw [Toolkit.differenceText, hread]
  have hrun : ∃ s', runCall env s (.fileITK fileName f.name) = (s', .error (.thrown "itk::ExceptionObject")) := by
    rw [runCall, compareMode_is his, if_pos rfl, compareMeasurement]
    simp only [hinput]
    rw [if_pos ⟨rfl, by simp [Meas.type, htype, Call.meas]⟩, hl]
    simp only [compareVisit, imagePair, henv, Call.meas, if_true, hc, Toolkit.imageEnv, hcmp, Bool.false_eq_true, if_false,
      differenceMeasurement]
    simp only [St.toCout, hdiff, Res.andThen]
    exact ⟨_, rfl⟩
  obtain ⟨s', hrun⟩ := hrun
  simp [runProg, observed, hrun]

/-- A run in which this happens: the test image is missing. -/
example : let I : Toolkit := ⟨exact, fun r => ⟨1, r.pixels.map (0, ·), fun _ => none⟩, fun _ _ => none,
      ⟨fun _ => [], fun _ => [], fun _ => [], fun _ => [], []⟩⟩
    (runProg { smallEnv [] with image := some I.imageEnv } (.call (.fileITK b!"t.mha" b!"i") fun _ => .ret 0)
      ⟨{ is := some [], input := [.file { type := b!"image/itk", name := b!"i", fileName := b!"b.mha" }] }, smallWorld⟩).2 =
    .error (.thrown "itk::ExceptionObject") := by
  intro I
  exact (C75_unreadable_image_ends_test I { smallEnv [] with image := some I.imageEnv } rfl
    ⟨{ is := some [], input := [.file { type := b!"image/itk", name := b!"i", fileName := b!"b.mha" }] }, smallWorld⟩ b!"t.mha" b!"i" [] rfl
    { type := b!"image/itk", name := b!"i", fileName := b!"b.mha" } [] rfl rfl rfl (by decide) (fun _ => rfl) fun _ => .ret 0).1

/-- A sound toolkit whose files hold an image of three pixels, or the same image with two pixels changed: with one pixel tolerated they agree, with
none they do not. -/
def threeKit : Toolkit :=
  ⟨exact, fun r => ⟨1, r.pixels.map (0, ·), fun _ => none⟩,
    fun _ n => some ⟨⟨[(0, 3)], [some 1], [some 0], fun p => if n = b!"b.mha" ∨ p = [1] then some 0 else some 9⟩, b!"scalar", b!"double", 1⟩,
    ⟨fun _ => [], fun _ => [], fun _ => b!"R", natText, b!"out"⟩⟩

theorem threeKit_sound : Sound threeKit := by
  refine ⟨?_, ?_⟩
  · intro w n l h
    cases h
    intro x hx
    simp only [List.mem_singleton] at hx
    rw [hx]
  · intro r
    refine ⟨by simp [threeKit, Function.comp_def], ?_⟩
    intro e he
    simp only [threeKit, List.mem_map] at he
    obtain ⟨p, _, rfl⟩ := he
    show 0 < 1
    decide

example : Toolkit.compare threeKit smallWorld { pixels := 1 } b!"t.mha" b!"b.mha" = true ∧
    Toolkit.compare threeKit smallWorld {} b!"t.mha" b!"b.mha" = false := by decide +kernel

end Verif.Itk
