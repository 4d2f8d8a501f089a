import Verif.Whole.Props
import Verif.Whole.Insight
import Verif.Itk.InsightProps
import Verif.Itk.DataDirProps

/-!
# Property C114: compound measurements recorded and compared
-/

set_option linter.unusedSimpArgs false

namespace Verif.Whole
open Verif.Measurement Verif.Measurement.Spec Verif.Regression Verif.Regression.Spec Verif.Decimal Verif.Decimal.Spec Verif.Xml Verif.Xml.Spec Spec Verif.Itk
open Verif.Path (isFile isReadable searchPathList)
open Verif.Path.Spec (Absolute)

/-- The measurements made for the elements of a list. -/
def elements {α : Type} (mk : α → Value) (name : Str) (t : Bool) (k : Nat) (vs : List α) : List Item :=
  (vs.zipIdx k).map fun (v, i) => ⟨name ++ b!"_" ++ natText i, mk v, t⟩

/-- The measurements made for a matrix, from row `k` on. -/
def entries (name : Str) (t : Bool) (k : Nat) (rows : List (List ℚ)) : List Item :=
  (rows.zipIdx k).flatMap fun (row, i) => elements .double (name ++ b!"_" ++ natText i) t 0 row

/-- The measurements made for a compound. -/
def _root_.Verif.Whole.Spec.Compound.items (c : Compound) : List Item :=
  match c.value with
  | .integers vs => elements .integer c.name c.tolerant 0 vs
  | .region index size => elements .integer (c.name ++ b!" Index") c.tolerant 0 index ++ elements .integer (c.name ++ b!" Size") c.tolerant 0 size
  | .numbers qs => elements .double c.name c.tolerant 0 qs
  | .matrix rows => entries c.name c.tolerant 0 rows

theorem sum_straight (v : Int) (ds : List Call) : ∀ (cs : List Call) (acc : Int), sumCalls cs acc (fun _ => straight v ds) = straight v (cs ++ ds)
  | [], _ => rfl
  | c :: cs, acc => by
    simp only [sumCalls, List.cons_append, straight]
    congr 1
    funext r
    exact sum_straight v ds cs (acc + r)

theorem integers_calls (name : Str) (t : Bool) (k : Nat) (vs : List Int) : integerLoop name t k vs = (elements .integer name t k vs).map Item.call := by
  rw [integerLoop_eq, elements, List.map_map]; rfl

theorem doubles_calls (name : Str) (t : Bool) (k : Nat) (qs : List ℚ) :
    doubleLoop name t k (qs.map fun q => doubleText (.ofRat q)) = (elements .double name t k qs).map Item.call := by
  rw [doubleLoop_eq, elements, List.map_map, List.zipIdx_map, List.map_map]; rfl

theorem matrix_calls (name : Str) (t : Bool) : ∀ (rows : List (List ℚ)) (k : Nat),
    matrixLoop name t k (rows.map fun row => row.map fun q => doubleText (.ofRat q)) = (entries name t k rows).map Item.call
  | [], _ => rfl
  | row :: rows, k => by
    have e : entries name t k (row :: rows) = elements .double (name ++ b!"_" ++ natText k) t 0 row ++ entries name t (k + 1) rows := rfl
    rw [e, List.map_append, List.map_cons, matrixLoop, doubles_calls, matrix_calls name t rows (k + 1)]
    rfl

/-- A test of compounds makes the measurements of their components, one after the other. -/
theorem test_straight : ∀ cs : List Compound, compoundTest cs = straight 0 ((cs.flatMap Compound.items).map Item.call)
  | [] => rfl
  | c :: cs => by
    rw [compoundTest, test_straight cs, List.flatMap_cons, List.map_append]
    rcases c with ⟨n, v, t⟩
    cases v with
    | integers vs => simp only [Compound.measure, Compound.items, insightIntegers, integers_calls, sum_straight]
    | region i s =>
      simp only [Compound.measure, Compound.items, insightRegion, insightIntegers, integers_calls, sum_straight, List.map_append, List.append_assoc]
    | numbers qs => simp only [Compound.measure, Compound.items, insightDoubles, doubles_calls, sum_straight]
    | matrix m => simp only [Compound.measure, Compound.items, insightMatrix, matrix_calls, sum_straight]

theorem digit_attr (c : UInt8) (h : 48 ≤ c ∧ c ≤ 57) : AttrChar c :=
  ⟨UInt8.le_trans (show (32 : UInt8) ≤ 48 by decide) h.1, UInt8.le_trans h.2 (show (57 : UInt8) ≤ 126 by decide), by rintro rfl; exact absurd h.1 (by decide), by rintro rfl; exact absurd h.1 (by decide), by rintro rfl; exact absurd h.2 (by decide)⟩

theorem elements_valid {α : Type} (mk : α → Value) (name : Str) (t : Bool) (k : Nat) (vs : List α) (hn : ∀ x ∈ name, AttrChar x) (hv : ∀ v ∈ vs, (mk v).Valid) :
    ∀ x ∈ elements mk name t k vs, x.Valid := by
  intro x hx
  obtain ⟨⟨v, i⟩, hvi, rfl⟩ := List.mem_map.mp hx
  refine ⟨by simp, ?_, hv v (List.fst_mem_of_mem_zipIdx hvi)⟩
  intro c hc
  simp only [List.mem_append] at hc
  rcases hc with (hc | hc) | hc
  · exact hn c hc
  · simp at hc; subst hc; decide
  · have hd := (natText_spec i).2.1 c hc
    exact digit_attr c hd

theorem items_valid (c : Compound) (hc : c.Valid) : ∀ x ∈ c.items, x.Valid := by
  rcases c with ⟨n, v, t⟩
  obtain ⟨h1, h2⟩ := hc
  have happ : ∀ s : Str, (∀ x ∈ s, AttrChar x) → ∀ x ∈ n ++ s, AttrChar x := by
    intro s hs x hx
    rcases List.mem_append.mp hx with hx | hx
    · exact h1 x hx
    · exact hs x hx
  cases v with
  | integers vs => exact elements_valid _ _ _ _ _ h1 h2
  | region i s =>
    intro x hx
    rcases List.mem_append.mp hx with hx | hx
    · exact elements_valid _ _ _ _ _ (happ _ (by decide)) h2.1 x hx
    · exact elements_valid _ _ _ _ _ (happ _ (by decide)) h2.2 x hx
  | numbers qs => exact elements_valid _ _ _ _ _ h1 h2
  | matrix m =>
    intro x hx
    obtain ⟨⟨row, i⟩, hr, hx⟩ := List.mem_flatMap.mp hx
    refine elements_valid _ _ _ _ _ ?_ (h2 row (List.fst_mem_of_mem_zipIdx hr)) x hx
    intro c hc
    simp only [List.mem_append] at hc
    rcases hc with (hc | hc) | hc
    · exact h1 c hc
    · simp at hc; subst hc; decide
    · have hd := (natText_spec i).2.1 c hc
      exact digit_attr c hd

theorem items_not_plain (c : Compound) : ∀ x ∈ c.items, ∀ a, x.value ≠ .plain a := by
  rcases c with ⟨n, v, t⟩
  have key : ∀ {α : Type} (mk : α → Value) (name : Str) (k : Nat) (vs : List α), (∀ v a, mk v ≠ .plain a) → ∀ x ∈ elements mk name t k vs, ∀ a, x.value ≠ .plain a := by
    intro α mk name k vs h x hx a
    obtain ⟨⟨v, i⟩, hvi, rfl⟩ := List.mem_map.mp hx
    exact h v a
  cases v with
  | integers vs => exact key _ _ _ _ (by simp)
  | region i s =>
    intro x hx
    rcases List.mem_append.mp hx with hx | hx
    · exact key _ _ _ _ (by simp) x hx
    · exact key _ _ _ _ (by simp) x hx
  | numbers qs => exact key _ _ _ _ (by simp)
  | matrix m =>
    intro x hx
    obtain ⟨⟨row, i⟩, hr, hx⟩ := List.mem_flatMap.mp hx
    exact key _ _ _ _ (by simp) x hx

theorem unlike_append (R : Item → Item → Prop) : ∀ (a b c d : List Item), a.length = b.length → unlike R (a ++ c) (b ++ d) = unlike R a b + unlike R c d
  | [], [], c, d, _ => by
    have : unlike R [] [] = 0 := by simp [unlike]
    simp [this]
  | x :: a, y :: b, c, d, h => by
    simp only [List.cons_append, unlike]
    rw [unlike_append R a b c d (by simpa using h), Nat.add_assoc]
  | [], _ :: _, _, _, h => by simp at h
  | _ :: _, [], _, _, h => by simp at h

/-- Only whether the names are the same matters. -/
def Nameless (R : Item → Item → Prop) : Prop := ∀ n u v s t, R ⟨n, u, s⟩ ⟨n, v, t⟩ ↔ R ⟨[], u, s⟩ ⟨[], v, t⟩

theorem must_nameless (tol : ℚ) : Nameless (MustPass tol) := by
  intro n u v s t; simp [MustPass]

theorem may_nameless (tol : ℚ) : Nameless (MayPass tol) := by
  intro n u v s t; simp [MayPass]

theorem unlike_elements {α : Type} (R : Item → Item → Prop) (hR : Nameless R) (mk : α → Value) (name : Str) (t : Bool) : ∀ (us vs : List α) (k : Nat), us.length = vs.length →
    unlike R (elements mk name t k us) (elements mk name t k vs) = misses (fun u v => R ⟨[], mk u, t⟩ ⟨[], mk v, t⟩) us vs
  | [], [], _, _ => by simp [elements, unlike, misses]
  | u :: us, v :: vs, k, h => by
    have ih := unlike_elements R hR mk name t us vs (k + 1) (by simpa using h)
    have e : ∀ x (xs : List α), elements mk name t k (x :: xs) = ⟨name ++ b!"_" ++ natText k, mk x, t⟩ :: elements mk name t (k + 1) xs := fun _ _ => rfl
    rw [e, e, unlike, ih]
    have hr' := hR (name ++ b!"_" ++ natText k) (mk u) (mk v) t t
    simp only [misses, List.zip_cons_cons, List.filter_cons]
    by_cases hr : R ⟨[], mk u, t⟩ ⟨[], mk v, t⟩
    · rw [if_pos (hr'.mpr hr)]; simp [hr]
    · rw [if_neg (fun h => hr (hr'.mp h))]; simp [hr, Nat.add_comm]
  | [], _ :: _, _, h => by simp at h
  | _ :: _, [], _, h => by simp at h

theorem elements_length {α : Type} (mk : α → Value) (name : Str) (t : Bool) (k : Nat) (vs : List α) : (elements mk name t k vs).length = vs.length := by
  simp [elements]

theorem unlike_entries (R : Item → Item → Prop) (hR : Nameless R) (name : Str) (t : Bool) : ∀ (m m' : List (List ℚ)) (k : Nat), m.map List.length = m'.map List.length →
    (entries name t k m).length = (entries name t k m').length ∧
    unlike R (entries name t k m) (entries name t k m') = ((m.zip m').map fun p => misses (SameNumber R t) p.1 p.2).sum
  | [], [], _, _ => by simp [entries, unlike]
  | r :: m, r' :: m', k, h => by
    simp only [List.map_cons, List.cons.injEq] at h
    obtain ⟨i1, i2⟩ := unlike_entries R hR name t m m' (k + 1) h.2
    have e : ∀ r m, entries name t k (r :: m) = elements .double (name ++ b!"_" ++ natText k) t 0 r ++ entries name t (k + 1) m := fun _ _ => rfl
    rw [e, e]
    refine ⟨by simp only [List.length_append, elements_length, h.1, i1], ?_⟩
    rw [unlike_append _ _ _ _ _ (by simp only [elements_length, h.1]), unlike_elements R hR _ _ _ _ _ _ h.1, i2]
    rfl
  | [], _ :: _, _, h => by simp at h
  | _ :: _, [], _, h => by simp at h

theorem unlike_items (R : Item → Item → Prop) (hR : Nameless R) (c d : Compound) (h : SameShape c d) :
    c.items.length = d.items.length ∧ unlike R c.items d.items = differences R c d := by
  rcases c with ⟨n, v, t⟩
  rcases d with ⟨n', v', t'⟩
  obtain ⟨h1, h2, h3⟩ := h
  simp only at h1 h2 h3
  subst h1 h2
  cases v <;> cases v' <;> simp only at h3
  · exact ⟨by simp only [Compound.items, elements_length, h3], unlike_elements R hR _ _ _ _ _ _ h3⟩
  · refine ⟨by simp only [Compound.items, List.length_append, elements_length, h3.1, h3.2], ?_⟩
    simp only [Compound.items]
    rw [unlike_append _ _ _ _ _ (by simp only [elements_length, h3.1]), unlike_elements R hR _ _ _ _ _ _ h3.1, unlike_elements R hR _ _ _ _ _ _ h3.2]
    rfl
  · exact ⟨by simp only [Compound.items, elements_length, h3], unlike_elements R hR _ _ _ _ _ _ h3⟩
  · exact unlike_entries R hR _ _ _ _ _ h3

theorem unlike_compounds (R : Item → Item → Prop) (hR : Nameless R) (cs ds : List Compound) (h : List.Forall₂ SameShape cs ds) :
    unlike R (cs.flatMap Compound.items) (ds.flatMap Compound.items) = ((cs.zip ds).map fun p => differences R p.1 p.2).sum := by
  induction h with
  | nil => simp [unlike]
  | cons h _ ih =>
    obtain ⟨h1, h2⟩ := unlike_items R hR _ _ h
    rw [List.flatMap_cons, List.flatMap_cons, unlike_append _ _ _ _ _ h1, h2, ih]
    rfl

/-- **C114.** Record a test of sizes, indices, regions, points, vectors, arrays and matrices; keep the document at a place with an absolute name; and run the test again, with other values in the same
places.  With a tolerance between 0 and 1, `Main` of the second run returns at most the number of components that need not be accepted, and at least the number of those that must not be, where components
count as single measurements do (C89). -/
theorem C114_compounds (X : Expat) (hX : Conforms X) (mem : (Int → Nat) × (Int → Nat)) (steps : Nat) (cs ds : List Compound) (hc : ∀ c ∈ cs, c.Valid) (hd : ∀ d ∈ ds, d.Valid)
    (hshape : List.Forall₂ SameShape cs ds) (tol tol' : ℚ) (h0 : 0 ≤ tol') (h1 : tol' ≤ 1) (fuel : Nat) (hfuel : 1 < fuel) (dataDir dataDir' : Str) (more more' : List Str) (hstop : Stops more) (hstop' : Stops more')
    (prog f prog' f' : Str) (w w2 : World) (hw : Comment (commentText w)) (hf : f ≠ []) (hcreate : w.creatable (cstr f) = true)
    (hnew : w.fs.stat (cstr f) = none ∨ (w.fs.canRead (cstr f) = true ∧ w.fs.canWrite (cstr f) = true))
    (w1 : World) (hw1 : (main (whole X mem steps) (fun _ => compoundTest cs) fuel (prog :: b!"-O" :: f :: more) ⟨{ itkObject dataDir with tolerance := tol }, w⟩).1.world = w1)
    (habs : Absolute f') (hdoc : isFile w2.fs f' = true ∧ isReadable w2.fs f' = true ∧ w2.openRead f' = w1.openRead f) :
    (main (whole X mem steps) (fun _ => compoundTest cs) fuel (prog :: b!"-O" :: f :: more) ⟨{ itkObject dataDir with tolerance := tol }, w⟩).2 = .ok 0 ∧
    ∃ n : Nat, (main (whole X mem steps) (fun _ => compoundTest ds) fuel (prog' :: b!"-I" :: f' :: more') ⟨{ itkObject dataDir' with tolerance := tol' }, w2⟩).2 = .ok n ∧
      ((cs.zip ds).map fun p => differences (MayPass tol') p.1 p.2).sum ≤ n ∧ n ≤ ((cs.zip ds).map fun p => differences (MustPass tol') p.1 p.2).sum := by
  have hobj : ∀ d t, ({ itkObject d with tolerance := t } : Obj) = { tolerance := t, searchPath := [d] } := fun _ _ => rfl
  have hf' : f' ≠ [] := by
    obtain ⟨r, rfl⟩ := habs
    simp
  rw [hobj] at hw1 ⊢
  rw [hobj, test_straight, test_straight] at *
  obtain ⟨g1, -, n, g2, g3, g4⟩ := record_compare_at X hX mem steps (cs.flatMap Compound.items) (ds.flatMap Compound.items)
    (fun x hx => by obtain ⟨c, h1, h2⟩ := List.mem_flatMap.mp hx; exact items_valid c (hc c h1) x h2)
    (fun x hx => by obtain ⟨c, h1, h2⟩ := List.mem_flatMap.mp hx; exact items_valid c (hd c h1) x h2)
    (fun x hx y _ a b ha => by obtain ⟨c, h1, h2⟩ := List.mem_flatMap.mp hx; exact absurd ha (items_not_plain c x h2 a))
    tol tol' h0 h1 fuel hfuel [dataDir] more [dataDir'] more' hstop hstop' prog f prog' f' w w2 hw hf hf' hcreate hnew w1 hw1 hdoc
    (by rw [search_absolute w2.fs f' dataDir' habs]; exact if_neg hf')
  rw [unlike_compounds _ (may_nameless tol') _ _ hshape] at g3
  rw [unlike_compounds _ (must_nameless tol') _ _ hshape] at g4
  exact ⟨g1, n, g2, g3, g4⟩

theorem misses_zero {α : Type} (us vs : List α) (h : us.length = vs.length) : misses (fun u v => u = v) us vs = 0 ↔ us = vs := by
  induction us generalizing vs with
  | nil => cases vs <;> simp [misses] at h ⊢
  | cons u us ih =>
    cases vs with
    | nil => simp at h
    | cons v vs =>
      have := ih vs (by simpa using h)
      simp only [misses, List.zip_cons_cons, List.filter_cons] at this ⊢
      by_cases he : u = v
      · simpa [he] using this
      · simp [he]

theorem exact_integer (R : Item → Item → Prop) (hR : ∀ u v, R ⟨[], .integer u, false⟩ ⟨[], .integer v, false⟩ ↔ u = v) (c d : Compound) (h : SameShape c d) (hd : Exact d) :
    differences R c d = differences Eq c d := by
  rcases c with ⟨n, v, t⟩
  rcases d with ⟨n', v', t'⟩
  obtain ⟨h1, h2⟩ := hd
  simp only at h1 h2
  subst h1
  have e : SameInteger R false = SameInteger Eq false := by
    funext u v; rw [SameInteger, SameInteger, hR]; simp
  rcases h2 with ⟨vs, rfl⟩ | ⟨i, s, rfl⟩ <;> cases v <;> simp [differences, e]

theorem exact_zero (c d : Compound) (h : SameShape c d) (hd : Exact d) : differences Eq c d = 0 ↔ c.value = d.value := by
  rcases c with ⟨n, v, t⟩
  rcases d with ⟨n', v', t'⟩
  obtain ⟨h1, h2⟩ := hd
  obtain ⟨-, -, h3⟩ := h
  simp only at h1 h2 h3
  subst h1
  have e : SameInteger Eq false = fun u v => u = v := by
    funext u v; rw [SameInteger]; simp
  rcases h2 with ⟨vs, rfl⟩ | ⟨i, s, rfl⟩ <;> cases v <;> simp only at h3
  · simp only [differences, e, misses_zero _ _ h3, CompoundValue.integers.injEq]
  · simp only [differences, e, Nat.add_eq_zero_iff, misses_zero _ _ h3.1, misses_zero _ _ h3.2, CompoundValue.region.injEq]

/-- **C114.** Sizes, indices and regions are compared exactly by default: whatever the tolerance, `Main` returns the number of components that are different, and so 0 exactly when all are the same. -/
theorem C114_regions (X : Expat) (hX : Conforms X) (mem : (Int → Nat) × (Int → Nat)) (steps : Nat) (cs ds : List Compound) (hc : ∀ c ∈ cs, c.Valid) (hd : ∀ d ∈ ds, d.Valid ∧ Exact d)
    (hshape : List.Forall₂ SameShape cs ds) (tol tol' : ℚ) (h0 : 0 ≤ tol') (h1 : tol' ≤ 1) (fuel : Nat) (hfuel : 1 < fuel) (dataDir dataDir' : Str) (more more' : List Str) (hstop : Stops more) (hstop' : Stops more')
    (prog f prog' f' : Str) (w w2 : World) (hw : Comment (commentText w)) (hf : f ≠ []) (hcreate : w.creatable (cstr f) = true)
    (hnew : w.fs.stat (cstr f) = none ∨ (w.fs.canRead (cstr f) = true ∧ w.fs.canWrite (cstr f) = true))
    (w1 : World) (hw1 : (main (whole X mem steps) (fun _ => compoundTest cs) fuel (prog :: b!"-O" :: f :: more) ⟨{ itkObject dataDir with tolerance := tol }, w⟩).1.world = w1)
    (habs : Absolute f') (hdoc : isFile w2.fs f' = true ∧ isReadable w2.fs f' = true ∧ w2.openRead f' = w1.openRead f) :
    (main (whole X mem steps) (fun _ => compoundTest ds) fuel (prog' :: b!"-I" :: f' :: more') ⟨{ itkObject dataDir' with tolerance := tol' }, w2⟩).2 =
      .ok ((((cs.zip ds).map fun p => differences Eq p.1 p.2).sum : Nat) : Int) ∧
    ((main (whole X mem steps) (fun _ => compoundTest ds) fuel (prog' :: b!"-I" :: f' :: more') ⟨{ itkObject dataDir' with tolerance := tol' }, w2⟩).2 = .ok 0 ↔
      cs.map (·.value) = ds.map (·.value)) := by
  obtain ⟨-, n, g1, g2, g3⟩ := C114_compounds X hX mem steps cs ds hc (fun d h => (hd d h).1) hshape tol tol' h0 h1 fuel hfuel dataDir dataDir' more more' hstop hstop' prog f prog' f' w w2 hw hf hcreate hnew
    w1 hw1 habs hdoc
  have key : ∀ R : Item → Item → Prop, (∀ u v, R ⟨[], .integer u, false⟩ ⟨[], .integer v, false⟩ ↔ u = v) →
      (cs.zip ds).map (fun p => differences R p.1 p.2) = (cs.zip ds).map fun p => differences Eq p.1 p.2 := by
    intro R hR
    apply List.map_congr_left
    intro p hp
    exact exact_integer R hR _ _ (List.forall₂_zip hshape hp) (hd _ (List.of_mem_zip hp).2).2
  rw [key _ (by intro u v; simp [MayPass])] at g2
  rw [key _ (by intro u v; simp [MustPass])] at g3
  have hn : n = ((cs.zip ds).map fun p => differences Eq p.1 p.2).sum := by omega
  rw [g1, hn]
  refine ⟨rfl, ?_⟩
  have hz : ((cs.zip ds).map fun p => differences Eq p.1 p.2).sum = 0 ↔ cs.map (·.value) = ds.map (·.value) := by
    clear * - hshape hd
    induction hshape with
    | nil => simp
    | @cons c d cs ds h _ ih =>
      rw [List.zip_cons_cons, List.map_cons, List.sum_cons, Nat.add_eq_zero_iff, exact_zero c d h (hd d (by simp)).2, ih (fun x hx => hd x (by simp [hx]))]
      simp
  rw [← hz]
  constructor
  · intro h
    injection h with h
    omega
  · intro h
    rw [h]; rfl

/-- **C114.** Integers are cut to 32 bits: two tests whose integers are the same up to multiples of 2^32 cannot be told apart by anything `Main` does, whether it records or compares. -/
theorem C114_wraps (env : Env) (cs ds : List Compound) (h : List.Forall₂ Wrapped cs ds) (fuel : Nat) (argv : List Str) (s : St) :
    main env (fun _ => compoundTest cs) fuel argv s = main env (fun _ => compoundTest ds) fuel argv s := by
  have hint : ∀ u v : Int, (∃ k : Int, u = v + k * 2 ^ 32) → longToInt u = longToInt v := by
    rintro u v ⟨k, rfl⟩
    simp only [longToInt]
    omega
  have hcall : ∀ (s : St) (u v : Int) (n : Str) (t : Bool), (∃ k : Int, u = v + k * 2 ^ 32) → runCall env s (.integer u n t) = runCall env s (.integer v n t) := by
    intro s u v n t hk
    have := hint u v hk
    simp only [runCall, Call.meas, Call.tolerant, Call.recorded, this]
  have hloop : ∀ (us vs : List Int), List.Forall₂ (fun u v : Int => ∃ k : Int, u = v + k * 2 ^ 32) us vs → ∀ (n : Str) (t : Bool) (i : Nat) (acc : Int) (k k' : Int → Prog),
      (∀ r s, runProg env (k r) s = runProg env (k' r) s) → ∀ s, runProg env (sumCalls (integerLoop n t i us) acc k) s = runProg env (sumCalls (integerLoop n t i vs) acc k') s := by
    intro us vs h
    induction h with
    | nil => intro n t i acc k k' hk s; exact hk acc s
    | cons h _ ih =>
      intro n t i acc k k' hk s
      simp only [integerLoop, sumCalls, runProg, hcall _ _ _ _ _ h]
      rcases runCall env s _ with ⟨s', f | r⟩
      · rfl
      · exact ih n t (i + 1) (acc + r) k k' hk s'
  have hsame : ∀ (l : List Call) (acc : Int) (k k' : Int → Prog), (∀ r s, runProg env (k r) s = runProg env (k' r) s) → ∀ s, runProg env (sumCalls l acc k) s = runProg env (sumCalls l acc k') s := by
    intro l
    induction l with
    | nil => intro acc k k' hk s; exact hk acc s
    | cons c l ih =>
      intro acc k k' hk s
      simp only [sumCalls, runProg]
      rcases runCall env s c with ⟨s', f | r⟩
      · rfl
      · exact ih (acc + r) k k' hk s'
  have hrun : ∀ s, runProg env (compoundTest cs) s = runProg env (compoundTest ds) s := by
    induction h with
    | nil => intro s; rfl
    | @cons c d cs ds h _ ih =>
      rcases c with ⟨n, v, t⟩
      rcases d with ⟨n', v', t'⟩
      obtain ⟨h1, h2, h3⟩ := h
      simp only at h1 h2 h3
      subst h1 h2
      intro s
      cases v <;> cases v' <;> simp only at h3
      · exact hloop _ _ h3 _ _ _ _ _ _ (fun _ s => ih s) s
      · exact hloop _ _ h3.1 _ _ _ _ _ _ (fun a s => hloop _ _ h3.2 _ _ _ _ _ _ (fun _ s => ih s) s) s
      · subst h3; exact hsame _ _ _ _ (fun _ s => ih s) s
      · subst h3; exact hsame _ _ _ _ (fun _ s => ih s) s
  simp only [main, tryBlock, hrun]

end Verif.Whole
