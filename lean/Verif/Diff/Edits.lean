import Verif.Diff.Refine

/-!
# `GenerateEditList` computes an edit script
-/

set_option linter.unusedVariables false
set_option linter.unusedSectionVars false
set_option linter.unusedSimpArgs false
set_option maxHeartbeats 1000000

namespace Verif.Diff

/-- From `(x, y)` to `(x', y')` along equal lines. -/
def Gap {α : Type} (X Y : Int → α) (x y x' y' : Int) : Prop :=
  x ≤ x' ∧ x' - x = y' - y ∧ ∀ i, 0 ≤ i → i < x' - x → X (x + i) = Y (y + i)

/-- The edits, with equal lines between them, lead from `(x, y)` to `(xe, ye)`. -/
def Script {α : Type} (X Y : Int → α) (xe ye : Int) : Int → Int → List Edit → Prop
  | x, y, [] => Gap X Y x y xe ye
  | x, y, e :: es => Gap X Y x y e.line0 e.line1 ∧ 0 ≤ e.inserted ∧ 0 ≤ e.deleted ∧ 0 < e.inserted + e.deleted ∧
      Script X Y xe ye (e.line0 + e.deleted) (e.line1 + e.inserted) es

/-- Between two edits there is a line that is kept. -/
def Separated : List Edit → Prop
  | e :: f :: es => e.line0 + e.deleted < f.line0 ∧ Separated (f :: es)
  | _ => True

section
variable {α : Type} (X Y : Int → α)

theorem Gap.trans {x y x' y' x'' y'' : Int} (h : Gap X Y x y x' y') (g : Gap X Y x' y' x'' y'') : Gap X Y x y x'' y'' := by
  obtain ⟨h1, h2, h3⟩ := h
  obtain ⟨g1, g2, g3⟩ := g
  refine ⟨by omega, by omega, fun i i1 i2 => ?_⟩
  by_cases hi : i < x' - x
  · exact h3 i i1 hi
  · have := g3 (i - (x' - x)) (by omega) (by omega)
    rw [show x' + (i - (x' - x)) = x + i by omega, show y' + (i - (x' - x)) = y + i by omega] at this
    exact this

theorem Gap.refl (x y : Int) : Gap X Y x y x y := ⟨by omega, by omega, fun i i1 i2 => by omega⟩

theorem Script.gap_left {xe ye x y x' y' : Int} (es : List Edit) (h : Gap X Y x y x' y') (g : Script X Y xe ye x' y' es) : Script X Y xe ye x y es := by
  cases es with
  | nil => exact Gap.trans X Y h g
  | cons e es => exact ⟨Gap.trans X Y h g.1, g.2⟩

theorem Script.append {x1 y1 x2 y2 xe ye : Int} (l2 : List Edit) (hg : Gap X Y x1 y1 x2 y2) (h2 : Script X Y xe ye x2 y2 l2) :
    ∀ (l1 : List Edit) (x y : Int), Script X Y x1 y1 x y l1 → Script X Y xe ye x y (l1 ++ l2) := by
  intro l1
  induction l1 with
  | nil => intro x y h; exact Script.gap_left X Y l2 (Gap.trans X Y h hg) h2
  | cons e es ih => intro x y h; exact ⟨h.1, h.2.1, h.2.2.1, h.2.2.2.1, ih _ _ h.2.2.2.2⟩

theorem Separated.append : ∀ (l1 l2 : List Edit), Separated l1 → Separated l2 →
    (∀ e f, l1.getLast? = some e → l2.head? = some f → e.line0 + e.deleted < f.line0) → Separated (l1 ++ l2) := by
  intro l1
  induction l1 with
  | nil => intro l2 _ h2 _; exact h2
  | cons a l1 ih =>
    intro l2 h1 h2 h3
    cases l1 with
    | nil =>
      cases l2 with
      | nil => trivial
      | cons f l2 => exact ⟨h3 a f rfl rfl, h2⟩
    | cons c l1 =>
      refine ⟨h1.1, ih l2 h1.2 h2 (fun e f he hf => h3 e f ?_ hf)⟩
      rw [List.getLast?_cons_cons]; exact he

/-- What is known about the end of a script. -/
theorem Script.last {xe ye : Int} : ∀ (l : List Edit) (x y : Int) (e : Edit), Script X Y xe ye x y l → l.getLast? = some e →
    Gap X Y (e.line0 + e.deleted) (e.line1 + e.inserted) xe ye := by
  intro l
  induction l with
  | nil => intro x y e h he; cases he
  | cons a l ih =>
    intro x y e h he
    cases l with
    | nil =>
      simp only [List.getLast?_singleton, Option.some.injEq] at he
      subst he
      exact h.2.2.2.2
    | cons c l =>
      rw [List.getLast?_cons_cons] at he
      exact ih _ _ e h.2.2.2.2 he

theorem Script.dropLast {xe ye : Int} (e : Edit) : ∀ (l : List Edit) (x y : Int), Script X Y xe ye x y (l ++ [e]) →
    ∃ x' y', Script X Y x' y' x y l ∧ Gap X Y x' y' e.line0 e.line1 ∧ 0 ≤ e.inserted ∧ 0 ≤ e.deleted ∧ 0 < e.inserted + e.deleted := by
  intro l
  induction l with
  | nil => intro x y h; exact ⟨x, y, Gap.refl X Y x y, h.1, h.2.1, h.2.2.1, h.2.2.2.1⟩
  | cons a l ih =>
    intro x y h
    obtain ⟨x', y', h1, h2⟩ := ih _ _ h.2.2.2.2
    exact ⟨x', y', ⟨h.1, h.2.1, h.2.2.1, h.2.2.2.1, h1⟩, h2⟩

theorem Separated.left : ∀ (l1 l2 : List Edit), Separated (l1 ++ l2) → Separated l1 := by
  intro l1
  induction l1 with
  | nil => intro _ _; trivial
  | cons a l1 ih =>
    intro l2 h
    cases l1 with
    | nil => trivial
    | cons c l1 => exact ⟨h.1, ih l2 h.2⟩

theorem Separated.right : ∀ (l1 l2 : List Edit), Separated (l1 ++ l2) → Separated l2 := by
  intro l1
  induction l1 with
  | nil => intro _ h; exact h
  | cons a l1 ih =>
    intro l2 h
    cases l1 with
    | nil => cases l2 with
      | nil => trivial
      | cons f l2 => exact h.2
    | cons c l1 => exact ih l2 h.2

theorem Separated.mid : ∀ (l1 : List Edit) (e : Edit) (d : Edit), Separated (l1 ++ [e]) → l1.getLast? = some d → d.line0 + d.deleted < e.line0 := by
  intro l1
  induction l1 with
  | nil => intro e d _ h; cases h
  | cons a l1 ih =>
    intro e d h hd
    cases l1 with
    | nil =>
      simp only [List.getLast?_singleton, Option.some.injEq] at hd
      subst hd
      exact h.1
    | cons c l1 =>
      rw [List.getLast?_cons_cons] at hd
      exact ih e d h.2 hd

theorem joinEdits_ok {xb yb x1 y1 x2 y2 xe ye : Int} (l1 l2 : List Edit) (n1 : l1 ≠ []) (n2 : l2 ≠ []) (h1 : Script X Y x1 y1 xb yb l1)
    (hg : Gap X Y x1 y1 x2 y2) (h2 : Script X Y xe ye x2 y2 l2) (s1 : Separated l1) (s2 : Separated l2) :
    ∃ l, joinEdits l1 l2 = .ok l ∧ l ≠ [] ∧ Script X Y xe ye xb yb l ∧ Separated l := by
  obtain ⟨i, e, rfl⟩ : ∃ i e, l1 = i ++ [e] := ⟨l1.dropLast, l1.getLast n1, (List.dropLast_concat_getLast n1).symm⟩
  obtain ⟨f, r, rfl⟩ : ∃ f r, l2 = f :: r := List.exists_cons_of_ne_nil n2
  have glast : (i ++ [e]).getLast? = some e := by simp
  have tail := Script.last X Y _ _ _ e h1 glast
  have g2 := h2.1
  have bridge := Gap.trans X Y (Gap.trans X Y tail hg) g2
  simp only [joinEdits, glast, List.dropLast_concat]
  by_cases hc : e.line0 + e.deleted = f.line0 ∧ e.line1 + e.inserted = f.line1
  · rw [if_pos hc]
    refine ⟨_, rfl, by simp, ?_, ?_⟩
    · obtain ⟨x', y', d1, d2, d3, d4, d5⟩ := Script.dropLast X Y e i xb yb h1
      refine Script.append X Y _ d2 ?_ i xb yb d1
      refine ⟨Gap.refl X Y _ _, ?_, ?_, ?_, ?_⟩
      · have := h2.2.1; simp only; omega
      · have := h2.2.2.1; simp only; omega
      · have := h2.2.2.2.1; simp only; omega
      · have := h2.2.2.2.2
        simp only
        rw [show e.line0 + (e.deleted + f.deleted) = f.line0 + f.deleted by omega,
          show e.line1 + (e.inserted + f.inserted) = f.line1 + f.inserted by omega]
        exact this
    · refine Separated.append _ _ (Separated.left i [e] s1) ?_ ?_
      · cases r with
        | nil => trivial
        | cons a r =>
          refine ⟨?_, s2.2⟩
          have := s2.1
          simp only
          omega
      · intro d f' hd hf'
        simp only [List.head?_cons, Option.some.injEq] at hf'
        subst hf'
        exact Separated.mid i e d s1 hd
  · rw [if_neg hc]
    refine ⟨_, rfl, by simp, Script.append X Y _ hg h2 _ _ _ h1, Separated.append _ _ s1 s2 ?_⟩
    intro d f' hd hf'
    rw [glast] at hd
    simp only [List.head?_cons, Option.some.injEq] at hf' hd
    subst hf' hd
    obtain ⟨b1, b2, -⟩ := bridge
    omega

end

theorem eatBack_ok (X Y : List Nat) (b : Box) (hI : b.Inside X Y) : ∀ (steps : Nat) (x y : Int), b.xb ≤ x → x ≤ b.xe → b.yb ≤ y → y ≤ b.ye → x - b.xb < steps →
    ∃ x' y', eatBack X Y b steps x y = .ok (x', y') ∧ b.xb ≤ x' ∧ b.yb ≤ y' ∧ Gap (lineAt X) (lineAt Y) x' y' x y ∧
      ¬ (b.xb < x' ∧ b.yb < y' ∧ lineAt X (x' - 1) = lineAt Y (y' - 1)) := by
  obtain ⟨i1, i2, i3, i4⟩ := hI
  intro steps
  induction steps with
  | zero => intro x y h1 h2 h3 h4 h5; omega
  | succ steps ih =>
    intro x y h1 h2 h3 h4 h5
    rw [eatBack]
    by_cases hc : x ≠ b.xb ∧ y ≠ b.yb
    · rw [if_pos hc, readLine_ok X (x - 1) (by omega) (by omega), readLine_ok Y (y - 1) (by omega) (by omega)]
      simp only
      by_cases he : lineAt X (x - 1) = lineAt Y (y - 1)
      · rw [if_pos he]
        obtain ⟨x', y', q1, q2, q3, q4, q5⟩ := ih (x - 1) (y - 1) (by omega) (by omega) (by omega) (by omega) (by omega)
        refine ⟨x', y', q1, q2, q3, Gap.trans _ _ q4 ⟨by omega, by omega, fun i j1 j2 => ?_⟩, q5⟩
        have : i = 0 := by omega
        subst this
        simpa using he
      · rw [if_neg he]
        exact ⟨x, y, rfl, h1, h3, Gap.refl _ _ x y, fun h => he h.2.2⟩
    · rw [if_neg hc]
      exact ⟨x, y, rfl, h1, h3, Gap.refl _ _ x y, fun h => by omega⟩

theorem eatForward_ok (X Y : List Nat) (b : Box) (hI : b.Inside X Y) : ∀ (steps : Nat) (x y : Int), b.xb ≤ x → x ≤ b.xe → b.yb ≤ y → y ≤ b.ye → b.xe - x < steps →
    ∃ x' y', eatForward X Y b steps x y = .ok (x', y') ∧ x' ≤ b.xe ∧ y' ≤ b.ye ∧ Gap (lineAt X) (lineAt Y) x y x' y' ∧
      ¬ (x' < b.xe ∧ y' < b.ye ∧ lineAt X x' = lineAt Y y') := by
  obtain ⟨i1, i2, i3, i4⟩ := hI
  intro steps
  induction steps with
  | zero => intro x y h1 h2 h3 h4 h5; omega
  | succ steps ih =>
    intro x y h1 h2 h3 h4 h5
    rw [eatForward]
    by_cases hc : x ≠ b.xe ∧ y ≠ b.ye
    · rw [if_pos hc, readLine_ok X x (by omega) (by omega), readLine_ok Y y (by omega) (by omega)]
      simp only
      by_cases he : lineAt X x = lineAt Y y
      · rw [if_pos he]
        obtain ⟨x', y', q1, q2, q3, q4, q5⟩ := ih (x + 1) (y + 1) (by omega) (by omega) (by omega) (by omega) (by omega)
        refine ⟨x', y', q1, q2, q3, Gap.trans _ _ ⟨by omega, by omega, fun i j1 j2 => ?_⟩ q4, q5⟩
        have : i = 0 := by omega
        subst this
        simpa using he
      · rw [if_neg he]
        exact ⟨x, y, rfl, h2, h4, Gap.refl _ _ x y, fun h => he h.2.2⟩
    · rw [if_neg hc]
      exact ⟨x, y, rfl, h2, h4, Gap.refl _ _ x y, fun h => by omega⟩

/-- The reads that do not look at the bounds get something: outside the arrays there is readable memory, or the box is away from the
ends of the arrays. -/
def Readable (X Y : List Nat) (b : Box) (ox oy : Option (Int → Nat)) : Prop :=
  (ox.isSome ∧ oy.isSome) ∨ (1 ≤ b.xb ∧ 1 ≤ b.yb ∧ b.xe < X.length ∧ b.ye < Y.length)

theorem peek_in (X : List Nat) (o : Option (Int → Nat)) (i : Int) (h1 : 0 ≤ i) (h2 : i < X.length) : (Ids.mk X o).peek i = .ok (lineAt X i) := by
  rw [Ids.peek, if_pos ⟨h1, h2⟩]; rfl

theorem peek_any (X : List Nat) (o : Option (Int → Nat)) (i : Int) (h : o.isSome ∨ (0 ≤ i ∧ i < X.length)) : ∃ u, (Ids.mk X o).peek i = .ok u := by
  by_cases hi : 0 ≤ i ∧ i < X.length
  · exact ⟨_, peek_in X o i hi.1 hi.2⟩
  · rw [Ids.peek, if_neg hi]
    cases o with
    | none => rcases h with h | h
              · cases h
              · exact absurd h hi
    | some f => exact ⟨f i, rfl⟩

/-- The box neither begins nor ends with equal lines. -/
def Box.NoSnake (b : Box) (X Y : List Nat) : Prop :=
  b.xb < b.xe → b.yb < b.ye → lineAt X b.xb ≠ lineAt Y b.yb ∧ lineAt X (b.xe - 1) ≠ lineAt Y (b.ye - 1)

theorem Readable.peek {X Y : List Nat} {b : Box} {ox oy : Option (Int → Nat)} (h : Readable X Y b ox oy) (i j : Int) (h1 : b.xb - 1 ≤ i) (h2 : i ≤ b.xe)
    (h3 : b.yb - 1 ≤ j) (h4 : j ≤ b.ye) : (∃ u, (Ids.mk X ox).peek i = .ok u) ∧ ∃ v, (Ids.mk Y oy).peek j = .ok v := by
  rcases h with ⟨a, c⟩ | ⟨a, c, d, e⟩
  · exact ⟨peek_any X ox i (Or.inl a), peek_any Y oy j (Or.inl c)⟩
  · exact ⟨peek_any X ox i (Or.inr (by omega)), peek_any Y oy j (Or.inr (by omega))⟩

theorem checkBox_ok (X Y : List Nat) (ox oy : Option (Int → Nat)) (b : Box) (hr : Readable X Y b ox oy) (hI : b.Inside X Y) (hx : b.xb ≤ b.xe) (hy : b.yb ≤ b.ye)
    (h : 1 ≤ (b.xe - b.xb) + (b.ye - b.yb)) (hns : b.NoSnake X Y) : checkBox ⟨X, ox⟩ ⟨Y, oy⟩ b = .ok () := by
  obtain ⟨i1, i2, i3, i4⟩ := hI
  rw [checkBox, if_pos (by omega)]
  by_cases hz : b.xe - b.xb = 0 ∨ b.ye - b.yb = 0
  · obtain ⟨⟨u, hu⟩, v, hv⟩ := hr.peek b.xb b.yb (by omega) (by omega) (by omega) (by omega)
    obtain ⟨⟨u', hu'⟩, v', hv'⟩ := hr.peek (b.xe - 1) (b.ye - 1) (by omega) (by omega) (by omega) (by omega)
    simp only [hu, hv, hu', hv', bind, Except.bind]
    rw [if_pos (Or.inr hz), if_pos (Or.inr hz)]
  · obtain ⟨n1, n2⟩ := hns (by omega) (by omega)
    rw [peek_in X ox b.xb (by omega) (by omega), peek_in Y oy b.yb (by omega) (by omega), peek_in X ox (b.xe - 1) (by omega) (by omega),
      peek_in Y oy (b.ye - 1) (by omega) (by omega)]
    simp only [bind, Except.bind]
    rw [if_pos (Or.inl n1), if_pos (Or.inl n2)]

/-- What holds of a box when `GenerateEditList` is called. -/
structure Ready (X Y : List Nat) (steps : Nat) (S : Int) (depth : Nat) (b : Box) : Prop where
  inside : b.Inside X Y
  hx : b.xb ≤ b.xe
  hy : b.yb ≤ b.ye
  pos : 1 ≤ (b.xe - b.xb) + (b.ye - b.yb)
  dep : (b.xe - b.xb) + (b.ye - b.yb) ≤ depth
  size : 2 * ((b.xe - b.xb) + (b.ye - b.yb)) + 6 ≤ S
  steps : 3 * ((b.xe - b.xb) + (b.ye - b.yb)) + 4 ≤ steps
  len : 6 * ((b.xe - b.xb) + (b.ye - b.yb)) + 8 < 4294967296
  noSnake : b.NoSnake X Y

theorem Ready.upper {X Y : List Nat} {steps : Nat} {S : Int} {depth : Nat} {b : Box} (h : Ready X Y steps S (depth + 1) b) (x y : Int)
    (h1 : b.xb ≤ x) (h2 : x ≤ b.xe) (h3 : b.yb ≤ y) (h4 : y ≤ b.ye) (h5 : ¬ (x = b.xb ∧ y = b.yb)) (h6 : ¬ (x = b.xe ∧ y = b.ye))
    (hs : ¬ (x < b.xe ∧ y < b.ye ∧ lineAt X x = lineAt Y y)) : Ready X Y steps S depth ⟨x, b.xe, y, b.ye⟩ := by
  obtain ⟨⟨a1, a2, a3, a4⟩, a5, a6, a7, a8, a9, a10, a11, a12⟩ := h
  refine ⟨⟨by simp only; omega, by simp only; omega, a3, a4⟩, h2, h4, ?_, ?_, ?_, ?_, ?_, fun q1 q2 => ⟨fun q => hs ⟨q1, q2, q⟩, ?_⟩⟩
  · clear a8 a9 a10 a11; simp only; omega
  · clear a9 a10 a11; simp only; push_cast at a8; omega
  · clear a8 a10 a11; simp only; omega
  · clear a8 a9 a11; simp only; omega
  · clear a8 a9 a10; simp only; omega
  · exact (a12 (by simp only at q1; omega) (by simp only at q2; omega)).2

theorem Ready.lower {X Y : List Nat} {steps : Nat} {S : Int} {depth : Nat} {b : Box} (h : Ready X Y steps S (depth + 1) b) (x y : Int)
    (h1 : b.xb ≤ x) (h2 : x ≤ b.xe) (h3 : b.yb ≤ y) (h4 : y ≤ b.ye) (h5 : ¬ (x = b.xb ∧ y = b.yb)) (h6 : ¬ (x = b.xe ∧ y = b.ye))
    (hs : ¬ (b.xb < x ∧ b.yb < y ∧ lineAt X (x - 1) = lineAt Y (y - 1))) : Ready X Y steps S depth ⟨b.xb, x, b.yb, y⟩ := by
  obtain ⟨⟨a1, a2, a3, a4⟩, a5, a6, a7, a8, a9, a10, a11, a12⟩ := h
  refine ⟨⟨a1, a2, by simp only; omega, by simp only; omega⟩, h1, h3, ?_, ?_, ?_, ?_, ?_, fun q1 q2 => ⟨?_, fun q => hs ⟨q1, q2, q⟩⟩⟩
  · clear a8 a9 a10 a11; simp only; omega
  · clear a9 a10 a11; simp only; push_cast at a8; omega
  · clear a8 a10 a11; simp only; omega
  · clear a8 a9 a11; simp only; omega
  · clear a8 a9 a10; simp only; omega
  · exact (a12 (by simp only at q1; omega) (by simp only at q2; omega)).1

theorem Readable.upper {X Y : List Nat} {b : Box} {ox oy : Option (Int → Nat)} (h : Readable X Y b ox oy) (x y : Int) (h1 : b.xb ≤ x) (h3 : b.yb ≤ y) :
    Readable X Y ⟨x, b.xe, y, b.ye⟩ ox oy := by
  rcases h with h | ⟨a, c, d, e⟩
  · exact Or.inl h
  · exact Or.inr ⟨by simp only; omega, by simp only; omega, d, e⟩

theorem Readable.lower {X Y : List Nat} {b : Box} {ox oy : Option (Int → Nat)} (h : Readable X Y b ox oy) (x y : Int) (h1 : x ≤ b.xe) (h3 : y ≤ b.ye) :
    Readable X Y ⟨b.xb, x, b.yb, y⟩ ox oy := by
  rcases h with h | ⟨a, c, d, e⟩
  · exact Or.inl h
  · exact Or.inr ⟨a, c, by simp only; omega, by simp only; omega⟩

/-- How a box is cut at the midpoint `(p.xmid, p.ymid)`: the two boxes left, the point the second one begins or the first one ends with, and
what the code has to evaluate for that. -/
theorem cut (X Y : List Nat) (steps : Nat) (S : Int) (depth : Nat) (b : Box) (buf : Buf) (h : Ready X Y steps S (depth + 1) b) (hS : buf.size = S)
    (hx0 : ¬ b.xe - b.xb = 0) (hy0 : ¬ b.ye - b.yb = 0) :
    ∃ p buf1, findEditMidPoint X Y b steps buf = .ok (p, buf1) ∧ buf1.size = S ∧ 2 ≤ p.length ∧ b.xb ≤ p.xmid ∧ p.xmid ≤ b.xe ∧ b.yb ≤ p.ymid ∧ p.ymid ≤ b.ye ∧
      ((lineAt X (p.xmid - 1) = lineAt Y (p.ymid - 1) ∧ p.xmid ≠ b.xb ∧ p.ymid ≠ b.yb ∧ Ready X Y steps S depth ⟨p.xmid, b.xe, p.ymid, b.ye⟩ ∧
        ∃ x y, eatBack X Y b steps p.xmid p.ymid = .ok (x, y) ∧ x ≤ b.xe ∧ y ≤ b.ye ∧ Gap (lineAt X) (lineAt Y) x y p.xmid p.ymid ∧
          Ready X Y steps S depth ⟨b.xb, x, b.yb, y⟩) ∨
       (¬ (lineAt X (p.xmid - 1) = lineAt Y (p.ymid - 1) ∧ p.xmid ≠ b.xb ∧ p.ymid ≠ b.yb) ∧ Ready X Y steps S depth ⟨b.xb, p.xmid, b.yb, p.ymid⟩ ∧
        ∃ x y, eatForward X Y b steps p.xmid p.ymid = .ok (x, y) ∧ b.xb ≤ x ∧ b.yb ≤ y ∧ Gap (lineAt X) (lineAt Y) p.xmid p.ymid x y ∧
          Ready X Y steps S depth ⟨x, b.xe, y, b.ye⟩)) := by
  have hI := h.inside
  have hx := h.hx
  have hy := h.hy
  have hst := h.steps
  have hsz := h.size
  obtain ⟨ns1, ns2⟩ := h.noSnake (by omega) (by omega)
  obtain ⟨p, buf1, m1, m2, m3, m4, m5, m6, m7, m8, m9, m10⟩ := findEditMidPoint_ok X Y b (by omega) (by omega) hI buf (by omega) steps h.steps h.len ns1 ns2
  refine ⟨p, buf1, m1, m2.trans hS, m3, m4, m5, m6, m7, ?_⟩
  by_cases hc : lineAt X (p.xmid - 1) = lineAt Y (p.ymid - 1) ∧ p.xmid ≠ b.xb ∧ p.ymid ≠ b.yb
  · left
    have fwd : ¬ (p.xmid < b.xe ∧ p.ymid < b.ye ∧ lineAt X p.xmid = lineAt Y p.ymid) := by
      rcases m10 with m10 | m10
      · exact m10
      · exact absurd ⟨by omega, by omega, hc.1⟩ m10
    obtain ⟨x, y, e1, e2, e3, e4, e5⟩ := eatBack_ok X Y b hI steps p.xmid p.ymid m4 m5 m6 m7 (by omega)
    have e4' := e4
    obtain ⟨e4a, e4b, e4c⟩ := e4
    have hcorner : ¬ (x = b.xb ∧ y = b.yb) := by
      rintro ⟨z1, z2⟩
      by_cases hz : x = p.xmid
      · exact m8 ⟨by omega, by omega⟩
      · have := e4c 0 (by omega) (by omega)
        rw [z1, z2] at this
        simp only [Int.add_zero] at this
        exact ns1 this
    exact ⟨hc.1, hc.2.1, hc.2.2, h.upper _ _ m4 m5 m6 m7 m8 m9 fwd, x, y, e1, by omega, by omega, e4',
      h.lower x y e2 (by omega) e3 (by omega) hcorner (fun q => m9 (by omega)) e5⟩
  · right
    have bwd : ¬ (b.xb < p.xmid ∧ b.yb < p.ymid ∧ lineAt X (p.xmid - 1) = lineAt Y (p.ymid - 1)) := fun h => hc ⟨h.2.2, by omega, by omega⟩
    obtain ⟨x, y, e1, e2, e3, e4, e5⟩ := eatForward_ok X Y b hI steps p.xmid p.ymid m4 m5 m6 m7 (by omega)
    have e4' := e4
    obtain ⟨e4a, e4b, e4c⟩ := e4
    have hcorner : ¬ (x = b.xe ∧ y = b.ye) := by
      rintro ⟨z1, z2⟩
      by_cases hz : x = p.xmid
      · exact m9 ⟨by omega, by omega⟩
      · have := e4c (x - p.xmid - 1) (by omega) (by omega)
        rw [show p.xmid + (x - p.xmid - 1) = b.xe - 1 by omega, show p.ymid + (x - p.xmid - 1) = b.ye - 1 by omega] at this
        exact ns2 this
    exact ⟨hc, h.lower _ _ m4 m5 m6 m7 m8 m9 bwd, x, y, e1, by omega, by omega, e4',
      h.upper x y (by omega) e2 (by omega) e3 (fun q => m8 (by omega)) hcorner e5⟩

/-- The branch of the code after the midpoint, in terms of the lines: the comparison of the lines before the midpoint is only used where both
are in the arrays. -/
theorem branch {X Y : List Nat} {b : Box} {ox oy : Option (Int → Nat)} (hr : Readable X Y b ox oy) (hI : b.Inside X Y) (p : Part) (h1 : b.xb ≤ p.xmid)
    (h2 : p.xmid ≤ b.xe) (h3 : b.yb ≤ p.ymid) (h4 : p.ymid ≤ b.ye) :
    ∃ u v, (Ids.mk X ox).peek (p.xmid - 1) = .ok u ∧ (Ids.mk Y oy).peek (p.ymid - 1) = .ok v ∧
      ((u = v ∧ p.xmid ≠ b.xb ∧ p.ymid ≠ b.yb) ↔ (lineAt X (p.xmid - 1) = lineAt Y (p.ymid - 1) ∧ p.xmid ≠ b.xb ∧ p.ymid ≠ b.yb)) := by
  obtain ⟨i1, i2, i3, i4⟩ := hI
  obtain ⟨⟨u, hu⟩, v, hv⟩ := hr.peek (p.xmid - 1) (p.ymid - 1) (by omega) (by omega) (by omega) (by omega)
  refine ⟨u, v, hu, hv, ?_⟩
  by_cases hc : p.xmid ≠ b.xb ∧ p.ymid ≠ b.yb
  · rw [peek_in X ox _ (by omega) (by omega), Except.ok.injEq] at hu
    rw [peek_in Y oy _ (by omega) (by omega), Except.ok.injEq] at hv
    rw [hu, hv]
  · constructor
    · exact fun q => absurd q.2 hc
    · exact fun q => absurd q.2 hc

theorem generate_ok (X Y : List Nat) (steps : Nat) (S : Int) : ∀ (depth : Nat) (b : Box) (buf : Buf), Ready X Y steps S depth b → buf.size = S →
    ∃ l buf', buf'.size = S ∧ l ≠ [] ∧ Script (lineAt X) (lineAt Y) b.xe b.ye b.xb b.yb l ∧ Separated l ∧
      ∀ ox oy, Readable X Y b ox oy → generate ⟨X, ox⟩ ⟨Y, oy⟩ steps depth b buf = .ok (l, buf') := by
  intro depth
  induction depth with
  | zero => intro b buf h; have := h.pos; have := h.dep; omega
  | succ depth ih =>
    intro b buf h hS
    have hchk : ∀ ox oy, Readable X Y b ox oy → checkBox ⟨X, ox⟩ ⟨Y, oy⟩ b = .ok () :=
      fun ox oy hr => checkBox_ok X Y ox oy b hr h.inside h.hx h.hy h.pos h.noSnake
    have hx := h.hx
    have hy := h.hy
    have hpos := h.pos
    by_cases hx0 : b.xe - b.xb = 0
    · refine ⟨[⟨b.xb, b.yb, b.ye - b.yb, 0⟩], buf, hS, by simp, ⟨Gap.refl _ _ _ _, ?_, ?_, ?_, ?_⟩, trivial, fun f g hr => ?_⟩
      · simp only; omega
      · simp only; omega
      · simp only; omega
      · refine ⟨?_, ?_, ?_⟩
        · simp only; omega
        · simp only; omega
        · intro i j1 j2; simp only at j2; omega
      · rw [generate, hchk f g hr]
        simp only [bind, Except.bind]
        rw [if_pos hx0]
    by_cases hy0 : b.ye - b.yb = 0
    · refine ⟨[⟨b.xb, b.yb, 0, b.xe - b.xb⟩], buf, hS, by simp, ⟨Gap.refl _ _ _ _, ?_, ?_, ?_, ?_⟩, trivial, fun f g hr => ?_⟩
      · simp only; omega
      · simp only; omega
      · simp only; omega
      · refine ⟨?_, ?_, ?_⟩
        · simp only; omega
        · simp only; omega
        · intro i j1 j2; simp only at j2; omega
      · rw [generate, hchk f g hr]
        simp only [bind, Except.bind]
        rw [if_neg hx0, if_pos hy0]
    obtain ⟨p, buf1, m1, m2, m3, m4, m5, m6, m7, hc⟩ := cut X Y steps S depth b buf h hS hx0 hy0
    rcases hc with ⟨q1, q2, q3, r2, x, y, e1, e2, e3, e4, r1⟩ | ⟨q1, r1, x, y, e1, e2, e3, e4, r2⟩
    · obtain ⟨l2, buf2, a1, a2, a3, a4, a5⟩ := ih ⟨p.xmid, b.xe, p.ymid, b.ye⟩ buf1 r2 m2
      obtain ⟨l1, buf3, c1, c2, c3, c4, c5⟩ := ih ⟨b.xb, x, b.yb, y⟩ buf2 r1 a1
      obtain ⟨l, d1, d2, d3, d4⟩ := joinEdits_ok (lineAt X) (lineAt Y) l1 l2 c2 a2 c3 e4 a3 c4 a4
      refine ⟨l, buf3, c1, d2, d3, d4, fun f g hr => ?_⟩
      obtain ⟨u, v, hu, hv, huv⟩ := branch hr h.inside p m4 m5 m6 m7
      rw [generate, hchk f g hr]
      simp only [bind, Except.bind]
      rw [if_neg hx0, if_neg hy0, if_pos (by omega)]
      simp only [m1, hu, hv]
      rw [if_pos (show p.length > 1 by omega), if_pos (huv.mpr ⟨q1, q2, q3⟩)]
      simp only [a5 f g (hr.upper _ _ m4 m6), e1, c5 f g (hr.lower _ _ e2 e3), d1]
    · obtain ⟨l1, buf2, c1, c2, c3, c4, c5⟩ := ih ⟨b.xb, p.xmid, b.yb, p.ymid⟩ buf1 r1 m2
      obtain ⟨l2, buf3, a1, a2, a3, a4, a5⟩ := ih ⟨x, b.xe, y, b.ye⟩ buf2 r2 c1
      obtain ⟨l, d1, d2, d3, d4⟩ := joinEdits_ok (lineAt X) (lineAt Y) l1 l2 c2 a2 c3 e4 a3 c4 a4
      refine ⟨l, buf3, a1, d2, d3, d4, fun f g hr => ?_⟩
      obtain ⟨u, v, hu, hv, huv⟩ := branch hr h.inside p m4 m5 m6 m7
      rw [generate, hchk f g hr]
      simp only [bind, Except.bind]
      rw [if_neg hx0, if_neg hy0, if_pos (by omega)]
      simp only [m1, hu, hv]
      rw [if_pos (show p.length > 1 by omega), if_neg (fun q => q1 (huv.mp q))]
      simp only [c5 f g (hr.lower _ _ m5 m7), e1, a5 f g (hr.upper _ _ e2 e3), d1]

/-! ## Trapped reads -/

theorem peek_none (X : List Nat) (i : Int) (h : ¬ (0 ≤ i ∧ i < X.length)) : (Ids.mk X none).peek i = .error (.ub "line number out of range") := by
  rw [Ids.peek, if_neg h]

/-- A read is in the array or it is trapped. -/
theorem peek_or (X : List Nat) (i : Int) : (Ids.mk X none).peek i = .ok (lineAt X i) ∨ (Ids.mk X none).peek i = .error (.ub "line number out of range") := by
  by_cases h : 0 ≤ i ∧ i < X.length
  · exact Or.inl (peek_in X none i h.1 h.2)
  · exact Or.inr (peek_none X i h)

/-- The same outcome, or undefined behaviour. -/
def OkOrUB {α : Type} (r : Except Fault α) (a : α) : Prop := r = .ok a ∨ IsUB r

theorem checkBox_or (X Y : List Nat) (b : Box) (hI : b.Inside X Y) (hx : b.xb ≤ b.xe) (hy : b.yb ≤ b.ye)
    (h : 1 ≤ (b.xe - b.xb) + (b.ye - b.yb)) (hns : b.NoSnake X Y) : OkOrUB (checkBox ⟨X, none⟩ ⟨Y, none⟩ b) () := by
  by_cases hz : b.xe - b.xb = 0 ∨ b.ye - b.yb = 0
  · rw [checkBox, if_pos (by omega)]
    simp only [bind, Except.bind]
    rcases peek_or X b.xb with e | e <;> rw [e]
    · rcases peek_or Y b.yb with e | e <;> rw [e]
      · simp only
        rw [if_pos (Or.inr hz)]
        rcases peek_or X (b.xe - 1) with e | e <;> rw [e]
        · rcases peek_or Y (b.ye - 1) with e | e <;> rw [e]
          · simp only
            rw [if_pos (Or.inr hz)]
            exact Or.inl rfl
          · exact Or.inr ⟨_, rfl⟩
        · exact Or.inr ⟨_, rfl⟩
      · exact Or.inr ⟨_, rfl⟩
    · exact Or.inr ⟨_, rfl⟩
  · obtain ⟨i1, i2, i3, i4⟩ := hI
    obtain ⟨n1, n2⟩ := hns (by omega) (by omega)
    rw [checkBox, if_pos (by omega), peek_in X none b.xb (by omega) (by omega), peek_in Y none b.yb (by omega) (by omega), peek_in X none (b.xe - 1) (by omega) (by omega),
      peek_in Y none (b.ye - 1) (by omega) (by omega)]
    simp only [bind, Except.bind]
    rw [if_pos (Or.inl n1), if_pos (Or.inl n2)]
    exact Or.inl rfl

/-- If reads outside the arrays are trapped, `GenerateEditList` does the same as otherwise or is trapped; and it is trapped for a box at the
beginning, or at the end, of both arrays. -/
theorem generate_trap (X Y : List Nat) (steps : Nat) (S : Int) : ∀ (depth : Nat) (b : Box) (buf : Buf), Ready X Y steps S depth b → buf.size = S →
    (∀ r f g, generate ⟨X, some f⟩ ⟨Y, some g⟩ steps depth b buf = .ok r → OkOrUB (generate ⟨X, none⟩ ⟨Y, none⟩ steps depth b buf) r) ∧
    ((b.xb = 0 ∧ b.yb = 0) ∨ (b.xe = X.length ∧ b.ye = Y.length) → IsUB (generate ⟨X, none⟩ ⟨Y, none⟩ steps depth b buf)) := by
  intro depth
  induction depth with
  | zero => intro b buf h; have := h.pos; have := h.dep; omega
  | succ depth ih =>
    intro b buf h hS
    obtain ⟨i1, i2, i3, i4⟩ := h.inside
    have hx := h.hx
    have hy := h.hy
    have hpos := h.pos
    -- a box without lines in one text at a corner is trapped
    have corner : (b.xe - b.xb = 0 ∨ b.ye - b.yb = 0) → ((b.xb = 0 ∧ b.yb = 0) ∨ (b.xe = X.length ∧ b.ye = Y.length)) →
        IsUB (checkBox ⟨X, none⟩ ⟨Y, none⟩ b) := by
      intro hz hc
      rw [checkBox, if_pos (by omega)]
      simp only [bind, Except.bind]
      rcases peek_or X b.xb with e | e <;> rw [e]
      · rcases peek_or Y b.yb with e' | e' <;> rw [e']
        · simp only
          rw [if_pos (Or.inr hz)]
          rcases hc with ⟨c1, c2⟩ | ⟨c1, c2⟩
          · rcases hz with hz | hz
            · rw [peek_none X (b.xe - 1) (by omega)]; exact ⟨_, rfl⟩
            · rw [peek_none Y (b.ye - 1) (by omega)]
              rcases peek_or X (b.xe - 1) with e | e <;> rw [e] <;> exact ⟨_, rfl⟩
          · exfalso
            rcases hz with hz | hz
            · rw [peek_none X b.xb (by omega)] at e; cases e
            · rw [peek_none Y b.yb (by omega)] at e'; cases e'
        · exact ⟨_, rfl⟩
      · exact ⟨_, rfl⟩
    have hchk : ∀ f g, checkBox ⟨X, some f⟩ ⟨Y, some g⟩ b = .ok () :=
      fun f g => checkBox_ok X Y (some f) (some g) b (Or.inl ⟨rfl, rfl⟩) h.inside h.hx h.hy h.pos h.noSnake
    have hchk' := checkBox_or X Y b h.inside hx hy hpos h.noSnake
    by_cases hx0 : b.xe - b.xb = 0
    · refine ⟨fun r f g hr => ?_, fun hc => ?_⟩
      · rw [generate, hchk] at hr
        rw [generate]
        rcases hchk' with e | ⟨w, e⟩ <;> rw [e] <;> simp only [bind, Except.bind] at hr ⊢
        · rw [if_pos hx0] at hr ⊢; exact Or.inl hr
        · exact Or.inr ⟨_, rfl⟩
      · obtain ⟨w, e⟩ := corner (Or.inl hx0) hc
        rw [generate, e]
        exact ⟨_, rfl⟩
    by_cases hy0 : b.ye - b.yb = 0
    · refine ⟨fun r f g hr => ?_, fun hc => ?_⟩
      · rw [generate, hchk] at hr
        rw [generate]
        rcases hchk' with e | ⟨w, e⟩ <;> rw [e] <;> simp only [bind, Except.bind] at hr ⊢
        · rw [if_neg hx0, if_pos hy0] at hr ⊢; exact Or.inl hr
        · exact Or.inr ⟨_, rfl⟩
      · obtain ⟨w, e⟩ := corner (Or.inr hy0) hc
        rw [generate, e]
        exact ⟨_, rfl⟩
    obtain ⟨p, buf1, m1, m2, m3, m4, m5, m6, m7, hc⟩ := cut X Y steps S depth b buf h hS hx0 hy0
    have hI := h.inside
    have start : ∀ ox oy, checkBox ⟨X, ox⟩ ⟨Y, oy⟩ b = .ok () → generate ⟨X, ox⟩ ⟨Y, oy⟩ steps (depth + 1) b buf =
        (do
        let u ← (Ids.mk X ox).peek (p.xmid - 1)
        let v ← (Ids.mk Y oy).peek (p.ymid - 1)
        if u = v ∧ p.xmid ≠ b.xb ∧ p.ymid ≠ b.yb then do
          let (l2, buf) ← generate ⟨X, ox⟩ ⟨Y, oy⟩ steps depth ⟨p.xmid, b.xe, p.ymid, b.ye⟩ buf1
          let (x, y) ← eatBack X Y b steps p.xmid p.ymid
          let (l1, buf) ← generate ⟨X, ox⟩ ⟨Y, oy⟩ steps depth ⟨b.xb, x, b.yb, y⟩ buf
          let l ← joinEdits l1 l2
          .ok (l, buf)
        else do
          let (l1, buf) ← generate ⟨X, ox⟩ ⟨Y, oy⟩ steps depth ⟨b.xb, p.xmid, b.yb, p.ymid⟩ buf1
          let (x, y) ← eatForward X Y b steps p.xmid p.ymid
          let (l2, buf) ← generate ⟨X, ox⟩ ⟨Y, oy⟩ steps depth ⟨x, b.xe, y, b.ye⟩ buf
          let l ← joinEdits l1 l2
          .ok (l, buf)) := by
      intro ox oy hk
      rw [generate, hk]
      simp only [bind, Except.bind]
      rw [if_neg hx0, if_neg hy0, if_pos (by clear hc; omega)]
      simp only [m1]
      rw [if_pos (show p.length > 1 by omega)]
    have trapped : IsUB (checkBox ⟨X, none⟩ ⟨Y, none⟩ b) → IsUB (generate ⟨X, none⟩ ⟨Y, none⟩ steps (depth + 1) b buf) := by
      rintro ⟨w, e⟩
      rw [generate, e]
      exact ⟨_, rfl⟩
    rcases hchk' with hk | hk
    rotate_left
    · exact ⟨fun r f g hr => Or.inr (trapped hk), fun _ => trapped hk⟩
    have hs0 := start none none hk
    simp only [bind, Except.bind] at hs0
    rcases peek_or X (p.xmid - 1) with eu | eu
    rotate_left
    · rw [eu] at hs0
      exact ⟨fun r f g hr => Or.inr ⟨_, hs0⟩, fun _ => ⟨_, hs0⟩⟩
    rcases peek_or Y (p.ymid - 1) with ev | ev
    rotate_left
    · rw [eu, ev] at hs0
      exact ⟨fun r f g hr => Or.inr ⟨_, hs0⟩, fun _ => ⟨_, hs0⟩⟩
    rw [eu, ev] at hs0
    simp only at hs0
    rcases hc with ⟨q1, q2, q3, r2, x, y, e1, e2, e3, e4, r1⟩ | ⟨q1, r1, x, y, e1, e2, e3, e4, r2⟩
    · obtain ⟨l2, buf2, a1, a2, a3, a4, a5⟩ := generate_ok X Y steps S depth ⟨p.xmid, b.xe, p.ymid, b.ye⟩ buf1 r2 m2
      obtain ⟨l1, buf3, c1, c2, c3, c4, c5⟩ := generate_ok X Y steps S depth ⟨b.xb, x, b.yb, y⟩ buf2 r1 a1
      obtain ⟨t2, t2'⟩ := ih ⟨p.xmid, b.xe, p.ymid, b.ye⟩ buf1 r2 m2
      obtain ⟨t1, t1'⟩ := ih ⟨b.xb, x, b.yb, y⟩ buf2 r1 a1
      rw [if_pos ⟨q1, q2, q3⟩, e1] at hs0
      have t2 := t2 _ _ _ (a5 (some (fun _ => 0)) (some (fun _ => 0)) (Or.inl ⟨rfl, rfl⟩))
      have t1 := t1 _ _ _ (c5 (some (fun _ => 0)) (some (fun _ => 0)) (Or.inl ⟨rfl, rfl⟩))
      refine ⟨fun r f g hr => ?_, fun hcorner => ?_⟩
      · obtain ⟨u, v, hu, hv, huv⟩ := branch (ox := some f) (oy := some g) (Or.inl ⟨rfl, rfl⟩) hI p m4 m5 m6 m7
        rw [start _ _ (hchk f g), hu, hv] at hr
        simp only [bind, Except.bind] at hr
        rw [if_pos (huv.mpr ⟨q1, q2, q3⟩), a5 (some f) (some g) (Or.inl ⟨rfl, rfl⟩), e1] at hr
        simp only at hr
        rw [c5 (some f) (some g) (Or.inl ⟨rfl, rfl⟩)] at hr
        rcases t2 with t2 | ⟨w, t2⟩ <;> rw [t2] at hs0
        · simp only at hs0
          rcases t1 with t1 | ⟨w, t1⟩ <;> rw [t1] at hs0
          · exact Or.inl (hs0.trans hr)
          · exact Or.inr ⟨_, hs0⟩
        · exact Or.inr ⟨_, hs0⟩
      · rcases hcorner with hcorner | hcorner
        · obtain ⟨w, e⟩ := t1' (Or.inl hcorner)
          rcases t2 with t2 | ⟨w', t2⟩ <;> rw [t2] at hs0
          · simp only at hs0; rw [e] at hs0; exact ⟨_, hs0⟩
          · exact ⟨_, hs0⟩
        · obtain ⟨w, e⟩ := t2' (Or.inr hcorner)
          rw [e] at hs0
          exact ⟨_, hs0⟩
    · obtain ⟨l1, buf2, c1, c2, c3, c4, c5⟩ := generate_ok X Y steps S depth ⟨b.xb, p.xmid, b.yb, p.ymid⟩ buf1 r1 m2
      obtain ⟨l2, buf3, a1, a2, a3, a4, a5⟩ := generate_ok X Y steps S depth ⟨x, b.xe, y, b.ye⟩ buf2 r2 c1
      obtain ⟨t1, t1'⟩ := ih ⟨b.xb, p.xmid, b.yb, p.ymid⟩ buf1 r1 m2
      obtain ⟨t2, t2'⟩ := ih ⟨x, b.xe, y, b.ye⟩ buf2 r2 c1
      rw [if_neg q1, e1] at hs0
      have t2 := t2 _ _ _ (a5 (some (fun _ => 0)) (some (fun _ => 0)) (Or.inl ⟨rfl, rfl⟩))
      have t1 := t1 _ _ _ (c5 (some (fun _ => 0)) (some (fun _ => 0)) (Or.inl ⟨rfl, rfl⟩))
      refine ⟨fun r f g hr => ?_, fun hcorner => ?_⟩
      · obtain ⟨u, v, hu, hv, huv⟩ := branch (ox := some f) (oy := some g) (Or.inl ⟨rfl, rfl⟩) hI p m4 m5 m6 m7
        rw [start _ _ (hchk f g), hu, hv] at hr
        simp only [bind, Except.bind] at hr
        rw [if_neg (fun q => q1 (huv.mp q)), c5 (some f) (some g) (Or.inl ⟨rfl, rfl⟩), e1] at hr
        simp only at hr
        rw [a5 (some f) (some g) (Or.inl ⟨rfl, rfl⟩)] at hr
        rcases t1 with t1 | ⟨w, t1⟩ <;> rw [t1] at hs0
        · simp only at hs0
          rcases t2 with t2 | ⟨w, t2⟩ <;> rw [t2] at hs0
          · exact Or.inl (hs0.trans hr)
          · exact Or.inr ⟨_, hs0⟩
        · exact Or.inr ⟨_, hs0⟩
      · rcases hcorner with hcorner | hcorner
        · obtain ⟨w, e⟩ := t1' (Or.inl hcorner)
          rw [e] at hs0
          exact ⟨_, hs0⟩
        · obtain ⟨w, e⟩ := t2' (Or.inr hcorner)
          rcases t1 with t1 | ⟨w', t1⟩ <;> rw [t1] at hs0
          · simp only at hs0; rw [e] at hs0; exact ⟨_, hs0⟩
          · exact ⟨_, hs0⟩

/-- The edit list of two arrays of line numbers: equal lines at the beginning and then at the end are taken off, and the edits lead from one
text to the other.  The reads the code does not check are harmless if there is readable memory around the arrays, or if equal lines were
taken off at both ends; otherwise they go outside. -/
theorem editList_ok (X Y : List Nat) (steps depth : Nat) (hsteps : 3 * (X.length + Y.length) + 4 ≤ steps) (hdepth : X.length + Y.length ≤ depth)
    (hlen : 6 * (X.length + Y.length) + 8 < 4294967296) :
    ∃ l xb yb xe ye, (∀ f g, editList ⟨X, some f⟩ ⟨Y, some g⟩ steps depth = .ok l) ∧ Separated l ∧
      Gap (lineAt X) (lineAt Y) 0 0 xb yb ∧ Gap (lineAt X) (lineAt Y) xe ye X.length Y.length ∧ xb ≤ xe ∧ yb ≤ ye ∧
      ¬ (xb < X.length ∧ yb < Y.length ∧ lineAt X xb = lineAt Y yb) ∧ ¬ (xb < xe ∧ yb < ye ∧ lineAt X (xe - 1) = lineAt Y (ye - 1)) ∧
      Script (lineAt X) (lineAt Y) xe ye xb yb l ∧ (l = [] ↔ xb = xe ∧ yb = ye) ∧
      (l = [] ∨ (1 ≤ xb ∧ xe < X.length) → ∀ ox oy, editList ⟨X, ox⟩ ⟨Y, oy⟩ steps depth = .ok l) ∧
      (l ≠ [] → ¬ (1 ≤ xb ∧ xe < X.length) → IsUB (editList ⟨X, none⟩ ⟨Y, none⟩ steps depth)) := by
  obtain ⟨xb, yb, e1, e2, e3, e4, e5⟩ := eatForward_ok X Y ⟨0, X.length, 0, Y.length⟩ ⟨by simp, by simp, by simp, by simp⟩ steps 0 0
    (by simp) (by simp) (by simp) (by simp) (by simp only; omega)
  have e4' := e4
  obtain ⟨e4a, e4b, e4c⟩ := e4'
  obtain ⟨xe, ye, f1, f2, f3, f4, f5⟩ := eatBack_ok X Y ⟨xb, X.length, yb, Y.length⟩ ⟨e4a, by simp only; omega, by simp, by simp⟩ steps X.length Y.length
    e2 (by simp) e3 (by simp) (by simp only; omega)
  have f4' := f4
  obtain ⟨f4a, f4b, f4c⟩ := f4'
  simp only at e2 e3 e5 f2 f3 f5
  by_cases hc : xb ≠ xe ∨ yb ≠ ye
  · have hns : Box.NoSnake ⟨xb, xe, yb, ye⟩ X Y := by
      intro q1 q2
      simp only at *
      exact ⟨fun q => e5 ⟨by omega, by omega, q⟩, fun q => f5 ⟨q1, q2, q⟩⟩
    have hR : Ready X Y steps ((X.length + Y.length) * 2 + 6) depth ⟨xb, xe, yb, ye⟩ :=
      ⟨⟨e4a, by simp only; omega, by simp only; omega, by simp only; omega⟩, f2, f3,
      by simp only; omega, by simp only; omega, by simp only; omega, by simp only; omega, by simp only; omega, hns⟩
    have hbuf : (Buf.mk ((X.length + Y.length : Int) * 2 + 6) (fun _ => none)).size = ((X.length + Y.length) * 2 + 6 : Int) := rfl
    obtain ⟨l, buf', g1, g2, g3, g4, g5⟩ := generate_ok X Y steps ((X.length + Y.length) * 2 + 6) depth ⟨xb, xe, yb, ye⟩
      ⟨(X.length + Y.length) * 2 + 6, fun _ => none⟩ hR hbuf
    obtain ⟨-, g6⟩ := generate_trap X Y steps ((X.length + Y.length) * 2 + 6) depth ⟨xb, xe, yb, ye⟩
      ⟨(X.length + Y.length) * 2 + 6, fun _ => none⟩ hR hbuf
    have run : ∀ ox oy, Readable X Y ⟨xb, xe, yb, ye⟩ ox oy → editList ⟨X, ox⟩ ⟨Y, oy⟩ steps depth = .ok l := by
      intro ox oy hr
      rw [editList]
      simp only [bind, Except.bind, e1, f1]
      rw [if_pos hc, g5 ox oy hr]
    refine ⟨l, xb, yb, xe, ye, fun f g => run _ _ (Or.inl ⟨rfl, rfl⟩), g4, e4, f4, f2, f3, e5, f5, g3, ?_, ?_, ?_⟩
    · constructor
      · intro h; exact absurd h g2
      · intro h; omega
    · rintro (h | ⟨h1, h2⟩) ox oy
      · exact absurd h g2
      · exact run ox oy (Or.inr ⟨h1, by simp only; omega, h2, by simp only; omega⟩)
    · intro _ h
      obtain ⟨w, e⟩ := g6 (by simp only; omega)
      refine ⟨w, ?_⟩
      rw [editList]
      simp only [bind, Except.bind, e1, f1]
      rw [if_pos hc, e]
  · have run : ∀ ox oy, editList ⟨X, ox⟩ ⟨Y, oy⟩ steps depth = .ok [] := by
      intro ox oy
      rw [editList]
      simp only [bind, Except.bind, e1, f1]
      rw [if_neg hc]
    refine ⟨[], xb, yb, xe, ye, fun f g => run _ _, trivial, e4, f4, f2, f3, e5, f5, ?_, ?_, fun _ => run, fun h => absurd rfl h⟩
    · show Gap _ _ xb yb xe ye
      rw [show xe = xb by omega, show ye = yb by omega]
      exact Gap.refl _ _ _ _
    · simp only [true_iff]; omega

end Verif.Diff
