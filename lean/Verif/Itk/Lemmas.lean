import Verif.Itk.Spec
import Mathlib.Data.List.Basic
import Mathlib.Data.List.Nodup
import Mathlib.Tactic.Linarith

/-!
# Lemmas about regions, neighbourhoods and the search
-/

set_option linter.unusedSimpArgs false

namespace Verif.Itk
open Spec

theorem mem_pixels (r : Region) : ∀ p, p ∈ r.pixels ↔ Inside r p := by
  induction r with
  | nil => intro p; cases p <;> simp [Region.pixels, Inside]
  | cons x r ih =>
    obtain ⟨l, n⟩ := x
    intro p
    simp only [Region.pixels, List.mem_flatMap, List.mem_map, List.mem_range]
    cases p with
    | nil => simp [Inside]
    | cons i p =>
      simp only [Inside, List.cons.injEq]
      constructor
      · rintro ⟨t, ht, k, hk, rfl, rfl⟩
        exact ⟨by omega, by omega, (ih _).mp ht⟩
      · rintro ⟨h1, h2, h3⟩
        exact ⟨p, (ih p).mpr h3, (i - l).toNat, by omega, by omega, rfl⟩

/-- Each index of a region occurs once. -/
theorem nodup_pixels (r : Region) : r.pixels.Nodup := by
  induction r with
  | nil => simp [Region.pixels]
  | cons x r ih =>
    obtain ⟨l, n⟩ := x
    simp only [Region.pixels]
    rw [List.nodup_flatMap]
    refine ⟨fun t _ => ?_, ?_⟩
    · refine List.Nodup.map ?_ List.nodup_range
      intro a b h; simp only [List.cons.injEq] at h; omega
    · refine ih.pairwise_of_forall_ne ?_ |>.imp (fun h => h) |> id
      intro a _ b _ hab x hx hy
      simp only [List.mem_map] at hx hy
      obtain ⟨i, _, rfl⟩ := hx
      obtain ⟨j, _, h⟩ := hy
      simp only [List.cons.injEq] at h
      exact hab h.2.symm

theorem inside_length : ∀ (r : Region) (p : Index), Inside r p → p.length = r.length
  | [], [], _ => rfl
  | (_, _) :: r, _ :: p, h => by simp [inside_length r p h.2.2]
  | [], _ :: _, h => by simp [Inside] at h
  | (_, _) :: _, [], h => by simp [Inside] at h

theorem inside_of_contains : ∀ (r s : Region) (p : Index), r.contains s = true → Inside s p → Inside r p
  | [], [], p, _, h => h
  | (l, n) :: r, (l', n') :: s, i :: p, hc, h => by
    simp only [Region.contains, Bool.and_eq_true, decide_eq_true_eq] at hc
    exact ⟨by have := h.1; omega, by have := h.2.1; omega, inside_of_contains r s p hc.2 h.2.2⟩
  | _ :: _, _ :: _, [], _, h => by simp [Inside] at h
  | [], _ :: _, _, h, _ => by simp [Region.contains] at h
  | _ :: _, [], _, h, _ => by simp [Region.contains] at h

theorem contains_refl : ∀ r : Region, r.contains r = true
  | [] => rfl
  | (l, n) :: r => by simp [Region.contains, contains_refl r]

theorem near_self (r : Nat) : ∀ p, Near r p p
  | [] => trivial
  | i :: p => ⟨by simp, near_self r p⟩

/-- Clamping an index near a pixel of the region leads to a pixel of the region that is as near. -/
theorem clamp_near : ∀ (reg : Region) (r : Nat) (p o : Index), Inside reg p →
    Inside (List.replicate p.length (-(r : Int), 2 * r + 1)) o →
    Inside reg (clamp reg (List.zipWith (· + ·) p o)) ∧ Near r p (clamp reg (List.zipWith (· + ·) p o))
  | [], r, [], o, _, _ => by cases o <;> simp [clamp, Inside, Near]
  | (l, n) :: reg, r, i :: p, [], _, h => by simp [Inside, List.replicate] at h
  | (l, n) :: reg, r, i :: p, k :: o, h, ho => by
    obtain ⟨h1, h2, h3⟩ := h
    simp only [List.length_cons, List.replicate_succ, Inside] at ho
    obtain ⟨o1, o2, o3⟩ := ho
    obtain ⟨a, b⟩ := clamp_near reg r p o h3 o3
    simp only [List.zipWith_cons_cons, clamp, Inside, Near, abs_le]
    refine ⟨⟨by omega, by omega, a⟩, ⟨by omega, by omega⟩, b⟩
  | [], _, _ :: _, _, h, _ => by simp [Inside] at h
  | _ :: _, _, [], _, h, _ => by simp [Inside] at h

/-- Every near pixel of the region is reached by an offset. -/
theorem near_clamp : ∀ (reg : Region) (r : Nat) (p q : Index), Inside reg q → Near r p q →
    ∃ o, Inside (List.replicate p.length (-(r : Int), 2 * r + 1)) o ∧ clamp reg (List.zipWith (· + ·) p o) = q
  | [], r, [], [], _, _ => ⟨[], by simp [Inside], rfl⟩
  | (l, n) :: reg, r, i :: p, j :: q, h, hn => by
    obtain ⟨h1, h2, h3⟩ := h
    simp only [Near, abs_le] at hn
    obtain ⟨⟨n1, n2⟩, n3⟩ := hn
    obtain ⟨o, ho, hc⟩ := near_clamp reg r p q h3 n3
    refine ⟨(j - i) :: o, ?_, ?_⟩
    · simp only [List.length_cons, List.replicate_succ, Inside]
      exact ⟨by omega, by omega, ho⟩
    · simp only [List.zipWith_cons_cons, clamp, hc, List.cons.injEq, and_true]
      omega
  | [], _, _ :: _, _, h, hn => by cases ‹Index› <;> simp [Inside, Near] at h hn
  | [], _, [], _ :: _, h, _ => by simp [Inside] at h
  | _ :: _, _, _, [], h, _ => by simp [Inside] at h
  | _ :: _, _, [], _ :: _, _, h => by simp [Near] at h

/-- The values seen by the neighbourhood iterator are those of the pixels of the image within the radius. -/
theorem mem_neighbourhood (test : Image) (r : Nat) (p : Index) (hp : Inside test.region p) (v : Dbl) :
    v ∈ neighbourhood test r p ↔ ∃ q, Inside test.region q ∧ Near r p q ∧ test.pixel q = v := by
  simp only [neighbourhood, offsets, List.mem_map, mem_pixels]
  constructor
  · rintro ⟨o, ho, rfl⟩
    obtain ⟨a, b⟩ := clamp_near test.region r p o hp ho
    exact ⟨_, a, b, rfl⟩
  · rintro ⟨q, h1, h2, rfl⟩
    obtain ⟨o, ho, hc⟩ := near_clamp test.region r p q h1 h2
    exact ⟨o, ho, by rw [hc]⟩

theorem dbl_lt_some (a b : Dbl) : a.lt b = true ↔ ∃ x y, a = some x ∧ b = some y ∧ x < y := by
  cases a <;> cases b <;> simp [Dbl.lt]

theorem dbl_le_some (a b : Dbl) : a.le b = true ↔ ∃ x y, a = some x ∧ b = some y ∧ x ≤ y := by
  cases a <;> cases b <;> simp [Dbl.le]

/-- The search ends above the threshold iff no value of the list is within it. -/
theorem searchLoop_above (A : Arith) (thr2 c : Dbl) : ∀ (ts : List Dbl) (acc : Dbl × Dbl), thr2.lt acc.2 = true →
    (thr2.lt (searchLoop A thr2 c ts acc).2 = true ↔ ∀ t ∈ ts, (A.square (A.sub c t)).le thr2 = false) := by
  intro ts
  induction ts with
  | nil => intro acc h; simp [searchLoop, h]
  | cons t ts ih =>
    rintro ⟨d, m⟩ h
    obtain ⟨x, y, rfl, hm, hxy⟩ := (dbl_lt_some _ _).mp h
    simp only at hm
    subst hm
    simp only [searchLoop, List.mem_cons, forall_eq_or_imp]
    cases hq : A.square (A.sub c t) with
    | none =>
      have h1 : Dbl.le (some y) (some x) = false := by simp [Dbl.le, hxy]
      have h2 : Dbl.lt none (some y) = false := rfl
      simp only [h2, Bool.false_eq_true, if_false, h1]
      rw [ih _ h]
      simp [Dbl.le]
    | some z =>
      by_cases hz : z ≤ x
      · have h1 : Dbl.lt (some z) (some y) = true := by simp [Dbl.lt]; linarith
        have h2 : Dbl.le (some z) (some x) = true := by simp [Dbl.le, hz]
        simp only [h1, if_true, h2]
        simp [Dbl.lt, hz]
      · have h2 : Dbl.le (some z) (some x) = false := by simp [Dbl.le]; linarith
        by_cases hy : z < y
        · have h1 : Dbl.lt (some z) (some y) = true := by simp [Dbl.lt, hy]
          simp only [h1, if_true, h2, Bool.false_eq_true, if_false, true_and]
          exact ih _ (by simp [Dbl.lt]; linarith)
        · have h1 : Dbl.lt (some z) (some y) = false := by simp [Dbl.lt]; linarith
          have h3 : Dbl.le (some y) (some x) = false := by simp [Dbl.le, hxy]
          simp only [h1, Bool.false_eq_true, if_false, h2, true_and, h3]
          exact ih _ h

/-- A pixel is counted iff it differs. -/
theorem counted_iff (A : Arith) (threshold : ℚ) (radius : Nat) (ib : Bool) (valid test : Image) (p : Index)
    (hp : Inside test.region p) :
    (A.square (some threshold)).lt (pixelDifference A ⟨some threshold, radius, ib⟩ valid test p).2 = true ↔
      Differs A threshold radius valid test p := by
  simp only [pixelDifference, Differs, Unordered, Matches]
  cases hc : valid.pixel p with
  | none => simp [Arith.sub, Arith.square, Dbl.lt]
  | some c =>
    cases ht : test.pixel p with
    | none => simp [Arith.sub, Arith.square, Dbl.lt]
    | some t =>
      by_cases hgt : (A.square (some threshold)).lt (A.square (A.sub (some c) (some t))) = true
      · rw [if_pos hgt, searchLoop_above _ _ _ _ _ hgt]
        constructor
        · intro h
          refine ⟨by simp, ?_⟩
          rintro ⟨q, c', t', h1, h2, h3, h4, h5⟩
          cases h3
          have := h (some t') ((mem_neighbourhood test radius p hp _).mpr ⟨q, h1, h2, h4⟩)
          simp [Arith.sub, Arith.square, Dbl.le] at this
          linarith
        · rintro ⟨_, h⟩ v hv
          obtain ⟨q, h1, h2, h3⟩ := (mem_neighbourhood test radius p hp _).mp hv
          cases v with
          | none => simp [Arith.sub, Arith.square, Dbl.le]
          | some t' =>
            simp only [Arith.sub, Arith.square, Dbl.le, decide_eq_false_iff_not]
            intro h4
            exact h ⟨q, c, t', h1, h2, rfl, h3, h4⟩
      · rw [if_neg hgt]
        constructor
        · intro h; exact absurd h hgt
        · rintro ⟨_, h⟩
          exfalso
          refine h ⟨p, c, t, hp, near_self radius p, rfl, ht, ?_⟩
          simpa [Arith.sub, Arith.square, Dbl.lt] using hgt

end Verif.Itk
