import Verif.Whole.Late
import Verif.Whole.MixExample

/-!
# Property C133: concrete runs
-/

namespace Verif.Whole
open Verif.Measurement Verif.Measurement.Spec Verif.Regression Verif.Regression.Spec Verif.Decimal Verif.Xml Verif.Xml.Spec Spec RepoTests
open Verif.Itk.Spec (LookedUp InDir HasFile LastComponent)

/-- 100 recorded, 200 measured. -/
def doubled (_ : List Str) (comparing : Bool) : List Act := [.measure (.value ⟨b!"i", .integer (if comparing then 200 else 100), true⟩)]

/-- The world after recording. -/
def doubledRecorded : World := (main (whole reference (fun _ => 0, fun _ => 0) 40) (actsTest doubled) 3 [b!"prog", b!"-O", b!"/f"] ⟨{}, shop⟩).1.world

theorem doubledRecorded_files : Path.isFile doubledRecorded.fs b!"/f" = true ∧ Path.isReadable doubledRecorded.fs b!"/f" = true ∧
    (doubledRecorded.openRead b!"/f").isSome = true ∧ doubledRecorded.openRead b!"/nowhere/f" = none := by
  unfold doubledRecorded
  refine ⟨?_, ?_, ?_, ?_⟩ <;> decide +kernel

/-- What is known of the comparing run, whatever is set at its end. -/
theorem doubled_run (e : Ending) : (main (whole reference (fun _ => 0, fun _ => 0) 40) (lateTest doubled fun _ _ => e) 3 [b!"prog", b!"-I", b!"/f"] ⟨{}, doubledRecorded⟩).2 =
    .ok (by classical exact if e.value ≠ e.expected.getD 0 then e.value else if CanBeRead doubledRecorded (e.baseline.getD b!"/f") (e.searchPath.getD []) then 1 else 0) := by
  obtain ⟨-, n, h1, h2, h3⟩ := C133_what_counts reference reference_conforms (fun _ => 0, fun _ => 0) 40 (64 / 8388608) (64 / 8388608) [] [] doubled (fun _ _ => e) b!"prog" [(b!"-O", b!"/f")] [] 3 shop shop_comment b!"/f"
    (by simp [IsOption]) (by simp [Refused]) (by simp [Stops, IsOption]) (by decide) (by decide) (by decide) (by decide) rfl (.inl (by decide)) doubledRecorded rfl
    b!"prog" [(b!"-I", b!"/f")] [] 3 doubledRecorded b!"/f" b!"/f" (by simp [IsOption]) (by simp [Refused, doubledRecorded_files]) (by simp [Stops, IsOption]) (by decide) (by decide) (by decide) (by decide)
    .asIs rfl e rfl [.value ⟨b!"i", .integer 100, true⟩] [(64 / 8388608, .value ⟨b!"i", .integer 200, true⟩)] rfl rfl
    (by
      intro x hx
      obtain rfl := List.mem_singleton.mp hx
      exact ⟨by decide, by decide, (by norm_num : |(100 : Int)| < 2 ^ 30)⟩)
    (by
      intro y hy
      obtain rfl := List.mem_singleton.mp hy
      exact ⟨⟨by decide, by decide, (by norm_num : |(200 : Int)| < 2 ^ 30)⟩, by norm_num, by norm_num⟩)
    (by
      intro x t i a b hq _ _ hb _
      simp only [List.zip_cons_cons, List.zip_nil_left, List.mem_cons, List.not_mem_nil, or_false, Prod.mk.injEq, Thing.value.injEq] at hq
      rw [hq.2.2] at hb
      cases hb)
  simp only [refusals] at h2 h3
  rw [if_neg (by
    rintro ⟨-, h⟩
    simp only at h
    rw [if_pos (by norm_num)] at h
    rcases h with h | h <;> norm_num [abs_of_pos, abs_of_neg] at h)] at h2
  have : n = 1 := by
    have : n ≤ 1 := le_trans h3 (by split <;> omega)
    omega
  subst this
  exact h1

/-- A test that changes nothing: the difference is returned. -/
example : (main (whole reference (fun _ => 0, fun _ => 0) 40) (lateTest doubled fun _ _ => {}) 3 [b!"prog", b!"-I", b!"/f"] ⟨{}, doubledRecorded⟩).2 = .ok 1 := by
  refine (doubled_run {}).trans ?_
  rw [if_neg (by decide), if_pos]
  obtain ⟨bytes, hb⟩ := Option.isSome_iff_exists.mp doubledRecorded_files.2.2.1
  exact ⟨by decide, b!"/f", bytes, .asIs, hb⟩

/-- One that forgets its baseline: 0. -/
example : (main (whole reference (fun _ => 0, fun _ => 0) 40) (lateTest doubled fun _ _ => { baseline := some [] }) 3 [b!"prog", b!"-I", b!"/f"] ⟨{}, doubledRecorded⟩).2 = .ok 0 := by
  refine (doubled_run { baseline := some [] }).trans ?_
  rw [if_neg (by decide), if_neg]
  rintro ⟨h, -⟩
  exact h rfl

/-- One that names another, which is not there: 0. -/
example : (main (whole reference (fun _ => 0, fun _ => 0) 40) (lateTest doubled fun _ _ => { baseline := some b!"/nowhere/f" }) 3 [b!"prog", b!"-I", b!"/f"] ⟨{}, doubledRecorded⟩).2 = .ok 0 := by
  refine (doubled_run { baseline := some b!"/nowhere/f" }).trans ?_
  rw [if_neg (by decide), if_neg]
  rintro ⟨-, place, bytes, h, hb⟩
  cases h
  exact absurd hb (by rw [show (Option.getD (some b!"/nowhere/f") b!"/f" : Str) = b!"/nowhere/f" from rfl, doubledRecorded_files.2.2.2]; exact fun h => nomatch h)

/-- One that has come to expect 3 and returns it: the difference is returned; one that returns 0 then returns 0 from `Main`. -/
example : (main (whole reference (fun _ => 0, fun _ => 0) 40) (lateTest doubled fun _ _ => { expected := some 3, value := 3 }) 3 [b!"prog", b!"-I", b!"/f"] ⟨{}, doubledRecorded⟩).2 = .ok 1 ∧
    (main (whole reference (fun _ => 0, fun _ => 0) 40) (lateTest doubled fun _ _ => { expected := some 3 }) 3 [b!"prog", b!"-I", b!"/f"] ⟨{}, doubledRecorded⟩).2 = .ok 0 := by
  refine ⟨(doubled_run { expected := some 3, value := 3 }).trans ?_, (doubled_run { expected := some 3 }).trans ?_⟩
  · rw [if_neg (by decide), if_pos]
    obtain ⟨bytes, hb⟩ := Option.isSome_iff_exists.mp doubledRecorded_files.2.2.1
    exact ⟨by decide, b!"/f", bytes, .asIs, hb⟩
  · rw [if_pos (by decide)]

end Verif.Whole
