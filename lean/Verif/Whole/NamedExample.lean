import Verif.Whole.Named
import Verif.Whole.LateExample

/-!
# Property C134: concrete runs
-/

namespace Verif.Whole
open Verif.Measurement Verif.Regression Verif.Regression.Spec Verif.Xml Verif.Xml.Spec Spec
open Verif.Itk.Spec (LookedUp)

/-- The files when `/f` has been opened. -/
def opened : World := (shop.openWrite b!"/f").getD shop

theorem opened_files : shop.openWrite b!"/f" = some opened ∧ (opened.openRead b!"/t/data/plain.txt").isSome = true ∧ opened.openRead b!"/nowhere" = none :=
  ⟨by rfl, by decide +kernel, by decide +kernel⟩

/-- A baseline that is there: the two measurements after it is named fail, and the document ends with them. -/
example : (main (whole reference (fun _ => 0, fun _ => 0) 40) (namingTest [.integer 1 b!"a" true] b!"/t/data/plain.txt" [.integer 2 b!"b" true, .textString b!"x" b!"c"] 0) 3 [b!"prog", b!"-O", b!"/f"] ⟨{}, shop⟩).2 = .ok 2 ∧
    (main (whole reference (fun _ => 0, fun _ => 0) 40) (namingTest [.integer 1 b!"a" true] b!"/t/data/plain.txt" [.integer 2 b!"b" true, .textString b!"x" b!"c"] 0) 3 [b!"prog", b!"-O", b!"/f"] ⟨{}, shop⟩).1.world.bytes b!"/f" =
      header shop ++ b!"<DartMeasurement name=\"a\" type=\"numeric/integer\">1</DartMeasurement>\n<DartMeasurement name=\"Unmatched b\" type=\"numeric/integer\">2</DartMeasurement>\n<DartMeasurement name=\"Unmatched c\" type=\"text/string\">x</DartMeasurement>\n" := by
  obtain ⟨h1, h2⟩ := C134_named_inside [] (whole reference (fun _ => 0, fun _ => 0) 40) [.integer 1 b!"a" true] [.integer 2 b!"b" true, .textString b!"x" b!"c"] b!"/t/data/plain.txt" 0 b!"prog" [(b!"-O", b!"/f")] [] 3 shop opened b!"/f"
    (by simp [IsOption]) (by simp [Refused]) (by simp [Stops, IsOption]) (by decide) (by decide) (by decide) (by decide) opened_files.1 (.inl (by decide))
  have hc : CanBeRead opened b!"/t/data/plain.txt" ((values b!"-P" [(b!"-O", b!"/f")]).reverse ++ []) := by
    obtain ⟨bytes, hb⟩ := Option.isSome_iff_exists.mp opened_files.2.1
    exact ⟨by decide, _, bytes, .asIs, hb⟩
  rw [if_neg (by decide), if_pos hc] at h1
  rw [if_pos hc] at h2
  refine ⟨h1, Eq.trans h2 ?_⟩
  rw [List.append_assoc]
  congr 1
  clear h1 h2 hc
  decide +kernel

/-- One that is not there: nothing happens. -/
example : (main (whole reference (fun _ => 0, fun _ => 0) 40) (namingTest [.integer 1 b!"a" true] b!"/nowhere" [.integer 2 b!"b" true] 0) 3 [b!"prog", b!"-O", b!"/f"] ⟨{}, shop⟩).2 = .ok 0 := by
  obtain ⟨h1, -⟩ := C134_named_inside [] (whole reference (fun _ => 0, fun _ => 0) 40) [.integer 1 b!"a" true] [.integer 2 b!"b" true] b!"/nowhere" 0 b!"prog" [(b!"-O", b!"/f")] [] 3 shop opened b!"/f"
    (by simp [IsOption]) (by simp [Refused]) (by simp [Stops, IsOption]) (by decide) (by decide) (by decide) (by decide) opened_files.1 (.inl (by decide))
  rw [if_neg (by decide), if_neg] at h1
  · exact h1
  · rintro ⟨-, place, bytes, h, hb⟩
    cases h
    rw [opened_files.2.2] at hb
    cases hb

end Verif.Whole
