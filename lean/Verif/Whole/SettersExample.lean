import Verif.Regression.SettersProps
import Verif.Whole.LateExample

/-!
# Property C135: a concrete object
-/

namespace Verif.Whole
open Verif.Regression Verif.Regression.Spec

/-- `-R 7 -O /g -P /t/data -R 3 -O /f` is the same as the calls for 3, `/t/data` and `/f`, for every test. -/
example (env : Env) (test : List Str → Prog) :
    main env test 6 [b!"prog", b!"-R", b!"7", b!"-O", b!"/g", b!"-P", b!"/t/data", b!"-R", b!"3", b!"-O", b!"/f", b!"one"] ⟨{}, fileRecorded⟩ =
      main env test 1 [b!"prog", b!"one"] ⟨{ expected := 3, searchPath := [b!"/t/data"], outFileName := b!"/f" }, fileRecorded⟩ := by
  refine (C135_options_are_setters env test 6 1 ⟨{}, fileRecorded⟩ b!"prog" [(b!"-R", b!"7"), (b!"-O", b!"/g"), (b!"-P", b!"/t/data"), (b!"-R", b!"3"), (b!"-O", b!"/f")] [b!"one"]
    (by simp [IsOption]) (by simp [Refused, fileRecorded_files]) (by simp [Stops, IsOption]) (by decide) (by decide) ?_).trans ?_
  · intro v hv _
    have : v = b!"/f" := by
      have h : lastValue b!"-O" [(b!"-R", b!"7"), (b!"-O", b!"/g"), (b!"-P", b!"/t/data"), (b!"-R", b!"3"), (b!"-O", b!"/f")] = some b!"/f" := by decide
      rw [h] at hv
      cases hv
      rfl
    subst this
    unfold fileRecorded
    decide +kernel
  · have : strtolInt b!"3" = 3 ∧ strtolInt b!"7" = 7 := by decide +kernel
    simp [afterSetters, setterFor, Setter.on, this]

end Verif.Whole
