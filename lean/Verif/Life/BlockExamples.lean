import Verif.Life.BlockPointer

/-!
# C99: the hypotheses are met
-/

namespace Verif.Life
open Spec Verif.Measurement Verif.Base64

/-- Two measurements; data is set, read, copied to the other, both are compared; the text of the first is set. -/
def busy : List Op :=
  [.new (.data { kind := .plain, name := b!"a" }), .new (.data { kind := .plain, name := b!"a" }), .write 0 b!"xy", .transfer 1 0, .compare (fun _ => none) 0 1,
    .copy 0, .read 1, .setContent 0 b!"t"]

/-- Blocks 0 and 1; block 0 is freed at the end. -/
example : memory busy = [.create 0, .use 0, .create 1, .use 0, .use 1, .use 0, .use 1, .use 1, .destroy 0] := by decide +kernel

/-- Decides `TakesOwn`. -/
def takesOwn (l : Values) : Op → Bool
  | .transfer i j =>
    i == j && match l.get i with
      | some (.data d) => d.getData.2.isOk && d.getData.1.data.isSome
      | _ => false
  | _ => false

theorem takesOwn_of {l : Values} {op : Op} (h : TakesOwn l op) : takesOwn l op = true := by
  obtain ⟨i, d, d', cells, rfl, h1, h2, h3⟩ := h
  simp only [takesOwn, h1, h2, beq_self_eq_true, Bool.true_and]
  simpa [Except.isOk, Except.toBool] using h3

/-- Decides `Proper`. -/
def properB (l : Values) : List Op → Bool
  | [] => true
  | op :: ops => !takesOwn l op && properB (l.step op).1 ops

theorem properB_of (ops : List Op) : ∀ l : Values, properB l ops = true → ProperFrom l ops := by
  induction ops with
  | nil => intro l _; trivial
  | cons op ops ih =>
    intro l h
    simp only [properB, Bool.and_eq_true, Bool.not_eq_true'] at h
    exact ⟨fun ht => by rw [takesOwn_of ht] at h; exact absurd h.1 (by decide), ih _ h.2⟩

theorem busy_proper : Proper busy := (proper_iff _).mpr (properB_of _ _ (by decide +kernel))

example : Valid (memory busy) := (C99_valid_iff busy).mpr busy_proper

/-- The second measurement has block 1 and nobody else has. -/
example : Leaked (memory busy) 1 ∧ ∀ j, j ≠ 1 → blockAt busy j ≠ some 1 := (C99_own_block busy busy_proper 1).2 1 (by decide +kernel)

/-- A measurement is given its own data. -/
def own : List Op := [.new (.data { kind := .plain }), .write 0 b!"xy", .transfer 0 0]

/-- The block is freed and then copied from. -/
example : memory own = [.create 0, .use 0, .destroy 0, .create 1, .use 0, .use 1] := by decide +kernel

example : ¬ Valid (memory own) := by
  rw [C99_valid_iff]
  intro h
  refine h [.new (.data { kind := .plain }), .write 0 b!"xy"] (.transfer 0 0) [] rfl ?_
  exact ⟨0, { kind := .plain, data := some [some 120, some 121] }, { kind := .plain, data := some [some 120, some 121] }, [some 120, some 121], rfl, by decide +kernel, by decide +kernel, rfl⟩

/-- When the data is the content there is no such harm. -/
def ownText : List Op := [.new (.data { kind := .plain, content := b!"xy" }), .transfer 0 0]

example : Valid (memory ownText) := (C99_valid_iff ownText).mpr ((proper_iff _).mpr (properB_of _ _ (by decide +kernel)))

/-- Nothing is lost in `busy`. -/
example : ¬ ∃ b, Leaked (memory (busy ++ destroyAll 3)) b := by
  have : memory (busy ++ destroyAll 3) = [.create 0, .use 0, .create 1, .use 0, .use 1, .use 0, .use 1, .use 1, .destroy 0, .destroy 1] := by decide +kernel
  rw [this]
  rintro ⟨b, h1, h2⟩
  simp at h1 h2
  omega

/-- A measurement with data is assigned to. -/
def over : List Op := [.new (.data { kind := .plain }), .new (.data { kind := .plain }), .write 0 b!"xy", .assign 0 1]

example : ∃ b, Leaked (memory (over ++ destroyAll 2)) b :=
  (C99_lost_iff over ((proper_iff _).mpr (properB_of _ _ (by decide +kernel))) 2 (by decide +kernel)).mpr
    ⟨over.take 3, .assign 0 1, [], rfl, Or.inl ⟨0, 1, { kind := .plain, data := some [some 120, some 121] }, { kind := .plain }, rfl, by decide +kernel, by decide +kernel, rfl, rfl⟩⟩

/-- Files "f" with one letter. -/
def oneFile : Files := fun n => if n = b!"f" then some b!"M" else none

/-- A file is compared with a measurement whose base64 text ends by "==": reading throws. -/
def throwing : List Op :=
  [.new (.file { type := b!"text/plain", fileName := b!"f" }), .new (.data { kind := .plain, encoding := b!"base64", content := b!"TQ==" }), .compare oneFile 0 1]

/-- The buffer 0 is freed; the object 1 and its block 2 are lost; block 3 is the one of the measurement. -/
example : memory (throwing ++ destroyAll 2) =
    [.create 0, .use 0, .create 1, .create 2, .use 0, .use 2, .use 1, .destroy 0, .use 1, .create 3, .use 3, .destroy 3] := by decide +kernel

example : ∃ b, Leaked (memory (throwing ++ destroyAll 2)) b :=
  (C99_lost_iff throwing ((proper_iff _).mpr (properB_of _ _ (by decide +kernel))) 2 (by decide +kernel)).mpr
    ⟨throwing.take 2, .compare oneFile 0 1, [], rfl,
      Or.inr ⟨oneFile, 0, 1, .thrown "invalid base64 string, unexpected end", rfl, by decide +kernel, { type := b!"text/plain", fileName := b!"f" }, Or.inl (by decide +kernel)⟩⟩

/-- A pointer to the data of measurement 0 may be used while everything else happens. -/
example : Leaked (memory (busy.take 3 ++ [.transfer 1 0, .compare (fun _ => none) 0 1, .setEncoding 0 b!"base64", .read 0, .destroy 1, .assign 0 0])) 0 :=
  (C99_pointer_stays (busy.take 3) _ ((proper_iff _).mpr (properB_of _ _ (by decide +kernel))) 0 0 (by decide +kernel)
    (fun op hop => by
      simp only [List.mem_cons, List.not_mem_nil, or_false] at hop
      rcases hop with rfl | rfl | rfl | rfl | rfl | rfl <;> simp [Ends])).1

example : Ev.destroy 0 ∈ memory (busy.take 3 ++ [.setContent 0 b!"t"]) :=
  C99_pointer_ends (busy.take 3) 0 0 (by decide +kernel) (.setContent 0 b!"t") rfl (fun j => by simp)

example : Ev.destroy 0 ∈ memory (busy.take 3 ++ [.transfer 0 1]) :=
  C99_pointer_ends_transfer (busy.take 3) 0 1 0 (by decide +kernel) { kind := .plain, name := b!"a" } { kind := .plain, name := b!"a" } [] (by decide +kernel) (by decide +kernel)

end Verif.Life
