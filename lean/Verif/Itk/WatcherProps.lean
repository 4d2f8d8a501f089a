import Verif.Itk.Watcher

namespace Verif.Itk
open Spec

/-- What is known of the counter. -/
def Counts : Option Int → Option Nat → Prop
  | none, none => True
  | some n, some k => n = k
  | _, _ => False

theorem run_text : ∀ (es : List Event) (w : Watcher) (k : Option Nat), Counts w.iterations k → k.getD 0 < 2 ^ 31 → Orderly k es →
    ∃ w', w.run es = .ok w' ∧ w'.os = w.os ++ (es.map (piece w.name w.comment)).flatten
  | [], w, _, _, _, _ => ⟨w, rfl, by simp⟩
  | .start :: r, w, k, _, _, ho => by
    obtain ⟨w', h1, h2⟩ := run_text r { w with steps := 0, iterations := some 0, os := w.os ++ b!"-------- Start " ++ w.name ++ b!" \"" ++ w.comment ++ b!"\" " } (some 0) rfl (by decide)
      (by cases k <;> exact ho)
    exact ⟨w', h1, by rw [h2]; simp [piece, List.append_assoc]⟩
  | .finish :: r, w, k, hk, hb, ho => by
    obtain ⟨w', h1, h2⟩ := run_text r { w with os := w.os ++ b!"\n" ++ b!"-------- End " ++ w.name ++ b!" \"" ++ w.comment ++ b!"\" " ++ b!"\n" } k hk hb (by cases k <;> exact ho)
    exact ⟨w', h1, by rw [h2]; simp [piece, List.append_assoc]⟩
  | .progress :: r, w, k, hk, hb, ho => by
    obtain ⟨w', h1, h2⟩ := run_text r w k hk hb (by cases k <;> exact ho)
    exact ⟨w', h1, by rw [h2]; simp [piece]⟩
  | .abort :: r, w, k, hk, hb, ho => by
    obtain ⟨w', h1, h2⟩ := run_text r { w with os := w.os ++ b!"\n" ++ b!"      ABORT" ++ b!"\n" } k hk hb (by cases k <;> exact ho)
    exact ⟨w', h1, by rw [h2]; simp [piece, List.append_assoc]⟩
  | .iteration :: r, w, k, hk, hb, ho => by
    cases k with
    | none => exact absurd ho (by simp [Orderly])
    | some k =>
      obtain ⟨hk1, ho⟩ : k + 1 < 2 ^ 31 ∧ Orderly (some (k + 1)) r := ho
      cases hi : w.iterations with
      | none => rw [hi] at hk; exact absurd hk (by simp [Counts])
      | some n =>
        rw [hi] at hk
        have hn : n = k := hk
        obtain ⟨w', h1, h2⟩ := run_text r { w with os := w.os ++ b!" # ", iterations := some (n + 1) } (some (k + 1)) (show n + 1 = ((k + 1 : Nat) : Int) by omega) hk1 ho
        refine ⟨w', ?_, by rw [h2]; simp [piece, List.append_assoc]⟩
        rw [Watcher.run]
        simp only [Watcher.notify, hi]
        rw [if_neg (by omega)]
        exact h1

/-- **C93.** The text of a watched filter is the texts of its events, one after the other; nothing else about the process enters. -/
theorem C93_text (name comment : Str) (es : List Event) (h : Orderly none es) :
    ∃ w', Watcher.run { name := name, comment := comment, os := [] } es = .ok w' ∧ w'.os = (es.map (piece name comment)).flatten := by
  obtain ⟨w', h1, h2⟩ := run_text es { name := name, comment := comment, os := [] } none trivial (by decide) h
  exact ⟨w', h1, by simpa using h2⟩

/-- The pieces can be told apart by their first two characters. -/
theorem pieces_unique (name comment : Str) : ∀ es fs : List Event, Event.progress ∉ es → Event.progress ∉ fs →
    (es.map (piece name comment)).flatten = (fs.map (piece name comment)).flatten → es = fs
  | [], [], _, _, _ => rfl
  | [], f :: fs, _, hf, h => by cases f <;> simp [piece] at h hf
  | e :: es, [], he, _, h => by cases e <;> simp [piece] at h he
  | e :: es, f :: fs, he, hf, h => by
    have he' : Event.progress ∉ es := fun hh => he (List.mem_cons_of_mem _ hh)
    have hf' : Event.progress ∉ fs := fun hh => hf (List.mem_cons_of_mem _ hh)
    have hef : e = f := by
      cases e <;> cases f <;> simp [piece] at h he hf ⊢
    subst hef
    rw [List.map_cons, List.map_cons, List.flatten_cons, List.flatten_cons, List.append_cancel_left_eq] at h
    rw [pieces_unique name comment es fs he' hf' h]

theorem drop_progress (name comment : Str) (es : List Event) : (es.map (piece name comment)).flatten = ((es.filter (· ≠ .progress)).map (piece name comment)).flatten := by
  induction es with
  | nil => rfl
  | cons e r ih =>
    by_cases h : e = .progress
    · subst h
      rw [List.filter_cons_of_neg (by simp), ← ih]
      simp [piece]
    · rw [List.filter_cons_of_pos (by simpa using h)]
      simp [ih]

/-- **C93.** Two runs of filters of the same class, watched with the same comment, print the same text exactly if they had the same events, not counting progress: however often
progress is reported, the text is the same, and any other difference shows. -/
theorem C93_same_text (name comment : Str) (es fs : List Event) (h : Orderly none es) (h' : Orderly none fs) :
    ∃ v w, Watcher.run { name := name, comment := comment, os := [] } es = .ok v ∧ Watcher.run { name := name, comment := comment, os := [] } fs = .ok w ∧
      (v.os = w.os ↔ es.filter (· ≠ .progress) = fs.filter (· ≠ .progress)) := by
  obtain ⟨v, v1, v2⟩ := C93_text name comment es h
  obtain ⟨w, w1, w2⟩ := C93_text name comment fs h'
  refine ⟨v, w, v1, w1, ?_⟩
  rw [v2, w2, drop_progress name comment es, drop_progress name comment fs]
  exact ⟨pieces_unique name comment _ _ (by simp) (by simp), fun h => by rw [h]⟩

/-- **C93.** An iteration before any start reads a member that was never set. -/
theorem C93_uninitialised (name comment : Str) (r : List Event) : IsUB (Watcher.run { name := name, comment := comment, os := [] } (.iteration :: r)) := ⟨_, rfl⟩

theorem run_disorderly : ∀ (es : List Event) (w : Watcher) (k : Option Nat), Counts w.iterations k → k.getD 0 < 2 ^ 31 → ¬ Orderly k es → IsUB (w.run es)
  | [], w, k, _, _, ho => absurd (by cases k <;> trivial) ho
  | .start :: r, w, k, _, _, ho =>
    run_disorderly r { w with steps := 0, iterations := some 0, os := w.os ++ b!"-------- Start " ++ w.name ++ b!" \"" ++ w.comment ++ b!"\" " } (some 0) rfl (by decide)
      (fun h => ho (by cases k <;> exact h))
  | .finish :: r, w, k, hk, hb, ho =>
    run_disorderly r { w with os := w.os ++ b!"\n" ++ b!"-------- End " ++ w.name ++ b!" \"" ++ w.comment ++ b!"\" " ++ b!"\n" } k hk hb (fun h => ho (by cases k <;> exact h))
  | .progress :: r, w, k, hk, hb, ho => run_disorderly r w k hk hb (fun h => ho (by cases k <;> exact h))
  | .abort :: r, w, k, hk, hb, ho =>
    run_disorderly r { w with os := w.os ++ b!"\n" ++ b!"      ABORT" ++ b!"\n" } k hk hb (fun h => ho (by cases k <;> exact h))
  | .iteration :: r, w, k, hk, hb, ho => by
    cases hi : w.iterations with
    | none => exact ⟨_, by rw [Watcher.run]; simp only [Watcher.notify, hi]; rfl⟩
    | some n =>
      cases k with
      | none => rw [hi] at hk; exact absurd hk (by simp [Counts])
      | some k =>
        rw [hi] at hk
        have hn : n = k := hk
        simp only [Option.getD_some] at hb
        rw [Watcher.run]
        simp only [Watcher.notify, hi]
        by_cases he : n = 2147483647
        · rw [if_pos he]; exact ⟨_, rfl⟩
        · rw [if_neg he]
          have hk1 : k + 1 < 2 ^ 31 := by omega
          exact run_disorderly r { w with os := w.os ++ b!" # ", iterations := some (n + 1) } (some (k + 1)) (show n + 1 = ((k + 1 : Nat) : Int) by omega) hk1
            (fun h => ho ⟨hk1, h⟩)

/-- **C93, negative.** In every other history - an iteration before the first start, or 2^31 iterations without a start - the behaviour is undefined. -/
theorem C93_defined_iff (name comment : Str) (es : List Event) :
    (Orderly none es → ∃ w', Watcher.run { name := name, comment := comment, os := [] } es = .ok w') ∧
    (¬ Orderly none es → IsUB (Watcher.run { name := name, comment := comment, os := [] } es)) :=
  ⟨fun h => let ⟨w', h1, _⟩ := C93_text name comment es h; ⟨w', h1⟩, run_disorderly es _ none trivial (by decide)⟩

/-- A run with two iterations, and its text. -/
example : Orderly none [.start, .progress, .iteration, .iteration, .finish] ∧
    ((Watcher.run { name := b!"F", comment := b!"c", os := [] } [.start, .progress, .iteration, .iteration, .finish]).map (·.os)) =
      .ok b!"-------- Start F \"c\"  #  # \n-------- End F \"c\" \n" := by
  refine ⟨?_, by decide⟩
  simp [Orderly]

end Verif.Itk
