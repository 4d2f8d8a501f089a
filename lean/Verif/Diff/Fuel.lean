import Verif.Diff.Lines

/-!
# A result does not depend on how many iterations are allowed

`steps` only bounds the loops of the model: what is computed with some number of steps is computed with any larger number.
-/

set_option linter.unusedVariables false
set_option linter.unusedSimpArgs false

namespace Verif.Diff

theorem bind_mono {α β : Type} {a a' : Except Fault α} {f f' : α → Except Fault β} {r : β} (ha : ∀ x, a = .ok x → a' = .ok x)
    (hf : ∀ x, a = .ok x → f x = .ok r → f' x = .ok r) (h : (a >>= f) = .ok r) : (a' >>= f') = .ok r := by
  cases e : a with
  | error g => rw [e] at h; cases h
  | ok x =>
    rw [e] at h
    rw [ha x e]
    exact hf x e h

theorem findLoop_mono (X Y : List Nat) (b : Box) : ∀ (steps : Nat) (length fmin fmax bmin bmax : Int) (buf : Buf) (r : Part × Buf),
    findLoop X Y b steps length fmin fmax bmin bmax buf = .ok r → findLoop X Y b (steps + 1) length fmin fmax bmin bmax buf = .ok r := by
  intro steps
  induction steps with
  | zero => intro l a c d e buf r h; rw [findLoop] at h; cases h
  | succ steps ih =>
    intro l a c d e buf r h
    rw [findLoop] at h ⊢
    refine bind_mono (fun x q => q) (fun buf _ h => ?_) h
    refine bind_mono (fun x q => q) (fun buf _ h => ?_) h
    refine bind_mono (fun x q => q) (fun s _ h => ?_) h
    cases s with
    | found x y buf => exact h
    | swept buf =>
      simp only at h ⊢
      refine bind_mono (fun x q => q) (fun buf _ h => ?_) h
      refine bind_mono (fun x q => q) (fun buf _ h => ?_) h
      refine bind_mono (fun x q => q) (fun s _ h => ?_) h
      cases s with
      | found x y buf => exact h
      | swept buf => exact ih _ _ _ _ _ _ _ h

theorem eatBack_mono (X Y : List Nat) (b : Box) : ∀ (steps : Nat) (x y : Int) (r : Int × Int), eatBack X Y b steps x y = .ok r → eatBack X Y b (steps + 1) x y = .ok r := by
  intro steps
  induction steps with
  | zero => intro x y r h; rw [eatBack] at h; cases h
  | succ steps ih =>
    intro x y r h
    rw [eatBack] at h ⊢
    split at h
    · next c =>
      rw [if_pos c]
      cases e1 : readLine X (x - 1) with
      | error f => rw [e1] at h; cases h
      | ok u =>
        cases e2 : readLine Y (y - 1) with
        | error f => rw [e1, e2] at h; cases h
        | ok v =>
          rw [e1, e2] at h
          simp only at h ⊢
          split at h
          · next c => rw [if_pos c]; exact ih _ _ _ h
          · next c => rw [if_neg c]; exact h
    · next c => rw [if_neg c]; exact h

theorem eatForward_mono (X Y : List Nat) (b : Box) : ∀ (steps : Nat) (x y : Int) (r : Int × Int), eatForward X Y b steps x y = .ok r →
    eatForward X Y b (steps + 1) x y = .ok r := by
  intro steps
  induction steps with
  | zero => intro x y r h; rw [eatForward] at h; cases h
  | succ steps ih =>
    intro x y r h
    rw [eatForward] at h ⊢
    split at h
    · next c =>
      rw [if_pos c]
      cases e1 : readLine X x with
      | error f => rw [e1] at h; cases h
      | ok u =>
        cases e2 : readLine Y y with
        | error f => rw [e1, e2] at h; cases h
        | ok v =>
          rw [e1, e2] at h
          simp only at h ⊢
          split at h
          · next c => rw [if_pos c]; exact ih _ _ _ h
          · next c => rw [if_neg c]; exact h
    · next c => rw [if_neg c]; exact h

theorem findEditMidPoint_mono (X Y : List Nat) (b : Box) (steps : Nat) (buf : Buf) (r : Part × Buf) (h : findEditMidPoint X Y b steps buf = .ok r) :
    findEditMidPoint X Y b (steps + 1) buf = .ok r := by
  rw [findEditMidPoint] at h ⊢
  refine bind_mono (fun x q => q) (fun buf _ h => ?_) h
  refine bind_mono (fun x q => q) (fun buf _ h => ?_) h
  exact findLoop_mono X Y b _ _ _ _ _ _ _ _ h

theorem generate_mono (X Y : Ids) (steps : Nat) : ∀ (depth : Nat) (b : Box) (buf : Buf) (r : List Edit × Buf),
    generate X Y steps depth b buf = .ok r → generate X Y (steps + 1) (depth + 1) b buf = .ok r := by
  intro depth
  induction depth with
  | zero => intro b buf r h; rw [generate] at h; cases h
  | succ depth ih =>
    intro b buf r h
    rw [generate] at h ⊢
    refine bind_mono (fun x q => q) (fun _ _ h => ?_) h
    split at h
    · next c => rw [if_pos c]; exact h
    next c0 =>
    rw [if_neg c0]
    split at h
    · next c => rw [if_pos c]; exact h
    next c1 =>
    rw [if_neg c1]
    split at h
    · next c =>
      rw [if_pos c]
      refine bind_mono (findEditMidPoint_mono _ _ _ _ _) (fun p _ h => ?_) h
      simp only at h ⊢
      split at h
      · next c =>
        rw [if_pos c]
        refine bind_mono (fun x q => q) (fun u _ h => ?_) h
        refine bind_mono (fun x q => q) (fun v _ h => ?_) h
        split at h
        · next c =>
          rw [if_pos c]
          refine bind_mono (ih _ _) (fun l2 _ h => ?_) h
          refine bind_mono (eatBack_mono _ _ _ _ _ _) (fun xy _ h => ?_) h
          refine bind_mono (ih _ _) (fun l1 _ h => ?_) h
          exact h
        · next c =>
          rw [if_neg c]
          refine bind_mono (ih _ _) (fun l2 _ h => ?_) h
          refine bind_mono (eatForward_mono _ _ _ _ _ _) (fun xy _ h => ?_) h
          refine bind_mono (ih _ _) (fun l1 _ h => ?_) h
          exact h
      · next c => rw [if_neg c]; exact h
    · next c => rw [if_neg c]; exact h

theorem editList_mono (X Y : Ids) (steps depth : Nat) (r : List Edit) (h : editList X Y steps depth = .ok r) : editList X Y (steps + 1) (depth + 1) = .ok r := by
  rw [editList] at h ⊢
  refine bind_mono (eatForward_mono _ _ _ _ _ _) (fun p _ h => ?_) h
  refine bind_mono (eatBack_mono _ _ _ _ _ _) (fun q _ h => ?_) h
  simp only at h ⊢
  split at h
  · next c =>
    rw [if_pos c]
    exact bind_mono (generate_mono X Y steps _ _ _) (fun l _ h => h) h
  · next c => rw [if_neg c]; exact h

theorem classify_mono (T : Bool → List Str) : ∀ (steps id : Nat) (st r : Classes), classify T steps id st = .ok r → classify T (steps + 1) id st = .ok r := by
  intro steps
  induction steps with
  | zero => intro id st r h; rw [classify] at h; cases h
  | succ steps ih =>
    intro id st r h
    rw [classify] at h ⊢
    cases e : nextClass st with
    | none => rw [e] at h; exact h
    | some v =>
      rw [e] at h
      obtain ⟨a, b, c⟩ := v
      simp only at h ⊢
      exact bind_mono (fun x q => q) (fun st _ h => ih _ _ _ h) h

theorem buildLines_mono (steps : Nat) (s0 s1 : Str) (r : Built) (h : buildLines steps s0 s1 = .ok r) : buildLines (steps + 1) s0 s1 = .ok r := by
  rw [buildLines] at h ⊢
  refine bind_mono (fun x q => q) (fun l0 _ h => ?_) h
  refine bind_mono (fun x q => q) (fun l1 _ h => ?_) h
  exact bind_mono (classify_mono _ _ _ _) (fun st _ h => h) h

theorem diffEdits_mono (out : Outside) (steps : Nat) (s0 s1 : Str) (r : Built × List Edit) (h : diffEdits out steps s0 s1 = .ok r) :
    diffEdits out (steps + 1) s0 s1 = .ok r := by
  rw [diffEdits] at h ⊢
  refine bind_mono (buildLines_mono steps s0 s1) (fun d _ h => ?_) h
  exact bind_mono (editList_mono _ _ _ _) (fun l _ h => h) h

theorem diff_mono (out : Outside) (steps : Nat) (s0 s1 : Str) (t : Str) (h : diff out steps s0 s1 = .ok t) : diff out (steps + 1) s0 s1 = .ok t := by
  rw [diff] at h ⊢
  exact bind_mono (diffEdits_mono out steps s0 s1) (fun l _ h => h) h

theorem diffEdits_more (out : Outside) (steps more : Nat) (s0 s1 : Str) (r : Built × List Edit) (h : diffEdits out steps s0 s1 = .ok r) (hm : steps ≤ more) :
    diffEdits out more s0 s1 = .ok r := by
  obtain ⟨k, rfl⟩ : ∃ k, more = steps + k := ⟨more - steps, by omega⟩
  clear hm
  induction k with
  | zero => exact h
  | succ k ih => exact diffEdits_mono out (steps + k) s0 s1 r ih

theorem diff_more (out : Outside) (steps more : Nat) (s0 s1 : Str) (t : Str) (h : diff out steps s0 s1 = .ok t) (hm : steps ≤ more) :
    diff out more s0 s1 = .ok t := by
  obtain ⟨k, rfl⟩ : ∃ k, more = steps + k := ⟨more - steps, by omega⟩
  clear hm
  induction k with
  | zero => exact h
  | succ k ih => exact diff_mono out (steps + k) s0 s1 t ih

end Verif.Diff
