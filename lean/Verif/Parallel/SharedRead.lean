import Verif.Parallel.SharedProps

/-!
# Property C124: what is left when runs have recorded to the same file at the same time
-/

set_option linter.unusedSimpArgs false

namespace Verif.Parallel
open Spec Verif.Regression Verif.Regression.Spec Verif.Measurement Verif.Xml Verif.Xml.Spec
open Verif.Path (isFile isReadable isWritable isDirectory searchPathList)

variable {ι : Type} [DecidableEq ι]

/-- **C124.** If the documents of all runs have the same length, the file has that length, and each of its bytes is the byte of one of the documents at that place. -/
theorem C124_same_length [Nonempty ι] (f : Str) (hf : f ≠ []) (g : Files) (h0 : CanBeOutput g f) (xs : ι → Start) (hx : ∀ i, Records g f (xs i)) (sched : List (Turn ι)) (z : Shared ι)
    (hz : turns f sched (begin g xs) = z) (hend : ∀ i, ∃ r, (z.procs i).stage = .ended r) (hdone : ∀ i, (z.stream i).pending = []) (n : Nat) (hn : ∀ i, (document g f (xs i)).length = n) :
    (z.files.bytes (cstr f)).length = n ∧ ∀ k, k < n → ∃ i, (z.files.bytes (cstr f))[k]? = (document g f (xs i))[k]? := by
  obtain ⟨-, ⟨j, h1⟩, -, ⟨i, h2⟩, -⟩ := C124_shared_output f hf g h0 xs hx sched z hz hend hdone
  rw [hn] at h1 h2
  refine ⟨?_, fun k hk => ?_⟩
  · by_contra hne
    obtain ⟨i, h3, h4⟩ := h1 (z.files.bytes (cstr f)).length (by omega)
    rw [List.getElem?_eq_none (le_refl _)] at h4
    have := List.getElem?_eq_none_iff.mp h4.symm
    omega
  · obtain ⟨i, -, h4⟩ := h1 k hk
    exact ⟨i, h4⟩

/-- **C124.** If the documents of all runs are the same (which takes the same name of the host and the same time), that document is left. -/
theorem C124_same_document [Nonempty ι] (f : Str) (hf : f ≠ []) (g : Files) (h0 : CanBeOutput g f) (xs : ι → Start) (hx : ∀ i, Records g f (xs i)) (sched : List (Turn ι)) (z : Shared ι)
    (hz : turns f sched (begin g xs) = z) (hend : ∀ i, ∃ r, (z.procs i).stage = .ended r) (hdone : ∀ i, (z.stream i).pending = []) (d : Str) (hd : ∀ i, document g f (xs i) = d) :
    z.files.bytes (cstr f) = d := by
  obtain ⟨h1, h2⟩ := C124_same_length f hf g h0 xs hx sched z hz hend hdone d.length (fun i => by rw [hd])
  apply List.ext_getElem?
  intro k
  by_cases hk : k < d.length
  · obtain ⟨i, hi⟩ := h2 k hk
    rw [hi, hd]
  · rw [List.getElem?_eq_none (by omega), List.getElem?_eq_none (by omega)]

/-- No two hyphens, if there are none in the first part and no hyphen at all in the second. -/
theorem no_double_append (p q : Str) (hp : ∀ a b, p ≠ a ++ b!"--" ++ b) (hq : ∀ c ∈ q, c ≠ 45) : ∀ a b, p ++ q ≠ a ++ b!"--" ++ b := by
  intro a b h
  have e0 : (p ++ q)[a.length]? = some 45 := by rw [h]; simp
  have e1 : (p ++ q)[a.length + 1]? = some 45 := by rw [h]; simp
  by_cases hl : a.length + 1 < p.length
  · have h3 : a ++ b!"--" <+: p := List.prefix_of_prefix_length_le (l₃ := p ++ q) ⟨b, h.symm⟩ ⟨q, rfl⟩ (by simp; omega)
    obtain ⟨r, hr⟩ := h3
    exact hp a r hr.symm
  · rw [List.getElem?_append_right (by omega)] at e1
    exact hq _ (List.mem_of_getElem? e1) rfl

theorem comment_other_time (w w' : World) (hhost : w.host = w'.host) (h : Comment (commentText w)) (ht : ∀ c ∈ w'.time, Printable c ∧ c ≠ 45) : Comment (commentText w') := by
  obtain ⟨h1, h2, -⟩ := h
  have e : ∀ v : World, commentText v = (b!" created on " ++ cstr v.host ++ b!" at ") ++ (v.time ++ b!" ") := by
    intro v; simp [commentText]
  rw [e] at h1 h2 ⊢
  rw [← hhost]
  refine ⟨fun x hx => ?_, ?_, ?_⟩
  · rcases List.mem_append.mp hx with hx | hx
    · exact h1 x (List.mem_append_left _ hx)
    · rcases List.mem_append.mp hx with hx | hx
      · exact (ht x hx).1
      · rw [List.mem_singleton.mp hx]; decide
  · refine no_double_append _ _ (fun a b hab => ?_) ?_
    · apply h2 a (b ++ (w.time ++ b!" "))
      rw [hab, List.append_assoc]
    · intro c hc
      rcases List.mem_append.mp hc with hc | hc
      · exact (ht c hc).2
      · rw [List.mem_singleton.mp hc]; decide
  · rw [← List.append_assoc, List.getLast?_concat]
    decide

/-- **C124.** The same measurements recorded to the same file by any number of runs on one host at the same time: every run returns what its test returns, and whatever the schedule, the file that
is left reads as these measurements, even if the times in the documents are different (texts of the same length). -/
theorem C124_same_measurements [Nonempty ι] (X : Expat) (hX : Conforms X) (env : Env) (v : Int) (cs : List Call) (hclean : ∀ c ∈ cs, Clean (recordedMeas c)) (fuel : Nat) (hfuel : 1 < fuel) (prog : ι → Str) (f host : Str)
    (time : ι → Str) (len : Nat) (hlen : ∀ i, (time i).length = len) (htime : ∀ i, ∀ c ∈ time i, Printable c ∧ c ≠ 45)
    (g : Files) (hf : f ≠ []) (h0 : CanBeOutput g f) (hread : g.fs.stat (cstr f) = some .regular → g.fs.canRead (cstr f) = true)
    (hcomment : ∀ i, Comment (commentText ((recordingRun X env v cs fuel (prog i) f host (time i)).state g).world))
    (sched : List (Turn ι)) (z : Shared ι) (hz : turns f sched (begin g fun i => recordingRun X env v cs fuel (prog i) f host (time i)) = z)
    (hend : ∀ i, ∃ r, (z.procs i).stage = .ended r) (hdone : ∀ i, (z.stream i).pending = []) :
    (∀ i, (z.procs i).stage = .ended (.ok v)) ∧ readXML X (z.files.bytes (cstr f)) = .ok (cs.map recordedMeas) := by
  have hm : ∀ cs : List Call, Measures (straight v cs) := by
    intro cs
    induction cs with
    | nil => trivial
    | cons c cs ih => exact fun _ => ih
  have hx : ∀ i, Records g f (recordingRun X env v cs fuel (prog i) f host (time i)) := by
    intro i
    refine ⟨prog i, [(b!"-O", f)], [], rfl, ?_, ?_, ?_, hfuel, ?_, ?_, rfl, rfl, rfl, hm cs⟩
    · simp [IsOption]
    · simp [Refused]
    · simp [Stops]
    · simp [lastValue]
    · simp [lastValue]
  obtain ⟨w, hw⟩ : ∃ w : Str → World, w = fun t => ⟨g.fs, g.bytes, g.creatable, [], host, t⟩ := ⟨_, rfl⟩
  have hrun : ∀ i, document g f (recordingRun X env v cs fuel (prog i) f host (time i)) = header (w (time i)) ++ (cs.map fun c => line (recordedMeas c)).flatten ++ footer ∧
      result g (recordingRun X env v cs fuel (prog i) f host (time i)) = .ok v := by
    intro i
    obtain ⟨⟨-, -, r3, -⟩, r5⟩ := record_run_at (64 / 8388608) [] [] (by simp [Stops]) X env v cs fuel hfuel (prog i) f (w (time i)) hf (by rw [hw]; exact h0.2.2) (by
      rw [hw]
      rcases h0.1 with h | h
      · exact Or.inl h
      · exact Or.inr ⟨hread h, h0.2.1⟩)
    have e : (recordingRun X env v cs fuel (prog i) f host (time i)).state g = ⟨{ tolerance := 64 / 8388608, searchPath := [] }, w (time i)⟩ := by rw [hw]; rfl
    refine ⟨?_, ?_⟩
    · rw [document, e]
      rw [World.openRead] at r3
      split at r3
      · exact Option.some.inj r3
      · cases r3
    · rw [result, e]
      exact r5
  have hres := (C124_shared_output f hf g h0 _ hx sched z hz hend hdone).1
  refine ⟨fun i => by rw [hres i, (hrun i).2], ?_⟩
  -- the parts of the documents
  obtain ⟨pre, hpre⟩ : ∃ pre : Str, pre = b!"<?xml version=\"1.0\" encoding=\"US-ASCII\"?>\n" ++ b!"<!-- created on " ++ cstr host ++ b!" at " := ⟨_, rfl⟩
  obtain ⟨post, hpost⟩ : ∃ post : Str, post = b!" -->\n" ++ b!"<output>\n" ++ (cs.map fun c => line (recordedMeas c)).flatten ++ footer := ⟨_, rfl⟩
  have hparts : ∀ t, header (w t) ++ (cs.map fun c => line (recordedMeas c)).flatten ++ footer = pre ++ t ++ post := by
    intro t
    rw [hpre, hpost, hw, header]
    simp only [List.append_assoc]
  have hdoc : ∀ i, document g f (recordingRun X env v cs fuel (prog i) f host (time i)) = pre ++ time i ++ post := fun i => by rw [(hrun i).1, hparts]
  obtain ⟨b, hb⟩ : ∃ b, b = z.files.bytes (cstr f) := ⟨_, rfl⟩
  obtain ⟨k1, k2⟩ := C124_same_length f hf g h0 _ hx sched z hz hend hdone (pre.length + len + post.length) (fun i => by rw [hdoc i, List.length_append, List.length_append, hlen i])
  rw [← hb] at k1 k2 ⊢
  simp only [hdoc] at k2
  obtain ⟨t, ht⟩ : ∃ t, t = (b.drop pre.length).take len := ⟨_, rfl⟩
  have htl : t.length = len := by rw [ht, List.length_take, List.length_drop]; omega
  have hbt : b = pre ++ t ++ post := by
    apply List.ext_getElem?
    intro k
    by_cases c1 : k < pre.length
    · obtain ⟨i, hi⟩ := k2 k (by omega)
      rw [hi, List.append_assoc, List.append_assoc, List.getElem?_append_left c1, List.getElem?_append_left c1]
    · by_cases c2 : k < pre.length + len
      · rw [List.append_assoc, List.getElem?_append_right (by omega), List.getElem?_append_left (by omega), ht, List.getElem?_take_of_lt (by omega), List.getElem?_drop]
        congr 1
        omega
      · by_cases c3 : k < pre.length + len + post.length
        · obtain ⟨i, hi⟩ := k2 k c3
          rw [hi, List.getElem?_append_right (by rw [List.length_append, hlen i]; omega), List.getElem?_append_right (by rw [List.length_append, htl]; omega)]
          rw [List.length_append, List.length_append, hlen i, htl]
        · rw [List.getElem?_eq_none (by omega), List.getElem?_eq_none (by rw [List.length_append, List.length_append, htl]; omega)]
  have htc : ∀ c ∈ t, Printable c ∧ c ≠ 45 := by
    intro c hc
    obtain ⟨k, hk, hkc⟩ := List.mem_iff_getElem.mp hc
    have hk' : b[pre.length + k]? = some c := by
      rw [hbt, List.append_assoc, List.getElem?_append_right (by omega), List.getElem?_append_left (by omega), ← hkc]
      rw [show pre.length + k - pre.length = k by omega]
      exact List.getElem?_eq_getElem hk
    obtain ⟨i, hi⟩ := k2 (pre.length + k) (by omega)
    rw [hk', List.append_assoc, List.getElem?_append_right (by omega), List.getElem?_append_left (by rw [hlen i]; omega)] at hi
    exact htime i c (List.mem_of_getElem? hi.symm)
  obtain ⟨i0⟩ := ‹Nonempty ι›
  have hc0 : Comment (commentText (w t)) := comment_other_time _ _ (by rw [hw]; rfl) (hcomment i0) (by rw [hw]; exact htc)
  rw [hbt, ← hparts t]
  exact read_recording X hX cs (w t) hc0 hclean

end Verif.Parallel
