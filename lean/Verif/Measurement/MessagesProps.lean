import Verif.Measurement.Messages
import Verif.Measurement.MessagesSpec
import Verif.Measurement.Props

/-!
# Property C102: what the error stream says about data
-/

set_option linter.unusedSimpArgs false

namespace Verif.Measurement
open Spec

/-! ## The values are those of the model without messages -/

theorem updateM_snd (d : DataM) : d.updateM.2 = d.update := by
  rw [DataM.updateM, DataM.update]
  by_cases h1 : d.encoding = b!"none"
  · simp only [h1, if_true]
  simp only [h1, if_false]
  by_cases h2 : d.encoding = b!"base64"
  · simp only [h2, if_true]
    cases Base64.isBase64 false d.content with
    | error f => rfl
    | ok n =>
      simp only
      by_cases hn : n ≠ 0
      · simp only [if_pos hn]
        cases overlay (Base64.decode false d.content).written (List.replicate n none) <;> rfl
      · simp only [if_neg hn]
  · simp only [h2, if_false]

theorem updateM_fst (d : DataM) : d.updateM.1 = readLines d := by
  rw [DataM.updateM, readLines]
  have hc : compressionLine { d with data := none } =
      if d.compression = b!"none" then [] else [b!"unsupported compression \"" ++ d.compression ++ b!"\" used.\n"] := by
    rw [compressionLine]
    by_cases h : d.compression = b!"none" <;> simp [h]
  simp only [hc]
  by_cases h1 : d.encoding = b!"none"
  · simp only [h1, if_true, List.append_nil]
  simp only [h1, if_false]
  by_cases h2 : d.encoding = b!"base64"
  · simp only [h2, if_true]
    cases Base64.isBase64 false d.content with
    | error f => simp
    | ok n =>
      simp only
      by_cases hn : n ≠ 0
      · simp only [if_pos hn]
        cases overlay (Base64.decode false d.content).written (List.replicate n none) <;> simp [hn]
      · simp only [if_neg hn]
        have : n = 0 := by omega
        cases hcont : d.content <;> simp [this]
  · simp only [h2, if_false, encodingLine]

theorem getDataM_snd (d : DataM) : d.getDataM.2 = d.getData := by
  rw [DataM.getDataM, DataM.getData, ← updateM_snd]
  cases d.data with
  | some b => rfl
  | none =>
    rcases d.updateM with ⟨ms, d', f | u⟩
    · rfl
    · simp only
      cases d'.data <;> rfl

theorem getSizeM_snd (d : DataM) : d.getSizeM.2 = d.getSize := by
  rw [DataM.getSizeM, DataM.getSize, ← updateM_snd]
  cases d.data with
  | some b => rfl
  | none =>
    rcases d.updateM with ⟨ms, d', f | u⟩
    · rfl
    · simp only
      cases d'.data <;> rfl

theorem getDataM_fst (d : DataM) : d.getDataM.1 = if d.data = none then readLines d else [] := by
  rw [DataM.getDataM, ← updateM_fst]
  cases d.data with
  | some b => rfl
  | none =>
    rcases d.updateM with ⟨ms, d', f | u⟩
    · rfl
    · simp only
      cases d'.data <;> rfl

theorem getSizeM_fst (d : DataM) : d.getSizeM.1 = if d.data = none then readLines d else [] := by
  rw [DataM.getSizeM, ← updateM_fst]
  cases d.data with
  | some b => rfl
  | none =>
    rcases d.updateM with ⟨ms, d', f | u⟩
    · rfl
    · simp only
      cases d'.data <;> rfl

theorem setDataM_snd (d : DataM) (bytes : Str) : (d.setDataM bytes).2 = d.setData bytes := by
  rw [DataM.setDataM, DataM.setData]
  by_cases hc : d.compression = b!"none"
  · simp only [hc, ne_eq, not_true_eq_false, if_false]
    by_cases h1 : d.encoding = b!"none"
    · simp only [h1, if_true]
    simp only [h1, if_false]
    by_cases h2 : d.encoding = b!"base64"
    · simp only [h2, if_true]
      cases Base64.encode true bytes <;> rfl
    · simp only [h2, if_false]
  · simp only [ne_eq, hc, not_false_eq_true, if_true]
    by_cases h1 : d.encoding = b!"none"
    · simp only [h1, if_true]
    simp only [h1, if_false]
    by_cases h2 : d.encoding = b!"base64"
    · simp only [h2, if_true]
      cases Base64.encode true [] <;> rfl
    · simp only [h2, if_false]

theorem setDataM_fst (d : DataM) (bytes : Str) : (d.setDataM bytes).1 =
    (if d.compression = b!"none" then [] else [b!"unsupported compression \"" ++ d.compression ++ b!"\" used.\n"]) ++
    (if d.encoding = b!"none" ∨ d.encoding = b!"base64" then [] else [b!"unsupported encoding \"" ++ d.encoding ++ b!"\" used.\n"]) := by
  rw [DataM.setDataM]
  by_cases hc : d.compression = b!"none"
  · simp only [hc, ne_eq, not_true_eq_false, if_false, if_true, compressionLine]
    by_cases h1 : d.encoding = b!"none"
    · simp only [h1, if_true, true_or]; rfl
    simp only [h1, if_false, false_or]
    by_cases h2 : d.encoding = b!"base64"
    · simp only [h2, if_true]
      cases Base64.encode true bytes <;> rfl
    · simp only [h2, if_false, encodingLine]
  · simp only [ne_eq, hc, not_false_eq_true, if_true, if_false, compressionLine]
    by_cases h1 : d.encoding = b!"none"
    · simp only [h1, if_true, true_or, List.append_nil]
    simp only [h1, if_false, false_or]
    by_cases h2 : d.encoding = b!"base64"
    · simp only [h2, if_true, List.append_nil]
      cases Base64.encode true [] <;> rfl
    · simp only [h2, if_false, encodingLine]

/-- Reading the size once more changes nothing. -/
theorem getSize_again {d d' : DataM} {n : Nat} (h : d.getSize = (d', .ok n)) : d'.getSize = (d', .ok n) := by
  rw [DataM.getSize] at h
  cases hd : d.data with
  | some b =>
    rw [hd] at h
    obtain ⟨h1, h2⟩ := Prod.mk.inj h
    subst h1
    rw [getSize_cached hd, ← h2]
  | none =>
    rw [hd] at h
    simp only at h
    have hu2 : ∀ u, d.update = (d', .ok u) → d'.data = none → d'.update = (d', .ok ()) := by
      intro u hu hn
      have : d' = { d with data := none } := by
        rw [DataM.update] at hu
        by_cases h1 : d.encoding = b!"none"
        · simp only [if_pos h1] at hu
          exact ((Prod.mk.inj hu).1).symm
        simp only [if_neg h1] at hu
        by_cases h2 : d.encoding = b!"base64"
        · simp only [if_pos h2] at hu
          cases hi : Base64.isBase64 false d.content with
          | error f => rw [hi] at hu; cases (Prod.mk.inj hu).2
          | ok m =>
            rw [hi] at hu
            simp only at hu
            by_cases hm : m ≠ 0
            · rw [if_pos hm] at hu
              cases ho : overlay (Base64.decode false d.content).written (List.replicate m none) with
              | error f => rw [ho] at hu; cases (Prod.mk.inj hu).2
              | ok block =>
                rw [ho] at hu
                have := (Prod.mk.inj hu).1
                rw [← this] at hn
                cases hn
            · rw [if_neg hm] at hu
              exact ((Prod.mk.inj hu).1).symm
        · simp only [if_neg h2] at hu
          exact ((Prod.mk.inj hu).1).symm
      have hd' : d' = d := by rw [this]; cases d; simp only at hd; subst hd; rfl
      rw [hd'] at hu ⊢
      exact hu
    rcases hu : d.update with ⟨d1, f | u⟩
    · rw [hu] at h; cases (Prod.mk.inj h).2
    · rw [hu] at h
      simp only at h
      cases hd1 : d1.data with
      | some b =>
        rw [hd1] at h
        obtain ⟨h1, h2⟩ := Prod.mk.inj h
        subst h1
        rw [getSize_cached hd1, ← h2]
      | none =>
        rw [hd1] at h
        obtain ⟨h1, h2⟩ := Prod.mk.inj h
        subst h1
        have h3 := hu2 u hu hd1
        rw [DataM.getSize, hd1]
        simp only [h3, hd1]
        rw [h2]

theorem pair_eq' {α β : Type} {p : α × β} {b : β} (h : p.2 = b) : p = (p.1, b) := by rw [← h]

theorem isEqualM_snd (a b : DataM) : (a.isEqualM b).2 = a.isEqual b := by
  rw [DataM.isEqualM, DataM.isEqual]
  by_cases h : a.name = b.name ∧ a.kind.typeName = b.kind.typeName
  · rw [if_pos h, if_pos h]
    have ha := getSizeM_snd a
    rcases hs : a.getSize with ⟨a', f | n1⟩
    · rw [pair_eq' (ha.trans hs)]
    · rw [pair_eq' (ha.trans hs)]
      simp only
      have hb := getSizeM_snd b
      rcases hs2 : b.getSize with ⟨b', f | n2⟩
      · rw [pair_eq' (hb.trans hs2)]
      · rw [pair_eq' (hb.trans hs2)]
        simp only
        by_cases hn : n1 = n2
        · rw [if_pos hn, if_pos hn]
          rw [pair_eq' ((getSizeM_snd a').trans (getSize_again hs))]
          simp only
          have hc := getDataM_snd b'
          rcases hs3 : b'.getData with ⟨b'', f | c2⟩
          · rw [pair_eq' (hc.trans hs3)]
          · rw [pair_eq' (hc.trans hs3)]
            simp only
            have hd := getDataM_snd a'
            rcases hs4 : a'.getData with ⟨a'', f | c1⟩
            · rw [pair_eq' (hd.trans hs4)]
            · rw [pair_eq' (hd.trans hs4)]
        · rw [if_neg hn, if_neg hn]
  · rw [if_neg h, if_neg h]

theorem loadM_snd (files : Files) (f : FileM) : (f.loadM files).2 = f.load files := by
  rw [FileM.loadM, FileM.load]
  cases files (f.fileName.takeWhile (· ≠ 0)) with
  | none => rfl
  | some bytes =>
    cases createDataMeasurement f.type with
    | none => simp only [Option.getD_none, setDataM_snd]
    | some dm => simp only [Option.getD_some, setDataM_snd]

theorem isEqualDataM_snd (files : Files) (f : FileM) (m : DataM) : (f.isEqualDataM files m).2 = f.isEqualData files m := by
  rw [FileM.isEqualDataM, FileM.isEqualData]
  by_cases h : f.name ≠ m.name ∨ f.type ≠ m.kind.typeName
  · rw [if_pos h, if_pos h]
  · rw [if_neg h, if_neg h]
    simp only [loadM_snd, isEqualM_snd]

/-- **C102.** Keeping what is written to the error stream does not change the answer of a comparison, nor the measurements. -/
theorem C102_same_answers (files : Files) (a b : Meas) : (a.isEqualM files b).2 = a.isEqual files b := by
  cases a with
  | data a => cases b with
    | data b => simp only [Meas.isEqualM, Meas.isEqual, isEqualM_snd]
    | file g => simp only [Meas.isEqualM, Meas.isEqual, isEqualDataM_snd]
  | file f => cases b with
    | data b => simp only [Meas.isEqualM, Meas.isEqual, isEqualDataM_snd]
    | file g =>
      rw [Meas.isEqualM, Meas.isEqual]
      by_cases h : f.name ≠ g.name ∨ f.type ≠ g.type
      · rw [if_pos h, if_pos h]
      · rw [if_neg h, if_neg h]
        simp only [isEqualDataM_snd, loadM_snd]

/-! ## Reading -/

/-- **C102.** What is said when data is read: nothing if the measurement keeps data, otherwise one line for a compression other than "none",
and one for an encoding that is not known or text that is not base64.  The measurement and the data are those of the functions themselves. -/
theorem C102_read (d : DataM) :
    d.getDataM = (if d.data = none then readLines d else [], d.getData) ∧ d.getSizeM = (if d.data = none then readLines d else [], d.getSize) :=
  ⟨Prod.ext (getDataM_fst d) (getDataM_snd d), Prod.ext (getSizeM_fst d) (getSizeM_snd d)⟩

theorem readLines_nil (d : DataM) (hd : d.data = none) : readLines d = [] ↔ Quiet d := by
  rw [readLines, Quiet, List.append_eq_nil_iff]
  simp only [hd, ne_eq, not_true_eq_false, false_or]
  by_cases h0 : d.compression = b!"none"
  · simp only [h0, if_true, true_and]
    by_cases h1 : d.encoding = b!"none"
    · simp [h1]
    simp only [h1, if_false, false_or]
    by_cases h2 : d.encoding = b!"base64"
    · simp only [h2, if_true, true_and]
      by_cases h3 : d.content = []
      · simp [h3]
      · by_cases h4 : Base64.isBase64 false d.content = .ok 0 <;> simp [h3, h4]
    · simp [h2]
  · simp [h0]

/-- **C102.** Data is read without a word exactly if it is kept already, or is not compressed and either not encoded or base64. -/
theorem C102_read_silent (d : DataM) : d.getDataM.1 = [] ↔ Quiet d := by
  rw [getDataM_fst]
  by_cases hd : d.data = none
  · rw [if_pos hd]; exact readLines_nil d hd
  · rw [if_neg hd]; exact ⟨fun _ => .inl hd, fun _ => rfl⟩

/-- **C102.** Whoever reads data and hears nothing has the right data: what is kept; the text itself if it is not encoded; and what the text decodes
to if it is base64 (C05), the rest of the block being indeterminate (C32). -/
theorem C102_silence_is_right (d d' : DataM) (block : List Cell) (h : d.getDataM = ([], d', .ok block)) :
    d.data = some block ∨
    (d.data = none ∧ d.compression = b!"none" ∧ d.encoding = b!"none" ∧ block = d.content.map some) ∨
    (d.data = none ∧ d.compression = b!"none" ∧ d.encoding = b!"base64" ∧ d.content = [] ∧ block = []) ∨
    (d.data = none ∧ d.compression = b!"none" ∧ d.encoding = b!"base64" ∧ (∃ u, (Base64.decode false d.content).outcome = .ok u) ∧
      ∃ n, Base64.isBase64 false d.content = .ok n ∧ block = (Base64.decode false d.content).written.map some ++
        List.replicate (n - (Base64.decode false d.content).written.length) none) := by
  cases hd : d.data with
  | some b =>
    left
    rw [DataM.getDataM, hd] at h
    simp only [Prod.mk.injEq, Except.ok.injEq, true_and] at h
    rw [h.2]
  | none =>
    right
    have hq := (C102_read_silent d).mp (by rw [h])
    have hg := getDataM_snd d
    rw [h] at hg
    have hg := hg.symm
    simp only at hg
    rcases hq with hq | ⟨h0, hq⟩
    · exact absurd hd hq
    rcases hq with h1 | ⟨h1, hq⟩
    · left
      refine ⟨rfl, h0, h1, ?_⟩
      simp only [DataM.getData, hd, DataM.update, h1, if_true] at hg
      have := (Prod.mk.inj hg).2
      simpa using this.symm
    · right
      have hne : (b!"base64" : Str) ≠ b!"none" := by decide
      simp only [DataM.getData, hd, DataM.update, h1, if_neg hne, if_true] at hg
      rcases hq with hq | hq
      · left
        refine ⟨rfl, h0, h1, hq, ?_⟩
        have hz : Base64.isBase64 false [] = .ok 0 := by decide
        simp only [hq, hz] at hg
        have := (Prod.mk.inj hg).2
        simpa using this.symm
      · right
        refine ⟨rfl, h0, h1, ?_⟩
        cases hi : Base64.isBase64 false d.content with
        | error f => rw [hi] at hg; cases (Prod.mk.inj hg).2
        | ok n =>
          rw [hi] at hg hq
          have hn : n ≠ 0 := by intro h; rw [h] at hq; exact hq rfl
          simp only [if_pos hn] at hg
          have hfit := Base64.C07_decode_fits false d.content n hi (by omega)
          have ho : overlay (Base64.decode false d.content).written (List.replicate n none) =
              .ok ((Base64.decode false d.content).written.map some ++ List.replicate (n - (Base64.decode false d.content).written.length) none) := by
            rw [overlay, if_pos (by simpa using hfit), List.drop_replicate]
          rw [ho] at hg
          simp only at hg
          cases hoc : (Base64.decode false d.content).outcome with
          | error f => rw [hoc] at hg; cases (Prod.mk.inj hg).2
          | ok u =>
            rw [hoc] at hg
            have := (Prod.mk.inj hg).2
            simp only [Except.ok.injEq] at this
            exact ⟨⟨u, rfl⟩, n, rfl, this.symm⟩

/-- **C102, negative.** A compression is reported and then ignored: the data read is the same as without it. -/
theorem C102_compression_ignored (d : DataM) (hc : d.compression ≠ b!"none") (hd : d.data = none) :
    (b!"unsupported compression \"" ++ d.compression ++ b!"\" used.\n") ∈ d.getDataM.1 ∧
      d.getDataM.2.2 = (d.setCompression b!"none").getDataM.2.2 := by
  refine ⟨?_, ?_⟩
  · rw [getDataM_fst, if_pos hd, readLines, if_neg hc]
    simp
  · rw [getDataM_snd, getDataM_snd, DataM.getData, DataM.getData, DataM.setCompression]
    simp only [hd, DataM.update]
    by_cases h1 : d.encoding = b!"none"
    · simp only [h1, if_true]
    simp only [h1, if_false]
    by_cases h2 : d.encoding = b!"base64"
    · simp only [h2, if_true]
      cases Base64.isBase64 false d.content with
      | error f => rfl
      | ok n =>
        simp only
        by_cases hn : n ≠ 0
        · simp only [if_pos hn]
          cases overlay (Base64.decode false d.content).written (List.replicate n none) with
          | error f => rfl
          | ok b =>
            simp only
            cases (Base64.decode false d.content).outcome <;> rfl
        · simp only [if_neg hn]
    · simp only [h2, if_false]

/-- **C102.** What is said when data is set; and if nothing is said the measurement keeps the data, or (with base64) its text. -/
theorem C102_set (d : DataM) (bytes : Str) :
    d.setDataM bytes = ((if d.compression = b!"none" then [] else [b!"unsupported compression \"" ++ d.compression ++ b!"\" used.\n"]) ++
      (if d.encoding = b!"none" ∨ d.encoding = b!"base64" then [] else [b!"unsupported encoding \"" ++ d.encoding ++ b!"\" used.\n"]), d.setData bytes) ∧
    ((d.setDataM bytes).1 = [] ↔ d.compression = b!"none" ∧ (d.encoding = b!"none" ∨ d.encoding = b!"base64")) := by
  refine ⟨Prod.ext (setDataM_fst d bytes) (setDataM_snd d bytes), ?_⟩
  rw [setDataM_fst]
  by_cases h0 : d.compression = b!"none" <;> by_cases h1 : d.encoding = b!"none" ∨ d.encoding = b!"base64" <;> simp [h0, h1]

/-! ## Comparing -/

/-- Data that was read quietly once is read quietly again. -/
theorem quiet_after {d d' : DataM} {n : Nat} (h : d.getSize = (d', .ok n)) (hq : Quiet d) : d'.getSizeM.1 = [] ∧ d'.getDataM.1 = [] := by
  have hq' : Quiet d' := by
    rw [DataM.getSize] at h
    cases hd : d.data with
    | some b =>
      rw [hd] at h
      rw [← (Prod.mk.inj h).1]
      exact hq
    | none =>
      rw [hd] at h
      simp only at h
      have hkeep : (d.update).1.compression = d.compression ∧ (d.update).1.encoding = d.encoding ∧ (d.update).1.content = d.content := by
        rw [DataM.update]
        by_cases h1 : d.encoding = b!"none"
        · simp only [h1, if_true, and_self]
        simp only [h1, if_false]
        by_cases h2 : d.encoding = b!"base64"
        · simp only [h2, if_true]
          cases Base64.isBase64 false d.content with
          | error f => exact ⟨rfl, h2 ▸ rfl, rfl⟩
          | ok m =>
            simp only
            by_cases hm : m ≠ 0
            · simp only [if_pos hm]
              cases overlay (Base64.decode false d.content).written (List.replicate m none) <;> exact ⟨rfl, h2 ▸ rfl, rfl⟩
            · simp only [if_neg hm, and_self]
        · simp only [h2, if_false, and_self]
      have hd' : d' = (d.update).1 := by
        rcases hu : d.update with ⟨d1, f | u⟩
        · rw [hu] at h; cases (Prod.mk.inj h).2
        · rw [hu] at h
          simp only at h
          cases hd1 : d1.data <;> rw [hd1] at h <;> exact ((Prod.mk.inj h).1).symm
      rcases hq with hq | ⟨h0, hq⟩
      · exact absurd hd hq
      · right
        rw [hd', hkeep.1, hkeep.2.1, hkeep.2.2]
        exact ⟨h0, hq⟩
  constructor
  · rw [getSizeM_fst]
    by_cases hd : d'.data = none
    · rw [if_pos hd]; exact (readLines_nil d' hd).mpr hq'
    · rw [if_neg hd]
  · exact (C102_read_silent d').mpr hq'

theorem getSize_silent (d : DataM) : d.getSizeM.1 = [] ↔ Quiet d := by
  rw [getSizeM_fst]
  by_cases hd : d.data = none
  · rw [if_pos hd]; exact readLines_nil d hd
  · rw [if_neg hd]; exact ⟨fun _ => .inl hd, fun _ => rfl⟩

/-- **C102.** Two data measurements of different names or types are compared without a word.  If name and type are the same and the comparison ends
normally, nothing is said exactly if the data of both can be read without a word. -/
theorem C102_compare_silent (files : Files) (a b : DataM) :
    ((a.name ≠ b.name ∨ a.kind.typeName ≠ b.kind.typeName) → (Meas.isEqualM files (.data a) (.data b)).1 = []) ∧
    (a.name = b.name → a.kind.typeName = b.kind.typeName → ∀ v, (Meas.isEqualM files (.data a) (.data b)).2.2.2 = .ok v →
      ((Meas.isEqualM files (.data a) (.data b)).1 = [] ↔ Quiet a ∧ Quiet b)) := by
  refine ⟨fun h => ?_, fun h1 h2 v hv => ?_⟩
  · rw [Meas.isEqualM]
    simp only [DataM.isEqualM]
    rw [if_neg (by intro hx; rcases h with h | h; exact h hx.1; exact h hx.2)]
  · have hv' : (a.isEqualM b).2.2.2 = .ok v := hv
    show (a.isEqualM b).1 = [] ↔ _
    rw [DataM.isEqualM, if_pos ⟨h1, h2⟩] at hv' ⊢
    have ha := getSizeM_snd a
    have qa := getSize_silent a
    have qb := getSize_silent b
    rcases hs : a.getSize with ⟨a', f | n1⟩
    · rw [pair_eq' (ha.trans hs)] at hv'; cases hv'
    · rw [pair_eq' (ha.trans hs)] at hv' ⊢
      simp only at hv' ⊢
      have hb := getSizeM_snd b
      rcases hs2 : b.getSize with ⟨b', f | n2⟩
      · rw [pair_eq' (hb.trans hs2)] at hv'; cases hv'
      · rw [pair_eq' (hb.trans hs2)] at hv' ⊢
        simp only at hv' ⊢
        by_cases hn : n1 = n2
        · rw [if_pos hn] at hv' ⊢
          rw [pair_eq' ((getSizeM_snd a').trans (getSize_again hs))] at hv' ⊢
          simp only at hv' ⊢
          have hc := getDataM_snd b'
          rcases hs3 : b'.getData with ⟨b'', f | c2⟩
          · rw [pair_eq' (hc.trans hs3)] at hv'; cases hv'
          · rw [pair_eq' (hc.trans hs3)] at hv' ⊢
            simp only at hv' ⊢
            have hd := getDataM_snd a'
            rcases hs4 : a'.getData with ⟨a'', f | c1⟩
            · rw [pair_eq' (hd.trans hs4)] at hv'; cases hv'
            · rw [pair_eq' (hd.trans hs4)]
              simp only [List.append_eq_nil_iff]
              constructor
              · rintro ⟨⟨⟨⟨x1, x2⟩, _⟩, _⟩, _⟩
                exact ⟨qa.mp x1, qb.mp x2⟩
              · rintro ⟨x1, x2⟩
                obtain ⟨y1, y2⟩ := quiet_after hs x1
                obtain ⟨z1, z2⟩ := quiet_after hs2 x2
                exact ⟨⟨⟨⟨qa.mpr x1, qb.mpr x2⟩, y1⟩, z2⟩, y2⟩
        · rw [if_neg hn]
          simp only [List.append_eq_nil_iff, qa, qb]

/-- The line about a file that cannot be opened, or whose type has no data class. -/
theorem loadM_fst (files : Files) (f : FileM) : (f.loadM files).1 =
    match files (f.fileName.takeWhile (· ≠ 0)) with
    | none => [b!"error opening file \"" ++ f.fileName ++ b!"\".\n"]
    | some _ => if createDataMeasurement f.type = none then [b!"Unknown measurement type \"" ++ f.type ++ b!"\".\n"] else [] := by
  rw [FileM.loadM]
  cases files (f.fileName.takeWhile (· ≠ 0)) with
  | none => rfl
  | some bytes =>
    have hplain : ∀ k : Kind, (({ kind := k } : DataM).setDataM bytes).1 = [] := by intro k; rfl
    cases hc : createDataMeasurement f.type with
    | none => simp only [hplain, List.append_nil, if_true]
    | some dm =>
      have hdm : ∃ k, dm = { kind := k } := by
        rw [createDataMeasurement] at hc
        repeat' split at hc
        all_goals first | (cases hc; exact ⟨_, rfl⟩) | cases hc
      obtain ⟨k, rfl⟩ := hdm
      simp only [hplain, List.append_nil, reduceCtorEq, if_false]

/-- **C102.** Comparing two files of the same name and type begins by loading the first: a file that cannot be opened is reported, and so is a type
that has no data class (every image); nothing is said if names or types differ.  With such a type the two are different whatever is in them (and the second file is
not even opened). -/
theorem C102_files (files : Files) (f g : FileM) :
    ((f.name ≠ g.name ∨ f.type ≠ g.type) → (Meas.isEqualM files (.file f) (.file g)).1 = []) ∧
    (f.name = g.name → f.type = g.type →
      (files (f.fileName.takeWhile (· ≠ 0)) = none →
        (b!"error opening file \"" ++ f.fileName ++ b!"\".\n") ∈ (Meas.isEqualM files (.file f) (.file g)).1) ∧
      (files (f.fileName.takeWhile (· ≠ 0)) ≠ none → createDataMeasurement f.type = none →
        (Meas.isEqualM files (.file f) (.file g)).1 = [b!"Unknown measurement type \"" ++ f.type ++ b!"\".\n"] ∧
        (Meas.isEqualM files (.file f) (.file g)).2.2.2 = .ok false)) := by
  refine ⟨fun h => ?_, fun h1 h2 => ⟨fun h => ?_, fun h hc => ?_⟩⟩
  · rw [Meas.isEqualM, if_pos h]
  · rw [Meas.isEqualM, if_neg (by simp [h1, h2])]
    simp only [loadM_fst, h]
    simp
  · rw [Meas.isEqualM, if_neg (by simp [h1, h2])]
    cases hf : files (f.fileName.takeWhile (· ≠ 0)) with
    | none => exact absurd hf h
    | some bytes =>
      have hl : ((f.loadM files).2).kind = .plain := by
        rw [loadM_snd, FileM.load, hf, hc]
        rfl
      have ht : g.type ≠ b!"text/plain" := by
        rw [← h2]
        intro ht
        rw [ht] at hc
        cases hc
      have hne : g.isEqualDataM files (f.loadM files).2 = ([], (f.loadM files).2, .ok false) := by
        rw [FileM.isEqualDataM, if_pos]
        right
        rw [hl]
        exact ht
      simp only [hne, List.append_nil, loadM_fst, hf, hc, if_true, and_self]

/-! ## Cases that meet the premises -/

/-- An encoding that is not known is reported at each of the five reads of a comparison of equal texts. -/
example : (Meas.isEqualM (fun _ => none) (.data { kind := .plain, content := b!"x", encoding := b!"hex" }) (.data { kind := .plain, content := b!"x", encoding := b!"hex" })).1 =
    List.replicate 5 b!"unsupported encoding \"hex\" used.\n" := by decide

/-- Base64 is compared without a word (four characters, all three bytes and the byte behind them being read: C32). -/
example : (({ kind := .plain, content := b!"TWFu", encoding := b!"base64" } : DataM).getDataM).1 = [] :=
  (C102_read_silent _).mpr (.inr ⟨rfl, .inr ⟨rfl, .inr (by decide +kernel)⟩⟩)

/-- A compression and text that is not base64: two lines, and the text as it is for data. -/
example : (({ kind := .plain, content := b!"T?W", encoding := b!"base64", compression := b!"gzip" } : DataM).getDataM) =
    ([b!"unsupported compression \"gzip\" used.\n", b!"error decodeing base64\n"], { kind := .plain, content := b!"T?W", encoding := b!"base64", compression := b!"gzip" },
      .ok (b!"T?W".map some)) := by decide +kernel

/-- Two image files, equal byte for byte. -/
example : (Meas.isEqualM (fun _ => some b!"same") (.file { type := b!"image/png", name := b!"a", fileName := b!"p" })
    (.file { type := b!"image/png", name := b!"a", fileName := b!"q" })).1 = [b!"Unknown measurement type \"image/png\".\n"] :=
  (((C102_files (fun _ => some b!"same") { type := b!"image/png", name := b!"a", fileName := b!"p" } { type := b!"image/png", name := b!"a", fileName := b!"q" }).2 rfl rfl).2 (by simp) rfl).1

/-- Two texts of the same name are compared without a word. -/
example : (Meas.isEqualM (fun _ => none) (.data { kind := .plain, content := b!"x" }) (.data { kind := .plain, content := b!"y" })).1 = [] :=
  ((C102_compare_silent (fun _ => none) { kind := .plain, content := b!"x" } { kind := .plain, content := b!"y" }).2 rfl rfl false (by decide)).mpr ⟨.inr ⟨rfl, .inl rfl⟩, .inr ⟨rfl, .inl rfl⟩⟩

end Verif.Measurement
