import Verif.Measurement.Props
import Verif.Base64.WrittenProps

/-!
# C82: what the second read of one's own base64 data returns
-/

namespace Verif.Measurement
open Verif.Base64.Spec

/-- **C82, negative.** Data whose size is no multiple of three, set with base64 encoding: the first read ends by an exception; the second returns
the data that was set, followed by a zero byte and by one indeterminate byte for each three bytes of the data. -/
theorem C82_own_data (d : DataM) (bytes : Str) (henc : d.encoding = b!"base64") (hcomp : d.compression = b!"none") (h3 : bytes.length % 3 ≠ 0) :
    Throws (d.setData bytes).1.getData.2 ∧
    (d.setData bytes).1.getData.1.getData.2 =
      .ok (bytes.map some ++ [some 0] ++ List.replicate (bytes.length / 3) none) := by
  have hthrow := (C32_base64_data_read d bytes henc hcomp).2.1 h3
  refine ⟨hthrow, ?_⟩
  obtain ⟨out, hout⟩ : ∃ out, Base64.encode true bytes = .ok out := ⟨_, Base64.encode_eq true bytes⟩
  have hset : (d.setData bytes).1 = ({ d with data := some (bytes.map some) } : DataM).setContent out := by
    rw [DataM.setData]
    simp only [hcomp, ne_eq, not_true_eq_false, if_false, henc]
    rw [if_neg (by decide), if_pos trivial]
    simp only [hout]
  have hc : (d.setData bytes).1.content = out ∧ (d.setData bytes).1.encoding = b!"base64" ∧ (d.setData bytes).1.data = none := by
    rw [hset, DataM.setContent]
    exact ⟨rfl, henc, rfl⟩
  obtain ⟨m, hm⟩ := hthrow
  obtain ⟨n, block, hn, h2, _, _, hb⟩ := C82_second_read (d.setData bytes).1 (d.setData bytes).1.getData.1 m hc.2.2 hc.2.1 (Prod.ext rfl hm)
  rw [h2, hb, hc.1, Base64.C04_written true false bytes out hout, if_neg h3]
  rw [hc.1] at hn
  obtain ⟨n', hn', hlen, _⟩ := isBase64_encoded bytes out hout
  rw [hn'] at hn
  injection hn with hn
  have hr : n - (bytes ++ [0]).length = bytes.length / 3 := by
    rw [← hn, hlen h3, List.length_append]
    simp only [List.length_singleton]
    omega
  rw [hr]
  simp

/-- Five bytes. -/
example : let d : DataM := { kind := .plain, encoding := b!"base64" }
    (d.setData b!"hello").1.getData.1.getData.2 = .ok (b!"hello".map some ++ [some 0, none]) :=
  (C82_own_data { kind := .plain, encoding := b!"base64" } b!"hello" rfl rfl (by decide)).2

end Verif.Measurement
