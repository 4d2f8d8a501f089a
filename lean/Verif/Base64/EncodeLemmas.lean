import Verif.Base64.Model
import Verif.Base64.Spec

namespace Verif.Base64

open Spec (text bits value sextets pad alphabet)

/-- The character for a 6-bit value. -/
def digit (v : Nat) : UInt8 := alphabet.getD v 0

theorem base64chars_eq : base64chars = alphabet := rfl

theorem alphabet_length : alphabet.length = 64 := rfl

theorem charAt_eq {i : Nat} (h : i < 64) : charAt i = .ok (digit i) := by
  have h' : i < alphabet.length := by simpa [alphabet_length] using h
  simp [charAt, digit, base64chars_eq, h', List.getD]

/-- What the encoding loop writes, in order. -/
def emitted (nl : Bool) : Str → Nat → Str
  | a :: b :: c :: rest, i =>
    digit (a.toNat >>> 2) :: digit (((a.toNat <<< 4) &&& 0x30) ||| (b.toNat >>> 4)) ::
    digit (((b.toNat <<< 2) &&& 0x3c) ||| (c.toNat >>> 6)) :: digit (c.toNat &&& 0x3f) ::
    (if nl && (i + 4) % 72 == 0 then 10 :: emitted nl rest (i + 5) else emitted nl rest (i + 4))
  | [a, b], _ =>
    [digit (a.toNat >>> 2), digit (((a.toNat <<< 4) &&& 0x30) ||| (b.toNat >>> 4)),
     digit ((b.toNat <<< 2) &&& 0x3c), 61]
  | [a], _ => [digit (a.toNat >>> 2), digit ((a.toNat <<< 4) &&& 0x30), 61, 61]
  | [], _ => []

theorem put_eq (w : Str) (z : Nat) (v : UInt8) (h : 1 ≤ z) :
    put (w ++ List.replicate z 0) w.length v = .ok ((w ++ [v]) ++ List.replicate (z - 1) 0) := by
  obtain ⟨z, rfl⟩ : ∃ k, z = k + 1 := ⟨z - 1, by omega⟩
  simp [put, List.replicate_succ]

theorem emit_eq (w : Str) (z idx : Nat) (h : 1 ≤ z) (hi : idx < 64) :
    emit (w ++ List.replicate z 0, w.length) idx
      = .ok ((w ++ [digit idx]) ++ List.replicate (z - 1) 0, (w ++ [digit idx]).length) := by
  simp only [emit, charAt_eq hi, put_eq w z _ h, bind, Except.bind, pure, Except.pure]
  simp

theorem emitChar_eq (w : Str) (z : Nat) (c : UInt8) (h : 1 ≤ z) :
    emitChar (w ++ List.replicate z 0, w.length) c
      = .ok ((w ++ [c]) ++ List.replicate (z - 1) 0, (w ++ [c]).length) := by
  simp only [emitChar, put_eq w z _ h, bind, Except.bind, pure, Except.pure]
  simp

theorem idx1 (a : UInt8) : a.toNat >>> 2 < 64 :=
  forall_byte (P := fun a => a.toNat >>> 2 < 64) (by decide +kernel) a
theorem idx2a (a : UInt8) : (a.toNat <<< 4) &&& 0x30 = 16 * (a.toNat % 4) :=
  forall_byte (P := fun a => (a.toNat <<< 4) &&& 0x30 = 16 * (a.toNat % 4)) (by decide +kernel) a
theorem idx2b (b : UInt8) : b.toNat >>> 4 = b.toNat / 16 := by simp [Nat.shiftRight_eq_div_pow]
theorem idx3a (b : UInt8) : (b.toNat <<< 2) &&& 0x3c = 4 * (b.toNat % 16) :=
  forall_byte (P := fun b => (b.toNat <<< 2) &&& 0x3c = 4 * (b.toNat % 16)) (by decide +kernel) b
theorem idx3b (c : UInt8) : c.toNat >>> 6 = c.toNat / 64 := by simp [Nat.shiftRight_eq_div_pow]
theorem idx4 (c : UInt8) : c.toNat &&& 0x3f = c.toNat % 64 :=
  forall_byte (P := fun c => c.toNat &&& 0x3f = c.toNat % 64) (by decide +kernel) c
theorem idx1' (a : UInt8) : a.toNat >>> 2 = a.toNat / 4 := by simp [Nat.shiftRight_eq_div_pow]

theorem or_add16 : ∀ k < 4, ∀ m < 16, (16 * k) ||| m = 16 * k + m := by decide +kernel
theorem or_add4 : ∀ k < 16, ∀ m < 4, (4 * k) ||| m = 4 * k + m := by decide +kernel

theorem idx2 (a b : UInt8) :
    ((a.toNat <<< 4) &&& 0x30) ||| (b.toNat >>> 4) = 16 * (a.toNat % 4) + b.toNat / 16 := by
  rw [idx2a, idx2b, or_add16 _ (Nat.mod_lt _ (by omega)) _ (by have := b.toNat_lt; omega)]

theorem idx3 (b c : UInt8) :
    ((b.toNat <<< 2) &&& 0x3c) ||| (c.toNat >>> 6) = 4 * (b.toNat % 16) + c.toNat / 64 := by
  rw [idx3a, idx3b, or_add4 _ (Nat.mod_lt _ (by omega)) _ (by have := c.toNat_lt; omega)]

/-- Induction in steps of three bytes. -/
theorem three_induction {P : Str → Prop} (h0 : P []) (h1 : ∀ a, P [a]) (h2 : ∀ a b, P [a, b])
    (h3 : ∀ a b c r, P r → P (a :: b :: c :: r)) : ∀ l, P l
  | [] => h0
  | [a] => h1 a
  | [a, b] => h2 a b
  | a :: b :: c :: r => h3 a b c r (three_induction h0 h1 h2 h3 r)

theorem idx2_lt (a b : UInt8) : ((a.toNat <<< 4) &&& 0x30) ||| (b.toNat >>> 4) < 64 := by
  rw [idx2]; have := b.toNat_lt; omega
theorem idx3_lt (b c : UInt8) : ((b.toNat <<< 2) &&& 0x3c) ||| (c.toNat >>> 6) < 64 := by
  rw [idx3]; have := c.toNat_lt; omega
theorem idx4_lt (c : UInt8) : c.toNat &&& 0x3f < 64 := by rw [idx4]; omega
theorem idx2a_lt (a : UInt8) : (a.toNat <<< 4) &&& 0x30 < 64 := by rw [idx2a]; omega
theorem idx3a_lt (b : UInt8) : (b.toNat <<< 2) &&& 0x3c < 64 := by rw [idx3a]; omega

theorem encodeLoop_eq (nl : Bool) : ∀ (inp w : Str) (z : Nat),
    (emitted nl inp w.length).length ≤ z →
    encodeLoop nl inp (w ++ List.replicate z 0, w.length)
      = .ok ((w ++ emitted nl inp w.length)
          ++ List.replicate (z - (emitted nl inp w.length).length) 0,
        (w ++ emitted nl inp w.length).length) := by
  intro inp
  induction inp using three_induction with
  | h0 => intro w z h; simp [encodeLoop, emitted]
  | h1 a =>
    intro w z h
    simp only [emitted, List.length_cons, List.length_nil] at h
    simp only [encodeLoop, bind, Except.bind]
    rw [emit_eq _ _ _ (by omega) (idx1 a)]; simp only []
    rw [emit_eq _ _ _ (by omega) (idx2a_lt a)]; simp only []
    rw [emitChar_eq _ _ _ (by omega)]; simp only []
    rw [emitChar_eq _ _ _ (by omega)]
    simp [emitted, Nat.sub_sub]
  | h2 a b =>
    intro w z h
    simp only [emitted, List.length_cons, List.length_nil] at h
    simp only [encodeLoop, bind, Except.bind]
    rw [emit_eq _ _ _ (by omega) (idx1 a)]; simp only []
    rw [emit_eq _ _ _ (by omega) (idx2_lt a b)]; simp only []
    rw [emit_eq _ _ _ (by omega) (idx3a_lt b)]; simp only []
    rw [emitChar_eq _ _ _ (by omega)]
    simp [emitted, Nat.sub_sub]
  | h3 a b c r ih =>
    intro w z h
    simp only [emitted, List.length_cons] at h
    simp only [encodeLoop, bind, Except.bind]
    rw [emit_eq _ _ _ (by omega) (idx1 a)]; simp only []
    rw [emit_eq _ _ _ (by omega) (idx2_lt a b)]; simp only []
    rw [emit_eq _ _ _ (by omega) (idx3_lt b c)]; simp only []
    rw [emit_eq _ _ _ (by omega) (idx4_lt c)]; simp only []
    generalize h1 : digit (a.toNat >>> 2) = d1 at *
    generalize h2 : digit (((a.toNat <<< 4) &&& 0x30) ||| (b.toNat >>> 4)) = d2 at *
    generalize h3 : digit (((b.toNat <<< 2) &&& 0x3c) ||| (c.toNat >>> 6)) = d3 at *
    generalize h4 : digit (c.toNat &&& 0x3f) = d4 at *
    have hl : (w ++ [d1] ++ [d2] ++ [d3] ++ [d4]).length = w.length + 4 := by simp
    by_cases hn : (nl && (w.length + 4) % 72 == 0) = true
    · rw [hl]
      simp only [hn, if_true] at h ⊢
      simp only [List.length_cons] at h
      rw [← hl, emitChar_eq _ _ _ (by omega)]
      simp only []
      rw [ih _ _ (by simp; omega)]
      simp [emitted, hn, h1, h2, h3, h4, Nat.sub_sub]
      omega
    · rw [hl]
      simp only [hn] at h ⊢
      simp only [Bool.false_eq_true, if_false, pure, Except.pure] at h ⊢
      rw [← hl, ih _ _ (by simp; omega)]
      simp [emitted, hn, h1, h2, h3, h4, Nat.sub_sub]
      omega

/-! ### The standard text, three bytes at a time -/

theorem value_append (l m : List Bool) : value (l ++ m) = value l * 2 ^ m.length + value m := by
  have key : ∀ (m : List Bool) (acc : Nat),
      m.foldl (fun acc b => 2 * acc + b.toNat) acc
        = acc * 2 ^ m.length + m.foldl (fun acc b => 2 * acc + b.toNat) 0 := by
    intro m
    induction m with
    | nil => simp
    | cons x m ih =>
      intro acc
      simp only [List.foldl_cons, List.length_cons]
      rw [ih, ih (2 * 0 + x.toNat), Nat.pow_succ, Nat.add_mul]
      simp only [Nat.mul_zero, Nat.zero_add]
      rw [← Nat.add_assoc]
      congr 2
      rw [Nat.mul_comm 2 acc, Nat.mul_assoc, Nat.mul_comm 2]
  rw [value, List.foldl_append, key]; rfl

/-- Shorthand: bit `i` of `a`. -/
abbrev bt (a : UInt8) (i : Nat) : Bool := a.toNat.testBit i

theorem bits_eq (a : UInt8) :
    bits a = [bt a 7, bt a 6, bt a 5, bt a 4, bt a 3, bt a 2, bt a 1, bt a 0] := rfl

theorem v_hi6 (a : UInt8) : value [bt a 7, bt a 6, bt a 5, bt a 4, bt a 3, bt a 2] = a.toNat / 4 :=
  forall_byte (P := fun a => value [bt a 7, bt a 6, bt a 5, bt a 4, bt a 3, bt a 2] = a.toNat / 4)
    (by decide +kernel) a
theorem v_lo2 (a : UInt8) : value [bt a 1, bt a 0] = a.toNat % 4 :=
  forall_byte (P := fun a => value [bt a 1, bt a 0] = a.toNat % 4) (by decide +kernel) a
theorem v_hi4 (a : UInt8) : value [bt a 7, bt a 6, bt a 5, bt a 4] = a.toNat / 16 :=
  forall_byte (P := fun a => value [bt a 7, bt a 6, bt a 5, bt a 4] = a.toNat / 16)
    (by decide +kernel) a
theorem v_lo4 (a : UInt8) : value [bt a 3, bt a 2, bt a 1, bt a 0] = a.toNat % 16 :=
  forall_byte (P := fun a => value [bt a 3, bt a 2, bt a 1, bt a 0] = a.toNat % 16)
    (by decide +kernel) a
theorem v_hi2 (a : UInt8) : value [bt a 7, bt a 6] = a.toNat / 64 :=
  forall_byte (P := fun a => value [bt a 7, bt a 6] = a.toNat / 64) (by decide +kernel) a
theorem v_lo6 (a : UInt8) : value [bt a 5, bt a 4, bt a 3, bt a 2, bt a 1, bt a 0] = a.toNat % 64 :=
  forall_byte (P := fun a =>
    value [bt a 5, bt a 4, bt a 3, bt a 2, bt a 1, bt a 0] = a.toNat % 64) (by decide +kernel) a

theorem v_mid2 (a b : UInt8) : value [bt a 1, bt a 0, bt b 7, bt b 6, bt b 5, bt b 4]
    = 16 * (a.toNat % 4) + b.toNat / 16 := by
  have := value_append [bt a 1, bt a 0] [bt b 7, bt b 6, bt b 5, bt b 4]
  rw [v_lo2, v_hi4] at this
  simpa [Nat.mul_comm] using this

theorem v_mid3 (b c : UInt8) : value [bt b 3, bt b 2, bt b 1, bt b 0, bt c 7, bt c 6]
    = 4 * (b.toNat % 16) + c.toNat / 64 := by
  have := value_append [bt b 3, bt b 2, bt b 1, bt b 0] [bt c 7, bt c 6]
  rw [v_lo4, v_hi2] at this
  simpa [Nat.mul_comm] using this

theorem v_end2 (a : UInt8) : value [bt a 1, bt a 0, false, false, false, false]
    = 16 * (a.toNat % 4) := by
  have := value_append [bt a 1, bt a 0] [false, false, false, false]
  rw [v_lo2] at this
  simpa [Nat.mul_comm, value] using this

theorem v_end3 (b : UInt8) : value [bt b 3, bt b 2, bt b 1, bt b 0, false, false]
    = 4 * (b.toNat % 16) := by
  have := value_append [bt b 3, bt b 2, bt b 1, bt b 0] [false, false]
  rw [v_lo4] at this
  simpa [Nat.mul_comm, value] using this

theorem text_nil : text [] = [] := rfl

theorem text_one (a : UInt8) :
    text [a] = [digit (a.toNat / 4), digit (16 * (a.toNat % 4)), 61, 61] := by
  have h : sextets ([a].flatMap bits) = [value [bt a 7, bt a 6, bt a 5, bt a 4, bt a 3, bt a 2],
    value [bt a 1, bt a 0, false, false, false, false]] := rfl
  rw [text, h, v_hi6, v_end2]; rfl

theorem text_two (a b : UInt8) :
    text [a, b] = [digit (a.toNat / 4), digit (16 * (a.toNat % 4) + b.toNat / 16),
      digit (4 * (b.toNat % 16)), 61] := by
  have h : sextets ([a, b].flatMap bits) = [value [bt a 7, bt a 6, bt a 5, bt a 4, bt a 3, bt a 2],
    value [bt a 1, bt a 0, bt b 7, bt b 6, bt b 5, bt b 4],
    value [bt b 3, bt b 2, bt b 1, bt b 0, false, false]] := rfl
  rw [text, h, v_hi6, v_mid2, v_end3]; rfl

theorem text_three (a b c : UInt8) (r : Str) :
    text (a :: b :: c :: r) = digit (a.toNat / 4) :: digit (16 * (a.toNat % 4) + b.toNat / 16) ::
      digit (4 * (b.toNat % 16) + c.toNat / 64) :: digit (c.toNat % 64) :: text r := by
  have h : sextets ((a :: b :: c :: r).flatMap bits)
      = value [bt a 7, bt a 6, bt a 5, bt a 4, bt a 3, bt a 2] ::
        value [bt a 1, bt a 0, bt b 7, bt b 6, bt b 5, bt b 4] ::
        value [bt b 3, bt b 2, bt b 1, bt b 0, bt c 7, bt c 6] ::
        value [bt c 5, bt c 4, bt c 3, bt c 2, bt c 1, bt c 0] :: sextets (r.flatMap bits) := rfl
  rw [text, h, v_hi6, v_mid2, v_mid3, v_lo6]
  simp only [List.map_cons, pad, text, List.length_cons, List.cons_append]
  simp only [digit]
  congr 6
  omega

theorem text_length (data : Str) : (text data).length = ((data.length + 2) / 3) * 4 := by
  induction data using three_induction with
  | h0 => rfl
  | h1 a => simp [text_one]
  | h2 a b => simp [text_two]
  | h3 a b c r ih => simp only [text_three, List.length_cons, ih]; omega

theorem emitted_off (data : Str) (i : Nat) : emitted false data i = text data := by
  induction data using three_induction generalizing i with
  | h0 => rfl
  | h1 a => simp [emitted, text_one, idx1', idx2a]
  | h2 a b => simp [emitted, text_two, idx1', idx2, idx3a]
  | h3 a b c r ih => simp [emitted, text_three, idx1', idx2, idx3, idx4, ih]

/-- Past the only line break the write index is odd, so no further line break is written. -/
theorem emitted_on_odd (data : Str) (i : Nat) (hi : i % 4 = 1) : emitted true data i = text data := by
  induction data using three_induction generalizing i with
  | h0 => rfl
  | h1 a => simp [emitted, text_one, idx1', idx2a]
  | h2 a b => simp [emitted, text_two, idx1', idx2, idx3a]
  | h3 a b c r ih =>
    have h : ¬ (i + 4) % 72 = 0 := by omega
    simp [emitted, text_three, idx1', idx2, idx3, idx4, h, ih (i + 4) (by omega)]

/-- With new lines on: one line break when the write index reaches 72. -/
theorem emitted_on (data : Str) (i : Nat) (hi : i % 4 = 0) (hlt : i < 72) :
    emitted true data i =
      if 3 * ((72 - i) / 4) ≤ data.length then
        (text data).take (72 - i) ++ 10 :: (text data).drop (72 - i)
      else text data := by
  induction data using three_induction generalizing i with
  | h0 => simp [emitted, text_nil]; omega
  | h1 a =>
    have h : ¬ 3 * ((72 - i) / 4) ≤ 1 := by omega
    simp [emitted, text_one, idx1', idx2a, h]
  | h2 a b =>
    have h : ¬ 3 * ((72 - i) / 4) ≤ 2 := by omega
    simp [emitted, text_two, idx1', idx2, idx3a, h]
  | h3 a b c r ih =>
    by_cases h72 : i = 68
    · subst h72
      simp [emitted, text_three, idx1', idx2, idx3, idx4, emitted_on_odd r 73 (by omega)]
    · have h : ¬ (i + 4) % 72 = 0 := by omega
      simp only [emitted, text_three, idx1', idx2, idx3, idx4]
      rw [if_neg (by simpa using h), ih (i + 4) (by omega) (by omega)]
      have e : 72 - i = (72 - (i + 4)) + 1 + 1 + 1 + 1 := by omega
      by_cases hl : 3 * ((72 - (i + 4)) / 4) ≤ r.length
      · have hl' : 3 * ((72 - i) / 4) ≤ (a :: b :: c :: r).length := by
          simp only [List.length_cons]; omega
        rw [if_pos hl, if_pos hl', e]
        simp
      · have hl' : ¬ 3 * ((72 - i) / 4) ≤ (a :: b :: c :: r).length := by
          simp only [List.length_cons]; omega
        rw [if_neg hl, if_neg hl']

/-- What is written in total with new lines on. -/
theorem emitted_on_zero (data : Str) : emitted true data 0 =
    if 54 ≤ data.length then (text data).take 72 ++ 10 :: (text data).drop 72 else text data := by
  simpa using emitted_on data 0 rfl (by omega)

theorem emitted_length_le (nl : Bool) (data : Str) :
    (emitted nl data 0).length ≤ encodeSize nl data.length := by
  cases nl with
  | false => simp [emitted_off, text_length, encodeSize]
  | true =>
    rw [emitted_on_zero]
    split <;> simp [text_length, encodeSize] <;> omega

theorem encode_eq (nl : Bool) (data : Str) : encode nl data =
    .ok (emitted nl data 0 ++
      List.replicate (encodeSize nl data.length - (emitted nl data 0).length) 0) := by
  have := encodeLoop_eq nl data [] (encodeSize nl data.length) (emitted_length_le nl data)
  simp only [List.nil_append, List.length_nil] at this
  simp [encode, this, bind, Except.bind, pure, Except.pure]

end Verif.Base64
