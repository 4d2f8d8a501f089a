/-!
# Common vocabulary of the model

`std::string` and raw byte buffers are lists of bytes.  The outcomes of a C++ call that are
not a normal return are kept apart in `Fault`.
-/

namespace Verif

/-- A C++ `std::string` or a raw byte buffer: the list of its bytes. -/
abbrev Str := List UInt8

/-- The ways a C++ call can fail to return normally. -/
inductive Fault where
  /-- a C++ exception leaves the function -/
  | thrown (msg : String)
  /-- an `assert` fails (the process aborts, unless compiled with `NDEBUG`) -/
  | assertFail (cond : String)
  /-- undefined behaviour: out-of-range or uninitialised access, null dereference, ... -/
  | ub (why : String)
  /-- the model ran out of fuel: the loop has not ended yet -/
  | fuel
  deriving Repr, DecidableEq

deriving instance DecidableEq for Except

/-- Is the fault undefined behaviour? -/
def Fault.isUB : Fault → Bool
  | .ub _ => true
  | _ => false

/-- Is the fault a C++ exception? -/
def Fault.isThrow : Fault → Bool
  | .thrown _ => true
  | _ => false

/-- The call ended by a C++ exception. -/
def Throws {α : Type} (r : Except Fault α) : Prop := ∃ m, r = .error (.thrown m)

/-- The call ended in undefined behaviour. -/
def IsUB {α : Type} (r : Except Fault α) : Prop := ∃ w, r = .error (.ub w)

open Lean in
/-- `b!"abc"` is the list of the bytes of a string literal. -/
macro:max "b!" s:str : term => do
  let elems ← s.getString.toUTF8.data.toList.mapM fun b => `(($(quote b.toNat) : UInt8))
  `(([$(elems.toArray),*] : Str))

/-- Lifting a check of all 256 byte values to every byte. -/
theorem forall_byte {P : UInt8 → Prop} (h : ∀ n < 256, P (UInt8.ofNat n)) (b : UInt8) : P b := by
  have := h b.toNat b.toNat_lt
  simpa using this

end Verif
