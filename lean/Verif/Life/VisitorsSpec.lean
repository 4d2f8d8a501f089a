import Verif.Life.LossProps

/-!
# How many objects are lost, independently of the model of the heap
-/

namespace Verif.Life.Spec
open Verif.Measurement Verif.Regression Verif.Xml

/-- Exactly `n` objects are created and never destroyed. -/
def Loses (log : List Ev) (n : Nat) : Prop := ∃ l : List Nat, l.Nodup ∧ l.length = n ∧ ∀ i, Leaked log i ↔ i ∈ l

/-- Where a test ends because a measurement call ends by a fault: the state in which it is made, and the call. -/
def FailsIn (env : Env) : Prog → St → St → Call → Prop
  | .ret _, _, _, _ => False
  | .fails _, _, _, _ => False
  | .call c k, s, s', c' => match runCall env s c with
    | (_, .error _) => s' = s ∧ c' = c
    | (s1, .ok r) => FailsIn env (k r) s1 s' c'
  | .act f k, s, s', c' => FailsIn env k { s with world := f s.world } s' c'
  | .look k, s, s', c' => FailsIn env (k s.world) s s' c'
  | .ask k, s, s', c' => FailsIn env (k s.settings) s s' c'
  | .setTolerance t k, s, s', c' => FailsIn env k { s with obj := { s.obj with tolerance := t } } s' c'
  | .setExpected v k, s, s', c' => FailsIn env k { s with obj := { s.obj with expected := v } } s' c'
  | .setImageTolerance t k, s, s', c' => FailsIn env k { s with obj := { s.obj with imageTol := t } } s' c'
  | .setSearchPath ps k, s, s', c' => FailsIn env k { s with obj := { s.obj with searchPath := ps } } s' c'
  | .prependSearchPath p k, s, s', c' => FailsIn env k { s with obj := { s.obj with searchPath := p :: s.obj.searchPath } } s' c'
  | .setInFileName n k, s, s', c' => FailsIn env k { s with obj := { s.obj with inFileName := n } } s' c'
  | .setOutFileName n k, s, s', c' => FailsIn env k { s with obj := { s.obj with outFileName := n } } s' c'

/-- The measurement of the baseline the call is compared with, if there is one of the same name and type. -/
def opposite (s : St) (c : Call) : Option Meas :=
  if s.compareMode then s.obj.input.head?.filter fun b => decide (b.name = c.meas.name ∧ b.type = c.meas.type) else none

/-- A baseline is read by a call of `Main`: the files are open and the bytes of the baseline are at hand. -/
def Reads (s : St) (bytes : Str) : Prop := ∃ s1 s2, openOutput s = (s1, .ok ()) ∧ openInput s1 = (s2, .ok ()) ∧ s2.compareMode = true ∧ s2.obj.is = some bytes

end Verif.Life.Spec
