import Verif.Regression.Model

/-!
# What `ParseAndRemoveArguments` leaves in the array of the caller

`Main` is called with `argc` by value and with the caller's own array `argv` (tfRegressionTest.h:66, tfRegressionTest.cpp:292); the parser rearranges that array.
-/

namespace Verif.Regression

/-- The loop of `ParseAndRemoveArguments`, tfRegressionTest.cpp:205-285, as `parseLoop`, with the variables it leaves also when an exception ends it; the object is left out. -/
def argvLoop (fs : Path.FileSys) : Nat → Args → Except Fault Args
  | 0, _ => .error .fuel
  | fuel + 1, a =>
    if 1 < a.argc then
      match a.argv[1]? with
      | none => .error (.ub "argv out of range")
      | some opt =>
        if opt = optO then
          if 1 < a.argc - 1 then
            match a.argv[2]? with
            | none => .error (.ub "argv out of range")
            | some v =>
              let out := if Path.isFile fs v && !Path.isWritable fs v then none else some v
              match a.remove 1 with
              | .error f => .error f
              | .ok a => argvLoop fs fuel { a with outfname := out }
          else argvLoop fs fuel a
        else if opt = optI then
          if 1 < a.argc - 1 then
            match a.argv[2]? with
            | none => .error (.ub "argv out of range")
            | some v =>
              if !Path.isFile fs v || !Path.isReadable fs v then .ok a
              else match a.remove 1 with
                | .error f => .error f
                | .ok a => argvLoop fs fuel { a with infname := some v }
          else argvLoop fs fuel a
        else if opt = optR then
          if 1 < a.argc - 1 then
            match a.argv[2]? with
            | none => .error (.ub "argv out of range")
            | some _ =>
              match a.remove 1 with
              | .error f => .error f
              | .ok a => argvLoop fs fuel a
          else argvLoop fs fuel a
        else if opt = optP then
          if 1 < a.argc - 1 then
            match a.argv[2]? with
            | none => .error (.ub "argv out of range")
            | some v =>
              if !Path.isDirectory fs v || !Path.isReadable fs v then .ok a
              else match a.remove 1 with
                | .error f => .error f
                | .ok a => argvLoop fs fuel a
          else argvLoop fs fuel a
        else .ok a
    else .ok a

/-- The caller's array after `ParseAndRemoveArguments` (and after `Main`, if the test leaves its arguments alone), tfRegressionTest.cpp:199-290, 305. -/
def argvAfter (fs : Path.FileSys) (fuel : Nat) (argv : List Str) : Except Fault (List Str) :=
  match argvLoop fs fuel { argc := argv.length, argv := argv } with
  | .error f => .error f
  | .ok a => .ok a.argv

end Verif.Regression
