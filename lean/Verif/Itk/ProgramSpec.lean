import Verif.Itk.DataDirSpec
import Verif.Itk.ImagesSpec

/-!
# What `itktfImageCompare` finds
-/

namespace Verif.Itk.Spec
open Verif.Regression Verif.Measurement

/-- The entry of a baseline for the image with the number `i`: under its name and with the type of images, it names the file `file`. -/
def NamesImage (i : Nat) (b : Meas) (file : Str) : Prop :=
  ∃ f, b = .file f ∧ f.name = b!"ImageFile" ++ natText i ∧ f.type = b!"image/itk" ∧ f.fileName = file

/-- What follows the last slash of a name. -/
def LastComponent (name last : Str) : Prop := 47 ∉ last ∧ (name = last ∨ ∃ d, name = d ++ 47 :: last)

/-- `Found I w dirs i bs l r`: of the images `l` with their tolerances, the first one having the number `i`, `r` do not pass the comparison with the entries `bs` of the baseline,
entry by entry; `none` if an image that should be compared, or the one recorded for it, cannot be read.  The recorded images are looked up in the directories `dirs`. -/
inductive Found (I : Toolkit) (w : World) (dirs : List Str) : Nat → List Meas → List (ImgTol × Str) → Option Nat → Prop
  | done (i : Nat) (bs : List Meas) : Found I w dirs i bs [] (some 0)
  | noEntry (i : Nat) (y : ImgTol × Str) (l : List (ImgTol × Str)) (r : Option Nat) : Found I w dirs (i + 1) [] l r → Found I w dirs i [] (y :: l) (r.map (· + 1))
  | otherEntry (i : Nat) (b : Meas) (bs : List Meas) (y : ImgTol × Str) (l : List (ImgTol × Str)) (r : Option Nat) :
      (¬ ∃ file, NamesImage i b file) → Found I w dirs (i + 1) bs l r → Found I w dirs i (b :: bs) (y :: l) (r.map (· + 1))
  | alike (i : Nat) (b : Meas) (bs : List Meas) (t : ImgTol) (file : Str) (l : List (ImgTol × Str)) (r : Option Nat) (recorded last place : Str) (v x : Loaded) :
      NamesImage i b recorded → LastComponent recorded last → last ≠ [] → LookedUp w.fs last dirs place → I.read w place = some v → I.read w file = some x →
      Alike I t v.image x.image → Found I w dirs (i + 1) bs l r → Found I w dirs i (b :: bs) ((t, file) :: l) r
  | unlike (i : Nat) (b : Meas) (bs : List Meas) (t : ImgTol) (file : Str) (l : List (ImgTol × Str)) (r : Option Nat) (recorded last place : Str) (v x : Loaded) :
      NamesImage i b recorded → LastComponent recorded last → last ≠ [] → LookedUp w.fs last dirs place → I.read w place = some v → I.read w file = some x →
      ¬ Alike I t v.image x.image → Found I w dirs (i + 1) bs l r → Found I w dirs i (b :: bs) ((t, file) :: l) (r.map (· + 1))
  | unreadable (i : Nat) (b : Meas) (bs : List Meas) (t : ImgTol) (file : Str) (l : List (ImgTol × Str)) (recorded last place : Str) :
      NamesImage i b recorded → LastComponent recorded last → last ≠ [] → LookedUp w.fs last dirs place → (I.read w place = none ∨ I.read w file = none) →
      Found I w dirs i (b :: bs) ((t, file) :: l) none

/-- The images pass: for each there is the entry at its position, with its name, and the recorded image can be read and is like it. -/
def AllPass (I : Toolkit) (w : World) (dirs : List Str) (bs : List Meas) (l : List (ImgTol × Str)) : Prop :=
  ∀ (k : Nat) (t : ImgTol) (file : Str), l[k]? = some (t, file) → ∃ b recorded last place v x, bs[k]? = some b ∧ NamesImage k b recorded ∧ LastComponent recorded last ∧
    LookedUp w.fs last dirs place ∧ I.read w place = some v ∧ I.read w file = some x ∧ Alike I t v.image x.image

/-- The entries for images that are recorded: the last components of their names. -/
def Entries : Nat → List Str → List Meas → Prop
  | _, [], bs => bs = []
  | i, file :: files, bs => ∃ last rest, LastComponent file last ∧ bs = .file { type := b!"image/itk", name := b!"ImageFile" ++ natText i, fileName := last } :: rest ∧
      Entries (i + 1) files rest

end Verif.Itk.Spec
