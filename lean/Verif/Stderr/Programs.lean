import Verif.Stderr.Images
import Verif.Pipe.Model
import Verif.Itk.Names

/-!
# The programs `tfPipeToXML` and `itktfImageCompare` with what they write to `std::cerr`
-/

namespace Verif.Stderr
open Verif.Measurement Verif.Regression Verif.Itk Verif.Pipe

/-- The texts of the process library, `itksysProcess_GetExceptionString` and `itksysProcess_GetErrorString` (C strings), for a command. -/
structure ProcessTexts where
  exception : List Str → Str
  error : List Str → Str

/-- The `switch` of `Test`, tfPipeToXML.cxx:57-83: what is written, then the value returned. -/
def endTalk (exception error : Str) : EndState → Talk
  | .starting => .say b!"No process has been executed.\n" (.ret (-1))
  | .executing => .say b!"The process is still executing.\n" (.ret (-1))
  | .expired => .say b!"Child was killed when timeout expired.\n" (.ret (-1))
  | .exited v => .ret v
  | .killed => .say b!"Child was killed by parent.\n" (.ret (-1))
  | .exception => .say (b!"Child terminated abnormally: " ++ cstr exception ++ b!"\n") (.ret (-1))
  | .disowned => .say b!"Child was disowned.\n" (.ret (-1))
  | .error => .say (b!"Error in administrating child process: [" ++ cstr error ++ b!"]\n") (.ret (-1))

/-- `Test`, tfPipeToXML.cxx:17-91. -/
def pipeTalk (launch : Launch) (texts : ProcessTexts) : List Str → Talk
  | [] => .fails (.ub "cmd[argc - 1] with argc = 0")
  | _ :: args =>
    .act (Pipe.toCout (b!"Redirecting output from: \"" ++ echoLoop 1 args ++ b!"\"\n")) <|
      .call (.textPlain (readLoop (launch args).chunks []) b!"stdout") fun _ =>
        endTalk (texts.exception args) (texts.error args) (launch args).final

/-- Returning `EXIT_FAILURE` with a line, itktfImageCompare.cxx:40-41 and so on. -/
def refuse (t : Str) : Talk := .say (t ++ b!"\n") (.ret 1)

/-- The loop of `Test`, itktfImageCompare.cxx:27-110. -/
def imageLoopS (rd : Readers) : ImgTol → Nat → List Str → Talk
  | _, _, [] => .ret 0
  | t, n, a :: rest =>
    if a.head? = some 45 then
      if a = b!"--intensityTolerance" then
        match rest with
        | [] => refuse (b!"Expected double to follow " ++ a)
        | v :: rest => match rd.real v with
          | none => refuse (b!"Expected double to follow " ++ a ++ b!" but got \"" ++ v ++ b!"\"")
          | some x => imageLoopS rd { t with intensity := x } n rest
      else if a = b!"--numberOfPixelTolerance" then
        match rest with
        | [] => refuse (b!"Expected unsigned int to follow " ++ a)
        | v :: rest => match rd.unsigned v with
          | none => refuse (b!"Expected unsigned int to follow " ++ a ++ b!" but got \"" ++ v ++ b!"\"")
          | some x => imageLoopS rd { t with pixels := x } n rest
      else if a = b!"--radiusTolerance" then
        match rest with
        | [] => refuse (b!"Expected unsigned int to follow " ++ a)
        | v :: rest => match rd.unsigned v with
          | none => refuse (b!"Expected unsigned int to follow " ++ a ++ b!" but got \"" ++ v ++ b!"\"")
          | some x => imageLoopS rd { t with radius := x } n rest
      else refuse (b!"Unknown argument: \"" ++ a ++ b!"\"")
    else
      .setImageTolerance t <| .call (.fileITK a (b!"ImageFile" ++ natText n)) fun _ => imageLoopS rd t (n + 1) rest

/-- The last line of the usage, itktfImageCompare.cxx:16. -/
def usageText : Str := b!"The primary argument is list of image files to compare to an input XML file via the \"-I filename.xml\" argument from the regression framework. Additainlly, the \"--\" arguments can applied during the processing, to affect the subsequent image files.\n"

/-- `Test`, itktfImageCompare.cxx:9-112; `argv[0]` of no arguments at all, a null pointer, is taken as an empty string. -/
def imageTalk (rd : Readers) (argv : List Str) : Talk :=
  if argv.length < 2 then
    .say b!"Usage: \n" <|
      .say (b!"\t" ++ argv.headD [] ++ b!" ( filename | --intensityTolerance real | --numberOfPixelTolerance uint | --radiusTolerance uint )*\n") <|
      .say b!"\n" <| .say usageText <| imageLoopS rd {} 0 (argv.drop 1)
  else imageLoopS rd {} 0 (argv.drop 1)

end Verif.Stderr
