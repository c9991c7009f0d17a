import Verif.Model.Files
import Verif.Model.Dl1

/-!
# Run lists (`utils/files.py:24-50`) and the script `extract_dl1` over several files (`scripts/extract_dl1.py:177-209`)

Paths are POSIX paths as lists of characters. Run numbers are natural numbers.
-/

namespace Verif.Model

open Verif.Py

/-- `os.path.dirname` -/
def posixDirname (p : List Char) : List Char :=
  let head := (p.reverse.dropWhile (· ≠ '/')).reverse
  if head.all (· = '/') then head else (head.reverse.dropWhile (· = '/')).reverse

/-- `os.path.join(a, b)` -/
def posixJoin (a b : List Char) : List Char :=
  if b.head? = some '/' then b
  else if a = [] ∨ a.getLast? = some '/' then a ++ b
  else a ++ '/' :: b

/-- how the fields of a format string have been numbered so far -/
inductive Numbering | fresh | auto | manual
  deriving DecidableEq, Repr

/-- the content of a replacement field up to its closing brace, and the text after it; `depth` counts the braces opened inside -/
def fieldEnd : Nat → List Char → Option (List Char × List Char)
  | _, [] => none
  | depth, c :: cs =>
    if c = '}' then
      match depth with
      | 0 => some ([], cs)
      | d + 1 => (fieldEnd d cs).map fun r => (c :: r.1, r.2)
    else (fieldEnd (if c = '{' then depth + 1 else depth) cs).map fun r => (c :: r.1, r.2)

/-- one replacement field of `template.format(n)`, a call with a single positional argument. `render rest n` is the text of `n` for what follows the
number in the field (attribute, conversion and format specification). Simplification: a field that itself contains braces is always a
`ValueError` (Python would evaluate a field inside the format specification). -/
def formatField (render : List Char → Nat → Except Err (List Char)) (n : Nat) (num : Numbering) (content : List Char) : Except Err (List Char × Numbering) :=
  let first := content.takeWhile fun c => c ≠ ':' && c ≠ '!' && c ≠ '.' && c ≠ '['
  if content.any fun c => c = '{' then .error .valueError
  else if first = [] then
    match num with
    | .manual => .error .valueError
    | .auto => .error .indexError
    | .fresh => (render content n).map fun t => (t, .auto)
  else if first.all isDigitChar then
    if num = .auto then .error .valueError
    else if parseDec first = 0 then (render (content.drop first.length) n).map fun t => (t, .manual)
    else .error .indexError
  else .error .keyError

/-- `template.format(n)`; `fuel` is at least the length of the template -/
def pyFormat (render : List Char → Nat → Except Err (List Char)) (n : Nat) : Nat → Numbering → List Char → Except Err (List Char)
  | _, _, [] => .ok []
  | 0, _, _ => .ok []
  | fuel + 1, num, c :: cs =>
    if c = '{' then
      if cs.head? = some '{' then (pyFormat render n fuel num cs.tail).map fun t => '{' :: t
      else match fieldEnd 0 cs with
        | none => .error .valueError
        | some (content, rest) => match formatField render n num content with
          | .error e => .error e
          | .ok (t, num') => (pyFormat render n fuel num' rest).map fun u => t ++ u
    else if c = '}' then
      if cs.head? = some '}' then (pyFormat render n fuel num cs.tail).map fun t => '}' :: t
      else .error .valueError
    else (pyFormat render n fuel num cs).map fun t => c :: t

/-- the file name patterns (`utils/files.py:35, 46`) -/
def r1Name : List Char := "Run{:05d}_r1.tio".toList
def dl1Name : List Char := "Run{:05d}_dl1.h5".toList

/-- the column `path` of `open_runlist_r1` and `open_runlist_dl1` (`utils/files.py:34-36, 45-47`) for the run list at `path` with the given index -/
def runlistPaths (render : List Char → Nat → Except Err (List Char)) (name path : List Char) (runs : List Nat) : Except Err (List (List Char)) :=
  let template := posixJoin (posixDirname path) name
  runs.mapM fun i => pyFormat render i template.length .fresh template

/-- `open_runlist_r1(path, open_readers, max_events)` and `open_runlist_dl1(path, open_readers)` (`utils/files.py:31-50`): the run list has the rows `index`;
`opener` is the constructor of the reader with its further arguments. The first file that cannot be opened ends the call. -/
def openRunlist (render : List Char → Nat → Except Err (List Char)) (opener : List Char → Except Err R) (name path : List Char) (openReaders : Bool) (runs : List Nat) :
    Except Err (List (Nat × List Char × Option R)) :=
  match runlistPaths render name path runs with
  | .error e => .error e
  | .ok paths =>
    if openReaders then
      match paths.mapM opener with
      | .error e => .error e
      | .ok readers => .ok (runs.zip (paths.zip (readers.map some)))
    else .ok (runs.zip (paths.zip (paths.map fun _ => none)))

/-- the loop over the input paths of the script (`scripts/extract_dl1.py:203-209`): `fs` are the files by path, `isMc` tells which kind of reader a file
needs. `extract` is the work on one file: an error before the output is opened (`WaveformReader.from_path`, `DL1Extractor`), or the content of the output
file with the exception that ended the writing, if any (`write_dl1_file`). An existing file at the output path is replaced
(`core/io/hdf5_writer.py:28-30`). The result are the files and the exception that ended the script. Simplification: the input is read completely before
the output is written. -/
def extractFiles (isMc : F → Bool) (extract : F → Except Err (F × Option Err)) (given : Option String) (fs : Dict String F) : List String → Dict String F × Option Err
  | [] => (fs, none)
  | p :: ps => match Dict.get? fs p with
    | none => (fs, some .fileNotFound)
    | some f => match extract f with
      | .error e => (fs, some e)
      | .ok (g, some e) => (Dict.set fs (outputPath p (isMc f) given) g, some e)
      | .ok (g, none) => extractFiles isMc extract given (Dict.set fs (outputPath p (isMc f) given) g) ps

end Verif.Model
