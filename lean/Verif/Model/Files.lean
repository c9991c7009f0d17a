import Verif.Py.Basic
import Verif.Py.Decimal
import Verif.Py.Grid

/-!
# `utils/files.py`: natural file ordering and the high-voltage configuration

Texts are lists of characters of Latin-1 (code points below 256): there `\d` matches exactly `0`-`9`, and `str.isdigit` is
true for these and the superscripts one, two, three.
-/

namespace Verif.Model

open Verif.Py

/-- superscript one, two and three: `isdigit` but not `\d` -/
def isSuperscript (c : Char) : Bool := c.toNat == 0xb2 || c.toNat == 0xb3 || c.toNat == 0xb9

/-- an element of a natural key: `str` or `int` -/
inductive KeyEl
  | str (s : List Char)
  | int (n : Nat)
  deriving DecidableEq, Repr

/-- `atoi` (`utils/files.py:53-54`); `''.isdigit()` is false, `int` of a superscript raises `ValueError` -/
def atoi (text : List Char) : Except Err KeyEl :=
  if text ≠ [] ∧ text.all (fun c => isDigitChar c || isSuperscript c) then
    if text.all isDigitChar then .ok (.int (parseDec text)) else .error .valueError
  else .ok (.str text)

/-- `re.split('(\d+)', text)`: alternately the text between the digit runs and the runs, beginning and ending with a
(possibly empty) text. `inDigit` tells which kind of piece `cur` is. -/
def splitRuns (inDigit : Bool) (cur : List Char) : List Char → List (List Char)
  | [] => if inDigit then [cur, []] else [cur]
  | c :: cs => if isDigitChar c = inDigit then splitRuns inDigit (cur ++ [c]) cs else cur :: splitRuns (!inDigit) [c] cs

/-- the comprehension of `natural_keys` -/
def atoiAll : List (List Char) → Except Err (List KeyEl)
  | [] => .ok []
  | p :: ps => match atoi p with
    | .error e => .error e
    | .ok k => match atoiAll ps with
      | .error e => .error e
      | .ok ks => .ok (k :: ks)

/-- `natural_keys` (`utils/files.py:57-63`) -/
def naturalKeys (text : List Char) : Except Err (List KeyEl) := atoiAll (splitRuns false [] text)

/-- comparison of sequences: the first differing position decides, otherwise the length (Python `str` and `list`) -/
def seqLt {α : Type} [DecidableEq α] (lt : α → α → Bool) : List α → List α → Bool
  | [], [] => false
  | [], _ :: _ => true
  | _ :: _, [] => false
  | a :: as, b :: bs => if a = b then seqLt lt as bs else lt a b

/-- `a < b` on key elements; `str` against `int` raises `TypeError` -/
def elLt : KeyEl → KeyEl → Except Err Bool
  | .int a, .int b => .ok (a < b)
  | .str a, .str b => .ok (seqLt (fun x y => decide (x.toNat < y.toNat)) a b)
  | _, _ => .error .typeError

/-- `a < b` on keys (lists) -/
def keyLt : List KeyEl → List KeyEl → Except Err Bool
  | [], [] => .ok false
  | [], _ :: _ => .ok true
  | _ :: _, [] => .ok false
  | a :: as, b :: bs => if a = b then keyLt as bs else elLt a b

/-- `not key(b) < key(a)`: `a` may stay before `b` -/
def nameLe (a b : List Char) : Bool :=
  match keyLt ((naturalKeys b).toOption.getD []) ((naturalKeys a).toOption.getD []) with
  | .ok true => false
  | _ => true

/-- all keys are computed before the sorting -/
def allKeys : List (List Char) → Except Err Unit
  | [] => .ok ()
  | n :: ns => match naturalKeys n with
    | .error e => .error e
    | .ok _ => allKeys ns

/-- `sort_file_list` (`utils/files.py:66-68`): Python's sort is stable; for a total preorder all stable sorts agree. -/
def sortFileList (names : List (List Char)) : Except Err (List (List Char)) :=
  match allKeys names with
  | .error e => .error e
  | .ok () => .ok (names.mergeSort nameLe)

/-! ## High-voltage configuration -/

/-- a non-empty greedy digit run: the run and the rest -/
def digitRun (s : List Char) : Option (List Char × List Char) :=
  let d := s.takeWhile isDigitChar
  if d.isEmpty then none else some (d, s.dropWhile isDigitChar)

/-- literal text at the beginning: the rest -/
def literal (lit s : List Char) : Option (List Char) := if lit.isPrefixOf s then some (s.drop lit.length) else none

/-- `M:(\d+)/F/S:(\d+)\|HV=(\d+)` or `...|HVOn=(\d+)` (`utils/files.py:72-73`) at the beginning of `s`; no backtracking can
help, because the characters after the greedy runs are not digits -/
def matchHere (tag : List Char) (s : List Char) : Option (Nat × Nat × Nat) :=
  match literal ['M', ':'] s with
  | none => none
  | some s => match digitRun s with
    | none => none
    | some (m, s) => match literal ['/', 'F', '/', 'S', ':'] s with
      | none => none
      | some s => match digitRun s with
        | none => none
        | some (sp, s) => match literal ('|' :: tag ++ ['=']) s with
          | none => none
          | some s => match digitRun s with
            | none => none
            | some (v, _) => some (parseDec m, parseDec sp, parseDec v)

/-- `re.search`: the leftmost match -/
def search (tag : List Char) : List Char → Option (Nat × Nat × Nat)
  | [] => none
  | c :: cs => match matchHere tag (c :: cs) with
    | some r => some r
    | none => search tag cs

/-- `sub in s` -/
def containsSub (sub : List Char) : List Char → Bool
  | [] => sub.isEmpty
  | c :: cs => sub.isPrefixOf (c :: cs) || containsSub sub cs

/-- storing a non-negative number in an int16 array: two's complement wrap-around (numpy before 1.24). Simplification: numbers
from 2^63 raise `OverflowError`. -/
def toInt16 (v : Nat) : Int := ((v : Int) + 32768) % 65536 - 32768

/-- a table of 32 modules and 16 superpixels -/
abbrev HvTable := Nat → Nat → Int

/-- `value_array[tm, sp] = v` -/
def hvSet (t : HvTable) (tm sp v : Nat) : Except Err HvTable :=
  if tm < 32 ∧ sp < 16 then .ok fun i j => if i = tm ∧ j = sp then toInt16 v else t i j
  else .error .indexError

/-- one line of the file (`utils/files.py:80-90`) -/
def hvLine (dac hvon : HvTable) (line : List Char) : Except Err (HvTable × HvTable) :=
  if containsSub ['H', 'V', 'O', 'n'] line then
    match search ['H', 'V', 'O', 'n'] line with
    | none => .ok (dac, hvon)
    | some (tm, sp, v) => match hvSet hvon tm sp v with
      | .error e => .error e
      | .ok hvon => .ok (dac, hvon)
  else
    match search ['H', 'V'] line with
    | none => .ok (dac, hvon)
    | some (tm, sp, v) => match hvSet dac tm sp v with
      | .error e => .error e
      | .ok dac => .ok (dac, hvon)

/-- the loop over the lines -/
def hvLoop : HvTable → HvTable → List (List Char) → Except Err (HvTable × HvTable)
  | dac, hvon, [] => .ok (dac, hvon)
  | dac, hvon, l :: ls => match hvLine dac hvon l with
    | .error e => .error e
    | .ok (dac, hvon) => hvLoop dac hvon ls

/-- `extract_hv_cfg` (`utils/files.py:71-91`) on the lines of the file -/
def extractHvCfg (lines : List (List Char)) : Except Err (HvTable × HvTable) := hvLoop (fun _ _ => 0) (fun _ _ => 0) lines

end Verif.Model
