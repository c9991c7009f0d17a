import Mathlib.Computability.RegularExpressions
import Verif.Py.Decimal
import Verif.Py.Basic

/-!
# `packaging.version.parse(s).release[0]`

The call of `core/io/hdf5_reader.py:30-35` and `core/io/hdf5_appender.py:39-44`. The pattern is the one published with the version scheme (PEP 440, appendix B), which `packaging` uses.
-/

namespace Verif.Model

open Verif.Py

/-- `P?` -/
def optionally (P : RegularExpression Char) : RegularExpression Char := 1 + P

/-- `[...]` -/
def oneOf (cs : List Char) : RegularExpression Char := (cs.map RegularExpression.char).foldr (· + ·) 0

/-- a word -/
def word (cs : List Char) : RegularExpression Char := (cs.map RegularExpression.char).foldr (· * ·) 1

/-- `P+` -/
def repeated (P : RegularExpression Char) : RegularExpression Char := P * P.star

def digitChars : List Char := ['0', '1', '2', '3', '4', '5', '6', '7', '8', '9']

/-- `[0-9]+` -/
def digitsPattern : RegularExpression Char := repeated (oneOf digitChars)

/-- `[-_\.]?` -/
def separator : RegularExpression Char := optionally (oneOf ['-', '_', '.'])

/-- `[a-z0-9]+` -/
def alnumPattern : RegularExpression Char := repeated (oneOf (digitChars ++ "abcdefghijklmnopqrstuvwxyz".toList))

/-- `[0-9]+(?:\.[0-9]+)*` -/
def releasePattern : RegularExpression Char := digitsPattern * (RegularExpression.char '.' * digitsPattern).star

/-- a separator, one of the words, a separator and a number -/
def taggedPattern (words : List String) : RegularExpression Char :=
  separator * ((words.map fun w => word w.toList).foldr (· + ·) 0) * separator * optionally digitsPattern

/-- what may follow the numbers of the release: pre-release, post-release, development release, local version -/
def suffixPattern : RegularExpression Char :=
  optionally (taggedPattern ["alpha", "a", "beta", "b", "preview", "pre", "c", "rc"]) *
  (optionally (RegularExpression.char '-' * digitsPattern + taggedPattern ["post", "rev", "r"]) *
  (optionally (taggedPattern ["dev"]) *
  optionally (RegularExpression.char '+' * alnumPattern * (oneOf ['-', '_', '.'] * alnumPattern).star)))

/-- a version text in lower case, without spaces around it -/
def versionPattern : RegularExpression Char :=
  optionally (.char 'v') * (optionally (digitsPattern * .char '!') * (releasePattern * suffixPattern))

/-- `\s` -/
def isSpaceChar (c : Char) : Bool := c ∈ [' ', '\t', '\n', '\r', '\x0b', '\x0c', '\x1c', '\x1d', '\x1e', '\x1f']

/-- spaces around the text removed, small letters (the pattern is used with `re.IGNORECASE`). Characters outside of ASCII, some of which Python takes for a space or a letter here, are
taken for themselves. -/
def normalised (s : String) : List Char :=
  (((s.toList.dropWhile isSpaceChar).reverse.dropWhile isSpaceChar).reverse).map Char.toLower

/-- the text after the optional `v` -/
def afterV : List Char → List Char
  | [] => []
  | c :: t => if c = 'v' then t else c :: t

/-- the first number of the release of a version text: after the `v` and after an epoch -/
def releaseHead (t : List Char) : Nat :=
  match (afterV t).dropWhile isDigitChar with
  | [] => parseDec ((afterV t).takeWhile isDigitChar)
  | c :: r => if c = '!' then parseDec (r.takeWhile isDigitChar) else parseDec ((afterV t).takeWhile isDigitChar)

/-- `packaging.version.parse(s).release[0]` (`core/io/hdf5_reader.py:30-35`, `core/io/hdf5_appender.py:39-44`): the first number of the release; a text that is no version is an `InvalidVersion`,
which is a `ValueError`. (`packaging` before version 22 returned an object without release instead, and the comparison raised `TypeError`.) -/
def releaseMajor (s : String) : Except Err Nat :=
  if versionPattern.rmatch (normalised s) then .ok (releaseHead (normalised s)) else .error .valueError

end Verif.Model
