import Verif.Flt

/-!
# Text

Python strings as lists of characters, with the string operations used to read and write titration
files.  Digits and white space are ASCII only, and `float` takes no underscores.
-/

namespace Calk

/-! ## Splitting and stripping -/

/-- `s.split(sep)` for a one-character separator -/
def splitC (sep : Char) : List Char → List (List Char)
  | [] => [[]]
  | c :: s =>
    if c = sep then [] :: splitC sep s
    else match splitC sep s with
      | [] => [[c]]
      | p :: ps => (c :: p) :: ps

/-- remove characters from both ends -/
def stripBy (p : Char → Bool) (s : List Char) : List Char :=
  ((s.dropWhile p).reverse.dropWhile p).reverse

/-- `s.strip(" \r\n")` -/
def stripEnds : List Char → List Char := stripBy fun c => c == ' ' || c == '\r' || c == '\n'

/-- white space as removed by `float` -/
def isWs (c : Char) : Bool :=
  c == ' ' || c == '\t' || c == '\n' || c == '\r' || c == '\x0b' || c == '\x0c'

/-- What Python sees of a file opened as text: `\r\n` and `\r` become `\n`. -/
def universal : List Char → List Char
  | [] => []
  | '\r' :: '\n' :: s => '\n' :: universal s
  | '\r' :: s => '\n' :: universal s
  | c :: s => c :: universal s

/-- drop a last line that is empty -/
def dropLastEmpty (ls : List (List Char)) : List (List Char) :=
  match ls.getLast? with
  | some [] => ls.dropLast
  | _ => ls

/-- the lines of a text file, without their ends -/
def fileLines (s : List Char) : List (List Char) := dropLastEmpty (splitC '\n' s)

/-- line ends for `str.splitlines` (after `universal`) -/
def isBreak (c : Char) : Bool :=
  c == '\n' || c == '\r' || c == '\x0b' || c == '\x0c' || c == '\x1c' || c == '\x1d' ||
    c == '\x1e' || c == '\x85' || c == '\u2028' || c == '\u2029'

/-- `s.splitlines()` for a text without `\r` -/
def splitlines (s : List Char) : List (List Char) :=
  fileLines (s.map fun c => if isBreak c then '\n' else c)

/-! ## Numbers -/

def isDigit (c : Char) : Bool := decide ('0' ≤ c) && decide (c ≤ '9')

def digitVal (c : Char) : ℕ := c.toNat - 48

/-- the value of a string of digits -/
def digitsVal (s : List Char) : ℕ := s.foldl (fun n c => 10 * n + digitVal c) 0

/-- read the digits at the start of a string -/
def takeDigits (s : List Char) : List Char × List Char := (s.takeWhile isDigit, s.dropWhile isDigit)

/-- an optional sign: is it a minus, and what follows -/
def takeSign : List Char → Bool × List Char
  | '-' :: s => (true, s)
  | '+' :: s => (false, s)
  | s => (false, s)

/-- an optional decimal point with digits after it -/
def takeFraction : List Char → List Char × List Char
  | '.' :: s => takeDigits s
  | s => ([], s)

noncomputable section

/-- an optional exponent, to the end: `10 ** e` -/
def exponent : List Char → Option ℝ
  | [] => some 1
  | c :: s =>
    if c = 'e' ∨ c = 'E' then
      let (neg, s) := takeSign s
      if s.isEmpty || !s.all isDigit then none
      else if neg then some ((10 : ℝ) ^ digitsVal s)⁻¹ else some ((10 : ℝ) ^ digitsVal s)
    else none

/-- an unsigned decimal number -/
def parseUnsigned (s : List Char) : Option ℝ :=
  let (ip, s) := takeDigits s
  let (fp, s) := takeFraction s
  if ip.isEmpty && fp.isEmpty then none
  else (exponent s).map fun e => (digitsVal ip + digitsVal fp / (10 : ℝ) ^ fp.length) * e

def negIf (neg : Bool) (x : Flt) : Flt := if neg then -x else x

/-- `float(s)`; `none` where Python raises `ValueError` -/
def parseFloat (s : List Char) : Option Flt :=
  let (neg, s) := takeSign (stripBy isWs s)
  let low := s.map Char.toLower
  if low = "nan".toList then some .nan
  else if low = "inf".toList ∨ low = "infinity".toList then some (negIf neg .pinf)
  else (parseUnsigned s).map fun x => negIf neg (.fin x)

/-! ## Formatting -/

def digitChar (d : ℕ) : Char := Char.ofNat (48 + d)

/-- decimal digits of a natural number -/
def natChars (n : ℕ) : List Char :=
  if n < 10 then [digitChar n] else natChars (n / 10) ++ [digitChar (n % 10)]
  decreasing_by omega

/-- the last `k` decimal digits of a natural number -/
def padChars : ℕ → ℕ → List Char
  | 0, _ => []
  | k + 1, n => padChars k (n / 10) ++ [digitChar (n % 10)]

/-- rounding to the nearest natural number, ties to even -/
def roundHalfEven (x : ℝ) : ℕ :=
  let f := ⌊x⌋₊
  if x - f < 1 / 2 then f
  else if 1 / 2 < x - f then f + 1
  else if f % 2 = 0 then f else f + 1

/-- `"{:.kf}".format(x)` for a non-negative number in units of `10 ** -k` -/
def fixedChars (k q : ℕ) : List Char :=
  natChars (q / 10 ^ k) ++ (if k = 0 then [] else '.' :: padChars k q)

/-- `"{:.kf}".format(x)` -/
def fmtF (k : ℕ) : Flt → List Char
  | .nan => "nan".toList
  | .pinf => "inf".toList
  | .ninf => "-inf".toList
  | .fin x => (if x < 0 then ['-'] else []) ++ fixedChars k (roundHalfEven (|x| * 10 ^ k))

end

end Calk
