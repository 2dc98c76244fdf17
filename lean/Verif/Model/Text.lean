import Verif.Model.FitDrivers
import Mathlib.Data.Int.Log
import Mathlib.Algebra.Order.Archimedean.Real.Basic

/-!
Model of the text formatting and parsing used by the fit output (`diffstar_fitting_helpers.py` L245-288): python's
`str(int)`, `"{:.5e}".format(x)`, numpy's `astype(int)`, `astype(float)` on strings and `np.genfromtxt(fn, dtype="str")`.
Strings are lists of characters. A float is `F` (`none` = NaN, extended reals otherwise).
-/

namespace Diffstar.Text

open Diffstar.Fit

noncomputable section

open Classical

/-- Strings. -/
abbrev Str := List Char

/-- Decimal digits of a natural number. -/
def natStr (n : ℕ) : Str := Nat.toDigits 10 n

/-- python `str(n)` of an integer (library). -/
def intStr (n : ℤ) : Str := if n < 0 then '-' :: natStr n.natAbs else natStr n.natAbs

/-- Digits to number; fails on the empty string or any other character. -/
def parseNat (s : Str) : Option ℕ :=
  if s ≠ [] ∧ s.all Char.isDigit then some (Nat.ofDigitChars 10 s 0) else none

/-- String to integer with optional sign (numpy `astype(int)` on a string array, library). -/
def parseInt (s : Str) : Option ℤ :=
  match s with
  | '-' :: t => (parseNat t).map fun n : ℕ => -(n : ℤ)
  | '+' :: t => (parseNat t).map fun n : ℕ => (n : ℤ)
  | t => (parseNat t).map fun n : ℕ => (n : ℤ)

/-- Left padding with zeros to width `k`. -/
def zpad (k : ℕ) (s : Str) : Str := List.replicate (k - s.length) '0' ++ s

/-- Rounding to the nearest integer, ties to even. -/
def roundHalfEven (y : ℝ) : ℤ :=
  let f := ⌊y⌋
  if y - f < 1 / 2 then f
  else if y - f > 1 / 2 then f + 1
  else if f % 2 = 0 then f else f + 1

/-- Six-digit decimal mantissa and exponent of `|x|`: `|x| ≈ m * 10^(e-5)`. -/
def mantExp (x : ℝ) : ℕ × ℤ :=
  if x = 0 then (0, 0)
  else
    let e := Int.log 10 |x|
    let m := (roundHalfEven (|x| * (10 : ℝ) ^ (5 - e))).toNat
    if m = 10 ^ 6 then (10 ^ 5, e + 1) else (m, e)

/-- Exponent field of `"{:.5e}"`: sign and at least two digits. -/
def expStr (e : ℤ) : Str := (if e < 0 then '-' else '+') :: zpad 2 (natStr e.natAbs)

/-- `"{:.5e}".format(x)` of a finite number (library): correctly rounded, ties to even. -/
def fmtE5 (x : ℝ) : Str :=
  let me := mantExp x
  let digits := zpad 6 (natStr me.1)
  (if x < 0 then ['-'] else []) ++ digits.take 1 ++ '.' :: digits.drop 1 ++ 'e' :: expStr me.2

/-- `"{:.5e}".format(x)` of a float. -/
def fmtF : F → Str
  | none => ['n', 'a', 'n']
  | some x => if x = ⊤ then ['i', 'n', 'f'] else if x = ⊥ then ['-', 'i', 'n', 'f'] else fmtE5 x.toReal

/-- `[0-9]+.[0-9]+e[+-][0-9]+`, the scientific notation without leading sign. -/
def parseSci (s : Str) : Option ℝ :=
  let a := s.takeWhile (· ≠ 'e')
  let ip := a.takeWhile (· ≠ '.')
  let fp := (a.dropWhile (· ≠ '.')).drop 1
  match s.dropWhile (· ≠ 'e') with
  | [] => none
  | _ :: t =>
    match parseNat ip, parseNat fp, parseInt t with
    | some _, some _, some e => some ((Nat.ofDigitChars 10 (ip ++ fp) 0 : ℝ) * (10 : ℝ) ^ (e - fp.length))
    | _, _, _ => none

/-- String to float (numpy `astype(float)` on a string array, library), restricted to the notations `"{:.5e}"`
produces; `none` = `ValueError` (or notation outside the model). -/
def parseFloat (s : Str) : Option F :=
  if s = ['n', 'a', 'n'] then some none
  else if s = ['i', 'n', 'f'] then some (some ⊤)
  else if s = ['-', 'i', 'n', 'f'] then some (some ⊥)
  else match s with
    | '-' :: t => (parseSci t).map fun x => some ((-x : ℝ) : EReal)
    | t => (parseSci t).map fun x => some ((x : ℝ) : EReal)

/-- `sep.join(tokens)` with a single blank (library). -/
def joinWs : List Str → Str
  | [] => []
  | [t] => t
  | t :: ts => t ++ ' ' :: joinWs ts

/-- Whitespace characters that can separate tokens. -/
def isWs (c : Char) : Bool := c = ' ' ∨ c = '\n' ∨ c = '\t' ∨ c = '\r'

/-- `line.split()` (library): maximal runs of non-whitespace. `cur` is the current run, reversed. -/
def splitWsAux : Str → Str → List Str
  | cur, [] => if cur = [] then [] else [cur.reverse]
  | cur, c :: cs =>
      if isWs c then (if cur = [] then splitWsAux [] cs else cur.reverse :: splitWsAux [] cs)
      else splitWsAux (c :: cur) cs

/-- `line.split()`. -/
def splitWs (s : Str) : List Str := splitWsAux [] s

/-- Lines of a text (split at newlines; a final empty piece is harmless because blank lines are skipped). -/
def linesAux : Str → Str → List Str
  | cur, [] => [cur.reverse]
  | cur, c :: cs => if c = '\n' then cur.reverse :: linesAux [] cs else linesAux (c :: cur) cs

/-- Lines of a text. -/
def lines (s : Str) : List Str := linesAux [] s

/-- A numpy string array of one or two dimensions. -/
inductive NdArr
  | d1 (l : List Str)
  | d2 (rows : List (List Str))

/-- `np.genfromtxt(fn, dtype="str")` on the content of the file (library): comments start at `#`, blank lines are
skipped, rows of unequal width raise (`none`), and axes of length one are squeezed away: a file with a single row
gives a 1-d array, as does a file with no rows (empty array) or one column. -/
def genfromtxt (s : Str) : Option NdArr :=
  let rows := ((lines s).map fun l => splitWs (l.takeWhile (· ≠ '#'))).filter (· ≠ [])
  match rows with
  | [] => some (.d1 [])
  | [r] => some (.d1 r)
  | r :: rs =>
    if ∀ x ∈ rs, x.length = r.length then
      if r.length = 1 then some (.d1 ((r :: rs).flatten)) else some (.d2 (r :: rs))
    else none

/-- Concatenation of two arrays along the first axis: raises (`none`) on arrays of different dimension and on
2-d arrays of different width. -/
def concat2 : NdArr → NdArr → Option NdArr
  | .d1 l, .d1 l' => some (.d1 (l ++ l'))
  | .d2 r, .d2 r' => if (r.head?.map List.length) = (r'.head?.map List.length) then some (.d2 (r ++ r')) else none
  | _, _ => none

/-- `np.concatenate(list)` (library): raises on an empty list and as in `concat2`. -/
def concatenate : List NdArr → Option NdArr
  | [] => none
  | a :: as => if as = [] then some a else (concatenate as).bind (concat2 a)

end

end Diffstar.Text
