import Verif.Model.Minimum
/-
The sort keys as Python computes them, with floats (utility.py:108-146).  `rnd` rounds the exact result of an operation to a float; integers up to
2^53 are floats.  `Model/Utility.lean` has the exact numbers; `Props/Floats.lean` shows that both lead to the same order.
-/
namespace Vermin
open Py

/-- The nearest integer, the even one of two. -/
def roundEven (q : Rat) : Int :=
  if q - q.floor < 1 / 2 then q.floor
  else if 1 / 2 < q - q.floor then q.floor + 1
  else if q.floor % 2 = 0 then q.floor else q.floor + 1

/-- The exponent of a positive number: 2^k ≤ x < 2^(k+1). -/
def exponent (x : Rat) : Int :=
  let e : Int := (x.num.toNat.log2 : Int) - (x.den.log2 : Int)
  if (2 : Rat) ^ e ≤ x then e else e - 1

/-- Rounding of IEEE 754 to a float with 53 bits, which CPython's floats are.  Numbers that are not negative, with no bound of the exponent: the keys
below are at most about 2^63, and those that are not 0 are at least 10^-9. -/
def binary64 (x : Rat) : Rat :=
  if x ≤ 0 then 0
  else
    let u : Rat := 2 ^ (exponent x - 52)
    roundEven (x / u) * u

/-- `bounded_str_hash` (utility.py:108-113): `float(h % 1000000) / 1000000`. -/
def hashFloat (rnd : Rat → Rat) (s : List Char) : Rat := rnd (rnd (strHash s : Nat) / 1000000)

/-- `line + h` with `h = bounded_str_hash(..) / 1000` (utility.py:128-130). -/
def keyFloat (rnd : Rat → Rat) (line : Nat) (rest : List Char) : Rat := rnd (rnd (line : Nat) + rnd (hashFloat rnd rest / 1000))

/-- `line + float(col) / 1000 + h` (utility.py:131). -/
def keyColFloat (rnd : Rat → Rat) (line col : Nat) (rest : List Char) : Rat :=
  rnd (rnd (rnd (line : Nat) + rnd (rnd (col : Nat) / 1000)) + rnd (hashFloat rnd rest / 1000))

/-- `sort_line_column(key)` (utility.py:117-131) -/
def sortLineColumnFloat (rnd : Rat → Rat) (s : List Char) : Rat :=
  match matchLineCol s with
  | none => hashFloat rnd s
  | some (line, none, rest) => keyFloat rnd line rest
  | some (line, some col, rest) => keyColFloat rnd line col rest

/-- `sort_line_column_parsable(key)` (utility.py:135-146).  Without column, `col` is 0 and `line + h` is computed; the model of the match does not
distinguish this from a column 0, but with a column 0 the sum is the same float (`Props/Floats.lean`, `keyCol_zero`). -/
def sortLineColumnParsableFloat (rnd : Rat → Rat) (s : List Char) : Rat :=
  match matchParsable s with
  | none => hashFloat rnd s
  | some (line, col, rest) => if col = 0 then keyFloat rnd line rest else keyColFloat rnd line col rest

/-- `lines.sort(key=..)` of the format with float keys (default_format.py:41-47, parsable_format.py:37-39). -/
def sortOutputLinesFloat (rnd : Rat → Rat) (cfg : Config) (lines : List String) : List String :=
  match cfg.format with
  | .default =>
    if cfg.verbose > 2 && !cfg.printVisits then
      sort (fun a b => decide (sortLineColumnFloat rnd a.toList ≤ sortLineColumnFloat rnd b.toList)) lines
    else sort leStr lines
  | .parsable => sort (fun a b => decide (sortLineColumnParsableFloat rnd a.toList ≤ sortLineColumnParsableFloat rnd b.toList)) lines

end Vermin
