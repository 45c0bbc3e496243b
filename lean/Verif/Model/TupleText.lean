import Verif.Model.ColumnIndex
/-
Texts of tuples of strings, as `to_midx` (/repo/oups/store/writer.py 167-223) gets them: `repr` of a tuple of `str`, and what
`ast.literal_eval` (204) makes of a tuple display of string literals.

* `printable` is `str.isprintable` for characters which are not ASCII: any predicate.
* Of the language read by `literal_eval`, only tuples of string literals are described: one pair of quotes, no prefix, escapes `\\`, `\'`,
  `\"`, `\n`, `\r`, `\t`, `\xhh`, `\uhhhh` and `\Uhhhhhhhh`. On other texts `readTuple` is `none`, which says nothing of
  `literal_eval`.
* Lone surrogates are not characters.
-/
namespace Oups.ColumnIndex

abbrev Text := List Char

/-! ### `repr` -/

/-- Digit in base 16. -/
def hexChar (n : Nat) : Char :=
  if n < 10 then Char.ofNat (48 + n) else Char.ofNat (87 + n)

/-- `w` digits in base 16. -/
def hexText : Nat → Nat → Text
  | 0, _ => []
  | w + 1, n => hexText w (n / 16) ++ [hexChar (n % 16)]

/-- A character in `repr` of a string between quotes `q` (`unicode_repr` of CPython). -/
def escape (printable : Char → Bool) (q c : Char) : Text :=
  if c = q || c = '\\' then ['\\', c]
  else if c = '\t' then ['\\', 't']
  else if c = '\n' then ['\\', 'n']
  else if c = '\r' then ['\\', 'r']
  else if c.toNat < 32 || c.toNat = 127 then '\\' :: 'x' :: hexText 2 c.toNat
  else if c.toNat < 127 then [c]
  else if printable c then [c]
  else if c.toNat ≤ 255 then '\\' :: 'x' :: hexText 2 c.toNat
  else if c.toNat ≤ 65535 then '\\' :: 'u' :: hexText 4 c.toNat
  else '\\' :: 'U' :: hexText 8 c.toNat

/-- Quote chosen by `repr`. -/
def quoteOf (s : Text) : Char := if '\'' ∈ s && !('"' ∈ s : Bool) then '"' else '\''

/-- `repr` of a string. -/
def reprStr (printable : Char → Bool) (s : Text) : Text := quoteOf s :: s.flatMap (escape printable (quoteOf s)) ++ [quoteOf s]

/-- `repr` of a tuple of strings. -/
def reprTuple (printable : Char → Bool) : List Text → Text
  | [] => ['(', ')']
  | [s] => '(' :: reprStr printable s ++ [',', ')']
  | s :: t => '(' :: reprStr printable s ++ (t.flatMap fun s => ',' :: ' ' :: reprStr printable s) ++ [')']

/-! ### `literal_eval` -/

/-- Value of a digit in base 16. -/
def hexDigit? (c : Char) : Option Nat :=
  if '0' ≤ c && c ≤ '9' then some (c.toNat - 48)
  else if 'a' ≤ c && c ≤ 'f' then some (c.toNat - 87)
  else if 'A' ≤ c && c ≤ 'F' then some (c.toNat - 55)
  else none

/-- `w` digits in base 16: their value, and the text that follows. -/
def readHex : Nat → Nat → Text → Option (Nat × Text)
  | 0, n, cs => some (n, cs)
  | w + 1, n, c :: cs => (hexDigit? c).bind fun d => readHex w (16 * n + d) cs
  | _ + 1, _, [] => none

/-- Character given by its number. -/
def charOf (n : Nat) : Option Char := if n.isValidChar then some (Char.ofNat n) else none

/-- After a backslash: the character, and the text that follows. -/
def readEscape : Text → Option (Char × Text)
  | '\\' :: cs => some ('\\', cs)
  | '\'' :: cs => some ('\'', cs)
  | '"' :: cs => some ('"', cs)
  | 't' :: cs => some ('\t', cs)
  | 'n' :: cs => some ('\n', cs)
  | 'r' :: cs => some ('\r', cs)
  | 'x' :: cs => (readHex 2 0 cs).bind fun r => (charOf r.1).map fun c => (c, r.2)
  | 'u' :: cs => (readHex 4 0 cs).bind fun r => (charOf r.1).map fun c => (c, r.2)
  | 'U' :: cs => (readHex 8 0 cs).bind fun r => (charOf r.1).map fun c => (c, r.2)
  | _ => none

/-- String literal, after its opening quote `q`: its value, and the text that follows. The first argument is greater than the length
of the text. -/
def readStr (q : Char) : Nat → Text → Option (Text × Text)
  | 0, _ => none
  | _ + 1, [] => none
  | n + 1, c :: cs =>
    if c = q then some ([], cs)
    else if c = '\\' then (readEscape cs).bind fun r => (readStr q n r.2).map fun p => (r.1 :: p.1, p.2)
    else if c = '\n' || c = '\r' then none
    else (readStr q n cs).map fun p => (c :: p.1, p.2)

/-- Items of a tuple display, up to the closing parenthesis that ends the text: the strings, and whether there is a comma after the
last one. -/
def readItems : Nat → Text → Option (List Text × Bool)
  | 0, _ => none
  | _ + 1, [] => none
  | n + 1, c :: cs =>
    if c = ' ' then readItems n cs
    else if c = ')' then if cs = [] then some ([], true) else none
    else if c = '\'' || c = '"' then
      (readStr c (cs.length + 1) cs).bind fun r =>
        if r.2 = [')'] then some ([r.1], false)
        else if r.2.head? = some ',' then (readItems n r.2.tail).map fun p => (r.1 :: p.1, p.2)
        else none
    else none

/-- A tuple display of string literals: a single string without comma is not one. -/
def readTuple : Text → Option (List Text)
  | '(' :: cs => (readItems (cs.length + 1) cs).bind fun p => if p.1.length = 1 && !p.2 then none else some p.1
  | _ => none

end Oups.ColumnIndex
