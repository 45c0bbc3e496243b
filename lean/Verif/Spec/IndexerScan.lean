import Verif.Spec.Indexer
/-
Specification of the reading of a directory name as a key: how the name is cut, what the fields read are, and
which names are the name of a key.
-/
namespace Oups.Indexer

/-- `s` contains neither the separator of fields nor '/'. -/
def NoSep (sep : Char) (s : Str) : Prop := sep ∉ s ∧ '/' ∉ s

/-- The text `p` is made of the tokens `toks`, any two successive ones being separated by one `sep` or
one '/'. -/
inductive Cut (sep : Char) : Str → List Str → Prop
  | one {s} : NoSep sep s → Cut sep s [s]
  | more {s c p toks} : NoSep sep s → (c = sep ∨ c = '/') → Cut sep p toks → Cut sep (s ++ c :: p) (s :: toks)

/-- White space `int()` ignores on both sides of a number: tab, line feed, vertical tab, form feed, carriage return, the four
information separators, space (ASCII part). -/
def Blank (c : Char) : Prop := c.toNat ∈ [9, 10, 11, 12, 13, 28, 29, 30, 31, 32]

/-- Decimal digits, one underscore being allowed between two digits, and the number they stand for. -/
inductive Numeral : Str → Nat → Prop
  | one {d : Nat} : d < 10 → Numeral [Char.ofNat (48 + d)] d
  | more {s : Str} {n d : Nat} : Numeral s n → d < 10 → Numeral (s ++ [Char.ofNat (48 + d)]) (10 * n + d)
  | under {s : Str} {n d : Nat} : Numeral s n → d < 10 → Numeral (s ++ ['_', Char.ofNat (48 + d)]) (10 * n + d)

/-- Text `int()` converts into `i`: a numeral, with or without a sign, and white space around. -/
inductive IntText : Str → Int → Prop
  | plain {pre s post : Str} {n : Nat} : (∀ c ∈ pre, Blank c) → Numeral s n → (∀ c ∈ post, Blank c) → IntText (pre ++ s ++ post) n
  | plus {pre s post : Str} {n : Nat} : (∀ c ∈ pre, Blank c) → Numeral s n → (∀ c ∈ post, Blank c) →
      IntText (pre ++ '+' :: s ++ post) n
  | minus {pre s post : Str} {n : Nat} : (∀ c ∈ pre, Blank c) → Numeral s n → (∀ c ∈ post, Blank c) →
      IntText (pre ++ '-' :: s ++ post) (-n)

/-- The value of type `t` a token is converted into. -/
inductive Converts : PTy → Str → FVal → Prop
  | int {s : Str} {i : Int} : IntText s i → Converts .int s (.int i)
  | str (s : Str) : Converts .str s (.str s)

/-- One token for each type, converted into a value of this type. -/
inductive ReadsPlain : List PTy → List Str → List FVal → Prop
  | nil : ReadsPlain [] [] []
  | cons {t s v ts ss vs} : Converts t s v → ReadsPlain ts ss vs → ReadsPlain (t :: ts) (s :: ss) (v :: vs)

/-- The tokens, in order, are the ones of the fields of a key of the class. -/
inductive Reads : Schema → List Str → List FVal → Prop
  | leaf {ts ss fs} : ReadsPlain ts ss fs → Reads (.leaf ts) ss fs
  | node {ts sub ss ss' fs gs} : ReadsPlain ts ss fs → Reads sub ss' gs →
      Reads (.node ts sub) (ss ++ ss') (fs ++ [.dc gs])

/-- Text of a field in the name of a key: no separator, and the decimal notation if it is an integer. -/
def Spelled (sep : Char) (t : PTy) (s : Str) : Prop :=
  NoSep sep s ∧ (t = .int → ∃ i : Int, s = (FVal.int i).text)

/-- `p` is the name of a key: at each level, the texts of the fields separated by `sep`; one '/' between levels;
the last level is not an empty text followed by a single text. -/
inductive Named (sep : Char) : Schema → Str → Prop
  | leaf {ts ss} : List.Forall₂ (Spelled sep) ts ss → (∀ s, ss ≠ [[], s]) →
      Named sep (.leaf ts) (join sep ss)
  | node {ts ss sub p} : List.Forall₂ (Spelled sep) ts ss → Named sep sub p →
      Named sep (.node ts sub) (join sep ss ++ '/' :: p)

end Oups.Indexer
