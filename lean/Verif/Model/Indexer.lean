/-
Model of `/repo/oups/store/indexer.py`.

Simplifications
* Strings are lists of characters.
* `fields_sep` is one character (docstring of `toplevel`, line 288) and is not an
  ASCII letter or digit, so that the regular expression `\{fields_sep}` (line 197)
  matches that character literally (other separators: `Verif.Model.IndexerSep`).
* A class is described by its levels: `Schema.leaf ts` is a dataclass with plain fields of types
  `ts`, `Schema.node ts sub` has plain fields `ts` followed by one field whose type is the dataclass
  `sub`.  Fields have no default value, and annotations are real types (no postponed evaluation); see
  `Verif.Model.IndexerClass` for others.
* `int(s)` is modelled for ASCII digits.
-/
namespace Oups.Indexer

abbrev Str := List Char

/-- Value of a field of a dataclass instance.  `other r`: an object that is neither a dataclass instance
nor exactly of type `int` or `str` (`TYPE_ACCEPTED`, indexer.py 19), `r` being its `str()`.
`dc fs`: a dataclass instance (`_is_dataclass_instance`, indexer.py 27-31) with field values `fs`
(`_dataclass_instance_to_dict`, indexer.py 34-37). -/
inductive FVal
  | int (i : Int)
  | str (s : Str)
  | other (repr : Str)
  | dc (fs : List FVal)

/-- Annotated type of a plain field. -/
inductive PTy
  | int
  | str
deriving DecidableEq, Repr

/-- A dataclass, see the header. -/
inductive Schema
  | leaf (ts : List PTy)
  | node (ts : List PTy) (sub : Schema)

/-- Exceptions raised by the modelled functions. -/
inductive Err
  | typeError
  | valueError
  | indexError
deriving DecidableEq, Repr

/-- `DIR_SEP` (defines.py). -/
def dirSep : Char := '/'

/-! ### Text of a value -/

def digitChar (d : Nat) : Char := Char.ofNat (48 + d)

/-- Decimal digits of a natural number. -/
def natStr (n : Nat) : Str :=
  if n < 10 then [digitChar n] else natStr (n / 10) ++ [digitChar (n % 10)]

/-- `str(i)` of a Python integer. -/
def intStr : Int → Str
  | .ofNat n => natStr n
  | .negSucc n => '-' :: natStr (n + 1)

/-- `str(field)`.  The text of a dataclass instance (its `repr`) is not modelled. -/
def FVal.text : FVal → Str
  | .int i => intStr i
  | .str s => s
  | .other r => r
  | .dc _ => ['<', '>']

def FVal.isDc : FVal → Bool
  | .dc _ => true
  | _ => false

/-- `type(field) in TYPE_ACCEPTED` (indexer.py 108). -/
def FVal.accepted : FVal → Bool
  | .int _ => true
  | .str _ => true
  | _ => false

/-! ### Lists of fields -/

/-- `_dataclass_instance_to_lists` (indexer.py 40-62). -/
def toLists (fs : List FVal) : List (List FVal) :=
  match _h : fs.getLast? with
  | none => []
  | some (.dc gs) => fs :: toLists gs
  | some _ => [fs]
termination_by sizeOf fs
decreasing_by
  have hm : FVal.dc gs ∈ fs := List.mem_of_getLast? _h
  have := List.sizeOf_lt_of_mem hm
  simp at this
  omega

/-- Body of the inner loop of `_validate_toplevel_instance` (indexer.py 83-109). -/
def checkField (sep : Char) (counter number : Nat) (f : FVal) : Except Err Unit := do
  if f.isDc then
    if counter = 0 then throw .typeError
    if counter + 1 ≠ number then throw .typeError
  else
    if f.text.any (fun c => c == sep || c == dirSep || c == '.') then throw .valueError
  if !(f.accepted || f.isDc) then throw .typeError

/-- Inner loop of `_validate_toplevel_instance` over `enumerate(fields_)` (indexer.py 82). -/
def checkFields (sep : Char) (number : Nat) : Nat → List FVal → Except Err Unit
  | _, [] => pure ()
  | counter, f :: fs => do
      checkField sep counter number f
      checkFields sep number (counter + 1) fs

/-- Outer loop (indexer.py 80-81). -/
def checkLevels (sep : Char) : List (List FVal) → Except Err Unit
  | [] => pure ()
  | fs :: rest => do
      checkFields sep fs.length 0 fs
      checkLevels sep rest

/-- `_validate_toplevel_instance` (indexer.py 65-110). -/
def validate (sep : Char) (fs : List FVal) : Except Err Unit := checkLevels sep (toLists fs)

/-! ### To string -/

/-- `c.join(parts)`. -/
def join (c : Char) : List Str → Str
  | [] => []
  | [p] => p
  | p :: q :: r => p ++ c :: join c (q :: r)

/-- Replacement of the last item of `to_str` (indexer.py 142-145), `last` being `str(fields_[-1])`. -/
def completeLast (sep : Char) (last : Str) : List Str → List Str
  | [] => []
  | [p] => [if p.isEmpty then last else p ++ sep :: last]
  | p :: q :: r => p :: completeLast sep last (q :: r)

/-- `_dataclass_instance_to_str` (indexer.py 113-146).  `IndexError` if the instance has no field (line 142). -/
def toStr (sep : Char) (asPath : Bool) (fs : List FVal) : Except Err Str :=
  let levelsSep := if asPath then dirSep else sep
  let lists := toLists fs
  match lists.getLast? with
  | none => throw .indexError
  | some lastFields =>
    let last := match lastFields.getLast? with
      | some f => f.text
      | none => []
    .ok (join levelsSep
      (completeLast sep last (lists.map fun fields => join sep (fields.dropLast.map FVal.text))))

/-- `key.to_path` (indexer.py 353-354). -/
def toPath (sep : Char) (fs : List FVal) : Except Err Str := toStr sep true fs

/-! ### From string -/

/-- `re.split` on single characters satisfying `p` (indexer.py 197). -/
def split (p : Char → Bool) : Str → List Str
  | [] => [[]]
  | c :: cs =>
    if p c then [] :: split p cs
    else match split p cs with
      | [] => [[c]]
      | w :: ws => (c :: w) :: ws

/-- `l[-n:]`. -/
def sliceFrom {α} (n : Nat) (l : List α) : List α :=
  if n = 0 then l else l.drop (l.length - n)

/-- `l[:-n]`. -/
def sliceTo {α} (n : Nat) (l : List α) : List α :=
  if n = 0 then [] else l.take (l.length - n)

def isDigit (c : Char) : Bool := 48 ≤ c.toNat && c.toNat ≤ 57

/-- White space removed by `int()`: ASCII part. -/
def isSpace (c : Char) : Bool :=
  c == ' ' || (9 ≤ c.toNat && c.toNat ≤ 13) || (28 ≤ c.toNat && c.toNat ≤ 31)

/-- Digits, single underscores allowed between digits. -/
def parseDigits : Str → Nat → Bool → Option Nat
  | [], acc, prev => if prev then some acc else none
  | c :: cs, acc, prev =>
    if isDigit c then parseDigits cs (acc * 10 + (c.toNat - 48)) true
    else if c == '_' && prev then parseDigits cs acc false
    else none

def strip (s : Str) : Str :=
  ((s.dropWhile isSpace).reverse.dropWhile isSpace).reverse

/-- `int(s)`; `none` stands for `ValueError`. -/
def parseInt (s : Str) : Option Int :=
  match strip s with
  | [] => none
  | c :: cs =>
    if c == '-' then (parseDigits cs 0 false).map fun n => -(n : Int)
    else if c == '+' then (parseDigits cs 0 false).map fun n => (n : Int)
    else (parseDigits (c :: cs) 0 false).map fun n => (n : Int)

/-- `field_type(field_as_string)` (indexer.py 203, 213). -/
def PTy.parse : PTy → Str → Option FVal
  | .int, s => (parseInt s).map .int
  | .str, s => some (.str s)

/-- The list comprehensions of lines 202-205 and 212-218: `zip` truncates to the shorter list. -/
def parseFields : List PTy → List Str → Option (List FVal)
  | t :: ts, s :: ss => do
      let v ← t.parse s
      let vs ← parseFields ts ss
      return v :: vs
  | _, _ => some []

/-- Constructor call of a dataclass with `arity` fields: `TypeError` (here `none`) on a wrong number of
arguments. -/
def construct (arity : Nat) (args : List FVal) : Option FVal :=
  if args.length = arity then some (.dc args) else none

/-- `while types:` loop (indexer.py 206-219), `types` given from its end. -/
def fromStrLoop : List (List PTy) → List Str → Nat → List FVal → Nat → Option FVal
  | [], _, _, args, arity => construct arity args
  | ts :: rest, strs, levelLength, args, arity => do
      let strs := sliceTo levelLength strs
      let fs ← parseFields ts (sliceFrom ts.length strs)
      let sub ← construct arity args
      fromStrLoop rest strs ts.length (fs ++ [sub]) (ts.length + 1)

/-- `_dataclass_fields_types_to_lists` (indexer.py 149-170): plain types of the levels but the last one,
and types of the last level. -/
def Schema.levels : Schema → List (List PTy) × List PTy
  | .leaf ts => ([], ts)
  | .node ts sub => (ts :: sub.levels.1, sub.levels.2)

/-- `_dataclass_instance_from_str` (indexer.py 173-226), also `from_path` (357-358). -/
def fromStr (sep : Char) (sch : Schema) (s : Str) : Option FVal := do
  let strs := split (fun c => c == dirSep || c == sep) s
  let ts := sch.levels.2
  let args ← parseFields ts (sliceFrom ts.length strs)
  fromStrLoop sch.levels.1.reverse strs ts.length args ts.length

/-- `_get_depth` (indexer.py 229-240). -/
def Schema.depth : Schema → Nat
  | .leaf _ => 1
  | .node _ sub => sub.depth + 1

end Oups.Indexer
