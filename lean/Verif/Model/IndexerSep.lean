import Verif.Model.Indexer
/-
Model of the role of `fields_sep` in `/repo/oups/store/indexer.py`, for any string given as `fields_sep` to
`toplevel` (line 277, no check is made on it): validation (lines 79, 103), `_dataclass_instance_to_str` (lines
137-146), and, for a string of one character, the regular expression `/|\{fields_sep}` (line 197).

Simplifications
* Escape sequences of the module `re` of Python 3.7 to 3.13 on strings, of which the classes are restricted to ASCII.
-/
namespace Oups.Indexer

/-! ### Any string as separator -/

/-- `symb in s`. -/
def occurs (symb s : Str) : Bool := symb.isPrefixOf s || match s with
  | [] => false
  | _ :: r => occurs symb r

/-- `any((symb in field_as_str for symb in forbidden_chars))` (indexer.py 79, 103). -/
def forbidden (sep s : Str) : Bool := occurs sep s || occurs [dirSep] s || occurs ['.'] s

/-- Body of the inner loop of `_validate_toplevel_instance` (indexer.py 83-109). -/
def checkFieldS (sep : Str) (counter number : Nat) (f : FVal) : Except Err Unit := do
  if f.isDc then
    if counter = 0 then throw .typeError
    if counter + 1 ≠ number then throw .typeError
  else
    if forbidden sep f.text then throw .valueError
  if !(f.accepted || f.isDc) then throw .typeError

/-- Inner loop (indexer.py 82). -/
def checkFieldsS (sep : Str) (number : Nat) : Nat → List FVal → Except Err Unit
  | _, [] => pure ()
  | counter, f :: fs => do
      checkFieldS sep counter number f
      checkFieldsS sep number (counter + 1) fs

/-- Outer loop (indexer.py 80-81). -/
def checkLevelsS (sep : Str) : List (List FVal) → Except Err Unit
  | [] => pure ()
  | fs :: rest => do
      checkFieldsS sep fs.length 0 fs
      checkLevelsS sep rest

/-- `_validate_toplevel_instance` (indexer.py 65-110). -/
def validateS (sep : Str) (fs : List FVal) : Except Err Unit := checkLevelsS sep (toLists fs)

/-- `sep.join(parts)`. -/
def joinS (sep : Str) : List Str → Str
  | [] => []
  | [p] => p
  | p :: q :: r => p ++ sep ++ joinS sep (q :: r)

/-- Indexer.py 142-145. -/
def completeLastS (sep last : Str) : List Str → List Str
  | [] => []
  | [p] => [if p.isEmpty then last else p ++ sep ++ last]
  | p :: q :: r => p :: completeLastS sep last (q :: r)

/-- `_dataclass_instance_to_str` (indexer.py 113-146). -/
def toStrS (sep : Str) (asPath : Bool) (fs : List FVal) : Except Err Str :=
  let levelsSep := if asPath then [dirSep] else sep
  let lists := toLists fs
  match lists.getLast? with
  | none => throw .indexError
  | some lastFields =>
    let last := match lastFields.getLast? with
      | some f => f.text
      | none => []
    .ok (joinS levelsSep
      (completeLastS sep last (lists.map fun fields => joinS sep (fields.dropLast.map FVal.text))))

/-! ### The regular expression -/

/-- Meaning of `\c` in a regular expression. -/
inductive Escape
  /-- One character satisfying the predicate. -/
  | chars (p : Char → Bool)
  /-- The empty string, between the characters (`none` at both ends of the string) satisfying the predicate. -/
  | empty (p : Option Char → Option Char → Bool)
  /-- `re.error`. -/
  | bad

def isAsciiLetter (c : Char) : Bool := (65 ≤ c.toNat && c.toNat ≤ 90) || (97 ≤ c.toNat && c.toNat ≤ 122)

def isWord (c : Char) : Bool := isAsciiLetter c || isDigit c || c == '_'

def isWordAt : Option Char → Bool
  | none => false
  | some c => isWord c

/-- Escape sequences of `re`, the pattern having no group and nothing after `c`. -/
def reEscape (c : Char) : Escape :=
  if c = 'A' then .empty (fun before _ => before.isNone)
  else if c = 'Z' then .empty (fun _ after => after.isNone)
  else if c = 'b' then .empty (fun before after => isWordAt before != isWordAt after)
  else if c = 'B' then
    .empty (fun before after => (before.isSome || after.isSome) && isWordAt before == isWordAt after)
  else if c = 'd' then .chars isDigit
  else if c = 'D' then .chars (fun x => !isDigit x)
  else if c = 's' then .chars isSpace
  else if c = 'S' then .chars (fun x => !isSpace x)
  else if c = 'w' then .chars isWord
  else if c = 'W' then .chars (fun x => !isWord x)
  else if c = 'a' then .chars (fun x => x.toNat == 7)
  else if c = 'f' then .chars (fun x => x.toNat == 12)
  else if c = 'n' then .chars (fun x => x.toNat == 10)
  else if c = 'r' then .chars (fun x => x.toNat == 13)
  else if c = 't' then .chars (fun x => x.toNat == 9)
  else if c = 'v' then .chars (fun x => x.toNat == 11)
  else if c = '0' then .chars (fun x => x.toNat == 0)
  else if isDigit c || isAsciiLetter c then .bad
  else .chars (fun x => x == c)

/-- `re.split` on `/|\c`, `\c` matching the empty string at the positions satisfying `p`; `/` is tried first, and a
position is used once. `before` is the character before the rest of the string. -/
def splitAt (p : Option Char → Option Char → Bool) (before : Option Char) : Str → List Str
  | [] => if p before none then [[], []] else [[]]
  | c :: cs =>
    if c == dirSep then [] :: splitAt p (some c) cs
    else
      let rest := match splitAt p (some c) cs with
        | [] => [[c]]
        | w :: ws => (c :: w) :: ws
      if p before (some c) then [] :: rest else rest

inductive ReadErr
  /-- `re.error`, not caught by `_dataclass_instance_from_str`. -/
  | reError
deriving DecidableEq, Repr

/-- `_dataclass_instance_from_str` (indexer.py 173-226), after the split. -/
def fromTokens (sch : Schema) (strs : List Str) : Option FVal := do
  let ts := sch.levels.2
  let args ← parseFields ts (sliceFrom ts.length strs)
  fromStrLoop sch.levels.1.reverse strs ts.length args ts.length

/-- `_dataclass_instance_from_str` (indexer.py 173-226) with the regular expression of line 197. -/
def fromStrRe (sep : Char) (sch : Schema) (s : Str) : Except ReadErr (Option FVal) :=
  match reEscape sep with
  | .chars p => .ok (fromTokens sch (split (fun c => c == dirSep || p c) s))
  | .empty p => .ok (fromTokens sch (splitAt p none s))
  | .bad => .error .reError

end Oups.Indexer
