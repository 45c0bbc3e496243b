import Verif.Model.Indexer
import Mathlib.Data.List.Forall2
/-
Specification of the indexing schemas, independent of the algorithms of the model (only the data types of
`Verif.Model.Indexer` are used).
-/
namespace Oups.Indexer

/-- `v` is a value of the annotated type `t`. -/
inductive PTy.Has : PTy → FVal → Prop
  | int (i : Int) : PTy.Has .int (.int i)
  | str (s : Str) : PTy.Has .str (.str s)

/-- The field values `fs` are of the types declared by the class. -/
inductive Schema.Conf : Schema → List FVal → Prop
  | leaf {ts fs} : List.Forall₂ PTy.Has ts fs → Schema.Conf (.leaf ts) fs
  | node {ts sub fs gs} : List.Forall₂ PTy.Has ts fs → Schema.Conf sub gs →
      Schema.Conf (.node ts sub) (fs ++ [.dc gs])

/-- Each level of the class has at least one plain field. -/
def Schema.WF : Schema → Prop
  | .leaf ts => ts ≠ []
  | .node ts sub => ts ≠ [] ∧ sub.WF

/-- The text of a plain value contains neither the separator, nor '/', nor '.'. -/
def CleanText (sep : Char) (s : Str) : Prop := sep ∉ s ∧ '/' ∉ s ∧ '.' ∉ s

/-- An acceptable plain field: an int or a str with a clean text. -/
inductive PlainOk (sep : Char) : FVal → Prop
  | int {i} : CleanText sep (FVal.int i).text → PlainOk sep (.int i)
  | str {s} : CleanText sep s → PlainOk sep (.str s)

/-- Instances a user is entitled to create: plain fields, possibly followed, in last position and after at
least one plain field, by a valid instance. -/
inductive Valid (sep : Char) : List FVal → Prop
  | flat {fs} : (∀ f ∈ fs, PlainOk sep f) → Valid sep fs
  | nest {fs gs} : fs ≠ [] → (∀ f ∈ fs, PlainOk sep f) → Valid sep gs →
      Valid sep (fs ++ [.dc gs])

/-- The last level is made of exactly two plain fields, the first one being the empty string. -/
inductive Exceptional : List FVal → Prop
  | here {v} : (∀ gs, v ≠ .dc gs) → Exceptional [.str [], v]
  | deeper {fs gs} : Exceptional gs → Exceptional (fs ++ [.dc gs])

/-- No plain field is the empty string. -/
inductive NoEmpty : List FVal → Prop
  | flat {fs} : (∀ f ∈ fs, f ≠ .str [] ∧ ∀ gs, f ≠ .dc gs) → NoEmpty fs
  | nest {fs gs} : (∀ f ∈ fs, f ≠ .str [] ∧ ∀ gs, f ≠ .dc gs) → NoEmpty gs → NoEmpty (fs ++ [.dc gs])

end Oups.Indexer
