import Verif.Model.IndexerAttrs
/-
What calling a class with named fields is expected to do, for the names of fields which are not used by the package.
-/
namespace Oups.Indexer

/-- Names that cannot be given to fields of a `toplevel` class. -/
def Reserved : List String := ["fields_sep", "depth", "to_path", "_fields_sep", "check", "self"]

/-- `vs` are the values that positional arguments `args` and keyword arguments `kws` give to fields. -/
structure Given (fields : List NamedField) (args : List FVal) (kws : List (String × FVal)) (vs : List FVal) : Prop where
  /-- Each field has a value. -/
  length : vs.length = fields.length
  /-- Positional arguments are given to first fields, there are not more of them than fields. -/
  positional : ∀ (i : Nat) (a : FVal), args[i]? = some a → vs[i]? = some a
  /-- Next fields take the keyword argument of their name. -/
  keyword : ∀ i f v, args.length ≤ i → fields[i]? = some f → kws.lookup f.name = some v → vs[i]? = some v
  /-- Or have a default value and take it. -/
  default : ∀ i f, args.length ≤ i → fields[i]? = some f → kws.lookup f.name = none → vs[i]? = f.dflt
  /-- Keyword arguments are names of fields which are not given by position. -/
  known : ∀ kw ∈ kws, ∃ i f, args.length ≤ i ∧ fields[i]? = some f ∧ f.name = kw.1

/-- Keyword arguments but `check`. -/
def others (kws : List (String × FVal)) : List (String × FVal) := kws.filter fun kw => kw.1 != "check"

/-- `check` is left to its default value, or is given a true value. -/
def Checked (truth : FVal → Bool) (kws : List (String × FVal)) : Prop :=
  ∀ v, kws.lookup "check" = some v → truth v = true

end Oups.Indexer
