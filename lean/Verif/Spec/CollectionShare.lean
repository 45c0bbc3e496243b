import Verif.Spec.Collection
import Verif.Model.CollectionShare
/-! What users of several collections on the same files have in mind. -/
namespace Oups.Collection
open Oups.Indexer (Str join)

/-- Directories of possible datasets have a parquet file. -/
def Tidy {K C W : Type} (E : Env K C W) (comps : K → List Str) (base : Path) (fs : FS C) : Prop :=
  ∀ k c, fs.lookup (base ++ comps k) = some c → (E.names c).any isParquetFile = true

/-- One dictionary for all the instances, and for each instance the keys it knows of. -/
structure View (K C : Type) where
  dict : Dict K C
  known : List (K → Bool)

/-- A new instance knows the keys there are. Writing goes to the dictionary, and the key becomes known to the instance
that writes. Deleting a key the instance does not know of does nothing; if it knows of it, the dataset is removed and the
key is no more known to the instance, or FileNotFoundError is raised when there is no dataset any more. -/
def View.step {K C W : Type} [DecidableEq K] (writer : W → C → Option C) (empty : C) (v : View K C) :
    Act K W → View K C × Option Err
  | .opening => (⟨v.dict, v.known ++ [fun k => (v.dict k).isSome]⟩, none)
  | .use i (.set (some k) true w) =>
    if i < v.known.length then
      match writer w ((v.dict k).getD empty) with
      | some c =>
        (⟨fun k' => if k' = k then some c else v.dict k',
          v.known.modify i fun f k' => decide (k' = k) || f k'⟩, none)
      | none => (v, some .writer)
    else (v, none)
  | .use i (.set _ _ _) => if i < v.known.length then (v, some .typeError) else (v, none)
  | .use i (.del k) =>
    if (v.known[i]?.map fun f => f k) = some true then
      if (v.dict k).isSome then
        (⟨fun k' => if k' = k then none else v.dict k', v.known.modify i fun f k' => decide (k' ≠ k) && f k'⟩, none)
      else (v, some .fileNotFound)
    else (v, none)

def View.run {K C W : Type} [DecidableEq K] (writer : W → C → Option C) (empty : C) (v : View K C) :
    List (Act K W) → View K C × List (Option Err)
  | [] => (v, [])
  | a :: as => ((View.run writer empty (v.step writer empty a).1 as).1,
      (v.step writer empty a).2 :: (View.run writer empty (v.step writer empty a).1 as).2)

/-- Each key is written and deleted through one instance only. -/
def Owned {K W : Type} (owner : K → Nat) : Act K W → Prop
  | .opening => True
  | .use i op => ∀ k, op.key = some k → owner k = i

/-- Datasets of two collections have nothing in common: no directory of one is that of the other, nor in it, nor around
it, and no collection takes directories of the other for its own. -/
structure Apart {K₁ K₂ C W₁ W₂ : Type} (E₁ : Env K₁ C W₁) (E₂ : Env K₂ C W₂) (comps₁ : K₁ → List Str)
    (comps₂ : K₂ → List Str) (base₁ base₂ : Path) : Prop where
  outside₁ : ∀ k₁ k₂, ¬ base₁ ++ comps₁ k₁ <+: base₂ ++ comps₂ k₂
  outside₂ : ∀ k₁ k₂, ¬ base₂ ++ comps₂ k₂ <+: base₁ ++ comps₁ k₁
  unread₁ : ∀ k₂ rel, base₂ ++ comps₂ k₂ = base₁ ++ rel → rel.length = E₁.depth → E₁.fromPath (join '/' rel) = none
  unread₂ : ∀ k₁ rel, base₁ ++ comps₁ k₁ = base₂ ++ rel → rel.length = E₂.depth → E₂.fromPath (join '/' rel) = none

end Oups.Collection
