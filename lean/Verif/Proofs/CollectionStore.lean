import Verif.Model.CollectionStore
import Verif.Proofs.Collection
import Verif.Props.Indexer
/-! The store with indexing schemas and the writer is an instance of the collections. -/
set_option linter.unusedSimpArgs false
namespace Oups.Collection
open Oups.Indexer (Str FVal Schema levelStrs)

/-- Laws of a comparison. -/
structure CmpLaws {α : Type} (cmp : α → α → Ordering) (a : α) : Prop where
  eq : ∀ b, cmp a b = .eq ↔ a = b
  swap : ∀ b, cmp b a = (cmp a b).swap
  trans : ∀ b c, cmp a b = .lt → cmp b c = .lt → cmp a c = .lt

theorem cmpInt_laws (a : Int) : CmpLaws cmpInt a where
  eq b := by unfold cmpInt; split <;> [skip; split] <;> simp <;> omega
  swap b := by
    unfold cmpInt
    by_cases h1 : a < b
    · have : ¬ b < a := by omega
      simp [h1, this]
    · by_cases h2 : b < a <;> simp [h1, h2]
  trans b c := by
    unfold cmpInt
    intro h1 h2
    have h1 : a < b := by by_contra h; simp [h] at h1; split at h1 <;> cases h1
    have h2 : b < c := by by_contra h; simp [h] at h2; split at h2 <;> cases h2
    rw [if_pos (by omega)]

theorem toNat_inj {a b : Char} (h1 : ¬ a.toNat < b.toNat) (h2 : ¬ b.toNat < a.toNat) : a = b := by
  have : a.toNat = b.toNat := by omega
  exact Char.toNat_inj.1 this

theorem cmpStr_laws (a : Str) : CmpLaws cmpStr a := by
  induction a with
  | nil =>
    refine ⟨fun b => ?_, fun b => ?_, fun b c => ?_⟩
    · cases b <;> simp [cmpStr]
    · cases b <;> simp [cmpStr]
    · cases b <;> cases c <;> simp [cmpStr]
  | cons x a ih =>
    refine ⟨fun b => ?_, fun b => ?_, fun b c => ?_⟩
    · cases b with
      | nil => simp [cmpStr]
      | cons y b =>
        simp only [cmpStr]
        split
        · rename_i h; simp; rintro rfl; omega
        · split
          · rename_i h; simp; rintro rfl; omega
          · rename_i h1 h2
            rw [ih.eq, toNat_inj h1 h2]; simp
    · cases b with
      | nil => simp [cmpStr]
      | cons y b =>
        simp only [cmpStr]
        by_cases h1 : x.toNat < y.toNat
        · have : ¬ y.toNat < x.toNat := by omega
          simp [h1, this]
        · by_cases h2 : y.toNat < x.toNat
          · simp [h1, h2]
          · simp [h1, h2, ih.swap]
    · cases b with
      | nil => simp [cmpStr]
      | cons y b =>
        cases c with
        | nil => simp only [cmpStr]; intro _ h; cases h
        | cons z c =>
          simp only [cmpStr]
          intro h1 h2
          by_cases hxy : x.toNat < y.toNat
          · by_cases hyz : y.toNat < z.toNat
            · rw [if_pos (by omega)]
            · rw [if_neg hyz] at h2
              by_cases hzy : z.toNat < y.toNat
              · rw [if_pos hzy] at h2; cases h2
              · rw [if_pos (by omega)]
          · rw [if_neg hxy] at h1
            by_cases hyx : y.toNat < x.toNat
            · rw [if_pos hyx] at h1; cases h1
            · rw [if_neg hyx] at h1
              by_cases hyz : y.toNat < z.toNat
              · rw [if_pos (by omega)]
              · rw [if_neg hyz] at h2
                by_cases hzy : z.toNat < y.toNat
                · rw [if_pos hzy] at h2; cases h2
                · rw [if_neg hzy] at h2
                  rw [if_neg (by omega), if_neg (by omega)]
                  exact ih.trans _ _ h1 h2

mutual
theorem cmpVal_eq : ∀ a b : FVal, cmpVal a b = .eq ↔ a = b
  | .int a, .int b => by simp [cmpVal, (cmpInt_laws a).eq]
  | .str a, .str b => by simp [cmpVal, (cmpStr_laws a).eq]
  | .other a, .other b => by simp [cmpVal, (cmpStr_laws a).eq]
  | .dc a, .dc b => by simp [cmpVal, cmpKey_eq a b]
  | .int _, .str _ => by simp [cmpVal]
  | .int _, .other _ => by simp [cmpVal]
  | .int _, .dc _ => by simp [cmpVal]
  | .str _, .int _ => by simp [cmpVal]
  | .str _, .other _ => by simp [cmpVal]
  | .str _, .dc _ => by simp [cmpVal]
  | .other _, .int _ => by simp [cmpVal]
  | .other _, .str _ => by simp [cmpVal]
  | .other _, .dc _ => by simp [cmpVal]
  | .dc _, .int _ => by simp [cmpVal]
  | .dc _, .str _ => by simp [cmpVal]
  | .dc _, .other _ => by simp [cmpVal]
theorem cmpKey_eq : ∀ a b : List FVal, cmpKey a b = .eq ↔ a = b
  | [], [] => by simp [cmpKey]
  | [], _ :: _ => by simp [cmpKey]
  | _ :: _, [] => by simp [cmpKey]
  | x :: a, y :: b => by
    simp only [cmpKey, Ordering.then_eq_eq, cmpVal_eq x y, cmpKey_eq a b, List.cons.injEq]
end

mutual
theorem cmpVal_swap : ∀ a b : FVal, cmpVal b a = (cmpVal a b).swap
  | .int a, .int b => by simp [cmpVal, (cmpInt_laws a).swap b]
  | .str a, .str b => by simp [cmpVal, (cmpStr_laws a).swap b]
  | .other a, .other b => by simp [cmpVal, (cmpStr_laws a).swap b]
  | .dc a, .dc b => by simp [cmpVal, cmpKey_swap a b]
  | .int _, .str _ => by simp [cmpVal]
  | .int _, .other _ => by simp [cmpVal]
  | .int _, .dc _ => by simp [cmpVal]
  | .str _, .int _ => by simp [cmpVal]
  | .str _, .other _ => by simp [cmpVal]
  | .str _, .dc _ => by simp [cmpVal]
  | .other _, .int _ => by simp [cmpVal]
  | .other _, .str _ => by simp [cmpVal]
  | .other _, .dc _ => by simp [cmpVal]
  | .dc _, .int _ => by simp [cmpVal]
  | .dc _, .str _ => by simp [cmpVal]
  | .dc _, .other _ => by simp [cmpVal]
theorem cmpKey_swap : ∀ a b : List FVal, cmpKey b a = (cmpKey a b).swap
  | [], [] => by simp [cmpKey]
  | [], _ :: _ => by simp [cmpKey]
  | _ :: _, [] => by simp [cmpKey]
  | x :: a, y :: b => by simp only [cmpKey, cmpVal_swap x y, cmpKey_swap a b, Ordering.swap_then]
end

mutual
theorem cmpVal_trans : ∀ a b c : FVal, cmpVal a b = .lt → cmpVal b c = .lt → cmpVal a c = .lt
  | .int a, b, c => by
    cases b <;> cases c <;> simp [cmpVal]
    exact (cmpInt_laws a).trans _ _
  | .str a, b, c => by
    cases b <;> cases c <;> simp [cmpVal]
    exact (cmpStr_laws a).trans _ _
  | .other a, b, c => by
    cases b <;> cases c <;> simp [cmpVal]
    exact (cmpStr_laws a).trans _ _
  | .dc a, b, c => by
    have ih := cmpKey_trans a
    cases b <;> cases c <;> simp [cmpVal]
    exact ih _ _
theorem cmpKey_trans : ∀ a b c : List FVal, cmpKey a b = .lt → cmpKey b c = .lt → cmpKey a c = .lt
  | [], b, c => by cases b <;> cases c <;> simp [cmpKey]
  | x :: a, [], c => by simp [cmpKey]
  | x :: a, y :: b, [] => by simp only [cmpKey]; intro _ h; cases h
  | x :: a, y :: b, z :: c => by
    simp only [cmpKey, Ordering.then_eq_lt]
    rintro (h1 | ⟨h1, h1'⟩) (h2 | ⟨h2, h2'⟩)
    · exact Or.inl (cmpVal_trans x y z h1 h2)
    · rw [cmpVal_eq] at h2; subst h2; exact Or.inl h1
    · rw [cmpVal_eq] at h1; subst h1; exact Or.inl h2
    · rw [cmpVal_eq] at h1; subst h1; exact Or.inr ⟨h2, cmpKey_trans a b c h1' h2'⟩
end

theorem NoEmpty.not_exceptional {fs : List FVal} (h : Indexer.NoEmpty fs) : ¬ Indexer.Exceptional fs := by
  intro hx
  induction hx with
  | here hv =>
    have := h.flat_inv (by
      intro f hf gs
      simp only [List.mem_cons, List.not_mem_nil, or_false] at hf
      rcases hf with rfl | rfl
      · simp
      · exact hv gs)
    exact this (.str []) (by simp) rfl
  | deeper _ ih => exact ih h.nest_inv.2

theorem key_path {sep : Char} {sch : Schema} (hw : sch.WF) (k : Key sep sch) :
    Indexer.toPath sep k.1 = .ok (Indexer.join '/' (levelStrs sep k.1)) := Indexer.toStr_eq true k.2.conf hw

instance {sep : Char} {sch : Schema} : DecidableEq (Key sep sch) := fun a b =>
  if h : cmpKey a.1 b.1 = .eq then isTrue (Subtype.ext ((cmpKey_eq _ _).1 h))
  else isFalse fun e => h ((cmpKey_eq _ _).2 (congrArg Subtype.val e))

/-- Collections of the keys of a class, whose writer leaves a parquet file. -/
theorem class_lawful {C W : Type} {sep : Char} (hsep : sep ≠ '/') {sch : Schema} (hw : sch.WF) {names : C → List Str}
    {empty : C} {writer : W → C → Option C} (hnames : names empty = [])
    (hwrites : ∀ w c c', writer w c = some c' → (names c').any isParquetFile = true) :
    Lawful (classEnv sep sch names empty writer) (fun k => levelStrs sep k.1) where
  path k := by simp only [classEnv, key_path hw k]
  length k := (Indexer.levelStrs_contained hsep hw k.2.conf k.2.valid k.2.noEmpty).1
  pos := by simp only [classEnv]; cases sch <;> simp [Schema.depth]
  plain k s hs := by
    have := (Indexer.levelStrs_contained hsep hw k.2.conf k.2.valid k.2.noEmpty).2 s hs
    exact ⟨this.1, this.2.2.2⟩
  back k := by
    obtain ⟨p, h1, h2⟩ := Indexer.C01_path_roundtrip hw k.2.conf k.2.valid (NoEmpty.not_exceptional k.2.noEmpty)
    rw [key_path hw k] at h1
    cases h1
    simp only [classEnv, h2, k.2, dif_pos]
  lt_irrefl a := by simp [classEnv, (cmpKey_eq a.1 a.1).2 rfl]
  lt_trans a b c := by simpa [classEnv] using cmpKey_trans a.1 b.1 c.1
  lt_total a b h := by
    have h1 : cmpKey a.1 b.1 ≠ .eq := fun e => h (Subtype.ext ((cmpKey_eq _ _).1 e))
    have h2 := cmpKey_swap a.1 b.1
    simp only [classEnv, beq_iff_eq]
    cases hc : cmpKey a.1 b.1 with
    | lt => exact Or.inl rfl
    | eq => exact absurd hc h1
    | gt => rw [hc] at h2; exact Or.inr h2
  noFile := hnames
  writes := hwrites

/-- The store is an instance of the collections. -/
theorem store_lawful {R : Type} {sep : Char} (hsep : sep ≠ '/') {sch : Schema} (hw : sch.WF) (T : Writer.Table R) :
    Lawful (storeEnv sep sch T) (fun k => levelStrs sep k.1) :=
  class_lawful hsep hw rfl fun w c c' h => by
    split at h
    · cases h; simp [datasetFiles, isParquetFile]
    · cases h

/-- A directory tree in which each directory at the depth of datasets with a dataset is the directory of a key, or
is not readable as a key. An empty store is such a tree. -/
def OupsTree {D : Type} (sep : Char) (sch : Schema) (base : Path) (fs : FS (Option D)) : Prop :=
  fs.WF ∧ ∀ rel c, fs.lookup (base ++ rel) = some (some c) → rel.length = sch.depth →
    (∃ k : Key sep sch, Indexer.toPath sep k.1 = .ok (Indexer.join '/' rel) ∧ ∀ s ∈ rel, '/' ∉ s) ∨
    ∀ k : Key sep sch, Indexer.fromStr sep sch (Indexer.join '/' rel) ≠ some (.dc k.1)

theorem OupsTree.canonical_class {D W : Type} {sep : Char} (hsep : sep ≠ '/') {sch : Schema} (hw : sch.WF)
    {names : Option D → List Str} {writer : W → Option D → Option (Option D)} (hnames : names none = [])
    {base : Path} {fs : FS (Option D)} (h : OupsTree sep sch base fs) :
    Canonical (classEnv sep sch names none writer) (fun k => levelStrs sep k.1) base fs := by
  intro rel c k hl hr hp hk
  have hE := class_lawful (C := Option D) (names := fun _ => []) (W := W) (empty := none) (writer := fun _ _ => none) hsep hw rfl
    (by simp)
  cases c with
  | none => simp [classEnv, hnames] at hp
  | some rgs =>
    rcases h.2 rel rgs hl hr with ⟨k', hk', hs⟩ | hn
    · rw [key_path hw k'] at hk'
      have e : Indexer.join '/' (levelStrs sep k'.1) = Indexer.join '/' rel := Except.ok.inj hk'
      have hpos := hE.pos
      have hlen := hE.length k'
      have e2 : levelStrs sep k'.1 = rel := by
        have := congrArg (Indexer.split (· == '/')) e
        rwa [split_join _ (by intro e; simp [e] at hlen; omega) (fun s hs => (hE.plain k' s hs).2),
          split_join rel (by intro e; subst e; simp [classEnv] at hr hpos; omega) hs] at this
      have hb : (classEnv sep sch names none writer).fromPath = (classEnv (C := Option D) (W := W) sep sch (fun _ => []) none
        (fun _ _ => none)).fromPath := rfl
      rw [hb, ← e2, hE.back] at hk
      cases hk
      exact e2
    · simp only [classEnv] at hk
      split at hk
      · rename_i fs hf
        split at hk
        · rename_i hkey
          exact absurd hf (hn ⟨fs, hkey⟩)
        · cases hk
      · cases hk

theorem OupsTree.canonical {R : Type} {sep : Char} (hsep : sep ≠ '/') {sch : Schema} (hw : sch.WF) {T : Writer.Table R}
    {base : Path} {fs : FS (Option (List (Writer.RG R)))} (h : OupsTree sep sch base fs) :
    Canonical (storeEnv sep sch T) (fun k => levelStrs sep k.1) base fs :=
  h.canonical_class hsep hw rfl

theorem OupsTree.noStray {R : Type} {sep : Char} {sch : Schema} {T : Writer.Table R}
    {base : Path} {fs : FS (Option (List (Writer.RG R)))} :
    NoStray (storeEnv sep sch T) (fun k => levelStrs sep k.1) base fs := by
  intro k c _
  cases c with
  | none => exact Or.inr rfl
  | some rgs => exact Or.inl (by simp [storeEnv, classEnv, datasetFiles, isParquetFile])

end Oups.Collection
