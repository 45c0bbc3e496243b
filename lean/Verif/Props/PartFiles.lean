import Verif.Model.PartFiles
import Verif.Proofs.Indexer
import Verif.Props.Writer
/-! # C19: names of files -/
namespace Oups.PartFiles
open Indexer Writer

variable {R : Type}

theorem numberText_partName (n : Nat) : numberText (partName n) = natStr n := by
  unfold numberText partName
  rw [List.append_assoc, List.length_append, List.length_append,
    show "part.".toList.length + ((natStr n).length + ".parquet".toList.length) - 8 = "part.".toList.length + (natStr n).length by
      rw [show "part.".toList.length = 5 from rfl, show ".parquet".toList.length = 8 from rfl]; omega,
    ← List.append_assoc, ← List.length_append, List.take_left]
  exact List.drop_left (l₁ := "part.".toList)

theorem vdfKeeps_partName (n : Nat) : vdfKeeps (partName n) = true := by
  have : partName n = ("part.".toList ++ natStr n ++ ['.']) ++ "parquet".toList := by
    rw [partName, List.append_assoc _ ['.']]; rfl
  rw [vdfKeeps, this, List.length_append, show "parquet".toList.length = 7 from rfl, Nat.add_sub_cancel, List.drop_left]
  rfl

theorem endsWith_partName (n : Nat) : endsWithParquet (partName n) = true := by
  rw [endsWithParquet, List.isSuffixOf_iff_suffix]
  exact ⟨_, rfl⟩

theorem endsWith_keeps {x : Str} (h : endsWithParquet x = true) : vdfKeeps x = true := by
  rw [endsWithParquet, List.isSuffixOf_iff_suffix] at h
  obtain ⟨p, rfl⟩ := h
  rw [show p ++ ".parquet".toList = (p ++ ['.']) ++ "parquet".toList by rw [List.append_assoc]; rfl, vdfKeeps, List.length_append,
    show "parquet".toList.length = 7 from rfl, Nat.add_sub_cancel, List.drop_left]
  rfl

theorem parseInt_partName (n : Nat) : parseInt (numberText (partName n)) = some (n : Int) := by
  rw [numberText_partName]; exact parseInt_intStr (.ofNat n)

/-- The listing of a directory shows a dataset: names are not repeated, and those that end with "parquet" are those of the files of row
groups. -/
structure Shows (files : List (Str × List R)) (d : Disk R) : Prop where
  nodup : (files.map Prod.fst).Nodup
  mem : ∀ x rows, ((x, rows) ∈ files ∧ vdfKeeps x = true) ↔ ∃ i, x = partName i ∧ d.part i = some rows

/-- Number in a name. -/
def num (x : Str) : Nat := ((parseInt (numberText x)).getD 0).toNat

theorem num_partName (n : Nat) : num (partName n) = n := by
  rw [num, parseInt_partName]; rfl

theorem numbered_eq (l : List (Str × List R)) (h : ∀ f ∈ l, ∃ i, f.1 = partName i) :
    numbered l = some (l.map fun f => ((num f.1 : Int), f.2)) := by
  induction l with
  | nil => rfl
  | cons f l ih =>
    obtain ⟨i, hi⟩ := h f (by simp)
    have ih' := ih fun g hg => h g (by simp [hg])
    rw [numbered] at ih' ⊢
    rw [List.mapM_cons, ih', hi, parseInt_partName, List.map_cons, hi, num_partName]
    rfl

/-- **C19** Through names of files: whatever the order in which the directory is scanned, and whatever other files it has, if names that
end with "parquet" are those of row groups, then `vdf` raises nothing and gives the rows of `pdf`, in the same order; and `write` finds
the dataset. Without row group, `vdf` raises and `write` creates the dataset. -/
theorem C19_names {T : Table R} {d : Disk R} {rgs : List (RG R)} (h : DiskHist T d rgs) {files : List (Str × List R)} (hs : Shows files d) :
    (rgs ≠ [] → vdf files = .ok (pdfRows rgs) ∧ found files = true) ∧
    (rgs = [] → vdf files = .error .noFiles ∧ found files = false) := by
  have hname : ∀ f ∈ files.filter (fun f => vdfKeeps f.1), ∃ i, f.1 = partName i ∧ d.part i = some f.2 := by
    intro f hf
    rw [List.mem_filter] at hf
    exact (hs.mem f.1 f.2).1 hf
  have hnum := numbered_eq _ fun f hf => (hname f hf).imp fun _ h => h.1
  let scan : List (RG R) := (files.filter fun f => vdfKeeps f.1).map fun f => ⟨num f.1, f.2⟩
  have hmem : ∀ g, g ∈ scan ↔ d.part g.id = some g.rows := by
    intro g
    simp only [scan, List.mem_map]
    constructor
    · rintro ⟨f, hf, rfl⟩
      obtain ⟨i, h1, h2⟩ := hname f hf
      simp only [h1, num_partName, h2]
    · intro hg
      have := (hs.mem (partName g.id) g.rows).2 ⟨g.id, rfl, hg⟩
      exact ⟨(partName g.id, g.rows), List.mem_filter.2 this, by simp only [num_partName]⟩
  have hnd : scan.Nodup := by
    refine List.Nodup.map_on ?_ ((List.Nodup.of_map _ hs.nodup).filter _)
    intro a ha b hb hab
    obtain ⟨i, h1, h2⟩ := hname a ha
    obtain ⟨j, h3, h4⟩ := hname b hb
    simp only [h1, h3, num_partName, RG.mk.injEq] at hab
    exact Prod.ext (by rw [h1, h3, hab.1]) hab.2
  have hv := (C19_views_agree h).2 scan hnd hmem
  have hperm : scan.Perm rgs := (List.perm_ext_iff_of_nodup hnd (List.Nodup.of_map _ h.inv.2.1.nodup)).2
    fun g => (hmem g).trans (h.inv.1 _ _)
  have hsort : ((stableSort Prod.fst ((files.filter fun f => vdfKeeps f.1).map fun f => ((num f.1 : Int), f.2))).map Prod.snd).flatten
      = vdfRows scan := by
    rw [vdfRows, readRows, stableSort, stableSort]
    simp only [scan]
    rw [← List.map_insertionSort (r := fun a b : Str × List R => (num a.1 : Int) ≤ (num b.1 : Int))
        (s := fun a b : Int × List R => a.1 ≤ b.1) (fun f => ((num f.1 : Int), f.2)) _ (fun a _ b _ => Iff.rfl),
      ← List.map_insertionSort (r := fun a b : Str × List R => (num a.1 : Int) ≤ (num b.1 : Int))
        (s := fun a b : RG R => (a.id : Int) ≤ (b.id : Int)) (fun f => (⟨num f.1, f.2⟩ : RG R)) _ (fun a _ b _ => Iff.rfl),
      List.map_map, List.map_map]
    rfl
  have hlen : (files.filter fun f => vdfKeeps f.1).length = rgs.length := by
    rw [← hperm.length_eq, List.length_map]
  constructor
  · intro hne
    constructor
    · rw [vdf, hnum]
      cases hl : (files.filter fun f => vdfKeeps f.1) with
      | nil =>
        rw [hl] at hlen
        exact absurd (List.length_eq_zero_iff.1 hlen.symm) hne
      | cons f l =>
        rw [hl] at hsort
        rw [List.map_cons] at hsort ⊢
        simp only [hsort, hv]
    · cases hl : (files.filter fun f => vdfKeeps f.1) with
      | nil =>
        rw [hl] at hlen
        exact absurd (List.length_eq_zero_iff.1 hlen.symm) hne
      | cons f l =>
        have hf : f ∈ files.filter fun f => vdfKeeps f.1 := by rw [hl]; simp
        obtain ⟨i, hi, -⟩ := hname f hf
        rw [found, List.any_eq_true]
        exact ⟨f, (List.mem_filter.1 hf).1, by rw [hi]; exact endsWith_partName i⟩
  · intro he
    subst he
    have hl := List.length_eq_zero_iff.1 hlen
    constructor
    · rw [vdf, hnum, hl]; rfl
    · rw [found, List.any_eq_false]
      intro f hf hc
      have : f ∈ files.filter fun f => vdfKeeps f.1 := List.mem_filter.2 ⟨hf, endsWith_keeps hc⟩
      rw [hl] at this
      cases this

/-- **C19** Two files of row groups never have the same name, and their numbers are read back from their names. -/
theorem C19_name_number (i j : Nat) : (partName i = partName j ↔ i = j) ∧ parseInt (numberText (partName i)) = some (i : Int) :=
  ⟨⟨fun h => by have := congrArg num h; rwa [num_partName, num_partName] at this, fun h => by rw [h]⟩, parseInt_partName i⟩

/-- **C19** (finding) A file which is not a row group, but whose name ends with "parquet", makes `vdf` raise, or adds its rows to it, while
`pdf`, which follows `_metadata`, does not see it. -/
theorem C19_other_file_fails :
    vdf [(partName 0, [1, 2]), ("backup.parquet".toList, [7])] = .error .valueError ∧
    vdf [(partName 1, [3]), (partName 0, [1, 2]), ("copy_0.parquet".toList, [7])] = .ok [1, 2, 7, 3] := by decide +kernel

/-- Eleven row groups, scanned in the order of names as texts, which is not that of numbers. -/
example : vdf (["_metadata".toList, partName 0, partName 1, partName 10, partName 2].zip [[], [0], [1], [10], [2]])
    = .ok [0, 1, 2, 10] := by decide +kernel

/-- A directory that shows a dataset. -/
example : ∃ d : Disk (Int × Int), DiskHist exT d [⟨0, [(1, 0), (2, 0)]⟩, ⟨1, [(3, 1)]⟩] ∧
    Shows [("_metadata".toList, []), (partName 1, [(3, 1)]), (partName 0, [(1, 0), (2, 0)])] d := by
  obtain ⟨d, h⟩ : ∃ d, DiskHist exT d [⟨0, [(1, 0), (2, 0)]⟩, ⟨1, [(3, 1)]⟩] :=
    ⟨_, .write { maxRg := some 2 } [(1, 0), (2, 0), (3, 1)] (.empty (d := noDisk) (fun _ => rfl)) rfl⟩
  refine ⟨d, h, ⟨by decide +kernel, fun x rows => ?_⟩⟩
  have hp : ∀ i, d.part i = some rows ↔ (⟨i, rows⟩ : RG (Int × Int)) ∈ [⟨0, [(1, 0), (2, 0)]⟩, ⟨1, [(3, 1)]⟩] := fun i => h.inv.1 i rows
  simp only [hp, List.mem_cons, List.not_mem_nil, or_false, Prod.mk.injEq, RG.mk.injEq]
  constructor
  · rintro ⟨⟨rfl, rfl⟩ | ⟨rfl, rfl⟩ | ⟨rfl, rfl⟩, hk⟩
    · exact absurd hk (by decide +kernel)
    · exact ⟨1, rfl, .inr ⟨rfl, rfl⟩⟩
    · exact ⟨0, rfl, .inl ⟨rfl, rfl⟩⟩
  · rintro ⟨i, rfl, ⟨rfl, rfl⟩ | ⟨rfl, rfl⟩⟩
    · exact ⟨.inr (.inr ⟨rfl, rfl⟩), vdfKeeps_partName 0⟩
    · exact ⟨.inr (.inl ⟨rfl, rfl⟩), vdfKeeps_partName 1⟩

end Oups.PartFiles
