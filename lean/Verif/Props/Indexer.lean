import Verif.Proofs.Indexer
/-! Properties C01 to C06: indexing schemas. -/
namespace Oups.Indexer

/-! ### C01 and C02 -/

theorem roundtrip {sep : Char} {sch : Schema} {fs : List FVal} (asPath : Bool)
    (hw : sch.WF) (hc : sch.Conf fs) (hv : validate sep fs = .ok ()) (hx : ¬ Exceptional fs) :
    ∃ s, toStr sep asPath fs = .ok s ∧ fromStr sep sch s = some (.dc fs) := by
  have hv' := validate_sound sep fs hv
  refine ⟨_, toStr_eq asPath hc hw, ?_⟩
  have ht := split_toStr asPath hc hw hv' (toStr_eq asPath hc hw)
  rw [fromStr_eq]
  obtain ⟨S, n, _, h⟩ := runFrom_toks hc hw hx ht [] []
  rw [List.nil_append] at h
  rw [h]
  simp [fromStrLoop, construct]

theorem roundtrip_exceptional {sep : Char} {sch : Schema} {fs : List FVal} (asPath : Bool)
    (hw : sch.WF) (hc : sch.Conf fs) (hv : validate sep fs = .ok ()) (hx : Exceptional fs) :
    ∃ s, toStr sep asPath fs = .ok s ∧ fromStr sep sch s = none := by
  have hv' := validate_sound sep fs hv
  refine ⟨_, toStr_eq asPath hc hw, ?_⟩
  have ht := split_toStr asPath hc hw hv' (toStr_eq asPath hc hw)
  have hl := ht.length_exc hc hx
  cases h : fromStr sep sch (join (if asPath then dirSep else sep) (levelStrs sep fs)) with
  | none => rfl
  | some v =>
    have := fromStr_count hw h
    omega

/-- **C01** A key accepted at construction, with values of the declared types, is recovered from its path,
unless its last level has exactly two fields the first of which is the empty string. -/
theorem C01_path_roundtrip {sep : Char} {sch : Schema} {fs : List FVal}
    (hw : sch.WF) (hc : sch.Conf fs) (hv : validate sep fs = .ok ()) (hx : ¬ Exceptional fs) :
    ∃ p, toPath sep fs = .ok p ∧ fromStr sep sch p = some (.dc fs) :=
  roundtrip true hw hc hv hx

/-- **C01** The exception is exact: for every exceptional key, reading the path back fails. -/
theorem C01_path_roundtrip_exception {sep : Char} {sch : Schema} {fs : List FVal}
    (hw : sch.WF) (hc : sch.Conf fs) (hv : validate sep fs = .ok ()) (hx : Exceptional fs) :
    ∃ p, toPath sep fs = .ok p ∧ fromStr sep sch p = none :=
  roundtrip_exceptional true hw hc hv hx

/-- **C02** Same for `str(key)`, used by pickling. -/
theorem C02_str_roundtrip {sep : Char} {sch : Schema} {fs : List FVal}
    (hw : sch.WF) (hc : sch.Conf fs) (hv : validate sep fs = .ok ()) (hx : ¬ Exceptional fs) :
    ∃ s, toStr sep false fs = .ok s ∧ fromStr sep sch s = some (.dc fs) :=
  roundtrip false hw hc hv hx

/-- **C02** Pickling an exceptional key gives `None` back. -/
theorem C02_str_roundtrip_exception {sep : Char} {sch : Schema} {fs : List FVal}
    (hw : sch.WF) (hc : sch.Conf fs) (hv : validate sep fs = .ok ()) (hx : Exceptional fs) :
    ∃ s, toStr sep false fs = .ok s ∧ fromStr sep sch s = none :=
  roundtrip_exceptional false hw hc hv hx

theorem clean_int {sep : Char} {i : Int} (h1 : isDigit sep = false) (h2 : sep ≠ '-') :
    CleanText sep (FVal.int i).text := by
  have key : ∀ c ∈ intStr i, isDigit c = true ∨ c = '-' := by
    intro c hc
    cases i with
    | ofNat n => exact Or.inl (natStr_digits n c hc)
    | negSucc n =>
      rcases List.mem_cons.1 hc with rfl | hc
      · exact Or.inr rfl
      · exact Or.inl (natStr_digits _ c hc)
  refine ⟨?_, ?_, ?_⟩ <;> intro hm <;> rcases key _ hm with h | h
  · simp [h] at h1
  · exact h2 h
  · exact absurd h (by decide)
  · exact absurd h (by decide)
  · exact absurd h (by decide)
  · exact absurd h (by decide)

/-- Class with a `str` and an `int` field, then a sublevel with a `str` and an `int` field. -/
def sch2 : Schema := .node [.str, .int] (.leaf [.str, .int])

def key2 : List FVal := [.str ['a', 'b'], .int 7, .dc [.str ['c'], .int (-12)]]

theorem key2_conf : sch2.Conf key2 :=
  .node (ts := [.str, .int]) (fs := [.str ['a', 'b'], .int 7])
    (.cons (.str _) (.cons (.int _) .nil)) (.leaf (.cons (.str _) (.cons (.int _) .nil)))

theorem key2_wf : sch2.WF := by simp [sch2, Schema.WF]

theorem key2_valid : Valid '_' key2 :=
  .nest (fs := [.str ['a', 'b'], .int 7]) (by simp)
    (by simp only [List.mem_cons, List.not_mem_nil, or_false, forall_eq_or_imp, forall_eq]
        exact ⟨.str (by simp [CleanText]), .int (clean_int (by decide) (by decide))⟩)
    (.flat (by
        simp only [List.mem_cons, List.not_mem_nil, or_false, forall_eq_or_imp, forall_eq]
        exact ⟨.str (by simp [CleanText]), .int (clean_int (by decide) (by decide))⟩))

theorem key2_not_exceptional : ¬ Exceptional key2 := by
  have h : ¬ ∃ v, [FVal.str ['c'], FVal.int (-12)] = [.str [], v] := by simp
  have hf : List.Forall₂ PTy.Has [.str, .int] [FVal.str ['c'], FVal.int (-12)] :=
    .cons (.str _) (.cons (.int _) .nil)
  rw [show key2 = [.str ['a', 'b'], .int 7] ++ [.dc [.str ['c'], .int (-12)]] from rfl,
    Exceptional.nest_iff, Exceptional.flat_iff hf]
  exact h

example : ∃ p, toPath '_' key2 = .ok p ∧ fromStr '_' sch2 p = some (.dc key2) :=
  C01_path_roundtrip key2_wf key2_conf (validate_complete _ _ key2_valid) key2_not_exceptional

example : ∃ s, toStr '_' false key2 = .ok s ∧ fromStr '_' sch2 s = some (.dc key2) :=
  C02_str_roundtrip key2_wf key2_conf (validate_complete _ _ key2_valid) key2_not_exceptional

/-- The exceptional case occurs: `Key("", "x")`. -/
theorem C01_empty_first_field_fails :
    validate '-' [.str [], .str ['x']] = .ok () ∧
    toPath '-' [.str [], .str ['x']] = .ok ['x'] ∧
    fromStr '-' (.leaf [.str, .str]) ['x'] = none := by
  refine ⟨?_, ?_, rfl⟩
  · apply validate_complete
    exact .flat (by
      simp only [List.mem_cons, List.not_mem_nil, or_false, forall_eq_or_imp, forall_eq]
      exact ⟨.str (by simp [CleanText]), .str (by simp [CleanText])⟩)
  · have hf : List.Forall₂ PTy.Has [.str, .str] [FVal.str [], FVal.str ['x']] :=
      .cons (.str _) (.cons (.str _) .nil)
    rw [toPath, toStr_eq (sch := .leaf [.str, .str]) true (.leaf hf) (by simp [Schema.WF]),
      (levelStrs_leaf '-' hf (by simp)).1 _ rfl]
    rfl

/-! ### C03 -/

/-- **C03** Two different valid keys of one class have different paths and different strings. -/
theorem C03_distinct_keys_distinct_paths {sep : Char} {sch : Schema} {fs gs : List FVal} (asPath : Bool)
    (hw : sch.WF) (hcf : sch.Conf fs) (hcg : sch.Conf gs)
    (hvf : validate sep fs = .ok ()) (hvg : validate sep gs = .ok ()) (hne : fs ≠ gs) :
    toStr sep asPath fs ≠ toStr sep asPath gs := by
  intro he
  apply hne
  by_cases hxf : Exceptional fs
  · by_cases hxg : Exceptional gs
    · have h1 := split_toStr asPath hcf hw (validate_sound _ _ hvf) (toStr_eq asPath hcf hw)
      have h2 := split_toStr asPath hcg hw (validate_sound _ _ hvg) (he ▸ toStr_eq asPath hcf hw)
      exact Toks.inj_exc hcf hcg hxf hxg h1 h2
    · obtain ⟨s, h1, h2⟩ := roundtrip_exceptional asPath hw hcf hvf hxf
      obtain ⟨t, h3, h4⟩ := roundtrip asPath hw hcg hvg hxg
      rw [he, h3] at h1; cases h1
      rw [h4] at h2; cases h2
  · obtain ⟨t, h3, h4⟩ := roundtrip asPath hw hcf hvf hxf
    by_cases hxg : Exceptional gs
    · obtain ⟨s, h1, h2⟩ := roundtrip_exceptional asPath hw hcg hvg hxg
      rw [he, h1] at h3; cases h3
      rw [h4] at h2; cases h2
    · obtain ⟨s, h1, h2⟩ := roundtrip asPath hw hcg hvg hxg
      rw [he, h1] at h3; cases h3
      rw [h4] at h2; cases h2; rfl

def key3 : List FVal := [.str ['a'], .int 7, .dc [.str ['b', 'c'], .int (-12)]]

example : toPath '_' key2 ≠ toPath '_' key3 :=
  C03_distinct_keys_distinct_paths true key2_wf key2_conf
    (.node (ts := [.str, .int]) (fs := [.str ['a'], .int 7])
      (.cons (.str _) (.cons (.int _) .nil)) (.leaf (.cons (.str _) (.cons (.int _) .nil))))
    (validate_complete _ _ key2_valid)
    (validate_complete _ _ (.nest (fs := [.str ['a'], .int 7]) (by simp)
    (by simp only [List.mem_cons, List.not_mem_nil, or_false, forall_eq_or_imp, forall_eq]
        exact ⟨.str (by simp [CleanText]), .int (clean_int (by decide) (by decide))⟩)
    (.flat (by
        simp only [List.mem_cons, List.not_mem_nil, or_false, forall_eq_or_imp, forall_eq]
        exact ⟨.str (by simp [CleanText]), .int (clean_int (by decide) (by decide))⟩))))
    (by simp [key2, key3])

/-! ### C04 -/

/-- A directory name that is a plain name: not empty, not '.' nor '..', without '/'. -/
def PlainName (s : Str) : Prop := s ≠ [] ∧ s ≠ ['.'] ∧ s ≠ ['.', '.'] ∧ '/' ∉ s

theorem join_head (sep : Char) (s : Str) (ls : List Str) (c : Char) (cs : Str) (h : s = c :: cs) :
    ∃ t, join sep (s :: ls) = c :: t := by
  subst h
  cases ls with
  | nil => exact ⟨cs, rfl⟩
  | cons x xs => exact ⟨_, rfl⟩

theorem mem_join {sep : Char} {ls : List Str} {c : Char} (h : c ∈ join sep ls) :
    c = sep ∨ ∃ s ∈ ls, c ∈ s := by
  induction ls with
  | nil => simp [join] at h
  | cons x xs ih =>
    cases xs with
    | nil => exact Or.inr ⟨x, by simp, h⟩
    | cons y ys =>
      simp only [join, List.mem_append, List.mem_cons] at h
      rcases h with h | h | h
      · exact Or.inr ⟨x, by simp, h⟩
      · exact Or.inl h
      · rcases ih h with h | ⟨s, hs, hc⟩
        · exact Or.inl h
        · exact Or.inr ⟨s, by simp [hs], hc⟩

theorem plainName_join {sep : Char} (hsep : sep ≠ '/') {ts fs} (hne : ts ≠ [])
    (h : List.Forall₂ PTy.Has ts fs) (hp : ∀ f ∈ fs, PlainOk sep f) (he : ∀ f ∈ fs, f ≠ .str []) :
    PlainName (join sep (fs.map FVal.text)) := by
  cases h with
  | nil => exact absurd rfl hne
  | cons h1 h2 =>
    rename_i t f ts fs
    have hf : f.text ≠ [] := fun e => he f (by simp) (Has.text_nil h1 e)
    cases hc : f.text with
    | nil => exact absurd hc hf
    | cons c cs =>
      have hcl := (hp f (by simp)).clean
      have hdot : c ≠ '.' := by
        rintro rfl; exact hcl.2.2 (by rw [hc]; simp)
      obtain ⟨t, ht⟩ := join_head sep f.text (fs.map FVal.text) c cs hc
      have hj : join sep ((f :: fs).map FVal.text) = c :: t := ht
      refine ⟨by rw [hj]; simp, ?_, ?_, ?_⟩
      · rw [hj]; simp [hdot]
      · rw [hj]; simp [hdot]
      · intro hm
        rcases mem_join hm with h | ⟨s, hs, hcs⟩
        · exact hsep h.symm
        · obtain ⟨g, hg, rfl⟩ := List.mem_map.1 hs
          exact (hp g hg).clean.2.1 hcs

theorem NoEmpty.flat_inv {fs} (h : NoEmpty fs) (hn : ∀ f ∈ fs, ∀ gs, f ≠ .dc gs) : ∀ f ∈ fs, f ≠ .str [] := by
  cases h with
  | flat h => exact fun f hf => (h f hf).1
  | nest h1 h3 => exact absurd rfl (hn (.dc _) (List.mem_append_right _ (List.mem_singleton.2 rfl)) _)

theorem NoEmpty.nest_inv {fs gs} (h : NoEmpty (fs ++ [.dc gs])) : (∀ f ∈ fs, f ≠ .str []) ∧ NoEmpty gs := by
  generalize hx : fs ++ [.dc gs] = xs at h
  cases h with
  | flat h => subst hx; exact absurd rfl ((h (.dc gs) (by simp)).2 gs)
  | nest h1 h3 =>
    obtain ⟨rfl, e⟩ := append_singleton_inj hx
    cases e
    exact ⟨fun f hf => (h1 f hf).1, h3⟩

theorem levelStrs_contained {sep : Char} (hsep : sep ≠ '/') {sch : Schema} {fs : List FVal}
    (hw : sch.WF) (hc : sch.Conf fs) (hv : validate sep fs = .ok ()) (he : NoEmpty fs) :
    (levelStrs sep fs).length = sch.depth ∧ ∀ c ∈ levelStrs sep fs, PlainName c := by
  have hv' := validate_sound sep fs hv
  clear hv
  induction hc with
  | leaf h =>
    rename_i ts fs
    have hn := forall₂_notDc h
    have hx : ¬ ∃ v, fs = [.str [], v] := by
      rintro ⟨v, rfl⟩
      exact he.flat_inv hn _ (List.mem_cons_self ..) rfl
    rw [(levelStrs_leaf sep h hw).2 hx]
    simp only [List.length_singleton, Schema.depth, List.mem_singleton, forall_eq, true_and]
    exact plainName_join hsep hw h (hv'.flat_inv hn) (he.flat_inv hn)
  | node h1 h2 ih =>
    rename_i ts sub fs gs
    obtain ⟨_, hp, hvg⟩ := hv'.nest_inv
    obtain ⟨he1, he2⟩ := he.nest_inv
    obtain ⟨ih1, ih2⟩ := ih hw.2 he2 hvg
    rw [levelStrs_nest _ h2 hw.2]
    simp only [List.length_cons, ih1, Schema.depth, List.mem_cons, forall_eq_or_imp, true_and]
    exact ⟨plainName_join hsep hw.1 h1 hp he1, ih2⟩

/-- **C04** The path of a valid key without empty field is made of exactly `depth` plain directory names,
so it designates a directory `depth` levels below basepath. -/
theorem C04_path_contained {sep : Char} (hsep : sep ≠ '/') {sch : Schema} {fs : List FVal}
    (hw : sch.WF) (hc : sch.Conf fs) (hv : validate sep fs = .ok ()) (he : NoEmpty fs) :
    ∃ comps : List Str, toPath sep fs = .ok (join '/' comps) ∧ comps.length = sch.depth ∧
      ∀ c ∈ comps, PlainName c :=
  ⟨levelStrs sep fs, toStr_eq true hc hw, levelStrs_contained hsep hw hc hv he⟩

example : ∃ comps : List Str, toPath '_' key2 = .ok (join '/' comps) ∧ comps.length = 2 ∧
      ∀ c ∈ comps, PlainName c :=
  C04_path_contained (by decide) key2_wf key2_conf (validate_complete _ _ key2_valid)
    (.nest (fs := [.str ['a', 'b'], .int 7]) (by simp) (.flat (by simp)))

theorem toPath_empty_first : toPath '-' [.str [], .dc [.str ['x']]] = .ok ['/', 'x'] := by
  have hf : List.Forall₂ PTy.Has [.str] [FVal.str ['x']] := .cons (.str _) .nil
  have h0 : List.Forall₂ PTy.Has [.str] [FVal.str []] := .cons (.str _) .nil
  have hcs : Schema.Conf (.leaf [.str]) [FVal.str ['x']] := .leaf hf
  have hc : Schema.Conf (.node [.str] (.leaf [.str])) ([FVal.str []] ++ [.dc [FVal.str ['x']]]) := .node h0 hcs
  rw [toPath, show [FVal.str [], .dc [.str ['x']]] = [FVal.str []] ++ [.dc [FVal.str ['x']]] from rfl,
    toStr_eq true hc (by simp [Schema.WF]), levelStrs_nest _ hcs (by simp [Schema.WF]),
    (levelStrs_leaf '-' hf (by simp)).2 (by simp)]
  rfl

/-- **C04** fails with an empty string field: `Key("", Sub("x"))` passes validation and its path is the
absolute path "/x", outside basepath. -/
theorem C04_empty_field_escapes_fails :
    validate '-' [.str [], .dc [.str ['x']]] = .ok () ∧
    toPath '-' [.str [], .dc [.str ['x']]] = .ok ['/', 'x'] := by
  refine ⟨?_, toPath_empty_first⟩
  apply validate_complete
  exact .nest (fs := [.str []]) (by simp) (by simp; exact .str (by simp [CleanText]))
    (.flat (by simp; exact .str (by simp [CleanText])))

/-- **C04** fails with an empty string field: `Key("")` has the path "", that is basepath itself. -/
theorem C04_empty_key_is_basepath_fails :
    validate '-' [.str []] = .ok () ∧ toPath '-' [.str []] = .ok [] := by
  have hf : List.Forall₂ PTy.Has [.str] [FVal.str []] := .cons (.str _) .nil
  constructor
  · apply validate_complete
    exact .flat (by simp; exact .str (by simp [CleanText]))
  · rw [toPath, toStr_eq (sch := .leaf [.str]) true (.leaf hf) (by simp [Schema.WF]),
      (levelStrs_leaf '-' hf (by simp)).2 (by simp)]
    rfl

/-! ### C05 -/

/-- **C05** Construction succeeds exactly for the instances of the documented shape. -/
theorem C05_validation_exact (sep : Char) (fs : List FVal) : validate sep fs = .ok () ↔ Valid sep fs :=
  ⟨validate_sound sep fs, validate_complete sep fs⟩

example : validate '_' key2 = .ok () := (C05_validation_exact _ _).2 key2_valid

example : validate '-' [.dc [.str ['x']]] ≠ .ok () := by
  rw [ne_eq, C05_validation_exact]
  intro h
  have := Valid.nest_inv (fs := []) h
  exact this.1 rfl

/-! ### C06 -/

/-- **C06** fails: a directory with surplus fields is read as the key of another directory. -/
theorem C06_surplus_fields_fails :
    fromStr '-' (.leaf [.str, .str]) ['x', '-', 'a', '-', 'b'] = some (.dc [.str ['a'], .str ['b']]) ∧
    toPath '-' [.str ['a'], .str ['b']] = .ok ['a', '-', 'b'] := by
  refine ⟨rfl, ?_⟩
  have hf : List.Forall₂ PTy.Has [.str, .str] [FVal.str ['a'], FVal.str ['b']] :=
    .cons (.str _) (.cons (.str _) .nil)
  rw [toPath, toStr_eq (sch := .leaf [.str, .str]) true (.leaf hf) (by simp [Schema.WF]),
    (levelStrs_leaf '-' hf (by simp)).2 (by simp)]
  rfl

/-- **C06** fails: directory "007" is read as key 7, whose directory is "7". -/
theorem C06_leading_zero_fails :
    fromStr '-' (.leaf [.int]) ['0', '0', '7'] = some (.dc [.int 7]) ∧
    toPath '-' [.int 7] = .ok ['7'] := by
  refine ⟨rfl, ?_⟩
  have hf : List.Forall₂ PTy.Has [.int] [FVal.int 7] := .cons (.int _) .nil
  rw [toPath, toStr_eq (sch := .leaf [.int]) true (.leaf hf) (by simp [Schema.WF]),
    (levelStrs_leaf '-' hf (by simp)).2 (by simp)]
  have : natStr 7 = ['7'] := by rw [natStr]; rfl
  simp [join, FVal.text, intStr, this]

/-- **C01** The hypothesis on declared types is needed, and is not checked at construction: `Key("3")` for a
class with an `int` field is accepted and reads back as `Key(3)`. -/
theorem C01_type_not_enforced_fails :
    validate '-' [.str ['3']] = .ok () ∧ toPath '-' [.str ['3']] = .ok ['3'] ∧
    fromStr '-' (.leaf [.int]) ['3'] = some (.dc [.int 3]) := by
  have hf : List.Forall₂ PTy.Has [.str] [FVal.str ['3']] := .cons (.str _) .nil
  refine ⟨?_, ?_, rfl⟩
  · apply validate_complete
    exact .flat (by simp; exact .str (by simp [CleanText]))
  · rw [toPath, toStr_eq (sch := .leaf [.str]) true (.leaf hf) (by simp [Schema.WF]),
      (levelStrs_leaf '-' hf (by simp)).2 (by simp)]
    rfl

end Oups.Indexer
