import Verif.Props.IndexerAttrs
/-
C74: which exceptions are raised by `toplevel`, by the call of decorated classes and by `ParquetSet` for its indexer.
-/
set_option linter.unusedSimpArgs false
namespace Oups.Indexer

/-! ### Decoration -/

theorem misordered_iff : ∀ fs : List NamedField, misordered fs = true ↔
    ∃ (i j : Nat) (f g : NamedField), i < j ∧ fs[i]? = some f ∧ fs[j]? = some g ∧ f.dflt.isSome = true ∧ g.dflt = none
  | [] => by simp [misordered]
  | f :: fs => by
    rw [misordered, Bool.or_eq_true, misordered_iff fs, Bool.and_eq_true, List.any_eq_true]
    constructor
    · rintro (⟨h, g, hg, hd⟩ | ⟨i, j, g, k, hij, hi, hj, hd⟩)
      · obtain ⟨j, hj⟩ := List.mem_iff_getElem?.mp hg
        exact ⟨0, j + 1, f, g, by omega, rfl, by simpa using hj, h, by simpa using hd⟩
      · exact ⟨i + 1, j + 1, g, k, by omega, by simpa using hi, by simpa using hj, hd⟩
    · rintro ⟨i, j, g, k, hij, hi, hj, hd, hk⟩
      obtain ⟨j, rfl⟩ : ∃ m, j = m + 1 := ⟨j - 1, by omega⟩
      have hj' : fs[j]? = some k := by simpa using hj
      cases i with
      | zero =>
        have : f = g := by simpa using hi
        subst this
        exact Or.inl ⟨hd, k, List.mem_of_getElem? hj', by simp [hk]⟩
      | succ i => exact Or.inr ⟨i, j, g, k, by omega, by simpa using hi, hj', hd, hk⟩

/-- Which classes `toplevel` accepts, and how it refuses others: a field without default value after one with a default value is refused
by `dataclass`, and the depth of a class without field cannot be computed. Fields are those written. -/
theorem C74_decorate (c : ClassDef) (hr : ∀ f ∈ c.fields, f.name ≠ "fields_sep" ∧ f.name ≠ "depth") :
    let Mis := ∃ (i j : Nat) (f g : NamedField), i < j ∧ c.fields[i]? = some f ∧ c.fields[j]? = some g ∧ f.dflt.isSome = true ∧ g.dflt = none
    (Mis → c.decorate = .error .typeError) ∧
    (c.fields = [] → c.decorate = .error .indexError) ∧
    (¬ Mis → c.fields ≠ [] → c.decorate = .ok ⟨c.fields, c.sep⟩) := by
  have hm : (c.fields.map fun f => { f with dflt := c.default f }) = c.fields := by
    refine (List.map_congr_left (g := id) fun f hf => ?_).trans (List.map_id _)
    rw [ClassDef.default, if_neg (hr f hf).1, if_neg (hr f hf).2]
    rfl
  intro Mis
  have hi : misordered c.fields = true ↔ Mis := misordered_iff _
  have hd : c.decorate = if misordered c.fields then .error .typeError else if c.fields.isEmpty then .error .indexError
      else .ok ⟨c.fields, c.sep⟩ := by
    simp only [ClassDef.decorate, hm]
  rw [hd]
  refine ⟨fun h => by rw [if_pos (hi.mpr h)], fun h => by simp [h, misordered], fun h hne => ?_⟩
  rw [if_neg (mt hi.mp h), if_neg (by simpa using hne)]

/-! ### Call -/

theorem bindFields_error : ∀ (fields : List NamedField) (args : List FVal) (kws : List (String × FVal)) (e : AErr),
    bindFields fields args kws = .error e → e = .typeError
  | [], [], kws, e, h => by simp [bindFields] at h
  | [], a :: as, kws, e, h => by simp [bindFields] at h; exact h.symm
  | f :: fs, a :: as, kws, e, h => by
    rw [bindFields] at h
    split at h
    · simpa using h.symm
    · cases hb : bindFields fs as kws with
      | ok vs => simp [hb] at h
      | error e' =>
        have := bindFields_error fs as kws e' hb
        simp [hb] at h
        rw [← h, this]
  | f :: fs, [], kws, e, h => by
    rw [bindFields] at h
    have ih := bindFields_error fs [] kws
    cases hb : bindFields fs [] kws with
    | ok vs =>
      simp only [hb] at h
      split at h
      · cases h
      · split at h
        · simpa using h.symm
        · cases h
    | error e' =>
      simp only [hb] at h
      split at h
      · injection h with h; rw [← h, ih e' hb]
      · split at h
        · simpa using h.symm
        · injection h with h; rw [← h, ih e' hb]

theorem setFields_error : ∀ (ps : List (String × FVal)) (e : AErr), setFields ps = .error e → e = .attributeError
  | [], e, h => by simp [setFields] at h
  | (n, v) :: rest, e, h => by
    rw [setFields] at h
    split at h
    · simpa using h.symm
    · cases hs : setFields rest with
      | ok i => simp [hs] at h
      | error e' =>
        have := setFields_error rest e' hs
        simp [hs] at h
        rw [← h, this]

/-- Arguments which do not give a value to each field raise `TypeError`, whatever the names of fields, and whether values are to be
validated or not. -/
theorem C74_arguments {c0 : ClassDef} {c : TopCls} (hc : c0.decorate = .ok c) (hn : (c0.fields.map (·.name)).Nodup)
    (hr : ∀ f ∈ c0.fields, f.name ≠ "fields_sep" ∧ f.name ≠ "depth") (truth : FVal → Bool) (args : List FVal)
    (kws : List (String × FVal)) (hg : ¬ ∃ vs, Given c0.fields args (others kws) vs) :
    c.call truth args kws = .error .typeError := by
  have hf : c.fields = c0.fields := decorate_fields hc hr
  have hn' : (c.fields.map (·.name)).Nodup := by rw [hf]; exact hn
  rw [TopCls.call]
  split
  · rfl
  · show (match c.dataInit args (others kws) with | .error e => _ | .ok i => _) = _
    have key : c.dataInit args (others kws) = .error .typeError := by
      rw [TopCls.dataInit]
      split
      · rename_i hall
        cases hb : bindFields c.fields args (others kws) with
        | error e => simp only; rw [bindFields_error _ _ _ _ hb]
        | ok ps =>
          exfalso
          obtain ⟨vs, _, hl, hp, hnone, hw, hd⟩ := (bindFields_ok _ _ _ _).mp hb
          rw [← hf] at hg
          refine hg ⟨vs, ⟨hl, hp, hw, hd, fun kw hkw => ?_⟩⟩
          have := List.all_eq_true.mp hall kw hkw
          obtain ⟨f, hfm, hfn⟩ := List.any_eq_true.mp this
          have hfn : f.name = kw.1 := by simpa using hfn
          obtain ⟨j, hj⟩ := List.mem_iff_getElem?.mp hfm
          refine ⟨j, f, Nat.le_of_not_lt fun hlt => ?_, hj, hfn⟩
          have h1 := hnone j f hlt hj
          obtain ⟨v, hv⟩ := lookup_isSome_of_mem hkw
          rw [hfn, hv] at h1; cases h1
      · rfl
    rw [key]

/-- Values which are not valid raise the exception of the validation. -/
theorem C74_invalid {c0 : ClassDef} {c : TopCls} (hc : c0.decorate = .ok c) (hn : (c0.fields.map (·.name)).Nodup)
    (hr : ∀ f ∈ c0.fields, f.name ∉ Reserved) (truth : FVal → Bool) (args : List FVal) (kws : List (String × FVal))
    {vs : List FVal} (hg : Given c0.fields args (others kws) vs) (hck : Checked truth kws) {e : Err}
    (hv : validateS c0.sep vs = .error e) :
    c.call truth args kws = .error (match e with
      | .typeError => .typeError
      | .valueError => .valueError
      | .indexError => .indexError) := by
  have hr' : ∀ f ∈ c0.fields, f.name ≠ "fields_sep" ∧ f.name ≠ "depth" ∧ f.name ≠ "to_path" ∧ f.name ≠ "_fields_sep" ∧
      f.name ≠ "check" ∧ f.name ≠ "self" := fun f hf => by simpa [Reserved] using hr f hf
  have hf : c.fields = c0.fields := decorate_fields hc fun f hf => ⟨(hr' f hf).1, (hr' f hf).2.1⟩
  have hs := decorate_sep hc
  have hn' : (c.fields.map (·.name)).Nodup := by rw [hf]; exact hn
  have hd : c.dataInit args (others kws) = .ok ((c.fields.map (·.name)).zip vs) := by
    refine (dataInit_ok c hn' _ _ _).mpr ⟨fun f hm => ?_, vs, hf ▸ hg, rfl⟩
    have := hr' f (hf ▸ hm)
    simp [isReadOnly, this]
  have hchk : checkFlag truth kws = true := by
    unfold Checked at hck
    unfold checkFlag
    cases h : kws.lookup "check" with
    | none => rfl
    | some v => exact hck v h
  have hself : (kws.lookup "self").isSome = false := by
    cases h : kws.lookup "self" with
    | none => rfl
    | some v =>
      have hm : ("self", v) ∈ others kws := by
        simp only [others, List.mem_filter]
        exact ⟨mem_of_lookup h, by decide⟩
      obtain ⟨j, f, _, hj, hfn⟩ := hg.known _ hm
      exact absurd hfn (hr' f (List.mem_of_getElem? hj)).2.2.2.2.2
  have hval : c.validate ((c.fields.map (·.name)).zip vs) = .error (AErr.of e) := by
    rw [TopCls.validate, TopCls.instSep, lookup_zip_none _ _ (by
      rw [hf, List.mem_map]; rintro ⟨f, hm, he⟩; exact (hr' f hm).2.2.2.1 he), values_eq c hn' (by rw [hf]; exact hg.length), hs]
    simp only [hv]
  rw [TopCls.call, if_neg (by simp [hself])]
  show (match c.dataInit args (others kws) with | .error e => _ | .ok i => _) = _
  rw [hd]
  simp only [hchk, if_true, hval]
  cases e <;> rfl

/-- Arguments giving a value to each field, for a class with a field named `fields_sep`, `depth` or `to_path`, raise `AttributeError`. -/
theorem C74_read_only_error_fails {c0 : ClassDef} {c : TopCls} (hc : c0.decorate = .ok c) (hn : (c0.fields.map (·.name)).Nodup)
    {f : NamedField} (hf : f ∈ c0.fields) (hr : f.name ∈ ["fields_sep", "depth", "to_path"]) (truth : FVal → Bool)
    (args : List FVal) (kws : List (String × FVal)) (hself : kws.lookup "self" = none)
    (hg : ∃ vs, Given c.fields args (others kws) vs) : c.call truth args kws = .error .attributeError := by
  have hnm := decorate_names hc
  have hn' : (c.fields.map (·.name)).Nodup := by rw [hnm]; exact hn
  obtain ⟨g, hgm, hgn⟩ := List.mem_map.mp (hnm ▸ List.mem_map_of_mem (f := NamedField.name) hf)
  obtain ⟨vs, hg⟩ := hg
  rw [TopCls.call, if_neg (by simp [hself])]
  show (match c.dataInit args (others kws) with | .error e => _ | .ok i => _) = _
  have key : c.dataInit args (others kws) = .error .attributeError := by
    cases hd : c.dataInit args (others kws) with
    | ok i =>
      have := ((dataInit_ok c hn' _ _ i).mp hd).1 g hgm
      rw [hgn, (isReadOnly_iff _).mpr hr] at this
      cases this
    | error e =>
      rw [TopCls.dataInit] at hd
      have hall : ((others kws).all fun kw => c.fields.any fun f => f.name == kw.1) = true := by
        rw [List.all_eq_true]
        intro kw hkw
        obtain ⟨j, f, _, hj, hfn⟩ := hg.known kw hkw
        exact List.any_eq_true.mpr ⟨f, List.mem_of_getElem? hj, by simpa using hfn⟩
      rw [if_pos hall] at hd
      have hb := (bindFields_ok c.fields args (others kws) ((c.fields.map (·.name)).zip vs)).mpr ⟨vs, rfl, hg.length, hg.positional, by
        intro j f hj hf
        cases hk : (others kws).lookup f.name with
        | none => rfl
        | some v =>
          obtain ⟨k, g, hk1, hk2, hk3⟩ := hg.known _ (mem_of_lookup hk)
          have h1 : (c.fields.map (·.name))[j]? = some f.name := by simp [hf]
          have h2 : (c.fields.map (·.name))[k]? = some f.name := by simp [hk2, hk3]
          have hjl := (List.getElem?_eq_some_iff.mp h1).1
          have hjk : j = k := (List.getElem?_inj hjl hn').mp (h1.trans h2.symm)
          omega, hg.keyword, hg.default⟩
      rw [hb] at hd
      rw [setFields_error _ _ hd]
  rw [key]

/-- A value of the field `_fields_sep` which is not a string raises `TypeError` when values are validated, and makes an instance which
cannot be pickled when they are not. -/
theorem C74_separator_error_fails (c : TopCls) {i : Inst} {v : FVal} (h : i.lookup "_fields_sep" = some v)
    (hv : ∀ s, v ≠ .str s) (hm : "_fields_sep" ∈ c.fields.map (·.name)) :
    c.validate i = .error .typeError ∧ c.reduce i = .error .attributeError := by
  have hsep : c.instSep i = v := by rw [TopCls.instSep, h]
  obtain ⟨f, hf, hfn⟩ := List.mem_map.mp hm
  have hne : (c.values i).isEmpty = false := by
    have : v ∈ c.values i := List.mem_filterMap.mpr ⟨f, hf, by rw [hfn, h]⟩
    cases hc : c.values i with
    | nil => rw [hc] at this; cases this
    | cons => rfl
  rw [TopCls.validate, TopCls.reduce, hsep]
  cases v with
  | str s => exact absurd rfl (hv s)
  | _ => simp [hne]

/-! ### Indexer of a store -/

/-- Exceptions for an indexer which is refused: its name is in the message, which instances of classes do not have. -/
theorem C74_refused (hasSep callable named isClass : Bool) (h : hasSep = false ∨ callable = false) :
    openSet (.other hasSep callable named isClass) = .error (if named then .typeError else .attributeError) := by
  have : (hasSep && callable) = false := by rcases h with rfl | rfl <;> simp
  simp only [openSet, isToplevel, this]
  cases named <;> rfl

/-- An instance of a decorated class with a field named `from_path` is refused, its message not being made. -/
theorem C74_instance_refused_fails (c : TopCls) (i : Inst) {v : FVal} (h : i.attr "from_path" = some v) :
    openSet (.inst c i) = .error .attributeError := by
  simp only [openSet, isToplevel, h]
  rfl

/-! ### Examples -/

/-- A default value before none; no field; a class of two fields. -/
example : (ClassDef.mk [⟨"year", some (.int 2020)⟩, ⟨"symbol", none⟩] ['-']).decorate = .error .typeError ∧
    (ClassDef.mk [] ['-']).decorate = .error .indexError ∧ exNamed.decorate = .ok ⟨exNamed.fields, ['-']⟩ := ⟨rfl, rfl, rfl⟩

/-- `cls("a", year=1, day=2)`, `cls("a", 1, 2, 3)`, even if not checked. -/
example : exNamedCls.call exTruth [.str ['a']] [("year", .int 1), ("day", .int 2)] = .error .typeError ∧
    exNamedCls.call exTruth [.str ['a'], .int 1, .int 2, .int 3] [("check", .int 0)] = .error .typeError := ⟨rfl, rfl⟩

/-- `cls("a", to_path="b")`, for a field of this name. -/
example : TopCls.call exTruth ⟨[⟨"symbol", none⟩, ⟨"to_path", none⟩], ['-']⟩ [.str ['a']] [("to_path", .str ['b'])] =
    .error .attributeError := rfl

example : openSet (.other true false true true) = .error .typeError ∧ openSet (.other false false false false) = .error .attributeError :=
  ⟨C74_refused _ _ _ _ (.inr rfl), C74_refused _ _ _ _ (.inl rfl)⟩

end Oups.Indexer
