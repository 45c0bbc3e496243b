import Verif.Spec.IndexerAttrs
import Verif.Proofs.Indexer
/-
C74: names of fields of `toplevel` classes.
-/
set_option linter.unusedSimpArgs false
namespace Oups.Indexer

/-! ### Binding of arguments -/

theorem lookup_isSome_of_mem {kws : List (String × FVal)} {kw : String × FVal} (h : kw ∈ kws) :
    ∃ v, kws.lookup kw.1 = some v := by
  induction kws with
  | nil => cases h
  | cons k ks ih =>
    rcases k with ⟨n, v⟩
    rw [List.lookup_cons]
    by_cases hn : kw.1 = n
    · exact ⟨v, by simp [hn]⟩
    · rcases List.mem_cons.mp h with rfl | h
      · exact absurd rfl hn
      · have : (kw.1 == n) = false := by simpa using hn
        simpa [this] using ih h

theorem mem_of_lookup {kws : List (String × FVal)} {n : String} {v : FVal} (h : kws.lookup n = some v) : (n, v) ∈ kws := by
  induction kws with
  | nil => cases h
  | cons k ks ih =>
    rcases k with ⟨m, w⟩
    rw [List.lookup_cons] at h
    by_cases hn : n = m
    · subst hn; simp at h; subst h; exact List.mem_cons_self
    · have : (n == m) = false := by simpa using hn
      rw [this] at h
      exact List.mem_cons_of_mem _ (ih h)

/-- What `bindFields` does. -/
theorem bindFields_ok : ∀ (fields : List NamedField) (args : List FVal) (kws : List (String × FVal)) (ps : List (String × FVal)),
    bindFields fields args kws = .ok ps ↔ ∃ vs : List FVal, ps = (fields.map (·.name)).zip vs ∧ vs.length = fields.length ∧
      (∀ (i : Nat) (a : FVal), args[i]? = some a → vs[i]? = some a) ∧
      (∀ (i : Nat) f, i < args.length → fields[i]? = some f → kws.lookup f.name = none) ∧
      (∀ i f v, args.length ≤ i → fields[i]? = some f → kws.lookup f.name = some v → vs[i]? = some v) ∧
      (∀ i f, args.length ≤ i → fields[i]? = some f → kws.lookup f.name = none → vs[i]? = f.dflt)
  | [], [], kws, ps => by
    simp only [bindFields, Except.ok.injEq]
    constructor
    · rintro rfl; exact ⟨[], by simp⟩
    · rintro ⟨vs, h, _⟩; simpa using h.symm
  | [], a :: as, kws, ps => by
    simp only [bindFields]
    constructor
    · intro h; cases h
    · rintro ⟨vs, _, hl, hp, _⟩
      have := hp 0 a rfl
      simp at hl; subst hl; simp at this
  | f :: fs, a :: as, kws, ps => by
    rw [bindFields]
    cases hk : kws.lookup f.name with
    | some v =>
      simp only [reduceCtorEq, false_iff]
      rintro ⟨vs, _, _, _, hn, _⟩
      have := hn 0 f (by simp) rfl
      rw [hk] at this; cases this
    | none =>
      have ih := bindFields_ok fs as kws
      cases hb : bindFields fs as kws with
      | error e =>
        simp only [reduceCtorEq, false_iff]
        rintro ⟨vs, _, hl, hp, hn, hw, hd⟩
        cases vs with
        | nil => simp at hl
        | cons w ws =>
          have := (ih ((fs.map (·.name)).zip ws)).mpr ⟨ws, rfl, by simpa using hl, fun i b h => by simpa using hp (i+1) b (by simpa using h),
            fun i g h hg => hn (i+1) g (by simpa using h) (by simpa using hg),
            fun i g v h hg hv => by simpa using hw (i+1) g v (by simpa using h) (by simpa using hg) hv,
            fun i g h hg hv => by simpa using hd (i+1) g (by simpa using h) (by simpa using hg) hv⟩
          rw [hb] at this; cases this
      | ok qs =>
        simp only [Except.ok.injEq]
        constructor
        · rintro rfl
          obtain ⟨ws, rfl, hl, hp, hn, hw, hd⟩ := (ih qs).mp hb
          refine ⟨a :: ws, rfl, by simpa using hl, ?_, ?_, ?_, ?_⟩
          · rintro (_ | i) b h
            · simpa using h
            · simpa using hp i b (by simpa using h)
          · rintro (_ | i) g h hg
            · simp at hg; subst hg; exact hk
            · exact hn i g (by simpa using h) (by simpa using hg)
          · rintro (_ | i) g v h hg hv
            · simp at h
            · simpa using hw i g v (by simpa using h) (by simpa using hg) hv
          · rintro (_ | i) g h hg hv
            · simp at h
            · simpa using hd i g (by simpa using h) (by simpa using hg) hv
        · rintro ⟨vs, rfl, hl, hp, hn, hw, hd⟩
          cases vs with
          | nil => simp at hl
          | cons w ws =>
            have := (ih ((fs.map (·.name)).zip ws)).mpr ⟨ws, rfl, by simpa using hl, fun i b h => by simpa using hp (i+1) b (by simpa using h),
              fun i g h hg => hn (i+1) g (by simpa using h) (by simpa using hg),
              fun i g v h hg hv => by simpa using hw (i+1) g v (by simpa using h) (by simpa using hg) hv,
              fun i g h hg hv => by simpa using hd (i+1) g (by simpa using h) (by simpa using hg) hv⟩
            rw [hb] at this
            have h0 : w = a := by simpa using hp 0 a rfl
            injection this with this
            subst h0; subst this; rfl
  | f :: fs, [], kws, ps => by
    have ih := bindFields_ok fs [] kws
    have key : ∀ x : FVal, (∀ v, kws.lookup f.name = some v → x = v) → (kws.lookup f.name = none → f.dflt = some x) →
        ((match bindFields fs [] kws with
          | .ok vs => .ok ((f.name, x) :: vs)
          | .error e => .error e : Except AErr (List (String × FVal))) = .ok ps ↔
        ∃ vs : List FVal, ps = ((f :: fs).map (·.name)).zip vs ∧ vs.length = (f :: fs).length ∧
        (∀ (i : Nat) (a : FVal), ([] : List FVal)[i]? = some a → vs[i]? = some a) ∧
        (∀ (i : Nat) g, i < ([] : List FVal).length → (f :: fs)[i]? = some g → kws.lookup g.name = none) ∧
        (∀ i g v, ([] : List FVal).length ≤ i → (f :: fs)[i]? = some g → kws.lookup g.name = some v → vs[i]? = some v) ∧
        (∀ i g, ([] : List FVal).length ≤ i → (f :: fs)[i]? = some g → kws.lookup g.name = none → vs[i]? = g.dflt)) := by
      intro x hx hdx
      have back : ∀ vs : List FVal, vs.length = (f :: fs).length →
          (∀ i g v, ([] : List FVal).length ≤ i → (f :: fs)[i]? = some g → kws.lookup g.name = some v → vs[i]? = some v) →
          (∀ i g, ([] : List FVal).length ≤ i → (f :: fs)[i]? = some g → kws.lookup g.name = none → vs[i]? = g.dflt) →
          ∃ ws, vs = x :: ws ∧ bindFields fs [] kws = .ok ((fs.map (·.name)).zip ws) := by
        intro vs hl hw hd
        cases vs with
        | nil => simp at hl
        | cons w ws =>
          have hwx : w = x := by
            cases hk : kws.lookup f.name with
            | some v =>
              have h1 := hw 0 f v (by simp) rfl hk
              simp at h1; rw [h1, hx v hk]
            | none =>
              have h1 := hd 0 f (by simp) rfl hk
              rw [hdx hk] at h1; simpa using h1
          subst hwx
          exact ⟨ws, rfl, (ih _).mpr ⟨ws, rfl, by simpa using hl, by simp, by simp,
            fun i g v _ hg hv => by simpa using hw (i+1) g v (by simp) (by simpa using hg) hv,
            fun i g _ hg hv => by simpa using hd (i+1) g (by simp) (by simpa using hg) hv⟩⟩
      cases hb : bindFields fs [] kws with
      | error e =>
        simp only [reduceCtorEq, false_iff]
        rintro ⟨vs, _, hl, _, _, hw, hd⟩
        obtain ⟨ws, _, h⟩ := back vs hl hw hd
        rw [hb] at h; cases h
      | ok qs =>
        simp only [Except.ok.injEq]
        constructor
        · rintro rfl
          obtain ⟨ws, rfl, hl, hp, hn, hw, hd⟩ := (ih qs).mp hb
          refine ⟨x :: ws, rfl, by simpa using hl, by simp, by simp, ?_, ?_⟩
          · rintro (_ | i) g v h hg hv
            · simp at hg; subst hg; simp [hx v hv]
            · simpa using hw i g v (by simp) (by simpa using hg) hv
          · rintro (_ | i) g h hg hv
            · simp at hg; subst hg; simp [hdx hv]
            · simpa using hd i g (by simp) (by simpa using hg) hv
        · rintro ⟨vs, rfl, hl, _, _, hw, hd⟩
          obtain ⟨ws, rfl, h⟩ := back vs hl hw hd
          rw [hb] at h
          injection h with h
          subst h; rfl
    rw [bindFields]
    cases hk : kws.lookup f.name with
    | some v => exact key v (fun w h => by rw [hk] at h; injection h) (fun h => by rw [hk] at h; cases h)
    | none =>
      cases hd : f.dflt with
      | some d => exact key d (fun w h => by rw [hk] at h; cases h) (fun _ => hd)
      | none =>
        simp only [reduceCtorEq, false_iff]
        rintro ⟨vs, _, hl, _, _, _, hdd⟩
        have := hdd 0 f (by simp) rfl hk
        rw [hd] at this
        cases vs with
        | nil => simp at hl
        | cons w ws => simp at this

theorem setFields_ok : ∀ (ps i : Inst), setFields ps = .ok i ↔ i = ps ∧ ∀ p ∈ ps, isReadOnly p.1 = false
  | [], i => by
    rw [setFields, Except.ok.injEq]
    constructor
    · rintro rfl; exact ⟨rfl, by simp⟩
    · rintro ⟨rfl, _⟩; rfl
  | (n, v) :: rest, i => by
    rw [setFields]
    by_cases hn : isReadOnly n = true
    · simp [hn]
    · have hf : isReadOnly n = false := by simpa using hn
      have ih := setFields_ok rest
      rw [if_neg hn]
      cases hs : setFields rest with
      | ok j =>
        obtain ⟨rfl, hj⟩ := (ih j).mp hs
        simp only [Except.ok.injEq]
        constructor
        · rintro rfl; exact ⟨rfl, by simpa [hf] using hj⟩
        · rintro ⟨rfl, _⟩; rfl
      | error e =>
        simp only [reduceCtorEq, false_iff]
        rintro ⟨rfl, h⟩
        have := (ih rest).mpr ⟨rfl, fun p hp => h p (List.mem_cons_of_mem _ hp)⟩
        rw [hs] at this; cases this

theorem lookup_zip : ∀ (ns : List String) (vs : List FVal), ns.Nodup → vs.length = ns.length →
    ∀ (j : Nat) (n : String), ns[j]? = some n → (ns.zip vs).lookup n = vs[j]?
  | [], vs, _, _, j, n, h => by simp at h
  | m :: ns, [], _, hl, j, n, h => by simp at hl
  | m :: ns, v :: vs, hd, hl, j, n, h => by
    rw [List.zip_cons_cons, List.lookup_cons]
    cases j with
    | zero => simp at h; subst h; simp
    | succ j =>
      have hm := List.nodup_cons.mp hd
      have hne : (n == m) = false := by
        have : n ∈ ns := List.mem_of_getElem? (by simpa using h)
        simp only [beq_eq_false_iff_ne]
        rintro rfl; exact hm.1 this
      rw [hne]
      simpa using lookup_zip ns vs hm.2 (by simpa using hl) j n (by simpa using h)

theorem lookup_zip_none (ns : List String) (vs : List FVal) {n : String} (h : n ∉ ns) : (ns.zip vs).lookup n = none := by
  induction ns generalizing vs with
  | nil => simp
  | cons m ns ih =>
    cases vs with
    | nil => simp
    | cons v vs =>
      rw [List.zip_cons_cons, List.lookup_cons]
      have : (n == m) = false := by
        simp only [beq_eq_false_iff_ne]; rintro rfl; exact h List.mem_cons_self
      rw [this]
      exact ih vs fun hm => h (List.mem_cons_of_mem _ hm)

theorem values_zip : ∀ (fs : List NamedField) (vs : List FVal) (i : Inst), vs.length = fs.length →
    (∀ (j : Nat) f, fs[j]? = some f → i.lookup f.name = vs[j]?) → fs.filterMap (fun f => i.lookup f.name) = vs
  | [], vs, i, hl, _ => by simp at hl; simp [hl]
  | f :: fs, [], i, hl, _ => by simp at hl
  | f :: fs, v :: vs, i, hl, h => by
    have h0 := h 0 f rfl
    have ih := values_zip fs vs i (by simpa using hl) fun j g hg => by simpa using h (j+1) g (by simpa using hg)
    simp at h0
    simp [h0, ih]

/-- What `__init__` of the dataclass does, names of fields being distinct. -/
theorem dataInit_ok (c : TopCls) (hn : (c.fields.map (·.name)).Nodup) (args : List FVal) (kws : List (String × FVal)) (i : Inst) :
    c.dataInit args kws = .ok i ↔ (∀ f ∈ c.fields, isReadOnly f.name = false) ∧
      ∃ vs, Given c.fields args kws vs ∧ i = (c.fields.map (·.name)).zip vs := by
  have mem_zip : ∀ vs : List FVal, vs.length = c.fields.length → ∀ f ∈ c.fields, ∃ v, (f.name, v) ∈ (c.fields.map (·.name)).zip vs := by
    intro vs hl f hf
    obtain ⟨j, hj⟩ := List.mem_iff_getElem?.mp hf
    have h1 : (c.fields.map (·.name))[j]? = some f.name := by simp [hj]
    have hjl : j < vs.length := by
      rw [hl]; exact (List.getElem?_eq_some_iff.mp hj).1
    refine ⟨vs[j], ?_⟩
    apply mem_of_lookup
    rw [lookup_zip _ _ hn (by simpa using hl) j _ h1]
    simp [hjl]
  rw [TopCls.dataInit]
  constructor
  · intro h
    split at h
    · rename_i hall
      cases hb : bindFields c.fields args kws with
      | error e => rw [hb] at h; cases h
      | ok ps =>
        rw [hb] at h
        obtain ⟨rfl, hro⟩ := (setFields_ok _ _).mp h
        obtain ⟨vs, rfl, hl, hp, hnone, hw, hd⟩ := (bindFields_ok _ _ _ _).mp hb
        refine ⟨?_, vs, ⟨hl, hp, hw, hd, ?_⟩, rfl⟩
        · intro f hf
          obtain ⟨v, hv⟩ := mem_zip vs hl f hf
          exact hro _ hv
        · intro kw hkw
          have := List.all_eq_true.mp hall kw hkw
          obtain ⟨f, hf, hfn⟩ := List.any_eq_true.mp this
          have hfn : f.name = kw.1 := by simpa using hfn
          obtain ⟨j, hj⟩ := List.mem_iff_getElem?.mp hf
          refine ⟨j, f, ?_, hj, hfn⟩
          refine Nat.le_of_not_lt fun hlt => ?_
          have h1 := hnone j f hlt hj
          obtain ⟨v, hv⟩ := lookup_isSome_of_mem hkw
          rw [hfn, hv] at h1; cases h1
    · cases h
  · rintro ⟨hro, vs, hg, rfl⟩
    have hall : (kws.all fun kw => c.fields.any fun f => f.name == kw.1) = true := by
      rw [List.all_eq_true]
      intro kw hkw
      obtain ⟨j, f, _, hj, hfn⟩ := hg.known kw hkw
      exact List.any_eq_true.mpr ⟨f, List.mem_of_getElem? hj, by simpa using hfn⟩
    rw [if_pos hall]
    have hb := (bindFields_ok c.fields args kws ((c.fields.map (·.name)).zip vs)).mpr ⟨vs, rfl, hg.length, hg.positional, by
      intro j f hj hf
      cases hk : kws.lookup f.name with
      | none => rfl
      | some v =>
        obtain ⟨k, g, hk1, hk2, hk3⟩ := hg.known _ (mem_of_lookup hk)
        have h1 : (c.fields.map (·.name))[j]? = some f.name := by simp [hf]
        have h2 : (c.fields.map (·.name))[k]? = some f.name := by simp [hk2, hk3]
        have hjl := (List.getElem?_eq_some_iff.mp h1).1
        have hjk : j = k := (List.getElem?_inj hjl hn).mp (h1.trans h2.symm)
        omega, hg.keyword, hg.default⟩
    rw [hb]
    refine (setFields_ok _ _).mpr ⟨rfl, fun p hp => ?_⟩
    have := List.of_mem_zip hp
    obtain ⟨f, hf, hfn⟩ := List.mem_map.mp this.1
    rw [← hfn]; exact hro f hf

theorem values_eq (c : TopCls) (hn : (c.fields.map (·.name)).Nodup) {vs : List FVal} (hl : vs.length = c.fields.length) :
    c.values ((c.fields.map (·.name)).zip vs) = vs := by
  refine values_zip _ _ _ hl fun j f hj => ?_
  exact lookup_zip _ _ hn (by simpa using hl) j _ (by simp [hj])

/-! ### Decoration -/

theorem decorate_names {c0 : ClassDef} {c : TopCls} (h : c0.decorate = .ok c) :
    c.fields.map (·.name) = c0.fields.map (·.name) := by
  unfold ClassDef.decorate at h
  simp only at h
  split at h
  · cases h
  · split at h
    · cases h
    · injection h with h
      subst h
      simp [Function.comp_def]

theorem decorate_sep {c0 : ClassDef} {c : TopCls} (h : c0.decorate = .ok c) : c.sep = c0.sep := by
  unfold ClassDef.decorate at h
  simp only at h
  split at h
  · cases h
  · split at h
    · cases h
    · injection h with h
      subst h; rfl

theorem decorate_fields {c0 : ClassDef} {c : TopCls} (h : c0.decorate = .ok c)
    (hr : ∀ f ∈ c0.fields, f.name ≠ "fields_sep" ∧ f.name ≠ "depth") : c.fields = c0.fields := by
  unfold ClassDef.decorate at h
  simp only at h
  split at h
  · cases h
  · split at h
    · cases h
    · injection h with h
      subst h
      show c0.fields.map _ = c0.fields
      refine (List.map_congr_left (g := id) fun f hf => ?_).trans (List.map_id _)
      rw [ClassDef.default, if_neg (hr f hf).1, if_neg (hr f hf).2]
      rfl

theorem isReadOnly_iff (n : String) : isReadOnly n = true ↔ n ∈ ["fields_sep", "depth", "to_path"] := by
  simp [isReadOnly, or_assoc]

/-! ### C74 -/

/-- Calling a class of which no field has a reserved name gives fields the values that arguments give, these values being validated
with the separator of the class, unless `check` is false; an exception is raised if arguments do not give a value to each field, or if
the values are not valid. -/
theorem C74_call {c0 : ClassDef} {c : TopCls} (hc : c0.decorate = .ok c) (hn : (c0.fields.map (·.name)).Nodup)
    (hr : ∀ f ∈ c0.fields, f.name ∉ Reserved) (truth : FVal → Bool) (args : List FVal) (kws : List (String × FVal)) (i : Inst) :
    c.call truth args kws = .ok i ↔ ∃ vs, Given c0.fields args (others kws) vs ∧
      (Checked truth kws → validateS c0.sep vs = .ok ()) ∧ i = (c0.fields.map (·.name)).zip vs := by
  have hr' : ∀ f ∈ c0.fields, f.name ≠ "fields_sep" ∧ f.name ≠ "depth" ∧ f.name ≠ "to_path" ∧ f.name ≠ "_fields_sep" ∧
      f.name ≠ "check" ∧ f.name ≠ "self" := fun f hf => by simpa [Reserved] using hr f hf
  have hf : c.fields = c0.fields := decorate_fields hc fun f hf => ⟨(hr' f hf).1, (hr' f hf).2.1⟩
  have hs := decorate_sep hc
  have hn' : (c.fields.map (·.name)).Nodup := by rw [hf]; exact hn
  have hro : ∀ f ∈ c.fields, isReadOnly f.name = false := by
    intro f hm
    have := hr' f (hf ▸ hm)
    simp [isReadOnly, this]
  have hsepno : "_fields_sep" ∉ c.fields.map (·.name) := by
    rw [hf, List.mem_map]
    rintro ⟨f, hm, he⟩
    exact (hr' f hm).2.2.2.1 he
  have hval : ∀ vs : List FVal, vs.length = c.fields.length →
      (c.validate ((c.fields.map (·.name)).zip vs) = .ok () ↔ validateS c0.sep vs = .ok ()) := by
    intro vs hl
    rw [TopCls.validate, TopCls.instSep, lookup_zip_none _ _ hsepno, values_eq c hn' hl, hs]
    simp only
    cases validateS c0.sep vs <;> simp
  have hdi := dataInit_ok c hn' args (others kws)
  have hchk : checkFlag truth kws = true ↔ Checked truth kws := by
    unfold Checked checkFlag
    cases kws.lookup "check" <;> simp
  rw [TopCls.call]
  split
  · rename_i hself
    simp only [reduceCtorEq, false_iff]
    rintro ⟨vs, hg, _⟩
    obtain ⟨v, hv⟩ := Option.isSome_iff_exists.mp hself
    have hm : ("self", v) ∈ others kws := by
      simp only [others, List.mem_filter]
      exact ⟨mem_of_lookup hv, by decide⟩
    obtain ⟨j, f, _, hj, hfn⟩ := hg.known _ hm
    exact (hr' f (List.mem_of_getElem? hj)).2.2.2.2.2 hfn
  · show (match c.dataInit args (others kws) with | .error e => _ | .ok i => _) = _ ↔ _
    cases hd : c.dataInit args (others kws) with
    | error e =>
      simp only [reduceCtorEq, false_iff]
      rintro ⟨vs, hg, _, rfl⟩
      have := (hdi ((c0.fields.map (·.name)).zip vs)).mpr ⟨hro, vs, hf ▸ hg, by rw [hf]⟩
      rw [hd] at this; cases this
    | ok j =>
      obtain ⟨_, vs, hg, rfl⟩ := (hdi j).mp hd
      have hzinj : ∀ ws : List FVal, Given c0.fields args (others kws) ws →
          (c0.fields.map (·.name)).zip ws = (c.fields.map (·.name)).zip vs → ws = vs := by
        intro ws hw he
        rw [← hf] at he hw
        have h1 := values_eq c hn' hw.length
        rw [he, values_eq c hn' hg.length] at h1
        exact h1.symm
      have hsame : ∀ ws, Given c0.fields args (others kws) ws → ws = vs := by
        intro ws hw
        refine hzinj ws hw ?_
        have := (hdi ((c0.fields.map (·.name)).zip ws)).mpr ⟨hro, ws, hf ▸ hw, by rw [hf]⟩
        rw [hd] at this
        injection this with this
        exact this.symm
      by_cases hck : Checked truth kws
      · simp only [hchk.mpr hck, if_true]
        cases hv : c.validate ((c.fields.map (·.name)).zip vs) with
        | ok u =>
          simp only [Except.ok.injEq]
          constructor
          · rintro rfl
            exact ⟨vs, hf ▸ hg, fun _ => (hval vs hg.length).mp hv, by rw [hf]⟩
          · rintro ⟨ws, hw, _, rfl⟩
            rw [hsame ws hw, hf]
        | error e =>
          simp only [reduceCtorEq, false_iff]
          rintro ⟨ws, hw, hwv, rfl⟩
          rw [hsame ws hw] at hwv
          have := (hval vs hg.length).mpr (hwv hck)
          rw [hv] at this; cases this
      · have hfalse : checkFlag truth kws = false := by simpa using mt hchk.mp hck
        simp only [hfalse, Bool.false_eq_true, if_false, Except.ok.injEq]
        constructor
        · rintro rfl
          exact ⟨vs, hf ▸ hg, fun h => absurd h hck, by rw [hf]⟩
        · rintro ⟨ws, hw, _, rfl⟩
          rw [hsame ws hw, hf]

/-- Attributes of the instance are the values given, `obj.fields_sep` is the separator of the class, and an instance is pickled as its
text, for `from_str` of the class, if no field is named `from_str`. -/
theorem C74_attributes {c0 : ClassDef} {c : TopCls} (hc : c0.decorate = .ok c) (hn : (c0.fields.map (·.name)).Nodup)
    (hr : ∀ f ∈ c0.fields, f.name ∉ Reserved) {vs : List FVal} (hl : vs.length = c0.fields.length) {i : Inst}
    (hi : i = (c0.fields.map (·.name)).zip vs) :
    (∀ (j : Nat) f, c0.fields[j]? = some f → i.attr f.name = vs[j]?) ∧ c.instSep i = .str c0.sep ∧
    ((∀ f ∈ c0.fields, f.name ≠ "from_str") → ∀ t, toStrS c0.sep false vs = .ok t → c.reduce i = .ok (.method, t)) := by
  have hr' : ∀ f ∈ c0.fields, f.name ≠ "fields_sep" ∧ f.name ≠ "depth" ∧ f.name ≠ "to_path" ∧ f.name ≠ "_fields_sep" ∧
      f.name ≠ "check" ∧ f.name ≠ "self" := fun f hf => by simpa [Reserved] using hr f hf
  have hf : c.fields = c0.fields := decorate_fields hc fun f hf => ⟨(hr' f hf).1, (hr' f hf).2.1⟩
  have hs := decorate_sep hc
  have hsep : c.instSep i = .str c0.sep := by
    rw [TopCls.instSep, hi, lookup_zip_none _ _ (by
      rw [List.mem_map]; rintro ⟨f, hm, he⟩; exact (hr' f hm).2.2.2.1 he), hs]
  refine ⟨fun j f hj => ?_, hsep, fun hfs t ht => ?_⟩
  · rw [Inst.attr, hi]
    exact lookup_zip _ _ hn (by simpa using hl) j _ (by simp [hj])
  · have hv : c.values i = vs := by
      rw [hi, ← hf]; exact values_eq c (by rw [hf]; exact hn) (by rw [hf]; exact hl)
    have hno : i.attr "from_str" = none := by
      rw [Inst.attr, hi]
      refine lookup_zip_none _ _ ?_
      rw [List.mem_map]; rintro ⟨f, hm, he⟩; exact hfs f hm he
    simp only [TopCls.reduce, hsep, hv, ht, hno]

/-- No instance can be made of a class with a field named `fields_sep`, `depth` or `to_path`. -/
theorem C74_read_only_fails {c0 : ClassDef} {c : TopCls} (hc : c0.decorate = .ok c) (hn : (c0.fields.map (·.name)).Nodup)
    {f : NamedField} (hf : f ∈ c0.fields) (hr : f.name ∈ ["fields_sep", "depth", "to_path"]) (truth : FVal → Bool)
    (args : List FVal) (kws : List (String × FVal)) : ∃ e, c.call truth args kws = .error e := by
  have hnm := decorate_names hc
  have hn' : (c.fields.map (·.name)).Nodup := by rw [hnm]; exact hn
  obtain ⟨g, hg, hgn⟩ := List.mem_map.mp (hnm ▸ List.mem_map_of_mem (f := NamedField.name) hf)
  rw [TopCls.call]
  split
  · exact ⟨_, rfl⟩
  · cases hd : c.dataInit args (kws.filter fun kw => kw.1 != "check") with
    | error e => exact ⟨e, rfl⟩
    | ok i =>
      have := ((dataInit_ok c hn' _ _ i).mp hd).1 g hg
      rw [hgn, (isReadOnly_iff _).mpr hr] at this
      cases this

theorem occurs_self (s : Str) : occurs s s = true := by
  cases s with
  | nil => simp [occurs]
  | cons c s => unfold occurs; simp

theorem checkFieldsS_self (s : Str) (n : Nat) : ∀ (fs : List FVal) (k : Nat), FVal.str s ∈ fs → checkFieldsS s n k fs ≠ .ok ()
  | [], k, h => by cases h
  | f :: fs, k, h => by
    rw [checkFieldsS]
    rcases List.mem_cons.mp h with rfl | h
    · simp [checkFieldS, FVal.isDc, FVal.text, forbidden, occurs_self, bind, Except.bind, throw, throwThe, MonadExceptOf.throw]
    · have ih := checkFieldsS_self s n fs (k+1) h
      cases hh : checkFieldS s k n f with
      | error e => simp [bind, Except.bind]
      | ok u => simpa [bind, Except.bind] using ih

theorem validateS_self (s : Str) (fs : List FVal) (h : FVal.str s ∈ fs) : validateS s fs ≠ .ok () := by
  rw [validateS]
  have : ∃ rest, toLists fs = fs :: rest := by
    cases fs with
    | nil => cases h
    | cons f fs =>
      unfold toLists
      split
      · rename_i hnone; simp at hnone
      · exact ⟨_, rfl⟩
      · exact ⟨_, rfl⟩
  obtain ⟨rest, hr⟩ := this
  rw [hr, checkLevelsS]
  have := checkFieldsS_self s fs.length fs 0 h
  cases hh : checkFieldsS s fs.length 0 fs with
  | error e => simp [bind, Except.bind]
  | ok u => exact absurd hh this

/-- No instance which is validated can be made of a class with a field named `_fields_sep`: its value is taken for the separator, which
cannot be in a value. -/
theorem C74_separator_fails {c0 : ClassDef} {c : TopCls} (hc : c0.decorate = .ok c) (hn : (c0.fields.map (·.name)).Nodup)
    {f : NamedField} (hf : f ∈ c0.fields) (hr : f.name = "_fields_sep") (truth : FVal → Bool)
    (args : List FVal) (kws : List (String × FVal)) (hck : Checked truth kws) : ∃ e, c.call truth args kws = .error e := by
  have hnm := decorate_names hc
  have hn' : (c.fields.map (·.name)).Nodup := by rw [hnm]; exact hn
  obtain ⟨g, hg, hgn⟩ := List.mem_map.mp (hnm ▸ List.mem_map_of_mem (f := NamedField.name) hf)
  have hchk : checkFlag truth kws = true := by
    unfold Checked at hck
    unfold checkFlag
    cases h : kws.lookup "check" with
    | none => rfl
    | some v => exact hck v h
  rw [TopCls.call]
  split
  · exact ⟨_, rfl⟩
  · cases hd : c.dataInit args (kws.filter fun kw => kw.1 != "check") with
    | error e => exact ⟨e, rfl⟩
    | ok i =>
      simp only [hchk, if_true]
      obtain ⟨_, vs, hgv, hi⟩ := (dataInit_ok c hn' _ _ i).mp hd
      obtain ⟨j, hj⟩ := List.mem_iff_getElem?.mp hg
      have hjl : j < vs.length := by
        rw [hgv.length]; exact (List.getElem?_eq_some_iff.mp hj).1
      have hlk : i.lookup "_fields_sep" = some vs[j] := by
        rw [hi, ← hr, ← hgn, lookup_zip _ _ hn' (by simpa using hgv.length) j _ (by simp [hj])]
        simp [hjl]
      have hv : c.values i = vs := by rw [hi]; exact values_eq c hn' hgv.length
      have hne : c.validate i ≠ .ok () := by
        rw [TopCls.validate, TopCls.instSep, hlk, hv]
        simp only
        cases hvj : vs[j] with
        | str s =>
          simp only
          have := validateS_self s vs (hvj ▸ List.getElem_mem hjl)
          cases hh : validateS s vs with
          | ok u => exact absurd hh this
          | error e => simp
        | _ =>
          simp only
          rw [if_neg (by cases vs with | nil => simp at hjl | cons => simp)]
          simp
      cases hh : c.validate i with
      | ok u => exact absurd hh hne
      | error e => exact ⟨e, rfl⟩

/-- A value given by its name to a field named `check` is not that of the field: it is the default value, or the call raises. -/
theorem C74_check_fails {c0 : ClassDef} {c : TopCls} (hc : c0.decorate = .ok c) (hn : (c0.fields.map (·.name)).Nodup)
    {j : Nat} {f : NamedField} (hf : c0.fields[j]? = some f) (hr : f.name = "check") (truth : FVal → Bool)
    (args : List FVal) (hj : args.length ≤ j) (kws : List (String × FVal)) (i : Inst) (h : c.call truth args kws = .ok i) :
    ∃ d, f.dflt = some d ∧ i.attr "check" = some d := by
  have hnm := decorate_names hc
  have hn' : (c.fields.map (·.name)).Nodup := by rw [hnm]; exact hn
  have hcf : c.fields[j]? = some f := by
    unfold ClassDef.decorate at hc
    simp only at hc
    split at hc
    · cases hc
    · split at hc
      · cases hc
      · injection hc with hc
        subst hc
        simp only [List.getElem?_map, hf, Option.map_some, ClassDef.default, hr]
        simp
        cases f; simp at hr; subst hr; rfl
  rw [TopCls.call] at h
  split at h
  · cases h
  · cases hd : c.dataInit args (kws.filter fun kw => kw.1 != "check") with
    | error e => simp only [hd] at h; cases h
    | ok k =>
      have hik : i = k := by
        simp only [hd] at h
        split at h
        · cases hv : c.validate k with
          | ok u => simp only [hv] at h; injection h with h; exact h.symm
          | error e => simp only [hv] at h; cases h
        · injection h with h; exact h.symm
      subst hik
      obtain ⟨_, vs, hgv, hi⟩ := (dataInit_ok c hn' _ _ i).mp hd
      have hjl : j < vs.length := by
        rw [hgv.length]; exact (List.getElem?_eq_some_iff.mp hcf).1
      have hno : (kws.filter fun kw => kw.1 != "check").lookup f.name = none := by
        rw [hr]
        cases hh : (kws.filter fun kw => kw.1 != "check").lookup "check" with
        | none => rfl
        | some v => simpa using (List.mem_filter.mp (mem_of_lookup hh)).2
      have hdf := hgv.default j f hj hcf hno
      refine ⟨vs[j], by rw [← hdf]; simp [hjl], ?_⟩
      rw [Inst.attr, hi, ← hr, lookup_zip _ _ hn' (by simpa using hgv.length) j _ (by simp [hcf])]
      simp [hjl]

/-- A field named `self` cannot be given by its name. -/
theorem C74_self_fails (c : TopCls) (truth : FVal → Bool) (args : List FVal) (kws : List (String × FVal))
    (h : ∃ v, ("self", v) ∈ kws) : c.call truth args kws = .error .typeError := by
  obtain ⟨v, hv⟩ := h
  obtain ⟨w, hw⟩ := lookup_isSome_of_mem hv
  rw [TopCls.call, if_pos (by rw [hw]; rfl)]

/-- What is called when reading back a pickled instance is the value of its field `from_str`, if it has one. -/
theorem C74_from_str_fails (c : TopCls) {i : Inst} {v : FVal} (h : i.attr "from_str" = some v) :
    ∀ x, c.reduce i ≠ .ok (.method, x) := by
  intro x hx
  unfold TopCls.reduce at hx
  rw [h] at hx
  split at hx
  · split at hx
    · simp at hx
    · cases hx
  · cases hx

/-- `is_toplevel` tells decorated classes from objects without `fields_sep` or without `from_path`. -/
theorem C74_is_toplevel (c : TopCls) (hasSep callable named isClass : Bool) :
    openSet (.cls c) = .ok () ∧ ((hasSep = false ∨ callable = false) → ∃ e, openSet (.other hasSep callable named isClass) = .error e) ∧
    (∀ isInstance, keyAccepted (.cls c) isInstance = .ok () ↔ isInstance = true) := by
  refine ⟨rfl, fun h => ?_, fun b => ?_⟩
  · have : (hasSep && callable) = false := by cases hasSep <;> cases callable <;> simp_all
    cases named
    · exact ⟨.attributeError, by simp [openSet, isToplevel, this]⟩
    · exact ⟨.typeError, by simp [openSet, isToplevel, this]⟩
  · cases b <;> simp [keyAccepted]

/-- It also accepts instances, unless they have a field named `from_path`; no dataset can then be written. -/
theorem C74_instance_fails (c : TopCls) (i : Inst) (h : i.attr "from_path" = none) :
    openSet (.inst c i) = .ok () ∧ ∀ isInstance, keyAccepted (.inst c i) isInstance = .error .typeError := by
  refine ⟨by simp [openSet, isToplevel, h], fun b => by cases b <;> rfl⟩

/-- The default value of a field named `depth` is lost, so that it cannot be put after a field with a default value. -/
theorem C74_default_lost_fails :
    let fields := fun name => [⟨"a", some (.int 1)⟩, ⟨name, some (.int 2)⟩]
    (ClassDef.mk (fields "depth") ['-']).decorate = .error .typeError ∧
    ∃ c, (ClassDef.mk (fields "level") ['-']).decorate = .ok c := ⟨rfl, _, rfl⟩

/-! ### Examples -/

theorem call_checked {truth : FVal → Bool} {c : TopCls} {args : List FVal} {kws : List (String × FVal)} {i : Inst} {s : Str}
    {vs : List FVal} {r : Except Err Unit} (h1 : (kws.lookup "self").isSome = false)
    (h2 : c.dataInit args (kws.filter fun kw => kw.1 != "check") = .ok i) (h3 : checkFlag truth kws = true)
    (h4 : c.instSep i = .str s) (h5 : c.values i = vs) (h6 : validateS s vs = r) :
    c.call truth args kws = match r with
      | .ok _ => .ok i
      | .error e => .error (AErr.of e) := by
  simp only [TopCls.call, TopCls.validate, h1, h2, h3, h4, h5, h6, Bool.false_eq_true, if_false, if_true]
  cases r <;> rfl

/-- `symbol: str`, `year: int = 2020`, `month: int = 1`. -/
def exNamed : ClassDef := ⟨[⟨"symbol", none⟩, ⟨"year", some (.int 2020)⟩, ⟨"month", some (.int 1)⟩], ['-']⟩

def exNamedCls : TopCls := ⟨exNamed.fields, exNamed.sep⟩

def exTruth : FVal → Bool
  | .int i => i != 0
  | _ => true

example : exNamed.decorate = .ok exNamedCls := rfl

example : (exNamed.fields.map (·.name)).Nodup ∧ ∀ f ∈ exNamed.fields, f.name ∉ Reserved := by decide +kernel

/-- `cls("ab", month=3)`, `cls("ab", symbol="c")`, `cls(year=2)`, `cls("a-b")`, `cls("a-b", check=0)`. -/
example :
    exNamedCls.call exTruth [.str ['a', 'b']] [("month", .int 3)] =
      .ok [("symbol", .str ['a', 'b']), ("year", .int 2020), ("month", .int 3)] ∧
    exNamedCls.call exTruth [.str ['a']] [("symbol", .str ['c'])] = .error .typeError ∧
    exNamedCls.call exTruth [] [("year", .int 2)] = .error .typeError ∧
    exNamedCls.call exTruth [.str ['a', '-', 'b']] [] = .error .valueError ∧
    exNamedCls.call exTruth [.str ['a', '-', 'b']] [("check", .int 0)] =
      .ok [("symbol", .str ['a', '-', 'b']), ("year", .int 2020), ("month", .int 1)] := by
  refine ⟨?_, rfl, rfl, ?_, rfl⟩
  · rw [call_checked (s := ['-']) (vs := [.str ['a', 'b'], .int 2020, .int 3]) (r := .ok ()) rfl rfl rfl rfl rfl (by decide +kernel)]
  · rw [call_checked (s := ['-']) (vs := [.str ['a', '-', 'b'], .int 2020, .int 1]) (r := .error .valueError)
      rfl rfl rfl rfl rfl (by decide +kernel)]
    rfl

/-- A field named `check`: `cls("ab", check=7)` has the default value. -/
example : TopCls.call exTruth ⟨[⟨"symbol", none⟩, ⟨"check", some (.int 1)⟩], ['-']⟩ [.str ['a', 'b']] [("check", .int 7)] =
    .ok [("symbol", .str ['a', 'b']), ("check", .int 1)] := by
  rw [call_checked (s := ['-']) (vs := [.str ['a', 'b'], .int 1]) (r := .ok ()) rfl rfl rfl rfl rfl (by decide +kernel)]

end Oups.Indexer
