import Verif.Proofs.Inherit
import Verif.Props.IndexerAttrs
/-
Properties of indexer classes that derive from each other.
-/
namespace Oups.Inherit
open Oups.Indexer (Str AErr FVal NamedField ClassDef TopCls validateS Reserved)

variable {A V : Type}

theorem chain_snoc (levels : A → Option Nat) {cs : List (Stmt A V)} {c : Stmt A V} {m : Made A V}
    (h : chain levels (cs ++ [c]) = .ok m) :
    ∃ ms, defineAll levels [] cs = .ok ms ∧ define levels ms c = .ok m := by
  unfold chain at h
  rw [defineAll_snoc] at h
  cases h0 : defineAll levels [] cs with
  | error e => rw [h0] at h; cases h
  | ok ms =>
    rw [h0] at h
    refine ⟨ms, rfl, ?_⟩
    simp only at h
    cases h1 : define levels ms c with
    | error e => rw [h1] at h; cases h
    | ok m' =>
      rw [h1] at h
      injection h with h
      rw [← h]
      simp

/-- **C87** Fields of a class decorated by `toplevel`, `sublevel` or `dataclass`: those of its base class, at their place, with the annotation and
default value of the class for those it annotates again, then its new ones. The default value is that written last, in the class or
before in its base classes, decorated or not. Annotations in base classes that are not decorated make no field. -/
theorem C87_fields (levels : A → Option Nat) {cs : List (Stmt A V)} {c : Stmt A V} (hw : ∀ x ∈ cs ++ [c], x.WF) {b m : Made A V}
    (hb : chain levels cs = .ok b) (hm : chain levels (cs ++ [c]) = .ok m) (hc : c.isData) :
    m.fields = some (merge (b.fields.getD []) (c.own.map fun f => { f with dflt := lastWritten (cs ++ [c]) f.name })) := by
  obtain ⟨ms, h0, h1⟩ := chain_snoc levels hm
  have hcs : ∀ x ∈ cs, x.WF := fun x hx => hw x (List.mem_append_left _ hx)
  have hi := inv_all levels cs hcs ms h0
  have := (define_made levels hi (hw c (by simp)) h1).1 hc
  rw [this.1, fieldsOf_snoc, if_pos hc]
  have hbl : b = ms.getLast?.getD {} := by
    unfold chain at hb
    rw [h0] at hb
    injection hb with hb
    exact hb.symm
  rw [hbl, hi.last]

/-- **C87** The last class of a chain, as a whole: its fields, and the separator of the last `toplevel`. -/
theorem C87_chain (levels : A → Option Nat) {cs : List (Stmt A V)} (hw : ∀ x ∈ cs, x.WF) {m : Made A V}
    (hm : chain levels cs = .ok m) :
    m.fields.getD [] = fieldsOf cs ∧ (m.fields.isSome = true ↔ ∃ c ∈ cs, c.isData) ∧ m.sep = sepOf cs ∧
      ((fieldsOf cs).map (·.name)).Nodup := by
  unfold chain at hm
  cases h0 : defineAll levels [] cs with
  | error e => rw [h0] at hm; cases hm
  | ok ms =>
    rw [h0] at hm
    injection hm with hm
    have hi := inv_all levels cs hw ms h0
    rw [← hm]
    exact ⟨hi.last, hi.some, hi.sep, fieldsOf_nodup cs hw⟩

/-- **C87** A class is refused exactly when it is a frozen dataclass deriving from one that is not or the other way round, when a field without
default value comes after one with a default value, or, for `toplevel`, when there is no field. -/
theorem C87_accepted (levels : A → Option Nat) {cs : List (Stmt A V)} {c : Stmt A V} (hw : ∀ x ∈ cs ++ [c], x.WF) :
    (∃ m, chain levels (cs ++ [c]) = .ok m) ↔ (∃ b, chain levels cs = .ok b) ∧
      (c.isData → (∀ b ∈ cs, b.isData → (c.deco = .dataclass ↔ b.deco = .dataclass)) ∧ Ordered (fieldsOf (cs ++ [c])) ∧
        (c.deco ≠ .dataclass → c.deco ≠ .sublevel → fieldsOf (cs ++ [c]) ≠ [])) := by
  have hcs : ∀ x ∈ cs, x.WF := fun x hx => hw x (List.mem_append_left _ hx)
  constructor
  · rintro ⟨m, hm⟩
    obtain ⟨ms, h0, h1⟩ := chain_snoc levels hm
    refine ⟨⟨_, by unfold chain; rw [h0]⟩, (define_ok levels (inv_all levels cs hcs ms h0) (hw c (by simp))).1 ⟨m, h1⟩⟩
  · rintro ⟨⟨b, hb⟩, ha⟩
    unfold chain at hb ⊢
    cases h0 : defineAll levels [] cs with
    | error e => rw [h0] at hb; cases hb
    | ok ms =>
      obtain ⟨m, h1⟩ := (define_ok levels (inv_all levels cs hcs ms h0) (hw c (by simp))).2 ha
      rw [defineAll_snoc, h0]
      simp only
      rw [h1]
      exact ⟨_, rfl⟩

theorem fieldsOf_one {fs : List (AField A V)} {d : Deco} (hd : d ≠ .bare) (hn : (fs.map (·.name)).Nodup) :
    fieldsOf [⟨fs, d⟩] = fs := by
  have := fieldsOf_snoc ([] : List (Stmt A V)) ⟨fs, d⟩
  rw [List.nil_append] at this
  rw [this, if_pos (show Stmt.isData ⟨fs, d⟩ from hd)]
  show [] ++ _ = fs
  rw [List.nil_append]
  have h2 : (fs.map fun f => ({ f with dflt := lastWritten [⟨fs, d⟩] f.name } : AField A V)) = fs := by
    refine (List.map_congr_left (g := id) fun f hf => ?_).trans (List.map_id _)
    have h3 : lastWritten [(⟨fs, d⟩ : Stmt A V)] f.name = f.dflt := by
      have := lastWritten_snoc ([] : List (Stmt A V)) ⟨fs, d⟩ f.name
      rw [List.nil_append] at this
      rw [this]
      show ((fs.find? _).bind _).or none = _
      rw [Option.or_none]
      cases hd : f.dflt with
      | none =>
        have : fs.find? (fun g => decide (g.name = f.name ∧ g.dflt.isSome = true)) = none := by
          rw [List.find?_eq_none]
          intro g hg he
          simp only [decide_eq_true_eq] at he
          have h1 := find_name hn hg
          rw [he.1, find_name hn hf] at h1
          injection h1 with h1
          rw [← h1, hd] at he
          exact absurd he.2 (by simp)
        rw [this]; rfl
      | some v =>
        have : fs.find? (fun g => decide (g.name = f.name ∧ g.dflt.isSome = true)) = some f := by
          have h1 := find_name hn hf
          cases h2 : fs.find? (fun g => decide (g.name = f.name ∧ g.dflt.isSome = true)) with
          | none =>
            rw [List.find?_eq_none] at h2
            exact absurd (by simp [hd]) (h2 f hf)
          | some g =>
            have h3 := List.find?_some h2
            simp only [decide_eq_true_eq] at h3
            have h4 := find_name hn (List.mem_of_find?_eq_some h2)
            rw [h3.1, h1] at h4
            exact h4.symm
        rw [this]; exact hd
    rw [h3]; rfl
  show (List.filter _ _) = fs
  rw [h2]
  simp [fieldsOf, fieldsRev]

/-- **C87** A class deriving from others and decorated by `toplevel` is the same as one written at once, without base class, with the fields
of the chain: same fields, separator and number of levels. -/
theorem C87_flat (levels : A → Option Nat) {cs : List (Stmt A V)} {own : List (AField A V)} {s : Str}
    (hw : ∀ x ∈ cs ++ [⟨own, .toplevel s⟩], x.WF) {m : Made A V} (hm : chain levels (cs ++ [⟨own, .toplevel s⟩]) = .ok m) :
    ∃ m', chain levels [⟨fieldsOf (cs ++ [⟨own, .toplevel s⟩]), .toplevel s⟩] = .ok m' ∧
      m'.fields = m.fields ∧ m'.sep = m.sep ∧ m.sep = some s ∧ m'.depth = m.depth := by
  have hcs : ∀ x ∈ cs, x.WF := fun x hx => hw x (List.mem_append_left _ hx)
  have hn := fieldsOf_nodup _ hw
  obtain ⟨ms, h0, h1⟩ := chain_snoc levels hm
  have hi := inv_all levels cs hcs ms h0
  have hwc : (⟨own, .toplevel s⟩ : Stmt A V).WF := hw _ (by simp)
  have hacc := (define_ok levels hi hwc).1 ⟨m, h1⟩ (by simp [Stmt.isData])
  obtain ⟨a1, _, _, a4, a5, _⟩ := define_made levels hi hwc h1
  generalize hfs : fieldsOf (cs ++ [⟨own, .toplevel s⟩]) = fs at *
  have hone : fieldsOf [(⟨fs, .toplevel s⟩ : Stmt A V)] = fs := fieldsOf_one (by simp) hn
  have hwf : (⟨fs, .toplevel s⟩ : Stmt A V).WF := hn
  obtain ⟨m', hm'⟩ := (define_ok levels inv_nil hwf).2 fun _ => by
    rw [List.nil_append, hone]
    exact ⟨by simp, hacc.2.1, hacc.2.2⟩
  obtain ⟨b1, _, _, b4, b5, _⟩ := define_made levels inv_nil hwf hm'
  refine ⟨m', ?_, ?_, ?_, ?_, ?_⟩
  · unfold chain defineAll
    rw [hm']
    rfl
  · rw [(a1 (by simp [Stmt.isData])).1, (b1 (by simp [Stmt.isData])).1, List.nil_append, hone]
  · rw [a4, b4, sepOf_snoc, sepOf_snoc]
  · rw [a4, sepOf_snoc]
  · have h5 := a5 s rfl
    have h6 := b5 s rfl
    rw [List.nil_append, hone, ← h5.1] at h6
    injection h6.1 with h7
    cases hx : m.depth with
    | none => rw [hx] at h5; exact absurd h5.2 (by simp)
    | some d =>
      cases hy : m'.depth with
      | none => rw [hy] at h6; exact absurd h6.2 (by simp)
      | some d' =>
        rw [hx, hy] at h7
        exact congrArg some h7

/-- **C87** Such a class is one of those that C74 is about, of which all is said there and in C62, with the fields of the chain. -/
theorem C87_class (levels : A → Option Nat) {cs : List (Stmt A FVal)} {own : List (AField A FVal)} {s : Str}
    (hw : ∀ x ∈ cs ++ [⟨own, .toplevel s⟩], x.WF) {m : Made A FVal} (hm : chain levels (cs ++ [⟨own, .toplevel s⟩]) = .ok m)
    (hr : ∀ f ∈ fieldsOf (cs ++ [⟨own, .toplevel s⟩]), f.name ∉ Reserved) :
    let c0 : ClassDef := ⟨(fieldsOf (cs ++ [⟨own, .toplevel s⟩])).map fun f => ⟨f.name, f.dflt⟩, s⟩
    c0.decorate = .ok ⟨c0.fields, s⟩ ∧ (c0.fields.map (·.name)).Nodup := by
  intro c0
  have hcs : ∀ x ∈ cs, x.WF := fun x hx => hw x (List.mem_append_left _ hx)
  obtain ⟨ms, h0, h1⟩ := chain_snoc levels hm
  have hi := inv_all levels cs hcs ms h0
  have hacc := (define_ok levels hi (hw _ (by simp))).1 ⟨m, h1⟩ (by simp [Stmt.isData])
  have hmap : (c0.fields.map fun f => ({ f with dflt := c0.default f } : NamedField)) = c0.fields := by
    refine (List.map_congr_left (g := id) fun f hf => ?_).trans (List.map_id _)
    obtain ⟨g, hg, rfl⟩ := List.mem_map.1 hf
    have := hr g hg
    simp only [Reserved, List.mem_cons, not_or] at this
    simp only [ClassDef.default, this.1, this.2.1, if_false]
    rfl
  have hmis : ∀ fs : List (AField A FVal), Indexer.misordered (fs.map fun f => (⟨f.name, f.dflt⟩ : NamedField)) = misordered fs := by
    intro fs
    induction fs with
    | nil => rfl
    | cons f fs ih =>
      rw [List.map_cons, Indexer.misordered, misordered, ih]
      congr 2
      rw [List.any_map]; rfl
  constructor
  · unfold ClassDef.decorate
    simp only [hmap]
    have e1 : Indexer.misordered c0.fields = false := (hmis _).trans ((misordered_eq _).2 hacc.2.1)
    have e2 : c0.fields.isEmpty = false := by
      have := hacc.2.2 (by simp) (by simp)
      cases hx : c0.fields with
      | nil => exact absurd (List.map_eq_nil_iff.1 hx) this
      | cons _ _ => rfl
    rw [if_neg (by rw [e1]; simp), if_neg (by rw [e2]; simp)]
  · have := fieldsOf_nodup _ hw
    rw [List.map_map]
    exact this

/-- **C87** The number of levels is given by the last field of the chain: 1, and the number of levels of its annotation if it is a dataclass. -/
theorem C87_depth (levels : A → Option Nat) {cs : List (Stmt A V)} {own : List (AField A V)} {s : Str}
    (hw : ∀ x ∈ cs ++ [⟨own, .toplevel s⟩], x.WF) {m : Made A V} (hm : chain levels (cs ++ [⟨own, .toplevel s⟩]) = .ok m) :
    ∃ f, (fieldsOf (cs ++ [⟨own, .toplevel s⟩])).getLast? = some f ∧ m.depth = some (1 + (levels f.ann).getD 0) := by
  obtain ⟨ms, h0, h1⟩ := chain_snoc levels hm
  have hi := inv_all levels cs (fun x hx => hw x (List.mem_append_left _ hx)) ms h0
  obtain ⟨_, _, _, _, a5, _⟩ := define_made levels hi (hw _ (by simp)) h1
  have h5 := a5 s rfl
  unfold getDepth at h5
  cases hl : (fieldsOf (cs ++ [⟨own, .toplevel s⟩])).getLast? with
  | none => rw [hl] at h5; exact nomatch h5.1
  | some f =>
    refine ⟨f, rfl, ?_⟩
    rw [hl] at h5
    have h6 := h5.1
    injection h6 with h6
    cases hd : m.depth with
    | none => rw [hd] at h5; exact absurd h5.2 (by simp)
    | some d =>
      rw [hd] at h6
      rw [Nat.add_comm]
      exact congrArg some h6

/-- **C87** A derived class that is not decorated has the fields, the separator and the number of levels of its base class: what it
annotates is no field. -/
theorem C87_bare (levels : A → Option Nat) {cs : List (Stmt A V)} {own : List (AField A V)} {b : Made A V}
    (hb : chain levels cs = .ok b) :
    ∃ m, chain levels (cs ++ [⟨own, .bare⟩]) = .ok m ∧ m.fields = b.fields ∧ m.sep = b.sep ∧ m.depth = b.depth := by
  unfold chain at hb ⊢
  cases h0 : defineAll levels [] cs with
  | error e => rw [h0] at hb; cases hb
  | ok ms =>
    rw [h0] at hb
    injection hb with hb
    rw [defineAll_snoc, h0]
    simp only [define]
    refine ⟨_, rfl, ?_⟩
    rw [← hb]
    simp

theorem checkFieldsS_dc (s : Str) (n : Nat) : ∀ (fs : List FVal) (k i : Nat) (gs : List FVal), fs[i]? = some (.dc gs) →
    k + i + 1 ≠ n → Indexer.checkFieldsS s n k fs ≠ .ok ()
  | [], _, _, _, h, _ => by simp at h
  | f :: fs, k, i, gs, h, hne => by
    rw [Indexer.checkFieldsS]
    cases i with
    | zero =>
      simp only [List.getElem?_cons_zero, Option.some.injEq] at h
      subst h
      simp only [Indexer.checkFieldS, FVal.isDc, if_true]
      by_cases hk : k = 0
      · simp [hk, bind, Except.bind, throw, throwThe, MonadExceptOf.throw]
      · have hne' : k + 1 ≠ n := hne
        simp [hk, hne', bind, Except.bind, throw, throwThe, MonadExceptOf.throw, pure, Except.pure]
    | succ i =>
      have ih := checkFieldsS_dc s n fs (k + 1) i gs (by simpa using h) (by omega)
      cases hh : Indexer.checkFieldS s k n f with
      | error e => simp [bind, Except.bind]
      | ok u => simpa [bind, Except.bind] using ih

theorem validateS_dc (s : Str) (fs : List FVal) (i : Nat) (gs : List FVal) (h : fs[i]? = some (.dc gs))
    (hl : i + 1 ≠ fs.length) : validateS s fs ≠ .ok () := by
  rw [validateS]
  have : ∃ rest, Indexer.toLists fs = fs :: rest := by
    cases fs with
    | nil => simp at h
    | cons f fs =>
      unfold Indexer.toLists
      split
      · rename_i hnone; simp at hnone
      · exact ⟨_, rfl⟩
      · exact ⟨_, rfl⟩
  obtain ⟨rest, hr⟩ := this
  rw [hr, Indexer.checkLevelsS]
  have := checkFieldsS_dc s fs.length fs 0 i gs h (by omega)
  cases hh : Indexer.checkFieldsS s fs.length 0 fs with
  | error e => simp [bind, Except.bind]
  | ok u => exact absurd hh this

/-- **C87** A derived class which adds a field to a base class ending with a level is of no use: the level is not in last position any more, and
values with a level there are refused, whatever the separator and the other values. -/
theorem C87_level_fails (levels : A → Option Nat) {cs : List (Stmt A V)} {own : List (AField A V)} {s : Str}
    (hw : ∀ x ∈ cs ++ [⟨own, .toplevel s⟩], x.WF) {b m : Made A V} (hb : chain levels cs = .ok b)
    (hm : chain levels (cs ++ [⟨own, .toplevel s⟩]) = .ok m) {f : AField A V} (hl : (b.fields.getD []).getLast? = some f)
    {g : AField A V} (hg : g ∈ own) (hnew : g.name ∉ (b.fields.getD []).map (·.name)) (vs : List FVal)
    (hv : vs.length = (m.fields.getD []).length) :
    ∃ i : Nat, ((m.fields.getD [])[i]?.map (·.name)) = some f.name ∧ ∀ gs, vs[i]? = some (.dc gs) → validateS s vs ≠ .ok () := by
  have hf := C87_fields levels hw hb hm (by simp [Stmt.isData])
  generalize b.fields.getD [] = F at *
  rw [hf] at hv ⊢
  simp only [Option.getD_some] at hv ⊢
  have hnames : (merge F (own.map fun f => { f with dflt := lastWritten (cs ++ [⟨own, .toplevel s⟩]) f.name })).map (·.name) =
      F.map (·.name) ++ (own.map (·.name)).filter (fun n => decide (n ∉ F.map (·.name))) := by
    rw [merge_names, own_names ⟨own, .toplevel s⟩]
  generalize merge F _ = M at *
  have hpos : F ≠ [] := by rintro rfl; cases hl
  have hlen : M.length = F.length + ((own.map (·.name)).filter (fun n => decide (n ∉ F.map (·.name)))).length := by
    have := congrArg List.length hnames
    simpa using this
  have hfil : 0 < ((own.map (·.name)).filter (fun n => decide (n ∉ F.map (·.name)))).length := by
    refine List.length_pos_of_mem (a := g.name) (List.mem_filter.2 ⟨List.mem_map.2 ⟨g, hg, rfl⟩, ?_⟩)
    simpa using hnew
  have hF0 : 0 < F.length := List.length_pos_iff.2 hpos
  refine ⟨F.length - 1, ?_, fun gs hgs => validateS_dc s vs (F.length - 1) gs hgs (by omega)⟩
  rw [← List.getElem?_map, hnames, List.getElem?_append_left (by rw [List.length_map]; omega), List.getElem?_map]
  rw [List.getLast?_eq_getElem?] at hl
  rw [hl]; rfl

/-- **C87** The separator of the base class is not that of a derived class decorated without one, for which it is "-": their keys for the same
values have other paths. -/
theorem C87_separator_fails :
    let own : List (AField Unit FVal) := [⟨"symbol", (), none⟩, ⟨"year", (), none⟩]
    (chain (fun _ => none) [⟨own, .toplevel ['+']⟩]).toOption.bind (·.sep) = some ['+'] ∧
    (chain (fun _ => none) [⟨own, .toplevel ['+']⟩, ⟨[], .toplevel ['-']⟩]).toOption.bind (·.sep) = some ['-'] ∧
    (chain (fun _ => none) [⟨own, .toplevel ['+']⟩, ⟨[], .bare⟩]).toOption.bind (·.sep) = some ['+'] := ⟨rfl, rfl, rfl⟩

/-! ### Examples -/

/-- `symbol: str`, `year: int = 2020` with `toplevel("+")`; then, not decorated, `month: int = 1`; then `toplevel`, `year: str`,
`month: int`. -/
def exChain : List (Stmt String Int) :=
  [⟨[⟨"symbol", "str", none⟩, ⟨"year", "int", some 2020⟩], .toplevel ['+']⟩, ⟨[⟨"month", "int", some 1⟩, ⟨"day", "int", none⟩], .bare⟩,
    ⟨[⟨"year", "str", none⟩, ⟨"month", "int", none⟩], .toplevel ['-']⟩]

/-- Hypotheses hold on it. -/
example : ∀ c ∈ exChain, c.WF := by simp [exChain, Stmt.WF]

example : chain (fun _ => none) exChain = .ok
    { fields := some [⟨"symbol", "str", none⟩, ⟨"year", "str", some 2020⟩, ⟨"month", "int", some 1⟩],
      attrs := [("month", 1), ("year", 2020)], frozen := true, sep := some ['-'], depth := some 1 } := by decide +kernel

example : fieldsOf exChain = [⟨"symbol", "str", none⟩, ⟨"year", "str", some 2020⟩, ⟨"month", "int", some 1⟩] := by decide +kernel

/-- A field without default value added to a class whose last field has one; a class deriving from a dataclass that is not frozen; a
`toplevel` without field; `sublevel` deriving from `sublevel`. -/
example : chain (fun _ => none) (exChain ++ [⟨[⟨"hour", "int", none⟩], .toplevel ['-']⟩]) = .error .typeError ∧
    chain (fun _ => none) [(⟨[⟨"x", "int", none⟩], .dataclass⟩ : Stmt String Int), ⟨[⟨"y", "int", none⟩], .toplevel ['-']⟩] =
      .error .typeError ∧
    chain (fun _ => none) [(⟨[], .toplevel ['-']⟩ : Stmt String Int)] = .error .indexError ∧
    (chain (fun _ => none) [(⟨[⟨"x", "int", none⟩], .sublevel⟩ : Stmt String Int), ⟨[⟨"y", "int", none⟩], .sublevel⟩]).toOption.isSome =
      true := by decide +kernel

/-- A level in last position, which is not the last any more in the derived class: numbers of levels are 2 and 1. -/
example :
    let levels : String → Option Nat := fun a => if a = "Sub" then some 1 else none
    let base : Stmt String FVal := ⟨[⟨"symbol", "str", none⟩, ⟨"sub", "Sub", none⟩], .toplevel ['-']⟩
    (chain levels [base]).toOption.bind (·.depth) = some 2 ∧
    (chain levels [base, ⟨[⟨"year", "int", none⟩], .toplevel ['-']⟩]).toOption.bind (·.depth) = some 1 ∧
    validateS ['-'] [.str ['a'], .dc [.str ['b']], .int 3] = .error .typeError ∧
    validateS ['-'] [.str ['a'], .dc [.str ['b']]] = .ok () := by
  refine ⟨by decide +kernel, by decide +kernel, by decide +kernel, by decide +kernel⟩

end Oups.Inherit
