import Verif.Proofs.Indexer
import Verif.Proofs.IndexerInt
set_option linter.unusedSimpArgs false
/-! Reading of arbitrary directory names as keys. -/
namespace Oups.Indexer

theorem noSep_iff (sep : Char) (s : Str) : NoSep sep s ↔ ∀ c ∈ s, isSep sep c = false := by
  simp only [NoSep, isSep, dirSep, Bool.or_eq_false_iff, beq_eq_false_iff_ne, ne_eq]
  constructor
  · rintro ⟨h1, h2⟩ c hc
    exact ⟨fun e => h2 (e ▸ hc), fun e => h1 (e ▸ hc)⟩
  · intro h
    exact ⟨fun hm => (h _ hm).2 rfl, fun hm => (h _ hm).1 rfl⟩

theorem isSep_iff (sep c : Char) : isSep sep c = true ↔ c = sep ∨ c = '/' := by
  simp [isSep, dirSep, or_comm]

theorem Cut.split_eq {sep p toks} (h : Cut sep p toks) : split (isSep sep) p = toks := by
  induction h with
  | one h => exact split_clean _ _ ((noSep_iff _ _).1 h)
  | more h hc _ ih =>
    rw [split_append _ _ _ _ ((isSep_iff _ _).2 hc), split_clean _ _ ((noSep_iff _ _).1 h), ih]
    rfl

theorem cut_split (sep : Char) (p : Str) : Cut sep p (split (isSep sep) p) := by
  induction p with
  | nil => exact .one (by simp [NoSep])
  | cons c cs ih =>
    simp only [split]
    by_cases h : isSep sep c = true
    · rw [if_pos h]
      exact .more (s := []) (by simp [NoSep]) ((isSep_iff _ _).1 h) ih
    · rw [if_neg h]
      have hc : ∀ s, NoSep sep s → NoSep sep (c :: s) := by
        intro s hs
        rw [noSep_iff] at hs ⊢
        simp only [List.mem_cons, forall_eq_or_imp]
        exact ⟨by simpa using h, hs⟩
      generalize split (isSep sep) cs = t at ih
      cases ih with
      | one h => exact .one (hc _ h)
      | more h1 h2 h3 => exact .more (s := c :: _) (hc _ h1) h2 h3

theorem cut_iff (sep : Char) (p : Str) (toks : List Str) : Cut sep p toks ↔ split (isSep sep) p = toks :=
  ⟨Cut.split_eq, fun h => h ▸ cut_split sep p⟩

theorem cut_noSep {sep p toks} (h : Cut sep p toks) : ∀ s ∈ toks, NoSep sep s := by
  induction h with
  | one h => simpa using h
  | more h _ _ ih =>
    simp only [List.mem_cons, forall_eq_or_imp]
    exact ⟨h, ih⟩

/-! ### Conversion of tokens -/

theorem ReadsPlain.parse {ts ss fs} (h : ReadsPlain ts ss fs) : parseFields ts ss = some fs := by
  induction h with
  | nil => rfl
  | cons h _ ih => simp [parseFields, (parse_iff _ _ _).2 h, ih]

theorem ReadsPlain.length {ts ss fs} (h : ReadsPlain ts ss fs) : ss.length = ts.length ∧ fs.length = ts.length := by
  induction h with
  | nil => exact ⟨rfl, rfl⟩
  | cons _ _ ih => simp [ih]

theorem readsPlain_of_parse {ts ss fs} (h : parseFields ts ss = some fs) (hl : ss.length = ts.length) :
    ReadsPlain ts ss fs := by
  induction ts generalizing ss fs with
  | nil =>
    cases ss with
    | nil => simp [parseFields] at h; subst h; exact .nil
    | cons _ _ => simp at hl
  | cons t ts ih =>
    cases ss with
    | nil => simp at hl
    | cons s ss =>
      simp only [parseFields, Option.bind_eq_bind] at h
      cases h1 : t.parse s with
      | none => simp [h1] at h
      | some v =>
        cases h2 : parseFields ts ss with
        | none => simp [h1, h2] at h
        | some vs =>
          simp [h1, h2] at h
          subst h
          exact .cons ((parse_iff _ _ _).1 h1) (ih h2 (by simpa using hl))

theorem parse_has {t : PTy} {s v} (h : t.parse s = some v) : PTy.Has t v := by
  cases t with
  | int =>
    simp only [PTy.parse, Option.map_eq_some_iff] at h
    obtain ⟨i, _, rfl⟩ := h
    exact .int i
  | str => simp [PTy.parse] at h; subst h; exact .str s

theorem ReadsPlain.has {ts ss fs} (h : ReadsPlain ts ss fs) : List.Forall₂ PTy.Has ts fs := by
  induction h with
  | nil => exact .nil
  | cons h _ ih => exact .cons (parse_has ((parse_iff _ _ _).2 h)) ih

theorem Reads.conf {sch ss gs} (h : Reads sch ss gs) : Schema.Conf sch gs := by
  induction h with
  | leaf h => exact .leaf h.has
  | node h _ ih => exact .node h.has ih

theorem readsPlain_text {ts fs} (h : List.Forall₂ PTy.Has ts fs) : ReadsPlain ts (fs.map FVal.text) fs := by
  induction h with
  | nil => exact .nil
  | cons h _ ih => exact .cons ((parse_iff _ _ _).1 (parse_text h)) ih

theorem reads_toks {sch fs ss} (hc : Schema.Conf sch fs) (hx : ¬ Exceptional fs) (ht : Toks fs ss) :
    Reads sch ss fs := by
  induction hc generalizing ss with
  | leaf h =>
    rw [Exceptional.flat_iff h] at hx
    rw [ht.flat_eq (forall₂_notDc h) hx]
    exact .leaf (readsPlain_text h)
  | node h1 h2 ih =>
    rw [Exceptional.nest_iff] at hx
    obtain ⟨tt, htt, rfl⟩ := ht.nest_eq
    exact .node (readsPlain_text h1) (ih hx htt)

theorem fromStrLoop_arity {outer S n args arity v} (h : fromStrLoop outer S n args arity = some v) :
    args.length = arity := by
  cases outer with
  | nil =>
    simp only [fromStrLoop, construct] at h
    split at h
    · assumption
    · exact absurd h (by simp)
  | cons ts rest =>
    simp only [fromStrLoop] at h
    cases h3 : parseFields ts (sliceFrom ts.length (sliceTo n S)) with
    | none => simp [h3] at h
    | some fs' =>
      simp only [h3, Option.bind_eq_bind, Option.bind_some] at h
      cases h4 : construct arity args with
      | none => simp [h4] at h
      | some _ =>
        simp only [construct] at h4
        split at h4
        · assumption
        · exact absurd h4 (by simp)

theorem slice_split {n : Nat} {S : List Str} (hn : n ≠ 0) : S = sliceTo n S ++ sliceFrom n S := by
  simp [sliceTo, sliceFrom, hn]

theorem runFrom_reads {sch outer strs v} (hw : sch.WF) (h : runFrom sch outer strs = some v) :
    ∃ P ss gs, strs = P ++ ss ∧ Reads sch ss gs ∧
      ∃ S n, sliceTo n S = P ∧ fromStrLoop outer S n gs gs.length = some v := by
  induction sch generalizing outer with
  | leaf ts =>
    have hn : ts.length ≠ 0 := by simpa [Schema.WF] using hw
    simp only [runFrom, Schema.levels, List.reverse_nil, List.nil_append, Option.bind_eq_bind] at h
    cases h1 : parseFields ts (sliceFrom ts.length strs) with
    | none => simp [h1] at h
    | some args =>
      simp only [h1, Option.bind_some] at h
      have hl := fromStrLoop_arity h
      have hp := parseFields_length h1
      have hs := sliceFrom_length ts.length hn strs
      refine ⟨_, _, args, slice_split hn, .leaf (readsPlain_of_parse h1 (by omega)), _, _, rfl, ?_⟩
      rw [hl]; exact h
  | node ts sub ih =>
    have e : runFrom (.node ts sub) outer strs = runFrom sub (ts :: outer) strs := by
      simp [runFrom, Schema.levels]
    rw [e] at h
    obtain ⟨P, ss, gs, hs, hr, S, n, hS, hL⟩ := ih hw.2 h
    have hn : ts.length ≠ 0 := by simpa using hw.1
    simp only [fromStrLoop, Option.bind_eq_bind, hS] at hL
    cases h1 : parseFields ts (sliceFrom ts.length P) with
    | none => simp [h1] at hL
    | some fs =>
      simp only [h1, Option.bind_some, construct, if_true] at hL
      have hl := fromStrLoop_arity hL
      simp only [List.length_append, List.length_singleton] at hl
      have hp := parseFields_length h1
      have hs' := sliceFrom_length ts.length hn P
      refine ⟨sliceTo ts.length P, sliceFrom ts.length P ++ ss, fs ++ [.dc gs], ?_,
        .node (readsPlain_of_parse h1 (by omega)) hr, P, ts.length, rfl, ?_⟩
      · rw [← List.append_assoc, ← slice_split hn]; exact hs
      · rw [show (fs ++ [FVal.dc gs]).length = ts.length + 1 by simp; omega]
        exact hL

theorem reads_runFrom {sch gs ss} (hr : Reads sch ss gs) (hw : sch.WF) (outer : List (List PTy)) (P : List Str) :
    ∃ S n, sliceTo n S = P ∧ runFrom sch outer (P ++ ss) = fromStrLoop outer S n gs gs.length := by
  induction hr generalizing outer P with
  | leaf h =>
    rename_i ts ss fs
    have hne : ss ≠ [] := by
      rintro rfl
      have := h.length.1
      exact hw (List.length_eq_zero_iff.1 (by simpa using this.symm))
    refine ⟨P ++ ss, ts.length, ?_, ?_⟩
    · rw [← h.length.1]; exact sliceTo_append _ _ hne
    · simp only [runFrom, Schema.levels, List.reverse_nil, List.nil_append]
      rw [← h.length.1, sliceFrom_append _ _ hne, h.parse, h.length.1, h.length.2]
      simp
  | node h h2 ih =>
    rename_i ts sub ss ss' fs gs
    obtain ⟨S, n, hS, hr⟩ := ih hw.2 (ts :: outer) (P ++ ss)
    have hne : ss ≠ [] := by
      rintro rfl
      have := h.length.1
      exact hw.1 (List.length_eq_zero_iff.1 (by simpa using this.symm))
    refine ⟨P ++ ss, ts.length, ?_, ?_⟩
    · rw [← h.length.1]; exact sliceTo_append _ _ hne
    · have e : runFrom (.node ts sub) outer (P ++ (ss ++ ss')) =
          runFrom sub (ts :: outer) ((P ++ ss) ++ ss') := by
        simp [runFrom, Schema.levels]
      rw [e, hr]
      simp only [fromStrLoop, hS]
      have e2 : parseFields ts (sliceFrom ts.length (P ++ ss)) = some fs := by
        rw [← h.length.1, sliceFrom_append _ _ hne, h.parse]
      rw [e2]
      simp [construct, h.length.2]

/-- Which texts are read as a key, and as which key. -/
theorem fromStr_iff {sep : Char} {sch : Schema} (hw : sch.WF) (p : Str) (v : FVal) :
    fromStr sep sch p = some v ↔
      ∃ pre toks gs, Cut sep p (pre ++ toks) ∧ Reads sch toks gs ∧ v = .dc gs := by
  rw [fromStr_eq]
  constructor
  · intro h
    obtain ⟨P, ss, gs, hs, hr, S, n, _, hL⟩ := runFrom_reads hw h
    refine ⟨P, ss, gs, (cut_iff _ _ _).2 hs, hr, ?_⟩
    simpa [fromStrLoop, construct] using hL.symm
  · rintro ⟨pre, toks, gs, hc, hr, rfl⟩
    obtain ⟨S, n, _, h⟩ := reads_runFrom hr hw [] pre
    rw [hc.split_eq, h]
    simp [fromStrLoop, construct]

/-! ### Names of keys -/

/-- No text of a plain field contains a separator. -/
inductive Free (sep : Char) : List FVal → Prop
  | flat {fs} : (∀ f ∈ fs, NoSep sep f.text ∧ ∀ gs, f ≠ .dc gs) → Free sep fs
  | nest {fs gs} : (∀ f ∈ fs, NoSep sep f.text ∧ ∀ gs, f ≠ .dc gs) → Free sep gs → Free sep (fs ++ [.dc gs])

theorem Free.flat_inv {sep fs} (h : Free sep fs) (hn : ∀ f ∈ fs, ∀ gs, f ≠ .dc gs) :
    ∀ f ∈ fs, NoSep sep f.text := by
  cases h with
  | flat h => exact fun f hf => (h f hf).1
  | nest h1 h3 => exact absurd rfl (hn (.dc _) (List.mem_append_right _ (List.mem_singleton.2 rfl)) _)

theorem Free.nest_inv {sep fs gs} (h : Free sep (fs ++ [.dc gs])) :
    (∀ f ∈ fs, NoSep sep f.text) ∧ Free sep gs := by
  generalize hx : fs ++ [.dc gs] = xs at h
  cases h with
  | flat h => subst hx; exact absurd rfl ((h (.dc gs) (by simp)).2 gs)
  | nest h1 h3 =>
    obtain ⟨rfl, e⟩ := append_singleton_inj hx
    cases e
    exact ⟨fun f hf => (h1 f hf).1, h3⟩

theorem levelStrs_free {sep : Char} {sch fs} (hc : Schema.Conf sch fs) (hw : sch.WF) (hv : Free sep fs) :
    Toks fs ((levelStrs sep fs).flatMap (split (isSep sep))) := by
  induction hc with
  | leaf h =>
    rename_i ts fs
    have hn := forall₂_notDc h
    have hp := hv.flat_inv hn
    by_cases hx : ∃ v, fs = [.str [], v]
    · obtain ⟨v, rfl⟩ := hx
      rw [(levelStrs_leaf sep h hw).1 v rfl]
      have hcl := (noSep_iff _ _).1 (hp v (by simp))
      simp only [List.flatMap_cons, List.flatMap_nil, List.append_nil, split_clean _ _ hcl]
      exact .exc (hn v (by simp))
    · rw [(levelStrs_leaf sep h hw).2 hx]
      have hne : fs.map FVal.text ≠ [] := by
        intro e; simp at e; subst e; cases h; exact hw rfl
      simp only [List.flatMap_cons, List.flatMap_nil, List.append_nil]
      rw [split_join _ sep (by simp [isSep]) _ hne, flatMap_split_clean]
      · exact .flat hn hx
      · intro s hs
        obtain ⟨f, hf, rfl⟩ := List.mem_map.1 hs
        exact (noSep_iff _ _).1 (hp f hf)
  | node h1 h2 ih =>
    rename_i ts sub fs gs
    obtain ⟨hp, hv'⟩ := hv.nest_inv
    rw [levelStrs_nest _ h2 hw.2, List.flatMap_cons]
    have hne' : fs.map FVal.text ≠ [] := by
      intro e; simp at e; subst e; cases h1; exact hw.1 rfl
    rw [split_join _ sep (by simp [isSep]) _ hne', flatMap_split_clean]
    · exact .nest (ih hw.2 hv')
    · intro s hs
      obtain ⟨f, hf, rfl⟩ := List.mem_map.1 hs
      exact (noSep_iff _ _).1 (hp f hf)

theorem split_free {sep : Char} {sch fs} {s : Str} (hc : Schema.Conf sch fs) (hw : sch.WF)
    (hv : Free sep fs) (hs : toPath sep fs = .ok s) : Toks fs (split (isSep sep) s) := by
  rw [toPath, toStr_eq true hc hw] at hs
  cases hs
  rw [split_join _ _ (by simp [isSep]) _ (levelStrs_ne_nil hc hw)]
  exact levelStrs_free hc hw hv

/-! A token without separator converts into a value whose text has no separator. -/

theorem mem_strip {s : Str} {c : Char} (h : c ∈ strip s) : c ∈ s := by
  simp only [strip, List.mem_reverse] at h
  have h1 := (List.dropWhile_sublist isSpace).mem h
  rw [List.mem_reverse] at h1
  exact (List.dropWhile_sublist isSpace).mem h1

theorem parseInt_nonneg {s : Str} {i : Int} (h : parseInt s = some i) (hm : '-' ∉ s) : 0 ≤ i := by
  simp only [parseInt] at h
  cases hs : strip s with
  | nil => simp [hs] at h
  | cons c cs =>
    simp only [hs] at h
    have hc : c ≠ '-' := by
      rintro rfl
      exact hm (mem_strip (by rw [hs]; simp))
    rw [if_neg (by simpa using hc)] at h
    have key : ∀ o : Option Nat, (Option.map (fun n : Int => n) (do let a ← o; pure (a : Int))) = some i → 0 ≤ i := by
      intro o ho
      cases o with
      | none => simp at ho
      | some n => simp at ho; omega
    split at h <;> exact key _ h

theorem parse_free {sep : Char} (hd : isDigit sep = false) {t : PTy} {s v} (h : t.parse s = some v)
    (hs : NoSep sep s) : NoSep sep v.text := by
  cases t with
  | str => simp [PTy.parse] at h; subst h; exact hs
  | int =>
    simp only [PTy.parse, Option.map_eq_some_iff] at h
    obtain ⟨i, hi, rfl⟩ := h
    have key : ∀ c ∈ intStr i, isDigit c = true ∨ (c = '-' ∧ i < 0) := by
      intro c hc
      cases i with
      | ofNat n => exact Or.inl (natStr_digits n c hc)
      | negSucc n =>
        rcases List.mem_cons.1 hc with rfl | hc
        · exact Or.inr ⟨rfl, Int.negSucc_lt_zero n⟩
        · exact Or.inl (natStr_digits _ c hc)
    refine ⟨?_, ?_⟩ <;> intro hm <;> rcases key _ hm with h | ⟨h, hlt⟩
    · simp [h] at hd
    · subst h
      have := parseInt_nonneg hi hs.1
      omega
    · exact absurd h (by decide)
    · exact absurd h (by decide)

theorem ReadsPlain.free {sep : Char} (hd : isDigit sep = false) {ts ss fs} (h : ReadsPlain ts ss fs)
    (hs : ∀ s ∈ ss, NoSep sep s) : ∀ f ∈ fs, NoSep sep f.text ∧ ∀ gs, f ≠ .dc gs := by
  induction h with
  | nil => simp
  | cons h _ ih =>
    simp only [List.mem_cons, forall_eq_or_imp] at hs ⊢
    have h := (parse_iff _ _ _).2 h
    exact ⟨⟨parse_free hd h hs.1, Has.notDc (parse_has h)⟩, ih hs.2⟩

theorem Reads.free {sep : Char} (hd : isDigit sep = false) {sch ss gs} (h : Reads sch ss gs)
    (hs : ∀ s ∈ ss, NoSep sep s) : Free sep gs := by
  induction h with
  | leaf h => exact .flat (h.free hd hs)
  | node h _ ih =>
    simp only [List.mem_append] at hs
    exact .nest (h.free hd fun s hm => hs s (Or.inl hm)) (ih fun s hm => hs s (Or.inr hm))

theorem spelled_text {sep : Char} {ts fs} (h : List.Forall₂ PTy.Has ts fs) (hf : ∀ f ∈ fs, NoSep sep f.text) :
    List.Forall₂ (Spelled sep) ts (fs.map FVal.text) := by
  induction h with
  | nil => exact .nil
  | cons h _ ih =>
    simp only [List.mem_cons, forall_eq_or_imp] at hf
    refine .cons ⟨hf.1, ?_⟩ (ih hf.2)
    rintro rfl
    cases h with
    | int i => exact ⟨i, rfl⟩

theorem join_cons (c : Char) (x : Str) (ls : List Str) (h : ls ≠ []) : join c (x :: ls) = x ++ c :: join c ls := by
  cases ls with
  | nil => exact absurd rfl h
  | cons y ys => rfl

theorem named_of_path {sep : Char} {sch fs} (hc : Schema.Conf sch fs) (hw : sch.WF) (hf : Free sep fs)
    (hx : ¬ Exceptional fs) : Named sep sch (join '/' (levelStrs sep fs)) := by
  induction hc with
  | leaf h =>
    rename_i ts fs
    rw [Exceptional.flat_iff h] at hx
    rw [(levelStrs_leaf sep h hw).2 hx]
    refine .leaf (spelled_text h (hf.flat_inv (forall₂_notDc h))) ?_
    intro s e
    apply hx
    cases h with
    | nil => simp at e
    | cons h1 h2 =>
      cases h2 with
      | nil => simp at e
      | cons h3 h4 =>
        simp only [List.map_cons, List.cons.injEq, List.map_eq_nil_iff] at e
        obtain ⟨e1, e2, rfl⟩ := e
        exact ⟨_, by rw [Has.text_nil h1 e1]⟩
  | node h1 h2 ih =>
    rename_i ts sub fs gs
    obtain ⟨hp, hv'⟩ := hf.nest_inv
    rw [Exceptional.nest_iff] at hx
    rw [levelStrs_nest _ h2 hw.2, join_cons _ _ _ (levelStrs_ne_nil h2 hw.2)]
    exact .node (spelled_text h1 hp) (ih hw.2 hv' hx)

theorem spelled_exists {sep : Char} {ts ss} (h : List.Forall₂ (Spelled sep) ts ss) :
    ∃ fs, List.Forall₂ PTy.Has ts fs ∧ fs.map FVal.text = ss ∧ ∀ f ∈ fs, NoSep sep f.text ∧ ∀ gs, f ≠ .dc gs := by
  induction h with
  | nil => exact ⟨[], .nil, rfl, by simp⟩
  | cons h _ ih =>
    rename_i t s ts ss _
    obtain ⟨fs, h1, h2, h3⟩ := ih
    have : ∃ v, PTy.Has t v ∧ v.text = s := by
      cases t with
      | str => exact ⟨.str s, .str s, rfl⟩
      | int =>
        obtain ⟨i, rfl⟩ := h.2 rfl
        exact ⟨.int i, .int i, rfl⟩
    obtain ⟨v, hv, rfl⟩ := this
    refine ⟨v :: fs, .cons hv h1, by simp [h2], ?_⟩
    simp only [List.mem_cons, forall_eq_or_imp]
    exact ⟨⟨h.1, Has.notDc hv⟩, h3⟩

theorem named_exists {sep : Char} {sch p} (h : Named sep sch p) (hw : sch.WF) :
    ∃ fs, Schema.Conf sch fs ∧ Free sep fs ∧ ¬ Exceptional fs ∧ join '/' (levelStrs sep fs) = p := by
  induction h with
  | leaf h hx =>
    rename_i ts ss
    obtain ⟨fs, h1, rfl, h3⟩ := spelled_exists h
    have hx' : ¬ ∃ v, fs = [.str [], v] := by
      rintro ⟨v, rfl⟩
      exact hx v.text rfl
    refine ⟨fs, .leaf h1, .flat h3, by rwa [Exceptional.flat_iff h1], ?_⟩
    rw [(levelStrs_leaf sep h1 hw).2 hx']
    rfl
  | node h h2 ih =>
    rename_i ts ss sub p
    obtain ⟨fs, h1, rfl, h3⟩ := spelled_exists h
    obtain ⟨gs, g1, g2, g3, rfl⟩ := ih hw.2
    refine ⟨fs ++ [.dc gs], .node h1 g1, .nest h3 g2, by rwa [Exceptional.nest_iff], ?_⟩
    rw [levelStrs_nest _ g1 hw.2, join_cons _ _ _ (levelStrs_ne_nil g1 hw.2)]

theorem path_eq {sep : Char} {sch fs} (hc : Schema.Conf sch fs) (hw : sch.WF) :
    toPath sep fs = .ok (join '/' (levelStrs sep fs)) := toStr_eq true hc hw

/-- A name of key is read as a key of which it is the path. -/
theorem named_read {sep : Char} {sch : Schema} {p : Str} (hw : sch.WF) (h : Named sep sch p) :
    ∃ gs, fromStr sep sch p = some (.dc gs) ∧ toPath sep gs = .ok p := by
  obtain ⟨fs, hc, hf, hx, rfl⟩ := named_exists h hw
  have hp := path_eq (sep := sep) hc hw
  refine ⟨fs, ?_, hp⟩
  rw [fromStr_iff hw]
  exact ⟨[], _, fs, (cut_iff _ _ _).2 rfl, reads_toks hc hx (split_free hc hw hf hp), rfl⟩

theorem read_named {sep : Char} (hd : isDigit sep = false) {sch : Schema} {p : Str} {gs : List FVal} (hw : sch.WF)
    (h : fromStr sep sch p = some (.dc gs)) (hp : toPath sep gs = .ok p) : Named sep sch p := by
  obtain ⟨pre, toks, gs', hcut, hr, e⟩ := (fromStr_iff hw p _).1 h
  cases e
  have hf : Free sep gs := hr.free hd fun s hs => cut_noSep hcut s (by simp [hs])
  have hx : ¬ Exceptional gs := by
    intro hx
    have ht := split_free hr.conf hw hf hp
    have h1 := ht.length_exc hr.conf hx
    have h2 := fromStr_count hw h
    omega
  have := path_eq (sep := sep) hr.conf hw
  rw [hp] at this
  cases this
  exact named_of_path hr.conf hw hf hx

end Oups.Indexer
