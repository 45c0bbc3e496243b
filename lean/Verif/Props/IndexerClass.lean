import Verif.Model.IndexerClass
import Verif.Props.Indexer
/-! Property C68: keys of classes with any annotations and default values. -/
set_option linter.unusedSimpArgs false
namespace Oups.Indexer

/-! ### Specification -/

/-- Annotations give back the values from their text. -/
inductive Cls.Recovers : Cls → List FVal → Prop
  | leaf {fs vs} : List.Forall₂ (fun f v => f.call v.text = .ok v ∧ ∀ gs, v ≠ .dc gs) fs vs → Cls.Recovers (.leaf fs) vs
  | node {fs sub d vs gs} : List.Forall₂ (fun f v => f.call v.text = .ok v ∧ ∀ gs, v ≠ .dc gs) fs vs →
    Cls.Recovers sub gs → Cls.Recovers (.node fs sub d) (vs ++ [.dc gs])

/-- Each level has at least one plain field. -/
def Cls.WF : Cls → Prop
  | .leaf fs => fs ≠ []
  | .node fs sub _ => fs ≠ [] ∧ sub.WF

/-! ### Classes of integers and strings -/

theorem callFields_plain (ts : List PTy) (ss : List Str) :
    callFields (ts.map Fld.plain) ss = match parseFields ts ss with
      | some vs => .ok vs
      | none => .error .valueError := by
  induction ts generalizing ss with
  | nil => cases ss <;> rfl
  | cons t ts ih =>
    cases ss with
    | nil => rfl
    | cons s ss =>
      simp only [List.map_cons, callFields, parseFields, Fld.plain, ih, bind, Option.bind, pure]
      cases t.parse s with
      | none => rfl
      | some v => cases parseFields ts ss <;> rfl

theorem bindArgs_none (n : Nat) (args : List FVal) :
    bindArgs (List.replicate n none) args = if args.length = n then .ok args else .error .typeError := by
  induction n generalizing args with
  | zero => cases args <;> simp [bindArgs]
  | succ n ih =>
    cases args with
    | nil => simp [List.replicate_succ, bindArgs]
    | cons a as =>
      simp only [List.replicate_succ, bindArgs, ih, List.length_cons, Nat.add_right_cancel_iff]
      by_cases h : as.length = n <;> simp [h]

theorem plain_dflt (ts : List PTy) : (ts.map Fld.plain).map Fld.dflt = List.replicate ts.length none := by
  induction ts with
  | nil => rfl
  | cons t ts ih => rw [List.map_cons, List.map_cons, ih]; rfl

/-- Exceptions apart, what `from_path` returns. -/
def caught (r : Except CErr FVal) : Except CErr (Option FVal) :=
  match r with
  | .ok v => .ok (some v)
  | .error .other => .error .other
  | .error _ => .ok none

theorem classLoop_plain (tss : List (List PTy)) (strs : List Str) (n : Nat) (args : List FVal) (arity : Nat) :
    caught (classLoop (tss.map fun ts => (ts.map Fld.plain, none)) strs n args (List.replicate arity none)) =
      .ok (fromStrLoop tss strs n args arity) := by
  induction tss generalizing strs n args arity with
  | nil =>
    simp only [List.map_nil, classLoop, bindArgs_none, fromStrLoop, construct]
    by_cases h : args.length = arity <;> simp [h, caught]
  | cons ts tss ih =>
    simp only [List.map_cons, classLoop, fromStrLoop, callFields_plain, List.length_map, bind, Option.bind]
    cases parseFields ts (sliceFrom ts.length (sliceTo n strs)) with
    | none => rfl
    | some vs =>
      simp only [bindArgs_none, construct]
      by_cases h : args.length = arity
      · simp only [h, if_true]
        rw [plain_dflt, show List.replicate ts.length (none : Option FVal) ++ [none] = List.replicate (ts.length + 1) none by
          rw [List.replicate_succ']]
        exact ih _ _ _ _
      · simp [h, caught]

theorem Schema.cls_levels (sch : Schema) :
    sch.cls.levels = (sch.levels.1.map fun ts => (ts.map Fld.plain, none), sch.levels.2.map Fld.plain) := by
  induction sch with
  | leaf ts => rfl
  | node ts sub ih => simp only [Schema.cls, Cls.levels, ih, Schema.levels, List.map_cons]

/-- **C68** Fields annotated `int` or `str`, without default value: reading is that of C01 to C06. -/
theorem C68_same (sep : Char) (sch : Schema) (s : Str) :
    fromClass sep sch.cls s = .ok (fromStr sep sch s) ∧ sch.cls.depth = sch.depth := by
  refine ⟨?_, ?_⟩
  · show caught (readClass sch.cls (split (fun c => c == dirSep || c == sep) s)) = _
    simp only [readClass, sch.cls_levels, List.length_map, callFields_plain, fromStr, bind, Option.bind]
    cases parseFields sch.levels.2 (sliceFrom sch.levels.2.length (split (fun c => c == dirSep || c == sep) s)) with
    | none => rfl
    | some args =>
      simp only [← List.map_reverse, plain_dflt]
      exact classLoop_plain _ _ _ _ _
  · induction sch with
    | leaf ts => rfl
    | node ts sub ih => simp only [Schema.cls, Cls.depth, Schema.depth, ih]

/-! ### Round trip -/

/-- Annotation of a plain value. -/
def FVal.ty : FVal → PTy
  | .int _ => .int
  | _ => .str

theorem PlainOk.has {sep : Char} {v : FVal} (h : PlainOk sep v) : PTy.Has v.ty v := by
  cases h <;> constructor

theorem has_of_plain {sep : Char} {vs : List FVal} (h : ∀ v ∈ vs, PlainOk sep v) :
    List.Forall₂ PTy.Has (vs.map FVal.ty) vs := by
  induction vs with
  | nil => exact .nil
  | cons v vs ih =>
    exact .cons (h v (by simp)).has (ih fun w hw => h w (by simp [hw]))

theorem forall₂_right {α β : Type} {R : α → β → Prop} {l : List α} {m : List β} (h : List.Forall₂ R l m) :
    ∀ b ∈ m, ∃ a, R a b := by
  induction h with
  | nil => simp
  | cons h1 _ ih =>
    intro b hb
    rcases List.mem_cons.1 hb with rfl | hb
    · exact ⟨_, h1⟩
    · exact ih b hb

/-- An accepted instance is one of a class of integers and strings. -/
theorem Cls.Recovers.schema {sep : Char} {cls : Cls} {vs : List FVal} (h : cls.Recovers vs) (hw : cls.WF)
    (hv : Valid sep vs) : ∃ sch : Schema, sch.WF ∧ sch.Conf vs := by
  induction h with
  | leaf h =>
    rename_i fs vs
    have hp := hv.flat_inv fun v hv => (forall₂_right h v hv).choose_spec.2
    refine ⟨.leaf (vs.map FVal.ty), ?_, .leaf (has_of_plain hp)⟩
    intro e
    simp only [List.map_eq_nil_iff] at e
    subst e
    cases h
    exact hw rfl
  | node h _ ih =>
    rename_i fs sub d vs gs _
    obtain ⟨hne, hp, hv'⟩ := hv.nest_inv
    obtain ⟨sch, g1, g2⟩ := ih hw.2 hv'
    exact ⟨.node (vs.map FVal.ty) sch, ⟨by simpa using hne, g1⟩, .node (has_of_plain hp) g2⟩

theorem bindArgs_full (ds : List (Option FVal)) (args : List FVal) (h : ds.length = args.length) :
    bindArgs ds args = .ok args := by
  induction ds generalizing args with
  | nil => cases args <;> simp_all [bindArgs]
  | cons d ds ih =>
    cases args with
    | nil => simp at h
    | cons a as => simp only [bindArgs, ih as (by simpa using h)]

theorem callFields_text {fs : List Fld} {vs : List FVal}
    (h : List.Forall₂ (fun f v => f.call v.text = .ok v ∧ ∀ gs, v ≠ .dc gs) fs vs) :
    callFields fs (vs.map FVal.text) = .ok vs := by
  induction h with
  | nil => rfl
  | cons h1 _ ih => simp only [List.map_cons, callFields, h1.1, ih]

/-- `readClass` with outer levels `outer`. -/
def runClass (cls : Cls) (outer : List (List Fld × Option FVal)) (strs : List Str) : Except CErr FVal :=
  match callFields cls.levels.2 (sliceFrom cls.levels.2.length strs) with
  | .error e => .error e
  | .ok args => classLoop (cls.levels.1.reverse ++ outer) strs cls.levels.2.length args (cls.levels.2.map Fld.dflt)

theorem runClass_toks {cls : Cls} {gs : List FVal} {ss : List Str} (hc : cls.Recovers gs) (hw : cls.WF)
    (hx : ¬ Exceptional gs) (ht : Toks gs ss) (outer : List (List Fld × Option FVal)) (P : List Str) :
    ∃ S n ds, sliceTo n S = P ∧ ds.length = gs.length ∧ runClass cls outer (P ++ ss) = classLoop outer S n gs ds := by
  induction hc generalizing ss outer P with
  | leaf h =>
    rename_i fs vs
    have hn : ∀ v ∈ vs, ∀ gs, v ≠ .dc gs := fun v hv => (forall₂_right h v hv).choose_spec.2
    have hx' : ¬ ∃ v, vs = [.str [], v] := by
      rintro ⟨v, rfl⟩
      exact hx (.here (hn v (by simp)))
    have := ht.flat_eq hn hx'
    subst this
    have hlen := h.length_eq
    have hne : vs.map FVal.text ≠ [] := by
      intro e; simp at e; subst e; cases h; exact hw rfl
    have hl : fs.length = (vs.map FVal.text).length := by simp [hlen]
    refine ⟨P ++ vs.map FVal.text, fs.length, fs.map Fld.dflt, ?_, by simp [hlen], ?_⟩
    · rw [hl]; exact sliceTo_append _ _ hne
    · simp only [runClass, Cls.levels, List.reverse_nil, List.nil_append]
      rw [hl, sliceFrom_append _ _ hne, callFields_text h]
  | node h1 h2 ih =>
    rename_i fs sub d vs hs
    rw [Exceptional.nest_iff] at hx
    obtain ⟨tt, htt, rfl⟩ := ht.nest_eq
    obtain ⟨S, n, ds, hS, hd, hr⟩ := ih hw.2 hx htt ((fs, d) :: outer) (P ++ vs.map FVal.text)
    have hlen := h1.length_eq
    have hne : vs.map FVal.text ≠ [] := by
      intro e; simp at e; subst e; cases h1; exact hw.1 rfl
    have hl : fs.length = (vs.map FVal.text).length := by simp [hlen]
    refine ⟨P ++ vs.map FVal.text, fs.length, fs.map Fld.dflt ++ [d], ?_, by simp [hlen], ?_⟩
    · rw [hl]; exact sliceTo_append _ _ hne
    · have e : runClass (.node fs sub d) outer (P ++ (vs.map FVal.text ++ tt)) =
          runClass sub ((fs, d) :: outer) ((P ++ vs.map FVal.text) ++ tt) := by
        simp [runClass, Cls.levels]
      rw [e, hr]
      simp only [classLoop, hS]
      rw [hl, sliceFrom_append _ _ hne, callFields_text h1]
      simp only [bindArgs_full ds hs hd]

theorem fromClass_eq (sep : Char) (cls : Cls) (s : Str) :
    fromClass sep cls s = caught (runClass cls [] (split (isSep sep) s)) := by
  simp only [fromClass, runClass, List.append_nil]
  rfl

/-- **C68** Whatever the annotations and default values, a key accepted at construction is recovered from its path and from its
string if annotations give back each value from its text, unless its last level has exactly two fields the first of which is
the empty string. -/
theorem C68_roundtrip {sep : Char} {cls : Cls} {vs : List FVal} (asPath : Bool) (hw : cls.WF) (hc : cls.Recovers vs)
    (hv : validate sep vs = .ok ()) (hx : ¬ Exceptional vs) :
    ∃ s, toStr sep asPath vs = .ok s ∧ fromClass sep cls s = .ok (some (.dc vs)) := by
  have hv' := validate_sound sep vs hv
  obtain ⟨sch, g1, g2⟩ := hc.schema hw hv'
  refine ⟨_, toStr_eq asPath g2 g1, ?_⟩
  have ht := split_toStr asPath g2 g1 hv' (toStr_eq asPath g2 g1)
  obtain ⟨S, n, ds, -, hd, h⟩ := runClass_toks hc hw hx ht [] []
  rw [fromClass_eq]
  rw [List.nil_append] at h
  simp only [h, classLoop, bindArgs_full ds vs hd, caught]

/-- **C68** Then two such keys of one class have different paths and different strings. -/
theorem C68_distinct {sep : Char} {cls : Cls} {vs us : List FVal} (asPath : Bool) (hw : cls.WF) (hc : cls.Recovers vs)
    (hv : validate sep vs = .ok ()) (hx : ¬ Exceptional vs) (hc' : cls.Recovers us) (hv' : validate sep us = .ok ())
    (hx' : ¬ Exceptional us) (he : toStr sep asPath vs = toStr sep asPath us) : vs = us := by
  obtain ⟨s, h1, h2⟩ := C68_roundtrip asPath hw hc hv hx
  obtain ⟨t, h3, h4⟩ := C68_roundtrip asPath hw hc' hv' hx'
  rw [h1, h3, Except.ok.injEq] at he
  subst he
  rw [h2] at h4
  simpa using h4

/-! ### Where it fails -/

/-- Plain field whose annotation cannot be called on a string. -/
def Fld.Postponed (f : Fld) : Prop := ∀ s, f.call s = .error .typeError

/-- **C68** With annotations that cannot be called, such as the strings of `from __future__ import annotations`, no text is read:
keys can be made and have a path, from which nothing is recovered. -/
theorem C68_postponed {sep : Char} {f : Fld} {fs : List Fld} (hf : f.Postponed) (s : Str) :
    fromClass sep (.leaf (f :: fs)) s = .ok none := by
  simp only [fromClass, readClass, Cls.levels]
  have hne : sliceFrom (f :: fs).length (split (fun c => c == dirSep || c == sep) s) ≠ [] := by
    intro e
    have := sliceFrom_length (f :: fs).length (by simp) (split (fun c => c == dirSep || c == sep) s)
    rw [e] at this
    have h2 : (split (fun c => c == dirSep || c == sep) s).length ≠ 0 := by
      simpa using split_ne_nil (fun c => c == dirSep || c == sep) s
    simp at this
    omega
  cases h : sliceFrom (f :: fs).length (split (fun c => c == dirSep || c == sep) s) with
  | nil => exact absurd h hne
  | cons a as => simp only [callFields, hf a]

theorem bindArgs_append (ds es : List (Option FVal)) (args : List FVal) (us : List FVal) (h : ds.length = args.length)
    (he : es = us.map some) : bindArgs (ds ++ es) args = .ok (args ++ us) := by
  induction ds generalizing args with
  | nil =>
    cases args with
    | cons a as => simp at h
    | nil =>
      subst he
      simp only [List.nil_append]
      induction us with
      | nil => rfl
      | cons u us ih => simp only [List.map_cons, bindArgs, ih]
  | cons d ds ih =>
    cases args with
    | nil => simp at h
    | cons a as => simp only [List.cons_append, bindArgs, ih as (by simpa using h)]

theorem callFields_short {fs gs : List Fld} {vs : List FVal}
    (h : List.Forall₂ (fun f v => f.call v.text = .ok v ∧ ∀ gs, v ≠ .dc gs) fs vs) :
    callFields (fs ++ gs) (vs.map FVal.text) = .ok vs := by
  induction h with
  | nil => cases gs <;> rfl
  | cons h1 _ ih => simp only [List.cons_append, List.map_cons, callFields, h1.1, ih]

/-- **C68** With default values for the last fields, a directory whose name has only the first ones is read as a key: the one
completed with default values, of which it is not the directory. -/
theorem C68_shorter {sep : Char} {fs gs : List Fld} {vs us : List FVal} (hne : vs ≠ [])
    (h : List.Forall₂ (fun f v => f.call v.text = .ok v ∧ ∀ gs, v ≠ .dc gs) fs vs) (hp : ∀ v ∈ vs, PlainOk sep v)
    (hg : gs.map Fld.dflt = us.map some) (hus : us ≠ []) (hu : ∀ u ∈ us, PlainOk sep u)
    (hx : ¬ Exceptional (vs ++ us)) :
    fromClass sep (.leaf (fs ++ gs)) (join sep (vs.map FVal.text)) = .ok (some (.dc (vs ++ us))) ∧
      toPath sep (vs ++ us) ≠ .ok (join sep (vs.map FVal.text)) := by
  have hne' : vs.map FVal.text ≠ [] := by simpa using hne
  have hsplit : split (isSep sep) (join sep (vs.map FVal.text)) = vs.map FVal.text := by
    rw [split_join _ sep (by simp [isSep]) _ hne', flatMap_split_clean]
    intro s hs
    obtain ⟨f, hf, rfl⟩ := List.mem_map.1 hs
    exact clean_isSep (hp f hf).clean
  have hlen := h.length_eq
  have hgl : gs.length = us.length := by simpa using congrArg List.length hg
  constructor
  · rw [fromClass_eq, hsplit]
    simp only [runClass, Cls.levels, List.reverse_nil, List.nil_append]
    have hs : sliceFrom (fs ++ gs).length (vs.map FVal.text) = vs.map FVal.text := by
      simp only [sliceFrom, List.length_append]
      split
      · rfl
      · rw [show (vs.map FVal.text).length - (fs.length + gs.length) = 0 by simp; omega]
        rfl
    rw [hs, callFields_short h]
    simp only [classLoop, List.map_append]
    rw [bindArgs_append (fs.map Fld.dflt) _ vs us (by simp [hlen]) hg]
    rfl
  · intro he
    have hall : ∀ v ∈ vs ++ us, PlainOk sep v := by
      intro v hv
      rcases List.mem_append.1 hv with hv | hv
      · exact hp v hv
      · exact hu v hv
    have hc : Schema.Conf (.leaf ((vs ++ us).map FVal.ty)) (vs ++ us) := .leaf (has_of_plain hall)
    have hw : Schema.WF (.leaf ((vs ++ us).map FVal.ty)) := by simp [Schema.WF, hne]
    have ht := split_toStr true hc hw (.flat hall) he
    rw [hsplit] at ht
    have hn : ∀ f ∈ vs ++ us, ∀ gs, f ≠ .dc gs := fun f hf => (isDc_false_iff f).1 (hall f hf).notDc
    have := ht.flat_eq hn (by
      rintro ⟨v, hv⟩
      exact hx (hv ▸ .here (hn v (by rw [hv]; simp))))
    have := congrArg List.length this
    simp at this
    exact hus this

/-! ### Examples -/

/-- Annotation `float`, on three texts. -/
def exFloat : Str → Except CErr FVal := fun s =>
  if s = "3".toList then .ok (.other "3.0".toList) else if s = "3.0".toList then .ok (.other "3.0".toList) else .error .valueError

/-- Annotation of a class which has values "EUR" and "USD" only, which are strings. -/
def exCurrency : Str → Except CErr FVal := fun s =>
  if s = "EUR".toList ∨ s = "USD".toList then .ok (.str s) else .error .valueError

/-- Two levels: a string, then a currency and an integer, 1 by default. -/
def exClass : Cls := .node [Fld.plain .str] (.leaf [⟨exCurrency, none⟩, ⟨(Fld.plain .int).call, some (.int 1)⟩]) none

example : exClass.WF ∧ exClass.Recovers [.str "a".toList, .dc [.str "EUR".toList, .int 7]] ∧
    validate '-' [.str "a".toList, .dc [.str "EUR".toList, .int 7]] = .ok () ∧
    toPath '-' [.str "a".toList, .dc [.str "EUR".toList, .int 7]] = .ok "a/EUR-7".toList ∧
    (fromClass '-' exClass "a/EUR-7".toList).toOption.map Option.isSome = some true ∧
    (fromClass '-' exClass "a/GBP-7".toList).toOption.map Option.isSome = some false := by
  refine ⟨⟨by simp, by simp [Cls.WF]⟩, ?_, by decide +kernel, by decide +kernel, by decide +kernel, by decide +kernel⟩
  refine .node (vs := [_]) (.cons ⟨rfl, by simp⟩ .nil) (.leaf (.cons ⟨?_, by simp⟩ (.cons ⟨?_, by simp⟩ .nil)))
  · rfl
  · simp [Fld.plain, parse_text (PTy.Has.int 7)]

/-- A key of a class whose annotations are strings (`from __future__ import annotations`), with two levels: it is accepted and its path
has two levels, but the class has a depth of one, and nothing is read from the path. -/
theorem C68_postponed_fails :
    let cls := Cls.leaf [⟨fun _ => .error .typeError, none⟩, ⟨fun _ => .error .typeError, none⟩]
    let vs := [FVal.str "a".toList, .dc [.str "b".toList]]
    validate '-' vs = .ok () ∧ toPath '-' vs = .ok "a/b".toList ∧ cls.depth = 1 ∧
      fromClass '-' cls "a/b".toList = .ok none :=
  ⟨by decide +kernel, by decide +kernel, rfl, C68_postponed (fun _ => rfl) _⟩

/-- A field annotated `float` accepts the integer 3 and gives it back as 3.0, of which the path is another one, and which is refused. -/
theorem C68_float_fails :
    validate '-' [.int 3] = .ok () ∧ toPath '-' [.int 3] = .ok "3".toList ∧
    fromClass '-' (.leaf [⟨exFloat, none⟩]) "3".toList = .ok (some (.dc [.other "3.0".toList])) ∧
    toPath '-' [.other "3.0".toList] = .ok "3.0".toList ∧ validate '-' [.other "3.0".toList] = .error .valueError :=
  ⟨by decide +kernel, by decide +kernel, rfl, by decide +kernel, by decide +kernel⟩

/-- A directory "x" is read as the key `("x", 0)` if the second field is 0 by default; its directory is "x-0". -/
theorem C68_default_fails :
    fromClass '-' (.leaf [Fld.plain .str, ⟨(Fld.plain .int).call, some (.int 0)⟩]) "x".toList =
      .ok (some (.dc [.str "x".toList, .int 0])) ∧
    toPath '-' [.str "x".toList, .int 0] = .ok "x-0".toList :=
  ⟨rfl, by decide +kernel⟩

/-- An annotation that raises another exception (as `decimal.Decimal`): reading one text it does not accept raises. -/
theorem C68_raises_fails :
    fromClass '-' (.leaf [⟨fun s => if s = "1".toList then .ok (.str s) else .error .other, none⟩]) "x".toList = .error .other := rfl

end Oups.Indexer
