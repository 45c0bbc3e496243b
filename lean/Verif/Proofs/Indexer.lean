import Verif.Spec.Indexer
/-! Lemmas on the indexing model. -/
set_option linter.unusedSimpArgs false

namespace Oups.Indexer

/-! ### split and join -/

theorem split_ne_nil (p : Char → Bool) (s : Str) : split p s ≠ [] := by
  induction s with
  | nil => simp [split]
  | cons c cs ih =>
    simp only [split]
    split
    · simp
    · split <;> simp

theorem split_append (p : Char → Bool) (a b : Str) (c : Char) (hc : p c = true) :
    split p (a ++ c :: b) = split p a ++ split p b := by
  induction a with
  | nil => simp [split, hc]
  | cons x xs ih =>
    simp only [List.cons_append, split]
    by_cases hx : p x = true
    · simp [hx, ih]
    · simp only [hx, Bool.false_eq_true, ↓reduceIte, ih]
      cases hs : split p xs with
      | nil => exact absurd hs (split_ne_nil p xs)
      | cons w ws => simp

theorem split_clean (p : Char → Bool) (s : Str) (h : ∀ c ∈ s, p c = false) : split p s = [s] := by
  induction s with
  | nil => simp [split]
  | cons c cs ih =>
    simp only [List.mem_cons, forall_eq_or_imp] at h
    simp [split, h.1, ih h.2]

theorem split_join (p : Char → Bool) (c : Char) (hc : p c = true) (ls : List Str) (hl : ls ≠ []) :
    split p (join c ls) = ls.flatMap (split p) := by
  induction ls with
  | nil => exact absurd rfl hl
  | cons x xs ih =>
    cases xs with
    | nil => simp [join]
    | cons y ys =>
      simp only [join, split_append p _ _ c hc, ih (by simp)]
      simp

theorem flatMap_split_clean (p : Char → Bool) (ls : List Str) (h : ∀ s ∈ ls, ∀ c ∈ s, p c = false) :
    ls.flatMap (split p) = ls := by
  induction ls with
  | nil => rfl
  | cons x xs ih =>
    simp only [List.mem_cons, forall_eq_or_imp] at h
    simp [split_clean p x h.1, ih h.2]

theorem join_append_singleton (c : Char) (ls : List Str) (hl : ls ≠ []) (x : Str) :
    join c (ls ++ [x]) = join c ls ++ c :: x := by
  induction ls with
  | nil => exact absurd rfl hl
  | cons y ys ih =>
    cases ys with
    | nil => simp [join]
    | cons z zs =>
      have := ih (by simp)
      simp only [List.cons_append, join] at this ⊢
      simp [this]

theorem join_eq_nil_iff (c : Char) (ls : List Str) : join c ls = [] ↔ ls = [] ∨ ls = [[]] := by
  cases ls with
  | nil => simp [join]
  | cons y ys => cases ys with
    | nil => simp [join]
    | cons z zs => simp [join]

/-! ### Equations of `toLists` -/

theorem toLists_nil : toLists [] = [] := by
  rw [toLists]; simp

theorem toLists_nest (fs gs : List FVal) :
    toLists (fs ++ [.dc gs]) = (fs ++ [.dc gs]) :: toLists gs := by
  rw [toLists]
  split
  · rename_i h; simp at h
  · rename_i h; simp at h; simp [h]
  · rename_i h1 h; simp at h; exact absurd h.symm (h1 gs)

theorem toLists_flat (fs : List FVal) (hne : fs ≠ []) (h : ∀ f ∈ fs, ∀ gs, f ≠ .dc gs) :
    toLists fs = [fs] := by
  rw [toLists]
  split
  · rename_i h1; simp at h1; exact absurd h1 hne
  · rename_i gs h1; exact absurd rfl (h _ (List.mem_of_getLast? h1) gs)
  · rfl

/-! ### Validation -/

theorem clean_iff (sep : Char) (s : Str) :
    (s.any (fun c => c == sep || c == dirSep || c == '.') = false) ↔ CleanText sep s := by
  simp only [List.any_eq_false, CleanText, dirSep, Bool.or_eq_true, beq_iff_eq, not_or]
  constructor
  · intro h
    exact ⟨fun hm => (h _ hm).1.1 rfl, fun hm => (h _ hm).1.2 rfl, fun hm => (h _ hm).2 rfl⟩
  · rintro ⟨h1, h2, h3⟩ c hc
    exact ⟨⟨fun e => h1 (e ▸ hc), fun e => h2 (e ▸ hc)⟩, fun e => h3 (e ▸ hc)⟩

theorem checkField_plain (sep : Char) (i n : Nat) (f : FVal) (hf : f.isDc = false) :
    checkField sep i n f = .ok () ↔ PlainOk sep f := by
  have hcl := clean_iff sep f.text
  cases f with
  | int k =>
    simp only [checkField, FVal.isDc, FVal.accepted]
    by_cases hc : ((FVal.int k).text.any fun c => c == sep || c == dirSep || c == '.') = true
    · simp only [hc, if_true, Bool.false_eq_true, if_false]
      constructor
      · intro h; simp [bind, Except.bind, throw, throwThe, MonadExceptOf.throw] at h
      · intro h; cases h with | int h => rw [hcl.2 h] at hc; simp at hc
    · simp only [Bool.not_eq_true] at hc
      simp only [hc]
      constructor
      · intro _; exact .int (hcl.1 hc)
      · intro _; rfl
  | str s =>
    simp only [checkField, FVal.isDc, FVal.accepted]
    by_cases hc : ((FVal.str s).text.any fun c => c == sep || c == dirSep || c == '.') = true
    · simp only [hc, if_true, Bool.false_eq_true, if_false]
      constructor
      · intro h; simp [bind, Except.bind, throw, throwThe, MonadExceptOf.throw] at h
      · intro h; cases h with | str h => rw [show CleanText sep s = CleanText sep (FVal.str s).text from rfl] at h; rw [hcl.2 h] at hc; simp at hc
    · simp only [Bool.not_eq_true] at hc
      simp only [hc]
      constructor
      · intro _; exact .str (hcl.1 hc)
      · intro _; rfl
  | other r =>
    constructor
    · intro h
      simp only [checkField, FVal.isDc, FVal.accepted] at h
      by_cases hc : ((FVal.other r).text.any fun c => c == sep || c == dirSep || c == '.') = true
      · simp [hc, bind, Except.bind, throw, throwThe, MonadExceptOf.throw] at h
      · simp only [Bool.not_eq_true] at hc
        simp [hc, bind, Except.bind, throw, throwThe, MonadExceptOf.throw, pure, Except.pure] at h
    · intro h; cases h
  | dc gs => simp [FVal.isDc] at hf

theorem checkField_dc (sep : Char) (i n : Nat) (gs : List FVal) :
    checkField sep i n (.dc gs) = .ok () ↔ i ≠ 0 ∧ i + 1 = n := by
  simp only [checkField, FVal.isDc, FVal.accepted, if_true]
  by_cases h0 : i = 0
  · simp [h0, bind, Except.bind, throw, throwThe, MonadExceptOf.throw]
  · by_cases h1 : i + 1 = n
    · simp [h0, h1, bind, Except.bind, pure, Except.pure]
    · simp [h0, h1, bind, Except.bind, throw, throwThe, MonadExceptOf.throw, pure, Except.pure]

theorem bind_ok_unit {ε : Type} (a b : Except ε Unit) :
    (a >>= fun _ => b) = .ok () ↔ a = .ok () ∧ b = .ok () := by
  cases a with
  | error e => simp [bind, Except.bind]
  | ok u => cases u; simp [bind, Except.bind]

/-- All plain: the whole level is accepted iff each field is. -/
theorem checkFields_plain (sep : Char) (n : Nat) (fs : List FVal) (i : Nat)
    (h : ∀ f ∈ fs, f.isDc = false) :
    checkFields sep n i fs = .ok () ↔ ∀ f ∈ fs, PlainOk sep f := by
  induction fs generalizing i with
  | nil => simp [checkFields, pure, Except.pure]
  | cons f fs ih =>
    simp only [List.mem_cons, forall_eq_or_imp] at h
    simp only [checkFields, bind_ok_unit, checkField_plain sep i n f h.1, ih (i + 1) h.2,
      List.mem_cons, forall_eq_or_imp]

theorem checkFields_append (sep : Char) (n : Nat) (fs gs : List FVal) (i : Nat) :
    checkFields sep n i (fs ++ gs) = .ok () ↔
      checkFields sep n i fs = .ok () ∧ checkFields sep n (i + fs.length) gs = .ok () := by
  induction fs generalizing i with
  | nil => simp [checkFields, pure, Except.pure]
  | cons f fs ih =>
    simp only [List.cons_append, checkFields, bind_ok_unit, ih, List.length_cons, and_assoc]
    rw [show i + 1 + fs.length = i + (fs.length + 1) by omega]

/-- A dataclass instance elsewhere than last is refused. -/
theorem checkFields_noDc (sep : Char) (fs : List FVal) (n i : Nat) (hn : i + fs.length < n)
    (h : checkFields sep n i fs = .ok ()) : ∀ f ∈ fs, f.isDc = false := by
  induction fs generalizing i with
  | nil => simp
  | cons f fs ih =>
    simp only [checkFields, bind_ok_unit] at h
    simp only [List.length_cons] at hn
    intro g hg
    rcases List.mem_cons.1 hg with rfl | hg
    · cases g with
      | dc gs =>
        have := (checkField_dc sep i n gs).1 h.1
        omega
      | _ => rfl
    · exact ih (i + 1) (by omega) h.2 g hg

theorem PlainOk.notDc {sep f} (h : PlainOk sep f) : f.isDc = false := by
  cases h <;> rfl

theorem isDc_false_iff (f : FVal) : f.isDc = false ↔ ∀ gs, f ≠ .dc gs := by
  cases f <;> simp [FVal.isDc]

theorem validate_sound (sep : Char) (fs : List FVal) (h : validate sep fs = .ok ()) : Valid sep fs := by
  have key : ∀ n, ∀ fs : List FVal, sizeOf fs ≤ n → validate sep fs = .ok () → Valid sep fs := by
    intro n
    induction n with
    | zero =>
      intro fs hs
      cases fs <;> simp at hs
    | succ n ih =>
      intro fs hs h
      rcases List.eq_nil_or_concat fs with rfl | ⟨pre, x, rfl⟩
      · exact .flat (by simp)
      · rw [List.concat_eq_append] at *
        by_cases hx : ∃ gs, x = .dc gs
        · obtain ⟨gs, rfl⟩ := hx
          rw [validate, toLists_nest, checkLevels, bind_ok_unit, checkFields_append] at h
          obtain ⟨⟨h1, h2⟩, h3⟩ := h
          simp only [checkFields, bind_ok_unit, checkField_dc] at h2
          have hno := checkFields_noDc sep pre _ 0 (by simp) h1
          refine .nest ?_ ?_ ?_
          · rintro rfl; simp at h2
          · exact (checkFields_plain sep _ pre 0 hno).1 h1
          · apply ih
            · have h1 : FVal.dc gs ∈ pre ++ [FVal.dc gs] := by simp
              have := List.sizeOf_lt_of_mem h1
              simp only [FVal.dc.sizeOf_spec] at this
              omega
            · exact h3
        · have hx' : x.isDc = false := by
            rw [isDc_false_iff]; intro gs e; exact hx ⟨gs, e⟩
          have hl : toLists (pre ++ [x]) = [pre ++ [x]] := by
            rw [toLists]
            split
            · rename_i h1; simp at h1
            · rename_i gs h1; simp at h1; exact absurd ⟨gs, h1⟩ hx
            · rfl
          rw [validate, hl, checkLevels, bind_ok_unit, checkFields_append] at h
          have hno := checkFields_noDc sep pre _ 0 (by simp) h.1.1
          refine .flat ?_
          have hall : ∀ f ∈ pre ++ [x], f.isDc = false := by
            intro f hf
            rcases List.mem_append.1 hf with hf | hf
            · exact hno f hf
            · simp at hf; exact hf ▸ hx'
          exact (checkFields_plain sep (pre ++ [x]).length (pre ++ [x]) 0 hall).1
            ((checkFields_append sep _ pre [x] 0).2 h.1)
  exact key _ fs (Nat.le_refl _) h

theorem validate_complete (sep : Char) (fs : List FVal) (h : Valid sep fs) : validate sep fs = .ok () := by
  induction h with
  | flat h =>
    rename_i fs
    by_cases hne : fs = []
    · subst hne; rw [validate, toLists_nil]; rfl
    · have hno : ∀ f ∈ fs, f.isDc = false := fun f hf => (h f hf).notDc
      rw [validate, toLists_flat fs hne (fun f hf => (isDc_false_iff f).1 (hno f hf)), checkLevels,
        bind_ok_unit]
      exact ⟨(checkFields_plain sep _ fs 0 hno).2 h, rfl⟩
  | nest hne h _ ih =>
    rename_i fs gs _
    have hno : ∀ f ∈ fs, f.isDc = false := fun f hf => (h f hf).notDc
    rw [validate, toLists_nest, checkLevels, bind_ok_unit, checkFields_append]
    refine ⟨⟨(checkFields_plain sep _ fs 0 hno).2 h, ?_⟩, ih⟩
    have : fs.length ≠ 0 := by simpa using hne
    simp only [checkFields, bind_ok_unit, checkField_dc]
    simp [pure, Except.pure, hne]

/-! ### Integers -/

theorem digitChar_toNat (d : Nat) (h : d < 10) : (digitChar d).toNat = 48 + d := by
  have : ∀ d : Fin 10, (digitChar d.1).toNat = 48 + d.1 := by decide
  exact this ⟨d, h⟩

theorem isDigit_digitChar (d : Nat) (h : d < 10) : isDigit (digitChar d) = true := by
  simp [isDigit, digitChar_toNat d h]; omega

theorem natStr_digits (n : Nat) : ∀ c ∈ natStr n, isDigit c = true := by
  induction n using Nat.strongRecOn with
  | _ n ih =>
    rw [natStr]
    split
    · rename_i h; simp [isDigit_digitChar n h]
    · rename_i h
      intro c hc
      rcases List.mem_append.1 hc with hc | hc
      · exact ih (n / 10) (by omega) c hc
      · simp at hc; subst hc; exact isDigit_digitChar _ (by omega)

theorem natStr_ne_nil (n : Nat) : natStr n ≠ [] := by
  rw [natStr]; split <;> simp

def digitsVal (acc : Nat) (s : Str) : Nat := s.foldl (fun a c => a * 10 + (c.toNat - 48)) acc

theorem natStr_val (n : Nat) : digitsVal 0 (natStr n) = n := by
  induction n using Nat.strongRecOn with
  | _ n ih =>
    rw [natStr]
    split
    · rename_i h; simp [digitsVal, digitChar_toNat n h]
    · rename_i h
      have h1 := ih (n / 10) (by omega)
      rw [digitsVal] at h1
      simp only [digitsVal, List.foldl_append, List.foldl_cons, List.foldl_nil, h1]
      rw [digitChar_toNat _ (by omega)]
      omega

theorem parseDigits_digits (s : Str) (acc : Nat) (prev : Bool) (h : ∀ c ∈ s, isDigit c = true)
    (hne : s ≠ [] ∨ prev = true) : parseDigits s acc prev = some (digitsVal acc s) := by
  induction s generalizing acc prev with
  | nil =>
    rcases hne with h | h
    · exact absurd rfl h
    · simp [parseDigits, digitsVal, h]
  | cons c cs ih =>
    simp only [List.mem_cons, forall_eq_or_imp] at h
    simp only [parseDigits, h.1, if_true]
    rw [ih _ true h.2 (Or.inr rfl)]
    simp [digitsVal]

theorem dropWhile_id {α} (p : α → Bool) (l : List α) (h : ∀ x, l.head? = some x → p x = false) :
    l.dropWhile p = l := by
  cases l with
  | nil => rfl
  | cons x xs => simp [List.dropWhile, h x rfl]

theorem strip_noSpace (s : Str) (h : ∀ c ∈ s, isSpace c = false) : strip s = s := by
  have h1 : s.dropWhile isSpace = s :=
    dropWhile_id _ _ (fun x hx => h x (List.mem_of_head? hx))
  have h2 : s.reverse.dropWhile isSpace = s.reverse :=
    dropWhile_id _ _ (fun x hx => h x (by
      have := List.mem_of_head? hx
      simpa using this))
  simp [strip, h1, h2]

theorem isDigit_isSpace (c : Char) (h : isDigit c = true) : isSpace c = false := by
  simp only [isDigit, Bool.and_eq_true, decide_eq_true_eq] at h
  simp only [isSpace, Bool.or_eq_false_iff, Bool.and_eq_false_iff, decide_eq_false_iff_not,
    beq_eq_false_iff_ne, ne_eq]
  refine ⟨⟨?_, by omega⟩, by omega⟩
  rintro rfl
  simp at h

theorem isDigit_ne (c d : Char) (h : isDigit c = true) (hd : isDigit d = false) : (c == d) = false := by
  rw [beq_eq_false_iff_ne]; rintro rfl; simp [h] at hd

theorem parseInt_intStr (i : Int) : parseInt (intStr i) = some i := by
  cases i with
  | ofNat n =>
    have hd := natStr_digits n
    have hs : strip (natStr n) = natStr n := strip_noSpace _ (fun c hc => isDigit_isSpace c (hd c hc))
    cases hn : natStr n with
    | nil => exact absurd hn (natStr_ne_nil n)
    | cons c cs =>
      have hc : isDigit c = true := hd c (by simp [hn])
      have hp := parseDigits_digits (natStr n) 0 false hd (Or.inl (natStr_ne_nil n))
      rw [natStr_val, hn] at hp
      rw [hn] at hs
      simp only [intStr, hn, parseInt, hs, isDigit_ne c '-' hc rfl, isDigit_ne c '+' hc rfl, hp]
      simp
  | negSucc n =>
    have hd := natStr_digits (n + 1)
    have hs : strip ('-' :: natStr (n + 1)) = '-' :: natStr (n + 1) := strip_noSpace _ (by
      intro c hc
      rcases List.mem_cons.1 hc with rfl | hc
      · rfl
      · exact isDigit_isSpace c (hd c hc))
    have hp := parseDigits_digits (natStr (n + 1)) 0 false hd (Or.inl (natStr_ne_nil _))
    rw [natStr_val] at hp
    simp only [intStr, parseInt, hs, hp]
    simp [Int.negSucc_eq]

theorem parse_text {t v} (h : PTy.Has t v) : t.parse v.text = some v := by
  cases h with
  | int i => simp [PTy.parse, FVal.text, parseInt_intStr]
  | str s => simp [PTy.parse, FVal.text]

theorem parseFields_text {ts fs} (h : List.Forall₂ PTy.Has ts fs) :
    parseFields ts (fs.map FVal.text) = some fs := by
  induction h with
  | nil => rfl
  | cons h1 _ ih => simp [parseFields, parse_text h1, ih]

/-- Values of one type are determined by their text. -/
theorem text_inj {t v w} (hv : PTy.Has t v) (hw : PTy.Has t w) (h : v.text = w.text) : v = w := by
  have := parse_text hv
  rw [h, parse_text hw] at this
  exact (Option.some.inj this).symm

/-! ### Level strings of a conforming valid instance -/

theorem Has.notDc {t v} (h : PTy.Has t v) : ∀ gs, v ≠ .dc gs := by
  cases h <;> simp

theorem forall₂_notDc {ts fs} (h : List.Forall₂ PTy.Has ts fs) : ∀ f ∈ fs, ∀ gs, f ≠ .dc gs := by
  induction h with
  | nil => simp
  | cons h1 _ ih =>
    intro f hf
    rcases List.mem_cons.1 hf with rfl | hf
    · exact Has.notDc h1
    · exact ih f hf

theorem toLists_ne_nil {sch fs} (hc : Schema.Conf sch fs) (hw : sch.WF) : toLists fs ≠ [] := by
  cases hc with
  | leaf h =>
    have hne : fs ≠ [] := by
      rintro rfl; cases h; exact hw rfl
    rw [toLists_flat fs hne (forall₂_notDc h)]; simp
  | node h1 h2 => rw [toLists_nest]; simp

/-- Strings of the levels (list `to_str` at line 146). -/
def levelStrs (sep : Char) (fs : List FVal) : List Str :=
  completeLast sep (match (toLists fs).getLast? with
    | some l => (match l.getLast? with | some f => f.text | none => [])
    | none => []) ((toLists fs).map fun fields => join sep (fields.dropLast.map FVal.text))

theorem toStr_eq {sep : Char} {sch fs} (asPath : Bool) (hc : Schema.Conf sch fs) (hw : sch.WF) :
    toStr sep asPath fs = .ok (join (if asPath then dirSep else sep) (levelStrs sep fs)) := by
  have hne := toLists_ne_nil hc hw
  simp only [toStr, levelStrs]
  cases h : (toLists fs).getLast? with
  | none => simp at h; exact absurd h hne
  | some l => rfl

theorem completeLast_cons (sep : Char) (x p : Str) (ls : List Str) (h : ls ≠ []) :
    completeLast sep x (p :: ls) = p :: completeLast sep x ls := by
  cases ls with
  | nil => exact absurd rfl h
  | cons q r => rfl

theorem levelStrs_nest {sep : Char} {sch gs} (fs : List FVal) (hc : Schema.Conf sch gs) (hw : sch.WF) :
    levelStrs sep (fs ++ [.dc gs]) = join sep (fs.map FVal.text) :: levelStrs sep gs := by
  have hne := toLists_ne_nil hc hw
  simp only [levelStrs, toLists_nest]
  rw [List.getLast?_cons_of_ne_nil hne, List.map_cons, completeLast_cons _ _ _ _ (by simpa using hne)]
  simp

theorem intStr_ne_nil (i : Int) : intStr i ≠ [] := by
  cases i with
  | ofNat n => exact natStr_ne_nil n
  | negSucc n => simp [intStr]

theorem Has.text_nil {t v} (h : PTy.Has t v) (hn : v.text = []) : v = .str [] := by
  cases h with
  | int i => exact absurd hn (intStr_ne_nil i)
  | str s => simp [FVal.text] at hn; simp [hn]

theorem levelStrs_leaf (sep : Char) {ts fs} (h : List.Forall₂ PTy.Has ts fs) (hne : ts ≠ []) :
    (∀ v, fs = [.str [], v] → levelStrs sep fs = [v.text]) ∧
    ((¬ ∃ v, fs = [.str [], v]) → levelStrs sep fs = [join sep (fs.map FVal.text)]) := by
  have hne' : fs ≠ [] := by rintro rfl; cases h; exact hne rfl
  have hl := toLists_flat fs hne' (forall₂_notDc h)
  constructor
  · rintro v rfl
    simp only [levelStrs, hl]
    simp [completeLast, FVal.text, join]
  · intro hx
    rcases List.eq_nil_or_concat fs with rfl | ⟨pre, x, rfl⟩
    · exact absurd rfl hne'
    · rw [List.concat_eq_append] at *
      simp only [levelStrs, hl]
      simp only [List.getLast?_singleton, List.getLast?_append, Option.some_or, List.map_cons, List.map_nil,
        List.dropLast_concat, completeLast]
      by_cases hj : join sep (pre.map FVal.text) = []
      · rw [join_eq_nil_iff] at hj
        rcases hj with hj | hj
        · have : pre = [] := by simpa using hj
          subst this
          simp [join]
        · exfalso
          cases pre with
          | nil => simp at hj
          | cons a as =>
            simp at hj
            obtain ⟨ha, rfl⟩ := hj
            cases h with
            | cons h1 h2 =>
              have := Has.text_nil h1 ha
              subst this
              exact hx ⟨x, rfl⟩
      · have hpre : pre.map FVal.text ≠ [] := by
          intro e; rw [e] at hj; exact hj rfl
        have : (join sep (pre.map FVal.text)).isEmpty = false := by
          cases hjj : join sep (pre.map FVal.text) with
          | nil => exact absurd hjj hj
          | cons _ _ => rfl
        simp only [this, List.map_append, List.map_cons, List.map_nil]
        rw [join_append_singleton _ _ hpre]
        simp

theorem Exceptional.nest_iff (fs gs : List FVal) : Exceptional (fs ++ [.dc gs]) ↔ Exceptional gs := by
  constructor
  · intro h
    generalize hx : fs ++ [.dc gs] = xs at h
    cases h with
    | here hv =>
      exfalso
      have := congrArg List.getLast? hx
      simp at this
      exact hv _ this.symm
    | deeper h =>
      have := congrArg List.getLast? hx
      simp at this
      exact this ▸ h
  · exact .deeper

theorem Exceptional.flat_iff {ts fs} (h : List.Forall₂ PTy.Has ts fs) :
    Exceptional fs ↔ ∃ v, fs = [.str [], v] := by
  constructor
  · intro he
    cases he with
    | here hv => exact ⟨_, rfl⟩
    | deeper _ => exact absurd rfl (forall₂_notDc h (.dc _) (List.mem_append_right _ (List.mem_singleton.2 rfl)) _)
  · rintro ⟨v, rfl⟩
    exact .here (forall₂_notDc h v (by simp))

/-- All plain values, outermost level first. -/
inductive Flat : List FVal → List FVal → Prop
  | flat {fs} : (∀ f ∈ fs, ∀ gs, f ≠ .dc gs) → Flat fs fs
  | nest {fs gs hs} : Flat gs hs → Flat (fs ++ [.dc gs]) (fs ++ hs)

/-- Tokens obtained when splitting the string of an instance. -/
inductive Toks : List FVal → List Str → Prop
  | exc {v} : (∀ gs, v ≠ .dc gs) → Toks [.str [], v] [v.text]
  | flat {fs} : (∀ f ∈ fs, ∀ gs, f ≠ .dc gs) → (¬ ∃ v, fs = [.str [], v]) → Toks fs (fs.map FVal.text)
  | nest {fs gs ss} : Toks gs ss → Toks (fs ++ [.dc gs]) (fs.map FVal.text ++ ss)

theorem PlainOk.clean {sep f} (h : PlainOk sep f) : CleanText sep f.text := by
  cases h <;> assumption

theorem append_singleton_inj {α} {a b : List α} {x y : α} (h : a ++ [x] = b ++ [y]) : a = b ∧ x = y := by
  have := List.append_inj' h rfl
  simpa using this

theorem Valid.nest_inv {sep fs gs} (h : Valid sep (fs ++ [.dc gs])) :
    fs ≠ [] ∧ (∀ f ∈ fs, PlainOk sep f) ∧ Valid sep gs := by
  generalize hx : fs ++ [.dc gs] = xs at h
  cases h with
  | flat h =>
    subst hx
    have := (h (.dc gs) (by simp)).notDc
    simp [FVal.isDc] at this
  | nest h1 h2 h3 =>
    obtain ⟨rfl, e⟩ := append_singleton_inj hx
    cases e
    exact ⟨h1, h2, h3⟩

theorem Valid.flat_inv {sep fs} (h : Valid sep fs) (hn : ∀ f ∈ fs, ∀ gs, f ≠ .dc gs) :
    ∀ f ∈ fs, PlainOk sep f := by
  cases h with
  | flat h => exact h
  | nest h1 h2 h3 => exact absurd rfl (hn (.dc _) (List.mem_append_right _ (List.mem_singleton.2 rfl)) _)

theorem levelStrs_ne_nil {sep : Char} {sch fs} (hc : Schema.Conf sch fs) (hw : sch.WF) :
    levelStrs sep fs ≠ [] := by
  cases hc with
  | leaf h =>
    by_cases hx : ∃ v, fs = [.str [], v]
    · obtain ⟨v, rfl⟩ := hx
      rw [(levelStrs_leaf sep h hw).1 v rfl]; simp
    · rw [(levelStrs_leaf sep h hw).2 hx]; simp
  | node h1 h2 => rw [levelStrs_nest _ h2 hw.2]; simp

def isSep (sep : Char) (c : Char) : Bool := c == dirSep || c == sep

theorem clean_isSep {sep : Char} {s : Str} (h : CleanText sep s) : ∀ c ∈ s, isSep sep c = false := by
  intro c hc
  simp only [isSep, Bool.or_eq_false_iff, beq_eq_false_iff_ne, ne_eq]
  exact ⟨fun e => h.2.1 (by rw [← show dirSep = '/' from rfl, ← e]; exact hc), fun e => h.1 (e ▸ hc)⟩

/-- Splitting the string of a valid conforming instance recovers the tokens. -/
theorem levelStrs_toks {sep : Char} {sch fs} (hc : Schema.Conf sch fs) (hw : sch.WF) (hv : Valid sep fs) :
    Toks fs ((levelStrs sep fs).flatMap (split (isSep sep))) := by
  induction hc with
  | leaf h =>
    rename_i ts fs
    have hn := forall₂_notDc h
    have hp := hv.flat_inv hn
    by_cases hx : ∃ v, fs = [.str [], v]
    · obtain ⟨v, rfl⟩ := hx
      rw [(levelStrs_leaf sep h hw).1 v rfl]
      have hcl := clean_isSep (hp v (by simp)).clean
      simp only [List.flatMap_cons, List.flatMap_nil, List.append_nil, split_clean _ _ hcl]
      exact .exc (hn v (by simp))
    · rw [(levelStrs_leaf sep h hw).2 hx]
      have hne : fs.map FVal.text ≠ [] := by
        intro e; simp at e; subst e; cases h; exact hw rfl
      simp only [List.flatMap_cons, List.flatMap_nil, List.append_nil]
      rw [split_join _ sep (by simp [isSep]) _ hne, flatMap_split_clean]
      · exact .flat hn hx
      · intro s hs
        obtain ⟨f, hf, rfl⟩ := List.mem_map.1 hs
        exact clean_isSep (hp f hf).clean
  | node h1 h2 ih =>
    rename_i ts sub fs gs
    obtain ⟨hne, hp, hv'⟩ := hv.nest_inv
    rw [levelStrs_nest _ h2 hw.2, List.flatMap_cons]
    have hne' : fs.map FVal.text ≠ [] := by simpa using hne
    rw [split_join _ sep (by simp [isSep]) _ hne', flatMap_split_clean]
    · exact .nest (ih hw.2 hv')
    · intro s hs
      obtain ⟨f, hf, rfl⟩ := List.mem_map.1 hs
      exact clean_isSep (hp f hf).clean

/-- Splitting `str(key)` or `key.to_path`. -/
theorem split_toStr {sep : Char} {sch fs} (asPath : Bool) {s : Str} (hc : Schema.Conf sch fs) (hw : sch.WF)
    (hv : Valid sep fs) (hs : toStr sep asPath fs = .ok s) :
    Toks fs (split (isSep sep) s) := by
  rw [toStr_eq asPath hc hw] at hs
  cases hs
  rw [split_join _ _ (by cases asPath <;> simp [isSep]) _ (levelStrs_ne_nil hc hw)]
  exact levelStrs_toks hc hw hv

/-! ### Reading back -/

theorem sliceTo_append {α} (a b : List α) (h : b ≠ []) : sliceTo b.length (a ++ b) = a := by
  have : b.length ≠ 0 := by simpa using h
  simp [sliceTo, this]

theorem sliceFrom_append {α} (a b : List α) (h : b ≠ []) : sliceFrom b.length (a ++ b) = b := by
  have : b.length ≠ 0 := by simpa using h
  simp [sliceFrom, this]

/-- First part of `fromStr` then loop, with outer levels `outer`. -/
def runFrom (sch : Schema) (outer : List (List PTy)) (strs : List Str) : Option FVal := do
  let ts := sch.levels.2
  let args ← parseFields ts (sliceFrom ts.length strs)
  fromStrLoop (sch.levels.1.reverse ++ outer) strs ts.length args ts.length

theorem fromStr_eq (sep : Char) (sch : Schema) (s : Str) :
    fromStr sep sch s = runFrom sch [] (split (isSep sep) s) := by
  simp only [fromStr, runFrom, List.append_nil]
  rfl

theorem Toks.flat_eq {fs ss} (h : Toks fs ss) (hn : ∀ f ∈ fs, ∀ gs, f ≠ .dc gs)
    (hx : ¬ ∃ v, fs = [.str [], v]) : ss = fs.map FVal.text := by
  cases h with
  | exc _ => exact absurd ⟨_, rfl⟩ hx
  | flat _ _ => rfl
  | nest _ => exact absurd rfl (hn (.dc _) (List.mem_append_right _ (List.mem_singleton.2 rfl)) _)

theorem Toks.exc_eq {v ss} (h : Toks [.str [], v] ss) (hv : ∀ gs, v ≠ .dc gs) : ss = [v.text] := by
  generalize hx : [FVal.str [], v] = xs at h
  cases h with
  | exc _ => simp at hx; rw [hx]
  | flat _ h2 => exact absurd ⟨v, hx.symm⟩ h2
  | nest _ =>
    have := congrArg List.getLast? hx
    simp at this
    exact absurd this (hv _)

theorem Toks.nest_eq {fs gs ss} (h : Toks (fs ++ [.dc gs]) ss) :
    ∃ tt, Toks gs tt ∧ ss = fs.map FVal.text ++ tt := by
  generalize hx : fs ++ [.dc gs] = xs at h
  cases h with
  | exc hv =>
    have := congrArg List.getLast? hx
    simp at this
    exact absurd this.symm (hv _)
  | flat hn _ => subst hx; exact absurd rfl (hn (.dc gs) (by simp) _)
  | nest h =>
    obtain ⟨rfl, e⟩ := append_singleton_inj hx
    cases e
    exact ⟨_, h, rfl⟩

theorem runFrom_toks {sch gs ss} (hc : Schema.Conf sch gs) (hw : sch.WF) (hx : ¬ Exceptional gs)
    (ht : Toks gs ss) (outer : List (List PTy)) (P : List Str) :
    ∃ S n, sliceTo n S = P ∧ runFrom sch outer (P ++ ss) = fromStrLoop outer S n gs gs.length := by
  induction hc generalizing ss outer P with
  | leaf h =>
    rename_i ts fs
    rw [Exceptional.flat_iff h] at hx
    have := ht.flat_eq (forall₂_notDc h) hx
    subst this
    have hlen := h.length_eq
    have hne : fs.map FVal.text ≠ [] := by
      intro e; simp at e; subst e; cases h; exact hw rfl
    have hl : ts.length = (fs.map FVal.text).length := by simp [hlen]
    refine ⟨P ++ fs.map FVal.text, ts.length, ?_, ?_⟩
    · rw [hl]; exact sliceTo_append _ _ hne
    · simp only [runFrom, Schema.levels, List.reverse_nil, List.nil_append]
      rw [hl, sliceFrom_append _ _ hne, parseFields_text h]
      simp
  | node h1 h2 ih =>
    rename_i ts sub fs hs
    rw [Exceptional.nest_iff] at hx
    obtain ⟨tt, htt, rfl⟩ := ht.nest_eq
    obtain ⟨S, n, hS, hr⟩ := ih hw.2 hx htt (ts :: outer) (P ++ fs.map FVal.text)
    have hlen := h1.length_eq
    have hne : fs.map FVal.text ≠ [] := by
      intro e; simp at e; subst e; cases h1; exact hw.1 rfl
    have hl : ts.length = (fs.map FVal.text).length := by simp [hlen]
    refine ⟨P ++ fs.map FVal.text, ts.length, ?_, ?_⟩
    · rw [hl]; exact sliceTo_append _ _ hne
    · have e : runFrom (.node ts sub) outer (P ++ (fs.map FVal.text ++ tt)) =
          runFrom sub (ts :: outer) ((P ++ fs.map FVal.text) ++ tt) := by
        simp [runFrom, Schema.levels]
      rw [e, hr]
      simp only [fromStrLoop, hS]
      rw [hl, sliceFrom_append _ _ hne, parseFields_text h1]
      simp [construct]

theorem parseFields_length {ts ss fs} (h : parseFields ts ss = some fs) :
    fs.length = min ts.length ss.length := by
  induction ts generalizing ss fs with
  | nil => cases ss <;> simp [parseFields] at h <;> subst h <;> simp
  | cons t ts ih =>
    cases ss with
    | nil => simp [parseFields] at h; subst h; simp
    | cons s ss =>
      simp only [parseFields, Option.bind_eq_bind] at h
      cases h1 : t.parse s with
      | none => simp [h1] at h
      | some v =>
        cases h2 : parseFields ts ss with
        | none => simp [h1, h2] at h
        | some vs =>
          simp [h1, h2] at h
          subst h
          simp [ih h2]

theorem sliceFrom_length {α} (n : Nat) (hn : n ≠ 0) (l : List α) : (sliceFrom n l).length = min n l.length := by
  simp [sliceFrom, hn]; omega

theorem sliceTo_length {α} (n : Nat) (hn : n ≠ 0) (l : List α) : (sliceTo n l).length = l.length - n := by
  simp [sliceTo, hn]

/-- Reading succeeds only if there are enough tokens. -/
theorem fromStrLoop_count (tss : List (List PTy)) (hts : ∀ ts ∈ tss, ts ≠ []) (S : List Str) (n : Nat)
    (hn : n ≠ 0) (hS : n ≤ S.length) (args : List FVal) (arity : Nat) (v : FVal)
    (h : fromStrLoop tss S n args arity = some v) :
    n + (tss.map List.length).sum ≤ S.length := by
  induction tss generalizing S n args arity with
  | nil => simpa using hS
  | cons ts rest ih =>
    simp only [List.mem_cons, forall_eq_or_imp] at hts
    have htl : ts.length ≠ 0 := by simpa using hts.1
    simp only [fromStrLoop] at h
    cases h1 : parseFields ts (sliceFrom ts.length (sliceTo n S)) with
    | none => simp [h1] at h
    | some fs =>
      cases h2 : construct arity args with
      | none => simp [h1, h2] at h
      | some sub =>
        simp only [h1, h2, Option.bind_eq_bind, Option.bind_some] at h
        have hl := parseFields_length h1
        rw [sliceFrom_length _ htl, sliceTo_length _ hn] at hl
        have hfl : fs.length = ts.length := by
          cases rest with
          | nil =>
            simp only [fromStrLoop, construct] at h
            split at h
            · rename_i e; simpa using e
            · exact absurd h (by simp)
          | cons ts' rest' =>
            simp only [fromStrLoop] at h
            cases h3 : parseFields ts' (sliceFrom ts'.length (sliceTo ts.length (sliceTo n S))) with
            | none => simp [h3] at h
            | some fs' =>
              simp only [h3, Option.bind_eq_bind, Option.bind_some] at h
              cases h4 : construct (ts.length + 1) (fs ++ [sub]) with
              | none => simp [h4] at h
              | some _ =>
                simp only [construct] at h4
                split at h4
                · rename_i e; simpa using e
                · exact absurd h4 (by simp)
        have hle : ts.length ≤ (sliceTo n S).length := by rw [sliceTo_length _ hn]; omega
        have := ih hts.2 (sliceTo n S) ts.length htl hle _ _ h
        rw [sliceTo_length _ hn] at this
        simp only [List.map_cons, List.sum_cons]
        omega

def Schema.size : Schema → Nat
  | .leaf ts => ts.length
  | .node ts sub => ts.length + sub.size

theorem Schema.size_levels (sch : Schema) :
    sch.size = sch.levels.2.length + (sch.levels.1.map List.length).sum := by
  induction sch with
  | leaf ts => simp [Schema.size, Schema.levels]
  | node ts sub ih => simp [Schema.size, Schema.levels, ih]; omega

theorem Schema.WF.levels {sch : Schema} (h : sch.WF) :
    sch.levels.2 ≠ [] ∧ ∀ ts ∈ sch.levels.1, ts ≠ [] := by
  induction sch with
  | leaf ts => exact ⟨h, by simp [Schema.levels]⟩
  | node ts sub ih =>
    obtain ⟨h1, h2⟩ := ih h.2
    refine ⟨h1, ?_⟩
    simp only [Schema.levels, List.mem_cons, forall_eq_or_imp]
    exact ⟨h.1, h2⟩

theorem sum_reverse (l : List Nat) : l.reverse.sum = l.sum := by
  induction l with
  | nil => rfl
  | cons a l ih => simp [ih]; omega

theorem fromStr_count {sep : Char} {sch : Schema} {s : Str} {v : FVal} (hw : sch.WF)
    (h : fromStr sep sch s = some v) : sch.size ≤ (split (isSep sep) s).length := by
  rw [fromStr_eq] at h
  obtain ⟨hw1, hw2⟩ := hw.levels
  have hn : sch.levels.2.length ≠ 0 := by simpa using hw1
  simp only [runFrom, List.append_nil] at h
  cases h1 : parseFields sch.levels.2 (sliceFrom sch.levels.2.length (split (isSep sep) s)) with
  | none => simp [h1] at h
  | some args =>
    simp only [h1, Option.bind_eq_bind, Option.bind_some] at h
    have hl := parseFields_length h1
    rw [sliceFrom_length _ hn] at hl
    have harg : args.length = sch.levels.2.length := by
      cases hr : sch.levels.1.reverse with
      | nil =>
        rw [hr] at h
        simp only [fromStrLoop, construct] at h
        split at h
        · assumption
        · exact absurd h (by simp)
      | cons ts' rest' =>
        rw [hr] at h
        simp only [fromStrLoop] at h
        cases h3 : parseFields ts' (sliceFrom ts'.length (sliceTo sch.levels.2.length (split (isSep sep) s))) with
        | none => simp [h3] at h
        | some fs' =>
          simp only [h3, Option.bind_eq_bind, Option.bind_some] at h
          cases h4 : construct sch.levels.2.length args with
          | none => simp [h4] at h
          | some _ =>
            simp only [construct] at h4
            split at h4
            · assumption
            · exact absurd h4 (by simp)
    have := fromStrLoop_count _ (by simpa using hw2) _ _ hn (by omega) _ _ _ h
    rw [Schema.size_levels]
    rw [List.map_reverse, sum_reverse] at this
    exact this

theorem Toks.length_exc {sch fs ss} (hc : Schema.Conf sch fs) (hx : Exceptional fs) (ht : Toks fs ss) :
    ss.length + 1 = sch.size := by
  induction hc generalizing ss with
  | leaf h =>
    rename_i ts fs
    obtain ⟨v, rfl⟩ := (Exceptional.flat_iff h).1 hx
    have hl := h.length_eq
    rw [ht.exc_eq (forall₂_notDc h v (by simp))]
    simp [Schema.size, hl]
  | node h1 h2 ih =>
    rename_i ts sub fs gs
    rw [Exceptional.nest_iff] at hx
    obtain ⟨tt, htt, rfl⟩ := ht.nest_eq
    have := ih hx htt
    simp [Schema.size, h1.length_eq]
    omega

theorem Toks.length_reg {sch fs ss} (hc : Schema.Conf sch fs) (hx : ¬ Exceptional fs) (ht : Toks fs ss) :
    ss.length = sch.size := by
  induction hc generalizing ss with
  | leaf h =>
    rw [Exceptional.flat_iff h] at hx
    rw [ht.flat_eq (forall₂_notDc h) hx]
    simp [Schema.size, h.length_eq]
  | node h1 h2 ih =>
    rw [Exceptional.nest_iff] at hx
    obtain ⟨tt, htt, rfl⟩ := ht.nest_eq
    simp [Schema.size, h1.length_eq, ih hx htt]

theorem forall₂_text_inj {ts fs gs} (hf : List.Forall₂ PTy.Has ts fs) (hg : List.Forall₂ PTy.Has ts gs)
    (h : fs.map FVal.text = gs.map FVal.text) : fs = gs := by
  have := parseFields_text hf
  rw [h, parseFields_text hg] at this
  exact (Option.some.inj this).symm

theorem Toks.inj_exc {sch fs gs ss} (hf : Schema.Conf sch fs) (hg : Schema.Conf sch gs)
    (hxf : Exceptional fs) (hxg : Exceptional gs) (h1 : Toks fs ss) (h2 : Toks gs ss) : fs = gs := by
  induction hf generalizing gs ss with
  | leaf h =>
    rename_i ts fs
    cases hg with
    | leaf h' =>
      obtain ⟨v, rfl⟩ := (Exceptional.flat_iff h).1 hxf
      obtain ⟨w, rfl⟩ := (Exceptional.flat_iff h').1 hxg
      have e1 := h1.exc_eq (forall₂_notDc h v (by simp))
      have e2 := h2.exc_eq (forall₂_notDc h' w (by simp))
      rw [e1] at e2
      apply forall₂_text_inj h h'
      simpa using e2
  | node h1' h2' ih =>
    rename_i ts sub fs hs
    cases hg with
    | node g1 g2 =>
      rename_i fs' hs'
      rw [Exceptional.nest_iff] at hxf hxg
      obtain ⟨t1, ht1, rfl⟩ := h1.nest_eq
      obtain ⟨t2, ht2, e⟩ := h2.nest_eq
      have hl : (fs.map FVal.text).length = (fs'.map FVal.text).length := by
        simp [← h1'.length_eq, ← g1.length_eq]
      obtain ⟨e1, e2⟩ := List.append_inj e hl
      subst e2
      rw [forall₂_text_inj h1' g1 e1, ih g2 hxf hxg ht1 ht2]

end Oups.Indexer
