import Verif.Model.IndexerSep
import Verif.Props.Indexer
/-! Property C62: which fields separators are usable. -/
set_option linter.unusedSimpArgs false
namespace Oups.Indexer

/-! ### One character: the model of C01 to C06 is the general one -/

theorem occurs_one (c : Char) (s : Str) : occurs [c] s = s.any (fun x => x == c) := by
  induction s with
  | nil => rfl
  | cons x r ih =>
    rw [occurs, ih]
    simp only [List.isPrefixOf, Bool.and_true, List.any_cons]
    congr 1
    rw [Bool.eq_iff_iff, beq_iff_eq, beq_iff_eq]
    exact eq_comm

theorem any_or {α : Type} (p q : α → Bool) (l : List α) :
    l.any (fun x => p x || q x) = (l.any p || l.any q) := by
  induction l with
  | nil => rfl
  | cons x r ih => simp only [List.any_cons, ih]; cases p x <;> cases q x <;> simp

theorem forbidden_one (sep : Char) (s : Str) :
    forbidden [sep] s = s.any (fun c => c == sep || c == dirSep || c == '.') := by
  simp only [forbidden, occurs_one, any_or]

theorem checkFieldsS_one (sep : Char) (n : Nat) : ∀ (fs : List FVal) (i : Nat),
    checkFieldsS [sep] n i fs = checkFields sep n i fs := by
  intro fs
  induction fs with
  | nil => intro i; rfl
  | cons f fs ih =>
    intro i
    simp only [checkFieldsS, checkFields, checkFieldS, checkField, ih, forbidden_one]

theorem checkLevelsS_one (sep : Char) (ls : List (List FVal)) : checkLevelsS [sep] ls = checkLevels sep ls := by
  induction ls with
  | nil => rfl
  | cons fs ls ih => simp only [checkLevelsS, checkLevels, ih, checkFieldsS_one]

theorem joinS_one (c : Char) : ∀ ls : List Str, joinS [c] ls = join c ls
  | [] => rfl
  | [_] => rfl
  | p :: q :: r => by simp [joinS, join, joinS_one c (q :: r)]

theorem completeLastS_one (sep : Char) (last : Str) : ∀ ls : List Str,
    completeLastS [sep] last ls = completeLast sep last ls
  | [] => rfl
  | [_] => by simp [completeLastS, completeLast]
  | p :: q :: r => by simp [completeLastS, completeLast, completeLastS_one sep last (q :: r)]

/-- **C62** With a separator of one character, validation and writing as a string are those of C01 to C06. -/
theorem C62_one_character (sep : Char) (asPath : Bool) (fs : List FVal) :
    validateS [sep] fs = validate sep fs ∧ toStrS [sep] asPath fs = toStr sep asPath fs := by
  constructor
  · exact checkLevelsS_one sep _
  · simp only [toStrS, toStr]
    have : (fun fields : List FVal => joinS [sep] (fields.dropLast.map FVal.text)) =
        fun fields => join sep (fields.dropLast.map FVal.text) := funext fun f => joinS_one _ _
    rw [this]
    cases (toLists fs).getLast? with
    | none => rfl
    | some l => cases asPath <;> simp only [completeLastS_one, joinS_one, if_true, Bool.false_eq_true, if_false] <;> rfl

/-! ### Separators read back -/

/-- Neither an ASCII letter nor an ASCII digit. -/
def PlainSep (c : Char) : Prop := c.isAlphanum = false

instance (c : Char) : Decidable (PlainSep c) := inferInstanceAs (Decidable (_ = _))

theorem isDigit_eq (c : Char) : isDigit c = c.isDigit := by
  rw [Bool.eq_iff_iff]
  simp only [isDigit, Char.isDigit, Bool.and_eq_true, decide_eq_true_iff, ge_iff_le, UInt32.le_iff_toNat_le]
  exact Iff.rfl

theorem isAsciiLetter_eq (c : Char) : isAsciiLetter c = c.isAlpha := by
  rw [Bool.eq_iff_iff]
  simp only [isAsciiLetter, Char.isAlpha, Char.isUpper, Char.isLower, Bool.or_eq_true, Bool.and_eq_true,
    decide_eq_true_iff, ge_iff_le, UInt32.le_iff_toNat_le]
  exact Iff.rfl

theorem PlainSep.iff (c : Char) : PlainSep c ↔ isDigit c = false ∧ isAsciiLetter c = false := by
  rw [PlainSep, Char.isAlphanum, isDigit_eq, isAsciiLetter_eq, Bool.or_eq_false_iff, and_comm]

theorem reEscape_plain {c : Char} (h : PlainSep c) : reEscape c = .chars (fun x => x == c) := by
  rw [PlainSep.iff] at h
  have hne : ∀ d : Char, isDigit d = true ∨ isAsciiLetter d = true → c ≠ d := by
    rintro d hd rfl
    rcases hd with hd | hd
    · rw [h.1] at hd; exact absurd hd (by decide)
    · rw [h.2] at hd; exact absurd hd (by decide)
  simp only [reEscape, h.1, h.2, Bool.or_false, Bool.false_eq_true, if_false]
  simp [hne 'A' (by decide), hne 'b' (by decide), hne 'B' (by decide), hne 'Z' (by decide), hne 'd' (by decide),
    hne 'D' (by decide), hne 's' (by decide), hne 'S' (by decide), hne 'w' (by decide), hne 'W' (by decide),
    hne 'a' (by decide), hne 'f' (by decide), hne 'n' (by decide), hne 'r' (by decide), hne 't' (by decide),
    hne 'v' (by decide), hne '0' (by decide)]

/-- **C62** Any character that is neither an ASCII letter nor an ASCII digit is read back literally, so that C01 to
C06 hold with it. -/
theorem C62_literal {sep : Char} (h : PlainSep sep) (sch : Schema) (s : Str) :
    fromStrRe sep sch s = .ok (fromStr sep sch s) := by
  simp only [fromStrRe, reEscape_plain h]
  rfl

/-- **C62** Keys are then recovered from their paths and from their strings. -/
theorem C62_roundtrip {sep : Char} (h : PlainSep sep) {sch : Schema} {fs : List FVal} (asPath : Bool)
    (hw : sch.WF) (hc : sch.Conf fs) (hv : validateS [sep] fs = .ok ()) (hx : ¬ Exceptional fs) :
    ∃ p, toStrS [sep] asPath fs = .ok p ∧ fromStrRe sep sch p = .ok (some (.dc fs)) := by
  rw [(C62_one_character sep asPath fs).1] at hv
  obtain ⟨p, h1, h2⟩ := roundtrip asPath hw hc hv hx
  exact ⟨p, by rw [(C62_one_character sep asPath fs).2, h1], by rw [C62_literal h, h2]⟩

example : PlainSep '-' ∧ PlainSep '_' ∧ PlainSep '|' ∧ PlainSep '\\' ∧ PlainSep '$' := by decide

example : ∃ p, toStrS ['_'] true key2 = .ok p ∧ fromStrRe '_' sch2 p = .ok (some (.dc key2)) :=
  C62_roundtrip (by decide) true key2_wf key2_conf
    (by rw [(C62_one_character _ true _).1]; exact validate_complete _ _ key2_valid) key2_not_exceptional

/-- Letters and digits of which the escape sequence is refused by `re`. -/
def RefusedSep (c : Char) : Prop :=
  c.isAlphanum = true ∧ c ∉ "AbBZdDsSwWafnrtv0".toList

/-- **C62** With any other letter or digit but those having a meaning in regular expressions, keys can be made and
written, but reading back any directory whatsoever raises an exception. -/
theorem C62_refused {sep : Char} (h : RefusedSep sep) (sch : Schema) (s : Str) :
    fromStrRe sep sch s = .error .reError := by
  obtain ⟨h1, h2⟩ := h
  have h3 : "AbBZdDsSwWafnrtv0".toList =
      ['A', 'b', 'B', 'Z', 'd', 'D', 's', 'S', 'w', 'W', 'a', 'f', 'n', 'r', 't', 'v', '0'] := by rfl
  rw [h3] at h2
  simp only [List.mem_cons, List.not_mem_nil, or_false, not_or] at h2
  obtain ⟨a1, a2, a3, a4, a5, a6, a7, a8, a9, a10, a11, a12, a13, a14, a15, a16, a17⟩ := h2
  have h4 : (isDigit sep || isAsciiLetter sep) = true := by
    rw [isDigit_eq, isAsciiLetter_eq, Bool.or_comm]; exact h1
  have : reEscape sep = .bad := by
    simp [reEscape, a1, a2, a3, a4, a5, a6, a7, a8, a9, a10, a11, a12, a13, a14, a15, a16, a17, h4]
  simp only [fromStrRe, this]

example : RefusedSep 'x' ∧ RefusedSep 'E' ∧ RefusedSep '1' := by
  simp [RefusedSep]

/-- **C62** With a letter or digit of which the escape sequence stands for other characters, such as 'n' or 'd', a key
of several fields in which these characters do not appear is made and written, but is not read back: the path is
ignored. -/
theorem C62_not_read {sep : Char} {p : Char → Bool} (h : reEscape sep = .chars p) (hs : p sep = false)
    (hd : sep ≠ dirSep) {ts : List PTy} {fs : List FVal} (hc : List.Forall₂ PTy.Has ts fs) (h2 : 2 ≤ ts.length)
    (hv : validate sep fs = .ok ()) (hp : ∀ f ∈ fs, ∀ c ∈ f.text, p c = false) :
    ∃ path, toStr sep true fs = .ok path ∧ fromStrRe sep (.leaf ts) path = .ok none := by
  have hw : (Schema.leaf ts).WF := by intro e; subst e; simp at h2
  refine ⟨_, toStr_eq true (.leaf hc) hw, ?_⟩
  have hlen := hc.length_eq
  have hcl : ∀ f ∈ fs, ∀ c ∈ f.text, (c == dirSep || p c) = false := by
    intro f hf c hcm
    have := validate_sound sep fs hv
    rw [Bool.or_eq_false_iff]
    refine ⟨?_, hp f hf c hcm⟩
    have hok : PlainOk sep f := by
      cases this with
      | flat h => exact h f hf
      | nest h1 h2 h3 => exact absurd rfl (forall₂_notDc hc _ (List.mem_append_right _ (List.mem_singleton_self _)) _)
    have := hok.clean
    simp only [beq_eq_false_iff_ne, ne_eq]
    intro e; subst e; exact this.2.1 hcm
  have key : split (fun c => c == dirSep || p c) (join dirSep (levelStrs sep fs)) =
      [join dirSep (levelStrs sep fs)] := by
    apply split_clean
    intro c hcm
    have hsep : (sep == dirSep || p sep) = false := by simp [hs, hd]
    by_cases hx : ∃ v, fs = [.str [], v]
    · obtain ⟨v, hx⟩ := hx
      rw [(levelStrs_leaf sep hc hw).1 v hx] at hcm
      exact hcl v (by rw [hx]; simp) c hcm
    · rw [(levelStrs_leaf sep hc hw).2 hx] at hcm
      rcases mem_join (ls := fs.map FVal.text) hcm with rfl | ⟨s, hs', hcs⟩
      · exact hsep
      · obtain ⟨f, hf, rfl⟩ := List.mem_map.1 hs'
        exact hcl f hf c hcs
  simp only [fromStrRe, h]
  rw [show (if True then dirSep else sep) = dirSep from if_pos trivial, key]
  simp only [fromTokens, Schema.levels, List.reverse_nil, bind, Option.bind]
  congr 1
  cases hpf : parseFields ts (sliceFrom ts.length [join dirSep (levelStrs sep fs)]) with
  | none => rfl
  | some vs =>
    have := parseFields_length hpf
    have h3 : (sliceFrom ts.length [join dirSep (levelStrs sep fs)]).length ≤ 1 := by
      unfold sliceFrom; split <;> simp
    simp only [fromStrLoop, construct]
    rw [if_neg (by omega)]

example : ∃ path, toStr 'n' true [.str ['a'], .int 7] = .ok path ∧ fromStrRe 'n' (.leaf [.str, .int]) path = .ok none :=
  C62_not_read (p := fun x => x.toNat == 10) rfl rfl (by decide) (.cons (.str _) (.cons (.int _) .nil)) (by simp)
    (validate_complete _ _ (.flat (by
      simp only [List.mem_cons, List.not_mem_nil, or_false, forall_eq_or_imp, forall_eq]
      exact ⟨.str (by simp [CleanText]), .int (by rw [show (FVal.int 7).text = ['7'] by
        simp [FVal.text, intStr, natStr, digitChar]]; simp [CleanText])⟩)))
    (by
      simp only [List.mem_cons, List.not_mem_nil, or_false, forall_eq_or_imp, forall_eq]
      refine ⟨by simp [FVal.text], ?_⟩
      rw [show (FVal.int 7).text = ['7'] by simp [FVal.text, intStr, natStr, digitChar]]
      simp)

/-- Escape sequences standing for characters, on two fields. -/
def ReadsTwo (sep : Char) (path : Str) (a b : Str) : Prop :=
  fromStrRe sep (.leaf [.str, .str]) path = .ok (some (.dc [.str a, .str b]))

/-- Digits; others than digits; white space; others than white space; characters of words; others than characters of
words; control characters. -/
example : ReadsTwo 'd' "xd5-y".toList ['x', 'd'] ['-', 'y'] ∧ ReadsTwo 'D' "12-3".toList ['1', '2'] ['3'] ∧
    ReadsTwo 's' "xs y".toList ['x', 's'] ['y'] ∧ ReadsTwo 'S' "  _ ".toList [' ', ' '] [' '] ∧
    ReadsTwo 'w' "--w-".toList ['-', '-'] ['-'] ∧ ReadsTwo 'W' "x_W-8".toList ['x', '_', 'W'] ['8'] ∧
    ReadsTwo 'a' ['x', Char.ofNat 7, 'y'] ['x'] ['y'] ∧ ReadsTwo 'f' ['x', Char.ofNat 12, 'y'] ['x'] ['y'] ∧
    ReadsTwo 'n' ['x', Char.ofNat 10, 'y'] ['x'] ['y'] ∧ ReadsTwo 'r' ['x', Char.ofNat 13, 'y'] ['x'] ['y'] ∧
    ReadsTwo 't' ['x', Char.ofNat 9, 'y'] ['x'] ['y'] ∧ ReadsTwo 'v' ['x', Char.ofNat 11, 'y'] ['x'] ['y'] ∧
    ReadsTwo '0' ['x', Char.ofNat 0, 'y'] ['x'] ['y'] := by
  refine ⟨?_, ?_, ?_, ?_, ?_, ?_, ?_, ?_, ?_, ?_, ?_, ?_, ?_⟩ <;> rfl

/-! ### Escape sequences matching the empty string -/

theorem splitAt_start : ∀ (s : Str) (b : Char), dirSep ∉ s →
    splitAt (fun before _ => before.isNone) (some b) s = [s] := by
  intro s
  induction s with
  | nil => intro b _; rfl
  | cons c cs ih =>
    intro b h
    simp only [List.mem_cons, not_or] at h
    have h1 : (c == dirSep) = false := by simpa using Ne.symm h.1
    simp [splitAt, h1, ih c h.2]

theorem splitAt_end : ∀ (s : Str) (b : Option Char), dirSep ∉ s →
    splitAt (fun _ after => after.isNone) b s = [s, []] := by
  intro s
  induction s with
  | nil => intro b _; rfl
  | cons c cs ih =>
    intro b h
    simp only [List.mem_cons, not_or] at h
    have h1 : (c == dirSep) = false := by simpa using Ne.symm h.1
    simp [splitAt, h1, ih (some c) h.2]

theorem not_slash {c : Char} (h : isWord c = true) : (c == dirSep) = false := by
  by_contra hc
  simp only [Bool.not_eq_false, beq_iff_eq] at hc
  subst hc
  exact absurd h (by decide)

theorem isWordAt_some (c : Char) : isWordAt (some c) = isWord c := rfl

theorem isWordAt_none : isWordAt none = false := rfl

theorem splitAt_boundary : ∀ (s : Str) (b : Char), isWord b = true → (∀ c ∈ s, isWord c = true) →
    splitAt (fun before after => isWordAt before != isWordAt after) (some b) s = [s, []] := by
  intro s
  induction s with
  | nil => intro b hb _; simp [splitAt, isWordAt, hb]
  | cons c cs ih =>
    intro b hb h
    simp only [List.mem_cons, forall_eq_or_imp] at h
    simp [splitAt, not_slash h.1, ih c h.1 h.2, isWordAt_some, hb, h.1]

theorem splitAt_inner : ∀ (s : Str) (b : Char), isWord b = true → (∀ c ∈ s, isWord c = true) →
    splitAt (fun before after => (before.isSome || after.isSome) && isWordAt before == isWordAt after) (some b) s =
      [] :: s.map (fun c => [c]) ∨ s = [] := by
  intro s
  induction s with
  | nil => intro b hb _; exact .inr rfl
  | cons c cs ih =>
    intro b hb h
    simp only [List.mem_cons, forall_eq_or_imp] at h
    left
    rcases ih c h.1 h.2 with h2 | h2
    · simp [splitAt, not_slash h.1, h2, isWordAt_some, hb, h.1]
    · subst h2
      simp [splitAt, not_slash h.1, isWordAt_some, isWordAt_none, hb, h.1]

/-- Characters of words: ASCII letters and digits, and `_`. -/
def WordStr (s : Str) : Prop := ∀ c ∈ s, c.isAlphanum = true ∨ c = '_'

theorem WordStr.isWord {s : Str} (h : WordStr s) : ∀ c ∈ s, isWord c = true := by
  intro c hc
  have h4 : (isAsciiLetter c || isDigit c) = c.isAlphanum := by rw [isDigit_eq, isAsciiLetter_eq]; rfl
  rcases h c hc with h1 | h1
  · simp [Indexer.isWord, h4, h1]
  · simp [Indexer.isWord, h1]

theorem fromTokens_two (pre : List Str) (y z : Str) :
    fromTokens (.leaf [.str, .str]) (pre ++ [y, z]) = some (.dc [.str y, .str z]) := by
  have : sliceFrom 2 (pre ++ [y, z]) = [y, z] := by simp [sliceFrom]
  simp only [fromTokens, Schema.levels, List.length_cons, List.length_nil, this]
  rfl

/-- **C62** fails for the separators `A`, `b`, `B` and `Z`: a key of two strings, the first one not being empty, is
made and written, and its path is read as another key. -/
theorem C62_misread_fails {sep : Char} (hs : sep ∈ ['A', 'b', 'B', 'Z']) {a b : Str} (ha : WordStr a) (hb : WordStr b)
    (hna : sep ∉ a) (hnb : sep ∉ b) (hne : a ≠ []) :
    validate sep [.str a, .str b] = .ok () ∧
    ∃ path k, toStr sep true [.str a, .str b] = .ok path ∧
      fromStrRe sep (.leaf [.str, .str]) path = .ok (some k) ∧ k ≠ .dc [.str a, .str b] := by
  have hsl : ∀ {s : Str}, WordStr s → dirSep ∉ s := fun h hm => by
    have := not_slash (h.isWord _ hm); simp at this
  have hdot : ∀ {s : Str}, WordStr s → '.' ∉ s := fun h hm => absurd (h.isWord _ hm) (by decide)
  have hv : validate sep [.str a, .str b] = .ok () := validate_complete _ _ (.flat (by
    simp only [List.mem_cons, List.not_mem_nil, or_false, forall_eq_or_imp, forall_eq]
    exact ⟨.str ⟨hna, hsl ha, hdot ha⟩, .str ⟨hnb, hsl hb, hdot hb⟩⟩))
  have hc : List.Forall₂ PTy.Has [.str, .str] [.str a, .str b] := .cons (.str _) (.cons (.str _) .nil)
  have hw : (Schema.leaf [.str, .str]).WF := by intro e; simp at e
  have hp : toStr sep true [.str a, .str b] = .ok (a ++ sep :: b) := by
    rw [toStr_eq true (.leaf hc) hw, (levelStrs_leaf sep hc hw).2 (by rintro ⟨v, h⟩; simp at h; exact hne h.1)]
    simp [join, FVal.text]
  have hword : ∀ c ∈ a ++ sep :: b, isWord c = true := by
    intro c hcm
    simp only [List.mem_append, List.mem_cons] at hcm
    rcases hcm with h | h | h
    · exact ha.isWord _ h
    · subst h
      simp only [List.mem_cons, List.not_mem_nil, or_false] at hs
      rcases hs with rfl | rfl | rfl | rfl <;> decide
    · exact hb.isWord _ h
  have hsl2 : dirSep ∉ a ++ sep :: b := fun hm => by have := not_slash (hword _ hm); simp at this
  refine ⟨hv, a ++ sep :: b, ?_⟩
  simp only [hp]
  obtain ⟨x, xs, rfl⟩ : ∃ x xs, a = x :: xs := by cases a with
    | nil => exact absurd rfl hne
    | cons x xs => exact ⟨x, xs, rfl⟩
  simp only [List.cons_append] at *
  simp only [List.mem_cons, not_or] at hsl2
  have hx : (x == dirSep) = false := by simpa using Ne.symm hsl2.1
  have hxw := hword x (by simp)
  have hrw : ∀ c ∈ xs ++ sep :: b, isWord c = true := fun c h => hword c (by simp; right; simpa using h)
  simp only [List.mem_cons, List.not_mem_nil, or_false] at hs
  rcases hs with rfl | rfl | rfl | rfl
  · refine ⟨.dc [.str [], .str (x :: (xs ++ 'A' :: b))], trivial, ?_, by simp⟩
    have : splitAt (fun before _ => before.isNone) none (x :: (xs ++ 'A' :: b)) = [[], x :: (xs ++ 'A' :: b)] := by
      simp [splitAt, hx, splitAt_start _ x hsl2.2]
    show Except.ok (fromTokens _ (splitAt (fun before _ => before.isNone) none _)) = _
    rw [this]; rfl
  · refine ⟨.dc [.str (x :: (xs ++ 'b' :: b)), .str []], trivial, ?_, by simp⟩
    have : splitAt (fun before after => isWordAt before != isWordAt after) none (x :: (xs ++ 'b' :: b)) =
        [[], x :: (xs ++ 'b' :: b), []] := by
      simp [splitAt, hx, splitAt_boundary _ x hxw hrw, isWordAt_some, isWordAt_none, hxw]
    show Except.ok (fromTokens _ (splitAt (fun before after => isWordAt before != isWordAt after) none _)) = _
    rw [this]; rfl
  · have h1 := (splitAt_inner (xs ++ 'B' :: b) x hxw hrw).resolve_right (by simp)
    have h2 : splitAt (fun before after => (before.isSome || after.isSome) && isWordAt before == isWordAt after) none
        (x :: (xs ++ 'B' :: b)) = (x :: (xs ++ 'B' :: b)).map (fun c => [c]) := by
      rw [splitAt]
      simp [hx, h1, isWordAt_some, isWordAt_none, hxw]
    obtain ⟨pre, y, z, h3⟩ : ∃ pre y z, x :: (xs ++ 'B' :: b) = pre ++ [y, z] := by
      rcases List.eq_nil_or_concat b with rfl | ⟨b', z, rfl⟩
      · rcases List.eq_nil_or_concat xs with rfl | ⟨xs', y, rfl⟩
        · exact ⟨[], x, 'B', rfl⟩
        · exact ⟨x :: xs', y, 'B', by simp⟩
      · rcases List.eq_nil_or_concat b' with rfl | ⟨b'', y, rfl⟩
        · exact ⟨x :: xs, 'B', z, by simp⟩
        · exact ⟨x :: xs ++ 'B' :: b'', y, z, by simp⟩
    refine ⟨.dc [.str [y], .str [z]], trivial, ?_, ?_⟩
    · show Except.ok (fromTokens _ (splitAt (fun before after =>
        (before.isSome || after.isSome) && isWordAt before == isWordAt after) none _)) = _
      rw [h2, h3, List.map_append]
      exact congrArg Except.ok (fromTokens_two _ _ _)
    · intro e
      simp only [FVal.dc.injEq, List.cons.injEq, FVal.str.injEq, and_true] at e
      obtain ⟨⟨rfl, rfl⟩, rfl⟩ := e
      have : [y, 'B', z] = pre ++ [y, z] := h3
      have h4 := congrArg List.length this
      simp only [List.length_cons, List.length_append, List.length_nil] at h4
      obtain ⟨w, rfl⟩ : ∃ w, pre = [w] := List.length_eq_one_iff.1 (by omega)
      simp at this
      exact hna (by simp [← this.2])
  · refine ⟨.dc [.str (x :: (xs ++ 'Z' :: b)), .str []], trivial, ?_, by simp⟩
    have : splitAt (fun _ after => after.isNone) none (x :: (xs ++ 'Z' :: b)) = [x :: (xs ++ 'Z' :: b), []] :=
      splitAt_end _ _ (by simp only [List.mem_cons, not_or]; exact hsl2)
    show Except.ok (fromTokens _ (splitAt (fun _ after => after.isNone) none _)) = _
    rw [this]; rfl

/-- With the separator `B`, the key `("ab", "cd")` is written `abBcd` and read as `("c", "d")`. -/
example : validate 'B' [.str ['a', 'b'], .str ['c', 'd']] = .ok () ∧ ReadsTwo 'B' "abBcd".toList ['c'] ['d'] ∧
    ReadsTwo 'A' "abAcd".toList [] "abAcd".toList ∧ ReadsTwo 'Z' "abZcd".toList "abZcd".toList [] ∧
    ReadsTwo 'b' "axbcd".toList "axbcd".toList [] := by
  refine ⟨(C62_misread_fails (by simp) (by simp [WordStr]) (by simp [WordStr]) (by simp) (by simp) (by simp)).1,
    ?_, ?_, ?_, ?_⟩ <;> rfl

/-- Where `re.split` cuts, on strings mixing characters of words, others and `/`. -/
example : (∀ p, reEscape 'b' = .empty p → splitAt p none "a b".toList = [[], ['a'], [' '], ['b'], []] ∧
      splitAt p none "a/b".toList = [[], ['a'], [], ['b'], []] ∧ splitAt p none "/a".toList = [[], [], ['a'], []] ∧
      splitAt p none [] = [[]]) ∧
    (∀ p, reEscape 'B' = .empty p → splitAt p none "-a-".toList = [[], ['-', 'a', '-'], []] ∧
      splitAt p none "a/".toList = [['a'], [], []] ∧ splitAt p none "//".toList = [[], [], [], []] ∧
      splitAt p none "a b".toList = [['a', ' ', 'b']] ∧ splitAt p none [] = [[]]) ∧
    (∀ p, reEscape 'A' = .empty p → splitAt p none "/a".toList = [[], ['a']] ∧
      splitAt p none "a/b".toList = [[], ['a'], ['b']] ∧ splitAt p none [] = [[], []]) ∧
    (∀ p, reEscape 'Z' = .empty p → splitAt p none "/a".toList = [[], ['a'], []] ∧
      splitAt p none "a/".toList = [['a'], [], []] ∧ splitAt p none [] = [[], []]) := by
  refine ⟨?_, ?_, ?_, ?_⟩ <;> intro p hp <;> cases hp <;> refine ⟨?_, ?_, ?_⟩ <;> first | rfl | skip
  all_goals first | (refine ⟨?_, ?_⟩ <;> first | rfl | (refine ⟨?_, ?_⟩ <;> rfl))

theorem split_everywhere {p : Char → Bool} : ∀ s : Str, (∀ c ∈ s, p c = true) →
    split p s = List.replicate (s.length + 1) []
  | [], _ => rfl
  | c :: cs, h => by
    simp only [List.mem_cons, forall_eq_or_imp] at h
    rw [split, if_pos h.1, split_everywhere cs h.2]
    rfl

/-- **C62** fails for a separator of which the escape sequence stands for a set of characters having the separator,
which are `D`, `S` and `w`: a key of two strings made of such characters, the first one not being empty, is written,
and its path is read as the key of two empty strings. -/
theorem C62_class_fails {sep : Char} {p : Char → Bool} (h : reEscape sep = .chars p) (hs : p sep = true) {a b : Str}
    (ha : ∀ c ∈ a, p c = true) (hb : ∀ c ∈ b, p c = true) (hne : a ≠ [])
    (hv : validate sep [.str a, .str b] = .ok ()) :
    ∃ path, toStr sep true [.str a, .str b] = .ok path ∧
      fromStrRe sep (.leaf [.str, .str]) path = .ok (some (.dc [.str [], .str []])) := by
  have hc : List.Forall₂ PTy.Has [.str, .str] [.str a, .str b] := .cons (.str _) (.cons (.str _) .nil)
  have hw : (Schema.leaf [.str, .str]).WF := by intro e; simp at e
  have hp : toStr sep true [.str a, .str b] = .ok (a ++ sep :: b) := by
    rw [toStr_eq true (.leaf hc) hw, (levelStrs_leaf sep hc hw).2 (by rintro ⟨v, h⟩; simp at h; exact hne h.1)]
    simp [join, FVal.text]
  refine ⟨_, hp, ?_⟩
  simp only [fromStrRe, h]
  rw [split_everywhere]
  · obtain ⟨n, hn⟩ : ∃ n, (a ++ sep :: b).length = n + 1 := ⟨a.length + b.length, by simp; omega⟩
    rw [hn, show List.replicate (n + 1 + 1) ([] : Str) = List.replicate n [] ++ [[], []] by
      rw [List.replicate_succ', List.replicate_succ']; simp]
    exact congrArg Except.ok (fromTokens_two _ _ _)
  · intro c hcm
    simp only [List.mem_append, List.mem_cons] at hcm
    rcases hcm with h1 | rfl | h1
    · simp [ha c h1]
    · simp [hs]
    · simp [hb c h1]

example : ∃ path, toStr 'w' true [.str ['k', 'e', 'y'], .str ['7']] = .ok path ∧
    fromStrRe 'w' (.leaf [.str, .str]) path = .ok (some (.dc [.str [], .str []])) :=
  C62_class_fails (p := isWord) rfl rfl (by decide) (by decide) (by simp) (validate_complete _ _ (.flat (by
    simp only [List.mem_cons, List.not_mem_nil, or_false, forall_eq_or_imp, forall_eq]
    exact ⟨.str (by simp [CleanText, dirSep]), .str (by simp [CleanText, dirSep])⟩)))

example : (∃ p, reEscape 'D' = .chars p ∧ p 'D' = true) ∧ (∃ p, reEscape 'S' = .chars p ∧ p 'S' = true) :=
  ⟨⟨_, rfl, rfl⟩, ⟨_, rfl, rfl⟩⟩

/-! ### Other strings -/

/-- **C62** With the empty string as separator, no key can be made. -/
theorem C62_empty_sep {f : FVal} {fs : List FVal} : validateS [] (f :: fs) ≠ .ok () := by
  intro h
  have h1 : ∃ rest, toLists (f :: fs) = (f :: fs) :: rest := by
    rw [toLists]
    split
    · rename_i h; simp at h
    · exact ⟨_, rfl⟩
    · exact ⟨[], rfl⟩
  obtain ⟨rest, h1⟩ := h1
  have h2 : forbidden [] f.text = true := by cases f.text <;> rfl
  simp only [validateS, h1, checkLevelsS, checkFieldsS, checkFieldS, h2] at h
  cases f <;> simp [FVal.isDc, FVal.accepted, bind, Except.bind, throw, throwThe, MonadExceptOf.throw] at h

/-- **C62** fails for separators of several characters: with `--`, the keys `("a-", "b")` and `("a", "-b")` are both
accepted, and share the directory `a---b`. -/
theorem C62_long_sep_fails :
    let k1 : List FVal := [.str ['a', '-'], .str ['b']]
    let k2 : List FVal := [.str ['a'], .str ['-', 'b']]
    validateS ['-', '-'] k1 = .ok () ∧ validateS ['-', '-'] k2 = .ok () ∧ k1 ≠ k2 ∧
    toStrS ['-', '-'] true k1 = .ok ['a', '-', '-', '-', 'b'] ∧
    toStrS ['-', '-'] true k2 = .ok ['a', '-', '-', '-', 'b'] := by
  have hl : ∀ a b : Str, toLists [.str a, .str b] = [[.str a, .str b]] := fun a b =>
    toLists_flat _ (by simp) (by simp)
  refine ⟨?_, ?_, by simp, ?_, ?_⟩
  · simp only [validateS, hl]; rfl
  · simp only [validateS, hl]; rfl
  · simp only [toStrS, hl]; rfl
  · simp only [toStrS, hl]; rfl

end Oups.Indexer
