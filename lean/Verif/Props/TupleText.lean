import Verif.Model.TupleText
import Verif.Props.ColumnIndex
/-! # C57: texts of tuples -/
namespace Oups.ColumnIndex

theorem hexDigit_hexChar : ∀ d, d < 16 → hexDigit? (hexChar d) = some d := by decide

theorem readHex_hexText (w : Nat) : ∀ (a n k : Nat) (cs : Text),
    readHex (w + k) a (hexText w n ++ cs) = readHex k (16 ^ w * a + n % 16 ^ w) cs := by
  induction w with
  | zero => intro a n k cs; simp [hexText, Nat.mod_one]
  | succ w ih =>
    intro a n k cs
    rw [hexText, List.append_assoc, List.singleton_append, show w + 1 + k = w + (k + 1) by omega, ih, readHex,
      hexDigit_hexChar _ (Nat.mod_lt _ (by decide)), Option.bind_some]
    congr 1
    rw [Nat.pow_succ, Nat.mul_comm (16 ^ w) 16, Nat.mod_mul]
    rw [Nat.mul_add, Nat.mul_assoc]; omega

theorem charOf_toNat (c : Char) : charOf c.toNat = some c := by
  have : c.toNat.isValidChar := c.valid
  rw [charOf, if_pos this, Char.ofNat_toNat]

theorem readHex_char (w : Nat) (c : Char) (cs : Text) (h : c.toNat < 16 ^ w) :
    ((readHex w 0 (hexText w c.toNat ++ cs)).bind fun r => (charOf r.1).map fun c => (c, r.2)) = some (c, cs) := by
  have := readHex_hexText w 0 c.toNat 0 cs
  rw [Nat.add_zero] at this
  rw [this, readHex, Nat.mul_zero, Nat.zero_add, Nat.mod_eq_of_lt h, Option.bind_some, charOf_toNat]
  rfl

theorem toNat_lt (c : Char) : c.toNat < 16 ^ 8 := by
  have := UInt32.toNat_lt c.val
  exact this

/-- One character. -/
theorem readStr_escape (printable : Char → Bool) (q c : Char) (hq : q = '\'' ∨ q = '"') (n : Nat) (cs : Text) :
    readStr q (n + 1) (escape printable q c ++ cs) = (readStr q n cs).map fun p => (c :: p.1, p.2) := by
  have hb : ('\\' : Char) ≠ q := by rcases hq with rfl | rfl <;> decide
  have esc : ∀ (xs : Text), readEscape (xs ++ cs) = some (c, cs) →
      readStr q (n + 1) ('\\' :: xs ++ cs) = (readStr q n cs).map fun p => (c :: p.1, p.2) := by
    intro xs h
    rw [List.cons_append, readStr, if_neg hb, if_pos rfl, h, Option.bind_some]
  unfold escape
  split
  · rename_i h
    apply esc [c]
    simp only [Bool.or_eq_true, decide_eq_true_eq] at h
    rcases h with rfl | rfl
    · rcases hq with rfl | rfl <;> rfl
    · rfl
  · rename_i h1
    simp only [Bool.or_eq_true, decide_eq_true_eq, not_or] at h1
    have plain : c ≠ '\n' → c ≠ '\r' → readStr q (n + 1) ([c] ++ cs) = (readStr q n cs).map fun p => (c :: p.1, p.2) := by
      intro hn hr
      rw [List.singleton_append, readStr, if_neg h1.1, if_neg h1.2, if_neg (by simp [hn, hr])]
    split
    · rename_i h; subst h; exact esc ['t'] rfl
    split
    · rename_i h; subst h; exact esc ['n'] rfl
    split
    · rename_i h; subst h; exact esc ['r'] rfl
    rename_i hn hr
    split
    · rename_i h
      simp only [Bool.or_eq_true, decide_eq_true_eq] at h
      exact esc ('x' :: hexText 2 c.toNat) (readHex_char 2 c cs (by omega))
    split
    · exact plain hn hr
    split
    · exact plain hn hr
    split
    · rename_i h; exact esc ('x' :: hexText 2 c.toNat) (readHex_char 2 c cs (by omega))
    split
    · rename_i h; exact esc ('u' :: hexText 4 c.toNat) (readHex_char 4 c cs (by omega))
    · exact esc ('U' :: hexText 8 c.toNat) (readHex_char 8 c cs (toNat_lt c))

theorem quoteOf_cases (s : Text) : quoteOf s = '\'' ∨ quoteOf s = '"' := by
  unfold quoteOf; split
  · exact Or.inr rfl
  · exact Or.inl rfl

theorem readStr_body (printable : Char → Bool) (q : Char) (hq : q = '\'' ∨ q = '"') : ∀ (s : Text) (n : Nat) (cs : Text), s.length < n →
    readStr q n (s.flatMap (escape printable q) ++ q :: cs) = some (s, cs) := by
  intro s
  induction s with
  | nil =>
    intro n cs hn
    obtain ⟨n, rfl⟩ : ∃ m, n = m + 1 := ⟨n - 1, by simp at hn; omega⟩
    rw [List.flatMap_nil, List.nil_append, readStr, if_pos rfl]
  | cons c s ih =>
    intro n cs hn
    obtain ⟨n, rfl⟩ : ∃ m, n = m + 1 := ⟨n - 1, by simp at hn; omega⟩
    rw [List.flatMap_cons, List.append_assoc, readStr_escape printable q c hq, ih n cs (by simp at hn; omega)]
    rfl

theorem escape_length (printable : Char → Bool) (q c : Char) : 1 ≤ (escape printable q c).length := by
  unfold escape
  repeat' split
  all_goals simp

theorem body_length (printable : Char → Bool) (q : Char) (s : Text) : s.length ≤ (s.flatMap (escape printable q)).length := by
  induction s with
  | nil => simp
  | cons c s ih =>
    have := escape_length printable q c
    rw [List.flatMap_cons, List.length_append, List.length_cons]; omega

/-- One item. -/
theorem readItems_item (printable : Char → Bool) (s : Text) (n : Nat) (cs : Text) :
    readItems (n + 1) (reprStr printable s ++ cs) =
      if cs = [')'] then some ([s], false)
      else if cs.head? = some ',' then (readItems n cs.tail).map fun p => (s :: p.1, p.2)
      else none := by
  have hq := quoteOf_cases s
  rw [reprStr, List.cons_append, List.cons_append, List.append_assoc, List.singleton_append, readItems,
    if_neg (by rcases hq with h | h <;> rw [h] <;> decide), if_neg (by rcases hq with h | h <;> rw [h] <;> decide),
    if_pos (by rcases hq with h | h <;> rw [h] <;> decide), readStr_body printable _ hq]
  · rfl
  · have := body_length printable (quoteOf s) s
    rw [List.length_append, List.length_cons]; omega

theorem readItems_rest (printable : Char → Bool) : ∀ (t : List Text) (s : Text) (n : Nat), 2 * t.length < n →
    readItems n (reprStr printable s ++ ((t.flatMap fun s => ',' :: ' ' :: reprStr printable s) ++ [')'])) = some (s :: t, false) := by
  intro t
  induction t with
  | nil =>
    intro s n hn
    obtain ⟨n, rfl⟩ : ∃ m, n = m + 1 := ⟨n - 1, by omega⟩
    rw [readItems_item]; rfl
  | cons s' t ih =>
    intro s n hn
    rw [List.length_cons] at hn
    obtain ⟨n, rfl⟩ : ∃ m, n = m + 1 + 1 := ⟨n - 2, by omega⟩
    rw [readItems_item, List.flatMap_cons, List.cons_append, List.cons_append, List.cons_append, if_neg (by simp),
      if_pos (by simp), List.tail_cons, List.cons_append, List.append_assoc]
    rw [readItems, if_pos rfl, ih s' n (by omega)]
    rfl

theorem rest_length (printable : Char → Bool) (t : List Text) :
    2 * t.length ≤ (t.flatMap fun s => ',' :: ' ' :: reprStr printable s).length := by
  induction t with
  | nil => simp
  | cons s t ih =>
    rw [List.flatMap_cons, List.length_append, List.length_cons, List.length_cons, List.length_cons]; omega

/-- **C57** The text `repr` gives of a tuple of strings is read as this tuple, whatever the characters (quotes, backslashes, line breaks,
control characters, other alphabets) and the number of strings. -/
theorem C57_repr_read (printable : Char → Bool) (t : List Text) : readTuple (reprTuple printable t) = some t := by
  match t with
  | [] => rfl
  | [s] =>
    rw [reprTuple, List.cons_append, readTuple, List.length_append, readItems_item, if_neg (by decide), if_pos (by rfl), List.tail_cons]
    rw [show (reprStr printable s).length + [',', ')'].length = ((reprStr printable s).length + 1) + 1 from rfl, readItems,
      if_neg (by decide), if_pos rfl]
    rfl
  | s :: s' :: t =>
    rw [reprTuple]
    · rw [List.cons_append, List.cons_append, List.append_assoc, readTuple, readItems_rest]
      · simp
      · have := rest_length printable (s' :: t)
        rw [List.length_append, List.length_append]; omega
    · simp

/-- Text of a tuple of strings. -/
def tupleText (printable : Char → Bool) (t : List String) : String := String.ofList (reprTuple printable (t.map String.toList))

/-- `literal_eval`, as far as tuples of string literals are concerned. -/
def ReadsTuples (eval : String → Eval) : Prop :=
  ∀ s t, readTuple s.toList = some t → eval s = .seq (t.map fun x => .str (String.ofList x))

theorem ReadsTuples.text {eval : String → Eval} (h : ReadsTuples eval) (printable : Char → Bool) (t : List String) :
    eval (tupleText printable t) = .seq (t.map .str) := by
  rw [h _ (t.map String.toList) (by rw [tupleText, String.toList_ofList]; exact C57_repr_read printable _), List.map_map]
  congr 1
  exact List.map_congr_left fun x _ => by simp

/-- **C57** Round trip with the texts Python gives: names of columns that are tuples of strings, turned into texts by `repr`, are read back,
shorter ones being completed with empty strings; names of levels are the given ones followed by generic ones. -/
theorem C57_text_round_trip {eval : String → Eval} (he : ReadsTuples eval) (printable : Char → Bool) (cols : List (List String))
    (hne : cols ≠ []) (n : Nat) (hn : ∀ t ∈ cols, t.length ≤ n) (hn' : ∃ t ∈ cols, t.length = n) (levels : Option (List String))
    (hl : (levels.getD []).length ≤ n) :
    (toMidx eval (cols.map (tupleText printable)) levels).1 =
      .ok (levels.getD [] ++ (List.range' (levels.getD []).length (n - (levels.getD []).length)).map (fun i => "l" ++ toString i),
        cols.map fun t => (t ++ List.replicate (n - t.length) "").map fun x => some (.str x)) := by
  let tup : String → List Val := fun s => match eval s with | .seq t => t | _ => []
  have ht : ∀ t : List String, tup (tupleText printable t) = t.map .str := fun t => by simp only [tup, he.text]
  have h := (C57_tuples (eval := eval) (idx := cols.map (tupleText printable)) (tup := tup) (levels := levels)
    (by
      intro s hs
      obtain ⟨t, _, rfl⟩ := List.mem_map.1 hs
      rw [ht, he.text])
    (by simpa using hne) n
    (by
      intro s hs
      obtain ⟨t, h, rfl⟩ := List.mem_map.1 hs
      rw [ht, List.length_map]; exact hn t h)
    (by
      obtain ⟨t, h1, h2⟩ := hn'
      exact ⟨_, List.mem_map.2 ⟨t, h1, rfl⟩, by rw [ht, List.length_map, h2]⟩)).1 hl
  rw [h]
  congr 2
  rw [List.map_map]
  apply List.map_congr_left
  intro t _
  simp only [Function.comp, ht, List.length_map, List.map_append, List.map_map, List.map_replicate]
  rfl

/-- `repr` and what is read, with both quotes, a backslash, a line break, control and foreign characters. -/
example : reprTuple (fun _ => true) ["it's".toList, "\"a'\\\n\x01é".toList, []] = "(\"it's\", '\"a\\'\\\\\\n\\x01é', '')".toList := by decide +kernel
example : reprTuple (fun _ => false) ["é€😀".toList] = "('\\xe9\\u20ac\\U0001f600',)".toList := by decide +kernel
example : reprTuple (fun _ => true) ["\x7f\x80\t".toList] = "('\\x7f\x80\\t',)".toList := by decide +kernel
example : reprTuple (fun _ => false) [" ~ÿĀ\uffff𐀀".toList] = "(' ~\\xff\\u0100\\uffff\\U00010000',)".toList := by decide +kernel
example : readTuple "('\\xe9\\u20AC', \"b\",)".toList = some ["é€".toList, "b".toList] := by decide +kernel
example : readTuple "('\\xAF\\xaf\\x0A\\x90',)".toList = some ["¯¯\n\x90".toList] ∧ readTuple "('\\xG0',)".toList = none ∧
    readTuple "('\\x0@',)".toList = none ∧ readTuple "('\\xg0',)".toList = none ∧ readTuple "('\\x`0',)".toList = none ∧
    readTuple "('\\x/0',)".toList = none ∧ readTuple "('\\x:0',)".toList = none := by decide +kernel
example : readTuple "('a')".toList = none := by decide +kernel
example : readTuple "('a\nb',)".toList = none ∧ readTuple "('a\rb',)".toList = none ∧ readTuple "('a\tb',)".toList = some ["a\tb".toList] := by
  decide +kernel

/-- Such functions exist. -/
example : ReadsTuples fun s => match readTuple s.toList with | some t => .seq (t.map fun x => .str (String.ofList x)) | none => .valueError := by
  intro s t h
  simp only [h]

end Oups.ColumnIndex
