import Verif.Spec.IndexerScan
import Verif.Proofs.Indexer
/-! `int()` reads exactly the texts of `IntText`. -/
namespace Oups.Indexer

theorem isSpace_iff (c : Char) : isSpace c = true ↔ Blank c := by
  simp only [isSpace, Bool.or_eq_true, Bool.and_eq_true, beq_iff_eq, decide_eq_true_eq, Blank, List.mem_cons, List.not_mem_nil, or_false]
  constructor
  · rintro ((rfl | h) | h)
    · right; right; right; right; right; right; right; right; right; rfl
    · omega
    · omega
  · intro h
    by_cases e : c.toNat = 32
    · left; left
      exact Char.toNat_inj.1 (by rw [e]; rfl)
    · omega

theorem digit_char : ∀ d, d < 10 → (Char.ofNat (48 + d)).toNat = 48 + d ∧ isDigit (Char.ofNat (48 + d)) = true := by decide

theorem mem_takeWhile {p : Char → Bool} {c : Char} : ∀ {s : Str}, c ∈ s.takeWhile p → p c = true
  | a :: s, h => by
    rw [List.takeWhile_cons] at h
    split at h
    · rename_i ha
      cases h with
      | head => exact ha
      | tail _ h => exact mem_takeWhile h
    · cases h

theorem numeral_reads {t : Str} {m : Nat} (h : Numeral t m) (s : Str) : parseDigits (t ++ s) 0 false = parseDigits s m true := by
  induction h generalizing s with
  | @one d hd =>
    have : d < 10 := hd
    simp only [List.cons_append, List.nil_append, parseDigits]
    obtain ⟨h1, h2⟩ := digit_char d hd
    rw [if_pos h2, h1]
    congr 1
    omega
  | @more t m d _ hd ih =>
    have : d < 10 := hd
    obtain ⟨h1, h2⟩ := digit_char d hd
    rw [List.append_assoc, ih]
    simp only [List.cons_append, List.nil_append, parseDigits]
    rw [if_pos h2, h1]
    congr 1
    omega
  | @under t m d _ hd ih =>
    have : d < 10 := hd
    obtain ⟨h1, h2⟩ := digit_char d hd
    have h3 : isDigit '_' = false := by decide
    rw [List.append_assoc, ih]
    simp only [List.cons_append, List.nil_append, parseDigits]
    rw [h3]
    simp only [beq_self_eq_true, Bool.and_self, if_true, Bool.false_eq_true, if_false, h2, h1]
    congr 1
    omega

theorem isDigit_of {c : Char} (h : isDigit c = true) : ∃ d, d < 10 ∧ c = Char.ofNat (48 + d) ∧ c.toNat - 48 = d := by
  simp only [isDigit, Bool.and_eq_true, decide_eq_true_eq] at h
  refine ⟨c.toNat - 48, by omega, ?_, rfl⟩
  rw [show 48 + (c.toNat - 48) = c.toNat by omega, Char.ofNat_toNat]

theorem reads_numeral : ∀ (k : Nat) (s t : Str) (m n : Nat), s.length ≤ k → Numeral t m → parseDigits s m true = some n →
    Numeral (t ++ s) n := by
  intro k
  induction k with
  | zero =>
    intro s t m n hl ht h
    have : s = [] := List.length_eq_zero_iff.1 (by omega)
    subst this
    simp only [parseDigits, if_true, Option.some.injEq] at h
    subst h
    simpa using ht
  | succ k ih =>
    intro s t m n hl ht h
    cases s with
    | nil =>
      simp only [parseDigits, if_true, Option.some.injEq] at h
      subst h
      simpa using ht
    | cons c cs =>
      simp only [List.length_cons] at hl
      rw [parseDigits] at h
      split at h
      · rename_i hc
        obtain ⟨d, hd, rfl, e⟩ := isDigit_of hc
        rw [e] at h
        have := ih cs _ _ _ (by omega) (Numeral.more ht hd) (by rw [← h]; congr 1; omega)
        simpa using this
      · split at h
        · rename_i _ hc
          simp only [Bool.and_true, beq_iff_eq] at hc
          subst hc
          cases cs with
          | nil => simp [parseDigits] at h
          | cons c cs =>
            rw [parseDigits] at h
            split at h
            · rename_i hc
              obtain ⟨d, hd, rfl, e⟩ := isDigit_of hc
              rw [e] at h
              simp only [List.length_cons] at hl
              have := ih cs _ _ _ (by omega) (Numeral.under ht hd) (by rw [← h]; congr 1; omega)
              simpa using this
            · simp at h
        · cases h

theorem parseDigits_iff (s : Str) (n : Nat) : parseDigits s 0 false = some n ↔ Numeral s n := by
  constructor
  · intro h
    cases s with
    | nil => simp [parseDigits] at h
    | cons c cs =>
      rw [parseDigits] at h
      split at h
      · rename_i hc
        obtain ⟨d, hd, rfl, e⟩ := isDigit_of hc
        rw [e] at h
        have := reads_numeral cs.length cs _ _ _ (Nat.le_refl _) (Numeral.one hd) (by rw [← h]; congr 1; omega)
        simpa using this
      · simp at h
  · intro h
    have := numeral_reads h []
    simpa [parseDigits] using this

/-- First and last characters of a numeral. -/
theorem Numeral.ends {s : Str} {n : Nat} (h : Numeral s n) :
    ∃ a b x y, s = a :: x ∧ s = y ++ [b] ∧ isDigit a = true ∧ isDigit b = true := by
  have hdig : ∀ d, d < 10 → isDigit (Char.ofNat (48 + d)) = true := fun d hd => (digit_char d hd).2
  induction h with
  | @one d hd => exact ⟨_, _, [], [], rfl, rfl, hdig d hd, hdig d hd⟩
  | @more t m d _ hd ih =>
    obtain ⟨a, b, x, y, e1, e2, e3, e4⟩ := ih
    exact ⟨a, _, x ++ [Char.ofNat (48 + d)], t, by rw [e1]; rfl, rfl, e3, hdig d hd⟩
  | @under t m d _ hd ih =>
    obtain ⟨a, b, x, y, e1, e2, e3, e4⟩ := ih
    exact ⟨a, _, x ++ ['_', Char.ofNat (48 + d)], t ++ ['_'], by rw [e1]; rfl, by simp, e3, hdig d hd⟩

theorem dropWhile_blank {pre s : Str} (hp : ∀ c ∈ pre, Blank c) {a : Char} {x : Str} (hs : s = a :: x) (ha : isSpace a = false) :
    (pre ++ s).dropWhile isSpace = s := by
  induction pre with
  | nil => subst hs; simp [ha]
  | cons c cs ih =>
    simp only [List.mem_cons, forall_eq_or_imp] at hp
    simp only [List.cons_append, List.dropWhile_cons, (isSpace_iff c).2 hp.1, if_true]
    exact ih hp.2

theorem strip_of {pre s post : Str} (hp : ∀ c ∈ pre, Blank c) (hq : ∀ c ∈ post, Blank c) {a b : Char} {x y : Str} (h1 : s = a :: x)
    (h2 : s = y ++ [b]) (ha : isSpace a = false) (hb : isSpace b = false) : strip (pre ++ s ++ post) = s := by
  rw [strip, List.append_assoc, dropWhile_blank hp (a := a) (x := x ++ post) (by rw [h1]; rfl) ha, List.reverse_append,
    dropWhile_blank (pre := post.reverse) (fun c hc => hq c (List.mem_reverse.1 hc)) (a := b) (x := y.reverse) (by rw [h2]; simp) hb,
    List.reverse_reverse]

/-- What is removed. -/
theorem strip_split (s : Str) : ∃ pre post, s = pre ++ strip s ++ post ∧ (∀ c ∈ pre, Blank c) ∧ ∀ c ∈ post, Blank c := by
  refine ⟨s.takeWhile isSpace, ((s.dropWhile isSpace).reverse.takeWhile isSpace).reverse, ?_, ?_, ?_⟩
  · rw [strip, List.append_assoc, ← List.reverse_append, List.takeWhile_append_dropWhile, List.reverse_reverse,
      List.takeWhile_append_dropWhile]
  · intro c hc
    exact (isSpace_iff c).1 (mem_takeWhile hc)
  · intro c hc
    rw [List.mem_reverse] at hc
    exact (isSpace_iff c).1 (mem_takeWhile hc)

theorem parseInt_iff (s : Str) (i : Int) : parseInt s = some i ↔ IntText s i := by
  constructor
  · intro h
    obtain ⟨pre, post, e, h1, h2⟩ := strip_split s
    rw [parseInt] at h
    generalize strip s = t at h e
    subst e
    cases t with
    | nil => cases h
    | cons c cs =>
      simp only at h
      split at h
      · rename_i hc
        simp only [beq_iff_eq] at hc
        subst hc
        cases hd : parseDigits cs 0 false with
        | none => rw [hd] at h; cases h
        | some n =>
          rw [hd] at h
          cases h
          have := (parseDigits_iff _ _).1 hd
          simpa using IntText.minus h1 this h2
      · split at h
        · rename_i hc
          simp only [beq_iff_eq] at hc
          subst hc
          cases hd : parseDigits cs 0 false with
          | none => rw [hd] at h; cases h
          | some n =>
            rw [hd] at h
            cases h
            have := (parseDigits_iff _ _).1 hd
            simpa using IntText.plus h1 this h2
        · cases hd : parseDigits (c :: cs) 0 false with
          | none => rw [hd] at h; cases h
          | some n =>
            rw [hd] at h
            cases h
            exact IntText.plain h1 ((parseDigits_iff _ _).1 hd) h2
  · intro h
    cases h with
    | @plain pre s post n h1 hn h2 =>
      obtain ⟨a, b, x, y, e1, e2, e3, e4⟩ := hn.ends
      rw [parseInt, strip_of h1 h2 e1 e2 (isDigit_isSpace a e3) (isDigit_isSpace b e4)]
      have := (parseDigits_iff _ _).2 hn
      rw [e1] at this ⊢
      simp only [isDigit_ne a '-' e3 rfl, isDigit_ne a '+' e3 rfl, this]
      rfl
    | @plus pre s post n h1 hn h2 =>
      obtain ⟨a, b, x, y, e1, e2, e3, e4⟩ := hn.ends
      have := strip_of h1 h2 (s := '+' :: s) (a := '+') (x := s) (b := b) (y := '+' :: y) rfl (by rw [e2]; rfl) (by decide)
        (isDigit_isSpace b e4)
      rw [parseInt, show pre ++ '+' :: s ++ post = pre ++ ('+' :: s) ++ post from rfl, this]
      have := (parseDigits_iff _ _).2 hn
      simp [this]
    | @minus pre s post n h1 hn h2 =>
      obtain ⟨a, b, x, y, e1, e2, e3, e4⟩ := hn.ends
      have := strip_of h1 h2 (s := '-' :: s) (a := '-') (x := s) (b := b) (y := '-' :: y) rfl (by rw [e2]; rfl) (by decide)
        (isDigit_isSpace b e4)
      rw [parseInt, show pre ++ '-' :: s ++ post = pre ++ ('-' :: s) ++ post from rfl, this]
      have := (parseDigits_iff _ _).2 hn
      simp [this]

theorem parse_iff (t : PTy) (s : Str) (v : FVal) : t.parse s = some v ↔ Converts t s v := by
  constructor
  · intro h
    cases t with
    | int =>
      rw [PTy.parse] at h
      cases hi : parseInt s with
      | none => rw [hi] at h; cases h
      | some i => rw [hi] at h; cases h; exact .int ((parseInt_iff _ _).1 hi)
    | str => rw [PTy.parse] at h; cases h; exact .str _
  · intro h
    cases h with
    | int h => rw [PTy.parse, (parseInt_iff _ _).2 h]; rfl
    | str => rfl

end Oups.Indexer
