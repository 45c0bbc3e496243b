import Verif.Proofs.WriterSort
/-! Lemmas on `write`. -/
set_option linter.unusedSimpArgs false
namespace Oups.Writer
variable {R : Type}

/-- Rows of each row group. -/
def rowsOf (rgs : List (RG R)) : List (List R) := rgs.map RG.rows

theorem readRows_eq (rgs : List (RG R)) : readRows rgs = (rowsOf rgs).flatten := rfl

theorem rowsOf_append (a b : List (RG R)) : rowsOf (a ++ b) = rowsOf a ++ rowsOf b := by simp [rowsOf]

theorem readRows_append (a b : List (RG R)) : readRows (a ++ b) = readRows a ++ readRows b := by
  simp [readRows]

theorem rowsOf_renumber (rgs : List (RG R)) : rowsOf (renumber rgs) = rowsOf rgs := by
  simp only [rowsOf, renumber, List.map_map]
  have : (RG.rows ∘ fun p : RG R × Nat => (⟨p.2, p.1.rows⟩ : RG R)) = RG.rows ∘ Prod.fst := by
    funext p; rfl
  rw [this, ← List.map_map, List.zipIdx_map_fst]

theorem numberFrom_rows (i : Nat) (cs : List (List R)) :
    rowsOf (numberFrom i cs) = cs.filter (fun c => !c.isEmpty) := by
  induction cs generalizing i with
  | nil => rfl
  | cons c cs ih =>
    simp only [numberFrom]
    cases hc : c.isEmpty
    · simp only [rowsOf] at ih
      simp [rowsOf, hc, ih]
    · simp [hc, ih]

theorem filter_nonempty_flatten (cs : List (List R)) :
    (cs.filter (fun c => !c.isEmpty)).flatten = cs.flatten := by
  induction cs with
  | nil => rfl
  | cons c cs ih =>
    cases c with
    | nil => simp [ih]
    | cons a c => simp [ih]

theorem readRows_numberFrom (i : Nat) (cs : List (List R)) : readRows (numberFrom i cs) = cs.flatten := by
  rw [readRows_eq, numberFrom_rows, filter_nonempty_flatten]

theorem numberFrom_rows_nonempty (i : Nat) (cs : List (List R)) (h : ∀ c ∈ cs, c ≠ []) :
    rowsOf (numberFrom i cs) = cs := by
  rw [numberFrom_rows, List.filter_eq_self]
  intro c hc
  cases c with
  | nil => exact absurd rfl (h _ hc)
  | cons => rfl

/-! ### iter_dataframe as used by write -/

theorem iter_plain_ok {T : Table R} {data : List R} {v : Bool} {m : Option Nat} {chunks}
    (h : iterDataframe T data v m none none = .ok chunks) :
    (data ≠ [] → m.getD defaultMaxRg ≠ 0) ∧ chunks = slices data (partStarts data.length (m.getD defaultMaxRg)) := by
  simp only [iterDataframe, Option.isSome_none, Bool.or_self, Bool.and_false, Bool.false_eq_true, if_false,
    Option.isNone_none, Bool.false_and] at h
  by_cases hz : ¬ data = [] ∧ m.getD defaultMaxRg = 0
  · simp [hz, bind, Except.bind, throw, throwThe, MonadExceptOf.throw, pure, Except.pure] at h
  · simp [hz, bind, Except.bind, pure, Except.pure] at h
    refine ⟨?_, h.symm⟩
    intro hd hm
    exact hz ⟨hd, hm⟩

theorem iter_plain {T : Table R} {data : List R} {v : Bool} {m : Option Nat}
    (hm : m ≠ some 0) :
    iterDataframe T data v m none none = .ok (slices data (partStarts data.length (m.getD defaultMaxRg))) := by
  have : m.getD defaultMaxRg ≠ 0 := by
    cases m with
    | none => simp [defaultMaxRg]
    | some m => simpa using hm
  simp [iterDataframe, this, bind, Except.bind, pure, Except.pure]

theorem iter_plain_flatten {T : Table R} {data : List R} {v : Bool} {m : Option Nat} {chunks}
    (h : iterDataframe T data v m none none = .ok chunks) : chunks.flatten = data := by
  obtain ⟨h1, rfl⟩ := iter_plain_ok h
  by_cases hd : data = []
  · subst hd; simp [partStarts, slices]
  · exact (plain_slices data _ (Nat.pos_of_ne_zero (h1 hd)) hd).1

/-- Duplicates removal applied by `iter_dataframe` to each piece. -/
def dedup (T : Table R) (on : Col) : Option DupOn → List R → List R
  | none, l => l
  | some d, l => dropDupLast (T.key (dupCols T.cols on d)) l

theorem iter_sharp_ok {T : Table R} {data : List R} {m : Option Nat} {on : Col} {dup : Option DupOn} {chunks}
    (h : iterDataframe T data true m (some on) dup = .ok chunks) :
    data ≠ [] ∧ m.getD defaultMaxRg ≠ 0 ∧
    chunks = (slices data (sharpStarts (T.get on) data (m.getD defaultMaxRg))).map (dedup T on dup) := by
  simp only [iterDataframe, Option.isSome_some, Bool.not_true, Bool.false_and, Bool.false_eq_true, if_false,
    Option.isNone_some, Bool.and_false] at h
  by_cases hd : data = []
  · subst hd
    simp [bind, Except.bind, throw, throwThe, MonadExceptOf.throw, pure, Except.pure] at h
  · have hl : data.length ≠ 0 := by simpa using hd
    by_cases hm : m.getD defaultMaxRg = 0
    · simp [hm, hl, hd, bind, Except.bind, throw, throwThe, MonadExceptOf.throw, pure, Except.pure] at h
    · refine ⟨hd, hm, ?_⟩
      cases dup with
      | none =>
        simp [hm, hd, bind, Except.bind, pure, Except.pure] at h
        rw [← h]
        have : dedup T on none = id := by funext l; rfl
        rw [this, List.map_id]
        simp [sharpStarts]
      | some d =>
        have hif : (if (dupCols T.cols on d).all (fun c => decide (c ∈ T.cols)) = true then
            (Except.ok ((slices data (sharpStarts (T.get on) data (m.getD defaultMaxRg))).map
              (dropDupLast (T.key (dupCols T.cols on d)))) : Except Err (List (List R)))
            else .error .keyError) = .ok chunks := by
          rw [← h]
          simp [hm, hd, bind, Except.bind, throw, throwThe, MonadExceptOf.throw, pure, Except.pure, sharpStarts]
        split at hif
        swap
        · cases hif
        rw [← Except.ok.inj hif]
        have : dedup T on (some d) = dropDupLast (T.key (dupCols T.cols on d)) := by funext l; rfl
        rw [this]

theorem iter_sharp_known {T : Table R} {data : List R} {m : Option Nat} {on : Col} {d : DupOn} {chunks}
    (h : iterDataframe T data true m (some on) (some d) = .ok chunks) : DupKnown T (some d) := by
  obtain ⟨hd, hm, _⟩ := iter_sharp_ok h
  have hall : ∀ c ∈ dupCols T.cols on d, c ∈ T.cols := by
    by_contra hn
    have hif : (dupCols T.cols on d).all (fun c => decide (c ∈ T.cols)) = false := by
      rw [Bool.eq_false_iff, ne_eq, List.all_eq_true]
      intro ha
      exact hn fun c hc => by simpa using ha c hc
    simp only [iterDataframe, hif] at h
    simp [hm, hd, bind, Except.bind, throw, throwThe, MonadExceptOf.throw, pure, Except.pure] at h
  cases d with
  | one c => exact hall c (by simp only [dupCols]; split <;> simp)
  | many cs =>
    intro c hc
    cases cs with
    | nil => simp at hc
    | cons a cs =>
      refine hall c ?_
      simp only [dupCols]
      split
      · exact hc
      · exact List.mem_append_left _ hc

theorem dupCols_known {T : Table R} {on : Col} {d : DupOn} (hon : on ∈ T.cols) (hk : DupKnown T (some d)) :
    ∀ c ∈ dupCols T.cols on d, c ∈ T.cols := by
  intro c hc
  cases d with
  | one a =>
    simp only [dupCols] at hc
    split at hc
    · simp at hc; subst hc; exact hk
    · simp at hc
      rcases hc with rfl | rfl
      · exact hk
      · exact hon
  | many cs =>
    cases cs with
    | nil => exact hc
    | cons a cs =>
      simp only [dupCols] at hc
      split at hc
      · exact hk c hc
      · rcases List.mem_append.1 hc with h | h
        · exact hk c h
        · rw [List.mem_singleton] at h; rw [h]; exact hon

theorem iter_sharp {T : Table R} {data : List R} {m : Option Nat} {on : Col} {dup : Option DupOn}
    (hd : data ≠ []) (hm : m ≠ some 0) (hk : ∀ d, dup = some d → ∀ c ∈ dupCols T.cols on d, c ∈ T.cols) :
    iterDataframe T data true m (some on) dup =
      .ok ((slices data (sharpStarts (T.get on) data (m.getD defaultMaxRg))).map (dedup T on dup)) := by
  have hm' : m.getD defaultMaxRg ≠ 0 := by
    cases m with
    | none => simp [defaultMaxRg]
    | some m => simpa using hm
  cases dup with
  | none =>
    have : dedup T on none = id := by funext l; rfl
    simp [iterDataframe, hm', hd, bind, Except.bind, pure, Except.pure, this, sharpStarts]
  | some d =>
    have hall : (dupCols T.cols on d).all (fun c => decide (c ∈ T.cols)) = true := by
      rw [List.all_eq_true]; intro c hc; simpa using hk d rfl c hc
    have : dedup T on (some d) = dropDupLast (T.key (dupCols T.cols on d)) := by funext l; rfl
    simp only [iterDataframe, hall, this, sharpStarts]
    simp [hm', hd, bind, Except.bind, pure, Except.pure]

theorem dupCols_sep {T : Table R} {on : Col} {d : DupOn} (hon : on ∈ T.cols) {x y : R}
    (h : T.key (dupCols T.cols on d) x = T.key (dupCols T.cols on d) y) : T.get on x = T.get on y := by
  have hmem : on ∈ dupCols T.cols on d := by
    cases d with
    | one c => simp only [dupCols]; split <;> simp_all
    | many cs =>
      cases cs with
      | nil => simpa [dupCols] using hon
      | cons a cs =>
        simp only [dupCols]
        split
        · assumption
        · simp
  simp only [Table.key, List.map_inj_left] at h
  exact h on hmem

theorem dedup_sublist (T : Table R) (on : Col) (dup : Option DupOn) (l : List R) :
    (dedup T on dup l).Sublist l := by
  cases dup with
  | none => exact List.Sublist.refl _
  | some d => exact dropDupLast_sublist _ _

theorem dedup_ne_nil (T : Table R) (on : Col) (dup : Option DupOn) (l : List R) (h : l ≠ []) :
    dedup T on dup l ≠ [] := by
  cases dup with
  | none => exact h
  | some d => exact dropDupLast_ne_nil _ _ h

theorem dedup_flatten (T : Table R) (on : Col) (hon : on ∈ T.cols) (dup : Option DupOn) (ls : List (List R))
    (h : Separated (T.get on) ls) :
    (ls.map (dedup T on dup)).flatten = dedup T on dup ls.flatten := by
  cases dup with
  | none =>
    have : dedup T on none = id := by funext l; rfl
    simp [this]
  | some d =>
    apply dropDupLast_flatten
    refine List.Pairwise.imp ?_ h
    intro a b hab x hx y hy he
    have := hab x hx y hy
    have := dupCols_sep hon he
    omega

theorem SortedOn.sublist {k : R → Int} {a b : List R} (h : SortedOn k b) (hs : a.Sublist b) : SortedOn k a :=
  List.Pairwise.sublist hs h

theorem Separated.map {k : R → Int} {ls : List (List R)} (f : List R → List R)
    (hf : ∀ l, (f l).Sublist l) (h : Separated k ls) : Separated k (ls.map f) := by
  rw [Separated, List.pairwise_map]
  exact h.imp (fun hab x hx y hy => hab x ((hf _).mem hx) y ((hf _).mem hy))

/-- Pieces produced in the update case. -/
theorem iter_sharp_layout {T : Table R} {data : List R} {m : Option Nat} {on : Col} {dup : Option DupOn} {chunks}
    (hon : on ∈ T.cols) (hs : SortedOn (T.get on) data)
    (h : iterDataframe T data true m (some on) dup = .ok chunks) :
    OrderedLayout (T.get on) chunks ∧ chunks.flatten = dedup T on dup data := by
  obtain ⟨hd, hm, rfl⟩ := iter_sharp_ok h
  obtain ⟨h1, h2, h3⟩ := sharp_slices (T.get on) data (m.getD defaultMaxRg) hd hs
  refine ⟨⟨?_, h3.map _ (dedup_sublist T on dup)⟩, ?_⟩
  · intro l hl
    obtain ⟨c, hc, rfl⟩ := List.mem_map.1 hl
    refine ⟨dedup_ne_nil _ _ _ _ (h2 c hc), ?_⟩
    have : SortedOn (T.get on) c := by
      rw [← h1] at hs
      exact hs.sublist (List.sublist_flatten_of_mem hc)
    exact this.sublist (dedup_sublist _ _ _ _)
  · rw [dedup_flatten T on hon dup _ h3, h1]

/-! ### Layout -/

theorem OrderedLayout.append_iff {k : R → Int} {a b : List (List R)} :
    OrderedLayout k (a ++ b) ↔ OrderedLayout k a ∧ OrderedLayout k b ∧
      ∀ l ∈ a, ∀ m ∈ b, ∀ x ∈ l, ∀ y ∈ m, k x < k y := by
  simp only [OrderedLayout, Separated, List.mem_append, List.pairwise_append]
  constructor
  · rintro ⟨h1, h2, h3, h4⟩
    exact ⟨⟨fun l hl => h1 l (Or.inl hl), h2⟩, ⟨fun l hl => h1 l (Or.inr hl), h3⟩, h4⟩
  · rintro ⟨⟨h1, h2⟩, ⟨h3, h4⟩, h5⟩
    refine ⟨?_, h2, h4, h5⟩
    rintro l (hl | hl)
    · exact h1 l hl
    · exact h3 l hl

theorem OrderedLayout.sorted {k : R → Int} {ls : List (List R)} (h : OrderedLayout k ls) :
    SortedOn k ls.flatten :=
  pairwise_flatten_of (fun l hl => (h.1 l hl).2)
    (h.2.imp (fun hab x hx y hy => le_of_lt (hab x hx y hy)))

/-- Pieces of a strictly ascending frame. -/
theorem strict_layout {k : R → Int} {ls : List (List R)} (hne : ∀ l ∈ ls, l ≠ []) (h : StrictOn k ls.flatten) :
    OrderedLayout k ls := by
  rw [StrictOn, List.pairwise_flatten] at h
  exact ⟨fun l hl => ⟨hne l hl, (h.1 l hl).imp (fun h => le_of_lt h)⟩, h.2⟩

theorem StrictOn.sorted {k : R → Int} {l : List R} (h : StrictOn k l) : SortedOn k l :=
  List.Pairwise.imp (fun h => le_of_lt h) h

/-! ### Statistics -/

theorem rgMax_some {T : Table R} {on : Col} {g : RG R} (h : g.rows ≠ []) :
    ∃ x ∈ g.rows, rgMax T on g = some (T.get on x) ∧ ∀ y ∈ g.rows, T.get on y ≤ T.get on x := by
  have hne : g.rows.map (T.get on) ≠ [] := by simpa using h
  obtain ⟨M, hM⟩ : ∃ M, (g.rows.map (T.get on)).max? = some M := by
    cases hx : (g.rows.map (T.get on)).max? with
    | none => rw [List.max?_eq_none_iff] at hx; exact absurd hx hne
    | some M => exact ⟨M, rfl⟩
  have := List.max?_eq_some_iff.1 hM
  obtain ⟨hm, hle⟩ := this
  obtain ⟨x, hx, rfl⟩ := List.mem_map.1 hm
  exact ⟨x, hx, hM, fun y hy => hle _ (List.mem_map.2 ⟨y, hy, rfl⟩)⟩

theorem rgMin_some {T : Table R} {on : Col} {g : RG R} (h : g.rows ≠ []) :
    ∃ x ∈ g.rows, rgMin T on g = some (T.get on x) ∧ ∀ y ∈ g.rows, T.get on x ≤ T.get on y := by
  have hne : g.rows.map (T.get on) ≠ [] := by simpa using h
  obtain ⟨M, hM⟩ : ∃ M, (g.rows.map (T.get on)).min? = some M := by
    cases hx : (g.rows.map (T.get on)).min? with
    | none => rw [List.min?_eq_none_iff] at hx; exact absurd hx hne
    | some M => exact ⟨M, rfl⟩
  have := List.min?_eq_some_iff.1 hM
  obtain ⟨hm, hle⟩ := this
  obtain ⟨x, hx, rfl⟩ := List.mem_map.1 hm
  exact ⟨x, hx, hM, fun y hy => hle _ (List.mem_map.2 ⟨y, hy, rfl⟩)⟩

theorem overlaps_iff {T : Table R} {on : Col} {s e : Int} {g : RG R} (h : g.rows ≠ []) :
    overlaps T on s e g = true ↔ (∃ x ∈ g.rows, s ≤ T.get on x) ∧ (∃ x ∈ g.rows, T.get on x ≤ e) := by
  obtain ⟨x, hx, hM, hx2⟩ := rgMax_some (T := T) (on := on) h
  obtain ⟨y, hy, hm, hy2⟩ := rgMin_some (T := T) (on := on) h
  simp only [overlaps, hM, hm, Bool.and_eq_true, decide_eq_true_eq]
  constructor
  · rintro ⟨h1, h2⟩; exact ⟨⟨x, hx, h1⟩, ⟨y, hy, h2⟩⟩
  · rintro ⟨⟨a, ha, h1⟩, ⟨b, hb, h2⟩⟩
    exact ⟨le_trans h1 (hx2 a ha), le_trans (hy2 b hb) h2⟩

/-! ### Update of a window -/

theorem stableSort_ne_nil {k : R → Int} {l : List R} (h : l ≠ []) : stableSort k l ≠ [] := by
  intro e
  have := (stableSort_perm k l).length_eq
  rw [e] at this
  simp at this
  exact h (List.length_eq_zero_iff.1 this.symm)

theorem sortRgs_window {T : Table R} {on : Col} {A N B : List (RG R)}
    (hl : OrderedLayout (T.get on) (rowsOf (A ++ N ++ B))) :
    sortRgs T on (A ++ B ++ N) = A ++ N ++ B := by
  have hkey : ∀ g ∈ A ++ N ++ B, ∃ x ∈ g.rows, (rgMax T on g).getD 0 = T.get on x := by
    intro g hg
    have hne : g.rows ≠ [] := (hl.1 g.rows (List.mem_map.2 ⟨g, hg, rfl⟩)).1
    obtain ⟨x, hx, hM, _⟩ := rgMax_some (T := T) (on := on) hne
    exact ⟨x, hx, by simp [hM]⟩
  have hsorted : (A ++ N ++ B).Pairwise (fun g h => (rgMax T on g).getD 0 < (rgMax T on h).getD 0) := by
    have h2 := hl.2
    rw [Separated, rowsOf, List.pairwise_map] at h2
    refine List.Pairwise.imp_of_mem ?_ h2
    intro g h hg hh hgh
    obtain ⟨x, hx, ex⟩ := hkey g hg
    obtain ⟨y, hy, ey⟩ := hkey h hh
    rw [ex, ey]
    exact hgh x hx y hy
  apply sorted_ext (fun g => (rgMax T on g).getD 0)
  · exact stableSort_sorted _ _
  · exact hsorted.imp (fun h => le_of_lt h)
  · intro v
    rw [sortRgs, stableSort_filter _ _ v (by intro r hr; simpa using hr)]
    simp only [List.filter_append, List.append_assoc]
    congr 1
    rw [List.append_assoc, List.pairwise_append] at hsorted
    have hNB := List.pairwise_append.1 hsorted.2.1
    by_cases hN : N.filter (fun g => decide ((rgMax T on g).getD 0 = v)) = []
    · simp [hN]
    · have : B.filter (fun g => decide ((rgMax T on g).getD 0 = v)) = [] := by
        rw [List.filter_eq_nil_iff] at hN ⊢
        intro b hb hbv
        apply hN
        intro a ha hav
        have := hNB.2.2 a ha b hb
        simp at hbv hav
        omega
      simp [this]

/-- `writeUpdate` on a window. -/
theorem writeUpdate_window {T : Table R} {p : Params} {A W B : List (RG R)} {data : List R} {on : Col}
    (hon : on ∈ T.cols)
    (hl : OrderedLayout (T.get on) (rowsOf (A ++ W ++ B)))
    (hA : ∀ g ∈ A, ∀ x ∈ g.rows, ∀ y ∈ data, T.get on x < T.get on y)
    (hB : ∀ g ∈ B, ∀ x ∈ g.rows, ∀ y ∈ data, T.get on y < T.get on x)
    {stop : Option Nat} (hstop : stop = some (A.length + W.length) ∨ (stop = none ∧ B = []))
    {rgs'} (h : writeUpdate T p (A ++ W ++ B) data (some on) A.length stop = .ok rgs') :
    OrderedLayout (T.get on) (rowsOf rgs') ∧
    readRows rgs' = readRows A ++ dedup T on p.dupOn (stableSort (T.get on) (readRows W ++ data)) ++ readRows B := by
  have he : stop.getD (A ++ W ++ B).length = (A ++ W).length := by
    rcases hstop with h | ⟨h, rfl⟩
    · simp [h]
    · rename_i h0; simp [h0]
  have hov : ((A ++ W ++ B).take (A ++ W).length).drop A.length = W := by
    rw [List.take_left' rfl, List.drop_left' rfl]
  simp only [writeUpdate, he, hov] at h
  by_cases hW : W.isEmpty = true
  · simp [hW, bind, Except.bind, throw, throwThe, MonadExceptOf.throw] at h
  · simp only [hW, Bool.false_eq_true, if_false] at h
    cases hit : iterDataframe T (stableSort (T.get on) (readRows W ++ data)) true p.maxRg (some on) p.dupOn with
    | error e => rw [hit] at h; simp [bind, Except.bind, pure, Except.pure] at h
    | ok chunks =>
      rw [hit] at h
      simp only [bind, Except.bind, pure, Except.pure, Except.ok.injEq] at h
      obtain ⟨hc1, hc2⟩ := iter_sharp_layout hon (stableSort_sorted _ _) hit
      generalize hN : numberFrom (nextId (A ++ W ++ B)) chunks = N at h
      have hrN : rowsOf N = chunks := by
        rw [← hN]; exact numberFrom_rows_nonempty _ _ (fun c hc => (hc1.1 c hc).1)
      have hkept : (writeRowGroups (A ++ W ++ B) chunks).take A.length ++
          (writeRowGroups (A ++ W ++ B) chunks).drop (A ++ W).length = A ++ B ++ N := by
        simp only [writeRowGroups, hN]
        rw [show A ++ W ++ B ++ N = A ++ (W ++ B ++ N) by simp, List.take_left' rfl]
        rw [show A ++ (W ++ B ++ N) = (A ++ W) ++ (B ++ N) by simp, List.drop_left' rfl]
        simp
      rw [hkept] at h
      -- layout of the result
      have hmemN : ∀ c ∈ chunks, ∀ y ∈ c, y ∈ readRows W ∨ y ∈ data := by
        intro c hc y hy
        have : y ∈ chunks.flatten := List.mem_flatten.2 ⟨c, hc, hy⟩
        rw [hc2] at this
        have := (dedup_sublist _ _ _ _).mem this
        rw [mem_stableSort] at this
        simpa using this
      rw [rowsOf_append, rowsOf_append, OrderedLayout.append_iff, OrderedLayout.append_iff] at hl
      obtain ⟨⟨hlA, hlW, hAW⟩, hlB, hAWB⟩ := hl
      have hlay : OrderedLayout (T.get on) (rowsOf (A ++ N ++ B)) := by
        rw [rowsOf_append, rowsOf_append, OrderedLayout.append_iff, OrderedLayout.append_iff, hrN]
        refine ⟨⟨hlA, hc1, ?_⟩, hlB, ?_⟩
        · intro l hl c hc x hx y hy
          rcases hmemN c hc y hy with h | h
          · obtain ⟨w, hw, hyw⟩ := List.mem_flatten.1 h
            exact hAW l hl w hw x hx y hyw
          · obtain ⟨g, hg, rfl⟩ := List.mem_map.1 hl
            exact hA g hg x hx y h
        · intro l hl b hb x hx y hy
          rcases List.mem_append.1 hl with hl | hl
          · exact hAWB l (List.mem_append_left _ hl) b hb x hx y hy
          · rcases hmemN l hl x hx with h | h
            · obtain ⟨w, hw, hyw⟩ := List.mem_flatten.1 h
              exact hAWB w (List.mem_append_right _ hw) b hb x hyw y hy
            · obtain ⟨g, hg, rfl⟩ := List.mem_map.1 hb
              exact hB g hg y hy x h
      have hfin : rowsOf rgs' = rowsOf (A ++ N ++ B) := by
        rcases hstop with hs | ⟨hs, hB0⟩
        · rw [← h, hs, rowsOf_renumber]
          simp only [sortRgs_window hlay]
        · rw [← h, hs, rowsOf_renumber, hB0]
          simp
      refine ⟨hfin ▸ hlay, ?_⟩
      rw [readRows_eq, hfin, rowsOf_append, rowsOf_append, hrN]
      simp only [List.flatten_append, hc2]
      rfl

end Oups.Writer
