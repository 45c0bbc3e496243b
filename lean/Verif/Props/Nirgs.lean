import Verif.Proofs.Nirgs
import Verif.Spec.Nirgs
/-! Property C88: how many row groups there are with `max_nirgs`. -/
set_option linter.unusedSimpArgs false
namespace Oups.Writer
variable {R : Type}

/-! ### Writes that append -/

theorem npUnique_strict {l : List Nat} (h : l.Pairwise (· < ·)) : npUnique l = l := by
  induction l with
  | nil => rfl
  | cons x l ih =>
    obtain ⟨h1, h2⟩ := List.pairwise_cons.1 h
    rw [npUnique, List.foldr_cons]
    have : l.foldr insertUnique [] = l := ih h2
    rw [this]
    cases l with
    | nil => rfl
    | cons y l => simp [insertUnique, h1 y (by simp)]

theorem searchsorted_strict {k : R → Int} {l : List R} (hs : StrictOn k l) {i : Nat} (hi : i < l.length) :
    searchsortedLeft (l.map k) (k l[i]) = i := by
  rw [searchsorted_map]
  induction l generalizing i with
  | nil => simp at hi
  | cons x l ih =>
    obtain ⟨h1, h2⟩ := List.pairwise_cons.1 hs
    cases i with
    | zero => simp
    | succ i =>
      have hi' : i < l.length := by simpa using hi
      rw [List.getElem_cons_succ, List.takeWhile_cons_of_pos (by simpa using h1 _ (List.getElem_mem hi')), List.length_cons,
        ih h2 hi']

/-- Values all different: pieces are not moved. -/
theorem sharpStarts_strict {k : R → Int} {l : List R} (hs : StrictOn k l) (m : Nat) (hl : l ≠ []) :
    sharpStarts k l m = partStarts l.length m := by
  have hn : l.length ≠ 0 := by simpa using hl
  have hp := rgSizeOf_pos l.length m hn
  have hmem : ∀ i ∈ partStarts l.length m, i < l.length := by
    intro i hi
    rw [partStarts_eq _ _ hn, mem_rangeStep hp] at hi
    exact hi.1
  have hsort : (partStarts l.length m).Pairwise (· < ·) := by
    rw [partStarts_eq _ _ hn]; exact rangeStep_sorted _ _ hp
  have : ((partStarts l.length m).filterMap (fun i => (l.map k)[i]?)).map (searchsortedLeft (l.map k)) = partStarts l.length m := by
    generalize partStarts l.length m = P at hmem
    induction P with
    | nil => rfl
    | cons i P ih =>
      have hi := hmem i (by simp)
      rw [List.filterMap_cons_some (b := k l[i]) (by simp [hi]), List.map_cons, searchsorted_strict hs hi,
        ih (fun j hj => hmem j (by simp [hj]))]
  rw [sharpStarts, this, npUnique_strict hsort]

theorem mem_slices_sublist {α : Type} (l : List α) (starts : List Nat) : ∀ c ∈ slices l starts, c.Sublist l := by
  match starts with
  | [] => simp [slices]
  | [s] => simpa [slices] using List.drop_sublist _ _
  | s :: e :: r =>
    intro c hc
    rcases List.mem_cons.1 hc with rfl | hc
    · exact (List.take_sublist _ _).trans (List.drop_sublist _ _)
    · exact mem_slices_sublist l (e :: r) c hc

/-- New rows are added at the end: no `ordered_on`, or values in strict order. -/
def AtEnd (T : Table R) (p : Params) (rows data : List R) : Prop :=
  p.orderedOn = none ∨ ∃ on, p.orderedOn = some (.col on) ∧ StrictOn (T.get on) (rows ++ data)

theorem iter_atEnd {T : Table R} {on : Option Col} {d : Option DupOn} {l : List R} {m : Nat} {chunks}
    (hd : on = none → d = none) (hon : ∀ c, on = some c → c ∈ T.cols ∧ StrictOn (T.get c) l)
    (h : iterDataframe T l true (some m) on d = .ok chunks) : chunks.filter (fun c => !c.isEmpty) = piecesOf m l := by
  have hplain : chunks = slices l (partStarts l.length m) := by
    cases on with
    | none =>
      rw [hd rfl] at h
      exact (iter_plain_ok h).2
    | some c =>
      obtain ⟨h1, h2⟩ := hon c rfl
      obtain ⟨h3, _, rfl⟩ := iter_sharp_ok h
      rw [Option.getD_some, sharpStarts_strict h2 m h3]
      conv_rhs => rw [← List.map_id (slices l (partStarts l.length m))]
      refine List.map_congr_left fun c hc => ?_
      exact dedup_strict h1 _ (h2.sublist (mem_slices_sublist _ _ c hc))
  have hz : l ≠ [] → m ≠ 0 := by
    intro hl h0
    subst h0
    cases on with
    | none =>
      rw [hd rfl] at h
      exact (iter_plain_ok h).1 hl rfl
    | some c => exact (iter_sharp_ok h).2.1 rfl
  rw [hplain, piecesOf]
  split
  · rename_i hl; subst hl; simp [partStarts, slices]
  · rename_i hl
    rw [List.filter_eq_self]
    intro c hc
    have := ((plain_slices l m (Nat.pos_of_ne_zero (hz hl)) hl).2.1 c hc).1
    cases c <;> simp_all

theorem runEnd_before {α : Type} (c : α → Bool) (l : List α) : runEnd c 0 (l.take (l.length - runEnd c 0 l)) = 0 := by
  induction l using List.reverseRecOn with
  | nil => rfl
  | append_singleton l x ih =>
    rw [runEnd_append]
    simp only [runEnd, List.length_append, List.length_singleton]
    split
    · rename_i hx
      rw [Nat.sub_zero, List.take_of_length_le (by simp), runEnd_append]
      simp [runEnd, hx]
    · rw [Nat.add_sub_add_right, List.take_append_of_le_length (by omega)]
      exact ih

/-- What a write at the end does with `max_nirgs`. -/
theorem write_atEnd {T : Table R} {p : Params} {rgs rgs' : List (RG R)} {data : List R} {m k : Nat}
    (hm : p.maxRg = some m) (hk : p.maxNirgs = some k) (ho : AtEnd T p (readRows rgs) data) (h : write T p rgs data = .ok rgs') :
    (rgs = [] ∧ rgs'.map RG.rows = piecesOf m data) ∨
    (runEnd (complete m) 0 (rgs.map RG.rows) < k ∧ data.length < m ∧ rgs'.map RG.rows = rgs.map RG.rows ++ piecesOf m data) ∨
    ∃ P W, rgs = P ++ W ∧ runEnd (complete m) 0 (P.map RG.rows) = 0 ∧
      rgs'.map RG.rows = P.map RG.rows ++ piecesOf m (readRows W ++ data) := by
  obtain ⟨on, hon, hcase⟩ := write_cases h
  have hrows : ∀ i cs, (numberFrom i cs).map RG.rows = cs.filter fun c : List R => !c.isEmpty := fun i cs => numberFrom_rows i cs
  have hpl : ∀ chunks, iterDataframe T data false p.maxRg none none = .ok chunks →
      chunks.filter (fun c => !c.isEmpty) = piecesOf m data := by
    intro chunks hit
    refine iter_atEnd (T := T) (on := none) (d := none) (fun _ => rfl) (by simp) ?_
    rw [hm] at hit
    simpa [iterDataframe] using hit
  rcases hcase with ⟨rfl, chunks, hit, rfl⟩ | ⟨hne, hd, w, hw, hcase⟩
  · exact Or.inl ⟨rfl, by rw [hrows, hpl chunks hit]⟩
  have hw0 : w = (none, none) := by
    rcases ho with ho | ⟨c, ho, hst⟩
    · rw [ho] at hon
      simp only [checkOrderedOn, Except.ok.injEq] at hon
      subst hon
      simp only [overlapWindow, Except.ok.injEq] at hw
      exact hw.symm
    · rw [ho] at hon
      simp only [checkOrderedOn] at hon
      split at hon
      swap
      · simp at hon
      simp only [Except.ok.injEq] at hon
      subst hon
      simp only [overlapWindow] at hw
      cases ha : data.head? with
      | none => rw [ha] at hw; simp at hw
      | some a =>
        cases hb : data.getLast? with
        | none => rw [ha, hb] at hw; simp at hw
        | some b =>
          rw [ha, hb] at hw
          simp only [Except.ok.injEq] at hw
          have hnil : filterRowGroups T c (T.get c a) (T.get c b) rgs = [] := by
            simp only [filterRowGroups, List.map_eq_nil_iff, List.filter_eq_nil_iff]
            intro q hq
            have hmem : q.1 ∈ rgs := by
              have := List.mem_map_of_mem (f := Prod.fst) hq
              rwa [List.zipIdx_map_fst] at this
            by_cases hqe : q.1.rows = []
            · simp [overlaps, rgMin, hqe]
            · intro ho
              obtain ⟨⟨x, hx, hle⟩, _⟩ := (overlaps_iff hqe).1 ho
              have := (List.pairwise_append.1 hst).2.2 x
                (List.mem_flatten.2 ⟨q.1.rows, List.mem_map.2 ⟨q.1, hmem, rfl⟩, hx⟩) a (List.mem_of_head? ha)
              omega
          rw [hnil] at hw
          exact hw.symm
  subst hw0
  have htr : (trailing (m * 9 / 10) rgs).length = runEnd (complete m) 0 (rgs.map RG.rows) := by
    rw [runEnd_takeWhile, trailing, ← List.map_reverse, List.takeWhile_map, List.length_map]
    congr 2
    funext g
    rw [Function.comp_apply, Bool.eq_iff_iff]
    simp [complete]
  have htrle := trailing_le (m * 9 / 10) rgs
  rcases hcase with ⟨_, hco, chunks, hit, rfl⟩ | ⟨s, hup, hco⟩
  · refine Or.inr (Or.inl ?_)
    rcases hco with hn | ⟨m', k', h1, h2, hco⟩
    · rw [hk] at hn; cases hn
    rw [hm] at h1; rw [hk] at h2
    cases h1; cases h2
    simp only [coalesce] at hco
    split at hco
    · cases hco
    · rename_i hlt
      simp only [Bool.or_eq_true, decide_eq_true_eq, not_or, not_le, ge_iff_le] at hlt
      refine ⟨by omega, by omega, ?_⟩
      rw [writeRowGroups, List.map_append, hrows, hpl chunks hit]
  · refine Or.inr (Or.inr ?_)
    rcases hco with ⟨hn, _⟩ | ⟨m', k', h1, h2, hco⟩
    · rw [hk] at hn; cases hn
    rw [hm] at h1; rw [hk] at h2
    cases h1; cases h2
    have hs : s = rgs.length - (trailing (m * 9 / 10) rgs).length := by
      simp only [coalesce] at hco
      split at hco
      · simp only [Option.some.injEq] at hco; exact hco.symm
      · cases hco
    refine ⟨rgs.take s, rgs.drop s, (List.take_append_drop s rgs).symm, ?_, ?_⟩
    · rw [hs, htr, List.map_take]
      simpa using runEnd_before (complete m) (rgs.map RG.rows)
    · simp only [writeUpdate, Option.getD_none, List.take_length] at hup
      by_cases hem : (rgs.drop s).isEmpty = true
      · simp [hem, bind, Except.bind, throw, throwThe, MonadExceptOf.throw] at hup
      simp only [hem, Bool.false_eq_true, if_false, bind, Except.bind, pure, Except.pure] at hup
      have hmerged : ∀ c, on = some c → c ∈ T.cols ∧ StrictOn (T.get c) (readRows (rgs.drop s) ++ data) := by
        intro c hc
        subst hc
        rcases ho with ho | ⟨c', ho, hst⟩
        · rw [ho] at hon; simp [checkOrderedOn] at hon
        · rw [ho] at hon
          simp only [checkOrderedOn] at hon
          split at hon
          swap
          · simp at hon
          simp only [Except.ok.injEq, Option.some.injEq] at hon
          subst hon
          refine ⟨by assumption, hst.sublist (List.Sublist.append ?_ (List.Sublist.refl _))⟩
          have : readRows rgs = readRows (rgs.take s) ++ readRows (rgs.drop s) := by
            rw [readRows, readRows, readRows, ← List.flatten_append, ← List.map_append, List.take_append_drop]
          rw [this]
          exact List.sublist_append_right _ _
      obtain ⟨chunks, hit, rfl⟩ : ∃ chunks, iterDataframe T (readRows (rgs.drop s) ++ data) true p.maxRg on p.dupOn = .ok chunks ∧
          renumber ((writeRowGroups rgs chunks).take s ++ (writeRowGroups rgs chunks).drop rgs.length) = rgs' := by
        cases on with
        | none =>
          cases hit : iterDataframe T (readRows (rgs.drop s) ++ data) true p.maxRg none p.dupOn with
          | error e => simp only [hit] at hup; cases hup
          | ok v => simp only [hit, Except.ok.injEq] at hup; exact ⟨v, rfl, hup⟩
        | some c =>
          have := (hmerged c rfl).2.imp (S := fun a b => T.get c a ≤ T.get c b) fun h => h.le
          simp only [stableSort_of_sorted _ _ this] at hup
          cases hit : iterDataframe T (readRows (rgs.drop s) ++ data) true p.maxRg (some c) p.dupOn with
          | error e => simp only [hit] at hup; cases hup
          | ok v => simp only [hit, Except.ok.injEq] at hup; exact ⟨v, rfl, hup⟩
      rw [hm] at hit
      have h1 := rowsOf_renumber ((writeRowGroups rgs chunks).take s ++ (writeRowGroups rgs chunks).drop rgs.length)
      simp only [rowsOf] at h1
      rw [h1, writeRowGroups, List.take_append_of_le_length (by omega), List.drop_left, List.map_append, hrows,
        iter_atEnd hd hmerged hit]

theorem pieces_flatten (m : Nat) (l : List R) : (piecesOf m l).flatten = l := by
  unfold piecesOf
  split
  · rename_i hl; subst hl; rfl
  · rename_i hl
    have hn : l.length ≠ 0 := by simpa using hl
    have hp := rgSizeOf_pos l.length m hn
    rw [partStarts_eq _ _ hn]
    have hsort := rangeStep_sorted l.length _ hp
    obtain ⟨r, hr⟩ := rangeStep_head l.length _ hp (by omega)
    rw [hr] at hsort ⊢
    rw [slices_flatten l 0 r (hsort.imp (fun h => le_of_lt h))]
    simp

/-! ### C88 -/

/-- Frames written one after the other at the end of a dataset `rgs0`, with the same `max_row_group_size` and `max_nirgs`. -/
inductive AppendHist (T : Table R) (m k : Nat) (rgs0 : List (RG R)) : List (List R) → List (RG R) → Prop
  | nil : AppendHist T m k rgs0 [] rgs0
  | snoc {frames rgs rgs' p data} : AppendHist T m k rgs0 frames rgs → p.maxRg = some m → p.maxNirgs = some k →
      AtEnd T p (readRows rgs0 ++ frames.flatten) data → write T p rgs data = .ok rgs' →
      AppendHist T m k rgs0 (frames ++ [data]) rgs'

theorem AppendHist.runs {T : Table R} {m k h' b : Nat} {rgs0 : List (RG R)} {frames : List (List R)} {rgs : List (RG R)}
    (hk' : k ≤ h') (hb : max k 9 ≤ b) (h0 : RunsIn (complete m) h' 0 (rgs0.map RG.rows))
    (h1 : runEnd (complete m) 0 (rgs0.map RG.rows) ≤ b) (h : AppendHist T m k rgs0 frames rgs) :
    readRows rgs = readRows rgs0 ++ frames.flatten ∧ RunsIn (complete m) h' 0 (rgs.map RG.rows) ∧
      runEnd (complete m) 0 (rgs.map RG.rows) ≤ b := by
  have hb9 : 9 ≤ b := (Nat.le_max_right _ _).trans hb
  have hbk : k ≤ b := (Nat.le_max_left _ _).trans hb
  induction h with
  | nil => exact ⟨by simp, h0, h1⟩
  | @snoc frames rgs rgs' p data _ hm hk ho hw ih =>
    obtain ⟨ih1, ih2, ih3⟩ := ih
    rw [← ih1] at ho
    have hp9 := fun l : List R => pieces_runs m l
    have hfl : ∀ l : List R, readRows rgs ++ data = l → readRows rgs0 ++ (frames ++ [data]).flatten = l := by
      intro l hl
      rw [← hl, ih1]; simp
    rcases write_atEnd hm hk ho hw with ⟨rfl, h1⟩ | ⟨hlt, hd, h1⟩ | ⟨P, W, rfl, h0, h1⟩
    · refine ⟨?_, ?_, ?_⟩
      · rw [readRows, h1, pieces_flatten]
        exact (hfl _ (by simp [readRows])).symm
      · rw [h1]; exact (hp9 data).1.mono (Nat.zero_le _)
      · rw [h1]; exact (hp9 data).2.trans hb9
    · refine ⟨?_, ?_, ?_⟩
      · rw [readRows, h1, List.flatten_append, pieces_flatten]
        exact (hfl _ (by simp [readRows])).symm
      · rw [h1, runsIn_append]
        refine ⟨ih2, ?_⟩
        rcases pieces_one hd with h | h <;> rw [h] <;> simp only [RunsIn]
        split
        · exact ⟨hlt.le.trans hk', trivial⟩
        · trivial
      · rw [h1, runEnd_append]
        rcases pieces_one hd with h | h <;> rw [h] <;> simp only [runEnd]
        · omega
        · split <;> omega
    · rw [List.map_append, runsIn_append] at ih2
      refine ⟨?_, ?_, ?_⟩
      · rw [readRows, h1, List.flatten_append, pieces_flatten]
        exact (hfl _ (by simp [readRows])).symm
      · rw [h1, runsIn_append, h0]
        exact ⟨ih2.1, (hp9 _).1.mono (Nat.zero_le _)⟩
      · rw [h1, runEnd_append, h0]
        exact (hp9 _).2.trans hb9

theorem runs_of_row {m b : Nat} (W l : List (List R)) (hW : ∀ x ∈ W, complete m x = false) (h : AtMostInARow b m (W ++ l)) :
    RunsIn (complete m) b W.length l ∧ runEnd (complete m) W.length l ≤ b := by
  have hWb : W.length ≤ b := h [] W l (by simp) fun x hx => by
    simpa [complete, Incomplete] using hW x hx
  induction l generalizing W with
  | nil => exact ⟨trivial, hWb⟩
  | cons x l ih =>
    simp only [RunsIn, runEnd]
    by_cases hx : complete m x = true
    · simp only [hx, if_true]
      have := ih [] (by simp) (fun A V B hV hi => h (W ++ x :: A) V B (by rw [List.nil_append] at hV; rw [hV]; simp) hi) (Nat.zero_le _)
      exact ⟨⟨hWb, this.1⟩, this.2⟩
    · simp only [hx, Bool.false_eq_true, if_false]
      have hW' : ∀ y ∈ W ++ [x], complete m y = false := by
        intro y hy
        rcases List.mem_append.1 hy with hy | hy
        · exact hW y hy
        · rw [List.mem_singleton] at hy; subst hy; simpa using hx
      have h' : AtMostInARow b m ((W ++ [x]) ++ l) := by simpa using h
      have := ih (W ++ [x]) hW' h' (h' [] (W ++ [x]) l (by simp) fun y hy => by simpa [complete, Incomplete] using hW' y hy)
      simpa using this

/-- **C88** Writes that append rows, with a given `max_row_group_size` and `max_nirgs`: whatever their number, there are never more than
`b` incomplete row groups in a row if it was so before, for any `b` that is at least `max_nirgs` and nine. -/
theorem C88_in_a_row {T : Table R} {m k b : Nat} {rgs0 rgs : List (RG R)} {frames : List (List R)} (hb : max k 9 ≤ b)
    (h0 : AtMostInARow b m (rgs0.map RG.rows)) (h : AppendHist T m k rgs0 frames rgs) : AtMostInARow b m (rgs.map RG.rows) := by
  obtain ⟨h2, h3⟩ := runs_of_row [] (rgs0.map RG.rows) (by simp) h0
  obtain ⟨_, h1, h2⟩ := h.runs ((Nat.le_max_left _ _).trans hb) hb h2 h3
  intro A W B hW hi
  rw [hW] at h1 h2
  exact runs_row (Nat.le_refl _) h1 h2 fun l hl => by
    simp only [complete, decide_eq_false_iff_not, not_lt]; exact hi l hl

/-- **C88** In a dataset made in this way, incomplete row groups in a row followed by a complete one are at most `max_nirgs`. -/
theorem C88_before_complete {T : Table R} {m k : Nat} {rgs : List (RG R)} {frames : List (List R)} (h : AppendHist T m k [] frames rgs)
    {A W B : List (List R)} {g : List R} (hr : rgs.map RG.rows = A ++ W ++ g :: B) (hW : ∀ l ∈ W, Incomplete m l)
    (hg : ¬ Incomplete m g) : W.length ≤ k := by
  obtain ⟨_, h1, _⟩ := h.runs (Nat.le_refl _) (Nat.le_refl _) (by simp [RunsIn]) (by simp [runEnd])
  rw [hr, runsIn_append, runEnd_append, runEnd_none (fun l hl => by
    have := hW l hl
    simpa [complete, Incomplete] using this)] at h1
  have hc : complete m g = true := by simpa [complete, Incomplete] using hg
  simp only [RunsIn, hc, if_true] at h1
  omega

theorem complete_rows (m : Nat) (ls : List (List R)) : ls.countP (complete m) * (m * 9 / 10 + 1) ≤ ls.flatten.length := by
  induction ls with
  | nil => simp
  | cons l ls ih =>
    rw [List.flatten_cons, List.length_append]
    by_cases hl : complete m l = true
    · rw [List.countP_cons_of_pos hl, Nat.succ_mul]
      simp only [complete, decide_eq_true_eq] at hl
      omega
    · rw [List.countP_cons_of_neg hl]
      omega

/-- **C88** Hence the number of row groups is bounded by the number of rows, however many writes there were. -/
theorem C88_files {T : Table R} {m k b : Nat} {rgs0 rgs : List (RG R)} {frames : List (List R)} (hb : max k 9 ≤ b)
    (h0 : AtMostInARow b m (rgs0.map RG.rows)) (h : AppendHist T m k rgs0 frames rgs) :
    rgs.length ≤ (b + 1) * ((readRows rgs0 ++ frames.flatten).length / (m * 9 / 10 + 1)) + b := by
  obtain ⟨h2, h3⟩ := runs_of_row [] (rgs0.map RG.rows) (by simp) h0
  obtain ⟨h0, h1, h2⟩ := h.runs ((Nat.le_max_left _ _).trans hb) hb h2 h3
  have h3 := runs_count (Nat.le_refl b) h1 h2
  have h4 : (rgs.map RG.rows).countP (complete m) ≤ (readRows rgs0 ++ frames.flatten).length / (m * 9 / 10 + 1) := by
    rw [Nat.le_div_iff_mul_le (Nat.succ_pos _), ← h0]
    exact complete_rows m _
  have h5 := Nat.mul_le_mul_left (b + 1) h4
  simp only [List.length_map] at h3
  omega

/-- **C88** A new dataset. -/
theorem C88_new {T : Table R} {m k : Nat} {rgs : List (RG R)} {frames : List (List R)} (h : AppendHist T m k [] frames rgs) :
    AtMostInARow (max k 9) m (rgs.map RG.rows) ∧
      rgs.length ≤ (max k 9 + 1) * (frames.flatten.length / (m * 9 / 10 + 1)) + max k 9 := by
  have h0 : AtMostInARow (max k 9) m (([] : List (RG R)).map RG.rows) := by
    intro A W B hW _
    have := congrArg List.length hW
    simp only [List.map_nil, List.length_nil, List.length_append] at this
    omega
  exact ⟨C88_in_a_row (Nat.le_refl _) h0 h, by simpa [readRows] using C88_files (Nat.le_refl _) h0 h⟩

/-- Without `max_nirgs`, there is a row group per write. -/
theorem C88_without_fails (n : Nat) : ∃ rgs : List (RG (Int × Int)),
    Hist exT (fun p => p = { maxRg := some 100 }) (List.replicate n (exRows [1])) rgs ∧ rgs.length = n := by
  induction n with
  | zero => exact ⟨[], .nil, rfl⟩
  | succ n ih =>
    obtain ⟨rgs, h1, h2⟩ := ih
    rw [List.replicate_succ']
    by_cases h0 : rgs = []
    · subst h0
      exact ⟨[⟨0, exRows [1]⟩], .snoc h1 rfl (by rfl), by simpa using h2.symm⟩
    · refine ⟨rgs ++ [⟨nextId rgs, exRows [1]⟩], .snoc h1 rfl ?_, by simp [h2]⟩
      have hemp : rgs.isEmpty = false := by cases rgs <;> simp_all
      simp [write, checkOrderedOn, bind, Except.bind, hemp, overlapWindow, pure, Except.pure, writeRowGroups, exRows,
        iterDataframe, partStarts, rangeStep, slices, numberFrom]

theorem hist_foldlM {T : Table R} {p : Params} {fs frames : List (List R)} {rgs rgs' : List (RG R)}
    (h : Hist T (fun q => q = p) frames rgs) (hf : fs.foldlM (fun r f => write T p r f) rgs = .ok rgs') :
    Hist T (fun q => q = p) (frames ++ fs) rgs' := by
  induction fs generalizing frames rgs with
  | nil =>
    rw [List.foldlM_nil] at hf
    cases hf
    simpa using h
  | cons f fs ih =>
    rw [List.foldlM_cons] at hf
    cases hw : write T p rgs f with
    | error e => rw [hw] at hf; cases hf
    | ok r =>
      rw [hw] at hf
      have := ih (.snoc h rfl hw) hf
      simpa using this

theorem Hist.appends {T : Table R} {p : Params} {m k : Nat} {frames : List (List R)} {rgs : List (RG R)}
    (ho : p.orderedOn = none) (hm : p.maxRg = some m) (hk : p.maxNirgs = some k) (h : Hist T (fun q => q = p) frames rgs) :
    AppendHist T m k [] frames rgs := by
  induction h with
  | nil => exact .nil
  | snoc _ hp hw ih => subst hp; exact .snoc ih hm hk (Or.inl ho) hw

/-- Frames of one row: a row group of four rows is made when there are two incomplete ones and then four rows. -/
example : ∃ rgs, AppendHist exT 4 2 [] [exRows [1], exRows [2], exRows [3], exRows [4], exRows [5]] rgs ∧
    rgs.map RG.rows = [exRows [1, 2, 3, 4], exRows [5]] := by
  refine ⟨[⟨0, exRows [1, 2, 3, 4]⟩, ⟨1, exRows [5]⟩], Hist.appends (p := { maxRg := some 4, maxNirgs := some 2 }) rfl rfl rfl
    (hist_foldlM (frames := []) .nil ?_), rfl⟩
  decide +kernel

/-- Frames in order, with `ordered_on`. -/
example : ∃ rgs, AppendHist exT 4 2 [] [exRows [1, 2], exRows [3], exRows [5, 7]] rgs ∧
    rgs.map RG.rows = [exRows [1, 2, 3], exRows [5, 7]] := by
  refine ⟨[⟨0, exRows [1, 2, 3]⟩, ⟨1, exRows [5, 7]⟩],
    .snoc (p := { maxRg := some 4, maxNirgs := some 2, orderedOn := some (.col 0) })
      (.snoc (p := { maxRg := some 4, maxNirgs := some 2, orderedOn := some (.col 0) }) (rgs := [⟨0, exRows [1, 2]⟩])
        (rgs' := [⟨0, exRows [1, 2]⟩, ⟨1, exRows [3]⟩])
        (.snoc (p := { maxRg := some 4, maxNirgs := some 2, orderedOn := some (.col 0) }) .nil rfl rfl ?_ ?_) rfl rfl ?_ ?_)
      rfl rfl ?_ ?_, rfl⟩
  · exact Or.inr ⟨0, rfl, by decide +kernel⟩
  · decide +kernel
  · exact Or.inr ⟨0, rfl, by decide +kernel⟩
  · decide +kernel
  · exact Or.inr ⟨0, rfl, by decide +kernel⟩
  · decide +kernel

/-- A frame written after a dataset with five incomplete row groups made otherwise: they are coalesced. -/
example : ∃ rgs, AppendHist exT 4 2 (exRgs [[1], [2], [3], [4], [5]]) [exRows [6, 7]] rgs ∧
    rgs.map (fun g => g.rows.map Prod.fst) = [[1, 2, 3, 4], [5, 6, 7]] ∧
    AtMostInARow 9 4 ((exRgs [[1], [2], [3], [4], [5]]).map RG.rows) := by
  refine ⟨[⟨0, [(1, 0), (2, 0), (3, 0), (4, 0)]⟩, ⟨1, [(5, 0), (6, 1), (7, 1)]⟩],
    .snoc (p := { maxRg := some 4, maxNirgs := some 2 }) .nil rfl rfl (Or.inl rfl) (by decide +kernel), by decide +kernel, ?_⟩
  intro A W B hW _
  have := congrArg List.length hW
  simp [exRgs] at this
  omega

/-- Incomplete row groups may be more than `max_nirgs`, nine for one write: 81 rows are not put in eight row groups of ten rows and one of
one row, but in nine row groups of nine rows. -/
theorem C88_nine_fails : ∃ rgs, AppendHist exT 10 1 [] [exRows ((List.range 81).map Int.ofNat)] rgs ∧
    ¬ AtMostInARow 8 10 (rgs.map RG.rows) := by
  obtain ⟨rgs, hw⟩ := C14_append_succeeds (T := exT) (p := { maxRg := some 10 }) (rgs := []) (data := exRows ((List.range 81).map Int.ofNat))
    rfl rfl rfl (by simp)
  have hw' : write exT { maxRg := some 10, maxNirgs := some 1 } [] (exRows ((List.range 81).map Int.ofNat)) = .ok rgs := hw
  refine ⟨rgs, Hist.appends (p := { maxRg := some 10, maxNirgs := some 1 }) rfl rfl rfl (.snoc .nil rfl hw'), fun h => ?_⟩
  have hs : (write exT { maxRg := some 10 } [] (exRows ((List.range 81).map Int.ofNat))).toOption.map
      (fun rgs => (rgs.map RG.rows).map List.length) = some (List.replicate 9 9) := by decide +kernel
  rw [hw] at hs
  simp only [Except.toOption, Option.map_some, Option.some.injEq] at hs
  have := h [] (rgs.map RG.rows) [] (by simp) (fun l hl => by
    have h9 : l.length ∈ List.replicate 9 9 := by rw [← hs]; exact List.mem_map.2 ⟨l, hl, rfl⟩
    rw [Incomplete, List.eq_of_mem_replicate h9])
  have h9 := congrArg List.length hs
  simp only [List.length_map, List.length_replicate] at h9 this
  omega

/-- Parameters of the writes of a stream with `max_nirgs` 1. -/
def exP : Params := { orderedOn := some (.col 0), dupOn := some (.one 0), maxRg := some 2, maxNirgs := some 1 }

theorem replaced_step {A : List (RG (Int × Int))} {i : Nat} {x : Int} (hA : A ≠ [])
    (hx : ∀ g ∈ A, g.rows ≠ [] ∧ ∀ r ∈ g.rows, r.1 < x + 1) :
    ∃ rgs, write exT exP (A ++ [⟨i, exRows [x, x + 1]⟩]) (exRows [x + 1, x + 2]) = .ok rgs ∧
      rgs.map RG.rows = A.map RG.rows ++ [exRows [x], exRows [x + 1, x + 2]] := by
  obtain ⟨s, hs⟩ : ∃ s, A.length = s + 1 := ⟨A.length - 1, by have := List.length_pos_of_ne_nil hA; omega⟩
  have hw : overlapWindow exT (A ++ [⟨i, exRows [x, x + 1]⟩]) (exRows [x + 1, x + 2]) (some 0) = .ok (some (s + 1), none) := by
    simp only [overlapWindow, exRows, List.map_cons, List.map_nil, List.head?_cons, List.getLast?_cons_cons, List.getLast?_singleton,
      exT, if_true, Except.ok.injEq]
    have hnil : (A.zipIdx.filter (fun p => overlaps ⟨[0, 1], fun c r => if c = 0 then r.1 else r.2⟩ 0 (x + 1) (x + 2) p.1)) = [] := by
      rw [List.filter_eq_nil_iff]
      intro q hq
      have hmem : q.1 ∈ A := by
        have := List.mem_map_of_mem (f := Prod.fst) hq
        rwa [List.zipIdx_map_fst] at this
      obtain ⟨h1, h2⟩ := hx _ hmem
      rw [overlaps_iff h1]
      rintro ⟨⟨r, hr, hr2⟩, _⟩
      have := h2 r hr
      simp at hr2
      omega
    have h1 : overlaps ⟨[0, 1], fun c (r : Int × Int) => if c = 0 then r.1 else r.2⟩ 0 (x + 1) (x + 2) ⟨i, [(x, 1), (x + 1, 1)]⟩ = true := by
      rw [overlaps_iff (by simp)]
      exact ⟨⟨(x + 1, 1), by simp, by simp⟩, ⟨(x, 1), by simp, by simp⟩⟩
    simp only [filterRowGroups, List.zipIdx_append, List.filter_append, hnil, List.nil_append, List.zipIdx_singleton, List.filter_cons,
      h1, if_true, List.filter_nil, List.map_cons, List.map_nil, windowOf, hs]
    simp
  have hco : coalesce 2 1 (A ++ [⟨i, exRows [x, x + 1]⟩]) (exRows [x + 1, x + 2]).length (some (s + 1)) none = some (s + 1) := by
    simp [coalesce, trailing, exRows, hs]
  have hso : stableSort (exT.get 0) (exRows [x, x + 1] ++ exRows [x + 1, x + 2]) = exRows [x, x + 1] ++ exRows [x + 1, x + 2] := by
    apply stableSort_of_sorted
    simp [SortedOn, exRows, exT]
  have hit : iterDataframe exT (exRows [x, x + 1] ++ exRows [x + 1, x + 2]) true (some 2) (some 0) (some (.one 0)) =
      .ok [exRows [x], exRows [x + 1, x + 2]] := by
    simp [iterDataframe, exRows, exT, partStarts, rangeStep, List.range_succ, searchsortedLeft, npUnique, insertUnique, slices, dropDupLast,
      dupCols, Table.key, pure, Except.pure, List.takeWhile]
  refine ⟨renumber ((writeRowGroups (A ++ [⟨i, exRows [x, x + 1]⟩]) [exRows [x], exRows [x + 1, x + 2]]).take (s + 1) ++
      (writeRowGroups (A ++ [⟨i, exRows [x, x + 1]⟩]) [exRows [x], exRows [x + 1, x + 2]]).drop (s + 2)), ?_, ?_⟩
  · have hch : checkOrderedOn exT (some (.col 0)) = .ok (some 0) := by decide +kernel
    have he : (A ++ [(⟨i, exRows [x, x + 1]⟩ : RG (Int × Int))]).isEmpty = false := by simp
    have htk : ((A ++ [(⟨i, exRows [x, x + 1]⟩ : RG (Int × Int))]).take (s + 1 + 1)).drop (s + 1) = [⟨i, exRows [x, x + 1]⟩] := by
      rw [List.take_of_length_le (by simp [hs]), ← hs, List.drop_left]
    simp only [write, hch, bind, Except.bind, he, Bool.false_eq_true, if_false, exP, Option.isSome_some, Option.isNone_some,
      Bool.and_false, hw, pure, Except.pure, hco, writeUpdate, Option.getD_none, htk, List.isEmpty_cons, readRows, List.map_cons,
      List.map_nil, List.flatten_cons, List.flatten_nil, List.append_nil, hso, hit, List.length_append, List.length_singleton, hs]
  · have h1 := fun l : List (RG (Int × Int)) => rowsOf_renumber l
    simp only [rowsOf] at h1
    rw [h1, writeRowGroups, List.take_append_of_le_length (by simp [hs]), ← hs, List.take_left, List.drop_append_of_le_length (by simp [hs])]
    rw [List.drop_of_length_le (by simp [hs])]
    simp [numberFrom, exRows]


/-- Frames of which the first row replaces the last one recorded. -/
def exReplaced (n : Nat) : List (List (Int × Int)) :=
  exRows [0, 1, 2, 3] :: (List.range n).map fun i => exRows [Int.ofNat i + 3, Int.ofNat i + 4]

/-- If the first row of a frame replaces the last row recorded, as the first write of a session of `AggStream` does, row groups lose a row when it is replaced: with
`max_nirgs` 1, each write leaves one more incomplete row group at the end, before the last one that is complete, and none of them is ever
coalesced. -/
theorem C88_replaced_fails (n : Nat) : ∃ rgs, Hist exT (fun p => p = exP) (exReplaced n) rgs ∧
    rgs.map RG.rows = exRows [0, 1] :: (List.range n).map (fun i => exRows [Int.ofNat i + 2]) ++ [exRows [Int.ofNat n + 2, Int.ofNat n + 3]] ∧
    ∀ b < n, ¬ AtMostInARow b 2 (rgs.map RG.rows) := by
  have key : ∃ rgs, Hist exT (fun p => p = exP) (exReplaced n) rgs ∧ rgs.map RG.rows =
      exRows [0, 1] :: (List.range n).map (fun i => exRows [Int.ofNat i + 2]) ++ [exRows [Int.ofNat n + 2, Int.ofNat n + 3]] := by
    induction n with
    | zero => exact ⟨[⟨0, exRows [0, 1]⟩, ⟨1, exRows [2, 3]⟩], hist_foldlM (frames := []) .nil (by decide +kernel), by decide +kernel⟩
    | succ n ih =>
      obtain ⟨rgs, h1, h2⟩ := ih
      rw [List.map_eq_append_iff] at h2
      obtain ⟨A, G, rfl, hA, hG⟩ := h2
      obtain ⟨g, rfl, hg⟩ : ∃ g, G = [g] ∧ g.rows = exRows [Int.ofNat n + 2, Int.ofNat n + 3] := by
        cases G with
        | nil => simp at hG
        | cons g G =>
          simp only [List.map_cons, List.cons.injEq, List.map_eq_nil_iff] at hG
          exact ⟨g, by rw [hG.2], hG.1⟩
      obtain ⟨i, rows⟩ := g
      simp only at hg
      subst hg
      obtain ⟨rgs', h3, h4⟩ := replaced_step (A := A) (i := i) (x := Int.ofNat n + 2) (by rintro rfl; simp at hA) (by
        intro g hg
        have hm : g.rows ∈ A.map RG.rows := List.mem_map_of_mem hg
        rw [hA] at hm
        rcases List.mem_cons.1 hm with hm | hm
        · rw [hm]
          refine ⟨by simp [exRows], ?_⟩
          intro r hr
          simp only [exRows, List.map_cons, List.map_nil, List.mem_cons, List.not_mem_nil, or_false] at hr
          rcases hr with rfl | rfl <;> simp <;> omega
        · obtain ⟨j, hj, hm⟩ := List.mem_map.1 hm
          rw [← hm]
          refine ⟨by simp [exRows], ?_⟩
          intro r hr
          simp only [exRows, List.map_cons, List.map_nil, List.mem_cons, List.not_mem_nil, or_false] at hr
          have := List.mem_range.1 hj
          subst hr
          simp
          omega)
      have e1 : Int.ofNat n + 2 + 1 = Int.ofNat n + 3 := by omega
      have e2 : Int.ofNat n + 2 + 2 = Int.ofNat n + 4 := by omega
      have e3 : Int.ofNat (n + 1) + 2 = Int.ofNat n + 3 := by simp; omega
      have e4 : Int.ofNat (n + 1) + 3 = Int.ofNat n + 4 := by simp; omega
      rw [e1, e2] at h3 h4
      refine ⟨rgs', ?_, ?_⟩
      · have := Hist.snoc h1 rfl h3
        simpa [exReplaced, List.range_succ] using this
      · rw [h4, hA, e3, e4, List.range_succ]
        simp
  obtain ⟨rgs, h1, h2⟩ := key
  refine ⟨rgs, h1, h2, fun b hb h => ?_⟩
  have := h [exRows [0, 1]] ((List.range n).map (fun i => exRows [Int.ofNat i + 2])) [exRows [Int.ofNat n + 2, Int.ofNat n + 3]]
    (by rw [h2]; simp) (by
      intro l hl
      obtain ⟨i, _, rfl⟩ := List.mem_map.1 hl
      simp [Incomplete, exRows])
  simp at this
  omega

end Oups.Writer
