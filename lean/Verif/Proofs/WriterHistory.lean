import Verif.Proofs.WriterMain
/-! Consequences for histories of writes. -/
set_option linter.unusedSimpArgs false
namespace Oups.Writer
variable {R : Type}

/-! ### Canonical form of the result of an ordered write -/

theorem stableSort_window (k : R → Int) {a w b data : List R} (hs : SortedOn k (a ++ w ++ b))
    (ha : ∀ x ∈ a, ∀ y ∈ data, k x < k y) (hb : ∀ x ∈ b, ∀ y ∈ data, k y < k x) :
    stableSort k (a ++ w ++ b ++ data) = a ++ stableSort k (w ++ data) ++ b := by
  have hs' := List.pairwise_append.1 hs
  have hs1 := List.pairwise_append.1 hs'.1
  apply sorted_ext k
  · exact stableSort_sorted _ _
  · rw [SortedOn, List.pairwise_append, List.pairwise_append]
    refine ⟨⟨hs1.1, stableSort_sorted _ _, ?_⟩, hs'.2.1, ?_⟩
    · intro x hx y hy
      rcases List.mem_append.1 ((mem_stableSort _ _ _).1 hy) with hy | hy
      · exact hs1.2.2 x hx y hy
      · exact le_of_lt (ha x hx y hy)
    · intro x hx y hy
      rcases List.mem_append.1 hx with hx | hx
      · exact hs'.2.2 x (List.mem_append_left _ hx) y hy
      · rcases List.mem_append.1 ((mem_stableSort _ _ _).1 hx) with hx | hx
        · exact hs'.2.2 x (List.mem_append_right _ hx) y hy
        · exact le_of_lt (hb y hy x hx)
  · intro v
    rw [stableSort_filter k _ v (by simp)]
    simp only [List.filter_append]
    rw [stableSort_filter k _ v (by simp)]
    simp only [List.filter_append]
    by_cases hd : data.filter (fun r => decide (k r = v)) = []
    · simp [hd]
    · obtain ⟨y, hy⟩ := List.exists_mem_of_ne_nil _ hd
      simp only [List.mem_filter, decide_eq_true_eq] at hy
      have hbn : b.filter (fun r => decide (k r = v)) = [] := by
        rw [List.filter_eq_nil_iff]
        intro x hx
        have := hb x hx y hy.1
        simp only [decide_eq_true_eq]; omega
      simp [hbn]

/-- Rows identified by their ordering value and `duplicates_on` columns appear once (nothing asked if
`duplicates_on` is not used). -/
def Keyed (T : Table R) (on : Col) : Option DupOn → List R → Prop
  | none, _ => True
  | some d, l => (l.map (T.key (dupCols T.cols on d))).Nodup

theorem Merged.canonical {T : Table R} {on : Col} {dup : Option DupOn} {before data : List R} {rgs'}
    (hon : on ∈ T.cols) (hs : SortedOn (T.get on) before) (hk : Keyed T on dup before)
    (h : Merged T on dup before data rgs') :
    readRows rgs' = dedup T on dup (stableSort (T.get on) (before ++ data)) := by
  obtain ⟨a, w, b, rfl, hsep, ha, hb, hr⟩ := h.window
  rw [hr, stableSort_window _ hs ha hb]
  cases dup with
  | none => rfl
  | some d =>
    simp only [Keyed, List.map_append] at hk
    have hk1 := List.nodup_append.1 hk
    have hk2 := List.nodup_append.1 hk1.1
    simp only [Separated, List.pairwise_cons, List.mem_cons, List.not_mem_nil, or_false, forall_eq_or_imp,
      forall_eq, List.Pairwise.nil, and_true] at hsep
    have hne : ∀ x y : R, T.get on x < T.get on y →
        T.key (dupCols T.cols on d) x ≠ T.key (dupCols T.cols on d) y := by
      intro x y hxy he
      have := dupCols_sep hon he
      omega
    simp only [dedup]
    rw [dropDupLast_append, dropDupLast_append, dropDupLast_of_nodup _ a hk2.1, dropDupLast_of_nodup _ b hk1.2.1]
    · intro x hx y hy
      rcases List.mem_append.1 ((mem_stableSort _ _ _).1 hy) with hy | hy
      · exact hne _ _ (hsep.1.1 x hx y hy)
      · exact hne _ _ (ha x hx y hy)
    · intro x hx y hy
      rcases List.mem_append.1 hx with hx | hx
      · exact hne _ _ (hsep.1.2 x hx y hy)
      · rcases List.mem_append.1 ((mem_stableSort _ _ _).1 hx) with hx | hx
        · exact hne _ _ (hsep.2.1 x hx y hy)
        · exact hne _ _ (hb y hy x hx)

theorem Merged.keyed {T : Table R} {on : Col} {dup : Option DupOn} {before data : List R} {rgs'}
    (hon : on ∈ T.cols) (hs : SortedOn (T.get on) before) (hk : Keyed T on dup before)
    (h : Merged T on dup before data rgs') : Keyed T on dup (readRows rgs') := by
  rw [h.canonical hon hs hk]
  cases dup with
  | none => trivial
  | some d => exact dropDupLast_nodup _ _

theorem isMerge_sort (k : R → Int) (before data : List R) :
    IsMerge k before data (stableSort k (before ++ data)) := by
  refine ⟨stableSort_sorted _ _, fun v => ?_⟩
  rw [stableSort_filter k _ v (by simp), List.filter_append]

theorem nodup_filter_eq {κ : Type} [DecidableEq κ] {D : R → κ} {l : List R} (h : (l.map D).Nodup) {x : R}
    (hx : x ∈ l) : l.filter (fun r => D r = D x) = [x] := by
  induction l with
  | nil => simp at hx
  | cons a l ih =>
    rw [List.map_cons, List.nodup_cons] at h
    rcases List.mem_cons.1 hx with rfl | hx
    · rw [List.filter_cons_of_pos (by simp)]
      congr 1
      rw [List.filter_eq_nil_iff]
      intro y hy
      simp only [decide_eq_true_eq]
      intro he
      exact h.1 (List.mem_map.2 ⟨y, hy, he⟩)
    · rw [List.filter_cons_of_neg, ih h.2 hx]
      simp only [decide_eq_true_eq]
      intro he
      exact h.1 (List.mem_map.2 ⟨x, hx, he.symm⟩)

theorem isUpsert_dedup {κ : Type} [DecidableEq κ] (k : R → Int) (D : R → κ)
    (hD : ∀ x y, D x = D y → k x = k y) {before data : List R}
    (hb : (before.map D).Nodup) (hd : (data.map D).Nodup) :
    IsUpsert k D before data (dropDupLast D (stableSort k (before ++ data))) := by
  refine ⟨(stableSort_sorted k _).sublist (dropDupLast_sublist _ _), dropDupLast_nodup _ _, fun x => ?_⟩
  rw [mem_dropDupLast, stableSort_filter k _ (k x), List.filter_append]
  swap
  · intro r hr; exact hD _ _ (by simpa using hr)
  by_cases hx : ∃ y ∈ data, D y = D x
  · obtain ⟨y, hy, he⟩ := hx
    have : data.filter (fun r => decide (D r = D x)) = [y] := by
      rw [← he]; exact nodup_filter_eq hd hy
    rw [this, List.getLast?_append]
    simp only [List.getLast?_singleton, Option.some_or, Option.some.injEq]
    constructor
    · rintro rfl; exact Or.inl hy
    · rintro (h | ⟨_, h⟩)
      · have h1 := nodup_filter_eq hd h
        rw [h1] at this
        simpa using this.symm
      · exact absurd he (h y hy)
  · have : data.filter (fun r => decide (D r = D x)) = [] := by
      rw [List.filter_eq_nil_iff]
      intro y hy
      simp only [decide_eq_true_eq]
      exact fun he => hx ⟨y, hy, he⟩
    rw [this, List.append_nil]
    constructor
    · intro h
      have hm := List.mem_of_getLast? h
      exact Or.inr ⟨(List.mem_filter.1 hm).1, fun y hy he => hx ⟨y, hy, he⟩⟩
    · rintro (h | ⟨h, _⟩)
      · exact absurd ⟨x, h, rfl⟩ hx
      · rw [nodup_filter_eq hb h]; rfl

theorem strict_nodup {T : Table R} {on : Col} (hon : on ∈ T.cols) (d : DupOn) {l : List R}
    (h : StrictOn (T.get on) l) : (l.map (T.key (dupCols T.cols on d))).Nodup := by
  rw [List.nodup_iff_pairwise_ne, List.pairwise_map]
  refine List.Pairwise.imp ?_ h
  intro a b hab he
  have := dupCols_sep hon he
  omega

/-! ### Histories of ordered writes -/

/-- Datasets obtained by writing, one after the other, the frames `frames`, all with the same `ordered_on` and
`duplicates_on`, other parameters being free. -/
inductive OrdHist (T : Table R) (on : Col) (dup : Option DupOn) : List (List R) → List (RG R) → Prop
  | nil : OrdHist T on dup [] []
  | snoc {frames rgs rgs' p data} : OrdHist T on dup frames rgs →
      p.orderedOn = some (.col on) → p.dupOn = dup → data ≠ [] → TiesKept (T.get on) p.maxRg (rowsOf rgs) data →
      IdsDistinct T on dup (rowsOf rgs) data →
      NoGap (T.get on) (rowsOf rgs) data → CoalescingSafe (T.get on) p.maxRg p.maxNirgs (rowsOf rgs) data →
      write T p rgs data = .ok rgs' → OrdHist T on dup (frames ++ [data]) rgs'

theorem OrdHist.inv {T : Table R} {on : Col} {dup : Option DupOn} {frames rgs}
    (h : OrdHist T on dup frames rgs) :
    OrderedLayout (T.get on) (rowsOf rgs) ∧ Keyed T on dup (readRows rgs) ∧
      (frames ≠ [] → on ∈ T.cols) ∧ (∀ f ∈ frames, SortedOn (T.get on) f) := by
  induction h with
  | nil =>
    refine ⟨⟨by simp [rowsOf], by simp [rowsOf, Separated]⟩, ?_, by simp, by simp⟩
    cases dup <;> simp [Keyed, readRows]
  | snoc _ hp hd hne hs hi hg hc hw ih =>
    obtain ⟨h1, h2, h3, h4⟩ := ih
    obtain ⟨hon, hm⟩ := write_ordered hp h1 hne hs (hd ▸ hi) hg hc hw
    rw [hd] at hm
    refine ⟨hm.layout, hm.keyed hon h1.sorted h2, fun _ => hon, ?_⟩
    intro f hf
    rcases List.mem_append.1 hf with hf | hf
    · exact h4 f hf
    · simp at hf; subst hf; exact hs.1

theorem OrdHist.merge {T : Table R} {on : Col} {frames rgs}
    (h : OrdHist T on none frames rgs) : readRows rgs = stableSort (T.get on) frames.flatten := by
  generalize hdup : (none : Option DupOn) = dup at h
  induction h with
  | nil => rfl
  | @snoc frames rgs rgs' p data hh hp hd hne hs hi hg hc hw ih =>
    obtain ⟨h1, h2, _, _⟩ := hh.inv
    obtain ⟨hon, hm⟩ := write_ordered hp h1 hne hs (hd ▸ hi) hg hc hw
    rw [hd] at hm
    rw [hm.canonical hon (before := readRows rgs) h1.sorted h2, ← hdup]
    simp only [dedup]
    rw [show readRows rgs = stableSort (T.get on) frames.flatten from ih]
    apply sorted_ext (T.get on) _ _ (stableSort_sorted _ _) (stableSort_sorted _ _)
    intro v
    rw [stableSort_filter _ _ v (by simp), stableSort_filter _ _ v (by simp)]
    simp only [List.filter_append, List.flatten_append, List.flatten_cons, List.flatten_nil, List.append_nil]
    rw [stableSort_filter _ _ v (by simp)]

theorem getLast?_toList_append (a b : List R) :
    (a.getLast?.toList ++ b).getLast? = (a ++ b).getLast? := by
  rw [List.getLast?_append, List.getLast?_append]
  cases a.getLast? <;> simp

theorem OrdHist.upsert {T : Table R} {on : Col} {d : DupOn} {frames rgs}
    (h : OrdHist T on (some d) frames rgs) (u : List Int) :
    (readRows rgs).filter (fun r => T.key (dupCols T.cols on d) r = u) =
      (frames.flatten.filter (fun r => T.key (dupCols T.cols on d) r = u)).getLast?.toList := by
  generalize hdup : some d = dup at h
  induction h with
  | nil => rfl
  | @snoc frames rgs rgs' p data hh hp hd hne hs hi hg hc hw ih =>
    obtain ⟨h1, h2, _, _⟩ := hh.inv
    obtain ⟨hon, hm⟩ := write_ordered hp h1 hne hs (hd ▸ hi) hg hc hw
    rw [hd] at hm
    rw [hm.canonical hon (before := readRows rgs) h1.sorted h2, ← hdup]
    simp only [dedup]
    rw [dropDupLast_filter]
    by_cases hex : ∃ r, T.key (dupCols T.cols on d) r = u
    · obtain ⟨r0, hr0⟩ := hex
      rw [stableSort_filter _ _ (T.get on r0)]
      swap
      · intro r hr
        exact dupCols_sep hon (by rw [hr0]; simpa using hr)
      rw [List.filter_append, ih, getLast?_toList_append]
      simp
    · have hnil : ∀ l : List R, l.filter (fun r => decide (T.key (dupCols T.cols on d) r = u)) = [] := by
        intro l
        rw [List.filter_eq_nil_iff]
        intro r _
        simp only [decide_eq_true_eq]
        exact fun he => hex ⟨r, he⟩
      rw [hnil, hnil]

/-! ### No ordering -/

theorem readRows_renumber (rgs : List (RG R)) : readRows (renumber rgs) = readRows rgs := by
  rw [readRows_eq, rowsOf_renumber, readRows_eq]

theorem take_drop_split {α : Type} (l : List α) {s e : Nat} (h : s ≤ e) :
    l = l.take s ++ (l.take e).drop s ++ l.drop e := by
  have h1 : l.take s = (l.take e).take s := by rw [List.take_take, min_eq_left h]
  rw [h1, List.take_append_drop, List.take_append_drop]

theorem update_ok_lt {T : Table R} {p : Params} {rgs rgs' : List (RG R)} {data on s stop}
    (h : writeUpdate T p rgs data on s stop = .ok rgs') : s < stop.getD rgs.length ∧ s < rgs.length := by
  simp only [writeUpdate] at h
  by_cases he : ((rgs.take (stop.getD rgs.length)).drop s).isEmpty = true
  · simp [he, bind, Except.bind, throw, throwThe, MonadExceptOf.throw] at h
  · simp only [List.isEmpty_iff, List.drop_eq_nil_iff, List.length_take, not_le] at he
    omega

theorem update_perm {T : Table R} {p : Params} {rgs rgs' : List (RG R)} {data on s stop}
    (hdup : p.dupOn = none) (he : stop.getD rgs.length ≤ rgs.length)
    (h : writeUpdate T p rgs data on s stop = .ok rgs') : (readRows rgs').Perm (readRows rgs ++ data) := by
  have hlt := (update_ok_lt h)
  simp only [writeUpdate] at h
  by_cases hem : ((rgs.take (stop.getD rgs.length)).drop s).isEmpty = true
  · simp [hem, bind, Except.bind, throw, throwThe, MonadExceptOf.throw] at h
  simp only [hem, Bool.false_eq_true, if_false, bind, Except.bind, hdup, pure, Except.pure] at h
  generalize hE : stop.getD rgs.length = e at *
  have hsp := take_drop_split rgs (le_of_lt hlt.1)
  have htk : ∀ new : List (RG R), (rgs ++ new).take s = rgs.take s := fun new => by
    rw [List.take_append_of_le_length (by omega)]
  have hdr : ∀ new : List (RG R), (rgs ++ new).drop e = rgs.drop e ++ new := fun new => by
    rw [List.drop_append_of_le_length he]
  -- frames
  have hchunks : ∀ merged chunks, (iterDataframe T merged true p.maxRg on none = .ok chunks) →
      (on.isSome → ∀ c, on = some c → SortedOn (T.get c) merged) → chunks.flatten = merged := by
    intro merged chunks hit hsort
    cases on with
    | none => exact iter_plain_flatten hit
    | some c =>
      obtain ⟨hne, hm, rfl⟩ := iter_sharp_ok hit
      have : (slices merged (sharpStarts (T.get c) merged (p.maxRg.getD defaultMaxRg))).map (dedup T c none)
          = slices merged (sharpStarts (T.get c) merged (p.maxRg.getD defaultMaxRg)) := by
        conv_rhs => rw [← List.map_id (slices merged _)]
        rfl
      rw [this]
      exact (sharp_slices _ _ _ hne (hsort rfl c rfl)).1
  have fin : ∀ merged chunks (sorted : List (RG R)),
      merged.Perm (readRows ((rgs.take e).drop s) ++ data) →
      chunks.flatten = merged →
      sorted.Perm ((writeRowGroups rgs chunks).take s ++ (writeRowGroups rgs chunks).drop e) →
      (readRows (renumber sorted)).Perm (readRows rgs ++ data) := by
    intro merged chunks sorted hm hc hs
    rw [readRows_renumber]
    have h1 : (readRows sorted).Perm (readRows ((writeRowGroups rgs chunks).take s ++
        (writeRowGroups rgs chunks).drop e)) := (hs.map RG.rows).flatten
    refine h1.trans ?_
    simp only [writeRowGroups, htk, hdr]
    conv_rhs => rw [hsp]
    simp only [readRows_append, readRows_numberFrom, hc]
    have h2 : (readRows (rgs.drop e) ++ merged).Perm
        (readRows ((rgs.take e).drop s) ++ (readRows (rgs.drop e) ++ data)) := by
      refine (List.Perm.append_left _ hm).trans ?_
      rw [← List.append_assoc, ← List.append_assoc]
      exact List.Perm.append_right _ List.perm_append_comm
    have := List.Perm.append_left (readRows (rgs.take s)) h2
    simpa [List.append_assoc] using this
  have hsortP : ∀ c (l : List (RG R)), (sortRgs T c l).Perm l := fun c l => stableSort_perm _ _
  cases on with
  | none =>
    simp only at h
    cases hit : iterDataframe T (readRows ((rgs.take e).drop s) ++ data) true p.maxRg none none with
    | error e => rw [hit] at h; simp at h
    | ok chunks =>
      rw [hit] at h
      simp only [Except.ok.injEq] at h
      subst h
      refine fin _ chunks _ (List.Perm.refl _) (hchunks _ _ hit (by simp)) ?_
      cases stop <;> exact List.Perm.refl _
  | some c =>
    simp only at h
    cases hit : iterDataframe T (stableSort (T.get c) (readRows ((rgs.take e).drop s) ++ data)) true p.maxRg
        (some c) none with
    | error e => rw [hit] at h; simp at h
    | ok chunks =>
      rw [hit] at h
      simp only [Except.ok.injEq] at h
      subst h
      refine fin _ chunks _ (stableSort_perm _ _) (hchunks _ _ hit (fun _ c' hc' => ?_)) ?_
      · cases hc'; exact stableSort_sorted _ _
      · cases stop with
        | none => exact List.Perm.refl _
        | some e => exact hsortP _ _

theorem windowOf_le (n : Nat) (idxs : List Nat) (h : ∀ i ∈ idxs, i < n) :
    (windowOf n idxs).2.getD n ≤ n := by
  match idxs with
  | [] => simp [windowOf]
  | [i] => simp [windowOf]
  | i :: j :: rest =>
    simp only [windowOf]
    have := h ((j :: rest).getLast (by simp)) (List.mem_cons_of_mem _ (List.getLast_mem _))
    split
    · simp
    · simp only [Option.getD_some]; omega

theorem filterRowGroups_lt {T : Table R} {on s e} {rgs : List (RG R)} :
    ∀ i ∈ filterRowGroups T on s e rgs, i < rgs.length := by
  intro i hi
  simp only [filterRowGroups, List.mem_map, List.mem_filter] at hi
  obtain ⟨p, ⟨hp, _⟩, rfl⟩ := hi
  have := List.mem_map_of_mem (f := Prod.snd) hp
  rw [List.zipIdx_map_snd, List.mem_range'_1] at this
  omega

theorem overlapWindow_le {T : Table R} {rgs : List (RG R)} {data on w}
    (h : overlapWindow T rgs data on = .ok w) : w.2.getD rgs.length ≤ rgs.length := by
  cases on with
  | none => simp only [overlapWindow, Except.ok.injEq] at h; subst h; simp
  | some c =>
    simp only [overlapWindow] at h
    cases ha : data.head? with
    | none => rw [ha] at h; simp at h
    | some a =>
      cases hb : data.getLast? with
      | none => rw [ha, hb] at h; simp at h
      | some b =>
        rw [ha, hb] at h
        simp only [Except.ok.injEq] at h
        subst h
        exact windowOf_le _ _ filterRowGroups_lt

/-- The three ways `write` can succeed. -/
theorem write_cases {T : Table R} {p : Params} {rgs rgs' : List (RG R)} {data : List R}
    (h : write T p rgs data = .ok rgs') :
    ∃ on, checkOrderedOn T p.orderedOn = .ok on ∧
    ((rgs = [] ∧ ∃ chunks, iterDataframe T data false p.maxRg none none = .ok chunks ∧ rgs' = numberFrom 0 chunks) ∨
     (rgs ≠ [] ∧ (on = none → p.dupOn = none) ∧ ∃ w, overlapWindow T rgs data on = .ok w ∧
      ((w.1 = none ∧ (p.maxNirgs = none ∨
          ∃ m k, p.maxRg = some m ∧ p.maxNirgs = some k ∧ coalesce m k rgs data.length w.1 w.2 = none) ∧
        ∃ chunks, iterDataframe T data false p.maxRg none none = .ok chunks ∧
          rgs' = writeRowGroups rgs chunks) ∨
       ∃ s, writeUpdate T p rgs data on s w.2 = .ok rgs' ∧
         ((p.maxNirgs = none ∧ w.1 = some s) ∨
          ∃ m k, p.maxRg = some m ∧ p.maxNirgs = some k ∧ coalesce m k rgs data.length w.1 w.2 = some s)))) := by
  simp only [write, bind, Except.bind] at h
  cases hon : checkOrderedOn T p.orderedOn with
  | error e => rw [hon] at h; simp at h
  | ok on =>
    rw [hon] at h
    refine ⟨on, rfl, ?_⟩
    by_cases hemp : rgs = []
    · left
      subst hemp
      simp only [List.isEmpty_nil, if_true] at h
      cases hit : iterDataframe T data false p.maxRg none none with
      | error e => rw [hit] at h; simp at h
      | ok chunks =>
        rw [hit] at h
        simp only [pure, Except.pure, Except.ok.injEq] at h
        exact ⟨rfl, chunks, rfl, h.symm⟩
    · right
      have hemp' : rgs.isEmpty = false := by cases rgs <;> simp_all
      simp only [hemp', Bool.false_eq_true, if_false] at h
      by_cases hd : (p.dupOn.isSome && on.isNone) = true
      · simp [hd, throw, throwThe, MonadExceptOf.throw] at h
      simp only [hd, Bool.false_eq_true, if_false, pure, Except.pure] at h
      refine ⟨hemp, ?_, ?_⟩
      · rintro rfl
        cases hx : p.dupOn with
        | none => rfl
        | some d => simp [hx] at hd
      cases hw : overlapWindow T rgs data on with
      | error e => rw [hw] at h; simp at h
      | ok w =>
        rw [hw] at h
        refine ⟨w, rfl, ?_⟩
        simp only at h
        cases hn : p.maxNirgs with
        | none =>
          simp only [hn] at h
          cases hs : w.1 with
          | none =>
            simp only [hs] at h
            cases hit : iterDataframe T data false p.maxRg none none with
            | error e => rw [hit] at h; simp at h
            | ok chunks =>
              rw [hit] at h
              simp only [Except.ok.injEq] at h
              exact Or.inl ⟨rfl, Or.inl rfl, chunks, rfl, h.symm⟩
          | some s =>
            simp only [hs] at h
            exact Or.inr ⟨s, h, Or.inl ⟨rfl, rfl⟩⟩
        | some k =>
          cases hm : p.maxRg with
          | none => simp [hn, hm, throw, throwThe, MonadExceptOf.throw] at h
          | some m =>
            simp only [hn, hm] at h
            cases hs : coalesce m k rgs data.length w.1 w.2 with
            | none =>
              rw [hs] at h
              simp only at h
              have hw1 : w.1 = none := by
                simp only [coalesce] at hs
                split at hs
                · cases h1 : w.1 with
                  | none => rfl
                  | some a =>
                    rw [h1] at hs
                    cases a <;> cases h2 : w.2 <;> rw [h2] at hs <;> simp at hs
                    split at hs <;> simp at hs
                · exact hs
              cases hit : iterDataframe T data false (some m) none none with
              | error e => rw [hit] at h; simp at h
              | ok chunks =>
                rw [hit] at h
                simp only [Except.ok.injEq] at h
                exact Or.inl ⟨hw1, Or.inr ⟨m, k, rfl, rfl, hs⟩, chunks, rfl, h.symm⟩
            | some s =>
              rw [hs] at h
              exact Or.inr ⟨s, h, Or.inr ⟨m, k, rfl, rfl, hs⟩⟩

theorem write_perm {T : Table R} {p : Params} {rgs rgs' : List (RG R)} {data : List R}
    (hd : p.dupOn = none) (h : write T p rgs data = .ok rgs') :
    (readRows rgs').Perm (readRows rgs ++ data) := by
  obtain ⟨on, _, hcase⟩ := write_cases h
  rcases hcase with ⟨rfl, chunks, hit, rfl⟩ | ⟨_, _, w, hw, hcase⟩
  · rw [readRows_numberFrom, iter_plain_flatten hit]; simp [readRows]
  · rcases hcase with ⟨_, _, chunks, hit, rfl⟩ | ⟨s, hup, _⟩
    · rw [writeRowGroups, readRows_append, readRows_numberFrom, iter_plain_flatten hit]
    · exact update_perm hd (overlapWindow_le hw) hup

theorem write_plain {T : Table R} {p : Params} {rgs rgs' : List (RG R)} {data : List R}
    (ho : p.orderedOn = none) (h : write T p rgs data = .ok rgs') :
    readRows rgs' = readRows rgs ++ data := by
  obtain ⟨on, hon, hcase⟩ := write_cases h
  rw [ho] at hon
  simp only [checkOrderedOn, Except.ok.injEq] at hon
  subst hon
  rcases hcase with ⟨rfl, chunks, hit, rfl⟩ | ⟨hne, hd, w, hw, hcase⟩
  · rw [readRows_numberFrom, iter_plain_flatten hit]; simp [readRows]
  · rcases hcase with ⟨_, _, chunks, hit, rfl⟩ | ⟨s, hup, _⟩
    · rw [writeRowGroups, readRows_append, readRows_numberFrom, iter_plain_flatten hit]
    · simp only [overlapWindow, Except.ok.injEq] at hw
      subst hw
      have hlt := update_ok_lt hup
      simp only [writeUpdate, hd rfl] at hup
      have hem : (rgs.drop s).isEmpty = false := by
        rw [Bool.eq_false_iff, ne_eq, List.isEmpty_iff, List.drop_eq_nil_iff]
        omega
      simp only [Option.getD_none, List.take_length, hem, Bool.false_eq_true, if_false, bind, Except.bind, pure,
        Except.pure] at hup
      cases hit : iterDataframe T (readRows (rgs.drop s) ++ data) true p.maxRg none none with
      | error e => rw [hit] at hup; simp at hup
      | ok chunks =>
        rw [hit] at hup
        simp only [Except.ok.injEq] at hup
        subst hup
        rw [readRows_renumber, writeRowGroups, List.take_append_of_le_length (le_of_lt hlt.2),
          List.drop_append_of_le_length (le_refl _), List.drop_length, List.nil_append, readRows_append,
          readRows_numberFrom, iter_plain_flatten hit, ← List.append_assoc, ← readRows_append,
          List.take_append_drop]

/-! ### Part numbers -/

/-- Part numbers strictly increase along the row groups. -/
def IdsInc (rgs : List (RG R)) : Prop := (rgs.map RG.id).Pairwise (· < ·)

theorem numberFrom_ids_ge (i : Nat) (cs : List (List R)) : ∀ g ∈ numberFrom i cs, i ≤ g.id := by
  induction cs generalizing i with
  | nil => simp [numberFrom]
  | cons c cs ih =>
    intro g hg
    simp only [numberFrom] at hg
    split at hg
    · have := ih (i + 1) g hg; omega
    · rcases List.mem_cons.1 hg with rfl | hg
      · exact le_refl _
      · have := ih (i + 1) g hg; omega

theorem numberFrom_ids (i : Nat) (cs : List (List R)) : IdsInc (numberFrom i cs) := by
  induction cs generalizing i with
  | nil => simp [numberFrom, IdsInc]
  | cons c cs ih =>
    simp only [numberFrom]
    split
    · exact ih _
    · simp only [IdsInc, List.map_cons, List.pairwise_cons, List.mem_map]
      refine ⟨?_, ih _⟩
      rintro _ ⟨g, hg, rfl⟩
      have := numberFrom_ids_ge _ _ g hg
      omega

theorem lt_nextId (rgs : List (RG R)) : ∀ g ∈ rgs, g.id < nextId rgs := by
  intro g hg
  induction rgs with
  | nil => simp at hg
  | cons a rgs ih =>
    simp only [nextId, List.map_cons, List.foldr_cons] at *
    rcases List.mem_cons.1 hg with rfl | hg
    · omega
    · have := ih hg; omega

theorem renumber_ids (rgs : List (RG R)) : IdsInc (renumber rgs) := by
  have : (renumber rgs).map RG.id = List.range' 0 rgs.length := by
    simp only [renumber, List.map_map]
    have : (RG.id ∘ fun p : RG R × Nat => (⟨p.2, p.1.rows⟩ : RG R)) = Prod.snd := by funext p; rfl
    rw [this, List.zipIdx_map_snd]
  rw [IdsInc, this]
  exact List.pairwise_lt_range'

theorem write_ids {T : Table R} {p : Params} {rgs rgs' : List (RG R)} {data : List R}
    (hi : IdsInc rgs) (h : write T p rgs data = .ok rgs') : IdsInc rgs' := by
  obtain ⟨on, _, hcase⟩ := write_cases h
  rcases hcase with ⟨rfl, chunks, hit, rfl⟩ | ⟨_, _, w, hw, hcase⟩
  · exact numberFrom_ids _ _
  · rcases hcase with ⟨_, _, chunks, hit, rfl⟩ | ⟨s, hup, _⟩
    · rw [IdsInc, writeRowGroups, List.map_append, List.pairwise_append]
      refine ⟨hi, numberFrom_ids _ _, ?_⟩
      intro a ha b hb
      obtain ⟨g, hg, rfl⟩ := List.mem_map.1 ha
      obtain ⟨g', hg', rfl⟩ := List.mem_map.1 hb
      have := lt_nextId rgs g hg
      have := numberFrom_ids_ge _ _ g' hg'
      omega
    · simp only [writeUpdate] at hup
      by_cases hem : ((rgs.take (w.2.getD rgs.length)).drop s).isEmpty = true
      · simp [hem, bind, Except.bind, throw, throwThe, MonadExceptOf.throw] at hup
      simp only [hem, Bool.false_eq_true, if_false, bind, Except.bind, pure, Except.pure] at hup
      split at hup
      · simp at hup
      · simp only [Except.ok.injEq] at hup
        subst hup
        exact renumber_ids _

/-! ### Success -/

/-- Without coalescing, an ordered write with valid parameters always succeeds. -/
theorem write_succeeds {T : Table R} {p : Params} {rgs : List (RG R)} {data : List R} {on : Col}
    (hp : p.orderedOn = some (.col on)) (hon : on ∈ T.cols) (hne : data ≠ []) (hm : p.maxRg ≠ some 0)
    (hn : p.maxNirgs = none) (hk : DupKnown T p.dupOn) : ∃ rgs', write T p rgs data = .ok rgs' := by
  simp only [write, hp, checkOrderedOn, hon, if_true, bind, Except.bind]
  by_cases hemp : rgs = []
  · subst hemp
    simp only [List.isEmpty_nil, if_true, iter_plain hm, pure, Except.pure]
    exact ⟨_, rfl⟩
  · have hemp' : rgs.isEmpty = false := by cases rgs <;> simp_all
    simp only [hemp', Bool.false_eq_true, if_false, Option.isNone_some, Bool.and_false, pure, Except.pure, hn]
    obtain ⟨a, ha⟩ : ∃ a, data.head? = some a := by
      cases data with
      | nil => exact absurd rfl hne
      | cons a _ => exact ⟨a, rfl⟩
    obtain ⟨b, hb⟩ : ∃ b, data.getLast? = some b := by
      cases hx : data.getLast? with
      | none => simp at hx; exact absurd hx hne
      | some b => exact ⟨b, rfl⟩
    simp only [overlapWindow, ha, hb]
    have hlt := filterRowGroups_lt (T := T) (on := on) (s := T.get on a) (e := T.get on b) (rgs := rgs)
    have hsorted : (filterRowGroups T on (T.get on a) (T.get on b) rgs).Pairwise (· < ·) := by
      have h1 : (rgs.zipIdx.map Prod.snd).Pairwise (· < ·) := by
        rw [List.zipIdx_map_snd]; exact List.pairwise_lt_range'
      exact h1.sublist (List.Sublist.map _ (List.filter_sublist))
    generalize filterRowGroups T on (T.get on a) (T.get on b) rgs = idxs at *
    have hupd : ∀ s stop, s < rgs.length → (∀ e, stop = some e → s < e) →
        ∃ rgs', writeUpdate T p rgs data (some on) s stop = .ok rgs' := by
      intro s stop hs hstop
      have hnon : ((rgs.take (stop.getD rgs.length)).drop s).isEmpty = false := by
        have : ((rgs.take (stop.getD rgs.length)).drop s) ≠ [] := by
          rw [ne_eq, List.drop_eq_nil_iff, List.length_take, not_le]
          cases stop with
          | none => simpa using hs
          | some e => simp only [Option.getD_some]; have := hstop e rfl; omega
        cases hx : ((rgs.take (stop.getD rgs.length)).drop s) with
        | nil => exact absurd hx this
        | cons _ _ => rfl
      simp only [writeUpdate, hnon, Bool.false_eq_true, if_false, bind, Except.bind, pure, Except.pure]
      rw [iter_sharp (stableSort_ne_nil (by simp [hne])) hm fun d hd => dupCols_known hon (hd ▸ hk)]
      exact ⟨_, rfl⟩
    match idxs with
    | [] =>
      simp only [windowOf, iter_plain hm]
      exact ⟨_, rfl⟩
    | [i] =>
      simp only [windowOf]
      exact hupd i none (hlt i (by simp)) (by simp)
    | i :: j :: rest =>
      simp only [windowOf]
      refine hupd i _ (hlt i (by simp)) ?_
      intro e he
      have := (List.pairwise_cons.1 hsorted).1 _ (List.getLast_mem (l := j :: rest) (by simp))
      split at he
      · simp at he
      · simp only [Option.some.injEq] at he; omega

end Oups.Writer
