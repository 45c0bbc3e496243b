import Verif.Model.FrameCols
/-!
`write` does not look at rows but through the columns it compares: replacing rows by others that have the same values
in these columns replaces them in the result.
-/
namespace Oups.FrameCols
open Writer

variable {R R' : Type}

theorem slices_map {α β : Type} (φ : α → β) (l : List α) (s : List Nat) :
    slices (l.map φ) s = (slices l s).map (List.map φ) := by
  induction s with
  | nil => rfl
  | cons a s ih =>
    cases s with
    | nil => simp [slices, List.map_drop]
    | cons b s => simp only [slices, List.map_cons, ih]; simp [List.map_drop, List.map_take]

theorem dropDupLast_map {α β κ κ' : Type} [DecidableEq κ] [DecidableEq κ'] (φ : α → β) (k : α → κ) (k' : β → κ')
    (h : ∀ a b, k' (φ a) = k' (φ b) ↔ k a = k b) (l : List α) :
    dropDupLast k' (l.map φ) = (dropDupLast k l).map φ := by
  induction l with
  | nil => rfl
  | cons a l ih =>
    have : (l.map φ).any (fun y => k' y == k' (φ a)) = l.any (fun y => k y == k a) := by
      rw [List.any_map]; congr 1; funext y; simp only [Function.comp, beq_eq_decide, h]
    simp only [List.map_cons, dropDupLast, this]
    split
    · exact ih
    · rw [ih]; rfl

/-- Same columns compared, values in them in the same order. -/
structure Sees (T : Table R) (T' : Table R') (φ : R → R') (e : Int → Int) (p : Params) : Prop where
  mono : StrictMono e
  zero : e 0 = 0
  on : ∀ c, p.orderedOn = some (.col c) → (c ∈ T.cols ↔ c ∈ T'.cols) ∧ (c ∈ T.cols → ∀ r, T.get c r = e (T'.get c (φ r)))
  dup : ∀ c d, p.orderedOn = some (.col c) → p.dupOn = some d → dupCols T'.cols c d = dupCols T.cols c d ∧
    ∀ x ∈ dupCols T.cols c d, (x ∈ T.cols ↔ x ∈ T'.cols) ∧ (x ∈ T.cols → ∀ r, T.get x r = e (T'.get x (φ r)))

theorem stableSort_map {α β : Type} (φ : α → β) (k : α → Int) (k' : β → Int) (l : List α)
    (h : ∀ a b, k' (φ a) ≤ k' (φ b) ↔ k a ≤ k b) :
    stableSort k' (l.map φ) = (stableSort k l).map φ := by
  unfold stableSort
  refine (List.map_insertionSort _ _ φ l ?_).symm
  intro a _ b _
  exact (h a b).symm

theorem searchsorted_map {e : Int → Int} (he : StrictMono e) (l : List Int) (v : Int) :
    searchsortedLeft (l.map e) (e v) = searchsortedLeft l v := by
  unfold searchsortedLeft
  rw [List.takeWhile_map, List.length_map]
  congr 2
  funext x
  simp [he.lt_iff_lt]

theorem numberFrom_map (φ : R → R') (i : Nat) (l : List (List R)) :
    numberFrom i (l.map (List.map φ)) = (numberFrom i l).map (mapRG φ) := by
  induction l generalizing i with
  | nil => rfl
  | cons a l ih =>
    simp only [List.map_cons, numberFrom, List.isEmpty_map]
    split <;> simp [ih, mapRG]

theorem nextId_map (φ : R → R') (l : List (RG R)) : nextId (l.map (mapRG φ)) = nextId l := by
  simp [nextId, mapRG, Function.comp_def]

theorem writeRowGroups_map (φ : R → R') (l : List (RG R)) (c : List (List R)) :
    writeRowGroups (l.map (mapRG φ)) (c.map (List.map φ)) = (writeRowGroups l c).map (mapRG φ) := by
  simp [writeRowGroups, nextId_map, numberFrom_map]

theorem renumber_map (φ : R → R') (l : List (RG R)) : renumber (l.map (mapRG φ)) = (renumber l).map (mapRG φ) := by
  simp [renumber, List.zipIdx_map, mapRG, Function.comp_def]

theorem readRows_map (φ : R → R') (l : List (RG R)) : readRows (l.map (mapRG φ)) = (readRows l).map φ := by
  simp [readRows, mapRG, Function.comp_def, List.map_flatten]

theorem all_mem_congr {a b : List Col} (l : List Col) (h : ∀ x ∈ l, (x ∈ a ↔ x ∈ b)) :
    l.all (fun x => decide (x ∈ b)) = l.all (fun x => decide (x ∈ a)) := by
  induction l with
  | nil => rfl
  | cons y l ih =>
    have := h y (by simp)
    simp only [List.all_cons, ih fun x hx => h x (by simp [hx]), this]

theorem starts_map {e : Int → Int} (he : StrictMono e) (l : List Int) (starts : List Nat) :
    (starts.filterMap (fun i => (l.map e)[i]?)).map (searchsortedLeft (l.map e)) =
      (starts.filterMap (fun i => l[i]?)).map (searchsortedLeft l) := by
  induction starts with
  | nil => rfl
  | cons i r ih =>
    simp only [List.getElem?_map] at ih ⊢
    simp only [List.filterMap_cons]
    cases l[i]? with
    | none => simpa using ih
    | some v => simp only [Option.map_some, List.map_cons, searchsorted_map he, ih]

theorem key_iff {T : Table R} {T' : Table R'} {φ : R → R'} {e : Int → Int} (he : StrictMono e) (D : List Col)
    (h : ∀ x ∈ D, ∀ r, T.get x r = e (T'.get x (φ r))) (a b : R) :
    T'.key D (φ a) = T'.key D (φ b) ↔ T.key D a = T.key D b := by
  simp only [Table.key, List.map_inj_left]
  refine forall₂_congr fun x hx => ?_
  rw [h x hx, h x hx, he.injective.eq_iff]

theorem iter_map {T : Table R} {T' : Table R'} {φ : R → R'} {e : Int → Int} (he : StrictMono e)
    (data : List R) (v : Bool) (m : Option Nat)
    (sharp : Option Col) (dup : Option DupOn)
    (hs : ∀ c, sharp = some c → ∀ r, T.get c r = e (T'.get c (φ r)))
    (hd : ∀ c d, sharp = some c → dup = some d → dupCols T'.cols c d = dupCols T.cols c d ∧
      ∀ x ∈ dupCols T.cols c d, (x ∈ T.cols ↔ x ∈ T'.cols) ∧ (x ∈ T.cols → ∀ r, T.get x r = e (T'.get x (φ r)))) :
    iterDataframe T' (data.map φ) v m sharp dup = (iterDataframe T data v m sharp dup).map (List.map (List.map φ)) := by
  by_cases hz : m.getD defaultMaxRg = 0 <;> by_cases hl : data.length = 0 <;> cases v <;> cases sharp with
  | none =>
    rcases dup with _ | _ | _ <;>
      simp [iterDataframe, hz, hl, slices_map, bind, Except.bind, throw, throwThe, MonadExceptOf.throw, pure, Except.pure, Except.map]
  | some c =>
    have hv : data.map (T.get c) = ((data.map φ).map (T'.get c)).map e := by
      rw [List.map_map, List.map_map]; exact List.map_congr_left fun r _ => hs c rfl r
    cases dup with
    | none =>
      simp only [iterDataframe, List.length_map, hv, slices_map, starts_map he]
      simp only [hz, hl, ite_true, ite_false, decide_true, decide_false, ne_eq, not_true, not_false_eq_true]
      rfl
    | some d =>
      obtain ⟨h1, h2⟩ := hd c d rfl rfl
      have hall := all_mem_congr (dupCols T.cols c d) fun x hx => (h2 x hx).1
      generalize hD : dupCols T.cols c d = D at *
      cases ha : D.all (fun x => decide (x ∈ T.cols)) <;> rw [ha] at hall
      · cases d <;>
        simp only [iterDataframe, List.length_map, hv, slices_map, h1, hD, hall, ha] <;>
        simp only [hz, hl, ite_true, ite_false, decide_true, decide_false, ne_eq, not_true, not_false_eq_true] <;>
        rfl
      · have hk := key_iff he D fun x hx => (h2 x hx).2 (by simpa using List.all_eq_true.1 ha x hx)
        have hdd := fun l => dropDupLast_map φ (T.key D) (T'.key D) hk l
        cases d <;>
        simp only [iterDataframe, List.length_map, hv, slices_map, h1, hD, hall, ha, starts_map he] <;>
        simp only [hz, hl, ite_true, ite_false, decide_true, decide_false, ne_eq, not_true, not_false_eq_true] <;>
        first
          | rfl
          | (simp [hdd, bind, Except.bind, throw, throwThe, MonadExceptOf.throw, pure, Except.pure, Except.map]; done)

theorem min_map {e : Int → Int} (he : StrictMono e) (l : List Int) : (l.map e).min? = l.min?.map e := by
  induction l with
  | nil => rfl
  | cons a l ih =>
    rw [List.map_cons, List.min?_cons, List.min?_cons, ih]
    cases l.min? with
    | none => rfl
    | some b =>
      show some (min (e a) (e b)) = some (e (min a b))
      rcases le_total a b with hab | hab
      · rw [min_eq_left hab, min_eq_left (he.monotone hab)]
      · rw [min_eq_right hab, min_eq_right (he.monotone hab)]

theorem max_map {e : Int → Int} (he : StrictMono e) (l : List Int) : (l.map e).max? = l.max?.map e := by
  induction l with
  | nil => rfl
  | cons a l ih =>
    rw [List.map_cons, List.max?_cons, List.max?_cons, ih]
    cases l.max? with
    | none => rfl
    | some b =>
      show some (max (e a) (e b)) = some (e (max a b))
      rcases le_total a b with hab | hab
      · rw [max_eq_right hab, max_eq_right (he.monotone hab)]
      · rw [max_eq_left hab, max_eq_left (he.monotone hab)]

/-- Sort of the merged rows. -/
def sorted (T : Table R) (o : Option Col) (l : List R) : List R :=
  match o with
  | none => l
  | some c => stableSort (T.get c) l

/-- Sort of the row groups. -/
def resorted (T : Table R) (o : Option Col) (b : Option Nat) (l : List (RG R)) : List (RG R) :=
  match b, o with
  | some _, some c => sortRgs T c l
  | _, _ => l

section Window
variable {T : Table R} {T' : Table R'} {φ : R → R'} {e : Int → Int} {on : Col}

theorem rgMin_map (he : StrictMono e) (h : ∀ r, T.get on r = e (T'.get on (φ r))) (g : RG R) :
    rgMin T on g = (rgMin T' on (mapRG φ g)).map e := by
  unfold rgMin mapRG
  rw [← min_map he, List.map_map, List.map_map]
  exact congrArg _ (List.map_congr_left fun r _ => h r)

theorem rgMax_map (he : StrictMono e) (h : ∀ r, T.get on r = e (T'.get on (φ r))) (g : RG R) :
    rgMax T on g = (rgMax T' on (mapRG φ g)).map e := by
  unfold rgMax mapRG
  rw [← max_map he, List.map_map, List.map_map]
  exact congrArg _ (List.map_congr_left fun r _ => h r)

theorem overlaps_map (he : StrictMono e) (h : ∀ r, T.get on r = e (T'.get on (φ r))) (a b : Int) (g : RG R) :
    overlaps T on (e a) (e b) g = overlaps T' on a b (mapRG φ g) := by
  unfold overlaps
  rw [rgMin_map he h, rgMax_map he h]
  cases rgMin T' on (mapRG φ g) <;> cases rgMax T' on (mapRG φ g) <;> simp [he.le_iff_le]

theorem filterRowGroups_map (he : StrictMono e) (h : ∀ r, T.get on r = e (T'.get on (φ r))) (a b : Int) (l : List (RG R)) :
    filterRowGroups T' on a b (l.map (mapRG φ)) = filterRowGroups T on (e a) (e b) l := by
  unfold filterRowGroups
  rw [List.zipIdx_map, List.filter_map, List.map_map]
  have : ((fun p : RG R' × Nat => overlaps T' on a b p.1) ∘ Prod.map (mapRG φ) id) =
      fun p : RG R × Nat => overlaps T on (e a) (e b) p.1 := by
    funext p; simp [overlaps_map he h]
  rw [this]
  rfl

theorem overlapWindow_map (he : StrictMono e) (o : Option Col)
    (h : ∀ c, o = some c → ∀ r, T.get c r = e (T'.get c (φ r))) (l : List (RG R)) (data : List R) :
    overlapWindow T' (l.map (mapRG φ)) (data.map φ) o = overlapWindow T l data o := by
  cases o with
  | none => rfl
  | some c =>
    unfold overlapWindow
    rw [List.head?_map, List.getLast?_map]
    cases data.head? <;> cases data.getLast? <;> simp [filterRowGroups_map he (h c rfl), h c rfl]

theorem coalesce_map (m k : Nat) (l : List (RG R)) (n : Nat) (a b : Option Nat) :
    coalesce m k (l.map (mapRG φ)) n a b = coalesce m k l n a b := by
  have h1 : trailing (m * 9 / 10) (l.map (mapRG φ)) = (trailing (m * 9 / 10) l).map (mapRG φ) := by
    unfold trailing
    rw [← List.map_reverse, List.takeWhile_map]
    congr 2
    funext g
    simp [mapRG]
  unfold coalesce
  rw [h1]
  simp [mapRG, Function.comp_def]

theorem sortRgs_map (he : StrictMono e) (h0 : e 0 = 0) (h : ∀ r, T.get on r = e (T'.get on (φ r))) (l : List (RG R)) :
    sortRgs T' on (l.map (mapRG φ)) = (sortRgs T on l).map (mapRG φ) := by
  unfold sortRgs
  refine stableSort_map _ _ _ _ fun a b => ?_
  have : ∀ g, (rgMax T on g).getD 0 = e ((rgMax T' on (mapRG φ g)).getD 0) := by
    intro g
    rw [rgMax_map he h]
    cases rgMax T' on (mapRG φ g) <;> simp [h0]
  rw [this, this, he.le_iff_le]

theorem checkOrderedOn_map (p : Params) (s : Sees T T' φ e p) :
    checkOrderedOn T' p.orderedOn = checkOrderedOn T p.orderedOn := by
  cases ho : p.orderedOn with
  | none => rfl
  | some o =>
    cases o with
    | tuple => rfl
    | col c =>
      have := (s.on c ho).1
      simp [checkOrderedOn, this]

theorem writeUpdate_cases (T : Table R) (p : Params) (l : List (RG R)) (data : List R) (o : Option Col) (a : Nat) (b : Option Nat) :
    writeUpdate T p l data o a b =
      if ((l.take (b.getD l.length)).drop a).isEmpty then .error .noFiles
      else (iterDataframe T (sorted T o (readRows ((l.take (b.getD l.length)).drop a) ++ data)) true p.maxRg o p.dupOn).map
        fun c => renumber (resorted T o b ((writeRowGroups l c).take a ++ (writeRowGroups l c).drop (b.getD l.length))) := by
  unfold writeUpdate
  by_cases h : ((l.take (b.getD l.length)).drop a).isEmpty = true
  · rw [if_pos h, if_pos h]; rfl
  · rw [if_neg h, if_neg h]
    cases o <;> cases b <;> rfl

theorem writeUpdate_map {p : Params} (he : StrictMono e) (h0 : e 0 = 0) (o : Option Col)
    (h : ∀ c, o = some c → ∀ r, T.get c r = e (T'.get c (φ r)))
    (hd : ∀ c d, o = some c → p.dupOn = some d → dupCols T'.cols c d = dupCols T.cols c d ∧
      ∀ x ∈ dupCols T.cols c d, (x ∈ T.cols ↔ x ∈ T'.cols) ∧ (x ∈ T.cols → ∀ r, T.get x r = e (T'.get x (φ r))))
    (l : List (RG R)) (data : List R) (a : Nat) (b : Option Nat) :
    writeUpdate T' p (l.map (mapRG φ)) (data.map φ) o a b =
      (writeUpdate T p l data o a b).map (List.map (mapRG φ)) := by
  have hm : ∀ x : List R, sorted T' o (x.map φ) = (sorted T o x).map φ := by
    intro x
    cases o with
    | none => rfl
    | some c => exact stableSort_map _ _ _ _ fun x y => by rw [h c rfl, h c rfl, he.le_iff_le]
  have hr : ∀ x : List (RG R), resorted T' o b (x.map (mapRG φ)) = (resorted T o b x).map (mapRG φ) := by
    intro x
    cases b with
    | none => rfl
    | some _ =>
      cases o with
      | none => rfl
      | some c => exact sortRgs_map he h0 (h c rfl) x
  rw [writeUpdate_cases, writeUpdate_cases, List.length_map, ← List.map_take, ← List.map_drop, List.isEmpty_map, readRows_map,
    ← List.map_append, hm, iter_map he _ _ _ _ _ h hd]
  split
  · rfl
  · cases iterDataframe T (sorted T o (readRows ((l.take (b.getD l.length)).drop a) ++ data)) true p.maxRg o p.dupOn with
    | error x => rfl
    | ok c =>
      show Except.ok _ = Except.ok _
      beta_reduce
      rw [writeRowGroups_map, ← List.map_take, ← List.map_drop, ← List.map_append, hr, renumber_map]

end Window

/-- Rows are replaced one by one. -/
theorem write_map {T : Table R} {T' : Table R'} {φ : R → R'} {e : Int → Int} {p : Params} (s : Sees T T' φ e p)
    (l : List (RG R)) (data : List R) :
    write T' p (l.map (mapRG φ)) (data.map φ) = (write T p l data).map (List.map (mapRG φ)) := by
  have hlen : (data.map φ).length = data.length := List.length_map ..
  unfold write
  rw [checkOrderedOn_map p s]
  cases hc : checkOrderedOn T p.orderedOn with
  | error x => rfl
  | ok o =>
    have ho : ∀ c, o = some c → p.orderedOn = some (.col c) ∧ c ∈ T.cols := by
      intro c h
      subst h
      cases hp : p.orderedOn with
      | none => rw [hp] at hc; simp [checkOrderedOn] at hc
      | some q =>
        cases q with
        | tuple => rw [hp] at hc; simp [checkOrderedOn] at hc
        | col c' =>
          rw [hp] at hc
          simp only [checkOrderedOn] at hc
          split at hc <;> simp at hc
          rename_i hin
          rw [← hc]
          exact ⟨rfl, hin⟩
    have h1 : ∀ c, o = some c → ∀ r, T.get c r = e (T'.get c (φ r)) := fun c h => (s.on c (ho c h).1).2 (ho c h).2
    have h2 : ∀ c d, o = some c → p.dupOn = some d → _ := fun c d h => s.dup c d (ho c h).1
    have hit : iterDataframe T' (data.map φ) false p.maxRg none none =
        (iterDataframe T data false p.maxRg none none).map (List.map (List.map φ)) :=
      iter_map s.mono data false p.maxRg none none (by simp) (by simp)
    show (if (l.map (mapRG φ)).isEmpty = true then _ else _) = Except.map _ (if l.isEmpty = true then _ else _)
    rw [List.isEmpty_map]
    split
    · rw [hit]
      cases iterDataframe T data false p.maxRg none none with
      | error x => rfl
      | ok c => show Except.ok _ = Except.ok _; rw [numberFrom_map]
    · split
      · rfl
      · rw [overlapWindow_map s.mono o h1]
        cases overlapWindow T l data o with
        | error x => rfl
        | ok w =>
          have fin : ∀ st st' : Option Nat, st' = st →
              (match st' with
                | none => do
                  let chunks ← iterDataframe T' (data.map φ) false p.maxRg none none
                  return writeRowGroups (l.map (mapRG φ)) chunks
                | some a => writeUpdate T' p (l.map (mapRG φ)) (data.map φ) o a w.2 : Except Writer.Err (List (RG R'))) =
              (match st with
                | none => do
                  let chunks ← iterDataframe T data false p.maxRg none none
                  return writeRowGroups l chunks
                | some a => writeUpdate T p l data o a w.2 : Except Writer.Err (List (RG R))).map (List.map (mapRG φ)) := by
            intro st st' hst
            subst hst
            cases st' with
            | none =>
              show (do
                let chunks ← iterDataframe T' (data.map φ) false p.maxRg none none
                return writeRowGroups (l.map (mapRG φ)) chunks : Except Writer.Err (List (RG R'))) = _
              rw [hit]
              cases iterDataframe T data false p.maxRg none none with
              | error x => rfl
              | ok c => show Except.ok _ = Except.ok _; rw [writeRowGroups_map]
            | some a => exact writeUpdate_map s.mono s.zero o h1 h2 l data a w.2
          cases hk : p.maxNirgs with
          | none => exact fin w.1 w.1 rfl
          | some k =>
            cases hm : p.maxRg with
            | none => rfl
            | some m =>
              have := fin (coalesce m k l data.length w.1 w.2)
                (coalesce m k (l.map (mapRG φ)) (data.map φ).length w.1 w.2) (by rw [hlen, coalesce_map])
              rw [hm] at this
              exact this

end Oups.FrameCols
