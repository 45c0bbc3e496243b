import Verif.Proofs.WriterHistory
/-! Rows left by a write, whatever the layout of the dataset and the order of the frame. -/
set_option linter.unusedSimpArgs false
namespace Oups.Writer
variable {R : Type}

theorem update_parts {T : Table R} {p : Params} {rgs rgs' : List (RG R)} {data : List R} {c : Col} {s stop} {d : DupOn}
    (hc : c ∈ T.cols) (hdup : p.dupOn = some d) (he : stop.getD rgs.length ≤ rgs.length)
    (h : writeUpdate T p rgs data (some c) s stop = .ok rgs') :
    ∃ a w b, readRows rgs = a ++ w ++ b ∧ (readRows rgs').Perm
      (a ++ b ++ dropDupLast (T.key (dupCols T.cols c d)) (stableSort (T.get c) (w ++ data))) := by
  have hlt := (update_ok_lt h)
  simp only [writeUpdate] at h
  by_cases hem : ((rgs.take (stop.getD rgs.length)).drop s).isEmpty = true
  · simp [hem, bind, Except.bind, throw, throwThe, MonadExceptOf.throw] at h
  simp only [hem, Bool.false_eq_true, if_false, bind, Except.bind, hdup, pure, Except.pure] at h
  generalize hE : stop.getD rgs.length = e at *
  have hsp := take_drop_split rgs (le_of_lt hlt.1)
  cases hit : iterDataframe T (stableSort (T.get c) (readRows ((rgs.take e).drop s) ++ data)) true p.maxRg
      (some c) (some d) with
  | error e => rw [hit] at h; simp at h
  | ok chunks =>
    rw [hit] at h
    simp only [Except.ok.injEq] at h
    subst h
    have hfl := (iter_sharp_layout hc (stableSort_sorted _ _) hit).2
    refine ⟨readRows (rgs.take s), readRows ((rgs.take e).drop s), readRows (rgs.drop e), ?_, ?_⟩
    · conv_lhs => rw [hsp]
      simp only [readRows_append]
    · rw [readRows_renumber]
      have hall : ∀ sorted : List (RG R),
          sorted.Perm ((writeRowGroups rgs chunks).take s ++ (writeRowGroups rgs chunks).drop e) →
          (readRows sorted).Perm (readRows (rgs.take s) ++ readRows (rgs.drop e) ++
            dropDupLast (T.key (dupCols T.cols c d)) (stableSort (T.get c) (readRows ((rgs.take e).drop s) ++ data))) := by
        intro sorted hs
        refine (hs.map RG.rows).flatten.trans ?_
        have : ((writeRowGroups rgs chunks).take s ++ (writeRowGroups rgs chunks).drop e) =
            rgs.take s ++ (rgs.drop e ++ numberFrom (nextId rgs) chunks) := by
          rw [writeRowGroups, List.take_append_of_le_length (by omega), List.drop_append_of_le_length he]
        rw [this, ← readRows, readRows_append, readRows_append, readRows_numberFrom, hfl, List.append_assoc]
        exact List.Perm.refl _
      apply hall
      cases stop with
      | none => exact List.Perm.refl _
      | some e => exact stableSort_perm _ _

theorem checkOrderedOn_col {T : Table R} {o : Option OrdOn} {c : Col} (h : checkOrderedOn T o = .ok (some c)) :
    o = some (.col c) ∧ c ∈ T.cols := by
  cases o with
  | none => simp [checkOrderedOn] at h
  | some x =>
    cases x with
    | tuple => simp [checkOrderedOn] at h
    | col c' =>
      simp only [checkOrderedOn] at h
      split at h
      · simp only [Except.ok.injEq, Option.some.injEq] at h
        subst h
        exact ⟨rfl, by assumption⟩
      · simp at h

/-- The rows left by a write with `duplicates_on`: those of the dataset followed by the frame, or those of the row groups
which are not rewritten, and of the others with the frame, without duplicates. -/
theorem write_parts {T : Table R} {p : Params} {rgs rgs' : List (RG R)} {data : List R} {d : DupOn} {c : Col}
    (hd : p.dupOn = some d) (ho : p.orderedOn = some (.col c)) (h : write T p rgs data = .ok rgs') :
    readRows rgs' = readRows rgs ++ data ∨
    ∃ a w b, readRows rgs = a ++ w ++ b ∧ (readRows rgs').Perm
      (a ++ b ++ dropDupLast (T.key (dupCols T.cols c d)) (stableSort (T.get c) (w ++ data))) := by
  obtain ⟨on, hon, hcase⟩ := write_cases h
  rcases hcase with ⟨rfl, chunks, hit, rfl⟩ | ⟨_, hnone, w, hw, hcase⟩
  · left; rw [readRows_numberFrom, iter_plain_flatten hit]; simp [readRows]
  · rcases hcase with ⟨_, _, chunks, hit, rfl⟩ | ⟨s, hup, _⟩
    · left; rw [writeRowGroups, readRows_append, readRows_numberFrom, iter_plain_flatten hit]
    · right
      cases on with
      | none => rw [hnone rfl] at hd; simp at hd
      | some c' =>
        obtain ⟨ho', hc⟩ := checkOrderedOn_col hon
        rw [ho] at ho'
        simp only [Option.some.injEq, OrdOn.col.injEq] at ho'
        subst ho'
        exact update_parts hc hd (overlapWindow_le hw) hup

/-- Without `ordered_on`, `duplicates_on` is refused, or not used. -/
theorem write_unordered {T : Table R} {p : Params} {rgs rgs' : List (RG R)} {data : List R} (ho : p.orderedOn = none)
    (h : write T p rgs data = .ok rgs') : readRows rgs' = readRows rgs ++ data := write_plain ho h

theorem write_mem {T : Table R} {p : Params} {rgs rgs' : List (RG R)} {data : List R} (h : write T p rgs data = .ok rgs')
    {x : R} (hx : x ∈ readRows rgs') : x ∈ readRows rgs ∨ x ∈ data := by
  rw [← List.mem_append]
  cases hd : p.dupOn with
  | none => exact (write_perm hd h).mem_iff.1 hx
  | some d =>
    cases ho : p.orderedOn with
    | none => rw [write_unordered ho h] at hx; exact hx
    | some o =>
      cases o with
      | tuple =>
        obtain ⟨on, hon, _⟩ := write_cases h
        rw [ho] at hon; simp [checkOrderedOn] at hon
      | col c =>
        rcases write_parts hd ho h with hr | ⟨a, w, b, hr, hp⟩
        · rwa [hr] at hx
        · rw [hr]
          have := hp.mem_iff.1 hx
          simp only [List.mem_append] at this ⊢
          rcases this with (hx | hx) | hx
          · simp [hx]
          · simp [hx]
          · have := (mem_stableSort _ _ _).1 ((dropDupLast_sublist _ _).mem hx)
            simp only [List.mem_append] at this
            rcases this with hx | hx <;> simp [hx]

/-- A row which is the last one of a list for its key is kept. -/
theorem last_kept (k : R → Int) {κ : Type} [DecidableEq κ] (D : R → κ) (hsep : ∀ x y, D x = D y → k x = k y) {l : List R} {x : R}
    (hx : (l.filter fun r => D r = D x).getLast? = some x) : x ∈ dropDupLast D (stableSort k l) := by
  rw [mem_dropDupLast, stableSort_filter k _ (k x)]
  · exact hx
  · intro r hr
    simp only [decide_eq_true_eq] at hr
    exact hsep _ _ hr

end Oups.Writer
