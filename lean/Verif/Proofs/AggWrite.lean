import Verif.Proofs.WriterHead
/-! Writes of consecutive rows over a stored dataset, rows being identified by position in a reference list. -/
set_option linter.unusedSimpArgs false
namespace Oups.Writer
variable {R : Type}

theorem strict_ext {k : R → Int} {a b : List R} (ha : StrictOn k a) (hb : StrictOn k b)
    (h : ∀ x, x ∈ a ↔ x ∈ b) : a = b := by
  have na : a.Nodup := by
    rw [List.nodup_iff_pairwise_ne]
    exact List.Pairwise.imp (fun h he => by rw [he] at h; exact lt_irrefl _ h) ha
  have nb : b.Nodup := by
    rw [List.nodup_iff_pairwise_ne]
    exact List.Pairwise.imp (fun h he => by rw [he] at h; exact lt_irrefl _ h) hb
  exact List.Perm.eq_of_pairwise (fun x y _ _ h1 h2 => absurd (lt_trans h1 h2) (lt_irrefl _)) ha hb
    ((List.perm_ext_iff_of_nodup na nb).2 h)

theorem strict_inj {k : R → Int} {l : List R} (h : StrictOn k l) {a b : R} (ha : a ∈ l) (hb : b ∈ l)
    (he : k a = k b) : a = b := by
  induction l with
  | nil => simp at ha
  | cons c l ih =>
    obtain ⟨h1, h2⟩ := List.pairwise_cons.1 h
    rcases List.mem_cons.1 ha with ha' | ha' <;> rcases List.mem_cons.1 hb with hb' | hb'
    · rw [ha', hb']
    · have := h1 b hb'; rw [← ha'] at this; omega
    · have := h1 a ha'; rw [← hb'] at this; omega
    · exact ih h2 ha' hb'

/-- An update is determined if ordering values are all different. -/
theorem upsert_eq {D : Type} [DecidableEq D] {k : R → Int} {d : R → D} {before data after target : List R}
    (h : IsUpsert k d before data after) (hs : StrictOn k target)
    (hm : ∀ x, x ∈ target ↔ x ∈ data ∨ (x ∈ before ∧ ∀ y ∈ data, d y ≠ d x)) : after = target := by
  obtain ⟨h1, h2, h3⟩ := h
  have hmem : ∀ x, x ∈ after ↔ x ∈ target := fun x => by rw [h3, hm]
  refine strict_ext ?_ hs hmem
  rw [List.nodup_iff_pairwise_ne, List.pairwise_map] at h2
  refine List.Pairwise.imp_of_mem ?_ (List.Pairwise.and h1 h2)
  rintro a b ha hb ⟨hle, hne⟩
  rcases lt_or_eq_of_le hle with h | h
  · exact h
  · exact absurd (congrArg d (strict_inj hs ((hmem a).1 ha) ((hmem b).1 hb) h)) hne

/-- Identifiers determine ordering values. -/
theorem map_get_of_key {T : Table R} {on : Col} {d : DupOn} (hon : on ∈ T.cols) {a b : List R}
    (h : a.map (T.key (dupCols T.cols on d)) = b.map (T.key (dupCols T.cols on d))) :
    a.map (T.get on) = b.map (T.get on) := by
  induction a generalizing b with
  | nil => cases b <;> simp_all
  | cons x a ih =>
    cases b with
    | nil => simp at h
    | cons y b =>
      simp only [List.map_cons, List.cons.injEq] at h ⊢
      exact ⟨dupCols_sep hon h.1, ih h.2⟩

theorem strict_map {k : R → Int} {l : List R} : StrictOn k l ↔ (l.map k).Pairwise (· < ·) := by
  rw [List.pairwise_map]; rfl

/-- Rows with the identifiers of the first rows of `G` are in strict order as `G` is. -/
theorem strict_of_keys {T : Table R} {on : Col} {d : DupOn} (hon : on ∈ T.cols) {l G : List R}
    (hG : StrictOn (T.get on) G)
    (h : l.map (T.key (dupCols T.cols on d)) <+: G.map (T.key (dupCols T.cols on d))) : StrictOn (T.get on) l := by
  have h1 := List.prefix_iff_eq_take.1 h
  rw [← List.map_take] at h1
  rw [strict_map, map_get_of_key hon h1, ← strict_map]
  exact List.Pairwise.sublist (List.take_sublist _ _) hG

/-- Dataset whose rows have the identifiers of the first rows of `G`. -/
structure Along (T : Table R) (on : Col) (d : DupOn) (G : List R) (rgs : List (RG R)) : Prop where
  layout : OrderedLayout (T.get on) (rgs.map RG.rows)
  keys : (readRows rgs).map (T.key (dupCols T.cols on d)) <+: G.map (T.key (dupCols T.cols on d))

theorem Along.nil {T : Table R} {on : Col} {d : DupOn} {G : List R} : Along T on d G [] :=
  ⟨⟨by simp, by simp [Separated]⟩, by simp [readRows]⟩

theorem take_eq_append_drop {α : Type} {K : List α} {n m : Nat} (h : n ≤ m) :
    K.take n ++ (K.take m).drop n = K.take m := by
  conv_rhs => rw [← List.take_append_drop n (K.take m), List.take_take, Nat.min_eq_left h]

/-- `max_nirgs` is harmless for a write that changes the last row at most: it changes nothing, or the write raises. -/
theorem write_coalesce {T : Table R} {p : Params} {on : Col} {pre data : List R} {rgs rgs' : List (RG R)}
    (hl : OrderedLayout (T.get on) (rgs.map RG.rows)) (hpre : pre <+: readRows rgs)
    (ht : (readRows rgs).length ≤ pre.length + 1) (hlt : ∀ x ∈ pre, ∀ y ∈ data, T.get on x < T.get on y)
    (h : Writer.write T p rgs data = .ok rgs') :
    CoalescingSafe (T.get on) p.maxRg p.maxNirgs (rgs.map RG.rows) data ∨
      Writer.write T { p with maxNirgs := none } rgs data = .ok rgs' := by
  match rgs, hl, hpre, ht, h with
  | [], _, _, _, h => exact Or.inl (Or.inr (Or.inr (by simp)))
  | g :: g' :: gs, hl, hpre, ht, h =>
    refine Or.inl (Or.inr (Or.inl ?_))
    intro l hgl x hx y hy
    simp only [List.map_cons, List.head?_cons, Option.some.injEq] at hgl
    subst hgl
    refine hlt x ?_ y hy
    have hne : g'.rows ≠ [] := (hl.1 g'.rows (by simp)).1
    have h1 : g.rows <+: readRows (g :: g' :: gs) := ⟨g'.rows ++ readRows gs, by simp [readRows]⟩
    refine (List.prefix_of_prefix_length_le h1 hpre ?_).subset hx
    have : (readRows (g :: g' :: gs)).length = g.rows.length + g'.rows.length + (readRows gs).length := by
      simp [readRows]; omega
    have := List.length_pos_iff.2 hne
    omega
  | [g], hl, hpre, ht, h =>
    cases hn : p.maxNirgs with
    | none => exact Or.inl (Or.inl rfl)
    | some k =>
      cases hm : p.maxRg with
      | none =>
        refine Or.inl (Or.inr (Or.inr ?_))
        simp
      | some m =>
        by_cases hc : g.rows.length ≤ m * 9 / 10
        · refine Or.inl (Or.inr (Or.inr ?_))
          intro m' hm' l hl'
          simp only [Option.some.injEq] at hm'
          subst hm'
          simp only [List.map_cons, List.map_nil, List.mem_singleton] at hl'
          subst hl'
          exact hc
        · right
          simp only [Writer.write] at h ⊢
          cases ho : checkOrderedOn T p.orderedOn with
          | error e => simp [ho, bind, Except.bind] at h
          | ok o =>
            simp only [ho, bind, Except.bind, List.isEmpty_cons, Bool.false_eq_true, if_false, hn, hm] at h ⊢
            split at h
            · cases h
            · rename_i hdup
              cases hw : overlapWindow T [g] data o with
              | error e => simp [hw] at h
              | ok w =>
                simp only [hw, pure, Except.pure] at h ⊢
                have hw2 : w.2 = none := by
                  unfold overlapWindow at hw
                  split at hw
                  · cases hw; rfl
                  · split at hw
                    · cases hw
                      simp only [filterRowGroups, List.zipIdx_cons, List.zipIdx_nil, List.filter_cons, List.filter_nil]
                      split <;> rfl
                    · cases hw
                have hw1 : w.1 = none ∨ w.1 = some 0 := by
                  unfold overlapWindow at hw
                  split at hw
                  · cases hw; exact Or.inl rfl
                  · split at hw
                    · cases hw
                      simp only [filterRowGroups, List.zipIdx_cons, List.zipIdx_nil, List.filter_cons, List.filter_nil]
                      split
                      · exact Or.inr rfl
                      · exact Or.inl rfl
                    · cases hw
                have hco : coalesce m k [g] data.length w.1 w.2 = some 1 ∨ coalesce m k [g] data.length w.1 w.2 = w.1 := by
                  have htr : trailing (m * 9 / 10) [g] = [] := by
                    simp [trailing, List.takeWhile_cons, hc]
                  simp only [coalesce, htr, hw2]
                  split
                  · left
                    rcases hw1 with e | e <;> rw [e] <;> rfl
                  · right; rfl
                rcases hco with e | e
                · rw [e, hw2] at h
                  simp [writeUpdate, bind, Except.bind, throw, throwThe, MonadExceptOf.throw] at h
                · rw [e] at h
                  rw [if_neg hdup]
                  cases hw1' : w.1 with
                  | none =>
                    rw [hw1'] at h
                    simpa [hm] using h
                  | some s =>
                    rw [hw1'] at h
                    simp only at h ⊢
                    rw [← h]
                    simp [writeUpdate, hm]

/-- The dataset begins with a complete row group of at most `n` rows. -/
def Anchored (p : Params) (n : Nat) (rgs : List (RG R)) : Prop :=
  ∃ m g gs, p.maxRg = some m ∧ rgs = g :: gs ∧ m * 9 / 10 < g.rows.length ∧ g.rows.length ≤ n

/-- Coalescing is not used, or does not change the first row group. -/
def Loose (p : Params) (n : Nat) (rgs : List (RG R)) : Prop := p.maxNirgs = none ∨ Anchored p n rgs

theorem Loose.mono {p : Params} {n n' : Nat} {rgs : List (RG R)} (h : Loose p n rgs) (hn : n ≤ n') : Loose p n' rgs :=
  h.imp id fun ⟨m, g, gs, h1, h2, h3, h4⟩ => ⟨m, g, gs, h1, h2, h3, h4.trans hn⟩

/-- A write of rows that come after the first `n` ones leaves the first row group, complete for any settings. -/
theorem Loose.write {T : Table R} {p p' : Params} {on : Col} {n : Nat} {pre data : List R} {rgs rgs' : List (RG R)}
    (hp : p.orderedOn = some (.col on)) (h : Loose p n rgs) (h' : Loose p' n rgs) (hn : n ≤ pre.length)
    (hl : OrderedLayout (T.get on) (rgs.map RG.rows)) (hpre : pre <+: readRows rgs)
    (hlt : ∀ x ∈ pre, ∀ y ∈ data, T.get on x < T.get on y) (hl' : OrderedLayout (T.get on) (rgs'.map RG.rows))
    (hpre' : pre <+: readRows rgs') (hw : Writer.write T p rgs data = .ok rgs') : Loose p' n rgs' := by
  refine h'.imp id ?_
  rintro ⟨m, g, gs, hm, rfl, h1, h2⟩
  have hg : g.rows ≠ [] := by intro e; rw [e] at h1; simp at h1
  have hgp : g.rows <+: pre := by
    refine List.prefix_of_prefix_length_le ⟨readRows gs, ?_⟩ hpre (h2.trans hn)
    simp [readRows]
  have hmem := write_keeps_head hp hg (fun x hx y hy => hlt x (hgp.subset hx) y hy)
    (h.imp id fun ⟨m1, g1, gs1, e1, e2, e3, _⟩ m' hm' => by
      rw [e1] at hm'; cases hm'; rw [(List.cons.inj e2).1]; exact e3) hw
  obtain ⟨i, gs', rfl⟩ := head_of_mem hl' hmem hg (hgp.trans hpre')
  exact ⟨m, ⟨i, g.rows⟩, gs', hm, rfl, h1, h2⟩

/-- Effect of writing rows `data` that come after the first rows `pre` of the dataset. -/
theorem Along.write {T : Table R} {p : Params} {on : Col} {d : DupOn} {G pre data : List R} {rgs rgs' : List (RG R)}
    (hp : p.orderedOn = some (.col on)) (hd : p.dupOn = some d)
    (hn : Loose p pre.length rgs ∨ (readRows rgs).length ≤ pre.length + 1) (hon : on ∈ T.cols)
    (hG : StrictOn (T.get on) G) (ha : Along T on d G rgs) (hpre : pre <+: readRows rgs)
    (hk : (pre ++ data).map (T.key (dupCols T.cols on d)) <+: G.map (T.key (dupCols T.cols on d)))
    (h : Writer.write T p rgs data = .ok rgs') :
    Along T on d G rgs' ∧ pre ++ data <+: readRows rgs' ∧ (rgs ≠ [] → rgs' ≠ []) ∧ (data ≠ [] → rgs' ≠ []) ∧
      (readRows rgs').length ≤ max (readRows rgs).length (pre ++ data).length ∧
      ∀ n ≤ pre.length, Loose p n rgs → ∀ p', Loose p' n rgs → Loose p' n rgs' := by
  by_cases hne : data = []
  · subst hne
    by_cases hr : rgs = []
    · subst hr
      obtain ⟨on', _, (⟨_, chunks, hch, rfl⟩ | ⟨hc, _⟩)⟩ := write_cases h
      · have hfl : chunks.flatten = [] := iter_plain_flatten hch
        have : numberFrom 0 chunks = [] := by
          have h1 : rowsOf (numberFrom 0 chunks) = [] := by
            rw [numberFrom_rows, List.filter_eq_nil_iff]
            intro c hc
            have : c = [] := List.flatten_eq_nil_iff.1 hfl c hc
            simp [this]
          simpa [rowsOf] using h1
        rw [this]
        have : pre = [] := by simpa [readRows] using hpre
        subst this
        exact ⟨.nil, by simp [readRows], by simp, by simp, by simp [readRows], fun _ _ _ _ h => h⟩
      · exact absurd rfl hc
    · rw [C24_empty_ordered hp hon hr] at h
      cases h
  · have sρ := strict_of_keys hon hG ha.keys
    have spd := strict_of_keys hon hG hk
    have sd : StrictOn (T.get on) data := (List.pairwise_append.1 spd).2.1
    obtain ⟨ρ2, hρ⟩ := hpre
    have hgap : NoGap (T.get on) (rgs.map RG.rows) data := by
      cases ρ2 with
      | nil =>
        left
        intro l hl x hx y hy
        rw [List.append_nil] at hρ
        have : x ∈ pre := by rw [hρ]; exact List.mem_flatten.2 ⟨l, hl, hx⟩
        exact (List.pairwise_append.1 spd).2.2 x this y hy
      | cons z ρ2 =>
        right
        have hz : z ∈ readRows rgs := by rw [← hρ]; simp
        obtain ⟨l, hl, hzl⟩ := List.mem_flatten.1 hz
        obtain ⟨a, data', rfl⟩ := List.exists_cons_of_ne_nil hne
        have hkey : T.get on z = T.get on a := by
          apply dupCols_sep (d := d) hon
          have h1 := List.prefix_iff_eq_take.1 ha.keys
          have h2 := List.prefix_iff_eq_take.1 hk
          rw [← hρ] at h1
          have e1 := congrArg (fun l => l[pre.length]?) h1
          have e2 := congrArg (fun l => l[pre.length]?) h2
          simp only [List.map_append, List.map_cons, List.length_append, List.length_map, List.length_cons] at e1 e2
          rw [List.getElem?_append_right (by simp), List.getElem?_take_of_lt (by omega)] at e1 e2
          simp only [List.length_map, Nat.sub_self, List.getElem?_cons_zero] at e1 e2
          rw [← e2] at e1
          simpa using e1
        refine ⟨l, hl, ⟨z, hzl, a, rfl, by rw [hkey]⟩, z, hzl, (a :: data').getLast (by simp), List.getLast?_eq_some_getLast _, ?_⟩
        have hlast := List.getLast_mem (l := a :: data') (by simp)
        rw [hkey]
        rcases List.mem_cons.1 hlast with he | hm
        · rw [he]
        · exact le_of_lt ((List.pairwise_cons.1 sd).1 _ hm)
    have hnd : ∀ {l : List R}, StrictOn (T.get on) l → (l.map (T.key (dupCols T.cols on d))).Nodup :=
      fun hs => strict_nodup hon d hs
    have hsafe : CoalescingSafe (T.get on) p.maxRg p.maxNirgs (rgs.map RG.rows) data ∨
        Writer.write T { p with maxNirgs := none } rgs data = .ok rgs' := by
      have hlt : ∀ x ∈ pre, ∀ y ∈ data, T.get on x < T.get on y := (List.pairwise_append.1 spd).2.2
      rcases hn with (hn | ⟨m, g, gs, hm, rfl, h1, h2⟩) | hn
      · exact Or.inl (Or.inl hn)
      · refine Or.inl (Or.inr (Or.inl ?_))
        intro l hgl x hx y hy
        simp only [List.map_cons, List.head?_cons, Option.some.injEq] at hgl
        subst hgl
        have hgp : g.rows <+: pre := by
          refine List.prefix_of_prefix_length_le ⟨readRows gs, ?_⟩ ⟨ρ2, hρ⟩ h2
          simp [readRows]
        exact hlt x (hgp.subset hx) y hy
      · exact write_coalesce ha.layout ⟨ρ2, hρ⟩ hn hlt h
    have hup : IsUpsert (T.get on) (T.key (dupCols T.cols on d)) (readRows rgs) data (readRows rgs') := by
      rcases hsafe with hsafe | h'
      · exact C17_upsert_step hp hd ha.layout hne sd.tied hgap hsafe (hnd sd) (hnd sρ) h
      · exact C17_upsert_step (p := { p with maxNirgs := none }) hp hd ha.layout hne sd.tied hgap (Or.inl rfl) (hnd sd) (hnd sρ) h'
    have hlay : OrderedLayout (T.get on) (rgs'.map RG.rows) := by
      rcases hsafe with hsafe | h'
      · exact C15_ordered_step hp ha.layout hne sd.tied (strict_ids hon sd) hgap hsafe h
      · exact C15_ordered_step (p := { p with maxNirgs := none }) hp ha.layout hne sd.tied (strict_ids hon sd) hgap (Or.inl rfl) h'
    generalize hN : pre.length + data.length = N
    have hkt : (pre ++ data ++ (readRows rgs).drop N).map (T.key (dupCols T.cols on d)) <+:
        G.map (T.key (dupCols T.cols on d)) := by
      have h1 := List.prefix_iff_eq_take.1 ha.keys
      have h2 := List.prefix_iff_eq_take.1 hk
      rw [List.map_append, List.map_drop, h1, h2]
      simp only [List.length_map, List.length_append, hN]
      by_cases hle : N ≤ (readRows rgs).length
      · rw [take_eq_append_drop hle]
        exact List.take_prefix _ _
      · rw [List.drop_eq_nil_of_le (by rw [List.length_take]; omega), List.append_nil]
        exact List.take_prefix _ _
    have st := strict_of_keys hon hG hkt
    have heq : readRows rgs' = pre ++ data ++ (readRows rgs).drop N := by
      refine upsert_eq hup st fun x => ?_
      have hn' := hnd st
      rw [List.map_append, List.map_append, List.nodup_append, List.nodup_append] at hn'
      constructor
      · intro hx
        rcases List.mem_append.1 hx with hx | hx
        · rcases List.mem_append.1 hx with hx | hx
          · refine Or.inr ⟨by rw [← hρ]; exact List.mem_append_left _ hx, fun y hy he => ?_⟩
            exact hn'.1.2.2 _ (List.mem_map_of_mem hx) _ (List.mem_map_of_mem hy) he.symm
          · exact Or.inl hx
        · refine Or.inr ⟨List.mem_of_mem_drop hx, fun y hy he => ?_⟩
          exact hn'.2.2 _ (List.mem_append_right _ (List.mem_map_of_mem hy)) _ (List.mem_map_of_mem hx) he
      · rintro (hx | ⟨hx, hy⟩)
        · exact List.mem_append_left _ (List.mem_append_right _ hx)
        · rw [← hρ] at hx
          rcases List.mem_append.1 hx with hx | hx
          · exact List.mem_append_left _ (List.mem_append_left _ hx)
          · have hdrop : (readRows rgs).drop N = ρ2.drop data.length := by
              rw [← hρ, List.drop_append, ← hN, List.drop_eq_nil_of_le (by omega)]
              simp
            rw [hdrop]
            rw [← List.take_append_drop data.length ρ2] at hx
            rcases List.mem_append.1 hx with hx | hx
            · exfalso
              have h1 := ha.keys
              rw [← hρ, List.map_append] at h1
              rw [List.map_append] at hk
              have e1 : ρ2.map (T.key (dupCols T.cols on d)) <+:
                  (G.map (T.key (dupCols T.cols on d))).drop pre.length := by
                obtain ⟨t, ht⟩ := h1
                rw [← ht, List.append_assoc]
                rw [List.drop_append_of_le_length (by simp), List.drop_eq_nil_of_le (by simp)]
                exact ⟨t, by simp⟩
              have e2 : data.map (T.key (dupCols T.cols on d)) <+:
                  (G.map (T.key (dupCols T.cols on d))).drop pre.length := by
                obtain ⟨t, ht⟩ := hk
                rw [← ht, List.append_assoc]
                rw [List.drop_append_of_le_length (by simp), List.drop_eq_nil_of_le (by simp)]
                exact ⟨t, by simp⟩
              have e3 : (ρ2.take data.length).map (T.key (dupCols T.cols on d)) <+:
                  data.map (T.key (dupCols T.cols on d)) := by
                refine List.prefix_of_prefix_length_le (List.IsPrefix.trans ?_ e1) e2 (by simp)
                rw [List.map_take]
                exact List.take_prefix _ _
              have := e3.subset (List.mem_map_of_mem hx)
              obtain ⟨y, hyd, hye⟩ := List.mem_map.1 this
              exact hy y hyd hye
            · exact List.mem_append_right _ hx
    have hne' : rgs' ≠ [] := by
      intro he
      rw [he] at heq
      have : pre ++ data ++ (readRows rgs).drop N = [] := heq.symm
      simp only [List.append_eq_nil_iff] at this
      exact hne this.1.2
    refine ⟨⟨hlay, by rw [heq]; exact hkt⟩, by rw [heq]; exact ⟨_, rfl⟩, fun _ => hne', fun _ => hne', by
      rw [heq]; simp only [List.length_append, List.length_drop]; omega, fun n hn' hL _ hL' => ?_⟩
    refine hL.write hp hL' hn' ha.layout ⟨ρ2, hρ⟩ (List.pairwise_append.1 spd).2.2 hlay ?_ h
    rw [heq, List.append_assoc]
    exact ⟨_, rfl⟩

end Oups.Writer
