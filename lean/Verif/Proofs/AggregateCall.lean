import Verif.Proofs.AggregateEvents
/-! One call of `jcsagg` over a segmented frame. -/
set_option linter.unusedSimpArgs false
namespace Oups.Agg
open Oups.Segment Oups.Segment.Spec Spec

variable {R A : Type}

theorem getLast?_map' {α β} (f : α → β) (l : List α) : (l.map f).getLast? = l.getLast?.map f := by
  simp

/-- Split at the last bin. -/
theorem split_last_bin (es : List (Bool × Nat)) (h : ∃ e ∈ es, e.1 = true) :
    ∃ es1 n post, es = es1 ++ (true, n) :: post ∧ ∀ e ∈ post, e.1 = false := by
  induction es with
  | nil => simp at h
  | cons e es ih =>
    by_cases hh : ∃ e ∈ es, e.1 = true
    · obtain ⟨es1, n, post, rfl, hp⟩ := ih hh
      exact ⟨e :: es1, n, post, rfl, hp⟩
    · obtain ⟨e', he', ht⟩ := h
      rcases List.mem_cons.1 he' with rfl | he'
      · refine ⟨[], e'.2, es, ?_, ?_⟩
        · rw [← ht]; rfl
        · intro x hx
          cases hx' : x.1 with
          | false => rfl
          | true => exact absurd ⟨x, hx, hx'⟩ hh
      · exact absurd ⟨e', he', ht⟩ hh

theorem run_append (upd : List R → A → Bool → A) (a0 : A) (data : List R) (es es' : List (Bool × Nat)) (b : Nat)
    (prev : Option A) :
    ∃ b' prev', run upd a0 data b prev (es ++ es') = run upd a0 data b prev es ++ run upd a0 data b' prev' es' := by
  induction es generalizing b prev with
  | nil => exact ⟨b, prev, rfl⟩
  | cons e es ih =>
    obtain ⟨t, n⟩ := e
    cases t with
    | true =>
      obtain ⟨b', prev', h⟩ := ih n none
      exact ⟨b', prev', by simp only [List.cons_append, run, if_true, h]⟩
    | false =>
      obtain ⟨b', prev', h⟩ := ih b prev
      exact ⟨b', prev', by simp only [List.cons_append, run, Bool.false_eq_true, if_false, h]⟩

/-- Snapshots after the end of the rows are null. -/
theorem run_post (upd : List R → A → Bool → A) (a0 : A) (data : List R) (post : List (Bool × Nat)) (n : Nat)
    (h : ∀ e ∈ post, e.1 = false ∧ e.2 = n) : run upd a0 data n none post = post.map fun _ => (false, none) := by
  induction post with
  | nil => rfl
  | cons e post ih =>
    obtain ⟨t, m⟩ := e
    obtain ⟨h1, h2⟩ := h (t, m) (by simp)
    simp only at h1 h2
    subst h1 h2
    simp only [run, Bool.false_eq_true, if_false, List.map_cons]
    rw [ih (fun e he => h e (by simp [he]))]
    simp [slice, value]

/-- `chunk_res` at the end of a run is the result of the last bin, when this one ends the frame and is not null. -/
theorem run_last (upd : List R → A → Bool → A) (a0 : A) (data : List R) (es : List (Bool × Nat)) (b : Nat)
    (prev : Option A) (hmono : (es.map Prod.snd).Pairwise (· ≤ ·)) (hle : ∀ e ∈ es, e.2 ≤ data.length)
    (hlast : (es.filter (fun e => e.1)).getLast? = some (true, data.length)) (v : A)
    (hv : ((run upd a0 data b prev es).filter (fun r => r.1)).getLast? = some (true, some v)) :
    ((run upd a0 data b prev es).filterMap Prod.snd).getLast? = some v := by
  have hex : ∃ e ∈ es, e.1 = true := by
    have := List.mem_of_getLast? hlast
    exact ⟨_, (List.mem_filter.1 this).1, rfl⟩
  obtain ⟨es1, n, post, rfl, hp⟩ := split_last_bin es hex
  have hpf : post.filter (fun e => e.1) = [] := by
    rw [List.filter_eq_nil_iff]; intro e he; simp [hp e he]
  rw [List.filter_append, List.filter_cons_of_pos rfl, hpf, List.getLast?_concat] at hlast
  simp only [Option.some.injEq, Prod.mk.injEq, true_and] at hlast
  subst hlast
  have hpost : ∀ e ∈ post, e.1 = false ∧ e.2 = data.length := by
    intro e he
    refine ⟨hp e he, ?_⟩
    rw [List.map_append, List.map_cons, List.pairwise_append, List.pairwise_cons] at hmono
    have h1 := hmono.2.1.1 e.2 (List.mem_map_of_mem he)
    have h2 := hle e (by simp [he])
    simp only at h1
    omega
  obtain ⟨b', prev', hr⟩ := run_append upd a0 data es1 ((true, data.length) :: post) b prev
  rw [hr] at hv ⊢
  simp only [run, if_true] at hv ⊢
  rw [run_post upd a0 data post data.length hpost] at hv ⊢
  have h1 : (post.map fun _ => ((false, none) : Bool × Option A)).filter (fun r => r.1) = [] := by
    rw [List.filter_eq_nil_iff]; intro r hr
    obtain ⟨e, _, rfl⟩ := List.mem_map.1 hr; simp
  have h2 : (post.map fun _ => ((false, none) : Bool × Option A)).filterMap Prod.snd = [] := by
    rw [List.filterMap_eq_nil_iff]; intro r hr
    obtain ⟨e, _, rfl⟩ := List.mem_map.1 hr; rfl
  rw [List.filter_append, List.filter_cons_of_pos rfl, h1, List.getLast?_concat] at hv
  simp only [Option.some.injEq, Prod.mk.injEq, true_and] at hv
  rw [List.filterMap_append, hv, List.filterMap_cons_some (f := Prod.snd) (a := (true, some v)) rfl, h2,
    List.getLast?_concat]

/-- `jcsagg` over a frame whose chunks have the kinds `es`. -/
theorem jcsagg_eq {upd : List R → A → Bool → A} (H : Hom upd) (a0 : A) (data : List R) (starts idx : List Nat)
    (someSnaps preserve : Bool) (res : A) (es : List (Bool × Nat))
    (hes : (if someSnaps then classify 0 idx starts else starts.map fun s => (true, s)) = es)
    (hmono : (es.map Prod.snd).Pairwise (· ≤ ·)) (hle : ∀ e ∈ es, e.2 ≤ data.length) (prev : Option A)
    (hprev : prev = if preserve then some res else none) :
    ∃ a, jcsagg upd data starts idx someSnaps preserve res =
        (((run upd a0 data 0 prev es).filter (fun r => r.1)).map Prod.snd,
          ((run upd a0 data 0 prev es).filter (fun r => !r.1)).map Prod.snd, a) ∧
      a = (((run upd a0 data 0 prev es).filterMap Prod.snd).getLast?).getD res := by
  have hrun : (jloop upd data ⟨if preserve then -1 else 0, 0, preserve, res⟩ es).1 = run upd a0 data 0 prev es := by
    apply jloop_eq H a0 data es 0 0 prev _ (le_refl 0) (Nat.zero_le _)
    · rw [List.pairwise_cons]; exact ⟨fun _ _ => Nat.zero_le _, hmono⟩
    · exact hle
    · rfl
    · cases preserve <;> simp [hprev]
    · have : slice data 0 0 = [] := by simp [slice]
      rw [this, hprev]; cases preserve <;> simp [value]
    · have : slice data 0 0 = [] := by simp [slice]
      rw [this, hprev]; cases preserve <;> simp [value]
  refine ⟨(jloop upd data ⟨if preserve then -1 else 0, 0, preserve, res⟩ es).2, ?_, ?_⟩
  · unfold jcsagg
    rw [hes]
    simp only [hrun]
  · rw [jloop_res, hrun]

/-! ### Arrays of a segmentation -/

theorem known_eq_stops (bs : List (Bin R)) (ts : List Nat) :
    known bs ts = ((bs.map Bin.stop).zip ts).filterMap fun p => p.1.map fun e => ((e, true, p.2) : Ev) := by
  induction bs generalizing ts with
  | nil => simp [known]
  | cons b bs ih =>
    cases ts with
    | nil => simp [known]
    | cons t ts =>
      have := ih ts
      unfold known at this ⊢
      simp only [List.zip_cons_cons, List.map_cons, List.filterMap_cons]
      rw [this]

theorem readBins_stops {starts : List Nat} {labels ends : List Int} {u : Bool} {rows : List R}
    (h1 : labels.length = starts.length) (h2 : ends.length = starts.length) (hne : starts ≠ []) :
    (readBins starts labels ends u rows).map Bin.stop = stops ends u := by
  have hpos := List.length_pos_iff.2 hne
  have hst : (stops ends u).length = starts.length := by
    unfold stops; split <;> simp <;> omega
  rw [readBins, List.map_map]
  have : (((labels.zip (stops ends u)).zip (cut rows 0 starts)).map Prod.fst).map Prod.snd = stops ends u := by
    rw [List.map_fst_zip (by rw [List.length_zip, length_cut]; omega), List.map_snd_zip (by omega)]
  rw [List.map_map] at this
  exact this

theorem readBins_length {starts : List Nat} {labels ends : List Int} {u : Bool} {rows : List R}
    (h1 : labels.length = starts.length) (h2 : ends.length = starts.length) (hne : starts ≠ []) :
    (readBins starts labels ends u rows).length = starts.length := by
  have := congrArg List.length (readBins_labels (u := u) (rows := rows) h1 h2 hne)
  rw [List.length_map] at this; omega

theorem filterMap_some_zip (ends : List Int) (ts : List Nat) :
    ((ends.map some).zip ts).filterMap (fun p => p.1.map fun e => ((e, true, p.2) : Ev)) = evs true ends ts := by
  induction ends generalizing ts with
  | nil => simp [evs]
  | cons e ends ih =>
    cases ts with
    | nil => simp [evs]
    | cons t ts => simp [evs] at ih ⊢; exact ih ts

theorem evs_concat (ends : List Int) (ts : List Nat) (e : Int) (t : Nat) (h : ends.length = ts.length) :
    evs true (ends ++ [e]) (ts ++ [t]) = evs true ends ts ++ [(e, true, t)] := by
  rw [evs, List.zip_append h, List.map_append]; rfl

theorem evs_false_map (sends : List Int) (g : Int → Nat) :
    evs false sends (sends.map g) = sends.map fun s => ((s, false, g s) : Ev) := by
  induction sends with
  | nil => rfl
  | cons s l ih => simpa [evs] using ih

/-- Merged entries, in terms of the bins. -/
theorem events_known {starts : List Nat} {labels ends : List Int} {u : Bool} {rows : List R}
    (h1 : labels.length = starts.length) (h2 : ends.length = starts.length) (hne : starts ≠ []) (S : List Ev) :
    ∃ F, events S (evs true ends starts) u = mergeEv S (known (readBins starts labels ends u rows) starts) ++ F ∧
      known (readBins starts labels ends u rows) starts ++ F = evs true ends starts ∧
      (F = [] ∨ ∃ e, F = [(e, true, starts.getLastD 0)]) := by
  rw [known_eq_stops, readBins_stops h1 h2 hne]
  cases u with
  | false =>
    refine ⟨[], ?_, ?_, Or.inl rfl⟩
    · simp only [events, stops, Bool.false_eq_true, if_false, filterMap_some_zip, List.append_nil]
    · simp only [stops, Bool.false_eq_true, if_false, filterMap_some_zip, List.append_nil]
  | true =>
    obtain ⟨ts, t, rfl⟩ := List.eq_nil_or_concat starts |>.resolve_left hne
    have hne2 : ends ≠ [] := by rintro rfl; simp at h2
    obtain ⟨es, e, rfl⟩ := List.eq_nil_or_concat ends |>.resolve_left hne2
    simp only [List.concat_eq_append, List.length_append, List.length_singleton, Nat.add_right_cancel_iff] at h2 ⊢
    have hk : (((es.map some ++ [none]).zip (ts ++ [t])).filterMap fun p : Option Int × Nat => p.1.map fun e => ((e, true, p.2) : Ev)) =
        evs true es ts := by
      rw [List.zip_append (by simp [h2]), List.filterMap_append, filterMap_some_zip]
      simp
    refine ⟨[(e, true, t)], ?_, ?_, Or.inr ⟨e, by simp⟩⟩
    · simp only [events, stops, if_true, List.dropLast_concat, hk, evs_concat es ts e t h2, List.getLast?_concat,
        Option.toList]
    · simp only [stops, if_true, List.dropLast_concat, hk, evs_concat es ts e t h2]

/-- Ends of separated bins are in order. -/
theorem known_keyAsc {pos : R → Int} (bs : List (Bin R)) (ts : List Nat)
    (hsep : Ended pos bs) : KeyAsc (known bs ts) := by
  induction bs generalizing ts with
  | nil => simp [known]
  | cons x bs ih =>
    cases ts with
    | nil => simp [known]
    | cons t ts =>
      obtain ⟨⟨hs1, hs2⟩, hs3⟩ := ended_cons.1 hsep
      cases hx : x.stop with
      | none => rw [hs1 hx]; simp [known, hx]
      | some e =>
        have hk : known (x :: bs) (t :: ts) = (e, true, t) :: known bs ts := by
          simp only [known, List.zip_cons_cons, List.filterMap_cons, hx, Option.map_some]
        rw [hk, KeyAsc, List.pairwise_cons]
        refine ⟨?_, ih ts hs3⟩
        intro ev hev
        unfold known at hev
        obtain ⟨p, hp, hpe⟩ := List.mem_filterMap.1 hev
        cases hps : p.1.stop with
        | none => rw [hps] at hpe; cases hpe
        | some e' =>
          rw [hps] at hpe
          simp only [Option.map_some, Option.some.injEq] at hpe
          subst hpe
          exact (hs2 e hx).2 p.1 (List.of_mem_zip hp).1 e' hps

theorem known_bins (bs : List (Bin R)) (ts : List Nat) : ∀ e ∈ known bs ts, e.2.1 = true := by
  intro ev hev
  obtain ⟨p, hp, hpe⟩ := List.mem_filterMap.1 hev
  cases hps : p.1.stop with
  | none => rw [hps] at hpe; cases hpe
  | some e' =>
    rw [hps] at hpe
    simp only [Option.map_some, Option.some.injEq] at hpe
    rw [← hpe]

theorem evs_map_snd (t : Bool) (keys : List Int) (starts : List Nat) (h : keys.length = starts.length) :
    (evs t keys starts).map (fun e => e.2.2) = starts := by
  rw [evs, List.map_map]
  exact List.map_snd_zip (by omega)

theorem evs_kind (keys : List Int) (starts : List Nat) (h : keys.length = starts.length) :
    (evs true keys starts).map kind = starts.map fun s => (true, s) := by
  have := evs_map_snd true keys starts h
  conv_rhs => rw [← this]
  rw [List.map_map]
  apply List.map_congr_left
  intro e he
  have := (mem_evs he).1
  simp [kind, this]

/-- Keys of the bins given to `mergesort` are in order. -/
theorem ends_asc {pos : R → Int} {starts : List Nat} {labels ends : List Int} {u : Bool} {rows : List R}
    (h1 : labels.length = starts.length) (h2 : ends.length = starts.length) (hne : starts ≠ [])
    (hsep : Ended pos (readBins starts labels ends u rows)) :
    if u then Asc ends.dropLast else Asc ends := by
  have hk := known_keyAsc _ starts hsep
  rw [known_eq_stops, readBins_stops h1 h2 hne] at hk
  have key : ∀ (ks : List Int) (ts : List Nat), ks.length = ts.length → KeyAsc (evs true ks ts) → Asc ks := by
    intro ks ts hl h
    have : ((evs true ks ts).map Prod.fst) = ks := by
      rw [evs, List.map_map]; exact List.map_fst_zip (by omega)
    rw [← this, Asc, List.pairwise_map]; exact h
  cases u with
  | false =>
    simp only [stops, Bool.false_eq_true, if_false, filterMap_some_zip] at hk ⊢
    exact key _ _ h2 hk
  | true =>
    obtain ⟨ts, t, rfl⟩ := List.eq_nil_or_concat starts |>.resolve_left hne
    have hne2 : ends ≠ [] := by rintro rfl; simp at h2
    obtain ⟨es, e, rfl⟩ := List.eq_nil_or_concat ends |>.resolve_left hne2
    simp only [List.concat_eq_append, List.length_append, List.length_singleton, Nat.add_right_cancel_iff,
      stops, if_true, List.dropLast_concat] at h2 hk ⊢
    rw [List.zip_append (by simp [h2]), List.filterMap_append, filterMap_some_zip] at hk
    simp only [List.zip_cons_cons, List.zip_nil_right, List.filterMap_cons, Option.map_none, List.filterMap_nil,
      List.append_nil] at hk
    exact key _ _ h2 hk

/-- The merged entries: chunk starts are in order, within the data, with some bin. -/
theorem merged_events {right : Bool} {pos : R → Int}
    {p : List R} {bstarts : List Nat} {labels ends : List Int} {u : Bool} {sends : List Int}
    (h1 : labels.length = bstarts.length) (h2 : ends.length = bstarts.length) (hm : bstarts.Pairwise (· ≤ ·))
    (hl : bstarts.getLast? = some p.length)
    (hsep : Separated right pos (readBins bstarts labels ends u p)) (ha : Asc sends) {S : List Ev}
    (hS : S = evs false sends (sends.map fun e => (p.map pos).countP (within right e))) {F : List Ev}
    (e1 : events S (evs true ends bstarts) u = mergeEv S (known (readBins bstarts labels ends u p) bstarts) ++ F)
    (e2 : known (readBins bstarts labels ends u p) bstarts ++ F = evs true ends bstarts)
    (e3 : F = [] ∨ ∃ e, F = [(e, true, bstarts.getLastD 0)]) :
    (events S (evs true ends bstarts) u).Pairwise (fun a b : Ev => a.2.2 ≤ b.2.2) ∧
    (∀ e ∈ events S (evs true ends bstarts) u, e.2.2 ≤ p.length) ∧
    (∃ e ∈ events S (evs true ends bstarts) u, e.2.1 = true) ∧
    (∀ e ∈ S, e.2.1 = false ∧ e.2.2 = (p.map pos).countP (within right e.1)) ∧
    (∀ e ∈ F, e.2.1 = true) ∧ KeyAsc S := by
  have hne : bstarts ≠ [] := by rintro rfl; simp at hl
  let bs := readBins bstarts labels ends u p
  have hlen := readBins_length (u := u) (rows := p) h1 h2 hne
  have hrows := readBins_rows (u := u) (rows := p) h1 h2 hne
  have hmono0 : (0 :: bstarts).Pairwise (· ≤ ·) := List.pairwise_cons.2 ⟨fun _ _ => Nat.zero_le _, hm⟩
  have hlast0 : (0 :: bstarts).getLast? = some p.length := by
    rw [List.getLast?_cons, hl]; rfl
  have hle : ∀ t ∈ bstarts, t ≤ p.length := by
    intro t ht
    obtain ⟨l, rfl⟩ := List.getLast?_eq_some_iff.1 hl
    rcases List.mem_append.1 ht with h | h
    · exact (List.pairwise_append.1 hm).2.2 t h p.length (by simp)
    · simp at h; omega
  have hbev : ∀ e ∈ evs true ends bstarts, e.2.1 = true ∧ e.2.2 ≤ p.length := by
    intro e he
    have := mem_evs he
    exact ⟨this.1, hle _ this.2.2⟩
  have hSk : ∀ e ∈ S, e.2.1 = false ∧ e.2.2 = (p.map pos).countP (within right e.1) := by
    intro e he
    rw [hS] at he
    refine ⟨(mem_evs he).1, ?_⟩
    rw [evs_false_map] at he
    obtain ⟨x, _, rfl⟩ := List.mem_map.1 he
    rfl
  have hKsub : ∀ e ∈ known bs bstarts, e ∈ evs true ends bstarts := by
    intro e he; rw [← e2]; exact List.mem_append_left _ he
  have hFsub : ∀ e ∈ F, e ∈ evs true ends bstarts := by
    intro e he; rw [← e2]; exact List.mem_append_right _ he
  have hpairB : (evs true ends bstarts).Pairwise (fun a b : Ev => a.2.2 ≤ b.2.2) := by
    have : ((evs true ends bstarts).map (fun e => e.2.2)).Pairwise (· ≤ ·) := by
      rw [evs_map_snd _ _ _ h2]; exact hm
    rwa [List.pairwise_map] at this
  have hSA : KeyAsc S := by rw [hS]; exact evs_keyAsc _ _ _ ha
  have hpairS : S.Pairwise (fun a b : Ev => a.2.2 ≤ b.2.2) := by
    refine List.Pairwise.imp_of_mem ?_ hSA
    intro x y hx hy hxy
    rw [(hSk x hx).2, (hSk y hy).2]
    exact countP_mono_edge right hxy _
  have hsepk := known_sep bs bstarts 0 hrows hlen hmono0 hlast0 hsep (by simp)
  have hpair : (mergeEv S (known bs bstarts) ++ F).Pairwise (fun a b : Ev => a.2.2 ≤ b.2.2) := by
    rw [List.pairwise_append]
    refine ⟨?_, ?_, ?_⟩
    · apply pairwise_mergeEv _ _ _ hSA (known_keyAsc bs bstarts hsep.ended) hpairS
      · rw [← e2] at hpairB; exact (List.pairwise_append.1 hpairB).1
      · intro s hs' b hb hbs
        rw [(hSk s hs').2]
        apply rank_ge (hbev b (hKsub b hb)).2
        intro r hr
        exact within_of_lt ((hsepk b hb).1 r hr) hbs
      · intro s hs' b hb hbs
        rw [(hSk s hs').2]
        apply rank_le
        intro r hr
        have := (hsepk b hb).2 r hr
        cases hw : within right s.1 (pos r) with
        | false => rfl
        | true => rw [within_mono_edge hbs hw] at this; cases this
    · rcases e3 with rfl | ⟨e, rfl⟩ <;> simp
    · intro x hx y hy
      rcases e3 with rfl | ⟨e, rfl⟩
      · simp at hy
      · simp only [List.mem_singleton] at hy
        subst hy
        have hd : bstarts.getLastD 0 = p.length := by
          rw [List.getLastD_eq_getLast?, hl]; rfl
        simp only [hd]
        rcases (mem_mergeEv _ _ _).1 hx with h | h
        · rw [(hSk x h).2]
          have := List.countP_le_length (p := within right x.1) (l := p.map pos)
          rwa [List.length_map] at this
        · exact (hbev x (hKsub x h)).2
  have hleall : ∀ e ∈ mergeEv S (known bs bstarts) ++ F, e.2.2 ≤ p.length := by
    intro e he
    rcases List.mem_append.1 he with h | h
    · rcases (mem_mergeEv _ _ _).1 h with h | h
      · rw [(hSk e h).2]
        have := List.countP_le_length (p := within right e.1) (l := p.map pos)
        rwa [List.length_map] at this
      · exact (hbev e (hKsub e h)).2
    · exact (hbev e (hFsub e h)).2
  have hexb : ∃ e ∈ mergeEv S (known bs bstarts) ++ F, e.2.1 = true := by
    have hne3 : evs true ends bstarts ≠ [] := by
      intro h0
      have := congrArg List.length h0
      rw [evs, List.length_map, List.length_zip] at this
      have h3 := List.length_pos_iff.2 hne
      simp only [List.length_nil] at this; omega
    obtain ⟨e, he⟩ := List.exists_mem_of_ne_nil _ hne3
    refine ⟨e, ?_, (hbev e he).1⟩
    rw [← e2] at he
    rcases List.mem_append.1 he with h | h
    · exact List.mem_append_left _ ((mem_mergeEv _ _ _).2 (Or.inr h))
    · exact List.mem_append_right _ h
  rw [e1]
  exact ⟨hpair, hleall, hexb, hSk, fun e he => (hbev e (hFsub e he)).1, hSA⟩

/-- Values of one call with snapshots. -/
theorem jcsagg_snaps {upd : List R → A → Bool → A} (H : Hom upd) (a0 : A) {right : Bool} {pos : R → Int}
    {p : List R} {bstarts : List Nat} {labels ends : List Int} {u : Bool} {sends : List Int} {starts idx : List Nat}
    (preserve : Bool) (res : A) (hs : AscOn pos p)
    (h1 : labels.length = bstarts.length) (h2 : ends.length = bstarts.length) (hm : bstarts.Pairwise (· ≤ ·))
    (hl : bstarts.getLast? = some p.length)
    (hsep : Separated right pos (readBins bstarts labels ends u p))
    (ha : Asc sends)
    (hmerge : mergesort (sends.map fun e => (p.map pos).countP (within right e), bstarts) (sends, ends) u =
      .ok (starts, idx)) (prev : Option A) (hprev : prev = if preserve then some res else none) :
    ∃ a, jcsagg upd p starts idx true preserve res =
        (binVals upd a0 prev (readBins bstarts labels ends u p),
          sends.map (fun s => snapVal upd a0 right pos s prev (readBins bstarts labels ends u p)), a) ∧
      (∀ v, (binVals upd a0 prev (readBins bstarts labels ends u p)).getLast? = some (some v) → a = v) := by
  have hne : bstarts ≠ [] := by rintro rfl; simp at hl
  rw [mergesort_eq _ _ _ _ u (by simp) h2 ha (ends_asc h1 h2 hne hsep.ended) hne] at hmerge
  simp only [Except.ok.injEq, Prod.mk.injEq] at hmerge
  obtain ⟨rfl, rfl⟩ := hmerge
  let S := evs false sends (sends.map fun e => (p.map pos).countP (within right e))
  let bs := readBins bstarts labels ends u p
  obtain ⟨F, e1, e2, e3⟩ := events_known (u := u) (rows := p) h1 h2 hne S
  have hlen := readBins_length (u := u) (rows := p) h1 h2 hne
  have hrows := readBins_rows (u := u) (rows := p) h1 h2 hne
  have hmono0 : (0 :: bstarts).Pairwise (· ≤ ·) := List.pairwise_cons.2 ⟨fun _ _ => Nat.zero_le _, hm⟩
  have hlast0 : (0 :: bstarts).getLast? = some p.length := by
    rw [List.getLast?_cons, hl]; rfl
  obtain ⟨hpair, hleall, hexb, hSk, hFk, hSA⟩ := merged_events h1 h2 hm hl hsep ha (S := S) rfl e1 e2 e3
  rw [e1] at hpair hleall hexb
  have hes : (if true then classify 0 (binPositions (events S (evs true ends bstarts) u))
      ((events S (evs true ends bstarts) u).map fun e => e.2.2) else
      ((events S (evs true ends bstarts) u).map fun e => e.2.2).map fun s => (true, s)) =
      (mergeEv S (known bs bstarts) ++ F).map kind := by
    rw [if_pos rfl, e1]
    exact classify_binPositions _ hexb
  obtain ⟨a, hj1, hj2⟩ := jcsagg_eq H a0 p _ _ true preserve res _ hes
    (by rw [List.map_map, List.pairwise_map]; exact hpair)
    (by intro e he; obtain ⟨x, hx, rfl⟩ := List.mem_map.1 he; exact hleall x hx) prev hprev
  obtain ⟨r1, r2⟩ := run_merge upd a0 p S (known bs bstarts) F (0, prev) (fun e he => (hSk e he).1)
    (known_bins bs bstarts) hFk hSA
  have hbinrun : run upd a0 p 0 prev ((known bs bstarts ++ F).map kind) =
      (binVals upd a0 prev bs).map fun v => (true, v) := by
    rw [e2, evs_kind ends bstarts h2]
    exact run_bins_vals upd a0 p bs bstarts 0 prev hrows hlen
  refine ⟨a, ?_, ?_⟩
  · rw [hj1]
    simp only [Prod.mk.injEq, and_true]
    constructor
    · rw [r1, hbinrun, List.map_map]; exact List.map_id _
    · rw [r2]
      have hSs : S = sends.map fun s => ((s, false, (p.map pos).countP (within right s)) : Ev) := by
        simp only [S, evs_false_map]
      rw [hSs, List.map_map]
      apply List.map_congr_left
      intro s _
      exact snapAt_bins upd a0 bs bstarts 0 prev s hs hrows hlen hmono0 hlast0 hsep (by simp)
  · intro v hv
    have hlastb : (((mergeEv S (known bs bstarts) ++ F).map kind).filter (fun e => e.1)).getLast? =
        some (true, p.length) := by
      rw [List.filter_map, List.filter_append]
      have hf1 : (mergeEv S (known bs bstarts)).filter ((fun e => e.1) ∘ kind) = known bs bstarts :=
        filter_mergeEv _ _ _ (fun x hx => (hSk x hx).1) (known_bins bs bstarts)
      have hf2 : F.filter ((fun e => e.1) ∘ kind) = F :=
        List.filter_eq_self.2 (fun x hx => hFk x hx)
      rw [hf1, hf2, e2, evs_kind ends bstarts h2, getLast?_map', hl]
      rfl
    have := run_last upd a0 p _ 0 prev (by rw [List.map_map, List.pairwise_map]; exact hpair)
      (by intro e he; obtain ⟨x, hx, rfl⟩ := List.mem_map.1 he; exact hleall x hx) hlastb v
      (by rw [r1, hbinrun, getLast?_map', hv]; rfl)
    rw [hj2, this]; rfl

/-- Values of one call without snapshots. -/
theorem jcsagg_bins {upd : List R → A → Bool → A} (H : Hom upd) (a0 : A)
    {p : List R} {bstarts : List Nat} {bs : List (Bin R)} {idx : List Nat}
    (preserve : Bool) (res : A) (hrows : bs.map Bin.rows = cut p 0 bstarts) (hlen : bs.length = bstarts.length)
    (hm : bstarts.Pairwise (· ≤ ·)) (hle : ∀ t ∈ bstarts, t ≤ p.length) (prev : Option A)
    (hprev : prev = if preserve then some res else none) :
    ∃ a, jcsagg upd p bstarts idx false preserve res = (binVals upd a0 prev bs, [], a) ∧
      (∀ v, (binVals upd a0 prev bs).getLast? = some (some v) → a = v) := by
  obtain ⟨a, hj1, hj2⟩ := jcsagg_eq H a0 p bstarts idx false preserve res (bstarts.map fun s => (true, s)) rfl
    (by rw [List.map_map]; exact (by simpa using hm)) (by simpa using hle) prev hprev
  have hrun := run_bins_vals upd a0 p bs bstarts 0 prev hrows hlen
  rw [hrun] at hj1 hj2
  refine ⟨a, ?_, ?_⟩
  · rw [hj1]
    rw [List.filter_eq_self.2 (by simp), List.filter_eq_nil_iff.2 (by simp), List.map_map]
    simp only [List.map_nil, Prod.mk.injEq, and_true]
    exact List.map_id _
  · intro v hv
    rw [hj2]
    obtain ⟨l, hl⟩ := List.getLast?_eq_some_iff.1 hv
    rw [hl]
    simp [List.filterMap_append]

end Oups.Agg
