import Verif.Proofs.AggLaw
/-! Results in the order of the first value of their bin. -/
set_option linter.unusedSimpArgs false
set_option linter.unusedSectionVars false
namespace Oups.AggStream
open Oups.Writer (Table Params RG Col DupOn dupCols readRows StrictOn)
open Oups.Agg Oups.Agg.Spec Oups.Segment Oups.Segment.Spec

section
variable {R B : Type} {fn : BinFn R B} {pos : R → Int} {c : Closed} {b0 : B} {spec : List R → List (Bin R)}
variable {okb : List R → B → Prop} (L : Lawful fn pos c b0 spec okb)

/-- Label and first row of a bin. -/
def startOf (b : Bin R) : Int × Option R := (b.label, b.rows.head?)

include L in
/-- Labels and first rows do not change as rows are added. -/
theorem starts_prefix (h p : List R) (hs : AscOn pos (h ++ p)) : (spec h).map startOf <+: (spec (h ++ p)).map startOf := by
  by_cases hp : p = []
  · subst hp; simp
  obtain ⟨b, hb⟩ := L.reach h (hs.sublist (List.sublist_append_left _ _))
  obtain ⟨r, b', h1, h2, h3, h4⟩ := L.step h p b hp hs hb
  obtain ⟨f, tl, hft, hcase⟩ := step_cases L hs h4
  rcases hcase with ⟨rfl, _⟩ | ⟨hne, bs, l, h5, h6, h7, -⟩
  · rw [L.spec_nil]; simp
  · have hl := readBins_labels (u := r.unknownLast) (rows := p) h4.labels_len h4.ends_len h4.ne
    have hf := h4.first_label hne
    rw [hft] at hl
    rw [← hl, h5] at hf
    simp only [List.map_cons, List.head?_cons, List.getLast?_append, List.getLast?_singleton, Option.some_or,
      Option.map_some, Option.some.injEq] at hf
    rw [h5, h6]
    refine ⟨tl.map startOf, ?_⟩
    have : (l.rows ++ f.rows).head? = l.rows.head? := by
      cases hr : l.rows with
      | nil => exact absurd hr h7
      | cons x xs => rfl
    simp [startOf, hf, this]

/-- Bins all have rows, and their first rows are in strict order. -/
def FirstOk (pos : R → Int) (bins : List (Bin R)) : Prop :=
  bins.Pairwise (fun b b' => ∀ x y, b.rows.head? = some x → b'.rows.head? = some y → pos x < pos y) ∧ ∀ b ∈ bins, b.rows ≠ []

theorem firstOk_starts {bins : List (Bin R)} : FirstOk pos bins ↔
    (bins.map startOf).Pairwise (fun s s' => ∀ x y, s.2 = some x → s'.2 = some y → pos x < pos y) ∧
      ∀ s ∈ bins.map startOf, s.2 ≠ none := by
  simp [FirstOk, List.pairwise_map, startOf, List.head?_eq_none_iff]

include L in
theorem firstOk_left {h p : List R} (hs : AscOn pos (h ++ p)) (hv : FirstOk pos (spec (h ++ p))) : FirstOk pos (spec h) := by
  rw [firstOk_starts] at hv ⊢
  have hp := starts_prefix L h p hs
  exact ⟨hv.1.sublist hp.sublist, fun s hm => hv.2 s (hp.subset hm)⟩

/-- What is asked from rows. -/
def FirstValid (pos : R → Int) (ordered : Option (R → Int)) (spec : List R → List (Bin R)) (h : List R) : Prop :=
  BinsValid pos ordered spec h ∧ FirstOk pos (spec h)

variable {A : Type} {upd : List R → A → Bool → A} {a0 : A}

/-- A table whose rows are ordered on the first row of bins; duplicates are identified by the label as well. -/
structure ByFirst (T : Table (Row A)) (on : Col) (d : DupOn) (upd : List R → A → Bool → A) (a0 : A) (pos : R → Int) : Prop where
  first : ∀ (b : Bin R) x, b.rows.head? = some x → T.get on (b.label, value upd a0 none b.rows) = pos x
  dup : ∀ b b' : Bin R, b.rows ≠ [] → startOf b = startOf b' →
    T.key (dupCols T.cols on d) (b.label, value upd a0 none b.rows) =
      T.key (dupCols T.cols on d) (b'.label, value upd a0 none b'.rows)

theorem map_prefix_of {α β γ : Type} {f : α → β} {k : α → γ} {X Y : List α}
    (hk : ∀ x ∈ X, ∀ y ∈ Y, f x = f y → k x = k y) (h : X.map f <+: Y.map f) : X.map k <+: Y.map k := by
  induction X generalizing Y with
  | nil => simp
  | cons x X ih =>
    cases Y with
    | nil => simp at h
    | cons y Y =>
      simp only [List.map_cons, List.cons_prefix_cons] at h ⊢
      exact ⟨hk x (by simp) y (by simp) h.1, ih (fun a ha b hb => hk a (by simp [ha]) b (by simp [hb])) h.2⟩

include L in
theorem streamLaw_first {ordered : Option (R → Int)} {T : Table (Row A)} {on : Col} {d : DupOn}
    (hT : ByFirst T on d upd a0 pos) :
    StreamLaw (FirstValid pos ordered spec) (fun h => binRes upd a0 (spec h)) id T on d where
  nil := by simp [L.spec_nil, binRes]
  keys h p hv := by
    have hp := starts_prefix L h p hv.1.1
    have hl := firstOk_left L hv.1.1 hv.2
    simp only [binRes, List.map_id, List.map_map]
    exact map_prefix_of (fun b hb b' hb' he => hT.dup b b' (hl.2 b hb) he) hp
  strict h hv := by
    simp only [binRes, List.map_id, StrictOn, List.pairwise_map]
    refine hv.2.1.imp_of_mem ?_
    intro b b' hb hb' hlt
    obtain ⟨x, hx⟩ := Option.ne_none_iff_exists'.1 (mt List.head?_eq_none_iff.1 (hv.2.2 b hb))
    obtain ⟨y, hy⟩ := Option.ne_none_iff_exists'.1 (mt List.head?_eq_none_iff.1 (hv.2.2 b' hb'))
    rw [hT.first b x hx, hT.first b' y hy]
    exact hlt x y hx hy

end

/-! ### Which rows -/

theorem pairwise_cells {right lr : Bool} {a f : Int} (hf : 0 < f) (c0 : Int) (n : Nat) {R : Type} (pos : R → Int) (rows : List R) :
    (gridBins right lr a f c0 n pos rows).Pairwise fun b b' => ∀ x ∈ b.rows, ∀ y ∈ b'.rows, pos x < pos y := by
  unfold gridBins
  rw [List.pairwise_map]
  refine List.Pairwise.imp ?_ List.pairwise_lt_range
  intro i j hij x hx y hy
  simp only [List.mem_filter, decide_eq_true_eq] at hx hy
  have hm : f * (c0 + i + 1) ≤ f * (c0 + j) := Int.mul_le_mul_of_nonneg_left (by omega) (by omega)
  have h1 := hx.2
  have h2 := hy.2
  unfold InCell at h1 h2
  cases right <;> simp at h1 h2 <;> omega

theorem first_grid {right lr : Bool} {a f : Int} (hf : 0 < f) {R : Type} {pos : R → Int} {rows : List R}
    (hne : ∀ b ∈ gridSpec right lr a f pos rows, b.rows ≠ []) : FirstOk pos (gridSpec right lr a f pos rows) := by
  refine ⟨?_, hne⟩
  unfold gridSpec
  split
  · refine (pairwise_cells hf _ _ pos rows).imp ?_
    intro b b' h x y hx hy
    exact h x (List.mem_of_head? hx) y (List.mem_of_head? hy)
  · simp

theorem first_rows {right : Bool} {n : Nat} (hn : 0 < n) {R : Type} {pos : R → Int} {rows : List R}
    (hs : StrictLabels (xBins right n pos rows)) : FirstOk pos (xBins right n pos rows) := by
  obtain ⟨-, h2, -⟩ := xBins_spec right n pos rows hn
  refine ⟨?_, fun b hb => (h2 b hb).1⟩
  unfold StrictLabels at hs
  rw [List.pairwise_map] at hs
  refine hs.imp_of_mem ?_
  intro b b' hb hb' hlt x y hx hy
  have e1 := (h2 b hb).2.2
  have e2 := (h2 b' hb').2.2
  rw [hx] at e1
  rw [hy] at e2
  simp only [Option.map_some, Option.some.injEq] at e1 e2
  omega

/-! ### Keys -/

section
variable {K R B D V S Q : Type} [DecidableEq D] (O : D → Ops V) (get : R → Nat → V) {dtype : Nat → Option D}
  {agg : List (Nat × Nat × Option Fn)} {cfg : List (D × Group)} (hc : CfgOk dtype agg cfg) (z : List (List V) → Bool)
variable {fn : BinFn R B} {pos : R → Int} {c : Closed} {b0 : B} {spec : List R → List (Bin R)}
variable {okb : List R → B → Prop} (L : Lawful fn pos c b0 spec okb)
variable {key : KeyCfg K R (List (List V)) S Q} {emb : Buf B (List (List V)) → S}

include hc in
/-- The table has the aggregated values; column `on` is the first value of the column of positions. -/
theorem byFirst_of (hout : (agg.map Prod.fst).Nodup) {on i l dn : Nat} (hdn : dn = l ∨ dn = on) {d : D} (he : (on, i, some .first) ∈ agg)
    (hd : dtype i = some d) {toInt : V → Int} (hpos : ∀ r, toInt (get r i) = pos r) {T : Table (Row (List (List V)))}
    (hT : ∀ r : Row (List (List V)), T.get on r = ((r.2.bind (readCol on cfg)).map toInt).getD 0)
    (hTl : ∀ r : Row (List (List V)), T.get l r = r.1) :
    ByFirst T on (.one dn) (updCfg O get cfg) (chunkRes0 O cfg) pos := by
  have key : ∀ (b : Bin R) x, b.rows.head? = some x →
      T.get on (b.label, value (updCfg O get cfg) (chunkRes0 O cfg) none b.rows) = pos x := by
    intro b x hx
    rw [hT]
    have hne : b.rows ≠ [] := by rintro h; rw [h] at hx; cases hx
    have h1 := (updCfg_col O get hc hout he hd (chunkRes0 O cfg) (shaped_zero O cfg)).2
    simp only [value, hne, if_false, Option.bind_some]
    rw [h1]
    obtain ⟨y, ys, hy⟩ := List.exists_cons_of_ne_nil hne
    rw [hy] at hx ⊢
    cases hx
    obtain ⟨v, hv⟩ := Option.isSome_iff_exists.1 (updCfg_col O get hc hout he hd (chunkRes0 O cfg) (shaped_zero O cfg)).1
    simp [hv, jagg, jfirst, hpos]
  refine ⟨key, ?_⟩
  intro b b' hne h
  simp only [startOf, Prod.mk.injEq] at h
  obtain ⟨x, hx⟩ := Option.ne_none_iff_exists'.1 (mt List.head?_eq_none_iff.1 hne)
  have e1 := key b x hx
  have e2 := key b' x (h.2 ▸ hx)
  rcases hdn with rfl | rfl
  · by_cases hl : dn = on
    · subst hl
      simp [dupCols, Table.key, e1, e2]
    · simp only [dupCols, hl, if_false, Table.key, List.map_cons, List.map_nil, hTl, e1, e2]
      rw [h.1]
  · simp [dupCols, Table.key, e1, e2]

include hc L in
theorem keyLaws_first {ordered : Option (R → Int)} {e0 : Bool}
    (hcall : Embeds emb (inPlace (frameCall O get cfg z fn ordered none e0)) key.call)
    (hres : key.resType = .bins) (hpost : PostRow key id id)
    {on : Col} {d : DupOn} (hw : WriteOk key.table key.params on d)
    (hT : ByFirst key.table on d (updCfg O get cfg) (chunkRes0 O cfg) pos) :
    KeyLaws key (FirstValid pos ordered spec) (fun h => binRes (updCfg O get cfg) (chunkRes0 O cfg) (spec h)) none
      (fun h s => ∃ b, s = emb b ∧ FrameOk O get cfg spec okb (fun _ _ => True) h b) id id on d where
  call := ⟨fun hok hp hv hc' => ((frameLaw_bins O get hc z L ordered e0).embed hcall).step hok hp hv.1 hc'⟩
  post := hpost
  distinct := by simp [hres]
  wmain := hw
  wsnap := by simpa [KeyCfg.snapPars, hres] using hw
  bins _ := streamLaw_first L hT
  snaps := by simp [hres]
  valid _ _ hv := ⟨hv.1.left, firstOk_left L hv.1.1 hv.2⟩

end
end Oups.AggStream
