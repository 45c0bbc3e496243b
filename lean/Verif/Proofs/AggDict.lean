import Verif.Proofs.AggBuffer
/-! Successive calls on one dict. -/
namespace Oups.Agg
open Oups.Segment Spec
set_option linter.unusedSimpArgs false

section
variable {R B V D : Type} [DecidableEq D] (O : D → Ops V) (get : R → Nat → V)
variable {dtype : Nat → Option D}

theorem callRows_withRows (ks : List (DCall D R)) : callRows (withRows ks) = callRows ks := by
  induction ks with
  | nil => rfl
  | cons k ks ih =>
    unfold withRows callRows at *
    rw [List.filter_cons]
    split
    · rw [List.flatMap_cons, List.flatMap_cons, ih]
    · rename_i h
      rw [List.flatMap_cons, ih]
      have : k.rows = [] := by simpa using h
      rw [this, List.nil_append]

/-- Calls without rows change nothing. -/
theorem call_nil (k : DCall D R) (hk : k.rows = []) (z : List (D × Group) → List (List V) → Bool) (b0 : B) (fn : BinFn R B)
    (left : List R → B → B) (ordered : Option (R → Int)) (db : DictBuf B V) :
    k.call O get z b0 fn left ordered db = (.ok none, db) := by
  unfold DCall.call cumsegaggD
  rw [hk]; rfl

/-- Setting of the aggregations of a call. -/
structure DCall.Ok (dtype : Nat → Option D) (k : DCall D R) : Prop where
  cfg : CfgOk dtype k.agg k.cfg
  outs : k.outs.Nodup
  snaps : ∀ x, k.snapBy = some x → Snaps.Ok x

variable {fn : BinFn R B} {pos : R → Int} {c : Closed} {b0 : B} {spec : List R → List (Bin R)}
variable {ok : List R → B → Prop} (L : Lawful fn pos c b0 spec ok)

/-- What the dict holds after the rows `h`, given the calls. -/
structure DictInv (b0 : B) (spec : List R → List (Bin R)) (ok : List R → B → Prop) (ks : List (DCall D R)) (db : DictBuf B V) :
    Prop where
  well : WellKept db
  unit : AggOk unitUpd () spec ok (fun _ _ => True) (callRows ks) (unitBuf b0 db)
  bin : withRows ks ≠ [] → db.bin.isSome
  empty : withRows ks = [] → db.chunk = none ∧ db.bin = none
  snap : ∀ k, (withRows ks).head? = some k → db.snap.isSome = k.snapBy.isSome
  chunk : ∀ k, (withRows ks).getLast? = some k → ∃ c, db.chunk = some c ∧ ∀ n, n ∈ c.map Prod.fst ↔ n ∈ k.outs

include L in
theorem dictInv_nil : DictInv b0 spec ok ([] : List (DCall D R)) ({} : DictBuf B V) where
  well := fun _ => rfl
  unit := aggOk_init () L trivial
  bin := by simp [withRows]
  empty := fun _ => ⟨rfl, rfl⟩
  snap := by simp [withRows]
  chunk := by simp [withRows]

include L in
/-- One call that returns. -/
theorem dict_step {ks : List (DCall D R)} {k : DCall D R} (hk : k.Ok dtype) {db db' : DictBuf B V}
    (hs : AscOn pos (callRows (ks ++ [k]))) (hlab : LabelsOk (spec (callRows (ks ++ [k]))))
    (hsep : k.snapBy.isSome → Separated (c == .right) pos (spec (callRows (ks ++ [k]))))
    (hI : DictInv b0 spec ok ks db) (z : List (D × Group) → List (List V) → Bool) (left : List R → B → B)
    {r : Option (Res (List (List V)))} (h : k.call O get z b0 fn left (some pos) db = (.ok r, db')) :
    DictInv b0 spec ok (ks ++ [k]) db' ∧
    ∀ out i f d, (out, i, some f) ∈ k.agg → dtype i = some d →
      AggOk (colUpd (O d) f fun r => get r i) (O d).zero spec ok (fun _ _ => True) (callRows ks) (colBuf b0 out db) →
      AggOk (colUpd (O d) f fun r => get r i) (O d).zero spec ok (fun _ _ => True) (callRows (ks ++ [k])) (colBuf b0 out db') ∧
      ∀ rs acc, acc = colBins (O d) f (fun r => get r i) (spec (callRows ks)) →
        ∃ acc', glueCol out [k] [r] acc = acc' ∧ (∀ ks', glueCol out (k :: ks') (r :: rs) acc = glueCol out ks' rs acc') ∧
          acc' = colBins (O d) f (fun r => get r i) (spec (callRows (ks ++ [k]))) := by
  have hcr : callRows (ks ++ [k]) = callRows ks ++ k.rows := by simp [callRows]
  by_cases hp : k.rows = []
  · rw [call_nil O get k hp] at h
    simp only [Prod.mk.injEq, Except.ok.injEq] at h
    obtain ⟨rfl, rfl⟩ := h
    have hw : withRows (ks ++ [k]) = withRows ks := by simp [withRows, hp]
    rw [hp, List.append_nil] at hcr
    refine ⟨⟨hI.well, ?_, ?_, ?_, ?_, ?_⟩, ?_⟩
    · rw [hcr]; exact hI.unit
    · rw [hw]; exact hI.bin
    · rw [hw]; exact hI.empty
    · rw [hw]; exact hI.snap
    · rw [hw]; exact hI.chunk
    · intro out i f d _ _ hb
      refine ⟨by rw [hcr]; exact hb, ?_⟩
      intro rs acc hacc
      exact ⟨acc, rfl, fun _ => rfl, by rw [hcr]; exact hacc⟩
  · obtain ⟨res, rfl, hall, hbin, hsn, hread, hsnap, ⟨c', hc1, hc2⟩, hunit, hcol⟩ :=
      dict_call O get hk.cfg hk.outs (z k.cfg) b0 fn left (some pos) k.snapBy k.check k.rows hp db db' hI.well h
    rw [hcr] at hs hlab hsep
    have hw : withRows (ks ++ [k]) = withRows ks ++ [k] := by simp [withRows, hp]
    have hwell : WellKept db' := by intro h0; rw [h0] at hbin; simp at hbin
    refine ⟨⟨hwell, ?_, fun _ => hbin, ?_, ?_, ?_⟩, ?_⟩
    · rw [hcr]
      obtain ⟨res', b', e1, _, e3⟩ := step_any unitHom () (fun _ => false) L hk.snaps hp hs hlab hsep hI.unit hunit
      simp only [Prod.mk.injEq, Option.some.injEq] at e1
      rw [e1.2]; exact e3
    · intro h0; rw [hw] at h0; simp at h0
    · intro k0 h0
      rw [hw] at h0
      rw [hsnap]
      by_cases hne : withRows ks = []
      · rw [hne] at h0
        simp only [List.nil_append, List.head?_cons, Option.some.injEq] at h0
        subst h0
        rw [hI.well (hI.empty hne).2]; simp
      · rw [List.head?_append_of_ne_nil _ hne] at h0
        have h1 := hI.snap k0 h0
        rw [h1]
        cases hk' : k.snapBy.isSome with
        | false => simp
        | true =>
          have := hsn hk' (hI.bin hne)
          rw [h1] at this
          rw [this]; rfl
    · intro k1 h1
      rw [hw, List.getLast?_concat] at h1
      cases h1
      refine ⟨c', hc1, fun n => ?_⟩
      rw [hc2]; exact mem_names hk.cfg n
    · intro out i f d he hd hb
      obtain ⟨res', b', e1, e2, e3⟩ := step_any (colUpd_hom (O d) f _) (O d).zero (fun _ => false) L hk.snaps hp hs hlab hsep hb
        (hcol out i f d he hd)
      simp only [Prod.mk.injEq, Option.some.injEq] at e1
      rw [hcr]
      refine ⟨by rw [e1.2]; exact e3, ?_⟩
      intro rs acc hacc
      refine ⟨_, rfl, fun _ => rfl, ?_⟩
      simp only [glueCol]
      rw [← binRes_col (O d) f _ (O d).zero, e2, ← e1.1, binRes_col, ← hacc]
      congr 1
      exact column_eq O get hk.cfg hk.outs he hd res.bins hall.1

include L in
/-- Calls that return: one column. -/
theorem dict_run (z : List (D × Group) → List (List V) → Bool) (left : List R → B → B) (ks : List (DCall D R)) :
    ∀ (ks0 : List (DCall D R)) (db db' : DictBuf B V) (rs : List (Option (Res (List (List V))))),
    (∀ k ∈ ks, k.Ok dtype) → AscOn pos (callRows (ks0 ++ ks)) →
    (∀ q, q <+: callRows (ks0 ++ ks) → LabelsOk (spec q)) →
    ((∃ k ∈ ks, k.snapBy.isSome) → ∀ q, q <+: callRows (ks0 ++ ks) → Separated (c == .right) pos (spec q)) →
    DictInv b0 spec ok ks0 db → dictRun O get z b0 fn left (some pos) ks db = .ok (rs, db') →
    DictInv b0 spec ok (ks0 ++ ks) db' ∧
    ∀ out i f d, (∀ k ∈ ks, (out, i, some f) ∈ k.agg) → dtype i = some d →
      AggOk (colUpd (O d) f fun r => get r i) (O d).zero spec ok (fun _ _ => True) (callRows ks0) (colBuf b0 out db) →
      ∀ acc, acc = colBins (O d) f (fun r => get r i) (spec (callRows ks0)) →
        glueCol out ks rs acc = colBins (O d) f (fun r => get r i) (spec (callRows (ks0 ++ ks))) := by
  induction ks with
  | nil =>
    intro ks0 db db' rs _ _ _ _ hI h
    simp only [dictRun, Except.ok.injEq, Prod.mk.injEq] at h
    obtain ⟨rfl, rfl⟩ := h
    rw [List.append_nil]
    refine ⟨hI, ?_⟩
    intro out i f d _ _ _ acc hacc
    rw [← hacc]; simp [glueCol]
  | cons k ks ih =>
    intro ks0 db db' rs hk hs hlab hsep hI h
    have hassoc : ks0 ++ k :: ks = (ks0 ++ [k]) ++ ks := by simp
    rw [hassoc] at hs hlab hsep ⊢
    have hpre : callRows (ks0 ++ [k]) <+: callRows (ks0 ++ [k] ++ ks) := by
      conv => rhs; unfold callRows; rw [List.flatMap_append]
      exact List.prefix_append _ _
    unfold dictRun at h
    cases h1 : k.call O get z b0 fn left (some pos) db with
    | mk r db1 =>
      cases r with
      | error e => rw [h1] at h; cases h
      | ok r =>
        rw [h1] at h
        simp only at h
        cases h2 : dictRun O get z b0 fn left (some pos) ks db1 with
        | error e => rw [h2] at h; cases h
        | ok o =>
          obtain ⟨rs', db2⟩ := o
          rw [h2] at h
          simp only [Except.ok.injEq, Prod.mk.injEq] at h
          obtain ⟨rfl, rfl⟩ := h
          obtain ⟨g1, g2⟩ := dict_step O get L (hk k (by simp)) (hs.sublist hpre.sublist) (hlab _ hpre)
            (fun hk' => hsep ⟨k, by simp, hk'⟩ _ hpre) hI z left h1
          obtain ⟨f1, f2⟩ := ih (ks0 ++ [k]) db1 db2 rs' (fun x hx => hk x (by simp [hx])) hs hlab
            (fun ⟨x, hx, h'⟩ => hsep ⟨x, by simp [hx], h'⟩) g1 h2
          refine ⟨f1, ?_⟩
          intro out i f d he hd hb acc hacc
          obtain ⟨e1, e2⟩ := g2 out i f d (he k (by simp)) hd hb
          obtain ⟨acc', _, e4, e5⟩ := e2 rs' acc hacc
          rw [e4 ks]
          exact f2 out i f d (fun x hx => he x (by simp [hx])) hd e1 acc' e5

include L in
/-- From an empty dict. -/
theorem dict_history (z : List (D × Group) → List (List V) → Bool) (left : List R → B → B) (ks : List (DCall D R))
    (hk : ∀ k ∈ ks, k.Ok dtype) (hs : AscOn pos (callRows ks)) (hlab : ∀ q, q <+: callRows ks → LabelsOk (spec q))
    (hsep : (∃ k ∈ ks, k.snapBy.isSome) → ∀ q, q <+: callRows ks → Separated (c == .right) pos (spec q))
    {rs : List (Option (Res (List (List V))))} {db : DictBuf B V}
    (h : dictRun O get z b0 fn left (some pos) ks {} = .ok (rs, db)) :
    DictInv b0 spec ok ks db ∧
    ∀ out i f d, (∀ k ∈ ks, (out, i, some f) ∈ k.agg) → dtype i = some d →
      glueCol out ks rs [] = colBins (O d) f (fun r => get r i) (spec (callRows ks)) := by
  obtain ⟨h1, h2⟩ := dict_run O get L z left ks [] {} db rs hk hs hlab hsep (dictInv_nil L) h
  refine ⟨h1, fun out i f d he hd => ?_⟩
  refine h2 out i f d he hd (aggOk_init (O d).zero L trivial) [] ?_
  show [] = colBins (O d) f _ (spec [])
  rw [L.spec_nil]; rfl

include L in
/-- Which calls are accepted. -/
theorem dict_accepts {ks : List (DCall D R)} {k : DCall D R} (hk : k.Ok dtype) {db : DictBuf B V} (hp : k.rows ≠ [])
    (hfree : ∀ x, k.snapBy = some x → Snaps.Free x) (he : k.check = false)
    (hs : AscOn pos (callRows (ks ++ [k]))) (hlab : LabelsOk (spec (callRows (ks ++ [k]))))
    (hsep : k.snapBy.isSome → Separated (c == .right) pos (spec (callRows (ks ++ [k]))))
    (hI : DictInv b0 spec ok ks db) (z : List (D × Group) → List (List V) → Bool) (left : List R → B → B) :
    let can := (k.snapBy.isSome → ∀ k0, (withRows ks).head? = some k0 → k0.snapBy.isSome) ∧
      ∀ k1, (withRows ks).getLast? = some k1 → ∀ n ∈ k.outs, n ∈ k1.outs
    (can → ∃ r, (k.call O get z b0 fn left (some pos) db).1 = .ok r) ∧
    (¬ can → (k.call O get z b0 fn left (some pos) db).1 = .error (.seg .keyError)) := by
  have hcr : callRows (ks ++ [k]) = callRows ks ++ k.rows := by simp [callRows]
  rw [hcr] at hs hlab hsep
  have h1 : (k.snapBy.isSome → ∀ k0, (withRows ks).head? = some k0 → k0.snapBy.isSome) ↔
      (k.snapBy.isSome → db.bin.isSome → db.snap.isSome) := by
    by_cases hne : withRows ks = []
    · rw [hne, (hI.empty hne).2]; simp
    · have hb := hI.bin hne
      obtain ⟨k0, h0⟩ : ∃ k0, (withRows ks).head? = some k0 := ⟨_, List.head?_eq_some_head hne⟩
      have := hI.snap k0 h0
      rw [h0, this]
      simp [hb]
  have h2 : (∀ k1, (withRows ks).getLast? = some k1 → ∀ n ∈ k.outs, n ∈ k1.outs) ↔ Readable k.cfg db := by
    by_cases hne : withRows ks = []
    · rw [hne]
      simp only [List.getLast?_nil]
      constructor
      · intro _ c' hc'; rw [(hI.empty hne).1] at hc'; cases hc'
      · intro _ k1 h; cases h
    · obtain ⟨k1, h0⟩ : ∃ k1, (withRows ks).getLast? = some k1 := ⟨_, List.getLast?_eq_some_getLast hne⟩
      obtain ⟨c', hc1, hc2⟩ := hI.chunk k1 h0
      rw [h0]
      constructor
      · intro h c'' hc''
        rw [hc1] at hc''; cases hc''
        rw [readChunk_iff]
        intro n hn
        rw [lookup_isSome_iff, hc2]
        exact h k1 rfl n ((mem_names hk.cfg n).1 hn)
      · intro h k1' hk1' n hn
        cases hk1'
        have := (readChunk_iff c' k.cfg).1 (h c' hc1) n ((mem_names hk.cfg n).2 hn)
        rw [lookup_isSome_iff, hc2] at this
        exact this
  simp only
  rw [h1, h2]
  obtain ⟨o, ho⟩ : ∃ o, cumsegagg unitUpd () (fun _ => false) fn (some pos) k.snapBy false k.rows (some (unitBuf b0 db)) =
      .ok o := by
    cases hsn : k.snapBy with
    | none =>
      obtain ⟨res, b', g1, _⟩ := step_bins unitHom () (fun _ => false) L (some pos) hp hs (by rintro o ho; cases ho; exact hs)
        hlab hI.unit
      exact ⟨_, g1⟩
    | some sn =>
      obtain ⟨ss, sb, hss⟩ : ∃ ss sb, runSnaps sn c (k.rows.map pos) (some (unitBuf b0 db).seg.snap) = .ok (ss, sb) := by
        have := hfree sn hsn
        cases sn with
        | grouper g => exact ⟨_, _, rfl⟩
        | calendar g => exact ⟨_, _, rfl⟩
        | values l e => exact this.elim
      obtain ⟨res, b', g1, _⟩ := step_anySnaps unitHom () (fun _ => false) L (hk.snaps sn hsn) hp hs hlab
        (hsep (by rw [hsn]; rfl)) hI.unit hss
      exact ⟨_, g1⟩
  constructor
  · rintro ⟨hs1, hr1⟩
    have href := frame_refines O get k.cfg (z k.cfg) b0 fn left (some pos) k.snapBy false k.rows hp db hI.well hs1 hr1
    have hb : ∀ b, some (frameBuf b0 k.cfg db) = some b → ∀ a, b.chunk = some a → Shaped k.cfg a := by
      intro b hb a ha
      cases hb
      simp only [frameBuf, Option.bind_eq_some_iff] at ha
      obtain ⟨c, _, h2⟩ := ha
      exact shaped_of_out hk.cfg (readChunk_get h2).1
    obtain ⟨e1, _⟩ := cumsegagg_proj (upd := updCfg O get k.cfg) (upd' := unitUpd) (P := Shaped k.cfg) (π := fun _ => ())
        (fun _ _ _ _ => rfl) (fun xs a p h => shaped_upd O get k.cfg xs a p h) (chunkRes0 O k.cfg) (shaped_zero O k.cfg)
        (z k.cfg) (fun _ => false) fn (some pos) k.snapBy k.rows _ hb
    rw [Option.map_some, frameBuf_unit b0 k.cfg db hr1, ho] at e1
    unfold DCall.call
    rw [he]
    unfold frameCall at href
    cases hfc : cumsegagg (updCfg O get k.cfg) (chunkRes0 O k.cfg) (z k.cfg) fn (some pos) k.snapBy false k.rows
        (some (frameBuf b0 k.cfg db)) with
    | error e => rw [hfc] at e1; cases e1
    | ok x =>
      rw [hfc] at href
      obtain ⟨mb, a, _, _, _, _, hd⟩ := href
      rw [hd]
      exact ⟨_, rfl⟩
  · intro hno
    unfold DCall.call
    by_cases hs1 : k.snapBy.isSome → db.bin.isSome → db.snap.isSome
    · have hr1 : ¬ Readable k.cfg db := fun h => hno ⟨hs1, h⟩
      have hsg := seg_refines b0 fn left (some pos) k.snapBy k.rows db hI.well hs1
      refine (not_readable O get k.cfg (z k.cfg) b0 fn left (some pos) k.snapBy k.check k.rows hp db hr1).2 ?_
      cases hseg : segmentby fn (some pos) k.snapBy k.rows (some (segOf b0 db)) with
      | error e =>
        exfalso
        unfold cumsegagg at ho
        rw [show k.rows.isEmpty = false by simpa using hp] at ho
        simp only [Bool.false_eq_true, if_false, Option.map_some, show (unitBuf b0 db).seg = segOf b0 db from rfl, hseg] at ho
        cases ho
      | ok x =>
        rw [hseg] at hsg
        obtain ⟨mb, _, _, hd⟩ := hsg
        exact ⟨x.1, by rw [hd]⟩
    · push_neg at hs1
      obtain ⟨a1, a2, a3⟩ := hs1
      rw [no_snap O get k.cfg (z k.cfg) b0 fn left (some pos) k.snapBy k.check k.rows hp db a1 a2
        (by simpa using a3)]

end

/-! ### Same parameters in all calls -/

section
open Oups.AggStream
variable {R B V D : Type} [DecidableEq D] (O : D → Ops V) (get : R → Nat → V)
variable {dtype : Nat → Option D} {agg : List (Nat × Nat × Option Fn)} {cfg : List (D × Group)}

/-- The dict holds what the typed buffer of a kind of calls holds. -/
structure Sim (b0 : B) (cfg : List (D × Group)) (sn : Option Snaps) (db : DictBuf B V) (b : Buf B (List (List V))) : Prop where
  well : WellKept db
  read : Readable cfg db
  snap : sn.isSome → db.bin.isSome → db.snap.isSome
  eq : b = frameBuf b0 cfg db

omit [DecidableEq D] in
theorem sim_init (b0 : B) (cfg : List (D × Group)) (sn : Option Snaps) : Sim b0 cfg sn ({} : DictBuf B V) (Buf.init b0) where
  well := fun _ => rfl
  read := by intro c h; cases h
  snap := by intro _ h; cases h
  eq := rfl

/-- Call on a dict, as a call that gives its new content. -/
def dictCall (z : List (List V) → Bool) (cfg : List (D × Group)) (b0 : B) (fn : BinFn R B) (left : List R → B → B)
    (ordered : Option (R → Int)) (sn : Option Snaps) (e0 : Bool) (p : List R) (db : DictBuf B V) :
    Except AggErr (Option (Res (List (List V))) × DictBuf B V) :=
  match cumsegaggD O get cfg z b0 fn left ordered sn e0 p db with
  | (.error e, _) => .error e
  | (.ok r, db) => .ok (r, db)

theorem dict_sim (hc : CfgOk dtype agg cfg) (hout : (agg.map Prod.fst).Nodup) (z : List (List V) → Bool) (b0 : B)
    (fn : BinFn R B) (left : List R → B → B) (ordered : Option (R → Int)) (sn : Option Snaps) (e0 : Bool) (p : List R)
    {db : DictBuf B V} {b : Buf B (List (List V))} (hs : Sim b0 cfg sn db b) :
    match inPlace (frameCall O get cfg z fn ordered sn e0) p b with
    | .error e => dictCall O get z cfg b0 fn left ordered sn e0 p db = .error e
    | .ok (r, b') => ∃ db', dictCall O get z cfg b0 fn left ordered sn e0 p db = .ok (r, db') ∧ Sim b0 cfg sn db' b' := by
  by_cases hp : p = []
  · subst hp
    refine ⟨db, rfl, hs⟩
  · have href := frame_refines O get cfg z b0 fn left ordered sn e0 p hp db hs.well hs.snap hs.read
    unfold inPlace dictCall
    rw [hs.eq]
    cases hfc : frameCall O get cfg z fn ordered sn e0 p (some (frameBuf b0 cfg db)) with
    | error e =>
      rw [hfc] at href
      obtain ⟨d', hd⟩ := href
      simp only [hd]
    | ok o =>
      obtain ⟨r, m⟩ := o
      rw [hfc] at href
      obtain ⟨mb, a, rfl, ha, hsome, hsn, hd⟩ := href
      simp only [hd, Option.getD_some]
      refine ⟨_, rfl, ?_⟩
      have hb : ∀ b, some (frameBuf b0 cfg db) = some b → ∀ a, b.chunk = some a → Shaped cfg a := by
        intro b hb a ha
        cases hb
        simp only [frameBuf, Option.bind_eq_some_iff] at ha
        obtain ⟨c, _, h2⟩ := ha
        exact shaped_of_out hc (readChunk_get h2).1
      obtain ⟨_, h2⟩ := cumsegagg_proj (upd := updCfg O get cfg) (upd' := unitUpd) (P := Shaped cfg) (π := fun _ => ())
        (fun _ _ _ _ => rfl) (fun xs a p h => shaped_upd O get cfg xs a p h) (chunkRes0 O cfg) (shaped_zero O cfg) z
        (fun _ => false) fn ordered sn p _ hb
      have hsh := (h2 _ (cumsegagg_unchecked hfc)).2 mb rfl a ha
      have hrd := read_nameCols (shapedOut_of hc hsh) (nodup_names hc hout)
      refine ⟨by intro h; simp at h, ?_, ?_, ?_⟩
      · intro c hc'
        simp only [Option.some.injEq] at hc'
        rw [← hc', hrd]; rfl
      · intro h _; simp [h]
      · obtain ⟨⟨bin, snap, lab⟩, ch⟩ := mb
        simp only at ha hsn
        subst ha
        simp only [frameBuf, segOf, Option.getD_some, Option.bind_some, hrd, Buf.mk.injEq, MainBuf.mk.injEq, true_and,
          and_true]
        cases sn with
        | none => exact hsn rfl
        | some s => rfl

theorem dictLaw (hc : CfgOk dtype agg cfg) (hout : (agg.map Prod.fst).Nodup) {z : List (List V) → Bool} {b0 : B}
    {fn : BinFn R B} {left : List R → B → B} {ordered : Option (R → Int)} {sn : Option Snaps} {e0 : Bool}
    {W : List R → Prop} {FB : List R → List (Row (List (List V)))} {FS : Option (List R → List (Row (List (List V))))}
    {ok : List R → Buf B (List (List V)) → Prop}
    (L : CallLaw W (inPlace (frameCall O get cfg z fn ordered sn e0)) FB FS ok) :
    CallLaw W (dictCall O get z cfg b0 fn left ordered sn e0) FB FS (fun h db => ∃ b, Sim b0 cfg sn db b ∧ ok h b) where
  step := by
    rintro h p s res s' ⟨b, hs, hok⟩ hp hV hcall
    have := dict_sim O get hc hout z b0 fn left ordered sn e0 p hs
    cases hf : inPlace (frameCall O get cfg z fn ordered sn e0) p b with
    | error e => rw [hf] at this; rw [hcall] at this; cases this
    | ok o =>
      obtain ⟨r, b'⟩ := o
      rw [hf] at this
      obtain ⟨db', h1, h2⟩ := this
      rw [hcall] at h1
      simp only [Except.ok.injEq, Prod.mk.injEq] at h1
      obtain ⟨rfl, rfl⟩ := h1
      obtain ⟨g1, g2⟩ := L.step hok hp hV hf
      exact ⟨⟨b', h2, g1⟩, g2⟩

end
end Oups.Agg
