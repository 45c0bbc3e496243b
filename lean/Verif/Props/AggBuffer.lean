import Verif.Proofs.AggDict
import Verif.Props.AggSettings
/-! C76: the dict given as `buffer` to `cumsegagg`. -/
set_option linter.unusedSimpArgs false
namespace Oups.Agg
open Oups.Segment Spec
open Oups.AggStream (inPlace)

section
variable {R B V D : Type} [DecidableEq D] (O : D → Ops V) (get : R → Nat → V)
variable {dtype : Nat → Option D}

/-- A call whose aggregations are supported, under different names, with snapshots in order. -/
structure DCall.Fair (dtype : Nat → Option D) (k : DCall D R) : Prop where
  cfg : setupCumsegagg k.agg dtype = .ok k.cfg
  outs : k.outs.Nodup
  snaps : ∀ x, k.snapBy = some x → Snaps.Ok x

theorem DCall.Fair.ok {k : DCall D R} (h : k.Fair dtype) : k.Ok dtype := ⟨cfgOk_of h.cfg, h.outs, h.snaps⟩

/-! ### Histories of calls -/

/-- **C76** Successive calls on one dict, first empty, each one with its own rows, its own snapshots or none, its own aggregations, with
or without the check of zeros; bins from a `TimeGrouper`. If all return, then for each column requested in all calls, from the same
input and with the same function, rows of bins put end to end are the aggregates over the bins of all rows. -/
theorem C76_time (g : Grouper) (hg : Fixed g) (pos : R → Int) (z : List (D × Group) → List (List V) → Bool)
    (left : List R → ScaleBuf → ScaleBuf) {ks : List (DCall D R)} (hk : ∀ k ∈ ks, k.Fair dtype) (hs : AscOn pos (callRows ks))
    {rs : List (Option (Res (List (List V))))} {db : DictBuf ScaleBuf V}
    (h : dictRun O get z {} (grouperFn g pos) left (some pos) ks {} = .ok (rs, db)) :
    ∃ bins, IsGrid (g.closed == .right) g.labelRight g.origin0 g.freq pos (callRows ks) bins ∧
      ∀ out i f d, (∀ k ∈ ks, (out, i, some f) ∈ k.agg) → dtype i = some d →
        glueCol out ks rs [] = colBins (O d) f (fun r => get r i) bins :=
  ⟨_, gridSpec_isGrid _ _ _ _ _ _ hg.1 hs,
    (dict_history O get (grouper_lawful g g.origin0 hg.anchored pos) z left ks (fun k h => (hk k h).ok) hs
      (fun _ _ => gridSpec_labels _ _ _ _ _ _ hg.1) (fun _ _ _ => gridSpec_sep _ _ _ _ _ _ hg.1) h).2⟩

/-- **C76** The same with bins of `n` rows; with snapshots and right-closed bins, rows are at different positions. -/
theorem C76_rows (n : Nat) (hn : 0 < n) (cl : Closed) (pos : R → Int) (z : List (D × Group) → List (List V) → Bool)
    (left : List R → Option RowsBuf → Option RowsBuf) {ks : List (DCall D R)} (hk : ∀ k ∈ ks, k.Fair dtype)
    (hs : AscOn pos (callRows ks))
    (hties : (∃ k ∈ ks, k.snapBy.isSome) → cl = .right → (callRows ks).Pairwise fun x y => pos x < pos y)
    {rs : List (Option (Res (List (List V))))} {db : DictBuf (Option RowsBuf) V}
    (h : dictRun O get z none (rowsFn n cl pos) left (some pos) ks {} = .ok (rs, db)) :
    ∃ bins, IsRowBins (cl == .right) n pos (callRows ks) bins ∧
      ∀ out i f d, (∀ k ∈ ks, (out, i, some f) ∈ k.agg) → dtype i = some d →
        glueCol out ks rs [] = colBins (O d) f (fun r => get r i) bins :=
  ⟨_, xBins_spec _ n pos _ hn,
    (dict_history O get (rows_lawful n hn cl pos pos) z left ks (fun k h => (hk k h).ok) hs
      (fun q _ => xBins_labels _ n hn pos q)
      (fun he q hq => xBins_sep _ n hn pos q (List.Pairwise.sublist hq.sublist hs)
        (fun hr => List.Pairwise.sublist hq.sublist (hties he (by simpa using hr)))) h).2⟩

/-! ### Which calls are accepted -/

/-- What a call needs after previous ones: snapshots only if the first call with rows had some, and only columns of the last call with
rows. -/
def Accepted (ks : List (DCall D R)) (k : DCall D R) : Prop :=
  (k.snapBy.isSome → ∀ k0, (withRows ks).head? = some k0 → k0.snapBy.isSome) ∧
    ∀ k1, (withRows ks).getLast? = some k1 → ∀ n ∈ k.outs, n ∈ k1.outs

/-- **C76** After calls that returned, a call with rows (no snapshots, or from a `TimeGrouper`; no check of zeros) returns if and only if
it has snapshots only if the first call had some, and its columns are among those of the last call. Otherwise it raises `KeyError`. -/
theorem C76_time_accepts (g : Grouper) (hg : Fixed g) (pos : R → Int) (z : List (D × Group) → List (List V) → Bool)
    (left : List R → ScaleBuf → ScaleBuf) {ks : List (DCall D R)} (hk : ∀ k ∈ ks, k.Fair dtype)
    {rs : List (Option (Res (List (List V))))} {db : DictBuf ScaleBuf V}
    (h : dictRun O get z {} (grouperFn g pos) left (some pos) ks {} = .ok (rs, db))
    {k : DCall D R} (hk' : k.Fair dtype) (hs : AscOn pos (callRows (ks ++ [k]))) (hp : k.rows ≠ [])
    (hfree : ∀ x, k.snapBy = some x → Snaps.Free x) (he : k.check = false) :
    ((∃ r, (k.call O get z {} (grouperFn g pos) left (some pos) db).1 = .ok r) ↔ Accepted ks k) ∧
    (¬ Accepted ks k → (k.call O get z {} (grouperFn g pos) left (some pos) db).1 = .error (.seg .keyError)) := by
  have L := grouper_lawful g g.origin0 hg.anchored pos
  have hpre : callRows ks <+: callRows (ks ++ [k]) := by
    conv => rhs; unfold callRows; rw [List.flatMap_append]
    exact List.prefix_append _ _
  obtain ⟨hI, _⟩ := dict_history O get L z left ks (fun k h => (hk k h).ok) (hs.sublist hpre.sublist)
    (fun _ _ => gridSpec_labels _ _ _ _ _ _ hg.1) (fun _ _ _ => gridSpec_sep _ _ _ _ _ _ hg.1) h
  obtain ⟨h1, h2⟩ := dict_accepts O get L hk'.ok hp hfree he hs (gridSpec_labels _ _ _ _ _ _ hg.1)
    (fun _ => gridSpec_sep _ _ _ _ _ _ hg.1) hI z left
  refine ⟨⟨fun ⟨r, hr⟩ => ?_, h1⟩, h2⟩
  by_contra hno
  rw [h2 hno] at hr; cases hr

/-- **C76** The same with bins of `n` rows. -/
theorem C76_rows_accepts (n : Nat) (hn : 0 < n) (cl : Closed) (pos : R → Int) (z : List (D × Group) → List (List V) → Bool)
    (left : List R → Option RowsBuf → Option RowsBuf) {ks : List (DCall D R)} (hk : ∀ k ∈ ks, k.Fair dtype)
    {rs : List (Option (Res (List (List V))))} {db : DictBuf (Option RowsBuf) V}
    (h : dictRun O get z none (rowsFn n cl pos) left (some pos) ks {} = .ok (rs, db))
    {k : DCall D R} (hk' : k.Fair dtype) (hs : AscOn pos (callRows (ks ++ [k])))
    (hties : (∃ x ∈ ks ++ [k], x.snapBy.isSome) → cl = .right → (callRows (ks ++ [k])).Pairwise fun x y => pos x < pos y)
    (hp : k.rows ≠ []) (hfree : ∀ x, k.snapBy = some x → Snaps.Free x) (he : k.check = false) :
    ((∃ r, (k.call O get z none (rowsFn n cl pos) left (some pos) db).1 = .ok r) ↔ Accepted ks k) ∧
    (¬ Accepted ks k → (k.call O get z none (rowsFn n cl pos) left (some pos) db).1 = .error (.seg .keyError)) := by
  have L := rows_lawful n hn cl pos pos
  have hpre : callRows ks <+: callRows (ks ++ [k]) := by
    conv => rhs; unfold callRows; rw [List.flatMap_append]
    exact List.prefix_append _ _
  have hsep : (∃ x ∈ ks ++ [k], x.snapBy.isSome) → ∀ q, q <+: callRows (ks ++ [k]) →
      Separated (cl == .right) pos (xBins (cl == .right) n pos q) := fun he q hq =>
    xBins_sep _ n hn pos q (List.Pairwise.sublist hq.sublist hs)
      (fun hr => List.Pairwise.sublist hq.sublist (hties he (by simpa using hr)))
  obtain ⟨hI, _⟩ := dict_history O get L z left ks (fun k h => (hk k h).ok) (hs.sublist hpre.sublist)
    (fun q _ => xBins_labels _ n hn pos q)
    (fun ⟨x, hx, h'⟩ q hq => hsep ⟨x, by simp [hx], h'⟩ q (hq.trans hpre)) h
  obtain ⟨h1, h2⟩ := dict_accepts O get L hk'.ok hp hfree he hs (xBins_labels _ n hn pos _)
    (fun h' => hsep ⟨k, by simp, h'⟩ _ (List.prefix_refl _)) hI z left
  refine ⟨⟨fun ⟨r, hr⟩ => ?_, h1⟩, h2⟩
  by_contra hno
  rw [h2 hno] at hr; cases hr

/-! ### What the dict holds after an exception -/

/-- **C76** Snapshots asked with a dict that has entries for bins and none for snapshots: `KeyError`, and the dict as it was. Whatever
`bin_by`, rows and aggregations. -/
theorem C76_add_snaps (k : DCall D R) (hp : k.rows ≠ []) (hsn : k.snapBy.isSome) (z : List (D × Group) → List (List V) → Bool)
    (b0 : B) (fn : BinFn R B) (left : List R → B → B) (ordered : Option (R → Int)) (db : DictBuf B V) (hb : db.bin.isSome)
    (hd : db.snap = none) : k.call O get z b0 fn left ordered db = (.error (.seg .keyError), db) :=
  no_snap O get k.cfg (z k.cfg) b0 fn left ordered k.snapBy k.check k.rows hp db hsn hb hd

/-- **C76** The check of zeros raises once the dict is up to date: what the dict holds is the same as without it. -/
theorem C76_check (cfg : List (D × Group)) (z : List (List V) → Bool) (b0 : B) (fn : BinFn R B) (left : List R → B → B)
    (ordered : Option (R → Int)) (sn : Option Snaps) (p : List R) (db : DictBuf B V) :
    (cumsegaggD O get cfg z b0 fn left ordered sn true p db).2 = (cumsegaggD O get cfg z b0 fn left ordered sn false p db).2 ∧
    ((cumsegaggD O get cfg z b0 fn left ordered sn true p db).1 = (cumsegaggD O get cfg z b0 fn left ordered sn false p db).1 ∨
      ∃ r, (cumsegaggD O get cfg z b0 fn left ordered sn false p db).1 = .ok (some r) ∧
        ((cumsegaggD O get cfg z b0 fn left ordered sn true p db).1 = .error .zeroSnap ∨
          (cumsegaggD O get cfg z b0 fn left ordered sn true p db).1 = .error .zeroBin)) := by
  unfold cumsegaggD
  split
  · exact ⟨rfl, Or.inl rfl⟩
  · split
    · exact ⟨rfl, Or.inl rfl⟩
    · simp only
      split
      · exact ⟨rfl, Or.inl rfl⟩
      · simp only [Bool.false_and, Bool.false_eq_true, if_false]
        repeat' split
        all_goals first
          | exact ⟨rfl, Or.inl rfl⟩
          | exact ⟨rfl, Or.inr ⟨_, rfl, Or.inl rfl⟩⟩
          | exact ⟨rfl, Or.inr ⟨_, rfl, Or.inr rfl⟩⟩

/-- **C76** A column that the last results have not: `KeyError` or the exception of the segmentation, the last results stay, while the
dict has advanced by the segmentation. -/
theorem C76_missing (cfg : List (D × Group)) (z : List (List V) → Bool) (b0 : B) (fn : BinFn R B) (left : List R → B → B)
    (ordered : Option (R → Int)) (sn : Option Snaps) (e0 : Bool) (p : List R) (hp : p ≠ []) (db : DictBuf B V)
    {c : List (Nat × V)} (hc : db.chunk = some c) {e : D × Group} (he : e ∈ cfg) {n : Nat} (hn : n ∈ e.2.colsOut)
    (hno : n ∉ c.map Prod.fst) :
    (∃ x, (cumsegaggD O get cfg z b0 fn left ordered sn e0 p db).1 = .error (.seg x)) ∧
    (cumsegaggD O get cfg z b0 fn left ordered sn e0 p db).2 = (segmentbyD b0 fn left ordered sn p db).2 ∧
    (cumsegaggD O get cfg z b0 fn left ordered sn e0 p db).2.chunk = some c ∧
    ((∃ s, (segmentbyD b0 fn left ordered sn p db).1 = .ok s) →
      (cumsegaggD O get cfg z b0 fn left ordered sn e0 p db).1 = .error (.seg .keyError)) := by
  have hr : ¬ Readable cfg db := by
    intro h
    have := (readChunk_iff c cfg).1 (h c hc) n (List.mem_flatMap.2 ⟨e, he, hn⟩)
    rw [lookup_isSome_iff] at this
    exact hno this
  obtain ⟨⟨x, h1⟩, h2⟩ := not_readable O get cfg z b0 fn left ordered sn e0 p hp db hr
  refine ⟨⟨x, by rw [h1]⟩, by rw [h1], ?_, h2⟩
  rw [h1]
  simp only [segmentbyD_chunk, hc]

/-! ### Same parameters in all calls -/

/-- **C76** With the same parameters in all calls, results and exceptions are those of the calls on a buffer with a fixed set of
entries, the one used by all other properties. -/
theorem C76_same {agg : List (Nat × Nat × Option Fn)} {cfg : List (D × Group)} (hagg : setupCumsegagg agg dtype = .ok cfg)
    (hout : (agg.map Prod.fst).Nodup) (z : List (List V) → Bool) (b0 : B) (fn : BinFn R B) (left : List R → B → B)
    (ordered : Option (R → Int)) (sn : Option Snaps) (e0 : Bool) (pieces : List (List R)) :
    (sameRun (dictCall O get z cfg b0 fn left ordered sn e0) pieces {}).map Prod.fst =
      (sameRun (inPlace (frameCall O get cfg z fn ordered sn e0)) pieces (Buf.init b0)).map Prod.fst := by
  have hc := cfgOk_of hagg
  have key : ∀ (pieces : List (List R)) (db : DictBuf B V) (b : Buf B (List (List V))), Sim b0 cfg sn db b →
      (sameRun (dictCall O get z cfg b0 fn left ordered sn e0) pieces db).map Prod.fst =
        (sameRun (inPlace (frameCall O get cfg z fn ordered sn e0)) pieces b).map Prod.fst := by
    intro pieces
    induction pieces with
    | nil => intro db b _; rfl
    | cons p ps ih =>
      intro db b hs
      have h1 := dict_sim O get hc hout z b0 fn left ordered sn e0 p hs
      unfold sameRun
      cases hf : inPlace (frameCall O get cfg z fn ordered sn e0) p b with
      | error e => rw [hf] at h1; simp only at h1; rw [h1]; rfl
      | ok o =>
        obtain ⟨r, b'⟩ := o
        rw [hf] at h1
        obtain ⟨db', h2, h3⟩ := h1
        rw [h2]
        simp only
        have := ih db' b' h3
        cases h4 : sameRun (dictCall O get z cfg b0 fn left ordered sn e0) ps db' with
        | error e =>
          rw [h4] at this
          cases h5 : sameRun (inPlace (frameCall O get cfg z fn ordered sn e0)) ps b' with
          | error e' => rw [h5] at this; simpa [Except.map] using this
          | ok o => rw [h5] at this; cases this
        | ok o =>
          rw [h4] at this
          cases h5 : sameRun (inPlace (frameCall O get cfg z fn ordered sn e0)) ps b' with
          | error e' => rw [h5] at this; cases this
          | ok o' => rw [h5] at this; simpa [Except.map] using this
  exact key pieces {} (Buf.init b0) (sim_init b0 cfg sn)

end
/-! ### Examples -/

section

/-- Call with integers. -/
def exD (rows : List (Int × Int)) (sn : Option Snaps) (agg : List (Nat × Nat × Option Fn)) : DCall Unit (Int × Int) where
  rows := rows
  snapBy := sn
  agg := agg
  cfg := (setupCumsegagg agg fun _ => some ()).toOption.getD []

def exSumLast : List (Nat × Nat × Option Fn) := [(0, 0, some .sum), (1, 0, some .last)]
def exSum : List (Nat × Nat × Option Fn) := [(0, 0, some .sum)]
def exMax : List (Nat × Nat × Option Fn) := [(0, 0, some .max)]
def exS5 : Option Snaps := some (.grouper { freq := 5 })

/-- Bins each 10. -/
def exRun (ks : List (DCall Unit (Int × Int))) (db : DictBuf ScaleBuf Int) :
    Except AggErr (List (Option (Res (List (List Int)))) × DictBuf ScaleBuf Int) :=
  dictRun (fun _ => intOps) ex_get (fun _ _ => false) ({} : ScaleBuf) (grouperFn { freq := 10 } Prod.fst) (fun _ b => b)
    (some Prod.fst) ks db

def exCall (k : DCall Unit (Int × Int)) (db : DictBuf ScaleBuf Int) :
    Except AggErr (Option (Res (List (List Int)))) × DictBuf ScaleBuf Int :=
  k.call (fun _ => intOps) ex_get (fun _ _ => false) ({} : ScaleBuf) (grouperFn { freq := 10 } Prod.fst) (fun _ b => b)
    (some Prod.fst) db

-- snapshots, then none, no rows, then snapshots again with one column only: the sum by bins is the one over all rows
def exKs : List (DCall Unit (Int × Int)) :=
  [exD [(1, 1), (7, 2)] exS5 exSumLast, exD [(8, 4), (12, 8)] none exSumLast, exD [] none exSum,
    exD [(13, 16), (31, 32)] exS5 exSum]

theorem exD_fair {rows : List (Int × Int)} {sn : Option Snaps} {agg : List (Nat × Nat × Option Fn)} (h1 : agg ∈ [exSumLast, exSum, exMax])
    (h2 : sn ∈ [none, exS5]) : (exD rows sn agg).Fair (fun _ => some ()) := by
  simp only [List.mem_cons, List.not_mem_nil, or_false] at h1 h2
  refine ⟨?_, ?_, ?_⟩
  · rcases h1 with rfl | rfl | rfl <;> rfl
  · rcases h1 with rfl | rfl | rfl <;> simp [DCall.outs, exD, exSumLast, exSum, exMax]
  · intro x hx
    rcases h2 with rfl | rfl
    · cases hx
    · cases hx; simp [Snaps.Ok]

example : (exRun exKs {}).toOption.map (fun o => glueCol 0 exKs o.1 []) =
    some [(0, some 7), (10, some 24), (20, none), (30, some 32)] := by decide +kernel

example {rs : List (Option (Res (List (List Int))))} {db : DictBuf ScaleBuf Int} (h : exRun exKs {} = .ok (rs, db)) :
    ∃ bins, IsGrid false false 0 10 Prod.fst (callRows exKs) bins ∧ glueCol 0 exKs rs [] = colBins intOps .sum Prod.snd bins := by
  obtain ⟨bins, h1, h2⟩ := C76_time (fun _ : Unit => intOps) ex_get (dtype := fun _ => some ()) { freq := 10 } Oups.AggStream.exFixed Prod.fst
    (fun _ _ => false) (fun _ b => b) (ks := exKs)
    (by
      intro k hk
      simp only [exKs, List.mem_cons, List.not_mem_nil, or_false] at hk
      rcases hk with rfl | rfl | rfl | rfl <;> exact exD_fair (by simp) (by simp))
    (by decide) h
  refine ⟨bins, h1, h2 0 0 .sum () ?_ rfl⟩
  intro k hk
  simp only [exKs, List.mem_cons, List.not_mem_nil, or_false] at hk
  rcases hk with rfl | rfl | rfl | rfl <;> simp [exD, exSumLast, exSum]

-- bins of two rows: two calls, the first one with snapshots
example :
    (dictRun (fun _ => intOps) ex_get (fun _ _ => false) (none : Option RowsBuf) (rowsFn 2 .left Prod.fst) (fun _ b => b)
      (some Prod.fst) [exD [(1, 1), (7, 2), (8, 4)] exS5 exSumLast, exD [(9, 8), (12, 16)] none exSum] {}).toOption.map
        (fun o => glueCol 0 [exD [(1, 1), (7, 2), (8, 4)] exS5 exSumLast, exD [(9, 8), (12, 16)] none exSum] o.1 []) =
      some [(1, some 3), (8, some 12), (12, some 16)] := by decide +kernel

-- accepted: a column less; refused: a column more, or snapshots
example :
    Accepted [exD [(1, 1)] none exSumLast] (exD [(2, 2)] none exSum) ∧
    ¬ Accepted [exD [(1, 1)] none exSum] (exD [(2, 2)] none exSumLast) ∧
    ¬ Accepted [exD [(1, 1)] none exSum, exD [] exS5 exSum] (exD [(2, 2)] exS5 exSum) := by
  refine ⟨⟨by simp [exD], ?_⟩, ?_, ?_⟩
  · intro k1 h1 n hn
    simp only [withRows, exD, List.filter_cons, List.isEmpty_cons, Bool.not_false, if_true, List.filter_nil,
      List.getLast?_singleton, Option.some.injEq] at h1
    subst h1
    simp only [DCall.outs, exD, exSum, exSumLast, List.map_cons, List.map_nil, List.mem_cons, List.not_mem_nil, or_false] at hn ⊢
    exact Or.inl hn
  · rintro ⟨-, h⟩
    have := h (exD [(1, 1)] none exSum) rfl 1 (by simp [DCall.outs, exD, exSumLast])
    simp [DCall.outs, exD, exSum] at this
  · rintro ⟨h, -⟩
    have := h rfl (exD [(1, 1)] none exSum) rfl
    cases this

example :
    (exRun [exD [(1, 1)] none exSumLast, exD [(2, 2)] none exSum] {}).toOption.isSome = true ∧
    exRun [exD [(1, 1)] none exSum, exD [(2, 2)] none exSumLast] {} = .error (.seg .keyError) ∧
    exRun [exD [(1, 1)] none exSum, exD [] exS5 exSum, exD [(2, 2)] exS5 exSum] {} = .error (.seg .keyError) := ⟨rfl, rfl, rfl⟩

/-- A call refused because of a new column leaves a dict that gives wrong results: the next call with former columns adds rows of bin 10
to the sum of bin 0. -/
theorem C76_missing_fails :
    let d0 : DictBuf ScaleBuf Int := ((exRun [exD [(1, 1)] none exSum] {}).toOption.map Prod.snd).getD {}
    let c1 := exCall (exD [(2, 2), (12, 4)] none exSumLast) d0
    c1.1 = .error (.seg .keyError) ∧
    (exCall (exD [(13, 8)] none exSum) c1.2).1 = .ok (some ⟨[(10, some [[9]])], none⟩) ∧
    (exCall (exD [(2, 2), (12, 4), (13, 8)] none exSum) d0).1 = .ok (some ⟨[(0, some [[3]]), (10, some [[12]])], none⟩) := by decide +kernel

/-- Calls with snapshots, without, and with again: snapshots due in between are made at the third call, from the rows then in progress.
The one at 0 has 4, the rows of bin 10, while the rows up to there add up to 3. -/
theorem C76_snaps_again_fails :
    ((exRun [exD [(1, 1)] exS5 exSum, exD [(2, 2), (17, 4)] none exSum, exD [(18, 8)] exS5 exSum] {}).toOption.map
      fun o => o.1.map (Option.bind · Res.snaps)) =
      some [some [(0, some [[1]])], none, some [(0, some [[4]]), (5, some [[4]]), (10, some [[4]]), (15, some [[12]])]] ∧
    ((exRun [exD [(1, 1), (2, 2), (17, 4), (18, 8)] exS5 exSum] {}).toOption.map
      fun o => o.1.map (Option.bind · Res.snaps)) =
      some [some [(0, some [[3]]), (5, some [[3]]), (10, none), (15, some [[12]])]] := ⟨rfl, rfl⟩

/-- The function of a column changed between calls: accepted, and the bin in progress mixes both (a sum, then a maximum). -/
theorem C76_function_fails :
    ((exRun [exD [(1, 4), (2, 4)] none exSum, exD [(3, 5)] none exMax] {}).toOption.map fun o => o.1.map (Option.map Res.bins)) =
      some [some [(0, some [[8]])], some [(0, some [[8]])]] := rfl

/-- Rows given again after the check of zeros has raised are counted twice. -/
theorem C76_check_fails :
    let k : DCall Unit (Int × Int) := { exD [(1, 4), (2, 0)] none exSumLast with check := true }
    let run := fun (k : DCall Unit (Int × Int)) (db : DictBuf ScaleBuf Int) =>
      k.call (fun _ => intOps) ex_get (fun _ a => a.any fun r => r.any (· == 0)) ({} : ScaleBuf) (grouperFn { freq := 10 } Prod.fst)
        (fun _ b => b) (some Prod.fst) db
    (run k {}).1 = .error .zeroBin ∧
    (run { k with check := false } (run k {}).2).1 = .ok (some ⟨[(0, some [[8, 0]])], none⟩) ∧
    (run { k with check := false } {}).1 = .ok (some ⟨[(0, some [[4, 0]])], none⟩) := ⟨rfl, rfl, rfl⟩

end
end Oups.Agg

namespace Oups.AggStream
open Oups.Writer (Table Params RG Col DupOn dupCols readRows StrictOn)
open Oups.Agg Oups.Agg.Spec
open Oups.Segment

section
variable {K R D V P Q : Type} [DecidableEq K] [DecidableEq D]
variable (O : D → Ops V) (get : R → Nat → V) {dtype : Nat → Option D} {agg : List (Nat × Nat × Option Fn)}
  {gc : List (D × Group)} (z : List (List V) → Bool)
variable {gB gS : Row (List (List V)) → Row (List (List V))} {on : Col} {d : DupOn}

/-- **C76** Key of `AggStream` whose `segagg_buffer` is the dict, empty at first: with any settings of the sessions, what is stored is
what `cumsegagg` returns on all rows at once (bins from a `TimeGrouper`). -/
theorem C76_time_sessions (hagg : setupCumsegagg agg dtype = .ok gc) (hout : (agg.map Prod.fst).Nodup) (g : Grouper) (hg : Fixed g)
    (pos : R → Int) (ordered : Option (R → Int)) (left : List R → ScaleBuf → ScaleBuf)
    {k : KeyCfg K R (List (List V)) (DictBuf ScaleBuf V) Q} {L : KeyCfg K R (List (List V)) (DictBuf ScaleBuf V) Q → Prop} (hk : L k)
    (hL : ∀ cfg, L cfg → (∃ e0, cfg.call = dictCall O get z gc {} (grouperFn g pos) left ordered none e0) ∧
      cfg.resType = .bins ∧ PostRow cfg gB gS ∧ WriteOk cfg.table cfg.params on d ∧ ByLabel cfg.table on d gB)
    {rows : List R} (hne : rows ≠ []) (hasc : AscOn pos rows) (ho : ∀ o, ordered = some o → AscOn o rows) {p0 : P} {q0 : Q}
    {w w' : World K (List (List V)) (Md (DictBuf ScaleBuf V) P Q)} (hin : (w k.main).inStore = false) (hm : (w k.main).rgs = [])
    (hr : SessionRuns ({} : DictBuf ScaleBuf V) p0 q0 k L w rows w') :
    ∃ one, frameCall O get gc z (grouperFn g pos) ordered none false rows none = .ok (some one, none) ∧
      readRows (w' k.main).rgs = one.bins.map gB := by
  have hc := cfgOk_of hagg
  have hLs := grouper_lawful g g.origin0 hg.anchored pos
  have hst := gridSpec_strict (g.closed == .right) g.labelRight g.origin0 g.freq pos rows hg.anchored.1
  obtain ⟨one, h1, h2, _⟩ := frame_once_bins O get hc z hLs ordered hne hasc ho (strictLabels_ok hst)
  have hres := (hL k hk).2.1
  have hms : (w k.snapKey).rgs = [] := by simpa [KeyCfg.snapKey, hres] using hm
  have hv := binsValid_of hLs hasc ho hst
  have hKL := fun cfg (hcfg : L cfg) => keyLaws_bins_of O get hLs (ordered := ordered) (key := cfg)
    (by
      rw [(hL cfg hcfg).1.choose_spec]
      exact dictLaw O get hc hout (frameLaw_bins O get hc z hLs ordered (hL cfg hcfg).1.choose))
    (hL cfg hcfg).2.1 (hL cfg hcfg).2.2.1 (hL cfg hcfg).2.2.2.1 (hL cfg hcfg).2.2.2.2
  have := C71_settings (k := k) hKL hk ⟨_, sim_init _ _ _, frameOk_init O get trivial hLs⟩ hv hin hm hms hr
  exact ⟨one, h1, by rw [this.1 (by simp [hres]), h2]⟩

/-- What a key with snapshots, on a dict, has in common in all sessions. -/
structure DictSnapsKept {B : Type} (b0 : B) (fn : BinFn R B) (left : List R → B → B) (pos : R → Int) (sn : Snaps) (t : ResType)
    (cfg : KeyCfg K R (List (List V)) (DictBuf B V) Q) : Prop where
  call : ∃ e0, cfg.call = dictCall O get z gc b0 fn left (some pos) (some sn) e0
  type : cfg.resType = t
  pair : cfg.resType = .both → cfg.main ≠ cfg.snap
  post : PostRow cfg gB gS
  write : WriteOk cfg.table cfg.params on d
  writeSnap : cfg.resType = .both → WriteOk cfg.table cfg.snapParams on d
  label : cfg.resType = .both → ByLabel cfg.table on d gB
  labelSnap : ByLabel cfg.table on d gS

/-- **C76** The same with snapshots. -/
theorem C76_time_snap_sessions (hagg : setupCumsegagg agg dtype = .ok gc) (hout : (agg.map Prod.fst).Nodup) (g : Grouper)
    (hg : Fixed g) (gs : Grouper) (hgs : Fixed gs) (pos : R → Int) (left : List R → ScaleBuf → ScaleBuf) {t : ResType}
    (ht : t ≠ .bins) {k : KeyCfg K R (List (List V)) (DictBuf ScaleBuf V) Q}
    {L : KeyCfg K R (List (List V)) (DictBuf ScaleBuf V) Q → Prop} (hk : L k)
    (hL : ∀ cfg, L cfg → DictSnapsKept O get z (gc := gc) (gB := gB) (gS := gS) (on := on) (d := d) {} (grouperFn g pos) left pos
      (.grouper gs) t cfg)
    {rows : List R} (hne : rows ≠ []) (hasc : AscOn pos rows) {p0 : P} {q0 : Q}
    {w w' : World K (List (List V)) (Md (DictBuf ScaleBuf V) P Q)} (hin : (w k.main).inStore = false) (hm : (w k.main).rgs = [])
    (hms : t = .both → (w k.snap).rgs = []) (hr : SessionRuns ({} : DictBuf ScaleBuf V) p0 q0 k L w rows w') :
    ∃ one sns, frameCall O get gc z (grouperFn g pos) (some pos) (some (.grouper gs)) false rows none = .ok (some one, none) ∧
      one.snaps = some sns ∧ (t = .snaps → readRows (w' k.main).rgs = sns.map gS) ∧
      (t = .both → readRows (w' k.main).rgs = one.bins.map gB ∧ readRows (w' k.snap).rgs = sns.map gS) := by
  have hc := cfgOk_of hagg
  have hLs := grouper_lawful g g.origin0 hg.anchored pos
  have hSL := grouper_snaps gs gs.origin0 hgs.anchored g.closed pos
  have hst : ∀ q, StrictLabels (gridSpec (g.closed == .right) g.labelRight g.origin0 g.freq pos q) := fun q =>
    gridSpec_strict _ _ _ _ _ _ hg.1
  obtain ⟨one, sns, g1, g2, g3, g4⟩ := frame_once_snaps O get hc z hLs hSL hne hasc (strictLabels_ok (hst _))
    (gridSpec_sep _ _ _ _ _ _ hg.1)
  have hv : SnapsValid pos (g.closed == .right) (decide (t = .both))
      (gridSpec (g.closed == .right) g.labelRight g.origin0 g.freq pos)
      (gridPts (g.closed == .right) gs.labelRight gs.origin0 gs.freq pos) rows :=
    ⟨hasc, fun q _ => ⟨strictLabels_ok (hst q), gridSpec_sep _ _ _ _ _ _ hg.1, fun _ => hst q, by
      rw [gridPts_fst]; exact gridSpec_strict _ _ _ _ _ _ hgs.1⟩⟩
  have hkl := fun (cfg : KeyCfg K R (List (List V)) (DictBuf ScaleBuf V) Q) (hcfg : L cfg) =>
    keyLaws_snaps_of O get hLs hSL (gridPts_prefix gs hgs g.closed pos) (key := cfg)
      (by
        rw [(hL cfg hcfg).call.choose_spec]
        exact dictLaw O get hc hout (frameLaw_snaps O get hc z hLs hSL (gridPts_prefix gs hgs g.closed pos)
          (gridPts_ne gs hgs g.closed pos) _ (hL cfg hcfg).call.choose))
      (by rw [(hL cfg hcfg).type]; exact ht) (hL cfg hcfg).pair
      (hL cfg hcfg).post (hL cfg hcfg).write (hL cfg hcfg).writeSnap (hL cfg hcfg).label (hL cfg hcfg).labelSnap
  have hkl' : ∀ cfg : KeyCfg K R (List (List V)) (DictBuf ScaleBuf V) Q, L cfg → KeyLaws cfg _ _ _ _ gB gS on d :=
    fun cfg hcfg => (hL cfg hcfg).type ▸ hkl cfg hcfg
  have hty := (hL k hk).type
  have hms' : (w k.snapKey).rgs = [] := by
    unfold KeyCfg.snapKey
    split
    · rename_i h; exact hms (by rw [← hty]; exact h)
    · exact hm
  obtain ⟨h1, h2⟩ := C71_settings hkl' hk ⟨_, sim_init _ _ _, frameOk_init O get hSL.init hLs⟩ hv hin hm hms' hr
  have h2 := h2 (by rw [hty]; exact ht) _ rfl
  refine ⟨one, sns, g1, g3, fun hr => ?_, fun hr => ⟨?_, ?_⟩⟩
  · rw [show k.snapKey = k.main by simp [KeyCfg.snapKey, hty, hr]] at h2
    rw [h2, g4]
  · rw [h1 (by rw [hty, hr]; simp), g2]
  · rw [show k.snapKey = k.snap by simp [KeyCfg.snapKey, hty, hr]] at h2
    rw [h2, g4]

end
/-! ### Examples -/

section

/-- As `exKeyF`, on a dict. -/
def exDictKey (maxSize size : Nat) : KeyCfg Nat (Int × Int) (List (List Int)) (DictBuf ScaleBuf Int) Unit where
  main := 0
  snap := 1
  call := dictCall (fun _ => intOps) ex_get exZ ex_cfg {} (grouperFn { freq := 10 } Prod.fst) (fun _ b => b) (some Prod.fst) none true
  mem := List.length
  maxSize := maxSize
  table := exT
  params := { orderedOn := some (.col 0), dupOn := some (.one 0), maxRg := some size }

/-- The same with snapshots. -/
def exDictBoth (maxSize size : Nat) : KeyCfg Nat (Int × Int) (List (List Int)) (DictBuf ScaleBuf Int) Unit :=
  { exDictKey maxSize size with
    resType := .both
    call := dictCall (fun _ => intOps) ex_get exZ ex_cfg {} (grouperFn { freq := 10 } Prod.fst) (fun _ b => b) (some Prod.fst)
      (some (.grouper { freq := 5, labelRight := true })) true
    snapParams := { orderedOn := some (.col 0), dupOn := some (.one 0), maxRg := some size } }

theorem exDictBoth_kept (m size : Nat) : DictSnapsKept (fun _ : Unit => intOps) ex_get exZ (gc := ex_cfg) (gB := id) (gS := id) (on := 0)
    (d := .one 0) {} (grouperFn { freq := 10 } Prod.fst) (fun _ b => b) Prod.fst (.grouper { freq := 5, labelRight := true }) .both
    (exDictBoth m size) where
  call := ⟨true, rfl⟩
  type := rfl
  pair := fun _ h => by cases h
  post := ⟨rfl, rfl⟩
  write := ⟨rfl, rfl, (by decide : 0 ∈ exT.cols), (by decide : Writer.DupKnown exT (some (.one 0)))⟩
  writeSnap := fun _ => ⟨rfl, rfl, (by decide : 0 ∈ exT.cols), (by decide : Writer.DupKnown exT (some (.one 0)))⟩
  label := fun _ => exKey_byLabel
  labelSnap := exKey_byLabel

-- C76: two sessions, with bins and snapshots
example : ∃ w' : ExWorld (DictBuf ScaleBuf Int),
    (w' 0).rgs.map RG.rows = [[(0, some [[3, 2]])], [(10, some [[28, 16]])]] ∧
    (w' 1).rgs.map RG.rows = [[(5, some [[1, 1]]), (10, some [[3, 2]])], [(15, some [[12, 8]])], [(20, some [[28, 16]])]] ∧
    ∃ one sns, frameCall (fun _ => intOps) ex_get ex_cfg exZ (grouperFn { freq := 10 } Prod.fst) (some Prod.fst)
      (some (.grouper { freq := 5, labelRight := true })) false [(1, 1), (7, 2), (12, 4), (13, 8), (16, 16)] none =
        .ok (some one, none) ∧ one.snaps = some sns ∧
      readRows (w' 0).rgs = one.bins.map id ∧ readRows (w' 1).rgs = sns.map id := by
  obtain ⟨s1, w1, s2, s3, w2, e1, e2, e3, e4, e5, e6, e7, e8⟩ : ∃ (s1 : State (List (List Int)) (DictBuf ScaleBuf Int) Unit Unit)
      (w1 : ExWorld (DictBuf ScaleBuf Int)) (s2 s3 : State (List (List Int)) (DictBuf ScaleBuf Int) Unit Unit)
      (w2 : ExWorld (DictBuf ScaleBuf Int)),
      aggs (exConf [(0, exDictBoth 100 2)]) ([] ++ [⟨[[(1, 1), (7, 2)], [(12, 4)]], false, false, true⟩])
        (exState 1 {}) exWorld = .ok (s1, w1) ∧ s1.restart = some 12 ∧
      initBuffers {} () () (exConf [(0, exDictBoth 0 2)]) w1 = .ok s2 ∧
      aggs (exConf [(0, exDictBoth 0 2)]) ([] ++ [⟨[[(13, 8)], [(16, 16)]], false, false, true⟩]) s2 w1 = .ok (s3, w2) ∧
      s3.restart = some 16 ∧
      received (exConf [(0, exDictBoth 0 2)]) 0 ([] ++ [⟨[[(13, 8)], [(16, 16)]], false, false, true⟩]) s2.restart s2.pre =
        [(13, 8), (16, 16)] ∧
      (w2 0).rgs.map RG.rows = [[(0, some [[3, 2]])], [(10, some [[28, 16]])]] ∧
      (w2 1).rgs.map RG.rows = [[(5, some [[1, 1]]), (10, some [[3, 2]])], [(15, some [[12, 8]])],
      [(20, some [[28, 16]])]] :=
    ⟨_, _, _, _, _, rfl, rfl, rfl, rfl, rfl, rfl, rfl, rfl⟩
  have hr := exTwo (k1 := exDictBoth 100 2) (k2 := exDictBoth 0 2) (L := fun cfg => ∃ m size, cfg = exDictBoth m size) ⟨_, _, rfl⟩ ⟨_, _, rfl⟩
    ⟨rfl, rfl, rfl, rfl⟩ rfl e1 ⟨e2, rfl⟩ e3 e4 ⟨e5, rfl⟩
  rw [e6] at hr
  obtain ⟨one, sns, h1, h2, -, h3⟩ := C76_time_snap_sessions (k := exDictBoth 100 2) (on := 0) (d := .one 0) (gB := id) (gS := id)
    (t := .both) (fun _ : Unit => intOps) ex_get (dtype := fun _ => some ()) (agg := [(0, 0, some .sum), (1, 0, some .last)]) (gc := ex_cfg) exZ rfl
    (by decide) { freq := 10 } exFixed { freq := 5, labelRight := true } ⟨by decide, .inr (.inr ⟨rfl, by decide⟩)⟩ Prod.fst
    (fun _ b => b) (by simp)
    (L := fun cfg => ∃ m size, cfg = exDictBoth m size) ⟨_, _, rfl⟩
    (by rintro cfg ⟨m, size, rfl⟩; exact exDictBoth_kept m size) (by decide) (by decide) rfl rfl (fun _ => rfl) hr
  exact ⟨w2, e7, e8, one, sns, h1, h2, h3 rfl⟩

-- C76: two sessions, bins only
example :
    exStored 0 (exThen {} (exConf [(0, exDictKey 0 2)]) [⟨exSeed2, false, false, true⟩]
      (aggs (exConf [(0, exDictKey 100 100)]) [⟨exSeed1, false, false, true⟩] (exState 1 {}) exWorld)) =
      some [[(0, some [[1, 1]]), (10, some [[6, 4]])], [(20, some [[24, 16]])], [(30, some [[96, 64]]), (40, some [[128, 128]])]] :=
  rfl

/-- Snapshots added to a key that has results: each session raises `KeyError` at its first chunk, while the key works without. -/
theorem C76_sessions_add_snaps_fails :
    let r := aggs (exConf [(0, exDictKey 100 100)]) [⟨exSeed1, false, false, true⟩] (exState 1 ({} : DictBuf ScaleBuf Int)) exWorld
    exThen {} (exConf [(0, exDictBoth 100 100)]) [⟨exSeed2, false, false, true⟩] r = .error (.agg (.seg .keyError)) ∧
    (exStored 0 (exThen {} (exConf [(0, exDictKey 100 100)]) [⟨exSeed2, false, false, true⟩] r)).isSome := ⟨rfl, rfl⟩

end
end Oups.AggStream
