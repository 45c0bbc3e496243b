import Verif.Proofs.AggregateLaws
import Verif.Proofs.AggregateSetup
/-! `cumsegagg` on several columns, without buffer, and over successive frames. -/
set_option linter.unusedSimpArgs false
namespace Oups.Agg
open Oups.Segment Spec Oups.Segment.Spec

/-! ### One column of the results -/

section
variable {R B A A' : Type}

def Buf.proj (π : A → A') (b : Buf B A) : Buf B A' := ⟨b.seg, b.chunk.map π⟩

def projRows (π : A → A') (l : List (Int × Option A)) : List (Int × Option A') := l.map fun x => (x.1, x.2.map π)

def Res.proj (π : A → A') (r : Res A) : Res A' := ⟨projRows π r.bins, r.snaps.map (projRows π)⟩

theorem setNulls_proj (π : A → A') (labels : List Int) (rows : List (Option A)) :
    setNulls labels (rows.map fun r => r.map π) = projRows π (setNulls labels rows) := by
  unfold setNulls projRows
  have hz : labels.zip (rows.map fun r => r.map π) = (labels.zip rows).map (fun p => (p.1, p.2.map π)) := by
    rw [List.zip_map_right]; rfl
  have hn : ((labels.zip (rows.map fun r => r.map π)).filter (fun p => p.2.isNone)).map Prod.fst =
      ((labels.zip rows).filter (fun p => p.2.isNone)).map Prod.fst := by
    rw [hz, List.filter_map, List.map_map]
    congr 1
    apply List.filter_congr
    intro x _
    simp [Function.comp]
  simp only [hn]
  rw [hz, List.map_map, List.map_map]
  apply List.map_congr_left
  intro x _
  simp only [Function.comp]
  split <;> rfl

theorem setNulls_mem {labels : List Int} {rows : List (Option A)} {x : Int × Option A} {a : A}
    (h : x ∈ setNulls labels rows) (ha : x.2 = some a) : some a ∈ rows := by
  unfold setNulls at h
  obtain ⟨q, hq, rfl⟩ := List.mem_map.1 h
  simp only at ha
  split at ha
  · cases ha
  · rw [← ha]; exact (List.of_mem_zip (a := q.1) (b := q.2) hq).2

variable {upd : List R → A → Bool → A} {upd' : List R → A' → Bool → A'} {P : A → Prop} {π : A → A'}

theorem jcsagg_proj (hπ : ∀ xs a p, P a → π (upd xs a p) = upd' xs (π a) p) (hP : ∀ xs a p, P a → P (upd xs a p))
    (data : List R) (starts idx : List Nat) (s p : Bool) (res : A) (h0 : P res) :
    jcsagg upd' data starts idx s p (π res) =
      ((jcsagg upd data starts idx s p res).1.map (fun r => r.map π),
        (jcsagg upd data starts idx s p res).2.1.map (fun r => r.map π), π (jcsagg upd data starts idx s p res).2.2) ∧
    P (jcsagg upd data starts idx s p res).2.2 ∧
    (∀ a, some a ∈ (jcsagg upd data starts idx s p res).1 → P a) ∧
    (∀ a, some a ∈ (jcsagg upd data starts idx s p res).2.1 → P a) := by
  unfold jcsagg
  obtain ⟨h1, h2, h3, h4⟩ := jloop_proj upd upd' P π hπ hP data
    (if s then classify 0 idx starts else starts.map fun s => (true, s)) ⟨if p then -1 else 0, 0, p, res⟩ h0
  simp only at h1 h2
  refine ⟨?_, h3, ?_, ?_⟩
  · simp only [h1, h2, List.filter_map, List.map_map]
    rfl
  · intro a ha
    simp only at ha
    obtain ⟨r, hr, hr2⟩ := List.mem_map.1 ha
    exact h4 r (List.mem_filter.1 hr).1 a hr2
  · intro a ha
    simp only at ha
    obtain ⟨r, hr, hr2⟩ := List.mem_map.1 ha
    exact h4 r (List.mem_filter.1 hr).1 a hr2

/-- All values of a result satisfy `P`. -/
def Res.All (P : A → Prop) (r : Res A) : Prop :=
  (∀ x ∈ r.bins, ∀ a, x.2 = some a → P a) ∧ ∀ l, r.snaps = some l → ∀ x ∈ l, ∀ a, x.2 = some a → P a

/-- A column of the results of `cumsegagg` is what `cumsegagg` gives on this column only. -/
theorem cumsegagg_proj (hπ : ∀ xs a p, P a → π (upd xs a p) = upd' xs (π a) p) (hP : ∀ xs a p, P a → P (upd xs a p))
    (a0 : A) (h0 : P a0) (z : A → Bool) (z' : A' → Bool) (fn : BinFn R B) (ordered : Option (R → Int))
    (sn : Option Snaps) (data : List R) (buf : Option (Buf B A)) (hb : ∀ b, buf = some b → ∀ a, b.chunk = some a → P a) :
    cumsegagg upd' (π a0) z' fn ordered sn false data (buf.map (Buf.proj π)) =
      (cumsegagg upd a0 z fn ordered sn false data buf).map (fun o => (o.1.map (Res.proj π), o.2.map (Buf.proj π))) ∧
    ∀ o, cumsegagg upd a0 z fn ordered sn false data buf = .ok o →
      (∀ r, o.1 = some r → r.All P) ∧ ∀ b, o.2 = some b → ∀ a, b.chunk = some a → P a := by
  have hseg : (buf.map (Buf.proj (B := B) π)).map Buf.seg = buf.map Buf.seg := by cases buf <;> rfl
  have hsome : (buf.map (Buf.proj (B := B) π)).isSome = buf.isSome := by cases buf <;> rfl
  have hres : (((buf.map (Buf.proj (B := B) π)).bind Buf.chunk).getD (π a0)) = π ((buf.bind Buf.chunk).getD a0) := by
    cases buf with
    | none => rfl
    | some b => cases hc : b.chunk <;> simp [Buf.proj, hc]
  have hPres : P ((buf.bind Buf.chunk).getD a0) := by
    cases buf with
    | none => exact h0
    | some b =>
      cases hc : b.chunk with
      | none => simpa [hc] using h0
      | some a => simpa [hc] using hb b rfl a hc
  unfold cumsegagg
  by_cases he : data.isEmpty = true
  · simp only [he, if_true]
    refine ⟨rfl, ?_⟩
    intro o ho
    simp only [Except.ok.injEq] at ho
    subst ho
    exact ⟨by simp, fun b hb' => hb b hb'⟩
  · simp only [he, Bool.false_eq_true, if_false, hseg, hsome, hres]
    cases hs : segmentby fn ordered sn data (buf.map Buf.seg) with
    | error e => exact ⟨rfl, by simp⟩
    | ok s =>
      obtain ⟨s, seg⟩ := s
      obtain ⟨h1, h2, h3, h4⟩ := jcsagg_proj hπ hP data s.starts s.binIndices
        (decide ((s.snapLabels.map List.length).getD 0 ≠ 0))
        (buf.isSome && decide (((buf.map Buf.seg).bind MainBuf.lastBinLabel).isSome ∧
          (buf.map Buf.seg).bind MainBuf.lastBinLabel = s.binLabels.head?)) _ hPres
      simp only [h1, Bool.false_and, Bool.false_eq_true, if_false]
      generalize jcsagg upd data s.starts s.binIndices _ _ _ = j at h1 h2 h3 h4 ⊢
      obtain ⟨bins, snaps, a⟩ := j
      simp only at h1 h2 h3 h4 ⊢
      constructor
      · simp only [Except.map, Option.map_some, Res.proj, setNulls_proj, Option.map_map, Except.ok.injEq, Prod.mk.injEq,
          Option.some.injEq, Res.mk.injEq, true_and]
        exact ⟨rfl, rfl⟩
      · intro o ho
        simp only [Except.ok.injEq] at ho
        subst ho
        refine ⟨?_, ?_⟩
        · intro r hr
          simp only [Option.some.injEq] at hr
          subst hr
          refine ⟨fun x hx a ha => h3 a (setNulls_mem hx ha), ?_⟩
          intro l hl x hx a ha
          simp only [Option.map_eq_some_iff] at hl
          obtain ⟨l', _, rfl⟩ := hl
          exact h4 a (setNulls_mem hx ha)
        · intro b hb' a' ha'
          simp only [Option.map_eq_some_iff] at hb'
          obtain ⟨m, _, rfl⟩ := hb'
          simp only [Option.some.injEq] at ha'
          subst ha'; exact h2

end

/-! ### Without buffer -/

section
variable {R B A : Type} {fn : BinFn R B} {pos : R → Int} {c : Closed} {b0 : B} {spec : List R → List (Bin R)}
variable {ok : List R → B → Prop}

/-- A new buffer. -/
def Buf.init (b0 : B) : Buf B A := ⟨⟨b0, {}, none⟩, none⟩

theorem segmentby_noBuf (L : Lawful fn pos c b0 spec ok) (o : R → Int) (sn : Option Snaps)
    (hsn : ∀ x, sn = some x → ∀ p : List R, p ≠ [] → AscOn o p → ∃ s b', runSnaps x c (p.map o) (some {}) = .ok (s, some b') ∧
      runSnaps x c (p.map o) none = .ok (s, none))
    (ordered : Option (R → Int)) (hord : ∀ x, sn = some x → ordered = some o) (p : List R) (hp : p ≠ []) (hs : AscOn pos p)
    {s : SegRes} {b' : Option (MainBuf B)}
    (h : segmentby fn ordered sn p (some ⟨b0, {}, none⟩) = .ok (s, b')) :
    segmentby fn ordered sn p none = .ok (s, none) := by
  obtain ⟨r, bb, hr1, hr2⟩ := L.noBuf p hp hs
  cases sn with
  | none =>
    rw [segmentby_noSnap_iff] at h ⊢
    obtain ⟨r', b'', h1, h2, h3, h4⟩ := h
    simp only [Option.map_some] at h1
    rw [hr1] at h1
    simp only [Except.ok.injEq, Prod.mk.injEq] at h1
    obtain ⟨rfl, -⟩ := h1
    simp only [Prod.mk.injEq] at h4
    exact ⟨r, none, hr2, h2, ⟨h3.closed, h3.labels_len, h3.ends_len, by simp, by simp, by simp⟩, by simp [h4.1]⟩
  | some sn =>
    obtain ⟨r', b'', o', cl, ss, sb, h1, h2, h3, h4, h5, h6, h7, h8⟩ := segmentby_snap_ok fn ordered sn p _ _ h
    have := hord sn rfl
    rw [h2] at this
    cases this
    simp only [Option.map_some] at h1 h6
    obtain ⟨r0, b0', e1, _, e3, _⟩ := L.step [] p b0 hp (by simpa using hs) L.init
    rw [hr1] at h1 e1
    simp only [Except.ok.injEq, Prod.mk.injEq] at h1 e1
    obtain ⟨rfl, -⟩ := h1
    obtain ⟨rfl, -⟩ := e1
    rw [e3] at h4
    cases h4
    obtain ⟨s1, b1, g1, g2⟩ := hsn sn rfl p hp h3
    rw [g1] at h6
    simp only [Except.ok.injEq, Prod.mk.injEq] at h6
    obtain ⟨rfl, -⟩ := h6
    rw [h2]
    rw [segmentby_snap_of fn _ sn p none r none c s1 none s.starts s.binIndices hr2 h3 e3
      ⟨h5.closed, h5.labels_len, h5.ends_len, by simp, by simp, by simp⟩ g2 h7]
    simp only [Option.map_none, Except.ok.injEq, Prod.mk.injEq, and_true]
    exact (congrArg Prod.fst h8).symm

theorem ite_ok {E X Y : Type} {c1 c2 : Bool} {e1 e2 : E} {x res : X} {y b' y' : Y}
    (h : (if c1 = true then Except.error e1 else if c2 = true then Except.error e2 else .ok (x, y)) = .ok (res, b')) :
    (if c1 = true then Except.error e1 else if c2 = true then Except.error e2 else .ok (x, y')) = .ok (res, y') := by
  cases c1 <;> cases c2 <;> simp_all

theorem cumsegagg_noBuf {upd : List R → A → Bool → A} (a0 : A) (z : A → Bool) (L : Lawful fn pos c b0 spec ok)
    (o : R → Int) (sn : Option Snaps)
    (hsn : ∀ x, sn = some x → ∀ p : List R, p ≠ [] → AscOn o p → ∃ s b', runSnaps x c (p.map o) (some {}) = .ok (s, some b') ∧
      runSnaps x c (p.map o) none = .ok (s, none))
    (ordered : Option (R → Int)) (hord : ∀ x, sn = some x → ordered = some o) (e0 : Bool) (p : List R) (hp : p ≠ [])
    (hs : AscOn pos p) {res : Option (Res A)} {b' : Option (Buf B A)}
    (h : cumsegagg upd a0 z fn ordered sn e0 p (some (Buf.init b0)) = .ok (res, b')) :
    cumsegagg upd a0 z fn ordered sn e0 p none = .ok (res, none) := by
  unfold cumsegagg at h ⊢
  rw [show p.isEmpty = false by simpa using hp] at h ⊢
  simp only [Bool.false_eq_true, if_false, Option.map_some, Option.map_none, Buf.init] at h ⊢
  cases hseg : segmentby fn ordered sn p (some ⟨b0, {}, none⟩) with
  | error e => rw [hseg] at h; simp at h
  | ok s =>
    obtain ⟨s, seg⟩ := s
    rw [hseg] at h
    rw [segmentby_noBuf L o sn hsn ordered hord p hp hs hseg]
    simp only [Option.bind_some, Option.isSome_some, Option.isSome_none, Bool.false_eq_true, false_and, decide_false,
      Bool.and_false, Option.getD_none, Option.bind_none, Option.map_none, Bool.false_and] at h ⊢
    exact ite_ok h

end

/-! ### Successive frames -/

section
variable {R B A : Type}

/-- Results after one more call: all rows but the last of the previous ones, then the new ones. -/
def glueRes (acc : Res A) : Option (Res A) → Res A
  | none => acc
  | some r => ⟨acc.bins.dropLast ++ r.bins, r.snaps.map fun l => (acc.snaps.getD []).dropLast ++ l⟩

/-- Successive calls sharing a buffer. -/
def streamAgg (call : List R → Option (Buf B A) → Except AggErr (Option (Res A) × Option (Buf B A))) :
    Res A → Option (Buf B A) → List (List R) → Except AggErr (Res A × Option (Buf B A))
  | acc, b, [] => .ok (acc, b)
  | acc, b, p :: ps =>
    match call p b with
    | .error e => .error e
    | .ok (r, b') => streamAgg call (glueRes acc r) b' ps

theorem projRows_append {A' : Type} (π : A → A') (l m : List (Int × Option A)) :
    projRows π (l ++ m) = projRows π l ++ projRows π m := List.map_append ..

theorem glueRes_proj {A' : Type} (π : A → A') (acc : Res A) (r : Option (Res A)) :
    glueRes (acc.proj π) (r.map (Res.proj π)) = (glueRes acc r).proj π := by
  cases r with
  | none => rfl
  | some r =>
    simp only [glueRes, Option.map_some, Res.proj, Res.mk.injEq]
    constructor
    · unfold projRows; rw [List.map_append, ← List.map_dropLast]
    · cases r.snaps with
      | none => rfl
      | some l =>
        cases acc.snaps <;> simp [projRows, ← List.map_dropLast]

theorem glueRes_all {P : A → Prop} (acc : Res A) (r : Option (Res A)) (h : acc.All P) (hr : ∀ x, r = some x → x.All P) :
    (glueRes acc r).All P := by
  cases r with
  | none => exact h
  | some r =>
    obtain ⟨h1, h2⟩ := h
    obtain ⟨r1, r2⟩ := hr r rfl
    constructor
    · intro x hx a ha
      rcases List.mem_append.1 hx with hx | hx
      · exact h1 x (List.dropLast_subset _ hx) a ha
      · exact r1 x hx a ha
    · intro l hl x hx a ha
      simp only [glueRes, Option.map_eq_some_iff] at hl
      obtain ⟨l', hl', rfl⟩ := hl
      rcases List.mem_append.1 hx with hx | hx
      · cases hs : acc.snaps with
        | none => rw [hs] at hx; simp at hx
        | some m => rw [hs] at hx; exact h2 m hs x (List.dropLast_subset _ hx) a ha
      · exact r2 l' hl' x hx a ha

theorem stream_proj {A' : Type} {upd : List R → A → Bool → A} {upd' : List R → A' → Bool → A'} {P : A → Prop} {π : A → A'}
    (hπ : ∀ xs a p, P a → π (upd xs a p) = upd' xs (π a) p) (hP : ∀ xs a p, P a → P (upd xs a p))
    (a0 : A) (h0 : P a0) (z : A → Bool) (z' : A' → Bool) (fn : BinFn R B) (ordered : Option (R → Int))
    (sn : Option Snaps) (pieces : List (List R)) (acc : Res A) (hacc : acc.All P) (buf : Option (Buf B A))
    (hb : ∀ b, buf = some b → ∀ a, b.chunk = some a → P a) :
    streamAgg (cumsegagg upd' (π a0) z' fn ordered sn false) (acc.proj π) (buf.map (Buf.proj π)) pieces =
      (streamAgg (cumsegagg upd a0 z fn ordered sn false) acc buf pieces).map
        (fun o => (o.1.proj π, o.2.map (Buf.proj π))) ∧
    ∀ o, streamAgg (cumsegagg upd a0 z fn ordered sn false) acc buf pieces = .ok o → o.1.All P := by
  induction pieces generalizing acc buf with
  | nil =>
    refine ⟨rfl, ?_⟩
    intro o ho
    simp only [streamAgg, Except.ok.injEq] at ho
    subst ho; exact hacc
  | cons p ps ih =>
    obtain ⟨h1, h2⟩ := cumsegagg_proj hπ hP a0 h0 z z' fn ordered sn p buf hb
    unfold streamAgg
    rw [h1]
    cases hc : cumsegagg upd a0 z fn ordered sn false p buf with
    | error e => exact ⟨rfl, by simp⟩
    | ok o =>
      obtain ⟨r, b'⟩ := o
      obtain ⟨h3, h4⟩ := h2 _ hc
      simp only [Except.map]
      rw [glueRes_proj]
      exact ih _ (glueRes_all acc r hacc h3) b' h4

variable {upd : List R → A → Bool → A} (H : Hom upd) (a0 : A) (z : A → Bool)
variable {fn : BinFn R B} {pos : R → Int} {c : Closed} {b0 : B} {spec : List R → List (Bin R)}
variable {ok : List R → B → Prop} (L : Lawful fn pos c b0 spec ok)

include L in
theorem aggOk_init {sok : List R → ScaleBuf → Prop} (hs : sok [] {}) :
    AggOk upd a0 spec ok sok [] (Buf.init b0) := by
  constructor
  · exact L.init
  · exact hs
  · simp [Buf.init, L.spec_nil]
  · rw [L.spec_nil]; simp

include H L in
theorem stream_bins (ordered : Option (R → Int)) (pieces : List (List R)) (h : List R) (acc : Res A) (b : Buf B A)
    (hs : AscOn pos (h ++ pieces.flatten)) (ho : ∀ o, ordered = some o → AscOn o (h ++ pieces.flatten))
    (hlab : ∀ q, q <+: h ++ pieces.flatten → LabelsOk (spec q))
    (hb : AggOk upd a0 spec ok (fun _ _ => True) h b) (hacc : acc = ⟨binRes upd a0 (spec h), none⟩) :
    ∃ b', streamAgg (cumsegagg upd a0 z fn ordered none false) acc (some b) pieces =
      .ok (⟨binRes upd a0 (spec (h ++ pieces.flatten)), none⟩, some b') := by
  induction pieces generalizing h acc b with
  | nil => exact ⟨b, by simp [streamAgg, hacc]⟩
  | cons p ps ih =>
    rw [List.flatten_cons, ← List.append_assoc] at hs ho hlab ⊢
    unfold streamAgg
    by_cases hp : p = []
    · subst hp
      rw [List.append_nil] at hs ho hlab ⊢
      have : cumsegagg upd a0 z fn ordered none false [] (some b) = .ok (none, some b) := rfl
      rw [this]
      exact ih h acc b hs ho hlab hb hacc
    · obtain ⟨res, b', h1, h2, h3, h4⟩ := step_bins H a0 z L ordered hp (hs.sublist (List.sublist_append_left _ _))
        (fun o h => (ho o h).sublist (List.sublist_append_left _ _)) (hlab _ (List.prefix_append _ _)) hb
      rw [h1]
      apply ih (h ++ p) _ b' hs ho hlab h4
      simp [glueRes, hacc, h2, h3]

include H L in
theorem stream_snaps {sok : List R → ScaleBuf → Prop} {sn : Snaps} {pts : List R → List (Int × Int)}
    (SL : SnapLaw sn c pos pts sok) (pieces : List (List R)) (h : List R) (acc : Res A) (b : Buf B A)
    (hs : AscOn pos (h ++ pieces.flatten))
    (hlab : ∀ q, q <+: h ++ pieces.flatten → LabelsOk (spec q))
    (hsep : ∀ q, q <+: h ++ pieces.flatten → Separated (c == .right) pos (spec q))
    (hb : AggOk upd a0 spec ok sok h b)
    (hacc : acc.bins = binRes upd a0 (spec h) ∧
      acc.snaps.getD [] = snapRes upd a0 (c == .right) pos (spec h) (pts h)) :
    ∃ r b', streamAgg (cumsegagg upd a0 z fn (some pos) (some sn) false) acc (some b) pieces = .ok (r, some b') ∧
      r.bins = binRes upd a0 (spec (h ++ pieces.flatten)) ∧
      r.snaps.getD [] = snapRes upd a0 (c == .right) pos (spec (h ++ pieces.flatten)) (pts (h ++ pieces.flatten)) ∧
      (pieces.flatten ≠ [] → r.snaps.isSome) ∧ (acc.snaps.isSome → r.snaps.isSome) := by
  induction pieces generalizing h acc b with
  | nil => exact ⟨acc, b, rfl, by simp [hacc.1], by simp [hacc.2], by simp, id⟩
  | cons p ps ih =>
    rw [List.flatten_cons]
    rw [List.flatten_cons, ← List.append_assoc] at hs hlab hsep
    rw [← List.append_assoc]
    unfold streamAgg
    by_cases hp : p = []
    · subst hp
      rw [List.append_nil] at hs hlab hsep ⊢
      have : cumsegagg upd a0 z fn (some pos) (some sn) false [] (some b) = .ok (none, some b) := rfl
      rw [this]
      exact ih h acc b hs hlab hsep hb hacc
    · obtain ⟨res, b', news, h1, h2, h3, h4, h5⟩ := step_snaps H a0 z L SL hp
        (hs.sublist (List.sublist_append_left _ _)) (hlab _ (List.prefix_append _ _))
        (hsep _ ((List.prefix_append h p).trans (List.prefix_append _ _))) (hsep _ (List.prefix_append _ _)) hb
      rw [h1]
      obtain ⟨r, b'', g1, g2, g3, g4, g5⟩ := ih (h ++ p) (glueRes acc (some res)) b' hs hlab hsep h5 (by
        constructor
        · simp only [glueRes]; rw [hacc.1, ← h3]
        · simp only [glueRes, h2, Option.map_some, Option.getD_some]; rw [hacc.2, ← h4])
      have hsome : r.snaps.isSome := g5 (by simp [glueRes, h2])
      exact ⟨r, b'', g1, g2, g3, fun _ => hsome, fun _ => hsome⟩

end

end Oups.Agg
