import Verif.Proofs.AggCrash
import Verif.Model.AggThreads
/-! Writes of a stream after the first one since a final write are appends. -/
set_option linter.unusedSimpArgs false
namespace Oups.AggStream
open Oups.Writer (Table Params RG Col DupOn dupCols readRows StrictOn Along)
open Oups.Agg (Res AggErr)

section track
variable {R A : Type} {V : List R → Prop} {F : List R → List (Row A)} {g : Row A → Row A} {T : Table (Row A)} {on : Col} {d : DupOn}
  {p : Params}

/-- The dataset is as at the start (`rgs0`), with one row at most that is not definitive, or has definitive rows only (`n`). -/
def Fresh (rgs0 rgs : List (RG (Row A))) (n : Nat) : Prop :=
  (rgs = rgs0 ∧ (readRows rgs).length ≤ n + 1) ∨ (readRows rgs).length ≤ n

def LenOk (F : List R → List (Row A)) (h : List R) (rgs0 : List (RG (Row A))) (buf : List (List (Row A)))
    (last : Option (List (Row A))) (rgs : List (RG (Row A))) : Prop :=
  match last with
  | none => rgs = rgs0 ∧ (readRows rgs).length ≤ (F h).length
  | some b => ∀ n, n + buf.flatten.length + b.length = (F h).length → Fresh rgs0 rgs n

def LenMid (F : List R → List (Row A)) (h : List R) (rgs0 : List (RG (Row A))) (buf : List (List (Row A)))
    (rgs : List (RG (Row A))) : Prop :=
  ∀ n, n + buf.flatten.length = (F h).length - 1 → Fresh rgs0 rgs n

theorem LenOk.mid_none {h rgs0 rgs} (hl : LenOk F h rgs0 [] none rgs) : LenMid F h rgs0 [] rgs := by
  intro n hn
  obtain ⟨h1, h2⟩ := hl
  simp only [List.flatten_nil, List.length_nil, Nat.add_zero] at hn
  exact Or.inl ⟨h1, by omega⟩

theorem LenOk.mid_push {Tot base h rgs0 buf b rgs} (ht : TrackOk p F g T on d Tot base h buf (some b) rgs) (hl : LenOk F h rgs0 buf (some b) rgs) :
    LenMid F h rgs0 (buf ++ [b.dropLast]) rgs := by
  intro n hn
  obtain ⟨_, pre, _, ⟨hb, hF⟩, _⟩ := ht
  have hF := congrArg List.length hF
  have := List.length_pos_iff.2 hb
  simp only [List.length_append] at hF
  simp only [List.flatten_append, List.flatten_cons, List.flatten_nil, List.append_nil, List.length_append,
    List.length_dropLast] at hn
  exact hl n (by omega)

theorem LenMid.call {h rgs0 buf rgs} (hl : LenMid F h rgs0 buf rgs) {q : List R} {new : List (Row A)}
    (hF : F (h ++ q) = (F h).dropLast ++ new) : LenOk F (h ++ q) rgs0 buf (some new) rgs := by
  intro n hn
  rw [hF, List.length_append, List.length_dropLast] at hn
  exact hl n (by omega)

/-- Rows to be written come after those of the dataset, unless it is as at the start. -/
theorem TrackMid.after (law : StreamLaw V F g T on d) (hw : WriteOk T p on d) {Tot h : List R} (hV : V Tot) (hh : h <+: Tot)
    {base buf rgs rgs0} (ht : TrackMid p F g T on d Tot base h buf rgs) (hl : LenMid F h rgs0 buf rgs) (hne : rgs ≠ rgs0) :
    ∀ x ∈ readRows rgs, ∀ y ∈ buf.flatten.map g, T.get on x < T.get on y := by
  obtain ⟨_, pre, _, h2, h3, _⟩ := ht
  have hlen : pre.length + buf.flatten.length = (F h).length - 1 := by
    rw [← List.length_append, h2, List.length_dropLast]
  rcases hl _ hlen with h | h
  · exact absurd h.1 hne
  · have he : pre.map g = readRows rgs :=
      h3.pre.eq_of_length (le_antisymm h3.pre.length_le (by rw [List.length_map]; exact h))
    have hs := Writer.strict_of_keys hw.col (law.strict Tot hV) (keys_dropLast law hV hh (l := pre ++ buf.flatten)
      (by rw [h2]; exact dropLast_pre _))
    rw [List.map_append, he] at hs
    exact (List.pairwise_append.1 hs).2.2

theorem TrackMid.len_write (law : StreamLaw V F g T on d) (hw : WriteOk T p on d) {Tot h : List R} (hV : V Tot) (hh : h <+: Tot)
    {base buf rgs rgs' rgs0} (ht : TrackMid p F g T on d Tot base h buf rgs) (hl : LenMid F h rgs0 buf rgs)
    (hwr : Writer.write T p rgs (buf.flatten.map g) = .ok rgs') : LenMid F h rgs0 [] rgs' := by
  intro n hn
  obtain ⟨_, pre, _, h2, h3, _⟩ := ht
  have hlen : pre.length + buf.flatten.length = (F h).length - 1 := by
    rw [← List.length_append, h2, List.length_dropLast]
  have hf := hl _ hlen
  have hle : (readRows rgs).length ≤ pre.length + 1 := by
    rcases hf with h | h
    · exact h.2
    · omega
  obtain ⟨-, -, -, -, h5⟩ := Along.write hw.ordered hw.dup (Or.inr (by rw [List.length_map]; exact hle)) hw.col (law.strict Tot hV)
    h3.along h3.pre (by rw [← List.map_append, h2]; exact keys_dropLast law hV hh (dropLast_pre _)) hwr
  simp only [List.flatten_nil, List.length_nil, Nat.add_zero, List.length_append, List.length_map] at hn h5
  right
  by_cases hd : buf.flatten = []
  · have hr : rgs = [] := by
      by_contra hr
      rw [hd, List.map_nil, Writer.C24_empty_ordered hw.ordered hw.col hr] at hwr
      cases hwr
    have h0 : (readRows rgs).length = 0 := by rw [hr]; rfl
    have hb0 : buf.flatten.length = 0 := by rw [hd]; rfl
    omega
  · have := List.length_pos_iff.2 hd
    omega

end track

section key
variable {K R A S P Q : Type} [DecidableEq K]
variable {cfg : KeyCfg K R A S Q} {V : List R → Prop} {FB : List R → List (Row A)}
  {FS : Option (List R → List (Row A))} {ok : List R → S → Prop} {gB gS : Row A → Row A} {on : Col} {d : DupOn}
  {truthy : Int → Bool}

/-- Datasets of a key, since a start in `w0`. -/
structure KLen (cfg : KeyCfg K R A S Q) (FB : List R → List (Row A)) (FS : Option (List R → List (Row A)))
    (w0 : World K A (Md S P Q)) (h : List R) (st : KeyBuf A S Q) (w : World K A (Md S P Q)) : Prop where
  bins : cfg.resType ≠ .snaps → LenOk FB h (w0 cfg.main).rgs st.binBuf st.bin (w cfg.main).rgs
  snaps : cfg.resType ≠ .bins → ∀ f, FS = some f → LenOk f h (w0 cfg.snapKey).rgs st.snapBuf st.snap (w cfg.snapKey).rgs

theorem flushPrev_len (L : KeyLaws cfg V FB FS ok gB gS on d) {Tot h0 h : List R} (hV : V Tot) {st st' : KeyBuf A S Q}
    {w w' w0 : World K A (Md S P Q)} (hi : KInv cfg FB FS ok gB gS on d Tot h0 h st w) (hlen : KLen cfg FB FS w0 h st w)
    (hfl : flushPrev cfg truthy st w = .ok (st', w')) :
    (cfg.resType ≠ .snaps → LenMid FB h (w0 cfg.main).rgs st'.binBuf (w' cfg.main).rgs) ∧
    (cfg.resType ≠ .bins → ∀ f, FS = some f → LenMid f h (w0 cfg.snapKey).rgs st'.snapBuf (w' cfg.snapKey).rgs) := by
  rename' h => hrows, hfl => h
  simp only [flushPrev] at h
  cases hb : st.bin with
  | none =>
    simp only [hb, Except.ok.injEq, Prod.mk.injEq] at h
    obtain ⟨rfl, rfl⟩ := h
    obtain ⟨n1, n2, n3, -⟩ := hi.noRes hb
    refine ⟨fun hr => ?_, fun hr f hf => ?_⟩
    · have := hlen.bins hr
      rw [hb, n2] at this
      rw [n2]; exact this.mid_none
    · have := hlen.snaps hr f hf
      rw [n1, n3] at this
      rw [n3]; exact this.mid_none
  | some b =>
    obtain ⟨hbne, hsn⟩ := hi.hasRes b hb
    have hbe : b.isEmpty = false := by cases b <;> simp_all
    simp only [hb, hbe, Bool.false_eq_true, if_false] at h
    have hpB : cfg.resType ≠ .snaps → TrackMid cfg.params FB gB cfg.table on d Tot (FB h0).dropLast hrows
        (pushPrev cfg st b).binBuf (w cfg.main).rgs ∧
        LenMid FB hrows (w0 cfg.main).rgs (pushPrev cfg st b).binBuf (w cfg.main).rgs := by
      intro hr
      have h1 := hi.bins hr
      have h2 := hlen.bins hr
      rw [hb] at h1 h2
      exact ⟨h1.mid_push, h2.mid_push h1⟩
    have hpS : cfg.resType ≠ .bins → ∀ f, FS = some f → TrackMid cfg.snapPars f gS cfg.table on d Tot (f h0).dropLast hrows
        (pushPrev cfg st b).snapBuf (w cfg.snapKey).rgs ∧
        LenMid f hrows (w0 cfg.snapKey).rgs (pushPrev cfg st b).snapBuf (w cfg.snapKey).rgs := by
      intro hr f hf
      have h1 := hi.snaps hr f hf
      have h2 := hlen.snaps hr f hf
      obtain ⟨s, hs⟩ := hsn hr
      rw [hs] at h1 h2
      simp only [pushPrev, hs]
      exact ⟨h1.mid_push, h2.mid_push h1⟩
    split at h
    · have hb' : (pushPrev cfg st b).bin = some b := hb
      obtain ⟨⟨q, rfl⟩, w1, w2, w3⟩ := post_some L.post L.distinct h hb' hsn
      refine ⟨fun hr => ?_, fun hr f hf => ?_⟩
      · exact (hpB hr).1.len_write (L.bins hr) L.wmain hV hi.pre (hpB hr).2 (w1 hr)
      · obtain ⟨s, hs⟩ := hsn hr
        obtain ⟨f', hf', law⟩ := L.snaps hr
        rw [hf, Option.some.injEq] at hf'
        subst hf'
        exact (hpS hr f hf).1.len_write law L.wsnap hV hi.pre (hpS hr f hf).2 (w2 hr s hs)
    · simp only [Except.ok.injEq, Prod.mk.injEq] at h
      obtain ⟨rfl, rfl⟩ := h
      exact ⟨fun hr => (hpB hr).2, fun hr f hf => (hpS hr f hf).2⟩

theorem aggIter_len (L : KeyLaws cfg V FB FS ok gB gS on d) {Tot h0 h : List R} (hV : V Tot) {st st' : KeyBuf A S Q}
    {w w' w0 : World K A (Md S P Q)} (hi : KInv cfg FB FS ok gB gS on d Tot h0 h st w) (hlen : KLen cfg FB FS w0 h st w)
    {chunk : List R} (hne : chunk ≠ []) (hpre : h ++ chunk <+: Tot) (hag : aggIter cfg truthy chunk st w = .ok (st', w')) :
    KLen cfg FB FS w0 (h ++ chunk) st' w' := by
  obtain ⟨st1, res, seg, h1, h2, rfl⟩ := aggIter_ok hag
  have hm := flushPrev_inv L hV hi h1
  obtain ⟨l1, l2⟩ := flushPrev_len L hV hi hlen h1
  have hV' : V (h ++ chunk) := by
    obtain ⟨t, ht⟩ := hpre
    rw [← ht] at hV
    exact L.valid _ t hV
  obtain ⟨hok, r, rfl, hrne, hrb, hrs⟩ := L.call.step hm.ok hne hV' h2
  refine ⟨fun hr => (l1 hr).call hrb, fun hr f hf => ?_⟩
  rw [hf] at hrs
  obtain ⟨sn, hsn, hsne, hsF⟩ := hrs
  simp only [Option.bind_some, hsn]
  exact (l2 hr f hf).call hsF

theorem keyRun_len (L : KeyLaws cfg V FB FS ok gB gS on d) {Tot h0 : List R} (hV : V Tot) {ops : List (KOp R P)}
    (hops : OpsOk ops) (hch : Chunks ops) {h : List R} {st st' : KeyBuf A S Q}
    {w w' w0 : World K A (Md S P Q)} (hi : KInv cfg FB FS ok gB gS on d Tot h0 h st w) (hlen : KLen cfg FB FS w0 h st w)
    (hpre : h ++ opRows ops <+: Tot) (hr : keyRun cfg truthy ops st w = .ok (st', w')) :
    KInv cfg FB FS ok gB gS on d Tot h0 (h ++ opRows ops) st' w' ∧ KLen cfg FB FS w0 (h ++ opRows ops) st' w' := by
  induction ops generalizing h st w with
  | nil =>
    simp only [keyRun, Except.ok.injEq, Prod.mk.injEq] at hr
    obtain ⟨rfl, rfl⟩ := hr
    simp only [opRows, List.append_nil]
    exact ⟨hi, hlen⟩
  | cons op ops ih =>
    obtain ⟨c, rfl⟩ := hch op (by simp)
    simp only [keyRun] at hr
    cases hs : keyStep cfg truthy (.chunk c) st w with
    | error e => simp [hs] at hr
    | ok r =>
      obtain ⟨st1, w1⟩ := r
      simp only [hs] at hr
      simp only [opRows, ← List.append_assoc] at hpre ⊢
      have hc := hops c (by simp)
      have hp : h ++ c <+: Tot := List.IsPrefix.trans ⟨_, rfl⟩ hpre
      exact ih (fun ch hc => hops ch (by simp [hc])) (fun op h => hch op (by simp [h])) (aggIter_inv L hV hi hc hp hs)
        (aggIter_len L hV hi hlen hc hp hs) hpre hr

/-- Rows of a write in the loop come after those of the dataset, unless it is as at the start. -/
theorem iterActs_after (L : KeyLaws cfg V FB FS ok gB gS on d) {Tot h0 h : List R} (hV : V Tot) {st : KeyBuf A S Q}
    {w w0 : World K A (Md S P Q)} (hi : KInv cfg FB FS ok gB gS on d Tot h0 h st w) (hlen : KLen cfg FB FS w0 h st w)
    {x : K} {T : Table (Row A)} {p : Params} {rows : List (Row A)}
    (ha : (x, (.store T p rows : Act A (Md S P Q))) ∈ iterActs cfg truthy st) (hne : (w x).rgs ≠ (w0 x).rgs) :
    T = cfg.table ∧ WriteOk T p on d ∧ ∀ r ∈ readRows (w x).rgs, ∀ y ∈ rows, T.get on r < T.get on y := by
  simp only [iterActs] at ha
  cases hb : st.bin with
  | none => simp [hb] at ha
  | some b =>
    obtain ⟨hbne, hsn⟩ := hi.hasRes b hb
    have hbe : b.isEmpty = false := by cases b <;> simp_all
    simp only [hb, hbe, Bool.false_eq_true, if_false] at ha
    have hB : cfg.resType ≠ .snaps → (w cfg.main).rgs ≠ (w0 cfg.main).rgs →
        ∀ r ∈ readRows (w cfg.main).rgs, ∀ y ∈ (pushPrev cfg st b).binBuf.flatten.map gB, cfg.table.get on r < cfg.table.get on y := by
      intro hr hne
      have h1 := hi.bins hr
      have h2 := hlen.bins hr
      rw [hb] at h1 h2
      exact h1.mid_push.after (L.bins hr) L.wmain hV hi.pre (h2.mid_push h1) hne
    have hS : cfg.resType ≠ .bins → (w cfg.snapKey).rgs ≠ (w0 cfg.snapKey).rgs →
        ∀ r ∈ readRows (w cfg.snapKey).rgs, ∀ y ∈ (pushPrev cfg st b).snapBuf.flatten.map gS, cfg.table.get on r < cfg.table.get on y := by
      intro hr hne
      obtain ⟨f, hf, law⟩ := L.snaps hr
      have h1 := hi.snaps hr f hf
      have h2 := hlen.snaps hr f hf
      obtain ⟨s, hs⟩ := hsn hr
      rw [hs] at h1 h2
      simp only [pushPrev, hs]
      exact h1.mid_push.after law L.wsnap hV hi.pre (h2.mid_push h1) hne
    split at ha
    · simp only [postActs] at ha
      cases hr : results cfg false (pushPrev cfg st b) with
      | error e => simp [hr] at ha
      | ok z =>
        obtain ⟨q, main, snap⟩ := z
        have hb' : (pushPrev cfg st b).bin = some b := hb
        obtain ⟨r1, r2⟩ := results_spec L.post hr hb' hsn
        simp only [hr, writeActs, pendingMd, pendActs, List.nil_append] at ha
        cases main with
        | none => simp at ha
        | some mrows =>
          simp only [List.mem_cons, Prod.mk.injEq, Act.store.injEq] at ha
          rcases ha with ⟨rfl, rfl, rfl, rfl⟩ | ha
          · refine ⟨rfl, L.wmain, ?_⟩
            by_cases hrt : cfg.resType = .snaps
            · obtain ⟨s, hs⟩ := hsn (by simp [hrt])
              have := (r2 s hs).1 hrt
              rw [Option.some.injEq] at this
              have hk : cfg.snapKey = cfg.main := by simp [KeyCfg.snapKey, hrt]
              rw [← hk] at hne ⊢
              rw [this]
              exact hS (by simp [hrt]) hne
            · have := r1 hrt
              rw [Option.some.injEq] at this
              rw [this]
              exact hB hrt hne
          · split at ha
            · rename_i hboth
              obtain ⟨s, hs⟩ := hsn (by simp [hboth])
              have := (r2 s hs).2 hboth
              subst this
              simp only [List.mem_singleton, Prod.mk.injEq, Act.store.injEq] at ha
              obtain ⟨rfl, rfl, rfl, rfl⟩ := ha
              have hk : cfg.snapKey = cfg.snap := by simp [KeyCfg.snapKey, hboth]
              have hp : cfg.snapPars = cfg.snapParams := by simp [KeyCfg.snapPars, hboth]
              refine ⟨rfl, hp ▸ L.wsnap, ?_⟩
              rw [← hk] at hne ⊢
              exact hS (by simp [hboth]) hne
            · simp at ha
    · simp at ha

end key
end Oups.AggStream
