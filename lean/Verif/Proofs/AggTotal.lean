import Verif.Spec.AggTotal
import Verif.Proofs.AggLaw
import Verif.Proofs.AggRun
import Verif.Props.WriteWhen
/-! When an aggregation stream raises. -/
set_option linter.unusedSimpArgs false
set_option linter.unusedSectionVars false
namespace Oups.AggStream
open Oups.Writer (Table Params RG Col DupOn dupCols readRows StrictOn)
open Oups.Agg (Res AggErr)

section
variable {K R A S P Q : Type} [DecidableEq K]

/-! ### One write -/

theorem write_total {T : Table (Row A)} {p : Params} {on : Col} {d : DupOn} (hw : WriteOk T p on d) {n : Nat} (hn : Roomy p n)
    {rgs : List (RG (Row A))} {data : List (Row A)} (h : rgs ≠ [] → data ≠ []) (hl : data.length ≤ n) :
    ∃ rgs', Writer.write T p rgs data = .ok rgs' := by
  obtain ⟨hm, hn⟩ := hn
  by_cases hd : data = []
  · have hr : rgs = [] := by
      by_contra hr
      exact h hr hd
    subst hr
    simp only [Writer.write, hw.ordered, Writer.checkOrderedOn, hw.col, if_true, bind, Except.bind, List.isEmpty_nil,
      Writer.iter_plain hm, pure, Except.pure]
    exact ⟨_, rfl⟩
  · rw [Writer.C17_succeeds_iff hw.ordered hw.col hd hm (by rw [hw.dup]; exact hw.dupCol)]
    rcases hn with hn | ⟨m, k, h1, h2, h3, h4⟩
    · exact Or.inr (Or.inl hn)
    · refine Or.inr (Or.inr ⟨m, k, h1, h2, ?_⟩)
      rintro ⟨⟨-, hf⟩, -⟩
      omega

theorem write_empty {T : Table (Row A)} {p : Params} {on : Col} {d : DupOn} (hw : WriteOk T p on d)
    {rgs : List (RG (Row A))} (hne : rgs ≠ []) : Writer.write T p rgs [] = .error .indexError := by
  have hemp : rgs.isEmpty = false := by cases rgs <;> simp_all
  simp [Writer.write, hw.ordered, Writer.checkOrderedOn, hw.col, hemp, bind, Except.bind, throw, throwThe,
    MonadExceptOf.throw, Writer.overlapWindow]

theorem storeSet_total {M : Type} {T : Table (Row A)} {p : Params} {on : Col} {d : DupOn} (hw : WriteOk T p on d)
    {n : Nat} (hn : Roomy p n) {ds : Dataset (Row A) M} {rows : List (Row A)} (md : Option M)
    (h : ds.rgs ≠ [] → rows ≠ []) (hl : rows.length ≤ n) : ∃ ds', storeSet T p ds rows md = .ok ds' := by
  obtain ⟨rgs', h1⟩ := write_total hw hn h hl
  simp only [storeSet, h1]
  exact ⟨_, rfl⟩

theorem storeSet_empty {M : Type} {T : Table (Row A)} {p : Params} {on : Col} {d : DupOn} (hw : WriteOk T p on d)
    {ds : Dataset (Row A) M} (md : Option M) (hne : ds.rgs ≠ []) : storeSet T p ds [] md = .error (.write .indexError) := by
  simp only [storeSet, write_empty hw hne]

theorem concatRes_total {al : Bool} {buf : List (List (Row A))} {last : List (Row A)} (h : al = true ∨ buf ≠ []) :
    concatRes buf last al = .ok (cat al buf last) := by
  simp only [concatRes, cat]
  split
  · rename_i he
    rcases h with rfl | h
    · simp at he
    · cases al <;> simp_all
  · rfl

theorem results_total {cfg : KeyCfg K R A S Q} {gB gS : Row A → Row A} (hpost : PostRow cfg gB gS) {al : Bool}
    {st : KeyBuf A S Q} {b : List (Row A)} (hb : st.bin = some b) (hsn : cfg.resType ≠ .bins → ∃ s, st.snap = some s)
    (h1 : al = true ∨ st.binBuf ≠ []) (h2 : ∀ s, st.snap = some s → al = true ∨ st.snapBuf ≠ []) :
    ∃ q main snap, results cfg al st = .ok (q, main, snap) := by
  have hc : concatSnap st al = .ok (st.snap.map (cat al st.snapBuf)) := by
    simp only [concatSnap]
    cases hs : st.snap with
    | none => rfl
    | some s => simp only [concatRes_total (h2 s hs), Option.map_some]
  simp only [results, hb, concatRes_total h1, hc]
  simp only [PostRow] at hpost
  cases hp : cfg.post with
  | none => exact ⟨_, _, _, rfl⟩
  | some f =>
    rw [hp] at hpost
    simp only at hpost
    cases hr : cfg.resType with
    | bins =>
      rw [hr] at hpost
      obtain ⟨q', hq⟩ := hpost st.post (cat al st.binBuf b) []
      simp only [if_true, hq]
      exact ⟨_, _, _, rfl⟩
    | snaps =>
      rw [hr] at hpost
      obtain ⟨s, hs⟩ := hsn (by rw [hr]; simp)
      obtain ⟨q', hq⟩ := hpost st.post (cat al st.binBuf b) (cat al st.snapBuf s)
      simp only [reduceCtorEq, if_false, hs, Option.map_some, hq]
      exact ⟨_, _, _, rfl⟩
    | both =>
      rw [hr] at hpost
      obtain ⟨s, hs⟩ := hsn (by rw [hr]; simp)
      obtain ⟨q', hq⟩ := hpost st.post (cat al st.binBuf b) (cat al st.snapBuf s)
      simp only [reduceCtorEq, if_false, hs, Option.map_some, hq]
      exact ⟨_, _, _, rfl⟩

/-- Nothing to write, into a dataset that has rows. -/
def Blank (cfg : KeyCfg K R A S Q) (al : Bool) (st : KeyBuf A S Q) (b : List (Row A)) (w : World K A (Md S P Q)) : Prop :=
  (cfg.resType ≠ .snaps ∧ (w cfg.main).rgs ≠ [] ∧ cat al st.binBuf b = []) ∨
    (cfg.resType ≠ .bins ∧ (w cfg.snapKey).rgs ≠ [] ∧ ∃ s, st.snap = some s ∧ cat al st.snapBuf s = [])

/-- Parameters for writing results of the rows `Tot`, those of `h0` being written, but for the last one. -/
structure SizesOk (cfg : KeyCfg K R A S Q) (FB : List R → List (Row A)) (FS : Option (List R → List (Row A))) (Tot h0 : List R) :
    Prop where
  main : cfg.resType ≠ .snaps → Roomy cfg.params ((FB Tot).length - ((FB h0).length - 1))
  snap : cfg.resType ≠ .bins → ∀ f, FS = some f → Roomy cfg.snapPars ((f Tot).length - ((f h0).length - 1))

theorem postNWrite_cases {cfg : KeyCfg K R A S Q} {gB gS : Row A → Row A} (hpost : PostRow cfg gB gS)
    (hd : cfg.resType = .both → cfg.main ≠ cfg.snap) {on : Col} {d : DupOn} (hw : WriteOk cfg.table cfg.params on d)
    (hws : WriteOk cfg.table cfg.snapPars on d) {truthy : Int → Bool} {al : Bool}
    {fin : Option (Int × P)} {st : KeyBuf A S Q} {w : World K A (Md S P Q)} {b : List (Row A)} (hb : st.bin = some b)
    (hsn : cfg.resType ≠ .bins → ∃ s, st.snap = some s)
    (h1 : al = true ∨ st.binBuf ≠ []) (h2 : ∀ s, st.snap = some s → al = true ∨ st.snapBuf ≠ [])
    (z1 : cfg.resType ≠ .snaps → Roomy cfg.params (cat al st.binBuf b).length)
    (z2 : cfg.resType ≠ .bins → ∀ s, st.snap = some s → Roomy cfg.snapPars (cat al st.snapBuf s).length) :
    (¬ Blank cfg al st b w → ∃ r, postNWrite cfg truthy al fin st w = .ok r) ∧
    (Blank cfg al st b w → postNWrite cfg truthy al fin st w = .error (.write .indexError)) := by
  obtain ⟨q, main, snap, hres⟩ := results_total hpost hb hsn h1 h2
  obtain ⟨r1, r2⟩ := results_spec hpost hres hb hsn
  simp only [postNWrite, hres]
  generalize pendingMd truthy fin st.seg q = md
  cases hr : cfg.resType with
  | bins =>
    have e := r1 (by simp [hr])
    subst e
    simp only [writeResults, hr, reduceCtorEq, if_false]
    constructor
    · intro hn
      obtain ⟨ds', h⟩ := storeSet_total (md := md) hw (z1 (by simp [hr])) (ds := w cfg.main) (rows := (cat al st.binBuf b).map gB)
        (fun hne he => hn (Or.inl ⟨by simp [hr], hne, by simpa using he⟩)) (by simp)
      simp only [h]
      exact ⟨_, rfl⟩
    · rintro (⟨-, hne, he⟩ | ⟨h, -⟩)
      · rw [he, List.map_nil, storeSet_empty hw md hne]
      · exact absurd hr h
  | snaps =>
    obtain ⟨s, hs⟩ := hsn (by simp [hr])
    have e := (r2 s hs).1 hr
    subst e
    have hk : cfg.snapKey = cfg.main := by simp [KeyCfg.snapKey, hr]
    have hz := z2 (by simp [hr]) s hs
    rw [show cfg.snapPars = cfg.params by simp [KeyCfg.snapPars, hr]] at hz
    simp only [writeResults, hr, reduceCtorEq, if_false]
    constructor
    · intro hn
      obtain ⟨ds', h⟩ := storeSet_total (md := md) hw hz (ds := w cfg.main) (rows := (cat al st.snapBuf s).map gS)
        (fun hne he => hn (Or.inr ⟨by simp [hr], by rwa [hk], s, hs, by simpa using he⟩)) (by simp)
      simp only [h]
      exact ⟨_, rfl⟩
    · rintro (⟨h, -⟩ | ⟨-, hne, s', hs', he⟩)
      · exact absurd hr h
      · rw [hs, Option.some.injEq] at hs'
        subst hs'
        rw [hk] at hne
        rw [he, List.map_nil, storeSet_empty hw md hne]
  | both =>
    obtain ⟨s, hs⟩ := hsn (by simp [hr])
    have e := r1 (by simp [hr])
    have e' := (r2 s hs).2 hr
    subst e e'
    have hk : cfg.snapKey = cfg.snap := by simp [KeyCfg.snapKey, hr]
    have hz := z2 (by simp [hr]) s hs
    rw [show cfg.snapPars = cfg.snapParams by simp [KeyCfg.snapPars, hr]] at hws hz
    simp only [writeResults, hr, if_true]
    by_cases hB : (w cfg.main).rgs ≠ [] ∧ cat al st.binBuf b = []
    · rw [hB.2, List.map_nil, storeSet_empty hw md hB.1]
      exact ⟨fun hn => absurd (Or.inl ⟨by simp [hr], hB⟩) hn, fun _ => rfl⟩
    · obtain ⟨ds', h⟩ := storeSet_total (md := md) hw (z1 (by simp [hr])) (ds := w cfg.main) (rows := (cat al st.binBuf b).map gB)
        (fun hne he => hB ⟨hne, by simpa using he⟩) (by simp)
      simp only [h]
      rw [set_other _ _ (Ne.symm (hd hr))]
      constructor
      · intro hn
        obtain ⟨ds2, h'⟩ := storeSet_total (md := (none : Option (Md S P Q))) hws hz (ds := w cfg.snap)
          (rows := (cat al st.snapBuf s).map gS)
          (fun hne he => hn (Or.inr ⟨by simp [hr], by rwa [hk], s, hs, by simpa using he⟩)) (by simp)
        simp only [h']
        exact ⟨_, rfl⟩
      · rintro (⟨-, hne, he⟩ | ⟨-, hne, s', hs', he⟩)
        · exact absurd ⟨hne, he⟩ hB
        · rw [hs, Option.some.injEq] at hs'
          subst hs'
          rw [hk] at hne
          rw [he, List.map_nil, storeSet_empty hws none hne]

/-! ### One key -/

section key
variable {cfg : KeyCfg K R A S Q} {V : List R → Prop} {FB : List R → List (Row A)}
  {FS : Option (List R → List (Row A))} {ok : List R → S → Prop} {gB gS : Row A → Row A} {on : Col} {d : DupOn}
  {truthy : Int → Bool} {Bad : List R → List R → Prop}

theorem blank_push {st : KeyBuf A S Q} {b : List (Row A)} {w : World K A (Md S P Q)} :
    Blank cfg false (pushPrev cfg st b) b w ↔
      ((cfg.resType ≠ .snaps ∧ (w cfg.main).rgs ≠ [] ∧ st.binBuf.flatten ++ b.dropLast = []) ∨
      (cfg.resType ≠ .bins ∧ (w (if cfg.resType = .both then cfg.snap else cfg.main)).rgs ≠ [] ∧
        ∃ s, st.snap = some s ∧ st.snapBuf.flatten ++ s.dropLast = [])) := by
  simp only [Blank, cat, pushPrev, KeyCfg.snapKey, Bool.false_eq_true, if_false, List.flatten_append, List.flatten_cons,
    List.flatten_nil, List.append_nil]
  refine or_congr Iff.rfl (and_congr Iff.rfl (and_congr Iff.rfl (exists_congr fun s => ?_)))
  constructor <;> rintro ⟨h1, h2⟩ <;> refine ⟨h1, ?_⟩ <;> simpa [h1] using h2

/-- What is kept in memory is no longer than the results of the session. -/
theorem TrackOk.length {p : Params} {F : List R → List (Row A)} {g : Row A → Row A} {T : Table (Row A)} (law : StreamLaw V F g T on d)
    {Tot h h0 : List R} (hV : V Tot) (hh : h <+: Tot) {buf : List (List (Row A))} {b : List (Row A)} {rgs : List (RG (Row A))}
    (ht : TrackOk p F g T on d Tot (F h0).dropLast h buf (some b) rgs) :
    buf.flatten.length + b.length ≤ (F Tot).length - ((F h0).length - 1) := by
  obtain ⟨-, pre, h1, ⟨-, h2⟩, -, -⟩ := ht
  have hl := (keys_dropLast law hV hh (List.prefix_refl (F h))).length_le
  have h3 := h1.length_le
  simp only [List.length_map, List.length_dropLast] at hl h3
  rw [h2] at hl
  simp only [List.length_append] at hl
  omega

theorem Roomy.mono {p : Params} {n n' : Nat} (h : Roomy p n) (hn : n' ≤ n) : Roomy p n' :=
  ⟨h.1, h.2.imp id fun ⟨m, k, h1, h2, h3, h4⟩ => ⟨m, k, h1, h2, h3, by omega⟩⟩

theorem flushPrev_cases (L : KeyLaws cfg V FB FS ok gB gS on d) {Tot h0 h : List R} (hz : SizesOk cfg FB FS Tot h0) (hV : V Tot)
    {st : KeyBuf A S Q} {w : World K A (Md S P Q)} (hi : KInv cfg FB FS ok gB gS on d Tot h0 h st w) :
    (¬ EmptyFlush cfg st w → ∃ r, flushPrev cfg truthy st w = .ok r) ∧
    (EmptyFlush cfg st w → flushPrev cfg truthy st w = .error (.write .indexError)) := by
  simp only [flushPrev]
  cases hb : st.bin with
  | none => exact ⟨fun _ => ⟨_, rfl⟩, by rintro ⟨b, hb', -⟩; rw [hb] at hb'; cases hb'⟩
  | some b =>
    obtain ⟨hbne, hsn⟩ := hi.hasRes b hb
    have hbe : b.isEmpty = false := by cases b <;> simp_all
    simp only [hbe, Bool.false_eq_true, if_false]
    by_cases ho : st.size + st.size / (st.binBuf.length + 1) > cfg.maxSize
    · rw [if_pos ho]
      have hc := postNWrite_cases (truthy := truthy) (P := P) (al := false) (fin := none) L.post L.distinct L.wmain L.wsnap
        (st := pushPrev cfg st b) (w := w) (b := b) hb hsn (Or.inr (by simp [pushPrev]))
        (fun s hs => Or.inr (by
          have hs' : st.snap = some s := hs
          simp [pushPrev, hs']))
        (fun hr => (hz.main hr).mono (by
          have ht := hi.bins hr
          rw [hb] at ht
          have := ht.length (L.bins hr) hV hi.pre
          simp only [cat, pushPrev, Bool.false_eq_true, if_false, List.flatten_append, List.flatten_cons, List.flatten_nil,
            List.append_nil, List.length_append, List.length_dropLast]
          omega))
        (fun hr s hs => by
          obtain ⟨f, hf, law⟩ := L.snaps hr
          have hs' : st.snap = some s := hs
          refine (hz.snap hr f hf).mono ?_
          have ht := hi.snaps hr f hf
          rw [hs'] at ht
          have := ht.length law hV hi.pre
          simp only [cat, pushPrev, hs', Bool.false_eq_true, if_false, List.flatten_append, List.flatten_cons, List.flatten_nil,
            List.append_nil, List.length_append, List.length_dropLast]
          omega)
      refine ⟨fun hn => hc.1 fun hbl => hn ⟨b, hb, ho, blank_push.1 hbl⟩, ?_⟩
      rintro ⟨b', hb', -, he⟩
      rw [hb, Option.some.injEq] at hb'
      subst hb'
      exact hc.2 (blank_push.2 he)
    · rw [if_neg ho]
      exact ⟨fun _ => ⟨_, rfl⟩, by rintro ⟨b', -, ho', -⟩; exact absurd ho' ho⟩

theorem keyStep_total (L : KeyLaws cfg V FB FS ok gB gS on d) (ct : CallTotal V cfg.call ok Bad)
    {Tot h0 h : List R} (hz : SizesOk cfg FB FS Tot h0) (hV : V Tot) {st : KeyBuf A S Q} {w : World K A (Md S P Q)}
    (hi : KInv cfg FB FS ok gB gS on d Tot h0 h st w) {op : KOp R P} (hop : ∀ c, op = .chunk c → c ≠ [] ∧ h ++ c <+: Tot)
    (hn : ∀ c, op = .chunk c → ¬ EmptyFlush cfg st w ∧ ¬ Bad h c) : ∃ r, keyStep cfg truthy op st w = .ok r := by
  cases op with
  | chunk c =>
    obtain ⟨hne, hpre⟩ := hop c rfl
    obtain ⟨⟨st1, w1⟩, h1⟩ := (flushPrev_cases (truthy := truthy) L hz hV hi).1 (hn c rfl).1
    have hm := flushPrev_inv L hV hi h1
    obtain ⟨t, ht⟩ := hpre
    rw [← ht] at hV
    obtain ⟨⟨res, seg⟩, h2⟩ := (ct _ _ _ hm.ok hne (L.valid _ t hV)).2 (hn c rfl).2
    simp only [keyStep, aggIter, h1, h2]
    exact ⟨_, rfl⟩
  | final r pb =>
    simp only [keyStep]
    cases hb : st.bin with
    | none =>
      simp only [postNWrite, results, hb, writeResults]
      cases pendingMd truthy (r.map fun i => (i, pb)) st.seg st.post with
      | none => exact ⟨_, rfl⟩
      | some m => exact ⟨_, rfl⟩
    | some b =>
      obtain ⟨hbne, hsn⟩ := hi.hasRes b hb
      refine (postNWrite_cases (truthy := truthy) (P := P) (al := true) (fin := _) L.post L.distinct L.wmain L.wsnap
        hb hsn (Or.inl rfl) (fun _ _ => Or.inl rfl)
        (fun hr => (hz.main hr).mono (by
          have ht := hi.bins hr
          rw [hb] at ht
          have := ht.length (L.bins hr) hV hi.pre
          simpa [cat] using this))
        (fun hr s hs => by
          obtain ⟨f, hf, law⟩ := L.snaps hr
          refine (hz.snap hr f hf).mono ?_
          have ht := hi.snaps hr f hf
          rw [hs] at ht
          have := ht.length law hV hi.pre
          simpa [cat] using this)).1 ?_
      rintro (⟨-, -, he⟩ | ⟨hr, -, s, hs, he⟩)
      · simp only [cat, if_true, List.flatten_append, List.flatten_cons, List.flatten_nil, List.append_nil,
          List.append_eq_nil_iff] at he
        exact hbne he.2
      · obtain ⟨f, hf, -⟩ := L.snaps hr
        obtain ⟨-, pre, -, hp, -⟩ := hi.snaps hr f hf
        rw [hs] at hp
        simp only [cat, if_true, List.flatten_append, List.flatten_cons, List.flatten_nil, List.append_nil,
          List.append_eq_nil_iff] at he
        exact hp.1 he.2

/-- A key raises only when it has nothing to write on the way, or when a result is zero. -/
theorem keyRun_error (L : KeyLaws cfg V FB FS ok gB gS on d) (ct : CallTotal V cfg.call ok Bad)
    {Tot h0 : List R} (hz : SizesOk cfg FB FS Tot h0) (hV : V Tot) {ops : List (KOp R P)} (hops : OpsOk ops) {h : List R} {st : KeyBuf A S Q}
    {w : World K A (Md S P Q)} (hi : KInv cfg FB FS ok gB gS on d Tot h0 h st w) (hpre : h ++ opRows ops <+: Tot)
    {e : Err} (hr : keyRun cfg truthy ops st w = .error e) :
    ∃ done c rest st1 w1, ops = done ++ .chunk c :: rest ∧ keyRun cfg truthy done st w = .ok (st1, w1) ∧
      ((e = .write .indexError ∧ EmptyFlush cfg st1 w1) ∨
        ((e = .agg .zeroSnap ∨ e = .agg .zeroBin) ∧ Bad (h ++ opRows done) c)) := by
  induction ops generalizing h st w with
  | nil => simp [keyRun] at hr
  | cons op ops ih =>
    have hops' : OpsOk ops := fun c hc => hops c (by simp [hc])
    have hop : ∀ c, op = .chunk c → c ≠ [] ∧ h ++ c <+: Tot := by
      rintro c rfl
      refine ⟨hops c (by simp), ?_⟩
      simp only [opRows, ← List.append_assoc] at hpre
      exact List.IsPrefix.trans ⟨_, rfl⟩ hpre
    cases hs : keyStep cfg truthy op st w with
    | error e' =>
      simp only [keyRun, hs, Except.error.injEq] at hr
      subst hr
      have hex : ∃ c, op = .chunk c ∧ (EmptyFlush cfg st w ∨ Bad h c) := by
        by_contra hne
        obtain ⟨r, h1⟩ := keyStep_total (truthy := truthy) L ct hz hV hi hop
          (fun c hc => ⟨fun hf => hne ⟨c, hc, .inl hf⟩, fun hf => hne ⟨c, hc, .inr hf⟩⟩)
        rw [hs] at h1; cases h1
      obtain ⟨c, rfl, hf⟩ := hex
      refine ⟨[], c, ops, st, w, rfl, rfl, ?_⟩
      by_cases hE : EmptyFlush cfg st w
      · have h1 := (flushPrev_cases (truthy := truthy) L hz hV hi).2 hE
        simp only [keyStep, aggIter, h1, Except.error.injEq] at hs
        exact .inl ⟨hs.symm, hE⟩
      · have hB := hf.resolve_left hE
        obtain ⟨⟨st1, w1⟩, h1⟩ := (flushPrev_cases (truthy := truthy) L hz hV hi).1 hE
        have hm := flushPrev_inv L hV hi h1
        obtain ⟨hne, t, ht⟩ := hop c rfl
        rw [← ht] at hV
        have h2 := (ct _ _ _ hm.ok hne (L.valid _ t hV)).1 hB
        refine .inr ⟨?_, by simpa [opRows] using hB⟩
        rcases h2 with h2 | h2 <;> simp only [keyStep, aggIter, h1, h2, Except.error.injEq] at hs
        · exact .inl hs.symm
        · exact .inr hs.symm
    | ok r =>
      obtain ⟨st1, w1⟩ := r
      simp only [keyRun, hs] at hr
      have hi1 : ∃ h', KInv cfg FB FS ok gB gS on d Tot h0 h' st1 w1 ∧ h' ++ opRows ops <+: Tot ∧
          ∀ l, h' ++ opRows l = h ++ opRows (op :: l) := by
        cases op with
        | chunk c =>
          obtain ⟨a1, a2⟩ := hop c rfl
          refine ⟨_, aggIter_inv L hV hi a1 a2 hs, ?_, fun l => by simp [opRows]⟩
          simpa only [opRows, ← List.append_assoc] using hpre
        | final r pb => exact ⟨_, (final_inv L hV hi hs).1, hpre, fun l => by simp [opRows]⟩
      obtain ⟨h', hi', hp', hl⟩ := hi1
      obtain ⟨done, c, rest, st2, w2, rfl, e2, e3⟩ := ih hops' hi' hp' hr
      refine ⟨op :: done, c, rest, st2, w2, rfl, by simpa only [keyRun, hs] using e2, ?_⟩
      rwa [← hl]

/-- Conversely. -/
theorem keyRun_bad (L : KeyLaws cfg V FB FS ok gB gS on d) (ct : CallTotal V cfg.call ok Bad)
    {Tot h0 : List R} (hz : SizesOk cfg FB FS Tot h0) (hV : V Tot) {done rest : List (KOp R P)} {c : List R} (hops : OpsOk (done ++ .chunk c :: rest))
    {h : List R} {st st1 : KeyBuf A S Q} {w w1 : World K A (Md S P Q)} (hi : KInv cfg FB FS ok gB gS on d Tot h0 h st w)
    (hpre : h ++ opRows (done ++ .chunk c :: rest) <+: Tot) (hr : keyRun cfg truthy done st w = .ok (st1, w1))
    (hf : Bad (h ++ opRows done) c) : ∃ e, keyRun cfg truthy (done ++ .chunk c :: rest) st w = .error e := by
  simp only [opRows_append, opRows, ← List.append_assoc] at hpre
  have hi1 := keyRun_inv L hV (fun x hx => hops x (List.mem_append_left _ hx)) hi
    (by rw [List.append_assoc] at hpre; exact List.IsPrefix.trans ⟨_, rfl⟩ hpre) hr
  rw [keyRun_append_ok hr]
  by_cases hE : EmptyFlush cfg st1 w1
  · simp only [keyRun, keyStep, aggIter, (flushPrev_cases (truthy := truthy) L hz hV hi1).2 hE]
    exact ⟨_, rfl⟩
  · obtain ⟨⟨st2, w2⟩, h1⟩ := (flushPrev_cases (truthy := truthy) L hz hV hi1).1 hE
    have hm := flushPrev_inv L hV hi1 h1
    obtain ⟨t, ht⟩ := hpre
    rw [← ht, List.append_assoc] at hV
    rcases (ct _ _ _ hm.ok (hops c (by simp)) (L.valid _ _ hV)).1 hf with h2 | h2 <;>
      simp only [keyRun, keyStep, aggIter, h1, h2] <;> exact ⟨_, rfl⟩

/-- Conversely. -/
theorem keyRun_emptyFlush (L : KeyLaws cfg V FB FS ok gB gS on d)
    {Tot h0 : List R} (hz : SizesOk cfg FB FS Tot h0) (hV : V Tot) {done rest : List (KOp R P)} {c : List R} (hops : OpsOk done) {h : List R}
    {st st1 : KeyBuf A S Q} {w w1 : World K A (Md S P Q)} (hi : KInv cfg FB FS ok gB gS on d Tot h0 h st w)
    (hpre : h ++ opRows done <+: Tot) (hr : keyRun cfg truthy done st w = .ok (st1, w1)) (hf : EmptyFlush cfg st1 w1) :
    keyRun cfg truthy (done ++ .chunk c :: rest) st w = .error (.write .indexError) := by
  have hi1 := keyRun_inv L hV hops hi hpre hr
  rw [keyRun_append_ok hr]
  simp only [keyRun, keyStep, aggIter, (flushPrev_cases (truthy := truthy) L hz hV hi1).2 hf]

/-- Frames delivered. -/
def chunksOf : List (KOp R P) → List (List R)
  | [] => []
  | .chunk c :: ops => c :: chunksOf ops
  | .final _ _ :: ops => chunksOf ops

theorem chunksOf_flatten (ops : List (KOp R P)) : (chunksOf ops).flatten = opRows ops := by
  induction ops with
  | nil => rfl
  | cons op ops ih => cases op <;> simp [chunksOf, opRows, ih]

theorem chunksOf_append (a b : List (KOp R P)) : chunksOf (a ++ b) = chunksOf a ++ chunksOf b := by
  induction a with
  | nil => rfl
  | cons op a ih => cases op <;> simp [chunksOf, ih]

/-- What is kept of the last frames, for a key that started on empty datasets: more than one row, once something is stored. -/
structure KAdds (cfg : KeyCfg K R A S Q) (FB : List R → List (Row A)) (FS : Option (List R → List (Row A)))
    (cs : List (List R)) (st : KeyBuf A S Q) (w : World K A (Md S P Q)) : Prop where
  start : cs = [] → st.bin = none ∧ (w cfg.main).rgs = [] ∧ (w cfg.snapKey).rgs = []
  neB : cs ≠ [] → FB cs.flatten ≠ []
  neS : cs ≠ [] → ∀ f, FS = some f → f cs.flatten ≠ []
  bin : cfg.resType ≠ .snaps → ∀ b, st.bin = some b → (w cfg.main).rgs = [] ∨ b.dropLast ≠ []
  snap : cfg.resType ≠ .bins → ∀ b s, st.bin = some b → st.snap = some s → (w cfg.snapKey).rgs = [] ∨ s.dropLast ≠ []

theorem KAdds.noFlush {cs : List (List R)} {st : KeyBuf A S Q} {w : World K A (Md S P Q)} (h : KAdds cfg FB FS cs st w) :
    ¬ EmptyFlush cfg st w := by
  rintro ⟨b, hb, -, ⟨hr, hne, he⟩ | ⟨hr, hne, s, hs, he⟩⟩
  · rcases h.bin hr b hb with h' | h'
    · exact hne h'
    · exact h' (List.append_eq_nil_iff.1 he).2
  · rcases h.snap hr b s hb hs with h' | h'
    · exact hne h'
    · exact h' (List.append_eq_nil_iff.1 he).2

theorem dropLast_of_adds {α : Type} {X Y n : List α} (h : Y = X.dropLast ++ n) (hX : X ≠ []) (hl : X.length < Y.length) :
    n.dropLast ≠ [] := by
  intro hn
  have h1 := congrArg List.length h
  have h2 := congrArg List.length hn
  have h3 := List.length_pos_iff.2 hX
  simp at h1 h2
  omega

theorem keyRun_adds (L : KeyLaws cfg V FB FS ok gB gS on d) (ct : CallTotal V cfg.call ok Bad)
    {Tot h0 : List R} (hz : SizesOk cfg FB FS Tot h0) (hV : V Tot) {ops : List (KOp R P)} (hops : OpsOk ops) {cs : List (List R)} {st : KeyBuf A S Q}
    {w : World K A (Md S P Q)} (hi : KInv cfg FB FS ok gB gS on d Tot h0 cs.flatten st w)
    (hpre : cs.flatten ++ opRows ops <+: Tot) (ha : KAdds cfg FB FS cs st w)
    (hB : cfg.resType ≠ .snaps → EachAdds FB (cs ++ chunksOf ops))
    (hS : cfg.resType ≠ .bins → ∀ f, FS = some f → EachAdds f (cs ++ chunksOf ops))
    (hbad : ∀ pre p post, chunksOf ops = pre ++ p :: post → ¬ Bad (cs.flatten ++ pre.flatten) p) :
    ∃ r, keyRun cfg truthy ops st w = .ok r := by
  induction ops generalizing cs st w with
  | nil => exact ⟨_, rfl⟩
  | cons op ops ih =>
    have hops' : OpsOk ops := fun c hc => hops c (by simp [hc])
    have hop : ∀ c, op = .chunk c → c ≠ [] ∧ cs.flatten ++ c <+: Tot := by
      rintro c rfl
      refine ⟨hops c (by simp), ?_⟩
      simp only [opRows, ← List.append_assoc] at hpre
      exact List.IsPrefix.trans ⟨_, rfl⟩ hpre
    obtain ⟨⟨st1, w1⟩, hs⟩ := keyStep_total (truthy := truthy) L ct hz hV hi hop (fun c hc => ⟨ha.noFlush, by
      subst hc; simpa using hbad [] c _ rfl⟩)
    simp only [keyRun, hs]
    cases op with
    | chunk c =>
      obtain ⟨hcne, hcp⟩ := hop c rfl
      have hi1 := aggIter_inv L hV hi hcne hcp hs
      obtain ⟨st2, res, seg, f1, f2, f3⟩ := aggIter_ok hs
      have hm := flushPrev_inv L hV hi f1
      have hV' : V (cs.flatten ++ c) := by
        obtain ⟨t, ht⟩ := hcp
        rw [← ht] at hV
        exact L.valid _ t hV
      obtain ⟨-, r, rfl, hrne, hrb, hrs⟩ := L.call.step hm.ok hcne hV' f2
      have hfl : (cs ++ [c]).flatten = cs.flatten ++ c := by simp
      have hcs : cs ++ c :: chunksOf ops = (cs ++ [c]) ++ chunksOf ops := by simp
      simp only [opRows, ← List.append_assoc] at hpre
      simp only [chunksOf] at hB hS hbad
      refine ih hops' (cs := cs ++ [c]) (by rw [hfl]; exact hi1) (by rw [hfl]; exact hpre) ?_
        (by rwa [← hcs]) (by rwa [← hcs]) (fun pre p post he => by
          simpa using hbad (c :: pre) p post (by rw [he]; rfl))
      have hw1 : cs = [] → w1 = w := by
        intro h
        have := (ha.start h).1
        simp only [flushPrev, this, Except.ok.injEq, Prod.mk.injEq] at f1
        exact f1.2.symm
      refine ⟨by simp, fun _ => ?_, fun _ f hf => ?_, fun hr b hb => ?_, fun hr b s _ hs' => ?_⟩
      · rw [hfl, hrb]; simp [hrne]
      · rw [hf] at hrs
        obtain ⟨sn, -, h1, h2⟩ := hrs
        rw [hfl, h2]; simp [h1]
      · by_cases hc : cs = []
        · rw [hw1 hc]; exact Or.inl (ha.start hc).2.1
        · rw [f3] at hb
          simp only [Option.map_some, Option.some.injEq] at hb
          subst hb
          exact Or.inr (dropLast_of_adds hrb (ha.neB hc) (hB hr cs c _ rfl hc))
      · by_cases hc : cs = []
        · rw [hw1 hc]; exact Or.inl (ha.start hc).2.2
        · obtain ⟨f, hf, -⟩ := L.snaps hr
          rw [hf] at hrs
          obtain ⟨sn, h1, h2, h3⟩ := hrs
          rw [f3] at hs'
          simp only [Option.bind_some, h1, Option.some.injEq] at hs'
          subst hs'
          exact Or.inr (dropLast_of_adds h3 (ha.neS hc f hf) (hS hr f hf cs c _ rfl hc))
    | final r pb =>
      obtain ⟨i1, i2, -⟩ := final_inv L hV hi hs
      refine ih hops' i1 hpre ⟨fun hc => ⟨i2, ?_⟩, ha.neB, ha.neS, by simp [i2], by simp [i2]⟩ hB hS hbad
      obtain ⟨e1, e2, e3⟩ := ha.start hc
      simp only [keyStep] at hs
      obtain ⟨q, main, snap, r1, r2, r3⟩ := postNWrite_ok hs
      have := results_none r1 e1
      simp only [Prod.mk.injEq] at this
      obtain ⟨rfl, rfl, rfl⟩ := this
      obtain ⟨g1, g2, g3, g4, g5⟩ := writeResults_none r2
      have hmain : (w1 cfg.main).rgs = [] := by
        cases hin : (w cfg.main).inStore with
        | true => rw [g4 hin]; exact e2
        | false => exact g5 hin e2
      refine ⟨hmain, ?_⟩
      by_cases hk : cfg.snapKey = cfg.main
      · rw [hk]; exact hmain
      · rw [g1 _ hk]; exact e3

end key
end

/-! ### Many keys -/

section
variable {K R A S P Q F : Type} [DecidableEq K] [DecidableEq F]

theorem keyRun_error_local {cfg : KeyCfg K R A S Q} {truthy : Int → Bool} {ops : List (KOp R P)} {st : KeyBuf A S Q}
    {w1 w2 : World K A (Md S P Q)} (ha : Agree cfg w1 w2) {e : Err} (h : keyRun cfg truthy ops st w1 = .error e) :
    keyRun cfg truthy ops st w2 = .error e := by
  have := keyRun_local cfg truthy ops st ha
  rw [h] at this
  cases h2 : keyRun cfg truthy ops st w2 with
  | error e' => rw [h2] at this; simp only [Same] at this; rw [this]
  | ok r => rw [h2] at this; simp only [Same] at this

/-- What is raised is raised by a key, and would be if it were alone. -/
theorem idxRun_error {keys : List (F × KeyCfg K R A S Q)} (hk : Apart keys) {truthy : Int → Bool}
    {l : List (Nat × KOp R P)} {bs : List (KeyBuf A S Q)} {w : World K A (Md S P Q)} {e : Err}
    (h : idxRun keys truthy l bs w = .error e) :
    ∃ (i : Nat) (k : F × KeyCfg K R A S Q) (b : KeyBuf A S Q), keys[i]? = some k ∧ bs[i]? = some b ∧
      keyRun k.2 truthy (opsOf i l) b w = .error e := by
  induction l generalizing bs w with
  | nil => simp [idxRun] at h
  | cons x l ih =>
    obtain ⟨j, op⟩ := x
    simp only [idxRun] at h
    have skip : (keys[j]? = none ∨ bs[j]? = none) → idxRun keys truthy l bs w = .error e →
        ∃ (i : Nat) (k : F × KeyCfg K R A S Q) (b : KeyBuf A S Q), keys[i]? = some k ∧ bs[i]? = some b ∧
          keyRun k.2 truthy (opsOf i ((j, op) :: l)) b w = .error e := by
      intro hn h
      obtain ⟨i, k, b, h1, h2, h3⟩ := ih h
      refine ⟨i, k, b, h1, h2, ?_⟩
      rw [opsOf_other _ op l]
      · exact h3
      · rintro rfl
        rcases hn with hn | hn <;> simp_all
    cases hkj : keys[j]? with
    | none => simp only [hkj] at h; exact skip (Or.inl hkj) h
    | some kj =>
      cases hbj : bs[j]? with
      | none => simp only [hkj, hbj] at h; exact skip (Or.inr hbj) h
      | some bj =>
        simp only [hkj, hbj] at h
        cases hs : keyStep kj.2 truthy op bj w with
        | error e' =>
          simp only [hs, Except.error.injEq] at h
          subst h
          exact ⟨j, kj, bj, hkj, hbj, by simp only [opsOf_same, keyRun, hs]⟩
        | ok r =>
          obtain ⟨b1, w1⟩ := r
          simp only [hs] at h
          obtain ⟨i, k, b, h1, h2, h3⟩ := ih h
          by_cases hij : j = i
          · subst hij
            rw [hkj, Option.some.injEq] at h1
            subst h1
            obtain ⟨hlt, -⟩ := List.getElem?_eq_some_iff.1 hbj
            rw [List.getElem?_set_self hlt, Option.some.injEq] at h2
            subst h2
            exact ⟨j, kj, bj, hkj, hbj, by simp only [opsOf_same, keyRun, hs]; exact h3⟩
          · rw [List.getElem?_set_ne hij] at h2
            refine ⟨i, k, b, h1, h2, ?_⟩
            rw [opsOf_other hij]
            refine keyRun_error_local (fun x hx => ?_) h3
            exact keyStep_frame hs x (hk.get (Ne.symm hij) h1 hkj x hx)

theorem forKeys_idx_error {sel : F → Bool} {op : KOp R P} {truthy : Int → Bool} {ks : List (F × KeyCfg K R A S Q)}
    {bs : List (KeyBuf A S Q)} {w : World K A (Md S P Q)} {e : Err}
    (h : forKeys sel (fun cfg => keyStep cfg truthy op) ks bs w = .error e) (hl : bs.length = ks.length)
    (pk : List (F × KeyCfg K R A S Q)) (pb : List (KeyBuf A S Q)) (hp : pb.length = pk.length) :
    idxRun (pk ++ ks) truthy (selOps sel op pk.length ks) (pb ++ bs) w = .error e := by
  induction ks generalizing bs w pk pb with
  | nil => simp [forKeys] at h
  | cons k ks ih =>
    cases bs with
    | nil => simp at hl
    | cons b bs =>
      simp only [List.length_cons, Nat.add_right_cancel_iff] at hl
      have e1 : ∀ b' : KeyBuf A S Q, pb ++ b' :: bs = (pb ++ [b']) ++ bs := by simp
      have e2 : pk ++ k :: ks = (pk ++ [k]) ++ ks := by simp
      simp only [forKeys] at h
      simp only [selOps]
      by_cases hsel : sel k.1 = true
      · simp only [hsel, if_true] at h ⊢
        have hk0 : (pk ++ k :: ks)[pk.length]? = some k := by simp
        have hb0 : (pb ++ b :: bs)[pk.length]? = some b := by rw [← hp]; simp
        simp only [idxRun, hk0, hb0]
        cases hs : keyStep k.2 truthy op b w with
        | error e' => simp only [hs, Except.error.injEq] at h ⊢; exact h
        | ok r =>
          obtain ⟨b1, w1⟩ := r
          simp only [hs] at h ⊢
          have : (pb ++ b :: bs).set pk.length b1 = (pb ++ [b1]) ++ bs := by rw [← hp]; simp
          rw [this, e2]
          have h' : forKeys sel (fun cfg => keyStep cfg truthy op) ks bs w1 = .error e := by
            cases hf : forKeys sel (fun cfg => keyStep cfg truthy op) ks bs w1 with
            | error e' => simp only [hf, Except.error.injEq] at h; rw [h]
            | ok r => simp [hf] at h
          have := ih h' hl (pk ++ [k]) (pb ++ [b1]) (by simp [hp])
          simpa using this
      · simp only [hsel, Bool.false_eq_true, if_false] at h ⊢
        rw [e1, e2]
        have h' : forKeys sel (fun cfg => keyStep cfg truthy op) ks bs w = .error e := by
          cases hf : forKeys sel (fun cfg => keyStep cfg truthy op) ks bs w with
          | error e' => simp only [hf, Except.error.injEq] at h; rw [h]
          | ok r => simp [hf] at h
        have := ih h' hl (pk ++ [k]) (pb ++ [b]) (by simp [hp])
        simpa using this

theorem idxRun_append_error {keys : List (F × KeyCfg K R A S Q)} {truthy : Int → Bool}
    {l1 l2 : List (Nat × KOp R P)} {bs : List (KeyBuf A S Q)} {w : World K A (Md S P Q)} {e : Err}
    (h : idxRun keys truthy l1 bs w = .error e) : idxRun keys truthy (l1 ++ l2) bs w = .error e := by
  induction l1 generalizing bs w with
  | nil => simp [idxRun] at h
  | cons x l ih =>
    obtain ⟨j, op⟩ := x
    simp only [List.cons_append, idxRun] at h ⊢
    cases hkj : keys[j]? with
    | none => simp only [hkj] at h ⊢; exact ih h
    | some kj =>
      cases hbj : bs[j]? with
      | none => simp only [hkj, hbj] at h ⊢; exact ih h
      | some bj =>
        simp only [hkj, hbj] at h ⊢
        cases hs : keyStep kj.2 truthy op bj w with
        | error e' => simp only [hs] at h ⊢; exact h
        | ok r => simp only [hs] at h ⊢; exact ih h

theorem aggLoop_idx_error {c : Config K R A S P Q F} {ys : List (Yield F R)} {r : Option Int} {bs : List (KeyBuf A S Q)}
    {w : World K A (Md S P Q)} {e : Err} (h : aggLoop c ys r bs w = .error e) (hl : bs.length = c.keys.length) :
    idxRun c.keys c.truthy (loopOps c.keys ys) bs w = .error e := by
  induction ys generalizing r bs w with
  | nil => simp [aggLoop] at h
  | cons y ys ih =>
    simp only [aggLoop] at h
    simp only [loopOps, List.flatMap_cons]
    have hfe : (fun cfg : KeyCfg K R A S Q => aggIter (P := P) cfg c.truthy y.rows) =
        fun cfg => keyStep cfg c.truthy (.chunk y.rows) := rfl
    rw [hfe] at h
    cases hf : forKeys (fun f => decide (f = y.filt)) (fun cfg => keyStep cfg c.truthy (.chunk y.rows : KOp R P)) c.keys bs
        w with
    | error e' =>
      simp only [hf, Except.error.injEq] at h
      subst h
      have := forKeys_idx_error hf hl [] [] rfl
      simp only [List.nil_append, List.length_nil] at this
      exact idxRun_append_error this
    | ok x =>
      obtain ⟨bs1, w1⟩ := x
      simp only [hf] at h
      have := forKeys_idx hf hl [] [] rfl
      simp only [List.nil_append, List.length_nil] at this
      rw [idxRun_append this]
      exact ih h (by rw [idxRun_length this]; exact hl)

theorem agg_idx_error {c : Config K R A S P Q F} {a : Call R} {s : State A S P Q} {w : World K A (Md S P Q)} {e : Err}
    (h : agg c a s w = .error e) (hl : s.bufs.length = c.keys.length)
    (hit : (iterData c.ord s.restart c.pre s.pre c.filters a.trimStart a.discardLast a.seed).2.2 = none ∨
      (iterData c.ord s.restart c.pre s.pre c.filters a.trimStart a.discardLast a.seed).2.2 = some .seedPre) :
    idxRun c.keys c.truthy (callOps c a s.restart s.pre) s.bufs w = .error e := by
  simp only [agg] at h
  simp only [callOps]
  generalize iterData c.ord s.restart c.pre s.pre c.filters a.trimStart a.discardLast a.seed = it at h hit ⊢
  obtain ⟨ys, pb, exc⟩ := it
  simp only at h hit ⊢
  cases hlp : aggLoop c ys s.restart s.bufs w with
  | error e' =>
    simp only [hlp, Except.error.injEq] at h
    subst h
    exact idxRun_append_error (aggLoop_idx_error hlp hl)
  | ok x =>
    obtain ⟨r, bs, w1⟩ := x
    obtain ⟨h1, h2, h3⟩ := aggLoop_idx hlp hl
    simp only [hlp, hit, if_true] at h
    rw [idxRun_append h1]
    split at h
    · rename_i hfw
      rw [if_pos hfw]
      simp only [finalWrite] at h
      have hfe : (fun cfg : KeyCfg K R A S Q => postNWrite cfg c.truthy true (r.map fun i => (i, pb))) =
        fun cfg => keyStep cfg c.truthy (.final r pb : KOp R P) := rfl
      rw [hfe] at h
      cases hf : forKeys (fun _ => true) (fun cfg => keyStep cfg c.truthy (.final r pb : KOp R P)) c.keys bs w1 with
      | error e' =>
        simp only [hf, Except.error.injEq] at h
        subst h
        have := forKeys_idx_error hf h3 [] [] rfl
        simp only [List.nil_append, List.length_nil] at this
        rw [← h2]
        exact this
      | ok x => simp [hf] at h
    · simp at h

/-- What `agg` raises, when seeds are well-formed, is raised by a key, and would be if it were alone. -/
theorem aggs_error {c : Config K R A S P Q F} (hk : Apart c.keys) {as : List (Call R)} {s : State A S P Q}
    {w : World K A (Md S P Q)} {e : Err} (h : aggs c as s w = .error e) (hl : s.bufs.length = c.keys.length)
    (hit : IterOk c as s.restart s.pre) :
    ∃ (i : Nat) (k : F × KeyCfg K R A S Q) (b : KeyBuf A S Q), c.keys[i]? = some k ∧ s.bufs[i]? = some b ∧
      keyRun k.2 c.truthy (keyOpsAll c k.1 as s.restart s.pre) b w = .error e := by
  induction as generalizing s w with
  | nil => simp [aggs] at h
  | cons a as ih =>
    simp only [aggs] at h
    simp only [IterOk] at hit
    cases ha : agg c a s w with
    | error e' =>
      simp only [ha, Except.error.injEq] at h
      subst h
      obtain ⟨i, k, b, h1, h2, h3⟩ := idxRun_error hk (agg_idx_error ha hl (by
        generalize iterData c.ord s.restart c.pre s.pre c.filters a.trimStart a.discardLast a.seed = it at hit
        exact hit.1))
      refine ⟨i, k, b, h1, h2, ?_⟩
      rw [opsOf_callOps h1] at h3
      simp only [keyOpsAll]
      clear ha ih hit
      revert h3
      generalize keyOps c k.1 a s.restart s.pre = l1
      generalize (match iterData c.ord s.restart c.pre s.pre c.filters a.trimStart a.discardLast a.seed with
        | (ys, pb', _) => keyOpsAll c k.1 as (restartAfter s.restart ys) pb') = l2
      clear h2
      intro h3
      induction l1 generalizing b w with
      | nil => simp [keyRun] at h3
      | cons op l1 ih2 =>
        simp only [List.cons_append, keyRun] at h3 ⊢
        cases hs : keyStep k.2 c.truthy op b w with
        | error e' => simp only [hs] at h3 ⊢; exact h3
        | ok r => simp only [hs] at h3 ⊢; exact ih2 _ h3
    | ok x =>
      obtain ⟨s1, w1, ex⟩ := x
      simp only [ha] at h
      obtain ⟨g1, g2, ys, exc, g3, g4, -⟩ := agg_idx ha hl
      rw [g3] at hit
      simp only at hit
      obtain ⟨i, k, b1, h1, h2, h3⟩ := ih h g2 (by rw [g4]; exact hit.2)
      obtain ⟨p1, -, -, p4⟩ := idxRun_proj hk g1
      have hlt : i < s.bufs.length := by
        have := (List.getElem?_eq_some_iff.1 h2).1
        omega
      obtain ⟨b', wk, q1, q2, q3⟩ := p4 i k s.bufs[i] h1 (List.getElem?_eq_getElem hlt)
      rw [h2, Option.some.injEq] at q2
      subst q2
      refine ⟨i, k, s.bufs[i], h1, List.getElem?_eq_getElem hlt, ?_⟩
      rw [opsOf_callOps h1] at q1
      simp only [keyOpsAll, g3]
      rw [keyRun_append_ok q1, ← g4]
      exact keyRun_error_local (fun x hx => (q3 x hx).symm) h3

theorem chunksOf_keyOpsAll (c : Config K R A S P Q F) (f : F) (as : List (Call R)) (r : Option Int) (pb : P) :
    chunksOf (keyOpsAll c f as r pb) = frames c f as r pb := by
  induction as generalizing r pb with
  | nil => rfl
  | cons a as ih =>
    simp only [keyOpsAll, frames, keyOps]
    rw [chunksOf_append, chunksOf_append, ih]
    have h1 : ∀ ys : List (Yield F R), chunksOf (ys.map fun y => (KOp.chunk y.rows : KOp R P)) = ys.map Yield.rows := by
      intro ys
      induction ys with
      | nil => rfl
      | cons y ys ih => simp [chunksOf, ih]
    have h2 : ∀ (b : Bool) x y, chunksOf (if b = true then [(KOp.final x y : KOp R P)] else []) = [] := by
      intro b x y; cases b <;> rfl
    rw [h1, h2, List.append_nil]

end
/-! ### `cumsegagg` does not raise -/

section
open Oups.Agg Oups.Agg.Spec Oups.Segment Oups.Segment.Spec
variable {R A A' B S : Type}

theorem CallTotal.proj {S' : Type} {V : List R → Prop} {call : List R → S → Except AggErr (Option (Res A) × S)}
    {call' : List R → S' → Except AggErr (Option (Res A') × S')} {ok : List R → S → Prop} {Bad : List R → List R → Prop}
    (T : CallTotal V call ok Bad)
    (π : Option (Res A) × S → Option (Res A') × S') (ρ : S → S') (hc : ∀ p s, call' p (ρ s) = (call p s).map π) :
    CallTotal V call' (fun h s' => ∃ s, s' = ρ s ∧ ok h s) Bad := by
  rintro h p s' ⟨s, rfl, hs⟩ hp hv
  obtain ⟨h1, h2⟩ := T _ _ _ hs hp hv
  rw [hc]
  refine ⟨fun hb => ?_, fun hb => ?_⟩
  · rcases h1 hb with h | h <;> rw [h]
    · exact .inl rfl
    · exact .inr rfl
  · obtain ⟨r, hr⟩ := h2 hb
    rw [hr]
    exact ⟨_, rfl⟩

theorem callTotal_bins {upd : List R → A → Bool → A} (H : Hom upd) (a0 : A) (z : A → Bool) {fn : BinFn R B} {pos : R → Int}
    {c : Closed} {b0 : B} {spec : List R → List (Bin R)} {okb : List R → B → Prop} (L : Lawful fn pos c b0 spec okb)
    (ordered : Option (R → Int)) :
    CallTotal (BinsValid pos ordered spec) (inPlace (cumsegagg upd a0 z fn ordered none false))
      (AggOk upd a0 spec okb (fun _ _ => True)) (fun _ _ => False) := by
  intro h p s hok hp hv
  obtain ⟨r, b', h1, -⟩ := step_bins H a0 z L ordered hp hv.1 hv.2.1
      (strictLabels_ok (hv.2.2 _ (List.prefix_refl _))) hok
  simp only [inPlace, h1]
  exact ⟨False.elim, fun _ => ⟨_, rfl⟩⟩

theorem callTotal_snaps {upd : List R → A → Bool → A} (H : Hom upd) (a0 : A) (z : A → Bool) {fn : BinFn R B} {pos : R → Int}
    {c : Closed} {b0 : B} {spec : List R → List (Bin R)} {okb : List R → B → Prop} (L : Lawful fn pos c b0 spec okb)
    {sn : Snaps} {pts : List R → List (Int × Int)} {sok : List R → ScaleBuf → Prop} (SL : SnapLaw sn c pos pts sok)
    (nb : Bool) :
    CallTotal (SnapsValid pos (c == .right) nb spec pts) (inPlace (cumsegagg upd a0 z fn (some pos) (some sn) false))
      (AggOk upd a0 spec okb sok) (fun _ _ => False) := by
  intro h p s hok hp hv
  have hv1 := hv.2 _ (List.prefix_refl _)
  obtain ⟨r, b', news, h1, -⟩ := step_snaps H a0 z L SL hp hv.1 hv1.1 (hv.2 h ⟨p, rfl⟩).2.1 hv1.2.1 hok
  simp only [inPlace, h1]
  exact ⟨False.elim, fun _ => ⟨_, rfl⟩⟩

theorem anyZero_eq (z : A → Bool) (rows : List (Row A)) : anyZero z rows = true ↔ ZeroIn z rows := by
  unfold anyZero ZeroIn
  rw [List.any_eq_true]
  refine exists_congr fun x => and_congr Iff.rfl ?_
  cases x.2 <;> simp

theorem drop_last {α : Type} {X Y n : List α} (h : Y = X.dropLast ++ n) : Y.drop (X.length - 1) = n := by
  rw [h, ← List.length_dropLast, List.drop_left]

/-- With the check of zeros. -/
theorem CallTotal.check {upd : List R → A → Bool → A} {a0 : A} {z : A → Bool} {fn : BinFn R B}
    {ordered : Option (R → Int)} {sn : Option Snaps} {V : List R → Prop} {FB : List R → List (Row A)}
    {FS : Option (List R → List (Row A))} {ok : List R → Buf B A → Prop}
    (T : CallTotal V (inPlace (cumsegagg upd a0 z fn ordered sn false)) ok (fun _ _ => False))
    (L : CallLaw V (inPlace (cumsegagg upd a0 z fn ordered sn false)) FB FS ok) (e0 : Bool) :
    CallTotal V (inPlace (cumsegagg upd a0 z fn ordered sn e0)) ok (NewZero z e0 FB FS) := by
  intro h p s hok hp hv
  obtain ⟨⟨res, s'⟩, hr⟩ := (T _ _ _ hok hp hv).2 id
  obtain ⟨-, r, rfl, -, hb, hs⟩ := L.step hok hp hv hr
  rw [inPlace_check, hr]
  have hd := drop_last hb
  have hds : (∃ f, FS = some f ∧ ZeroIn z ((f (h ++ p)).drop ((f h).length - 1))) ↔
      anyZero z (r.snaps.getD []) = true := by
    cases FS with
    | none =>
      simp only at hs
      simp [hs, anyZero]
    | some f =>
      simp only at hs
      obtain ⟨sn, h1, -, h2⟩ := hs
      rw [h1, Option.getD_some, anyZero_eq, ← drop_last h2]
      constructor
      · rintro ⟨f', e, hz⟩
        cases e; exact hz
      · exact fun hz => ⟨f, rfl, hz⟩
  unfold NewZero
  rw [hd, hds, ← anyZero_eq]
  simp only [zeroCheck]
  cases e0 <;> cases anyZero z (r.snaps.getD []) <;> cases anyZero z r.bins <;> simp

variable {D V K Q : Type} [DecidableEq D] (O : D → Ops V) (get : R → Nat → V) {dtype : Nat → Option D}
  {agg : List (Nat × Nat × Option Fn)} {cfg : List (D × Group)} (hc : CfgOk dtype agg cfg)
variable (z : List (List V) → Bool)
variable {fn : BinFn R B} {pos : R → Int} {c : Closed} {b0 : B} {spec : List R → List (Bin R)}
variable {okb : List R → B → Prop} (L : Lawful fn pos c b0 spec okb)
variable {key : KeyCfg K R (List (List V)) S Q} {emb : Buf B (List (List V)) → S}

include hc L in
theorem keyTotal_bins {ordered : Option (R → Int)} {e0 : Bool}
    (hcall : Embeds emb (inPlace (frameCall O get cfg z fn ordered none e0)) key.call) :
    CallTotal (BinsValid pos ordered spec) key.call
      (fun h s => ∃ b, s = emb b ∧ FrameOk O get cfg spec okb (fun _ _ => True) h b)
      (NewZero z e0 (fun h => binRes (updCfg O get cfg) (chunkRes0 O cfg) (spec h)) none) := by
  have h1 := callTotal_bins (accHom O get hc) (acc0 O cfg) (fun _ => false) L ordered
  have h2 := h1.proj _ (Buf.proj Subtype.val) (fun p s => inPlace_val O get z (fun _ => false) ordered none p s)
  exact CallTotal.proj (CallTotal.check h2 (frameLaw_bins O get hc z L ordered false) e0) _ emb hcall

include hc L in
theorem keyTotal_snaps {sn : Snaps} {pts : List R → List (Int × Int)} {sok : List R → ScaleBuf → Prop}
    (SL : SnapLaw sn c pos pts sok)
    (hpts : ∀ h p, AscOn pos (h ++ p) → (pts h).map Prod.fst <+: (pts (h ++ p)).map Prod.fst)
    (hne : ∀ h, h ≠ [] → AscOn pos h → pts h ≠ []) (nb : Bool) {e0 : Bool}
    (hcall : Embeds emb (inPlace (frameCall O get cfg z fn (some pos) (some sn) e0)) key.call) :
    CallTotal (SnapsValid pos (c == .right) nb spec pts) key.call
      (fun h s => ∃ b, s = emb b ∧ FrameOk O get cfg spec okb sok h b)
      (NewZero z e0 (fun h => binRes (updCfg O get cfg) (chunkRes0 O cfg) (spec h))
        (some fun h => snapRes (updCfg O get cfg) (chunkRes0 O cfg) (c == .right) pos (spec h) (pts h))) := by
  have h1 := callTotal_snaps (accHom O get hc) (acc0 O cfg) (fun _ => false) L SL nb
  have h2 := h1.proj _ (Buf.proj Subtype.val) (fun p s => inPlace_val O get z (fun _ => false) (some pos) (some sn) p s)
  exact CallTotal.proj (CallTotal.check h2 (frameLaw_snaps O get hc z L SL hpts hne nb false) e0) _ emb hcall

end
end Oups.AggStream
