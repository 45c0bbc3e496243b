import Verif.Spec.AggLife
import Verif.Props.AggSettings
import Verif.Props.AggTotal
/-! C72: any number of sessions, some of them stopped. -/
set_option linter.unusedSimpArgs false
namespace Oups.AggStream
open Oups.Writer (Table Params RG Col DupOn dupCols readRows StrictOn)
open Oups.Agg Oups.Agg.Spec Oups.Segment Oups.Segment.Spec

section
variable {K R A S P Q F : Type} [DecidableEq K] [DecidableEq F]
variable {V : List R → Prop} {FB : List R → List (Row A)} {FS : Option (List R → List (Row A))} {ok : List R → S → Prop}
  {gB gS : Row A → Row A} {on : Col} {d : DupOn}

/-- What is known of a key between sessions. -/
def LifeInv (k : KeyCfg K R A S Q) (L : KeyCfg K R A S Q → Prop) (FB : List R → List (Row A)) (FS : Option (List R → List (Row A)))
    (ok : List R → S → Prop) (gB gS : Row A → Row A) (on : Col) (d : DupOn) (rows front : List R) (last : Option (Int × P))
    (sure : Bool) (w : World K A (Md S P Q)) : Prop :=
  (∃ (b : KeyBuf A S Q) (n : Int) (p : P), b.Rest ∧
    (sure = true → KInv k FB FS ok gB gS on d front rows rows b w ∧ ∀ cfg, L cfg → SameTarget k cfg → KLoose cfg FB FS rows w) ∧
    (sure = false → ∃ h0, KInv k FB FS ok gB gS on d rows h0 rows b w) ∧
    (w k.main).inStore = true ∧ (w k.main).md = some ⟨n, p, b.seg, b.post⟩ ∧ last = some (n, p) ∧
    (rows = [] → (w k.main).rgs = [] ∧ (w k.snapKey).rgs = [])) ∨
  (rows = [] ∧ last = none ∧ sure = false ∧ (w k.main).inStore = false ∧ (w k.main).rgs = [] ∧ (w k.snapKey).rgs = [])

theorem SameTarget.symm {k1 k2 : KeyCfg K R A S Q} (hs : SameTarget k1 k2) : SameTarget k2 k1 :=
  ⟨hs.main.symm, hs.snap.symm, hs.resType.symm, hs.table.symm⟩

theorem TrackOk.refree {p p' : Params} {F : List R → List (Row A)} {g : Row A → Row A} {T : Table (Row A)}
    {Tot h : List R} {base : List (Row A)} {buf : List (List (Row A))} {last : Option (List (Row A))}
    {rgs : List (RG (Row A))} (hf : Writer.Loose p' base.length rgs) (ht : TrackOk p F g T on d Tot base h buf last rgs) :
    TrackOk p' F g T on d Tot base h buf last rgs := by
  obtain ⟨hb, pre, h1, h2, h3, -⟩ := ht
  exact ⟨hb, pre, h1, h2, h3, Or.inl hf⟩

/-- The invariant does not depend on settings for which coalescing does not change results before. -/
theorem KInv.retarget {k1 k2 : KeyCfg K R A S Q} (hs : SameTarget k1 k2) {Tot h0 h : List R}
    {b : KeyBuf A S Q} {w : World K A (Md S P Q)} (hn : KLoose k2 FB FS h0 w) (hi : KInv k1 FB FS ok gB gS on d Tot h0 h b w) :
    KInv k2 FB FS ok gB gS on d Tot h0 h b w := by
  obtain ⟨h1, h2, h3, h4, h5, h6, h7⟩ := hi
  refine ⟨h1, h2, h3, ?_, fun hr => ?_, fun hr f hf => ?_, ?_⟩
  · rw [← hs.resType]; exact h4
  · rw [← hs.table, ← hs.main]
    exact (h5 (by rw [hs.resType]; exact hr)).refree (by rw [hs.main]; exact hn.1 hr)
  · rw [← hs.table, ← hs.snapKey]
    exact (h6 (by rw [hs.resType]; exact hr) f hf).refree (by rw [hs.snapKey]; exact hn.2 hr f hf)
  · rw [← hs.main]; exact h7

theorem KInv.world {cfg : KeyCfg K R A S Q} {Tot h0 h : List R} {b : KeyBuf A S Q} {w w' : World K A (Md S P Q)}
    (ha : Agree cfg w w') (hi : KInv cfg FB FS ok gB gS on d Tot h0 h b w) :
    KInv cfg FB FS ok gB gS on d Tot h0 h b w' := by
  have m1 := ha cfg.main (touches_main cfg)
  have m2 := ha cfg.snapKey (touches_snapKey cfg)
  exact ⟨hi.ok, hi.pre, hi.noRes, hi.hasRes, m1 ▸ hi.bins, m2 ▸ hi.snaps, m1 ▸ hi.wf⟩

/-- Without rows, nothing is written. -/
theorem keyRun_noRows {cfg : KeyCfg K R A S Q} {truthy : Int → Bool} {ops : List (KOp R P)} (hops : OpsOk ops)
    (hrows : opRows ops = []) {st st' : KeyBuf A S Q} {w w' : World K A (Md S P Q)} (hb : st.bin = none)
    (hm : (w cfg.main).rgs = []) (hs : (w cfg.snapKey).rgs = []) (h : keyRun cfg truthy ops st w = .ok (st', w')) :
    (w' cfg.main).rgs = [] ∧ (w' cfg.snapKey).rgs = [] := by
  induction ops generalizing st w with
  | nil =>
    simp only [keyRun, Except.ok.injEq, Prod.mk.injEq] at h
    rw [← h.2]; exact ⟨hm, hs⟩
  | cons op ops ih =>
    have hops' : OpsOk ops := fun c hc => hops c (by simp [hc])
    cases op with
    | chunk c =>
      simp only [opRows, List.append_eq_nil_iff] at hrows
      exact absurd hrows.1 (hops c (by simp))
    | final r pb =>
      simp only [keyRun] at h
      cases hst : keyStep cfg truthy (.final r pb) st w with
      | error e => simp [hst] at h
      | ok x =>
        obtain ⟨st1, w1⟩ := x
        simp only [hst] at h
        simp only [keyStep] at hst
        obtain ⟨q, main, snap, r1, r2, r3⟩ := postNWrite_ok hst
        have := results_none r1 hb
        simp only [Prod.mk.injEq] at this
        obtain ⟨rfl, rfl, rfl⟩ := this
        obtain ⟨g1, -, -, g4, g5⟩ := writeResults_none r2
        have hmain : (w1 cfg.main).rgs = [] := by
          cases hin : (w cfg.main).inStore with
          | true => rw [g4 hin]; exact hm
          | false => exact g5 hin hm
        refine ih hops' hrows (by rw [r3]; simp [hb]) hmain ?_ h
        by_cases hk : cfg.snapKey = cfg.main
        · rw [hk]; exact hmain
        · rw [g1 _ hk]; exact hs

theorem KLoose.world {cfg k : KeyCfg K R A S Q} {h : List R} {w w' : World K A (Md S P Q)} (hs : SameTarget cfg k)
    (ha : Agree k w w') (hl : KLoose cfg FB FS h w) : KLoose cfg FB FS h w' := by
  have m1 := ha k.main (touches_main k)
  have m2 := ha k.snapKey (touches_snapKey k)
  rw [← hs.main] at m1
  rw [← hs.snapKey] at m2
  exact ⟨m1 ▸ hl.1, m2 ▸ hl.2⟩

theorem SameTarget.trans {k1 k2 k3 : KeyCfg K R A S Q} (h : SameTarget k1 k2) (h' : SameTarget k2 k3) : SameTarget k1 k3 :=
  ⟨h.main.trans h'.main, h.snap.trans h'.snap, h.resType.trans h'.resType, h.table.trans h'.table⟩

/-- State of the key when a session starts; `Tot` goes beyond what was received before. -/
theorem LifeInv.start {k : KeyCfg K R A S Q} {J : KeyCfg K R A S Q → Prop} {c : Config K R A S P Q F} {i : Nat} {f : F}
    {cfg : KeyCfg K R A S Q} (hi : c.keys[i]? = some (f, cfg)) (hs : SameTarget k cfg) (L : KeyLaws cfg V FB FS ok gB gS on d)
    {s0 : S} {p0 : P} {q0 : Q} (h0 : ok [] s0) {s : State A S P Q} {w : World K A (Md S P Q)}
    (hin : initBuffers s0 p0 q0 c w = .ok s) {rows front Tot : List R} {last : Option (Int × P)} {sure : Bool} (hV : V Tot)
    (hlo : sure = true → front <+: Tot ∧ KLoose cfg FB FS rows w) (hf : rows <+: Tot)
    (h : LifeInv k J FB FS ok gB gS on d rows front last sure w) :
    ∃ b, s.bufs[i]? = some b ∧ b.Rest ∧ KInv cfg FB FS ok gB gS on d Tot rows rows b w ∧
      (rows = [] → (w cfg.main).rgs = [] ∧ (w cfg.snapKey).rgs = []) ∧
      ∀ n p, last = some (n, p) → (w cfg.main).md = some ⟨n, p, b.seg, b.post⟩ := by
  obtain ⟨hl, hbuf⟩ := initBuffers_key hin
  obtain ⟨b, hb, hb0, hb1⟩ := hbuf i _ hi
  simp only [← hs.main] at hb0 hb1
  rcases h with ⟨b1, n, p, hr1, hi1, hi2, hin1, hm, rfl, hno⟩ | ⟨rfl, rfl, rfl, hin0, hm, hsn⟩
  · obtain ⟨m, hm', rfl⟩ := hb1 hin1
    rw [hm, Option.some.injEq] at hm'
    subst hm'
    have : b1 = { seg := b1.seg, post := b1.post } := hr1
    refine ⟨_, hb, rfl, ?_, by rw [← hs.main, ← hs.snapKey]; exact hno, ?_⟩
    · cases hsu : sure with
      | true =>
        have hi1 := (hi1 hsu).1
        rw [this] at hi1
        exact (hi1.retarget hs (hlo hsu).2).advance L hV (hlo hsu).1 rfl
      | false =>
        obtain ⟨_, hi2⟩ := hi2 hsu
        exact (KInv.resettle hs hr1 hi2 (b' := { seg := b1.seg, post := b1.post }) rfl rfl).advance L hV hf rfl
    · intro n' p' he
      simp only [Option.some.injEq, Prod.mk.injEq] at he
      obtain ⟨rfl, rfl⟩ := he
      rw [← hs.main]; exact hm
  · rw [hb0 hin0] at hb
    refine ⟨_, hb, rfl, KInv.init L h0 (by rw [← hs.main]; exact hm) (by rw [← hs.snapKey]; exact hsn) _, ?_, by simp⟩
    exact fun _ => ⟨by rw [← hs.main]; exact hm, by rw [← hs.snapKey]; exact hsn⟩

/-- With `sure`, for the key of a session. -/
theorem LifeInv.loose {k : KeyCfg K R A S Q} {J : KeyCfg K R A S Q → Prop} {rows front : List R} {last : Option (Int × P)}
    {w : World K A (Md S P Q)} (h : LifeInv k J FB FS ok gB gS on d rows front last true w) {cfg : KeyCfg K R A S Q} (hJ : J cfg)
    (hs : SameTarget k cfg) : KLoose cfg FB FS rows w := by
  rcases h with ⟨b1, n, p, hr1, hi1, -⟩ | ⟨-, -, h, -⟩
  · exact (hi1 rfl).2 cfg hJ hs
  · cases h

theorem LifeInv.session {k : KeyCfg K R A S Q} {J : KeyCfg K R A S Q → Prop} (hkJ : J k) {c : Config K R A S P Q F}
    (hk : Apart c.keys) {i : Nat} {f : F}
    {cfg : KeyCfg K R A S Q} (hi : c.keys[i]? = some (f, cfg)) (hs : SameTarget k cfg) (hJ : J cfg)
    (L : KeyLaws cfg V FB FS ok gB gS on d) (Lk : KeyLaws k V FB FS ok gB gS on d) {s0 : S} {p0 : P} {q0 : Q}
    (h0 : ok [] s0) {s s' : State A S P Q} {w w' : World K A (Md S P Q)}
    (hin : initBuffers s0 p0 q0 c w = .ok s) {as : List (Call R)} {a : Call R} (ha : a.finalWrite = true)
    (hrun : aggs c (as ++ [a]) s w = .ok (s', w')) {n : Int} (hix : s'.restart = some n) (ht : c.truthy n = true)
    {rows front front' : List R} {last : Option (Int × P)} {sure sure' : Bool} (hV : V front') (hf : front <+: front')
    (hag : rows ++ received c f (as ++ [a]) s.restart s.pre <+: front') (hkeep : sure = true → sure' = true)
    (hsafe : sure' = true → sure = true ∨ ∀ cfg, J cfg → SameTarget k cfg → KeySafe cfg w')
    (h : LifeInv k J FB FS ok gB gS on d rows front last sure w) :
    LifeInv k J FB FS ok gB gS on d (rows ++ received c f (as ++ [a]) s.restart s.pre) front' (some (n, s'.pre)) sure' w' := by
  obtain ⟨Tot, hT, hT', hag', hVT⟩ : ∃ Tot, (sure = true → Tot = front') ∧
      (sure = false → Tot = rows ++ received c f (as ++ [a]) s.restart s.pre) ∧
      rows ++ received c f (as ++ [a]) s.restart s.pre <+: Tot ∧ V Tot := by
    cases sure with
    | true => exact ⟨_, fun _ => rfl, by simp, hag, hV⟩
    | false =>
      refine ⟨_, by simp, fun _ => rfl, List.prefix_refl _, ?_⟩
      obtain ⟨t, rfl⟩ := hag
      exact L.valid _ t hV
  have hlo : sure = true → ∀ cfg, J cfg → SameTarget k cfg → KLoose cfg FB FS rows w := by
    rintro rfl cfg h1 h2
    exact h.loose h1 h2
  obtain ⟨b, hb, hr, hinv, hno, -⟩ := h.start hi hs L h0 hin hVT (fun hsu => ⟨(hT hsu).symm ▸ hf, hlo hsu cfg hJ hs⟩)
    (List.IsPrefix.trans ⟨_, rfl⟩ hag')
  have hl := (initBuffers_key hin).1
  obtain ⟨b', w1, g1, g2, g3⟩ := aggs_key hk hrun hl hi hb
  simp only at g1
  have hrows := opRows_keyOpsAll c f (as ++ [a]) s.restart s.pre
  have hok := keyOpsAll_ok c f (as ++ [a]) s.restart s.pre
  have hno' : rows ++ received c f (as ++ [a]) s.restart s.pre = [] → (w' k.main).rgs = [] ∧ (w' k.snapKey).rgs = [] := by
    intro he
    obtain ⟨e1, e2⟩ := List.append_eq_nil_iff.1 he
    have := keyRun_noRows hok (by rw [hrows]; exact e2) (by rw [hr]) (hno e1).1 (hno e1).2 g1
    rw [g3 _ (touches_main cfg), g3 _ (touches_snapKey cfg)] at this
    rw [hs.main, hs.snapKey]
    exact this
  rw [← hrows] at hag' hT' hno' ⊢
  have hi2 := keyRun_inv L hVT hok hinv hag' g1
  have hlo' : sure = true → ∀ cfg', J cfg' → SameTarget k cfg' →
      KLoose cfg' FB FS (rows ++ opRows (keyOpsAll c f (as ++ [a]) s.restart s.pre)) w' := by
    intro hsu cfg' h1 h2
    have hst : SameTarget cfg' cfg := h2.symm.trans hs
    exact KLoose.world hst g3 (KLoose.forth hi2 hst
      (keyRun_loose L hVT hok hinv hag' g1 (hlo hsu cfg hJ hs) hst (hlo hsu cfg' h1 h2)))
  obtain ⟨ops, r', pb', hops⟩ := keyOpsAll_final c f as ha s.restart s.pre
  have hbn : b'.bin = none := by
    rw [hops] at g1 hok
    obtain ⟨st1, w2, g4, g5⟩ := keyRun_append g1
    have hag1 := hag'
    rw [hops, opRows_append] at hag1
    simp only [opRows, List.append_nil] at hag1
    have hi1 := keyRun_inv L hVT (fun ch hch => hok ch (List.mem_append_left _ hch)) hinv hag1 g4
    simp only [keyRun] at g5
    cases hst : keyStep cfg c.truthy (.final r' pb') st1 w2 with
    | error e => simp [hst] at g5
    | ok x =>
      simp only [hst, Except.ok.injEq] at g5
      rw [show x = (b', w1) from g5] at hst
      exact (final_inv L hVT hi1 hst).2.1
  have hrest := hi2.rest hbn
  have hi3 := hi2.world g3
  obtain ⟨s1, w3, e1, e2⟩ := aggs_append hrun
  simp only [aggs] at e2
  cases hx : agg c a s1 w3 with
  | error e => simp [hx] at e2
  | ok x =>
    obtain ⟨s3, w4, e⟩ := x
    simp only [hx, Except.ok.injEq, Prod.mk.injEq] at e2
    obtain ⟨rfl, rfl⟩ := e2
    have hl1 := aggs_length e1 hl
    have hlt : i < s1.bufs.length := by rw [hl1]; exact (List.getElem?_eq_some_iff.1 hi).1
    obtain ⟨_, _, _, b2, w5, -, -, f3, f4, f5⟩ := agg_final hk ha hx hl1 hi (List.getElem?_eq_getElem hlt)
    rw [g2, Option.some.injEq] at f4
    subst f4
    rw [hix] at f3
    obtain ⟨q1, q2⟩ := final_md L.distinct ht f3
    have hm := f5 _ (touches_main cfg)
    rw [hm] at q1 q2
    refine Or.inl ⟨b', n, s3.pre, hrest, fun hsu' => ?_, fun hsu' => ?_, by rw [hs.main]; exact q1, by rw [hs.main]; exact q2, rfl, hno'⟩
    · rw [← hrows] at hag
      have hsame : SameTarget k k := hs.trans hs.symm
      cases hsu : sure with
      | true =>
        obtain rfl := hT hsu
        exact ⟨((hi3.advance L hV (List.prefix_refl _) hrest).retarget hs.symm (hlo' hsu k hkJ hsame)), hlo' hsu⟩
      | false =>
        have hT' := hT' hsu
        subst hT'
        have hsafe := (hsafe hsu').resolve_left (by simp [hsu])
        refine ⟨((hi3.resettle hs.symm hrest hrest rfl).advance Lk hV hag hrest), fun cfg' h1 h2 => ?_⟩
        exact (hi3.resettle (hs.symm.trans h2) hrest hrest rfl).loose hrest (hsafe cfg' h1 h2)
    · cases hsu : sure with
      | true => rw [hkeep hsu] at hsu'; cases hsu'
      | false =>
        have hT' := hT' hsu
        subst hT'
        exact ⟨_, hi3.resettle hs.symm hrest hrest rfl⟩

theorem frames_flatten' (c : Config K R A S P Q F) (f : F) (as : List (Call R)) (r : Option Int) (pb : P) :
    (frames c f as r pb).flatten = received c f as r pb := by
  rw [← chunksOf_keyOpsAll, chunksOf_flatten, opRows_keyOpsAll]

theorem LifeInv.stop {k : KeyCfg K R A S Q} {J : KeyCfg K R A S Q → Prop} (hkJ : J k) {c : Config K R A S P Q F} {i : Nat} {f : F}
    {cfg : KeyCfg K R A S Q} (hi : c.keys[i]? = some (f, cfg)) (hs : SameTarget k cfg) (hJ : J cfg)
    (L : KeyLaws cfg V FB FS ok gB gS on d) {s0 : S} {p0 : P} {q0 : Q}
    (h0 : ok [] s0) {s : State A S P Q} {w w' : World K A (Md S P Q)}
    (hin : initBuffers s0 p0 q0 c w = .ok s) {as : List (Call R)} (hst : Stopped c as s w w')
    {rows front front' : List R} {last : Option (Int × P)} (hV : V front') (hf : front <+: front')
    (hag : rows ++ received c f as s.restart s.pre <+: front') (hne : (w k.main).rgs ≠ [])
    (h : LifeInv k J FB FS ok gB gS on d rows front last true w) : LifeInv k J FB FS ok gB gS on d rows front' last true w' := by
  have hlo := h.loose hJ hs
  obtain ⟨b, hb, hr, hinv, -, hmd⟩ := h.start hi hs L h0 hin hV (fun _ => ⟨hf, hlo⟩) (List.IsPrefix.trans ⟨_, rfl⟩ hag)
  have hch : ∀ (l : List (List R)), (∀ x ∈ l, x ≠ []) → OpsOk (l.map (KOp.chunk (P := P))) ∧ Chunks (l.map (KOp.chunk (P := P))) ∧
      opRows (l.map (KOp.chunk (P := P))) = l.flatten := by
    intro l hl
    refine ⟨fun x hx => ?_, fun x hx => ?_, ?_⟩
    · obtain ⟨y, hy, he⟩ := List.mem_map.1 hx
      simp only [KOp.chunk.injEq] at he
      exact he ▸ hl y hy
    · obtain ⟨y, hy, he⟩ := List.mem_map.1 hx
      exact ⟨y, he.symm⟩
    · clear hl
      induction l with
      | nil => rfl
      | cons x l ih => simp [opRows, ih]
  obtain ⟨c1, c2, c3⟩ := hch _ (frames_ne c f as s.restart s.pre)
  have hag' : rows ++ opRows ((frames c f as s.restart s.pre).map (KOp.chunk (P := P))) <+: front' := by
    rw [c3, frames_flatten']; exact hag
  have g1 := keyCrash_inv L hV c1 c2 hr hinv hlo hag' (hst i _ b hi hb)
  have g3 : ∀ cfg', J cfg' → SameTarget k cfg' → KLoose cfg' FB FS rows w' := fun cfg' h1 h2 =>
    keyCrash_loose L hV c1 c2 hinv hlo hag' (hst i _ b hi hb) (h2.symm.trans hs) (h.loose h1 h2)
  have g2 := keyCrash_kept L hV c1 c2 hinv hag' (hst i _ b hi hb)
  rcases h with ⟨b1, n, p, hr1, hi1, -, hin1, hm, rfl, hno⟩ | ⟨-, -, -, -, hm, -⟩
  · obtain ⟨-, k2, k3⟩ := g2 (by rw [← hs.main]; exact hne)
    refine Or.inl ⟨b, n, p, hr, fun _ => ⟨g1.retarget hs.symm (g3 k hkJ (hs.trans hs.symm)), g3⟩, by simp, ?_, ?_, rfl, fun he => absurd (hno he).1 hne⟩
    · rw [hs.main]; exact k3 (by rw [← hs.main]; exact hin1)
    · rw [hs.main, k2]; exact hmd n p rfl
  · exact absurd hm hne

theorem Life.inv {k : KeyCfg K R A S Q} {L : KeyCfg K R A S Q → Prop}
    (hL : ∀ cfg, L cfg → KeyLaws cfg V FB FS ok gB gS on d) (hk : L k) {s0 : S} {p0 : P} {q0 : Q}
    (h0 : ok [] s0) {w : World K A (Md S P Q)} {rows front : List R} {last : Option (Int × P)} {sure : Bool} (hV : V front)
    (h : Life s0 p0 q0 k L w rows front last sure) : LifeInv k L FB FS ok gB gS on d rows front last sure w := by
  have hp : ∀ {x y : List R}, x <+: y → V y → V x := by
    rintro x _ ⟨t, rfl⟩ hy
    exact (hL k hk).valid x t hy
  induction h with
  | new absent main snap =>
    refine Or.inr ⟨rfl, rfl, rfl, absent, main, ?_⟩
    simp only [KeyCfg.snapKey]
    split
    · next hb => exact snap hb
    · exact main
  | session before apart key same law start final calls index truthy goes again keeps safe ih =>
    exact (ih (hp goes hV)).session hk apart key same law (hL _ law) (hL _ hk) h0 start final calls index truthy hV
      goes again keeps safe
  | stop before has key same law start stopped goes again ih =>
    exact (ih (hp goes hV)).stop hk key same law (hL _ law) h0 start stopped hV goes again has

theorem Life.rows_front {k : KeyCfg K R A S Q} {L : KeyCfg K R A S Q → Prop} {s0 : S} {p0 : P} {q0 : Q}
    {w : World K A (Md S P Q)} {rows front : List R} {last : Option (Int × P)} {sure : Bool}
    (h : Life s0 p0 q0 k L w rows front last sure) : rows <+: front := by
  cases h with
  | new => exact List.prefix_refl _
  | session _ _ _ _ _ _ _ _ _ _ _ again => exact again
  | stop _ _ _ _ _ _ _ _ again => exact List.IsPrefix.trans ⟨_, rfl⟩ again

/-- **C72** Any number of sessions, with any settings, some of them stopped at any point: when the rows recorded are as many as
any session has received, what is stored are the results on these rows. -/
theorem C72_stored {k : KeyCfg K R A S Q} {L : KeyCfg K R A S Q → Prop}
    (hL : ∀ cfg, L cfg → KeyLaws cfg V FB FS ok gB gS on d) (hk : L k) {s0 : S} {p0 : P} {q0 : Q}
    (h0 : ok [] s0) {w : World K A (Md S P Q)} {rows : List R} {last : Option (Int × P)} {sure : Bool} (hV : V rows)
    (h : Life s0 p0 q0 k L w rows rows last sure) :
    (k.resType ≠ .snaps → readRows (w k.main).rgs = (FB rows).map gB) ∧
    (k.resType ≠ .bins → ∀ fs, FS = some fs → readRows (w k.snapKey).rgs = (fs rows).map gS) := by
  rcases h.inv hL hk h0 hV with ⟨b, n, p, hrest, hi, hi', -⟩ | ⟨rfl, -, -, -, h1, h2⟩
  · obtain ⟨_, hi⟩ : ∃ h0, KInv k FB FS ok gB gS on d rows h0 rows b w := by
      cases sure with
      | true => exact ⟨_, (hi rfl).1⟩
      | false => exact hi' rfl
    obtain ⟨-, -, -, -, h5, h6, -⟩ := hi
    rw [KeyBuf.Rest] at hrest
    rw [hrest] at h5 h6
    exact ⟨fun hr => (h5 hr).exact_none, fun hr f hf => (h6 hr f hf).exact_none⟩
  · refine ⟨fun hr => ?_, fun hr f hf => ?_⟩
    · rw [h1, ((hL _ hk).bins hr).nil]; rfl
    · obtain ⟨f', hf', law⟩ := (hL _ hk).snaps hr
      rw [hf, Option.some.injEq] at hf'
      subst hf'
      rw [h2, law.nil]; rfl

theorem frames_append (c : Config K R A S P Q F) (f : F) (as bs : List (Call R)) (r : Option Int) (pb : P) :
    frames c f (as ++ bs) r pb = frames c f as r pb ++ frames c f bs (iterAfter c as r pb).1 (iterAfter c as r pb).2 := by
  induction as generalizing r pb with
  | nil => rfl
  | cons a as ih => simp only [List.cons_append, frames, iterAfter, ih, List.append_assoc]

theorem keyOpsAll_frames (c : Config K R A S P Q F) (f : F) {as : List (Call R)} (ha : ∀ a ∈ as, a.finalWrite = false)
    (r : Option Int) (pb : P) : keyOpsAll c f as r pb = (frames c f as r pb).map KOp.chunk := by
  induction as generalizing r pb with
  | nil => rfl
  | cons a as ih =>
    simp only [keyOpsAll, keyOps, frames, ha a (by simp), Bool.false_eq_true, if_false, List.append_nil, List.map_append,
      List.map_map, ih fun a h => ha a (by simp [h])]
    rfl

/-- **C72** Calls without final write, then one in which the process stops. -/
theorem C72_stopped {c : Config K R A S P Q F} (hk : Apart c.keys) {as : List (Call R)} (ha : ∀ a ∈ as, a.finalWrite = false)
    {s s1 : State A S P Q} {w w1 wc : World K A (Md S P Q)} (hl : s.bufs.length = c.keys.length)
    (hrun : aggs c as s w = .ok (s1, w1)) {a : Call R} (hc : Crash c a s1 w1 wc) : Stopped c (as ++ [a]) s w wc := by
  intro i k b hi hb
  obtain ⟨b', w2, g1, g2, g3⟩ := aggs_key hk hrun hl hi hb
  rw [keyOpsAll_frames c k.1 ha] at g1
  obtain ⟨done, rest, st1, w3, h1, h2, h3⟩ := hc i k b' hi g2
  have same : ∀ {u1 u2 : World K A (Md S P Q)} {x y : Except Err (KeyBuf A S Q × World K A (Md S P Q))}
      {st : KeyBuf A S Q} {v : World K A (Md S P Q)}, Same k.2 u1 u2 x y → y = .ok (st, v) →
      ∃ v', x = .ok (st, v') ∧ Agree k.2 v' v := by
    intro u1 u2 x y st v h hy
    subst hy
    cases x with
    | error e => cases h
    | ok x => exact ⟨x.2, by rw [← h.1], h.2.1⟩
  obtain ⟨w4, e1, e2⟩ := same (keyRun_local k.2 c.truthy done b' g3) h2
  have hfr : (frames c k.1 (as ++ [a]) s.restart s.pre).map (KOp.chunk (P := P)) =
      (frames c k.1 as s.restart s.pre).map KOp.chunk ++ (done ++ rest) := by
    rw [frames_append, aggs_iterAfter hrun hl, List.map_append, ← h1]
    simp only [frames, List.append_nil, List.map_map]
    rfl
  refine ⟨(frames c k.1 as s.restart s.pre).map KOp.chunk ++ done, rest, st1, w4, by rw [hfr, List.append_assoc],
    by rw [keyRun_append_ok g1, e1], ?_⟩
  rcases h3 with h3 | ⟨op, rest', st2, w5, h4, h5, h6, h7⟩
  · exact Or.inl fun j hj => by rw [e2 j hj]; exact h3 j hj
  · obtain ⟨w6, e3, e4⟩ := same (keyStep_local k.2 c.truthy op st1 e2) h5
    exact Or.inr ⟨op, rest', st2, w6, h4, e3, by rw [e4 _ (touches_main _)]; exact h6,
      fun j hj hm => by rw [e2 j hj]; exact h7 j hj hm⟩

/-- **C72** Calls without final write, then the process stops between two calls. -/
theorem C72_stopped_after {c : Config K R A S P Q F} (hk : Apart c.keys) {as : List (Call R)}
    (ha : ∀ a ∈ as, a.finalWrite = false) {s s1 : State A S P Q} {w w1 : World K A (Md S P Q)}
    (hl : s.bufs.length = c.keys.length) (hrun : aggs c as s w = .ok (s1, w1)) : Stopped c as s w w1 := by
  intro i k b hi hb
  obtain ⟨b', w2, g1, g2, g3⟩ := aggs_key hk hrun hl hi hb
  rw [keyOpsAll_frames c k.1 ha] at g1
  exact ⟨_, [], b', w2, (List.append_nil _).symm, g1, Or.inl fun j hj => (g3 j hj).symm⟩

/-- A key of a stream: it has lived up to datasets `w`. -/
structure Lives (s0 : S) (p0 : P) (q0 : Q) (cfg : KeyCfg K R A S Q) (w : World K A (Md S P Q)) (V : List R → Prop)
    (FB : List R → List (Row A)) (FS : Option (List R → List (Row A))) (ok : List R → S → Prop) (gB gS : Row A → Row A)
    (on : Col) (d : DupOn) (rows front : List R) (last : Option (Int × P)) : Prop where
  laws : KeyLaws cfg V FB FS ok gB gS on d
  init : ok [] s0
  life : ∃ k L sure, SameTarget k cfg ∧ (∀ cfg, L cfg → KeyLaws cfg V FB FS ok gB gS on d) ∧ L k ∧
    Life s0 p0 q0 k L w rows front last sure
  valid : V front

/-- **C72** If the last final write of all keys is the same, a new stream starts from there. -/
theorem C72_reopens {c : Config K R A S P Q F} (hne : c.keys ≠ []) {s0 : S} {p0 : P} {q0 : Q} {w : World K A (Md S P Q)}
    {n : Int} {p : P}
    (h : ∀ k ∈ c.keys, ∃ V FB FS ok gB gS on d rows front, Lives s0 p0 q0 k.2 w V FB FS ok gB gS on d rows front (some (n, p))) :
    ∃ s, initBuffers s0 p0 q0 c w = .ok s ∧ s.restart = some n ∧ s.pre = p ∧ s.bufs.length = c.keys.length := by
  have hb : ∀ k ∈ c.keys, ∃ b : KeyBuf A S Q, b.Rest ∧ (w k.2.main).inStore = true ∧
      (w k.2.main).md = some ⟨n, p, b.seg, b.post⟩ := by
    intro k hk
    obtain ⟨V, FB, FS, ok, gB, gS, on, d, rows, front, hl⟩ := h k hk
    obtain ⟨k', L, _, hs, hL, hk', hlife⟩ := hl.life
    rcases hlife.inv hL hk' hl.init hl.valid with ⟨b, n', p', hr, -, -, hi, hm, he, -⟩ | ⟨-, h, -⟩
    · simp only [Option.some.injEq, Prod.mk.injEq] at he
      obtain ⟨rfl, rfl⟩ := he
      rw [hs.main] at hi hm
      exact ⟨b, hr, hi, hm⟩
    · cases h
  obtain ⟨bs, hbs⟩ : ∃ bs : List (KeyBuf A S Q), List.Forall₂ (fun k b => b.Rest ∧ (w k.2.main).inStore = true ∧
      (w k.2.main).md = some ⟨n, p, b.seg, b.post⟩) c.keys bs := by
    clear hne h
    generalize c.keys = l at hb
    induction l with
    | nil => exact ⟨[], .nil⟩
    | cons k l ih =>
      obtain ⟨b, h1⟩ := hb k (by simp)
      obtain ⟨bs, h2⟩ := ih fun k hk => hb k (by simp [hk])
      exact ⟨b :: bs, .cons h1 h2⟩
  have hlen := hbs.length_eq
  refine ⟨⟨some n, p, bs⟩, initBuffers_of_md hne rfl hlen.symm ?_, rfl, rfl, hlen.symm⟩
  intro i k b h1 h2
  obtain ⟨h1', rfl⟩ := List.getElem?_eq_some_iff.1 h1
  obtain ⟨h2', rfl⟩ := List.getElem?_eq_some_iff.1 h2
  exact hbs.get h1' h2'

/-- A key that has lived, for which each frame of the calls `as` adds results to those of `rows` and none gives a zero. -/
def KeyResumes (s0 : S) (p0 : P) (q0 : Q) (c : Config K R A S P Q F) (as : List (Call R)) (s : State A S P Q)
    (w : World K A (Md S P Q)) (f : F) (cfg : KeyCfg K R A S Q) : Prop :=
  ∃ z e0 V FB FS ok gB gS on d rows front last Tot, (KeyLaws cfg V FB FS ok gB gS on d ∧ ok [] s0 ∧
      ∃ k L sure, SameTarget k cfg ∧ (∀ cfg, L cfg → KeyLaws cfg V FB FS ok gB gS on d) ∧ L k ∧
        Life s0 p0 q0 k L w rows front last sure ∧ (sure = true → NoCoalescing cfg ∨ L cfg)) ∧
    CallTotal V cfg.call ok (NewZero z e0 FB FS) ∧ SizesOk cfg FB FS Tot rows ∧ V Tot ∧ front <+: Tot ∧
    rows ++ received c f as s.restart s.pre <+: Tot ∧
    (rows ≠ [] → FB rows ≠ [] ∧ ∀ fs, FS = some fs → fs rows ≠ []) ∧
    (cfg.resType ≠ .snaps → EachAdds FB ([rows].filter (· ≠ []) ++ frames c f as s.restart s.pre)) ∧
    (cfg.resType ≠ .bins → ∀ fs, FS = some fs → EachAdds fs ([rows].filter (· ≠ []) ++ frames c f as s.restart s.pre)) ∧
    ∀ pre p post, frames c f as s.restart s.pre = pre ++ p :: post → ¬ NewZero z e0 FB FS (rows ++ pre.flatten) p

/-- **C72** Calls of the new stream do not raise, if each of their frames adds results and no result is zero. -/
theorem C72_ends {c : Config K R A S P Q F} (hk : Apart c.keys) {s0 : S} {p0 : P} {q0 : Q} {w : World K A (Md S P Q)}
    {s : State A S P Q} (hin : initBuffers s0 p0 q0 c w = .ok s) {as : List (Call R)} (hit : IterOk c as s.restart s.pre)
    (hr : ∀ k ∈ c.keys, KeyResumes s0 p0 q0 c as s w k.1 k.2) : ∃ s' w', aggs c as s w = .ok (s', w') := by
  cases h : aggs c as s w with
  | ok r => exact ⟨r.1, r.2, rfl⟩
  | error e =>
    exfalso
    obtain ⟨i, ⟨f, cfg⟩, b, h1, h2, h3⟩ := aggs_error hk h (initBuffers_key hin).1 hit
    obtain ⟨z, e0, V, FB, FS, ok, gB, gS, on, d, rows, front, last, Tot, ⟨hlaws, hinit, k, L, sure, hs, hL, hk', hlife, hlo⟩, ht, hz,
      hV, hf, hp, hne, hB, hS, hZ⟩ := hr _ (List.mem_of_getElem? h1)
    have hVf : V front := by obtain ⟨t, rfl⟩ := hf; exact hlaws.valid _ t hV
    have hinv := hlife.inv hL hk' hinit hVf
    obtain ⟨b', g1, g2, g3, g4, -⟩ := hinv.start h1 hs hlaws hinit hin hV
      (fun h => ⟨hf, (hlo h).elim (·.loose) fun hc => by subst h; exact hinv.loose hc hs⟩) (hlife.rows_front.trans hf)
    rw [h2, Option.some.injEq] at g1
    subst g1
    have hbin : b.bin = none := by rw [g2]
    have hcs : ([rows].filter (· ≠ [])).flatten = rows := by
      by_cases h : rows = [] <;> simp [h]
    obtain ⟨r, g⟩ := keyRun_adds (truthy := c.truthy) hlaws ht hz hV (keyOpsAll_ok c f as s.restart s.pre)
      (cs := [rows].filter (· ≠ [])) (by rw [hcs]; exact g3) (by rw [hcs, opRows_keyOpsAll]; exact hp)
      ⟨fun h => ⟨hbin, g4 (by by_contra h'; simp [h'] at h)⟩, fun h => by
          rw [hcs]; exact (hne (by rintro rfl; simp at h)).1, fun h => by
          rw [hcs]; exact (hne (by rintro rfl; simp at h)).2, by simp [hbin], by simp [hbin]⟩
      (by rw [chunksOf_keyOpsAll]; exact hB) (by rw [chunksOf_keyOpsAll]; exact hS)
      (by rw [chunksOf_keyOpsAll, hcs]; exact hZ)
    simp only at h3
    rw [g] at h3
    cases h3

end
section
variable {K R B D V S P Q F : Type} [DecidableEq K] [DecidableEq F] [DecidableEq D]
variable (O : D → Ops V) (get : R → Nat → V) {dtype : Nat → Option D} {agg : List (Nat × Nat × Option Fn)}
  {gc : List (D × Group)} (z : List (List V) → Bool)
variable {gB gS : Row (List (List V)) → Row (List (List V))} {on : Col} {d : DupOn}

/-- What has to be the same in all sessions, for a key with bins and no snapshot: `bin_by`, aggregations, columns. -/
structure SameBins (gc : List (D × Group)) (fn : BinFn R B) (ordered : Option (R → Int)) (emb : Buf B (List (List V)) → S)
    (gB gS : Row (List (List V)) → Row (List (List V))) (on : Col) (d : DupOn) (cfg : KeyCfg K R (List (List V)) S Q) :
    Prop where
  call : ∃ e0, Embeds emb (inPlace (frameCall O get gc z fn ordered none e0)) cfg.call
  bins : cfg.resType = .bins
  post : PostRow cfg gB gS
  write : WriteOk cfg.table cfg.params on d
  label : ByLabel cfg.table on d gB

/-- Same, for a key with snapshots. -/
structure SameSnaps (gc : List (D × Group)) (fn : BinFn R B) (pos : R → Int) (sn : Snaps) (emb : Buf B (List (List V)) → S)
    (gB gS : Row (List (List V)) → Row (List (List V))) (on : Col) (d : DupOn) (t : ResType)
    (cfg : KeyCfg K R (List (List V)) S Q) : Prop where
  call : ∃ e0, Embeds emb (inPlace (frameCall O get gc z fn (some pos) (some sn) e0)) cfg.call
  type : cfg.resType = t
  pair : cfg.resType = .both → cfg.main ≠ cfg.snap
  post : PostRow cfg gB gS
  write : WriteOk cfg.table cfg.params on d
  writeSnap : cfg.resType = .both → WriteOk cfg.table cfg.snapParams on d
  label : cfg.resType = .both → ByLabel cfg.table on d gB
  labelSnap : ByLabel cfg.table on d gS

variable {k : KeyCfg K R (List (List V)) S Q} {p0 : P} {q0 : Q} {w : World K (List (List V)) (Md S P Q)}
  {rows front : List R} {last : Option (Int × P)} {sure : Bool} {L : KeyCfg K R (List (List V)) S Q → Prop}

/-- **C72** Key with a `TimeGrouper` for `bin_by`: after any number of sessions and stops, what is stored is what `cumsegagg`
returns on all rows at once. -/
theorem C72_time_bins (hagg : setupCumsegagg agg dtype = .ok gc) (g : Grouper) (hg : Fixed g) (pos : R → Int)
    (ordered : Option (R → Int)) {emb : Buf ScaleBuf (List (List V)) → S}
    (hJ : ∀ cfg, L cfg → SameBins O get z gc (grouperFn g pos) ordered emb gB gS on d cfg) (hk : L k) (hne : rows ≠ []) (hasc : AscOn pos rows)
    (ho : ∀ o, ordered = some o → AscOn o rows)
    (h : Life (emb (Buf.init {})) p0 q0 k L w rows rows last sure) :
    ∃ one, frameCall O get gc z (grouperFn g pos) ordered none false rows none = .ok (some one, none) ∧
      readRows (w k.main).rgs = one.bins.map gB := by
  have hc := cfgOk_of hagg
  have hLs := grouper_lawful g g.origin0 hg.anchored pos
  have hst := gridSpec_strict (g.closed == .right) g.labelRight g.origin0 g.freq pos rows hg.anchored.1
  obtain ⟨one, h1, h2, _⟩ := frame_once_bins O get hc z hLs ordered hne hasc ho (strictLabels_ok hst)
  have := C72_stored (fun cfg hcfg => let hcfg := hJ cfg hcfg; keyLaws_bins O get hc z hLs (ordered := ordered)
    hcfg.call.choose_spec hcfg.bins hcfg.post hcfg.write hcfg.label) hk ⟨_, rfl, frameOk_init O get trivial hLs⟩ (binsValid_of hLs hasc ho hst) h
  exact ⟨one, h1, by rw [this.1 (by simp [(hJ k hk).bins]), h2]⟩

/-- **C72** Key with `by_x_rows` for `bin_by`: same. -/
theorem C72_rows_bins (hagg : setupCumsegagg agg dtype = .ok gc) (n : Nat) (hn : 0 < n) (cl : Closed) (pos : R → Int)
    (ordered : Option (R → Int)) {emb : Buf (Option RowsBuf) (List (List V)) → S}
    (hJ : ∀ cfg, L cfg → SameBins O get z gc (rowsFn n cl pos) ordered emb gB gS on d cfg) (hk : L k) (hne : rows ≠ [])
    (hasc : rows.Pairwise fun x y => pos x < pos y) (ho : ∀ o, ordered = some o → AscOn o rows)
    (h : Life (emb (Buf.init none)) p0 q0 k L w rows rows last sure) :
    ∃ one, frameCall O get gc z (rowsFn n cl pos) ordered none false rows none = .ok (some one, none) ∧
      readRows (w k.main).rgs = one.bins.map gB := by
  have hc := cfgOk_of hagg
  have hLs := rows_lawful n hn cl pos pos
  have hasc' : AscOn pos rows := hasc.imp fun h => by omega
  have hst := xBins_strict (right := cl == .right) hn hasc
  obtain ⟨one, h1, h2, _⟩ := frame_once_bins O get hc z hLs ordered hne hasc' ho (strictLabels_ok hst)
  have := C72_stored (fun cfg hcfg => let hcfg := hJ cfg hcfg; keyLaws_bins O get hc z hLs (ordered := ordered)
    hcfg.call.choose_spec hcfg.bins hcfg.post hcfg.write hcfg.label) hk ⟨_, rfl, frameOk_init O get trivial hLs⟩
    (binsValid_of hLs hasc' ho hst) h
  exact ⟨one, h1, by rw [this.1 (by simp [(hJ k hk).bins]), h2]⟩

/-- **C72** Key with snapshots from a `TimeGrouper`, bins from another one: same, for snapshots, and for bins with a pair of
keys. -/
theorem C72_time_snaps (hagg : setupCumsegagg agg dtype = .ok gc) (g : Grouper) (hg : Fixed g) (gs : Grouper) (hgs : Fixed gs)
    (pos : R → Int) {emb : Buf ScaleBuf (List (List V)) → S} {t : ResType} (ht : t ≠ .bins)
    (hJ : ∀ cfg, L cfg → SameSnaps O get z gc (grouperFn g pos) pos (.grouper gs) emb gB gS on d t cfg) (hk : L k) (hne : rows ≠ [])
    (hasc : AscOn pos rows)
    (h : Life (emb (Buf.init {})) p0 q0 k L w rows rows last sure) :
    ∃ one sns, frameCall O get gc z (grouperFn g pos) (some pos) (some (.grouper gs)) false rows none = .ok (some one, none) ∧
      one.snaps = some sns ∧ (t = .snaps → readRows (w k.main).rgs = sns.map gS) ∧
      (t = .both → readRows (w k.main).rgs = one.bins.map gB ∧ readRows (w k.snap).rgs = sns.map gS) := by
  have hc := cfgOk_of hagg
  have hL := grouper_lawful g g.origin0 hg.anchored pos
  have hSL := grouper_snaps gs gs.origin0 hgs.anchored g.closed pos
  have hst : ∀ q, StrictLabels (gridSpec (g.closed == .right) g.labelRight g.origin0 g.freq pos q) := fun q =>
    gridSpec_strict _ _ _ _ _ _ hg.1
  obtain ⟨one, sns, g1, g2, g3, g4⟩ := frame_once_snaps O get hc z hL hSL hne hasc (strictLabels_ok (hst _))
    (gridSpec_sep _ _ _ _ _ _ hg.1)
  have hv : SnapsValid pos (g.closed == .right) (decide (t = .both))
      (gridSpec (g.closed == .right) g.labelRight g.origin0 g.freq pos)
      (gridPts (g.closed == .right) gs.labelRight gs.origin0 gs.freq pos) rows :=
    ⟨hasc, fun q _ => ⟨strictLabels_ok (hst q), gridSpec_sep _ _ _ _ _ _ hg.1, fun _ => hst q, by
      rw [gridPts_fst]; exact gridSpec_strict _ _ _ _ _ _ hgs.1⟩⟩
  have hkt := (hJ k hk).type
  have hkl := fun (cfg : KeyCfg K R (List (List V)) S Q)
      (hcfg : SameSnaps O get z gc (grouperFn g pos) pos (.grouper gs) emb gB gS on d t cfg) =>
    keyLaws_snaps O get hc z hL hSL (gridPts_prefix gs hgs g.closed pos)
      (gridPts_ne gs hgs g.closed pos) hcfg.call.choose_spec (by rw [hcfg.type]; exact ht) hcfg.pair hcfg.post hcfg.write
      hcfg.writeSnap hcfg.label hcfg.labelSnap
  have hkl' : ∀ cfg : KeyCfg K R (List (List V)) S Q, L cfg → KeyLaws cfg _ _ _ _ gB gS on d := fun cfg hcfg =>
    (hJ cfg hcfg).type ▸ hkl cfg (hJ cfg hcfg)
  have := C72_stored hkl' hk ⟨_, rfl, frameOk_init O get hSL.init hL⟩ hv h
  obtain ⟨h1, h2⟩ := this
  have h2 := h2 (by rw [hkt]; exact ht) _ rfl
  refine ⟨one, sns, g1, g3, fun hr => ?_, fun hr => ⟨?_, ?_⟩⟩
  · rw [show k.snapKey = k.main by simp [KeyCfg.snapKey, hkt, hr]] at h2
    rw [h2, g4]
  · rw [h1 (by rw [hkt, hr]; simp), g2]
  · rw [show k.snapKey = k.snap by simp [KeyCfg.snapKey, hkt, hr]] at h2
    rw [h2, g4]

/-- **C72** Key with snapshots from a `TimeGrouper`, bins from `by_x_rows`: same. Rows share a position only where no end of a
bin and no label depends on it. -/
theorem C72_rows_snaps (hagg : setupCumsegagg agg dtype = .ok gc) (n : Nat) (hn : 0 < n) (cl : Closed) (gs : Grouper)
    (hgs : Fixed gs) (pos : R → Int) {emb : Buf (Option RowsBuf) (List (List V)) → S} {t : ResType} (ht : t ≠ .bins)
    (hJ : ∀ cfg, L cfg → SameSnaps O get z gc (rowsFn n cl pos) pos (.grouper gs) emb gB gS on d t cfg) (hk : L k) (hne : rows ≠ [])
    (hasc : AscOn pos rows) (hties : cl = .right ∨ t = .both → rows.Pairwise fun x y => pos x < pos y)
    (h : Life (emb (Buf.init none)) p0 q0 k L w rows rows last sure) :
    ∃ one sns, frameCall O get gc z (rowsFn n cl pos) (some pos) (some (.grouper gs)) false rows none = .ok (some one, none) ∧
      one.snaps = some sns ∧ (t = .snaps → readRows (w k.main).rgs = sns.map gS) ∧
      (t = .both → readRows (w k.main).rgs = one.bins.map gB ∧ readRows (w k.snap).rgs = sns.map gS) := by
  have hc := cfgOk_of hagg
  have hL := rows_lawful n hn cl pos pos
  have hSL := grouper_snaps gs gs.origin0 hgs.anchored cl pos
  obtain ⟨one, sns, g1, g2, g3, g4⟩ := frame_once_snaps O get hc z hL hSL hne hasc (xBins_labels _ n hn pos _)
    (xBins_sep _ n hn pos _ hasc (fun hr => hties (Or.inl (by simpa using hr))))
  have hkt := (hJ k hk).type
  have hkl := fun (cfg : KeyCfg K R (List (List V)) S Q)
      (hcfg : SameSnaps O get z gc (rowsFn n cl pos) pos (.grouper gs) emb gB gS on d t cfg) =>
    keyLaws_snaps O get hc z hL hSL (gridPts_prefix gs hgs cl pos)
      (gridPts_ne gs hgs cl pos) hcfg.call.choose_spec (by rw [hcfg.type]; exact ht) hcfg.pair hcfg.post hcfg.write
      hcfg.writeSnap hcfg.label hcfg.labelSnap
  have hkl' : ∀ cfg : KeyCfg K R (List (List V)) S Q, L cfg → KeyLaws cfg _ _ _ _ gB gS on d := fun cfg hcfg =>
    (hJ cfg hcfg).type ▸ hkl cfg (hJ cfg hcfg)
  obtain ⟨h1, h2⟩ := C72_stored hkl' hk ⟨_, rfl, frameOk_init O get hSL.init hL⟩
    (snapsValid_rows hn hgs hasc (by simpa using hties)) h
  have h2 := h2 (by rw [hkt]; exact ht) _ rfl
  refine ⟨one, sns, g1, g3, fun hr => ?_, fun hr => ⟨?_, ?_⟩⟩
  · rw [show k.snapKey = k.main by simp [KeyCfg.snapKey, hkt, hr]] at h2
    rw [h2, g4]
  · rw [h1 (by rw [hkt, hr]; simp), g2]
  · rw [show k.snapKey = k.snap by simp [KeyCfg.snapKey, hkt, hr]] at h2
    rw [h2, g4]

theorem before_flatten (rows : List R) : ([rows].filter (· ≠ [])).flatten = rows := by
  by_cases h : rows = [] <;> simp [h]

variable {c : Config K R (List (List V)) S P Q F} {f : F} {cfg : KeyCfg K R (List (List V)) S Q}
  {s : State (List (List V)) S P Q} {as : List (Call R)}

/-- **C72** Key with a `TimeGrouper` for `bin_by`: each frame of the new stream ends in another bin than the rows before it,
and, with the check of zeros, no result is zero. Rows received may be as many as before the stop, or not. -/
theorem C72_time_resumes (hagg : setupCumsegagg agg dtype = .ok gc) (g : Grouper) (hg : Fixed g) (pos : R → Int)
    (ordered : Option (R → Int)) {emb : Buf ScaleBuf (List (List V)) → S} (hs : SameTarget k cfg)
    (hJ : ∀ cfg, L cfg → SameBins O get z gc (grouperFn g pos) ordered emb gB gS on d cfg) (hk : L k)
    (hcfg : SameBins O get z gc (grouperFn g pos) ordered emb gB gS on d cfg) (hnc : sure = true → NoCoalescing cfg ∨ L cfg)
    (hlife : Life (emb (Buf.init {})) p0 q0 k L w rows front last sure)
    {e0 : Bool} (hcall : Embeds emb (inPlace (frameCall O get gc z (grouperFn g pos) ordered none e0)) cfg.call)
    {all : List R}
    (hmax : Roomy cfg.params ((gridSpec (g.closed == .right) g.labelRight g.origin0 g.freq pos all).length - ((gridSpec (g.closed == .right) g.labelRight g.origin0 g.freq pos rows).length - 1)))
    (hf : front <+: all)
    (hr : rows ++ received c f as s.restart s.pre <+: all) (hasc : AscOn pos all) (ho : ∀ o, ordered = some o → AscOn o all)
    (hn : NewCell (g.closed == .right) g.origin0 g.freq pos ([rows].filter (· ≠ []) ++ frames c f as s.restart s.pre))
    (h0 : e0 = true → NoZero z (frameCall O get gc z (grouperFn g pos) ordered none false)
      ([rows].filter (· ≠ []) ++ frames c f as s.restart s.pre)) :
    KeyResumes (emb (Buf.init {})) p0 q0 c as s w f cfg := by
  have hc := cfgOk_of hagg
  have hL := grouper_lawful g g.origin0 hg.anchored pos
  have hst := fun q => gridSpec_strict (g.closed == .right) g.labelRight g.origin0 g.freq pos q hg.1
  have hl := fun (cfg : KeyCfg K R (List (List V)) S Q) (hcfg : SameBins O get z gc (grouperFn g pos) ordered emb gB gS on d cfg) =>
    keyLaws_bins O get hc z hL (ordered := ordered) (key := cfg) hcfg.call.choose_spec hcfg.bins hcfg.post hcfg.write hcfg.label
  have hv : ∀ q, q <+: all → BinsValid pos ordered (gridSpec (g.closed == .right) g.labelRight g.origin0 g.freq pos) q :=
    fun q hq => binsValid_of hL (List.Pairwise.sublist hq.sublist hasc)
      (fun o h => List.Pairwise.sublist hq.sublist (ho o h)) (hst q)
  have hfl : ([rows].filter (· ≠ []) ++ frames c f as s.restart s.pre).flatten = rows ++ received c f as s.restart s.pre := by
    rw [List.flatten_append, before_flatten, frames_flatten]
  refine ⟨z, e0, _, _, _, _, _, _, _, _, rows, front, last, all, ⟨hl cfg hcfg, ⟨_, rfl, frameOk_init O get trivial hL⟩,
    k, L, sure, hs, fun cfg hcfg => hl cfg (hJ cfg hcfg), hk, hlife, hnc⟩,
    keyTotal_bins O get hc z hL (ordered := ordered) hcall, ⟨fun _ => by simpa [binRes] using hmax, by simp [hcfg.bins]⟩, hv _ (List.prefix_refl _), hf, hr,
    fun hne => ⟨?_, by simp⟩, fun _ => ?_, by simp [hcfg.bins], ?_⟩
  · have hz := List.head?_eq_some_head hne
    have hz' := List.getLast?_eq_some_getLast hne
    intro h
    have := congrArg List.length h
    have hrows : AscOn pos rows := List.Pairwise.sublist ((List.prefix_append _ _).trans hr).sublist hasc
    have hle := cellOf_mono (right := g.closed == .right) (a := g.origin0) hg.1 (ascOn_le_last hrows hz' _ (List.mem_of_head? hz))
    simp only [binRes, gridSpec, hz, hz', gridBins, List.length_map, List.length_range, List.length_nil] at this
    omega
  · refine EachAdds.map_length (G := gridSpec (g.closed == .right) g.labelRight g.origin0 g.freq pos)
      (fun _ => by simp [binRes]) (eachAdds_grid hg.1 ?_ ?_ hn)
    · intro p hp
      rcases List.mem_append.1 hp with hp | hp
      · simpa using (List.mem_filter.1 hp).2
      · exact frames_ne _ _ _ _ _ p hp
    · rw [hfl]; exact List.Pairwise.sublist hr.sublist hasc
  · rintro pre p post hfr ⟨he, hz⟩
    have hq : rows ++ pre.flatten ++ p <+: all := by
      refine List.IsPrefix.trans ?_ hr
      rw [← frames_flatten, hfr]
      simp
    have hp : p ≠ [] := frames_ne c f as s.restart s.pre p (by rw [hfr]; simp)
    obtain ⟨one, g1, g2, g3⟩ := frame_once_bins O get hc z hL ordered (w := rows ++ pre.flatten ++ p) (by simp [hp])
      (List.Pairwise.sublist hq.sublist hasc) (fun o h => List.Pairwise.sublist hq.sublist (ho o h))
      (strictLabels_ok (hst _))
    have g4 := (h0 he ([rows].filter (· ≠ []) ++ pre ++ [p]) post (by rw [hfr]; simp) one (by
      rw [List.flatten_append, List.flatten_append, before_flatten]; simpa using g1)).1
    rcases hz with hz | ⟨_, h, _⟩
    · exact g4 (g2 ▸ hz.of_drop)
    · cases h

/-- **C72** Key with `by_x_rows` for `bin_by`: each frame of the new stream has as many rows as a bin, and, with the check of zeros, no result is zero. Rows received may be as many as before the stop, or not. -/
theorem C72_rows_resumes (hagg : setupCumsegagg agg dtype = .ok gc) (n : Nat) (hn : 0 < n) (cl : Closed) (pos : R → Int)
    (ordered : Option (R → Int)) {emb : Buf (Option RowsBuf) (List (List V)) → S} (hs : SameTarget k cfg)
    (hJ : ∀ cfg, L cfg → SameBins O get z gc (rowsFn n cl pos) ordered emb gB gS on d cfg) (hk : L k)
    (hcfg : SameBins O get z gc (rowsFn n cl pos) ordered emb gB gS on d cfg) (hnc : sure = true → NoCoalescing cfg ∨ L cfg)
    (hlife : Life (emb (Buf.init none)) p0 q0 k L w rows front last sure)
    {e0 : Bool} (hcall : Embeds emb (inPlace (frameCall O get gc z (rowsFn n cl pos) ordered none e0)) cfg.call)
    {all : List R}
    (hmax : Roomy cfg.params ((xBins (cl == .right) n pos all).length - ((xBins (cl == .right) n pos rows).length - 1)))
    (hf : front <+: all)
    (hr : rows ++ received c f as s.restart s.pre <+: all) (hasc : all.Pairwise fun x y => pos x < pos y) (ho : ∀ o, ordered = some o → AscOn o all)
    (hp : ∀ p ∈ frames c f as s.restart s.pre, n ≤ p.length)
    (h0 : e0 = true → NoZero z (frameCall O get gc z (rowsFn n cl pos) ordered none false)
      ([rows].filter (· ≠ []) ++ frames c f as s.restart s.pre)) :
    KeyResumes (emb (Buf.init none)) p0 q0 c as s w f cfg := by
  have hc := cfgOk_of hagg
  have hL := rows_lawful n hn cl pos pos
  have hasc' : AscOn pos all := hasc.imp fun h => by omega
  have hst := fun q (hq : q <+: all) => xBins_strict (right := cl == .right) hn (List.Pairwise.sublist hq.sublist hasc)
  have hl := fun (cfg : KeyCfg K R (List (List V)) S Q) (hcfg : SameBins O get z gc (rowsFn n cl pos) ordered emb gB gS on d cfg) =>
    keyLaws_bins O get hc z hL (ordered := ordered) (key := cfg) hcfg.call.choose_spec hcfg.bins hcfg.post hcfg.write hcfg.label
  have hv : ∀ q, q <+: all → BinsValid pos ordered (xBins (cl == .right) n pos) q :=
    fun q hq => binsValid_of hL (List.Pairwise.sublist hq.sublist hasc')
      (fun o h => List.Pairwise.sublist hq.sublist (ho o h)) (hst q hq)
  have hfl : ([rows].filter (· ≠ []) ++ frames c f as s.restart s.pre).flatten = rows ++ received c f as s.restart s.pre := by
    rw [List.flatten_append, before_flatten, frames_flatten]
  refine ⟨z, e0, _, _, _, _, _, _, _, _, rows, front, last, all, ⟨hl cfg hcfg, ⟨_, rfl, frameOk_init O get trivial hL⟩,
    k, L, sure, hs, fun cfg hcfg => hl cfg (hJ cfg hcfg), hk, hlife, hnc⟩,
    keyTotal_bins O get hc z hL (ordered := ordered) hcall, ⟨fun _ => by simpa [binRes] using hmax, by simp [hcfg.bins]⟩, hv _ (List.prefix_refl _), hf, hr,
    fun hne => ⟨?_, by simp⟩, fun _ => ?_, by simp [hcfg.bins], ?_⟩
  · intro h
    have := congrArg List.length h
    have hl := List.length_pos_iff.2 hne
    simp only [binRes, xBins, List.length_map, List.length_range, List.length_nil] at this
    rw [Nat.div_eq_zero_iff] at this
    omega
  · refine EachAdds.map_length (G := xBins (cl == .right) n pos) (fun _ => by simp [binRes]) (eachAdds_rows hn ?_)
    intro p h
    refine hp p ?_
    by_cases hr : rows = []
    · simp only [hr, ne_eq, not_true_eq_false, decide_false, List.filter_cons_of_neg, Bool.false_eq_true, not_false_eq_true,
        List.filter_nil, List.nil_append] at h
      exact List.mem_of_mem_tail h
    · simpa [hr] using h
  · rintro pre p post hfr ⟨he, hz⟩
    have hq : rows ++ pre.flatten ++ p <+: all := by
      refine List.IsPrefix.trans ?_ hr
      rw [← frames_flatten, hfr]
      simp
    have hp : p ≠ [] := frames_ne c f as s.restart s.pre p (by rw [hfr]; simp)
    obtain ⟨one, g1, g2, g3⟩ := frame_once_bins O get hc z hL ordered (w := rows ++ pre.flatten ++ p) (by simp [hp])
      (List.Pairwise.sublist hq.sublist hasc') (fun o h => List.Pairwise.sublist hq.sublist (ho o h))
      (strictLabels_ok (hst _ hq))
    have g4 := (h0 he ([rows].filter (· ≠ []) ++ pre ++ [p]) post (by rw [hfr]; simp) one (by
      rw [List.flatten_append, List.flatten_append, before_flatten]; simpa using g1)).1
    rcases hz with hz | ⟨_, h, _⟩
    · exact g4 (g2 ▸ hz.of_drop)
    · cases h

/-- Key with snapshots from a `TimeGrouper`, bins from any `bin_by` whose bins are those of `spec`. -/
theorem snaps_resumes (hc : CfgOk dtype agg gc) {fn : BinFn R B} {pos : R → Int} {cl : Closed} {b0 : B} {spec : List R → List (Bin R)}
    {okb : List R → B → Prop} (hL : Lawful fn pos cl b0 spec okb) (gs : Grouper) (hgs : Fixed gs)
    {emb : Buf B (List (List V)) → S} {t : ResType} (ht : t ≠ .bins) (hs : SameTarget k cfg)
    (hJ : ∀ cfg, L cfg → SameSnaps O get z gc fn pos (.grouper gs) emb gB gS on d t cfg) (hk : L k)
    (hcfg : SameSnaps O get z gc fn pos (.grouper gs) emb gB gS on d t cfg) (hnc : sure = true → NoCoalescing cfg ∨ L cfg)
    (hlife : Life (emb (Buf.init b0)) p0 q0 k L w rows front last sure)
    {e0 : Bool} (hcall : Embeds emb (inPlace (frameCall O get gc z fn (some pos) (some (.grouper gs)) e0)) cfg.call)
    {all : List R}
    (hmax : t = .both → Roomy cfg.params ((spec all).length - ((spec rows).length - 1)))
    (hmaxs : Roomy (if t = .both then cfg.snapParams else cfg.params)
      ((gridSpec (cl == .right) gs.labelRight gs.origin0 gs.freq pos all).length - ((gridSpec (cl == .right) gs.labelRight gs.origin0 gs.freq pos rows).length - 1)))
    (hf : front <+: all)
    (hr : rows ++ received c f as s.restart s.pre <+: all) (hasc : AscOn pos all)
    (hv : ∀ q, q <+: all → SnapsValid pos (cl == .right) (decide (t = .both)) spec
      (gridPts (cl == .right) gs.labelRight gs.origin0 gs.freq pos) q)
    (hB : t = .both → EachAdds spec ([rows].filter (· ≠ []) ++ frames c f as s.restart s.pre))
    (hns : NewCell (cl == .right) gs.origin0 gs.freq pos ([rows].filter (· ≠ []) ++ frames c f as s.restart s.pre))
    (h0 : e0 = true → NoZero z (frameCall O get gc z fn (some pos) (some (.grouper gs)) false)
      ([rows].filter (· ≠ []) ++ frames c f as s.restart s.pre)) :
    KeyResumes (emb (Buf.init b0)) p0 q0 c as s w f cfg := by
  have hSL := grouper_snaps gs gs.origin0 hgs.anchored cl pos
  have hkl := fun (cfg : KeyCfg K R (List (List V)) S Q)
      (hcfg : SameSnaps O get z gc fn pos (.grouper gs) emb gB gS on d t cfg) =>
    keyLaws_snaps O get hc z hL hSL (gridPts_prefix gs hgs cl pos)
      (gridPts_ne gs hgs cl pos) hcfg.call.choose_spec (by rw [hcfg.type]; exact ht) hcfg.pair hcfg.post hcfg.write
      hcfg.writeSnap hcfg.label hcfg.labelSnap
  have hkl' : ∀ cfg : KeyCfg K R (List (List V)) S Q, SameSnaps O get z gc fn pos (.grouper gs) emb gB gS on d t cfg →
      KeyLaws cfg _ _ _ _ gB gS on d := fun cfg hcfg => hcfg.type ▸ hkl cfg hcfg
  have hfl : ([rows].filter (· ≠ []) ++ frames c f as s.restart s.pre).flatten = rows ++ received c f as s.restart s.pre := by
    rw [List.flatten_append, before_flatten, frames_flatten]
  refine ⟨z, e0, _, _, _, _, _, _, _, _, rows, front, last, all, ⟨hkl' cfg hcfg,
    ⟨_, rfl, frameOk_init O get hSL.init hL⟩, k, L, sure, hs, fun cfg hcfg => hkl' cfg (hJ cfg hcfg), hk, hlife, hnc⟩,
    keyTotal_snaps O get hc z hL hSL (gridPts_prefix gs hgs cl pos) (gridPts_ne gs hgs cl pos) _ hcall,
    ⟨fun h => ?_, fun _ fs hfs => ?_⟩, hv _ (List.prefix_refl _), hf, hr,
    fun hne => ?_, fun h => ?_, fun _ fs hfs => ?_, ?_⟩
  · have hb : t = .both := by rw [hcfg.type] at h; cases t <;> simp_all
    simpa [binRes] using hmax hb
  · cases hfs
    simpa [KeyCfg.snapPars, hcfg.type, snapRes, gridPts] using hmaxs
  · have hrows : AscOn pos rows := List.Pairwise.sublist ((List.prefix_append _ _).trans hr).sublist hasc
    refine ⟨?_, fun fs hfs => ?_⟩
    · simpa [binRes] using hL.spec_ne hne hrows
    · cases hfs
      simpa [snapRes] using gridPts_ne gs hgs cl pos rows hne hrows
  · have hb : t = .both := by rw [hcfg.type] at h; cases t <;> simp_all
    exact EachAdds.map_length (G := spec) (fun _ => by simp [binRes]) (hB hb)
  · cases hfs
    refine EachAdds.map_length (G := gridSpec (cl == .right) gs.labelRight gs.origin0 gs.freq pos)
      (fun _ => by simp [snapRes, gridPts]) (eachAdds_grid hgs.1 ?_ ?_ hns)
    · intro p hp
      rcases List.mem_append.1 hp with hp | hp
      · simpa using (List.mem_filter.1 hp).2
      · exact frames_ne _ _ _ _ _ p hp
    · rw [hfl]; exact List.Pairwise.sublist hr.sublist hasc
  · rintro pre p post hfr ⟨he, hz⟩
    have hq : rows ++ pre.flatten ++ p <+: all := by
      refine List.IsPrefix.trans ?_ hr
      rw [← frames_flatten, hfr]
      simp
    have hp : p ≠ [] := frames_ne c f as s.restart s.pre p (by rw [hfr]; simp)
    obtain ⟨hl1, hl2, -, -⟩ := (hv _ hq).2 _ (List.prefix_refl _)
    obtain ⟨one, sns, g1, g2, g3, g4⟩ := frame_once_snaps O get hc z hL hSL (w := rows ++ pre.flatten ++ p) (by simp [hp])
      (List.Pairwise.sublist hq.sublist hasc) hl1 hl2
    have g5 := h0 he ([rows].filter (· ≠ []) ++ pre ++ [p]) post (by rw [hfr]; simp) one (by
      rw [List.flatten_append, List.flatten_append, before_flatten]; simpa using g1)
    rw [g2, g3, Option.getD_some, g4] at g5
    rcases hz with hz | ⟨_, h, hz⟩
    · exact g5.1 hz.of_drop
    · cases h
      exact g5.2 hz.of_drop

/-- **C72** Key with snapshots from a `TimeGrouper`, bins from another one: each frame of the new stream ends in another snapshot
than the rows before it, and in another bin if bins are stored also; with the check of zeros, no result is zero. -/
theorem C72_time_snaps_resume (hagg : setupCumsegagg agg dtype = .ok gc) (g : Grouper) (hg : Fixed g) (gs : Grouper)
    (hgs : Fixed gs) (pos : R → Int) {emb : Buf ScaleBuf (List (List V)) → S} {t : ResType} (ht : t ≠ .bins)
    (hs : SameTarget k cfg) (hJ : ∀ cfg, L cfg → SameSnaps O get z gc (grouperFn g pos) pos (.grouper gs) emb gB gS on d t cfg) (hk : L k)
    (hcfg : SameSnaps O get z gc (grouperFn g pos) pos (.grouper gs) emb gB gS on d t cfg) (hnc : sure = true → NoCoalescing cfg ∨ L cfg)
    (hlife : Life (emb (Buf.init {})) p0 q0 k L w rows front last sure)
    {e0 : Bool} (hcall : Embeds emb (inPlace (frameCall O get gc z (grouperFn g pos) (some pos) (some (.grouper gs)) e0)) cfg.call)
    {all : List R}
    (hmax : t = .both → Roomy cfg.params ((gridSpec (g.closed == .right) g.labelRight g.origin0 g.freq pos all).length - ((gridSpec (g.closed == .right) g.labelRight g.origin0 g.freq pos rows).length - 1)))
    (hmaxs : Roomy (if t = .both then cfg.snapParams else cfg.params)
      ((gridSpec (g.closed == .right) gs.labelRight gs.origin0 gs.freq pos all).length - ((gridSpec (g.closed == .right) gs.labelRight gs.origin0 gs.freq pos rows).length - 1)))
    (hf : front <+: all)
    (hr : rows ++ received c f as s.restart s.pre <+: all) (hasc : AscOn pos all)
    (hn : t = .both →
      NewCell (g.closed == .right) g.origin0 g.freq pos ([rows].filter (· ≠ []) ++ frames c f as s.restart s.pre))
    (hns : NewCell (g.closed == .right) gs.origin0 gs.freq pos ([rows].filter (· ≠ []) ++ frames c f as s.restart s.pre))
    (h0 : e0 = true → NoZero z (frameCall O get gc z (grouperFn g pos) (some pos) (some (.grouper gs)) false)
      ([rows].filter (· ≠ []) ++ frames c f as s.restart s.pre)) :
    KeyResumes (emb (Buf.init {})) p0 q0 c as s w f cfg := by
  have hst := fun q => gridSpec_strict (g.closed == .right) g.labelRight g.origin0 g.freq pos q hg.1
  refine snaps_resumes O get z (cfgOk_of hagg) (grouper_lawful g g.origin0 hg.anchored pos) gs hgs ht hs hJ hk hcfg hnc hlife hcall
    hmax hmaxs hf hr hasc ?_ (fun hb => eachAdds_grid hg.1 ?_ ?_ (hn hb)) hns h0
  · exact fun q hq => ⟨List.Pairwise.sublist hq.sublist hasc, fun q _ => ⟨strictLabels_ok (hst q), gridSpec_sep _ _ _ _ _ _ hg.1,
      fun _ => hst q, by rw [gridPts_fst]; exact gridSpec_strict _ _ _ _ _ _ hgs.1⟩⟩
  · intro p hp
    rcases List.mem_append.1 hp with hp | hp
    · simpa using (List.mem_filter.1 hp).2
    · exact frames_ne _ _ _ _ _ p hp
  · rw [List.flatten_append, before_flatten, frames_flatten]; exact List.Pairwise.sublist hr.sublist hasc

/-- **C72** Key with snapshots from a `TimeGrouper`, bins from `by_x_rows`: each frame of the new stream ends in another snapshot
than the rows before it, and has as many rows as a bin if bins are stored also; with the check of zeros, no result is zero. -/
theorem C72_rows_snaps_resume (hagg : setupCumsegagg agg dtype = .ok gc) (n : Nat) (hn : 0 < n) (cl : Closed) (gs : Grouper)
    (hgs : Fixed gs) (pos : R → Int) {emb : Buf (Option RowsBuf) (List (List V)) → S} {t : ResType} (ht : t ≠ .bins)
    (hs : SameTarget k cfg) (hJ : ∀ cfg, L cfg → SameSnaps O get z gc (rowsFn n cl pos) pos (.grouper gs) emb gB gS on d t cfg) (hk : L k)
    (hcfg : SameSnaps O get z gc (rowsFn n cl pos) pos (.grouper gs) emb gB gS on d t cfg) (hnc : sure = true → NoCoalescing cfg ∨ L cfg)
    (hlife : Life (emb (Buf.init none)) p0 q0 k L w rows front last sure)
    {e0 : Bool} (hcall : Embeds emb (inPlace (frameCall O get gc z (rowsFn n cl pos) (some pos) (some (.grouper gs)) e0)) cfg.call)
    {all : List R}
    (hmax : t = .both → Roomy cfg.params ((xBins (cl == .right) n pos all).length - ((xBins (cl == .right) n pos rows).length - 1)))
    (hmaxs : Roomy (if t = .both then cfg.snapParams else cfg.params)
      ((gridSpec (cl == .right) gs.labelRight gs.origin0 gs.freq pos all).length - ((gridSpec (cl == .right) gs.labelRight gs.origin0 gs.freq pos rows).length - 1)))
    (hf : front <+: all)
    (hr : rows ++ received c f as s.restart s.pre <+: all) (hasc : AscOn pos all)
    (hties : cl = .right ∨ t = .both → all.Pairwise fun x y => pos x < pos y)
    (hp : t = .both → ∀ p ∈ frames c f as s.restart s.pre, n ≤ p.length)
    (hns : NewCell (cl == .right) gs.origin0 gs.freq pos ([rows].filter (· ≠ []) ++ frames c f as s.restart s.pre))
    (h0 : e0 = true → NoZero z (frameCall O get gc z (rowsFn n cl pos) (some pos) (some (.grouper gs)) false)
      ([rows].filter (· ≠ []) ++ frames c f as s.restart s.pre)) :
    KeyResumes (emb (Buf.init none)) p0 q0 c as s w f cfg := by
  refine snaps_resumes O get z (cfgOk_of hagg) (rows_lawful n hn cl pos pos) gs hgs ht hs hJ hk hcfg hnc hlife hcall
    hmax hmaxs hf hr hasc ?_ (fun hb => eachAdds_rows hn ?_) hns h0
  · exact fun q hq => snapsValid_rows hn hgs (List.Pairwise.sublist hq.sublist hasc)
      (fun h => List.Pairwise.sublist hq.sublist (hties (by simpa using h)))
  · intro p h
    refine hp hb p ?_
    by_cases hr : rows = []
    · simp only [hr, ne_eq, not_true_eq_false, decide_false, List.filter_cons_of_neg, Bool.false_eq_true, not_false_eq_true,
        List.filter_nil, List.nil_append] at h
      exact List.mem_of_mem_tail h
    · simpa [hr] using h

end

/-! ### Examples -/

section

/-- Keys with bins from a `TimeGrouper` of 10, without `max_nirgs`. -/
def exL : KeyCfg Nat (Int × Int) (List (List Int)) ExBuf Unit → Prop := fun cfg =>
  SameBins (fun _ : Unit => intOps) ex_get exZ ex_cfg (grouperFn { freq := 10 } Prod.fst) none id id id 0 (.one 0) cfg ∧ NoCoalescing cfg

theorem exSameBins (m size : Nat) : SameBins (fun _ : Unit => intOps) ex_get exZ ex_cfg (grouperFn { freq := 10 } Prod.fst) none id id id
    0 (.one 0) (exKeyF 10 m size) where
  call := ⟨true, fun p b => by
    simp only [exKeyF, id]
    cases inPlace (frameCall (fun _ => intOps) ex_get ex_cfg exZ (grouperFn { freq := 10 } Prod.fst) none none true) p b <;> rfl⟩
  bins := rfl
  post := ⟨rfl, rfl⟩
  write := ⟨rfl, rfl, (by decide : 0 ∈ exT.cols), (by decide : Writer.DupKnown exT (some (.one 0)))⟩
  label := exKey_byLabel

/-- Keys of `exKeyF 10` only differ by memory limit and row group size. -/
theorem exSame (m size : Nat) : exL (exKeyF 10 m size) := ⟨exSameBins m size, rfl, fun _ => rfl⟩

def exAll : List (Int × Int) := (exSeed1 ++ exSeed2 ++ [[(52, 256)]]).flatten

-- a session, then a stop with results written up to bin 30, a stop of another stream, with other settings, before its first
-- write, and a session which receives the same rows in one chunk
example : ∃ w' : ExWorld ExBuf,
    Life ex0 () () (exKeyF 10 100 1) exL w' exAll exAll (some (52, ())) true ∧
    (w' 0).rgs.map RG.rows = [[(0, some [[1, 1]])], [(10, some [[6, 4]])], [(20, some [[24, 16]])],
      [(30, some [[96, 64]]), (40, some [[128, 128]]), (50, some [[256, 256]])]] ∧
    ∃ one, frameCall (fun _ : Unit => intOps) ex_get ex_cfg exZ (grouperFn { freq := 10 } Prod.fst) none none false
      exAll none = .ok (some one, none) ∧ readRows (w' 0).rgs = one.bins.map id := by
  obtain ⟨w', h1, h2⟩ : ∃ w' : ExWorld ExBuf,
      Life ex0 () () (exKeyF 10 100 1) exL w' exAll exAll (some (52, ())) true ∧
      (w' 0).rgs.map RG.rows = [[(0, some [[1, 1]])], [(10, some [[6, 4]])], [(20, some [[24, 16]])],
        [(30, some [[96, 64]]), (40, some [[128, 128]]), (50, some [[256, 256]])]] := by
    obtain ⟨s1, w1, s2, s2', w2, s3, s3', w3, s4, s4', w4, e1, e2, e3, e4, e5, e6, e7, e8, e9, e10, e11, e12, e13, e14, e15⟩ :
        ∃ (s1 : State (List (List Int)) ExBuf Unit Unit) (w1 : ExWorld ExBuf)
          (s2 s2' : State (List (List Int)) ExBuf Unit Unit) (w2 : ExWorld ExBuf)
          (s3 s3' : State (List (List Int)) ExBuf Unit Unit) (w3 : ExWorld ExBuf)
          (s4 s4' : State (List (List Int)) ExBuf Unit Unit) (w4 : ExWorld ExBuf),
        aggs (exConf [(0, exKeyF 10 100 1)]) ([] ++ [⟨exSeed1, false, false, true⟩]) (exState 1 ex0) exWorld = .ok (s1, w1) ∧
        s1.restart = some 25 ∧
        initBuffers ex0 () () (exConf [(0, exKeyF 10 0 2)]) w1 = .ok s2 ∧
        aggs (exConf [(0, exKeyF 10 0 2)]) [⟨exSeed2 ++ [[(52, 256)]], false, false, false⟩] s2 w1 = .ok (s2', w2) ∧
        received (exConf [(0, exKeyF 10 0 2)]) 0 [⟨exSeed2 ++ [[(52, 256)]], false, false, false⟩] s2.restart s2.pre =
          (exSeed2 ++ [[(52, 256)]]).flatten ∧
        initBuffers ex0 () () (exConf [(0, exKeyF 10 100 100)]) w2 = .ok s3 ∧
        aggs (exConf [(0, exKeyF 10 100 100)]) [⟨[[(26, 16)]], false, false, false⟩] s3 w2 = .ok (s3', w3) ∧
        received (exConf [(0, exKeyF 10 100 100)]) 0 [⟨[[(26, 16)]], false, false, false⟩] s3.restart s3.pre = [(26, 16)] ∧
        initBuffers ex0 () () (exConf [(0, exKeyF 10 100 3)]) w3 = .ok s4 ∧
        aggs (exConf [(0, exKeyF 10 100 3)]) ([] ++ [⟨[exSeed2.flatten ++ [(52, 256)]], false, false, true⟩]) s4 w3 =
          .ok (s4', w4) ∧
        s4'.restart = some 52 ∧
        received (exConf [(0, exKeyF 10 100 3)]) 0 ([] ++ [⟨[exSeed2.flatten ++ [(52, 256)]], false, false, true⟩]) s4.restart
          s4.pre = (exSeed2 ++ [[(52, 256)]]).flatten ∧
        (w4 0).rgs.map RG.rows = [[(0, some [[1, 1]])], [(10, some [[6, 4]])], [(20, some [[24, 16]])],
          [(30, some [[96, 64]]), (40, some [[128, 128]]), (50, some [[256, 256]])]] ∧
        (w1 0).rgs.length = 3 ∧ (w2 0).rgs.length = 4 :=
      ⟨_, _, _, _, _, _, _, _, _, _, _, rfl, rfl, rfl, rfl, rfl, rfl, rfl, rfl, rfl, rfl, rfl, rfl, rfl, rfl, rfl⟩
    have l1 := Life.session (c := exConf [(0, exKeyF 10 100 1)]) (i := 0) (f := 0) (cfg := exKeyF 10 100 1) (s := exState 1 ex0)
      (Life.new (s0 := ex0) (p0 := ()) (q0 := ()) (k := exKeyF 10 100 1) (L := exL) (w := (exWorld : ExWorld ExBuf)) rfl rfl (by simp [exKeyF, exKey]))
      (List.pairwise_singleton _ _) rfl ⟨rfl, rfl, rfl, rfl⟩ (exSame 100 1) rfl rfl e1 e2 rfl (front' := exSeed1.flatten)
      (List.nil_prefix) (List.prefix_refl _) (sure' := true) (by simp) (fun _ => Or.inr fun _ h _ => h.2.safe _)
    have l2 := Life.stop (c := exConf [(0, exKeyF 10 0 2)]) (i := 0) (f := 0) (cfg := exKeyF 10 0 2) l1
      (fun h => by rw [show (exKeyF 10 100 1).main = 0 from rfl] at h; rw [h] at e14; cases e14) rfl ⟨rfl, rfl, rfl, rfl⟩ (exSame 0 2) e3
      (C72_stopped_after (c := exConf [(0, exKeyF 10 0 2)]) (List.pairwise_singleton _ _) (by simp) (initBuffers_key e3).1 e4) (front' := exAll)
      (by decide) (by rw [e5]; decide)
    have l3 := Life.stop (c := exConf [(0, exKeyF 10 100 100)]) (i := 0) (f := 0) (cfg := exKeyF 10 100 100) l2
      (fun h => by rw [show (exKeyF 10 100 1).main = 0 from rfl] at h; rw [h] at e15; cases e15) rfl ⟨rfl, rfl, rfl, rfl⟩ (exSame 100 100) e6
      (C72_stopped_after (c := exConf [(0, exKeyF 10 100 100)]) (List.pairwise_singleton _ _) (by simp) (initBuffers_key e6).1 e7) (front' := exAll)
      (List.prefix_refl _) (by rw [e8]; decide)
    have l4 := Life.session (c := exConf [(0, exKeyF 10 100 3)]) (i := 0) (f := 0) (cfg := exKeyF 10 100 3) l3
      (List.pairwise_singleton _ _) rfl ⟨rfl, rfl, rfl, rfl⟩ (exSame 100 3) e9 rfl e10 e11 rfl (front' := exAll)
      (List.prefix_refl _) (by rw [e12]; decide) (sure' := true) (fun h => h) (fun _ => Or.inl rfl)
    rw [e12] at l4
    exact ⟨w4, l4, e13⟩
  exact ⟨w', h1, h2, C72_time_bins (emb := id) (fun _ => intOps) ex_get (dtype := fun _ => some ())
    (agg := [(0, 0, some .sum), (1, 0, some .last)]) (gc := ex_cfg) exZ rfl { freq := 10 } exFixed Prod.fst none
    (fun _ h => h.1) (exSame 100 1) (by decide) (by decide) (by simp) h1⟩

/-- A session, then a stop with results written up to bin 30. -/
theorem exStop : ∃ w : ExWorld ExBuf,
    Life ex0 () () (exKeyF 10 100 1) exL w exSeed1.flatten exAll (some (25, ())) true ∧
    (w 0).rgs.map RG.rows = [[(0, some [[1, 1]])], [(10, some [[6, 4]])], [(20, some [[24, 16]])], [(30, some [[96, 64]])]] := by
  obtain ⟨s1, w1, s2, s2', w2, e1, e2, e3, e4, e5, e6, e7⟩ :
      ∃ (s1 : State (List (List Int)) ExBuf Unit Unit) (w1 : ExWorld ExBuf)
        (s2 s2' : State (List (List Int)) ExBuf Unit Unit) (w2 : ExWorld ExBuf),
      aggs (exConf [(0, exKeyF 10 100 1)]) ([] ++ [⟨exSeed1, false, false, true⟩]) (exState 1 ex0) exWorld = .ok (s1, w1) ∧
      s1.restart = some 25 ∧
      initBuffers ex0 () () (exConf [(0, exKeyF 10 0 2)]) w1 = .ok s2 ∧
      aggs (exConf [(0, exKeyF 10 0 2)]) [⟨exSeed2 ++ [[(52, 256)]], false, false, false⟩] s2 w1 = .ok (s2', w2) ∧
      received (exConf [(0, exKeyF 10 0 2)]) 0 [⟨exSeed2 ++ [[(52, 256)]], false, false, false⟩] s2.restart s2.pre =
        (exSeed2 ++ [[(52, 256)]]).flatten ∧ (w1 0).rgs.length = 3 ∧
      (w2 0).rgs.map RG.rows = [[(0, some [[1, 1]])], [(10, some [[6, 4]])], [(20, some [[24, 16]])], [(30, some [[96, 64]])]] :=
    ⟨_, _, _, _, _, rfl, rfl, rfl, rfl, rfl, rfl, rfl⟩
  have l1 := Life.session (c := exConf [(0, exKeyF 10 100 1)]) (i := 0) (f := 0) (cfg := exKeyF 10 100 1) (s := exState 1 ex0)
    (Life.new (s0 := ex0) (p0 := ()) (q0 := ()) (k := exKeyF 10 100 1) (L := exL) (w := (exWorld : ExWorld ExBuf)) rfl rfl (by simp [exKeyF, exKey]))
    (List.pairwise_singleton _ _) rfl ⟨rfl, rfl, rfl, rfl⟩ (exSame 100 1) rfl rfl e1 e2 rfl (front' := exSeed1.flatten)
    (List.nil_prefix) (List.prefix_refl _) (sure' := true) (by simp) (fun _ => Or.inr fun _ h _ => h.2.safe _)
  exact ⟨w2, Life.stop (c := exConf [(0, exKeyF 10 0 2)]) (i := 0) (f := 0) (cfg := exKeyF 10 0 2) l1
    (fun h => by rw [show (exKeyF 10 100 1).main = 0 from rfl] at h; rw [h] at e6; cases e6) rfl ⟨rfl, rfl, rfl, rfl⟩ (exSame 0 2) e3
    (C72_stopped_after (c := exConf [(0, exKeyF 10 0 2)]) (List.pairwise_singleton _ _) (by simp) (initBuffers_key e3).1 e4) (front' := exAll)
    (by decide) (by rw [e5]; decide), e7⟩

-- after the stop, a stream with any memory limit and row group size can be created; calls with the rows again, and others, end
example (m size : Nat) (hsize : size ≠ 0) : ∃ w : ExWorld ExBuf,
    (w 0).rgs.map RG.rows = [[(0, some [[1, 1]])], [(10, some [[6, 4]])], [(20, some [[24, 16]])], [(30, some [[96, 64]])]] ∧
    ∃ s, initBuffers ex0 () () (exConf [(0, exKeyF 10 m size)]) w = .ok s ∧ s.restart = some 25 ∧
      ∃ s' w', aggs (exConf [(0, exKeyF 10 m size)])
        [⟨exSeed2, false, false, false⟩, ⟨[[(52, 256)], [(63, 512)]], false, false, true⟩] s w = .ok (s', w') := by
  obtain ⟨w, hl, hw⟩ := exStop
  have hagg : setupCumsegagg exAgg (fun _ => some ()) = .ok ex_cfg := rfl
  have hL := grouper_lawful { freq := 10 } 0 (exFixed.anchored) (Prod.fst : Int × Int → Int)
  have hst := fun q => gridSpec_strict false false 0 10 (Prod.fst : Int × Int → Int) q (by decide)
  have hkl := fun (cfg : KeyCfg Nat (Int × Int) (List (List Int)) ExBuf Unit) (hcfg : SameBins (fun _ : Unit => intOps) ex_get exZ
      ex_cfg (grouperFn { freq := 10 } Prod.fst) none id id id 0 (.one 0) cfg) =>
    keyLaws_bins (fun _ : Unit => intOps) ex_get (cfgOk_of hagg) exZ hL (ordered := none) (key := cfg) hcfg.call.choose_spec hcfg.bins
      hcfg.post hcfg.write hcfg.label
  obtain ⟨s, h1, h2, h3, h4⟩ := C72_reopens (c := exConf [(0, exKeyF 10 m size)]) (s0 := ex0) (p0 := ()) (q0 := ()) (w := w) (n := 25)
    (p := ()) (by simp [exConf]) (by
      intro k hk
      obtain rfl : k = (0, exKeyF 10 m size) := by simpa [exConf] using hk
      exact ⟨_, _, _, _, id, id, 0, .one 0, exSeed1.flatten, exAll, hkl _ (exSame m size).1,
        ⟨_, rfl, frameOk_init (fun _ : Unit => intOps) ex_get trivial hL⟩,
        ⟨exKeyF 10 100 1, _, _, ⟨rfl, rfl, rfl, rfl⟩, fun cfg hcfg => hkl cfg hcfg.1, exSame 100 1, hl⟩,
        binsValid_of hL (by decide) (by simp) (hst _)⟩)
  refine ⟨w, hw, s, h1, h2, ?_⟩
  refine C72_ends (c := exConf [(0, exKeyF 10 m size)]) (List.pairwise_singleton _ _) h1
    (C59_iter rfl (by simp [exConf]) (by simp [exSeed2, Ascending, exConf]) _ _) ?_
  intro k hk
  obtain rfl : k = (0, exKeyF 10 m size) := by simpa [exConf] using hk
  have hfr : frames (exConf [(0, exKeyF 10 m size)]) 0 [⟨exSeed2, false, false, false⟩, ⟨[[(52, 256)], [(63, 512)]], false, false, true⟩]
      s.restart s.pre = [[(26, 16), (38, 32)], [(39, 64), (41, 128)], [(52, 256)], [(63, 512)]] := by rw [h2]; rfl
  have hrec : received (exConf [(0, exKeyF 10 m size)]) 0 [⟨exSeed2, false, false, false⟩, ⟨[[(52, 256)], [(63, 512)]], false, false, true⟩]
      s.restart s.pre = [(26, 16), (38, 32), (39, 64), (41, 128), (52, 256), (63, 512)] := by rw [h2]; rfl
  refine C72_time_resumes (k := exKeyF 10 100 1) (emb := id) (e0 := true) (all := exAll ++ [(63, 512)]) (fun _ : Unit => intOps) ex_get
    (dtype := fun _ => some ()) (agg := exAgg) (gc := ex_cfg) exZ hagg { freq := 10 } exFixed Prod.fst none
    ⟨rfl, rfl, rfl, rfl⟩ (fun _ h => h.1) (exSame 100 1) (exSame m size).1 (fun _ => .inl (exSame m size).2) hl ?_
    ⟨by simpa [exKeyF] using hsize, .inl rfl⟩ ⟨_, rfl⟩ (by rw [hrec]; decide)
    (by decide) (by simp) ?_ ?_
  · intro p b
    simp only [exKeyF, id]
    cases inPlace (frameCall (fun _ => intOps) ex_get ex_cfg exZ (grouperFn { freq := 10 } Prod.fst) none none true) p b <;> rfl
  · rw [hfr]
    have h : ∀ k x y : Int, InCell false 0 10 k x ∧ ¬ InCell false 0 10 k y →
        ∃ k, InCell false 0 10 k x ∧ ¬ InCell false 0 10 k y := fun k _ _ h => ⟨k, h⟩
    exact .cons (p := [_, _, _]) (q := [_]) (by decide) (h 2 _ _ (by decide))
      (.cons (p := [_]) (q := [_]) (by decide) (h 3 _ _ (by decide))
        (.cons (p := [_]) (q := []) (by decide) (h 4 _ _ (by decide))
          (.cons (p := []) (q := []) (by decide) (h 5 _ _ (by decide)) .one)))
  · rw [hfr]
    exact fun _ => NoZero.of_all rfl

/-- Keys with bins from a `TimeGrouper` of 10, and snapshots, without `max_nirgs`. -/
def exBothL : KeyCfg Nat (Int × Int) (List (List Int)) ExBuf Unit → Prop := fun cfg =>
  SameSnaps (fun _ : Unit => intOps) ex_get exZ ex_cfg (grouperFn { freq := 10 } Prod.fst) Prod.fst
    (.grouper { freq := 5, labelRight := true }) id id id 0 (.one 0) .both cfg ∧ NoCoalescing cfg

/-- Same, with bins of two rows. -/
def exRowsL : KeyCfg Nat (Int × Int) (List (List Int)) (Buf (Option RowsBuf) (List (List Int))) Unit → Prop := fun cfg =>
  SameSnaps (fun _ : Unit => intOps) ex_get exZ ex_cfg (rowsFn 2 .right Prod.fst) Prod.fst
    (.grouper { freq := 5, labelRight := true }) id id id 0 (.one 0) .both cfg ∧ NoCoalescing cfg

theorem exBothF_same (m size : Nat) : SameSnaps (fun _ : Unit => intOps) ex_get exZ ex_cfg (grouperFn { freq := 10 } Prod.fst)
    Prod.fst (.grouper { freq := 5, labelRight := true }) id id id 0 (.one 0) .both (exBothF m size) :=
  let h := exBothF_kept m size
  ⟨h.call, h.type, h.pair, h.post, h.write, h.writeSnap, h.label, h.labelSnap⟩

theorem exRowsBoth_same (m size : Nat) : SameSnaps (fun _ : Unit => intOps) ex_get exZ ex_cfg (rowsFn 2 .right Prod.fst)
    Prod.fst (.grouper { freq := 5, labelRight := true }) id id id 0 (.one 0) .both (exRowsBoth m size) :=
  let h := exRowsBoth_kept m size
  ⟨h.call, h.type, h.pair, h.post, h.write, h.writeSnap, h.label, h.labelSnap⟩

theorem exBothF_in (m size : Nat) : exBothL (exBothF m size) := ⟨exBothF_same m size, rfl, fun _ => rfl⟩

theorem exRowsBoth_in (m size : Nat) : exRowsL (exRowsBoth m size) := ⟨exRowsBoth_same m size, rfl, fun _ => rfl⟩

def exHalf1 : List (List (Int × Int)) := [[(1, 1), (7, 2)], [(12, 4), (13, 8)]]
def exHalf2 : List (List (Int × Int)) := [[(16, 16), (22, 32)], [(27, 64), (33, 128)], [(41, 256), (46, 512)]]
def exWhole : List (Int × Int) := exHalf1.flatten ++ exHalf2.flatten

/-- A session, then a stop, then a session which receives the same rows in one chunk, each with other settings. -/
theorem exLives {S : Type} {s0 : S} {key : Nat → Nat → KeyCfg Nat (Int × Int) (List (List Int)) S Unit}
    {L : KeyCfg Nat (Int × Int) (List (List Int)) S Unit → Prop} (hL : ∀ m n, L (key m n)) (hN : ∀ cfg, L cfg → NoCoalescing cfg)
    (hT : ∀ m n, SameTarget (key 100 1) (key m n)) (h0 : (key 100 1).main = 0)
    {s1 s2 s2' s3 s3' : State (List (List Int)) S Unit Unit} {w1 w2 w3 : ExWorld S}
    (e1 : aggs (exConf [(0, key 100 1)]) ([] ++ [⟨exHalf1, false, false, true⟩]) (exState 1 s0) exWorld = .ok (s1, w1))
    (e2 : s1.restart = some 13) (e3 : initBuffers s0 () () (exConf [(0, key 0 2)]) w1 = .ok s2)
    (e4 : aggs (exConf [(0, key 0 2)]) [⟨exHalf2, false, false, false⟩] s2 w1 = .ok (s2', w2))
    (e5 : received (exConf [(0, key 0 2)]) 0 [⟨exHalf2, false, false, false⟩] s2.restart s2.pre = exHalf2.flatten)
    (e6 : (w1 0).rgs.isEmpty = false) (e7 : (w2 0).rgs.isEmpty = false) (e8 : initBuffers s0 () () (exConf [(0, key 100 3)]) w2 = .ok s3)
    (e9 : aggs (exConf [(0, key 100 3)]) ([] ++ [⟨[exHalf2.flatten], false, false, true⟩]) s3 w2 = .ok (s3', w3))
    (e10 : s3'.restart = some 46)
    (e11 : received (exConf [(0, key 100 3)]) 0 ([] ++ [⟨[exHalf2.flatten], false, false, true⟩]) s3.restart s3.pre =
      exHalf2.flatten) :
    Life s0 () () (key 100 1) L w2 exHalf1.flatten exWhole (some (13, ())) true ∧
    Life s0 () () (key 100 1) L w3 exWhole exWhole (some (46, ())) true := by
  have l1 := Life.session (c := exConf [(0, key 100 1)]) (i := 0) (f := 0) (cfg := key 100 1) (s := exState 1 s0)
    (Life.new (s0 := s0) (p0 := ()) (q0 := ()) (k := key 100 1) (L := L) (w := (exWorld : ExWorld S)) rfl rfl (fun _ => rfl))
    (List.pairwise_singleton _ _) rfl (hT 100 1) (hL 100 1) rfl rfl e1 e2 rfl (front' := exHalf1.flatten)
    (List.nil_prefix) (List.prefix_refl _) (sure' := true) (by simp) (fun _ => Or.inr fun _ h _ => (hN _ h).safe _)
  have l2 := Life.stop (c := exConf [(0, key 0 2)]) (i := 0) (f := 0) (cfg := key 0 2) l1
    (fun h => by rw [h0] at h; rw [h] at e6; cases e6) rfl (hT 0 2) (hL 0 2) e3
    (C72_stopped_after (c := exConf [(0, key 0 2)]) (List.pairwise_singleton _ _) (by simp) (initBuffers_key e3).1 e4)
    (front' := exWhole) (by decide) (by rw [e5]; exact List.prefix_refl _)
  have l3 := Life.session (c := exConf [(0, key 100 3)]) (i := 0) (f := 0) (cfg := key 100 3) l2
    (List.pairwise_singleton _ _) rfl (hT 100 3) (hL 100 3) e8 rfl e9 e10 rfl (front' := exWhole)
    (List.prefix_refl _) (by rw [e11]; exact List.prefix_refl _) (sure' := true) (fun h => h) (fun _ => Or.inl rfl)
  rw [e11] at l3
  exact ⟨l2, l3⟩

/-- Bins and snapshots. -/
theorem exBothLife : ∃ w w' : ExWorld (ExBuf),
    Life ex0 () () (exBothF 100 1) exBothL w exHalf1.flatten exWhole (some (13, ())) true ∧
    (w 0).rgs.map RG.rows = [[(0, some [[3, 2]])], [(10, some [[28, 16]])], [(20, some [[96, 64]])]] ∧
    (w 1).rgs.map RG.rows = [[(5, some [[1, 1]])], [(10, some [[3, 2]])], [(15, some [[12, 8]])], [(20, some [[28, 16]]), (25, some [[32, 32]])], [(30, some [[96, 64]])]] ∧
    (∀ m size, ∃ s, initBuffers ex0 () () (exConf [(0, exBothF m size)]) w = .ok s ∧ s.restart = some 13) ∧
    Life ex0 () () (exBothF 100 1) exBothL w' exWhole exWhole (some (46, ())) true ∧
    (w' 0).rgs.map RG.rows = [[(0, some [[3, 2]])], [(10, some [[28, 16]])], [(20, some [[96, 64]]), (30, some [[128, 128]]), (40, some [[768, 512]])]] ∧
    (w' 1).rgs.map RG.rows = [[(5, some [[1, 1]])], [(10, some [[3, 2]])], [(15, some [[12, 8]])], [(20, some [[28, 16]]), (25, some [[32, 32]])], [(30, some [[96, 64]]), (35, some [[128, 128]])], [(40, some [[128, 128]]), (45, some [[256, 256]]), (50, some [[768, 512]])]] := by
  obtain ⟨s1, w1, s2, s2', w2, s3, s3', w3, e1, e2, e3, e4, e5, e6, e7, e8, e9, e10, e11, e12, e13, e14, e15, e16⟩ :
      ∃ (s1 : State (List (List Int)) (ExBuf) Unit Unit) (w1 : ExWorld (ExBuf))
        (s2 s2' : State (List (List Int)) (ExBuf) Unit Unit) (w2 : ExWorld (ExBuf))
        (s3 s3' : State (List (List Int)) (ExBuf) Unit Unit) (w3 : ExWorld (ExBuf)),
      aggs (exConf [(0, exBothF 100 1)]) ([] ++ [⟨exHalf1, false, false, true⟩]) (exState 1 ex0) exWorld = .ok (s1, w1) ∧
      s1.restart = some 13 ∧
      initBuffers ex0 () () (exConf [(0, exBothF 0 2)]) w1 = .ok s2 ∧
      aggs (exConf [(0, exBothF 0 2)]) [⟨exHalf2, false, false, false⟩] s2 w1 = .ok (s2', w2) ∧
      received (exConf [(0, exBothF 0 2)]) 0 [⟨exHalf2, false, false, false⟩] s2.restart s2.pre = exHalf2.flatten ∧
      (w1 0).rgs.isEmpty = false ∧ (w2 0).rgs.isEmpty = false ∧
      initBuffers ex0 () () (exConf [(0, exBothF 100 3)]) w2 = .ok s3 ∧
      aggs (exConf [(0, exBothF 100 3)]) ([] ++ [⟨[exHalf2.flatten], false, false, true⟩]) s3 w2 = .ok (s3', w3) ∧
      s3'.restart = some 46 ∧
      received (exConf [(0, exBothF 100 3)]) 0 ([] ++ [⟨[exHalf2.flatten], false, false, true⟩]) s3.restart s3.pre =
        exHalf2.flatten ∧
      (w2 0).rgs.map RG.rows = [[(0, some [[3, 2]])], [(10, some [[28, 16]])], [(20, some [[96, 64]])]] ∧
      (w2 1).rgs.map RG.rows = [[(5, some [[1, 1]])], [(10, some [[3, 2]])], [(15, some [[12, 8]])], [(20, some [[28, 16]]), (25, some [[32, 32]])], [(30, some [[96, 64]])]] ∧
      (w3 0).rgs.map RG.rows = [[(0, some [[3, 2]])], [(10, some [[28, 16]])], [(20, some [[96, 64]]), (30, some [[128, 128]]), (40, some [[768, 512]])]] ∧
      (w3 1).rgs.map RG.rows = [[(5, some [[1, 1]])], [(10, some [[3, 2]])], [(15, some [[12, 8]])], [(20, some [[28, 16]]), (25, some [[32, 32]])], [(30, some [[96, 64]]), (35, some [[128, 128]])], [(40, some [[128, 128]]), (45, some [[256, 256]]), (50, some [[768, 512]])]] ∧
      ∀ m size, ∃ s, initBuffers ex0 () () (exConf [(0, exBothF m size)]) w2 = .ok s ∧ s.restart = some 13 :=
    ⟨_, _, _, _, _, _, _, _, rfl, rfl, rfl, rfl, rfl, rfl, rfl, rfl, rfl, rfl, rfl, rfl, rfl, rfl, rfl, fun _ _ => ⟨_, rfl, rfl⟩⟩
  obtain ⟨h1, h2⟩ := exLives (key := exBothF) (L := exBothL) exBothF_in (fun _ h => h.2) (fun _ _ => ⟨rfl, rfl, rfl, rfl⟩) rfl e1 e2 e3 e4 e5 e6 e7 e8 e9 e10 e11
  exact ⟨w2, w3, h1, e12, e13, e16, h2, e14, e15⟩

-- rows of the stored results are those of one call on all rows
example : ∃ w' : ExWorld (ExBuf), (w' 0).rgs.map RG.rows = [[(0, some [[3, 2]])], [(10, some [[28, 16]])], [(20, some [[96, 64]]), (30, some [[128, 128]]), (40, some [[768, 512]])]] ∧
    ∃ one sns, frameCall (fun _ : Unit => intOps) ex_get ex_cfg exZ (grouperFn { freq := 10 } Prod.fst) (some Prod.fst)
      (some (.grouper { freq := 5, labelRight := true })) false exWhole none = .ok (some one, none) ∧ one.snaps = some sns ∧
      readRows (w' 0).rgs = one.bins.map id ∧ readRows (w' 1).rgs = sns.map id := by
  obtain ⟨-, w', -, -, -, -, h, h1, -⟩ := exBothLife
  obtain ⟨one, sns, g1, g2, -, g3⟩ := C72_time_snaps (emb := id) (fun _ => intOps) ex_get (dtype := fun _ => some ()) (agg := exAgg)
    (gc := ex_cfg) exZ rfl { freq := 10 } exFixed { freq := 5, labelRight := true } (by
      exact ⟨by decide, .inr (.inr ⟨rfl, by decide⟩)⟩) Prod.fst (by decide) (fun _ h => h.1) (exBothF_in 100 1) (by decide) (by decide) h
  exact ⟨w', h1, one, sns, g1, g2, g3 rfl⟩

/-- Bins of two rows, right-closed, and snapshots. -/
theorem exRowsLife : ∃ w w' : ExWorld (Buf (Option RowsBuf) (List (List Int))),
    Life (Buf.init none) () () (exRowsBoth 100 1) exRowsL w exHalf1.flatten exWhole (some (13, ())) true ∧
    (w 0).rgs.map RG.rows = [[(1, some [[3, 2]])], [(12, some [[12, 8]])], [(16, some [[48, 32]])]] ∧
    (w 1).rgs.map RG.rows = [[(5, some [[1, 1]])], [(10, none)], [(15, none)], [(20, some [[16, 16]]), (25, none)], [(30, some [[64, 64]])]] ∧
    (∀ m size, ∃ s, initBuffers (Buf.init none) () () (exConf [(0, exRowsBoth m size)]) w = .ok s ∧ s.restart = some 13) ∧
    Life (Buf.init none) () () (exRowsBoth 100 1) exRowsL w' exWhole exWhole (some (46, ())) true ∧
    (w' 0).rgs.map RG.rows = [[(1, some [[3, 2]])], [(12, some [[12, 8]])], [(16, some [[48, 32]]), (27, some [[192, 128]]), (41, some [[768, 512]])]] ∧
    (w' 1).rgs.map RG.rows = [[(5, some [[1, 1]])], [(10, none)], [(15, none)], [(20, some [[16, 16]]), (25, none)], [(30, some [[64, 64]]), (35, none)], [(40, none), (45, some [[256, 256]]), (50, none)]] := by
  obtain ⟨s1, w1, s2, s2', w2, s3, s3', w3, e1, e2, e3, e4, e5, e6, e7, e8, e9, e10, e11, e12, e13, e14, e15, e16⟩ :
      ∃ (s1 : State (List (List Int)) (Buf (Option RowsBuf) (List (List Int))) Unit Unit) (w1 : ExWorld (Buf (Option RowsBuf) (List (List Int))))
        (s2 s2' : State (List (List Int)) (Buf (Option RowsBuf) (List (List Int))) Unit Unit) (w2 : ExWorld (Buf (Option RowsBuf) (List (List Int))))
        (s3 s3' : State (List (List Int)) (Buf (Option RowsBuf) (List (List Int))) Unit Unit) (w3 : ExWorld (Buf (Option RowsBuf) (List (List Int)))),
      aggs (exConf [(0, exRowsBoth 100 1)]) ([] ++ [⟨exHalf1, false, false, true⟩]) (exState 1 (Buf.init none)) exWorld = .ok (s1, w1) ∧
      s1.restart = some 13 ∧
      initBuffers (Buf.init none) () () (exConf [(0, exRowsBoth 0 2)]) w1 = .ok s2 ∧
      aggs (exConf [(0, exRowsBoth 0 2)]) [⟨exHalf2, false, false, false⟩] s2 w1 = .ok (s2', w2) ∧
      received (exConf [(0, exRowsBoth 0 2)]) 0 [⟨exHalf2, false, false, false⟩] s2.restart s2.pre = exHalf2.flatten ∧
      (w1 0).rgs.isEmpty = false ∧ (w2 0).rgs.isEmpty = false ∧
      initBuffers (Buf.init none) () () (exConf [(0, exRowsBoth 100 3)]) w2 = .ok s3 ∧
      aggs (exConf [(0, exRowsBoth 100 3)]) ([] ++ [⟨[exHalf2.flatten], false, false, true⟩]) s3 w2 = .ok (s3', w3) ∧
      s3'.restart = some 46 ∧
      received (exConf [(0, exRowsBoth 100 3)]) 0 ([] ++ [⟨[exHalf2.flatten], false, false, true⟩]) s3.restart s3.pre =
        exHalf2.flatten ∧
      (w2 0).rgs.map RG.rows = [[(1, some [[3, 2]])], [(12, some [[12, 8]])], [(16, some [[48, 32]])]] ∧
      (w2 1).rgs.map RG.rows = [[(5, some [[1, 1]])], [(10, none)], [(15, none)], [(20, some [[16, 16]]), (25, none)], [(30, some [[64, 64]])]] ∧
      (w3 0).rgs.map RG.rows = [[(1, some [[3, 2]])], [(12, some [[12, 8]])], [(16, some [[48, 32]]), (27, some [[192, 128]]), (41, some [[768, 512]])]] ∧
      (w3 1).rgs.map RG.rows = [[(5, some [[1, 1]])], [(10, none)], [(15, none)], [(20, some [[16, 16]]), (25, none)], [(30, some [[64, 64]]), (35, none)], [(40, none), (45, some [[256, 256]]), (50, none)]] ∧
      ∀ m size, ∃ s, initBuffers (Buf.init none) () () (exConf [(0, exRowsBoth m size)]) w2 = .ok s ∧ s.restart = some 13 :=
    ⟨_, _, _, _, _, _, _, _, rfl, rfl, rfl, rfl, rfl, rfl, rfl, rfl, rfl, rfl, rfl, rfl, rfl, rfl, rfl, fun _ _ => ⟨_, rfl, rfl⟩⟩
  obtain ⟨h1, h2⟩ := exLives (key := exRowsBoth) (L := exRowsL) exRowsBoth_in (fun _ h => h.2) (fun _ _ => ⟨rfl, rfl, rfl, rfl⟩) rfl e1 e2 e3 e4 e5 e6 e7 e8 e9 e10 e11
  exact ⟨w2, w3, h1, e12, e13, e16, h2, e14, e15⟩

-- rows of the stored results are those of one call on all rows
example : ∃ w' : ExWorld (Buf (Option RowsBuf) (List (List Int))), (w' 0).rgs.map RG.rows = [[(1, some [[3, 2]])], [(12, some [[12, 8]])], [(16, some [[48, 32]]), (27, some [[192, 128]]), (41, some [[768, 512]])]] ∧
    ∃ one sns, frameCall (fun _ : Unit => intOps) ex_get ex_cfg exZ (rowsFn 2 .right Prod.fst) (some Prod.fst)
      (some (.grouper { freq := 5, labelRight := true })) false exWhole none = .ok (some one, none) ∧ one.snaps = some sns ∧
      readRows (w' 0).rgs = one.bins.map id ∧ readRows (w' 1).rgs = sns.map id := by
  obtain ⟨-, w', -, -, -, -, h, h1, -⟩ := exRowsLife
  obtain ⟨one, sns, g1, g2, -, g3⟩ := C72_rows_snaps (emb := id) (fun _ => intOps) ex_get (dtype := fun _ => some ()) (agg := exAgg)
    (gc := ex_cfg) exZ rfl 2 (by decide) .right { freq := 5, labelRight := true } (by
      exact ⟨by decide, .inr (.inr ⟨rfl, by decide⟩)⟩) Prod.fst (by decide) (fun _ h => h.1) (exRowsBoth_in 100 1) (by decide) (by decide)
    (fun _ => by decide) h
  exact ⟨w', h1, one, sns, g1, g2, g3 rfl⟩

-- after the stop, calls of a stream with any memory limit and row group size end
example (m size : Nat) (hsize : size ≠ 0) : ∃ (w : ExWorld (ExBuf)) (s : State (List (List Int)) (ExBuf) Unit Unit),
    (w 0).rgs.map (·.rows.length) = [1, 1, 1] ∧ initBuffers ex0 () () (exConf [(0, exBothF m size)]) w = .ok s ∧
    s.restart = some 13 ∧ ∃ s' w', aggs (exConf [(0, exBothF m size)])
      [⟨exHalf2, false, false, false⟩, ⟨[[(52, 1024), (57, 2048)]], false, false, true⟩] s w = .ok (s', w') := by
  obtain ⟨w, -, hl, hw, -, hi, -⟩ := exBothLife
  obtain ⟨s, h1, h2⟩ := hi m size
  refine ⟨w, s, by simpa [Function.comp_def] using congrArg (List.map List.length) hw, h1, h2, ?_⟩
  refine C72_ends (c := exConf [(0, exBothF m size)]) (List.pairwise_singleton _ _) h1
    (C59_iter rfl (by simp [exConf]) (by simp [exHalf2, Ascending, exConf]) _ _) ?_
  intro k hk
  obtain rfl : k = (0, exBothF m size) := by simpa [exConf] using hk
  have hfr : frames (exConf [(0, exBothF m size)]) 0 [⟨exHalf2, false, false, false⟩, ⟨[[(52, 1024), (57, 2048)]], false, false, true⟩]
      s.restart s.pre = exHalf2 ++ [[(52, 1024), (57, 2048)]] := by rw [h2]; rfl
  have hrec : received (exConf [(0, exBothF m size)]) 0 [⟨exHalf2, false, false, false⟩,
      ⟨[[(52, 1024), (57, 2048)]], false, false, true⟩] s.restart s.pre = exHalf2.flatten ++ [(52, 1024), (57, 2048)] := by rw [h2]; rfl
  refine C72_time_snaps_resume (k := exBothF 100 1) (emb := id) (e0 := true) (all := exWhole ++ [(52, 1024), (57, 2048)]) (fun _ : Unit => intOps)
    ex_get (dtype := fun _ => some ()) (agg := exAgg) (gc := ex_cfg) exZ rfl { freq := 10 } exFixed { freq := 5, labelRight := true }
    ⟨by decide, .inr (.inr ⟨rfl, by decide⟩)⟩ Prod.fst
    (by decide) ⟨rfl, rfl, rfl, rfl⟩ (fun _ h => h.1) (exBothF_in 100 1) (exBothF_same m size) (fun _ => .inl ⟨rfl, fun _ => rfl⟩) hl ?_
    (fun _ => ⟨by simpa [exBothF, exRowsBoth, exRowsF] using hsize, .inl rfl⟩)
    ⟨by simpa [exBothF, exRowsBoth, exRowsF] using hsize, .inl rfl⟩ ⟨_, rfl⟩ (by rw [hrec]; decide) (by decide) ?_ ?_ ?_
  · intro p b
    simp only [exBothF, exBoth, exRowsBoth, id]
    cases inPlace (frameCall (fun _ => intOps) ex_get ex_cfg exZ (grouperFn { freq := 10 } Prod.fst) (some Prod.fst)
      (some (.grouper { freq := 5, labelRight := true })) true) p b <;> rfl
  · rw [hfr]
    have h : ∀ k x y : Int, InCell false 0 10 k x ∧ ¬ InCell false 0 10 k y →
        ∃ k, InCell false 0 10 k x ∧ ¬ InCell false 0 10 k y := fun k _ _ h => ⟨k, h⟩
    exact fun _ => .cons (p := [_, _, _]) (q := [_]) (by decide) (h 1 _ _ (by decide))
      (.cons (p := [_]) (q := [_]) (by decide) (h 2 _ _ (by decide))
        (.cons (p := [_]) (q := [_]) (by decide) (h 3 _ _ (by decide))
          (.cons (p := [_]) (q := [_]) (by decide) (h 4 _ _ (by decide)) .one)))
  · rw [hfr]
    have h : ∀ k x y : Int, InCell false 0 5 k x ∧ ¬ InCell false 0 5 k y →
        ∃ k, InCell false 0 5 k x ∧ ¬ InCell false 0 5 k y := fun k _ _ h => ⟨k, h⟩
    exact .cons (p := [_, _, _]) (q := [_]) (by decide) (h 2 _ _ (by decide))
      (.cons (p := [_]) (q := [_]) (by decide) (h 4 _ _ (by decide))
        (.cons (p := [_]) (q := [_]) (by decide) (h 6 _ _ (by decide))
          (.cons (p := [_]) (q := [_]) (by decide) (h 9 _ _ (by decide)) .one)))
  · rw [hfr]
    exact fun _ => NoZero.of_all rfl

-- after the stop, calls of a stream with any memory limit and row group size end
example (m size : Nat) (hsize : size ≠ 0) : ∃ (w : ExWorld (Buf (Option RowsBuf) (List (List Int)))) (s : State (List (List Int)) (Buf (Option RowsBuf) (List (List Int))) Unit Unit),
    (w 0).rgs.map (·.rows.length) = [1, 1, 1] ∧ initBuffers (Buf.init none) () () (exConf [(0, exRowsBoth m size)]) w = .ok s ∧
    s.restart = some 13 ∧ ∃ s' w', aggs (exConf [(0, exRowsBoth m size)])
      [⟨exHalf2, false, false, false⟩, ⟨[[(52, 1024), (57, 2048)]], false, false, true⟩] s w = .ok (s', w') := by
  obtain ⟨w, -, hl, hw, -, hi, -⟩ := exRowsLife
  obtain ⟨s, h1, h2⟩ := hi m size
  refine ⟨w, s, by simpa [Function.comp_def] using congrArg (List.map List.length) hw, h1, h2, ?_⟩
  refine C72_ends (c := exConf [(0, exRowsBoth m size)]) (List.pairwise_singleton _ _) h1
    (C59_iter rfl (by simp [exConf]) (by simp [exHalf2, Ascending, exConf]) _ _) ?_
  intro k hk
  obtain rfl : k = (0, exRowsBoth m size) := by simpa [exConf] using hk
  have hfr : frames (exConf [(0, exRowsBoth m size)]) 0 [⟨exHalf2, false, false, false⟩, ⟨[[(52, 1024), (57, 2048)]], false, false, true⟩]
      s.restart s.pre = exHalf2 ++ [[(52, 1024), (57, 2048)]] := by rw [h2]; rfl
  have hrec : received (exConf [(0, exRowsBoth m size)]) 0 [⟨exHalf2, false, false, false⟩,
      ⟨[[(52, 1024), (57, 2048)]], false, false, true⟩] s.restart s.pre = exHalf2.flatten ++ [(52, 1024), (57, 2048)] := by rw [h2]; rfl
  refine C72_rows_snaps_resume (k := exRowsBoth 100 1) (emb := id) (e0 := true) (all := exWhole ++ [(52, 1024), (57, 2048)]) (fun _ : Unit => intOps)
    ex_get (dtype := fun _ => some ()) (agg := exAgg) (gc := ex_cfg) exZ rfl 2 (by decide) .right
    { freq := 5, labelRight := true } ⟨by decide, .inr (.inr ⟨rfl, by decide⟩)⟩ Prod.fst
    (by decide) ⟨rfl, rfl, rfl, rfl⟩ (fun _ h => h.1) (exRowsBoth_in 100 1) (exRowsBoth_same m size) (fun _ => .inl ⟨rfl, fun _ => rfl⟩) hl ?_
    (fun _ => ⟨by simpa [exBothF, exRowsBoth, exRowsF] using hsize, .inl rfl⟩)
    ⟨by simpa [exBothF, exRowsBoth, exRowsF] using hsize, .inl rfl⟩ ⟨_, rfl⟩ (by rw [hrec]; decide) (by decide) (fun _ => by decide) ?_ ?_ ?_
  · intro p b
    simp only [exBothF, exBoth, exRowsBoth, id]
    cases inPlace (frameCall (fun _ => intOps) ex_get ex_cfg exZ (rowsFn 2 .right Prod.fst) (some Prod.fst)
      (some (.grouper { freq := 5, labelRight := true })) true) p b <;> rfl
  · rw [hfr]
    exact fun _ => by decide
  · rw [hfr]
    have h : ∀ k x y : Int, InCell true 0 5 k x ∧ ¬ InCell true 0 5 k y →
        ∃ k, InCell true 0 5 k x ∧ ¬ InCell true 0 5 k y := fun k _ _ h => ⟨k, h⟩
    exact .cons (p := [_, _, _]) (q := [_]) (by decide) (h 2 _ _ (by decide))
      (.cons (p := [_]) (q := [_]) (by decide) (h 4 _ _ (by decide))
        (.cons (p := [_]) (q := [_]) (by decide) (h 6 _ _ (by decide))
          (.cons (p := [_]) (q := [_]) (by decide) (h 9 _ _ (by decide)) .one)))
  · rw [hfr]
    exact fun _ => NoZero.of_all rfl

/-- `exKeyF` with `max_nirgs`. -/
def exKeyN (maxSize size nirgs : Nat) : KeyCfg Nat (Int × Int) (List (List Int)) ExBuf Unit :=
  { exKeyF 10 maxSize size with
    params := { orderedOn := some (.col 0), dupOn := some (.one 0), maxRg := some size, maxNirgs := some nirgs } }

theorem exSameBinsN (m size j : Nat) : SameBins (fun _ : Unit => intOps) ex_get exZ ex_cfg (grouperFn { freq := 10 } Prod.fst) none id
    id id 0 (.one 0) (exKeyN m size j) :=
  have h := exSameBins m size
  ⟨h.call, rfl, h.post, ⟨rfl, rfl, h.write.col, h.write.dupCol⟩, h.label⟩

-- with `max_nirgs`: after the first session, the dataset begins with a row group of two rows and has another one, so that next
-- sessions, with row groups of two rows and any `max_nirgs`, may be stopped
example : ∃ w' : ExWorld ExBuf,
    Life ex0 () () (exKeyN 100 2 3) (fun cfg => ∃ m j, cfg = exKeyN m 2 j) w' exAll exAll (some (52, ())) true ∧
    (w' 0).rgs.map RG.rows = [[(0, some [[1, 1]]), (10, some [[6, 4]])], [(20, some [[24, 16]])], [(30, some [[96, 64]])],
      [(40, some [[128, 128]]), (50, some [[256, 256]])]] ∧
    ∃ one, frameCall (fun _ : Unit => intOps) ex_get ex_cfg exZ (grouperFn { freq := 10 } Prod.fst) none none false
      exAll none = .ok (some one, none) ∧ readRows (w' 0).rgs = one.bins.map id := by
  obtain ⟨w', h1, h2⟩ : ∃ w' : ExWorld ExBuf,
      Life ex0 () () (exKeyN 100 2 3) (fun cfg => ∃ m j, cfg = exKeyN m 2 j) w' exAll exAll (some (52, ())) true ∧
      (w' 0).rgs.map RG.rows = [[(0, some [[1, 1]]), (10, some [[6, 4]])], [(20, some [[24, 16]])], [(30, some [[96, 64]])],
        [(40, some [[128, 128]]), (50, some [[256, 256]])]] := by
    obtain ⟨s1, w1, s2, s2', w2, s4, s4', w4, e1, e2, e3, e4, e5, e9, e10, e11, e12, e13, e14, g, g', e15⟩ :
        ∃ (s1 : State (List (List Int)) ExBuf Unit Unit) (w1 : ExWorld ExBuf)
          (s2 s2' : State (List (List Int)) ExBuf Unit Unit) (w2 : ExWorld ExBuf)
          (s4 s4' : State (List (List Int)) ExBuf Unit Unit) (w4 : ExWorld ExBuf),
        aggs (exConf [(0, exKeyN 100 2 3)]) ([] ++ [⟨exSeed1, false, false, true⟩]) (exState 1 ex0) exWorld = .ok (s1, w1) ∧
        s1.restart = some 25 ∧
        initBuffers ex0 () () (exConf [(0, exKeyN 0 2 0)]) w1 = .ok s2 ∧
        aggs (exConf [(0, exKeyN 0 2 0)]) [⟨exSeed2 ++ [[(52, 256)]], false, false, false⟩] s2 w1 = .ok (s2', w2) ∧
        received (exConf [(0, exKeyN 0 2 0)]) 0 [⟨exSeed2 ++ [[(52, 256)]], false, false, false⟩] s2.restart s2.pre =
          (exSeed2 ++ [[(52, 256)]]).flatten ∧
        initBuffers ex0 () () (exConf [(0, exKeyN 100 2 1)]) w2 = .ok s4 ∧
        aggs (exConf [(0, exKeyN 100 2 1)]) ([] ++ [⟨[exSeed2.flatten ++ [(52, 256)]], false, false, true⟩]) s4 w2 =
          .ok (s4', w4) ∧
        s4'.restart = some 52 ∧
        received (exConf [(0, exKeyN 100 2 1)]) 0 ([] ++ [⟨[exSeed2.flatten ++ [(52, 256)]], false, false, true⟩]) s4.restart
          s4.pre = (exSeed2 ++ [[(52, 256)]]).flatten ∧
        (w4 0).rgs.map RG.rows = [[(0, some [[1, 1]]), (10, some [[6, 4]])], [(20, some [[24, 16]])], [(30, some [[96, 64]])],
          [(40, some [[128, 128]]), (50, some [[256, 256]])]] ∧
        (w1 0).rgs.length = 2 ∧ ∃ g g', (w1 0).rgs = [g, g'] ∧ g.rows.length = 2 :=
      ⟨_, _, _, _, _, _, _, _, rfl, rfl, rfl, rfl, rfl, rfl, rfl, rfl, rfl, rfl, rfl, _, _, rfl, rfl⟩
    have l1 := Life.session (c := exConf [(0, exKeyN 100 2 3)]) (i := 0) (f := 0) (cfg := exKeyN 100 2 3) (s := exState 1 ex0)
      (Life.new (s0 := ex0) (p0 := ()) (q0 := ()) (k := exKeyN 100 2 3) (L := fun cfg => ∃ m j, cfg = exKeyN m 2 j)
        (w := (exWorld : ExWorld ExBuf)) rfl rfl (by simp [exKeyN, exKeyF, exKey]))
      (List.pairwise_singleton _ _) rfl ⟨rfl, rfl, rfl, rfl⟩ ⟨_, _, rfl⟩ rfl rfl e1 e2 rfl (front' := exSeed1.flatten)
      (List.nil_prefix) (List.prefix_refl _) (sure' := true) (by simp) (by
        refine fun _ => Or.inr ?_
        rintro _ ⟨m, j, rfl⟩ -
        exact ⟨Or.inr ⟨2, g, g', [], rfl, e15.1, by rw [e15.2]; decide⟩, fun h => by cases h⟩)
    have l2 := Life.stop (c := exConf [(0, exKeyN 0 2 0)]) (i := 0) (f := 0) (cfg := exKeyN 0 2 0) l1
      (fun h => by rw [show (exKeyN 100 2 3).main = 0 from rfl] at h; rw [h] at e14; cases e14) rfl ⟨rfl, rfl, rfl, rfl⟩ ⟨_, _, rfl⟩ e3
      (C72_stopped_after (c := exConf [(0, exKeyN 0 2 0)]) (List.pairwise_singleton _ _) (by simp) (initBuffers_key e3).1 e4) (front' := exAll)
      (by decide) (by rw [e5]; decide)
    have l4 := Life.session (c := exConf [(0, exKeyN 100 2 1)]) (i := 0) (f := 0) (cfg := exKeyN 100 2 1) l2
      (List.pairwise_singleton _ _) rfl ⟨rfl, rfl, rfl, rfl⟩ ⟨_, _, rfl⟩ e9 rfl e10 e11 rfl (front' := exAll)
      (List.prefix_refl _) (by rw [e12]; decide) (sure' := true) (fun h => h) (fun _ => Or.inl rfl)
    rw [e12] at l4
    exact ⟨w4, l4, e13⟩
  refine ⟨w', h1, h2, C72_time_bins (emb := id) (gB := id) (gS := id) (on := 0) (d := .one 0) (fun _ => intOps) ex_get
    (dtype := fun _ => some ()) (agg := [(0, 0, some .sum), (1, 0, some .last)]) (gc := ex_cfg) exZ rfl { freq := 10 } exFixed
    Prod.fst none ?_ ⟨_, _, rfl⟩ (by decide) (by decide) (by simp) h1⟩
  rintro _ ⟨m, j, rfl⟩
  exact exSameBinsN m 2 j

-- a session, then a stream with any memory limit, row groups of more than five rows and any `max_nirgs` but 0: its calls end, as there
-- are five results to write
example (m size j : Nat) (hsize : 5 < size) (hj : 0 < j) : ∃ w : ExWorld ExBuf,
    (w 0).rgs.map RG.rows = [[(0, some [[1, 1]])], [(10, some [[6, 4]])], [(20, some [[8, 8]])]] ∧
    ∃ s, initBuffers ex0 () () (exConf [(0, exKeyN m size j)]) w = .ok s ∧
      ∃ s' w', aggs (exConf [(0, exKeyN m size j)])
        [⟨exSeed2, false, false, false⟩, ⟨[[(52, 256)], [(63, 512)]], false, false, true⟩] s w = .ok (s', w') := by
  obtain ⟨s1, w1, e1, e2, e3⟩ : ∃ (s1 : State (List (List Int)) ExBuf Unit Unit) (w1 : ExWorld ExBuf),
      aggs (exConf [(0, exKeyN 100 1 3)]) ([] ++ [⟨exSeed1, false, false, true⟩]) (exState 1 ex0) exWorld = .ok (s1, w1) ∧
      s1.restart = some 25 ∧
      (w1 0).rgs.map RG.rows = [[(0, some [[1, 1]])], [(10, some [[6, 4]])], [(20, some [[8, 8]])]] :=
    ⟨_, _, rfl, rfl, rfl⟩
  have hl := Life.session (c := exConf [(0, exKeyN 100 1 3)]) (i := 0) (f := 0) (cfg := exKeyN 100 1 3) (s := exState 1 ex0)
    (Life.new (s0 := ex0) (p0 := ()) (q0 := ()) (k := exKeyN 100 1 3) (L := fun cfg => ∃ m s j, cfg = exKeyN m s j)
      (w := (exWorld : ExWorld ExBuf)) rfl rfl (by simp [exKeyN, exKeyF, exKey]))
    (List.pairwise_singleton _ _) rfl ⟨rfl, rfl, rfl, rfl⟩ ⟨_, _, _, rfl⟩ rfl rfl e1 e2 rfl (front' := exSeed1.flatten)
    (List.nil_prefix) (List.prefix_refl _) (sure' := false) (by simp) (by simp)
  have hagg : setupCumsegagg exAgg (fun _ => some ()) = .ok ex_cfg := rfl
  have hL := grouper_lawful { freq := 10 } 0 (exFixed.anchored) (Prod.fst : Int × Int → Int)
  have hst := fun q => gridSpec_strict false false 0 10 (Prod.fst : Int × Int → Int) q (by decide)
  have hkl := fun (cfg : KeyCfg Nat (Int × Int) (List (List Int)) ExBuf Unit) (hcfg : SameBins (fun _ : Unit => intOps) ex_get exZ
      ex_cfg (grouperFn { freq := 10 } Prod.fst) none id id id 0 (.one 0) cfg) =>
    keyLaws_bins (fun _ : Unit => intOps) ex_get (cfgOk_of hagg) exZ hL (ordered := none) (key := cfg) hcfg.call.choose_spec hcfg.bins
      hcfg.post hcfg.write hcfg.label
  obtain ⟨s, h1, h2, h3, h4⟩ := C72_reopens (c := exConf [(0, exKeyN m size j)]) (s0 := ex0) (p0 := ()) (q0 := ()) (w := w1) (n := 25)
    (p := ()) (by simp [exConf]) (by
      intro k hk
      obtain rfl : k = (0, exKeyN m size j) := by simpa [exConf] using hk
      exact ⟨_, _, _, _, id, id, 0, .one 0, exSeed1.flatten, exSeed1.flatten, hkl _ (exSameBinsN m size j),
        ⟨_, rfl, frameOk_init (fun _ : Unit => intOps) ex_get trivial hL⟩,
        ⟨exKeyN 100 1 3, _, _, ⟨rfl, rfl, rfl, rfl⟩, fun cfg hcfg => hkl cfg (by obtain ⟨a, b, c, rfl⟩ := hcfg; exact exSameBinsN a b c),
          ⟨_, _, _, rfl⟩, hl⟩,
        binsValid_of hL (by decide) (by simp) (hst _)⟩)
  refine ⟨w1, e3, s, h1, ?_⟩
  refine C72_ends (c := exConf [(0, exKeyN m size j)]) (List.pairwise_singleton _ _) h1
    (C59_iter rfl (by simp [exConf]) (by simp [exSeed2, Ascending, exConf]) _ _) ?_
  intro k hk
  obtain rfl : k = (0, exKeyN m size j) := by simpa [exConf] using hk
  have hfr : frames (exConf [(0, exKeyN m size j)]) 0 [⟨exSeed2, false, false, false⟩, ⟨[[(52, 256)], [(63, 512)]], false, false, true⟩]
      s.restart s.pre = [[(26, 16), (38, 32)], [(39, 64), (41, 128)], [(52, 256)], [(63, 512)]] := by rw [h2]; rfl
  have hrec : received (exConf [(0, exKeyN m size j)]) 0 [⟨exSeed2, false, false, false⟩, ⟨[[(52, 256)], [(63, 512)]], false, false, true⟩]
      s.restart s.pre = [(26, 16), (38, 32), (39, 64), (41, 128), (52, 256), (63, 512)] := by rw [h2]; rfl
  refine C72_time_resumes (k := exKeyN 100 1 3) (emb := id) (e0 := true) (all := exAll ++ [(63, 512)]) (fun _ : Unit => intOps) ex_get
    (dtype := fun _ => some ()) (agg := exAgg) (gc := ex_cfg) exZ hagg { freq := 10 } exFixed Prod.fst none
    ⟨rfl, rfl, rfl, rfl⟩ (by rintro _ ⟨a, b, c, rfl⟩; exact exSameBinsN a b c) ⟨_, _, _, rfl⟩ (exSameBinsN m size j) (by simp) hl ?_
    ⟨by simp only [exKeyN, ne_eq, Option.some.injEq]; omega, .inr ⟨size, j, rfl, rfl, hj, Nat.lt_of_le_of_lt (by decide +kernel) hsize⟩⟩ ⟨_, rfl⟩
    (by rw [hrec]; decide)
    (by decide) (by simp) ?_ ?_
  · intro p b
    simp only [exKeyN, exKeyF, id]
    cases inPlace (frameCall (fun _ => intOps) ex_get ex_cfg exZ (grouperFn { freq := 10 } Prod.fst) none none true) p b <;> rfl
  · rw [hfr]
    have h : ∀ k x y : Int, InCell false 0 10 k x ∧ ¬ InCell false 0 10 k y →
        ∃ k, InCell false 0 10 k x ∧ ¬ InCell false 0 10 k y := fun k _ _ h => ⟨k, h⟩
    exact .cons (p := [_, _, _]) (q := [_]) (by decide) (h 2 _ _ (by decide))
      (.cons (p := [_]) (q := [_]) (by decide) (h 3 _ _ (by decide))
        (.cons (p := [_]) (q := []) (by decide) (h 4 _ _ (by decide))
          (.cons (p := []) (q := []) (by decide) (h 5 _ _ (by decide)) .one)))
  · rw [hfr]
    exact fun _ => NoZero.of_all rfl

/-- A session which receives less than a stopped one: the results of the stopped one beyond its rows are still stored. -/
theorem C72_shorter_fails :
    exStored 0 (exThen ex0 (exConf [(0, exKeyF 10 100 100)]) [⟨[[(26, 16)]], false, false, true⟩]
      (exThen ex0 (exConf [(0, exKeyF 10 0 100)]) [⟨exSeed2 ++ [[(52, 256)]], false, false, false⟩]
      (aggs (exConf [(0, exKeyF 10 100 100)]) [⟨exSeed1, false, false, true⟩] (exState 1 ex0) exWorld))) =
      some [[(0, some [[1, 1]]), (10, some [[6, 4]]), (20, some [[24, 16]]), (30, some [[96, 64]])]] ∧
    exStored 0 (exThen ex0 (exConf [(0, exKeyF 10 100 100)]) [⟨[[(26, 16)]], false, false, true⟩]
      (aggs (exConf [(0, exKeyF 10 100 100)]) [⟨exSeed1, false, false, true⟩] (exState 1 ex0) exWorld)) =
      some [[(0, some [[1, 1]]), (10, some [[6, 4]]), (20, some [[24, 16]])]] := ⟨rfl, rfl⟩

end
end Oups.AggStream
