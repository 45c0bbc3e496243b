import Verif.Proofs.AggCrash
import Verif.Props.AggStream
/-! Aggregation streams stopped and started again: C49, C50, C53, C55. -/
set_option linter.unusedSimpArgs false
namespace Oups.AggStream
open Oups.Agg Oups.Agg.Spec Oups.Segment Oups.Segment.Spec
open Oups.Writer (Table Params RG Col DupOn dupCols readRows StrictOn)

section
variable {K R A S P Q F : Type} [DecidableEq K] [DecidableEq F]

/-- `cumsegagg` returns results for any rows. -/
theorem answers_frame {B D V : Type} (O : D → Ops V) (get : R → Nat → V) (gc : List (D × Group)) (z : List (List V) → Bool)
    (fn : BinFn R B) (ordered : Option (R → Int)) (sn : Option Snaps) (e0 : Bool) :
    Answers (inPlace (frameCall O get gc z fn ordered sn e0)) := by
  intro p s r s' hp h
  simp only [inPlace] at h
  cases hx : frameCall O get gc z fn ordered sn e0 p (some s) with
  | error e => simp [hx] at h
  | ok x =>
    obtain ⟨r', b⟩ := x
    simp only [hx, Except.ok.injEq, Prod.mk.injEq] at h
    rw [← h.1]
    have hpe : p.isEmpty = false := by cases p <;> simp_all
    simp only [frameCall, cumsegagg, hpe, Bool.false_eq_true, if_false] at hx
    cases hs : segmentby fn ordered sn p ((some s).map Buf.seg) with
    | error e => rw [hs] at hx; cases hx
    | ok y =>
      rw [hs] at hx
      simp only at hx
      split_ifs at hx <;> (simp only [Except.ok.injEq, Prod.mk.injEq] at hx; rw [← hx.1]; simp)

/-! ### C49: going on from the store -/

/-- **C49** After calls of which the last one does a final write, a new `AggStream` created from the store is in the state of
the one that wrote: same restart index, same buffers. -/
theorem C49_same_state {c : Config K R A S P Q F} (hk : Apart c.keys) (hne : c.keys ≠ [])
    (hd : ∀ k ∈ c.keys, k.2.resType = .both → k.2.main ≠ k.2.snap) (hc : ∀ k ∈ c.keys, Answers k.2.call)
    {as : List (Call R)} {a : Call R} (ha : a.finalWrite = true) {s s' : State A S P Q} {w w' : World K A (Md S P Q)}
    (hl : s.bufs.length = c.keys.length) (hs : ∀ b ∈ s.bufs, b.Rest)
    (h : aggs c (as ++ [a]) s w = .ok (s', w')) {i : Int} (hi : s'.restart = some i) (ht : c.truthy i = true)
    (s0 : S) (p0 : P) (q0 : Q) : initBuffers s0 p0 q0 c w' = .ok s' :=
  (aggs_init hk hne hd hc ha h hl (fun b hb => .rest (hs b hb)) hi ht s0 p0 q0).1

/-- **C49** Calls split in sessions, each ending with a final write and starting from the store, write the same as the calls in
one session. -/
theorem C49_sessions {c : Config K R A S P Q F} (hk : Apart c.keys) (hne : c.keys ≠ [])
    (hd : ∀ k ∈ c.keys, k.2.resType = .both → k.2.main ≠ k.2.snap) (hc : ∀ k ∈ c.keys, Answers k.2.call)
    (s0 : S) (p0 : P) (q0 : Q) {ss : List (List (Call R))} (hss : ∀ as ∈ ss, ∃ l a, as = l ++ [a] ∧ a.finalWrite = true)
    {s : State A S P Q} {w : World K A (Md S P Q)} (hl : s.bufs.length = c.keys.length) (hs : ∀ b ∈ s.bufs, b.Rest)
    (hin : initBuffers s0 p0 q0 c w = .ok s)
    (hix : ∀ n, 0 < n → n < ss.length → ∃ i, (iterAfter c (ss.take n).flatten s.restart s.pre).1 = some i ∧
      c.truthy i = true) :
    sessions s0 p0 q0 c ss w = (aggs c ss.flatten s w).map Prod.snd :=
  sessions_run hk hne hd hc hss hl hs (fun _ => hin) hix

/-- What `_init_buffers` returns has one buffer per key, without pending results. -/
theorem initLoop_ok {s0 : S} {q0 : Q} {w : World K A (Md S P Q)} {ks : List (F × KeyCfg K R A S Q)}
    {rs : List (Int × P)} {bs : List (KeyBuf A S Q)} (h : initLoop s0 q0 w ks = .ok (rs, bs)) :
    bs.length = ks.length ∧ (∀ b ∈ bs, b.Rest) ∧
    (∀ (n : Nat) k b, ks[n]? = some k → bs[n]? = some b →
      ((w k.2.main).inStore = false → b = { seg := s0, post := q0 }) ∧
      ((w k.2.main).inStore = true → ∃ m, (w k.2.main).md = some m ∧ b = { seg := m.seg, post := m.post })) ∧
    rs = ks.filterMap fun k => if (w k.2.main).inStore then (w k.2.main).md.map fun m => (m.restart, m.pre) else none := by
  induction ks generalizing rs bs with
  | nil =>
    simp only [initLoop, Except.ok.injEq, Prod.mk.injEq] at h
    obtain ⟨rfl, rfl⟩ := h
    simp
  | cons k ks ih =>
    simp only [initLoop] at h
    cases h1 : initKey s0 q0 (w k.2.main) with
    | error e => simp [h1] at h
    | ok x =>
      obtain ⟨r, b⟩ := x
      simp only [h1] at h
      cases h2 : initLoop s0 q0 w ks with
      | error e => simp [h2] at h
      | ok y =>
        obtain ⟨rs', bs'⟩ := y
        simp only [h2, Except.ok.injEq, Prod.mk.injEq] at h
        obtain ⟨rfl, rfl⟩ := h
        obtain ⟨g1, g2, g3, g4⟩ := ih h2
        simp only [initKey] at h1
        cases hin : (w k.2.main).inStore with
        | false =>
          simp only [hin, Bool.false_eq_true, if_false, Except.ok.injEq, Prod.mk.injEq] at h1
          obtain ⟨rfl, rfl⟩ := h1
          refine ⟨by simp [g1], ?_, ?_, by simp [hin, g4]⟩
          · simp only [List.mem_cons, forall_eq_or_imp]
            exact ⟨rfl, g2⟩
          · intro n k' b' hk hb
            cases n with
            | zero =>
              simp only [List.getElem?_cons_zero, Option.some.injEq] at hk hb
              subst hk hb
              exact ⟨fun _ => rfl, fun h => by rw [hin] at h; cases h⟩
            | succ n => exact g3 n k' b' (by simpa using hk) (by simpa using hb)
        | true =>
          simp only [hin, if_true] at h1
          cases hmd : (w k.2.main).md with
          | none => simp [hmd] at h1
          | some m =>
            simp only [hmd, Except.ok.injEq, Prod.mk.injEq] at h1
            obtain ⟨rfl, rfl⟩ := h1
            refine ⟨by simp [g1], ?_, ?_, by simp [hin, hmd, g4]⟩
            · simp only [List.mem_cons, forall_eq_or_imp]
              exact ⟨rfl, g2⟩
            · intro n k' b' hk hb
              cases n with
              | zero =>
                simp only [List.getElem?_cons_zero, Option.some.injEq] at hk hb
                subst hk hb
                exact ⟨fun h => (by rw [hin] at h; cases h), fun _ => ⟨m, hmd, rfl⟩⟩
              | succ n => exact g3 n k' b' (by simpa using hk) (by simpa using hb)

/-! ### C53: what a final write records -/

/-- **C53** A call with a final write records for every key, with results or not, the index of the last seed data delivered
and the buffers at that point. -/
theorem C53_recorded {c : Config K R A S P Q F} (hk : Apart c.keys)
    (hd : ∀ k ∈ c.keys, k.2.resType = .both → k.2.main ≠ k.2.snap) {a : Call R} (ha : a.finalWrite = true)
    {s s' : State A S P Q} {w w' : World K A (Md S P Q)} {e : Bool} (hl : s.bufs.length = c.keys.length)
    (h : agg c a s w = .ok (s', w', e)) {i : Int} (hi : s'.restart = some i) (ht : c.truthy i = true) {n : Nat}
    {k : F × KeyCfg K R A S Q} (hn : c.keys[n]? = some k) :
    ∃ b, s'.bufs[n]? = some b ∧ (w' k.2.main).inStore = true ∧
      (w' k.2.main).md = some ⟨i, s'.pre, b.seg, b.post⟩ := by
  have hlt : n < s.bufs.length := by rw [hl]; exact (List.getElem?_eq_some_iff.1 hn).1
  obtain ⟨ops, b1, w1, b', w2, e1, e2, e3, e4, e5⟩ := agg_final hk ha h hl hn (List.getElem?_eq_getElem hlt)
  rw [hi] at e3
  refine ⟨b', e4, ?_⟩
  rw [← e5 _ (touches_main k.2)]
  exact final_md (hd k (List.mem_of_getElem? hn)) ht e3

/-- **C53** The index recorded is the last one delivered, or the previous one if nothing was delivered. -/
theorem C53_index {c : Config K R A S P Q F} {a : Call R} {s s' : State A S P Q} {w w' : World K A (Md S P Q)} {e : Bool}
    (hl : s.bufs.length = c.keys.length) (h : agg c a s w = .ok (s', w', e)) :
    s'.restart = restartAfter s.restart
      (iterData c.ord s.restart c.pre s.pre c.filters a.trimStart a.discardLast a.seed).1 := by
  obtain ⟨-, -, ys, exc, h3, h4, -⟩ := agg_idx h hl
  rw [h3, h4]

/-! ### C55: which stores are accepted -/

/-- **C55** A key whose dataset was not written by an aggregation stream is refused. -/
theorem C55_not_aggstream {s0 : S} {p0 : P} {q0 : Q} {c : Config K R A S P Q F} {w : World K A (Md S P Q)}
    {k : F × KeyCfg K R A S Q} (hk : k ∈ c.keys) (hin : (w k.2.main).inStore = true) (hmd : (w k.2.main).md = none) :
    initBuffers s0 p0 q0 c w = .error .notAggStream := by
  have : initLoop s0 q0 w c.keys = .error .notAggStream := by
    generalize c.keys = ks at hk
    induction ks with
    | nil => simp at hk
    | cons k' ks ih =>
      simp only [initLoop]
      cases hik : initKey s0 q0 (w k'.2.main) with
      | error e =>
        simp only [Except.error.injEq]
        simp only [initKey] at hik
        split at hik
        · split at hik
          · simpa using hik.symm
          · cases hik
        · cases hik
      | ok x =>
        rcases List.mem_cons.1 hk with rfl | hk
        · simp [initKey, hin, hmd] at hik
        · simp only [ih hk]
  simp only [initBuffers, this]

theorem initLoop_total {s0 : S} {q0 : Q} {w : World K A (Md S P Q)} {ks : List (F × KeyCfg K R A S Q)}
    (h : ∀ k ∈ ks, (w k.2.main).inStore = true → (w k.2.main).md ≠ none) :
    ∃ rs bs, initLoop s0 q0 w ks = .ok (rs, bs) := by
  induction ks with
  | nil => exact ⟨[], [], rfl⟩
  | cons k ks ih =>
    obtain ⟨rs, bs, h1⟩ := ih fun k hk => h k (by simp [hk])
    simp only [initLoop, initKey, h1]
    cases hin : (w k.2.main).inStore with
    | false => exact ⟨_, _, rfl⟩
    | true =>
      cases hmd : (w k.2.main).md with
      | none => exact absurd hmd (h k (by simp) hin)
      | some m => exact ⟨_, _, rfl⟩

/-- **C55** Keys with results up to different indices are refused. -/
theorem C55_diverging {s0 : S} {p0 : P} {q0 : Q} {c : Config K R A S P Q F} {w : World K A (Md S P Q)}
    (hall : ∀ k ∈ c.keys, (w k.2.main).inStore = true → (w k.2.main).md ≠ none) {k1 k2 : F × KeyCfg K R A S Q}
    (h1 : k1 ∈ c.keys) (h2 : k2 ∈ c.keys) (hi1 : (w k1.2.main).inStore = true) (hi2 : (w k2.2.main).inStore = true)
    {m1 m2 : Md S P Q} (hm1 : (w k1.2.main).md = some m1) (hm2 : (w k2.2.main).md = some m2)
    (hne : m1.restart ≠ m2.restart) : initBuffers s0 p0 q0 c w = .error .diverging := by
  obtain ⟨rs, bs, h⟩ := initLoop_total (s0 := s0) (q0 := q0) hall
  obtain ⟨-, -, -, hrs⟩ := initLoop_ok h
  have r1 : (m1.restart, m1.pre) ∈ rs := by
    rw [hrs, List.mem_filterMap]; exact ⟨k1, h1, by simp [hi1, hm1]⟩
  have r2 : (m2.restart, m2.pre) ∈ rs := by
    rw [hrs, List.mem_filterMap]; exact ⟨k2, h2, by simp [hi2, hm2]⟩
  simp only [initBuffers, h]
  cases hr : rs with
  | nil => rw [hr] at r1; cases r1
  | cons x rest =>
    obtain ⟨i, p⟩ := x
    simp only
    rw [if_neg]
    intro hx
    rw [List.all_eq_true] at hx
    have hal : ∀ y ∈ rs, y.1 = i := by
      intro y hy
      rw [hr] at hy
      rcases List.mem_cons.1 hy with rfl | hy
      · rfl
      · simpa using hx y hy
    exact hne ((hal _ r1).trans (hal _ r2).symm)

/-- **C55** Otherwise the stream is created: a key in the store gets the buffers recorded with it, and the restart index is the
one recorded; other keys start with empty buffers, and there is no restart index if all keys are such. -/
theorem C55_accepted {s0 : S} {p0 : P} {q0 : Q} {c : Config K R A S P Q F} {w : World K A (Md S P Q)}
    (hall : ∀ k ∈ c.keys, (w k.2.main).inStore = true → (w k.2.main).md ≠ none)
    (hsame : ∀ k1 ∈ c.keys, ∀ k2 ∈ c.keys, (w k1.2.main).inStore = true → (w k2.2.main).inStore = true →
      ∀ m1 m2, (w k1.2.main).md = some m1 → (w k2.2.main).md = some m2 → m1.restart = m2.restart) :
    ∃ s, initBuffers s0 p0 q0 c w = .ok s ∧ s.bufs.length = c.keys.length ∧
      (∀ (n : Nat) k b, c.keys[n]? = some k → s.bufs[n]? = some b →
        ((w k.2.main).inStore = false → b = { seg := s0, post := q0 }) ∧
        ((w k.2.main).inStore = true → ∃ m, (w k.2.main).md = some m ∧ b = { seg := m.seg, post := m.post } ∧
          s.restart = some m.restart)) ∧
      ((∀ k ∈ c.keys, (w k.2.main).inStore = false) → s.restart = none ∧ s.pre = p0) ∧
      ((∃ k ∈ c.keys, (w k.2.main).inStore = true) →
        ∃ k ∈ c.keys, (w k.2.main).inStore = true ∧ (w k.2.main).md.map Md.pre = some s.pre) := by
  obtain ⟨rs, bs, h⟩ := initLoop_total (s0 := s0) (q0 := q0) hall
  obtain ⟨g1, g2, g3, hrs⟩ := initLoop_ok h
  have hmem : ∀ y, y ∈ rs → ∃ k ∈ c.keys, (w k.2.main).inStore = true ∧ ∃ m, (w k.2.main).md = some m ∧
      (m.restart, m.pre) = y := by
    intro y hy
    rw [hrs, List.mem_filterMap] at hy
    obtain ⟨k, hk, he⟩ := hy
    cases hin : (w k.2.main).inStore with
    | false => simp [hin] at he
    | true =>
      simp only [hin, if_true, Option.map_eq_some_iff] at he
      obtain ⟨m, hm, he⟩ := he
      exact ⟨k, hk, hin, m, hm, he⟩
  simp only [initBuffers, h]
  cases hr : rs with
  | nil =>
    have hno : ∀ k ∈ c.keys, (w k.2.main).inStore = false := by
      intro k hk
      cases hin : (w k.2.main).inStore with
      | false => rfl
      | true =>
        exfalso
        cases hmd : (w k.2.main).md with
        | none => exact hall k hk hin hmd
        | some m =>
          have : (m.restart, m.pre) ∈ rs := by
            rw [hrs, List.mem_filterMap]; exact ⟨k, hk, by simp [hin, hmd]⟩
          rw [hr] at this; cases this
    refine ⟨_, rfl, g1, fun n k b hn hb => ⟨(g3 n k b hn hb).1, fun hin => ?_⟩, fun _ => ⟨rfl, rfl⟩, ?_⟩
    · rw [hno k (List.mem_of_getElem? hn)] at hin; cases hin
    · rintro ⟨k, hk, hin⟩
      rw [hno k hk] at hin; cases hin
  | cons x rest =>
    obtain ⟨i, p⟩ := x
    obtain ⟨k0, hk0, hin0, m0, hm0, he0⟩ := hmem (i, p) (by rw [hr]; simp)
    simp only [Prod.mk.injEq] at he0
    have hall' : rest.all (fun r => decide (r.1 = i)) = true := by
      rw [List.all_eq_true]
      intro y hy
      obtain ⟨k, hk, hin, m, hm, rfl⟩ := hmem y (by rw [hr]; simp [hy])
      simp only [decide_eq_true_eq]
      rw [← he0.1]
      exact hsame k hk k0 hk0 hin hin0 m m0 hm hm0
    simp only
    rw [if_pos hall']
    refine ⟨_, rfl, g1, fun n k b hn hb => ⟨(g3 n k b hn hb).1, fun hin => ?_⟩, fun hno => ?_, fun _ => ?_⟩
    · obtain ⟨m, hm, hb'⟩ := (g3 n k b hn hb).2 hin
      refine ⟨m, hm, hb', ?_⟩
      rw [← he0.1, hsame k (List.mem_of_getElem? hn) k0 hk0 hin hin0 m m0 hm hm0]
    · rw [hno k0 hk0] at hin0; cases hin0
    · simp only
      have hpre : ∃ y ∈ rs, y.2 = (rest.getLast?.map Prod.snd).getD p := by
        cases hl : rest.getLast? with
        | none => exact ⟨(i, p), by rw [hr]; simp, by simp⟩
        | some y => exact ⟨y, by rw [hr]; exact List.mem_cons_of_mem _ (List.mem_of_getLast? hl), by simp⟩
      obtain ⟨y, hy, hy2⟩ := hpre
      obtain ⟨k, hk, hin, m, hm, rfl⟩ := hmem y hy
      exact ⟨k, hk, hin, by rw [hm, ← hy2]; rfl⟩

/-! ### C50: going on from the store after a crash -/

/-- A key whose results are streamed, for rows `rows`, from the empty buffer `s0`. -/
def Streamed (cfg : KeyCfg K R A S Q) (s0 : S) (rows : List R) : Prop :=
  ∃ V FB FS ok gB gS on d, KeyLaws cfg V FB FS ok gB gS on d ∧ V rows ∧ ok [] s0

/-- State of a key after calls from a new stream, the last one with a final write. -/
theorem key_after {c : Config K R A S P Q F} (hk : Apart c.keys) {i : Nat} {f : F} {cfg : KeyCfg K R A S Q}
    (hi : c.keys[i]? = some (f, cfg)) {V : List R → Prop} {FB : List R → List (Row A)}
    {FS : Option (List R → List (Row A))} {ok : List R → S → Prop} {gB gS : Row A → Row A} {on : Col} {d : DupOn}
    (L : KeyLaws cfg V FB FS ok gB gS on d) {s s' : State A S P Q} {w w' : World K A (Md S P Q)}
    (hl : s.bufs.length = c.keys.length) {s0 : S} {q0 : Q} (hb : s.bufs[i]? = some { seg := s0, post := q0 })
    (h0 : ok [] s0) (hm : (w cfg.main).rgs = []) (hs : (w cfg.snapKey).rgs = []) {as : List (Call R)} {a : Call R}
    (ha : a.finalWrite = true) (hV : V (received c f (as ++ [a]) s.restart s.pre))
    (h : aggs c (as ++ [a]) s w = .ok (s', w')) :
    ∃ b, s'.bufs[i]? = some b ∧ b.Rest ∧
      KInv cfg FB FS ok gB gS on d (received c f (as ++ [a]) s.restart s.pre) []
        (received c f (as ++ [a]) s.restart s.pre) b w' := by
  obtain ⟨b', w1, h1, h2, h3⟩ := aggs_key hk h hl hi hb
  obtain ⟨ops, r', pb', hops⟩ := keyOpsAll_final c f as ha s.restart s.pre
  have hrows := opRows_keyOpsAll c f (as ++ [a]) s.restart s.pre
  have hok := keyOpsAll_ok c f (as ++ [a]) s.restart s.pre
  simp only at h1
  rw [hops] at h1 hrows hok
  rw [opRows_append] at hrows
  simp only [opRows, List.append_nil] at hrows
  obtain ⟨hi1, hbn, -, -⟩ := keyRun_final L (h := []) (h0 := []) (ops := ops)
    (fun ch hc => hok ch (List.mem_append_left _ hc)) (by rw [List.nil_append, hrows]; exact hV)
    (KInv.init L h0 hm hs _) h1
  rw [List.nil_append, hrows] at hi1
  have m1 := h3 cfg.main (touches_main cfg)
  have m2 := h3 cfg.snapKey (touches_snapKey cfg)
  exact ⟨b', h2, hi1.rest hbn, ⟨hi1.ok, hi1.pre, hi1.noRes, hi1.hasRes, m1 ▸ hi1.bins, m2 ▸ hi1.snaps, m1 ▸ hi1.wf⟩⟩

/-- Same, after a crash, for rows `Tot` beyond those processed before the crash. -/
theorem key_crashed {c : Config K R A S P Q F} (hk : Apart c.keys) {i : Nat} {f : F} {cfg : KeyCfg K R A S Q}
    (hi : c.keys[i]? = some (f, cfg)) {V : List R → Prop} {FB : List R → List (Row A)}
    {FS : Option (List R → List (Row A))} {ok : List R → S → Prop} {gB gS : Row A → Row A} {on : Col} {d : DupOn}
    (L : KeyLaws cfg V FB FS ok gB gS on d) {s s' : State A S P Q} {w w' wc : World K A (Md S P Q)}
    (hl : s.bufs.length = c.keys.length) {s0 : S} {q0 : Q} (hb : s.bufs[i]? = some { seg := s0, post := q0 })
    (h0 : ok [] s0) (hm : (w cfg.main).rgs = []) (hs : (w cfg.snapKey).rgs = []) {as : List (Call R)} {a : Call R}
    (ha : a.finalWrite = true) (h : aggs c (as ++ [a]) s w = .ok (s', w')) {a2 : Call R} (hc : Crash c a2 s' w' wc)
    {new : List R} (hV : V (received c f (as ++ [a]) s.restart s.pre ++ new))
    (hnew : delivered f (iterData c.ord s'.restart c.pre s'.pre c.filters a2.trimStart a2.discardLast a2.seed).1 <+: new) :
    ∃ b, s'.bufs[i]? = some b ∧ b.Rest ∧ Kept cfg w' wc ∧ (KeySafe cfg w' →
      KInv cfg FB FS ok gB gS on d (received c f (as ++ [a]) s.restart s.pre ++ new)
        (received c f (as ++ [a]) s.restart s.pre) (received c f (as ++ [a]) s.restart s.pre) b wc) := by
  obtain ⟨b, hb', hrest, hinv⟩ := key_after hk hi L hl hb h0 hm hs ha (L.valid _ _ hV) h
  have hinv' := hinv.advance L hV ⟨new, rfl⟩ hrest
  have hcr := hc i _ b hi hb'
  have h1 : OpsOk (((iterData c.ord s'.restart c.pre s'.pre c.filters a2.trimStart a2.discardLast a2.seed).1.filter
      fun y => y.filt = f).map fun y => (KOp.chunk y.rows : KOp R P)) := fun ch hch => by
    obtain ⟨y, hy, he⟩ := List.mem_map.1 hch
    simp only [KOp.chunk.injEq] at he
    rw [← he]
    exact iterLoop_ne_nil (Prod.ext rfl (Prod.ext rfl rfl)) y (List.mem_filter.1 hy).1
  have h2 : Chunks (((iterData c.ord s'.restart c.pre s'.pre c.filters a2.trimStart a2.discardLast a2.seed).1.filter
      fun y => y.filt = f).map fun y => (KOp.chunk y.rows : KOp R P)) := fun op hop => by
    obtain ⟨y, hy, he⟩ := List.mem_map.1 hop
    exact ⟨_, he.symm⟩
  have h3 := (List.prefix_append_right_inj (received c f (as ++ [a]) s.restart s.pre)).2 hnew
  refine ⟨b, hb', hrest, keyCrash_kept L hV h1 h2 hinv' (by rw [opRows_chunks]; exact h3) hcr, fun hsafe => ?_⟩
  exact (keyCrash_inv L hV h1 h2 hrest hinv' (hinv.loose hrest hsafe) (by rw [opRows_chunks]; exact h3) hcr)

/-- **C50** After a final write, the process stops at any time in a later call, before its final write: if every key has rows in
the store, a new stream starts in the state it had after the final write. -/
theorem C50_restart {c : Config K R A S P Q F} (hk : Apart c.keys) (hne : c.keys ≠ [])
    (hc : ∀ k ∈ c.keys, Answers k.2.call) {s s' : State A S P Q} {w w' wc : World K A (Md S P Q)} {s0 : S} {q0 : Q}
    (hb : s.bufs = List.replicate c.keys.length { seg := s0, post := q0 })
    (hw : ∀ k ∈ c.keys, ∀ x, k.2.touches x → (w x).rgs = []) {as : List (Call R)} {a : Call R} (ha : a.finalWrite = true)
    (h : aggs c (as ++ [a]) s w = .ok (s', w')) {i : Int} (hi : s'.restart = some i) (ht : c.truthy i = true)
    (hrows : ∀ k ∈ c.keys, (w' k.2.main).rgs ≠ []) {a2 : Call R} (hcr : Crash c a2 s' w' wc)
    (hlaw : ∀ k ∈ c.keys, Streamed k.2 s0 (received c k.1 (as ++ [a]) s.restart s.pre ++
      delivered k.1 (iterData c.ord s'.restart c.pre s'.pre c.filters a2.trimStart a2.discardLast a2.seed).1))
    (p0 : P) : initBuffers s0 p0 q0 c wc = .ok s' := by
  have hl : s.bufs.length = c.keys.length := by rw [hb, List.length_replicate]
  have hrest : ∀ b ∈ s.bufs, Shape b := by
    intro b hbm
    rw [hb] at hbm
    rw [List.eq_of_mem_replicate hbm]
    exact .rest rfl
  have hd : ∀ k ∈ c.keys, k.2.resType = .both → k.2.main ≠ k.2.snap := by
    intro k hkm
    obtain ⟨V, FB, FS, ok, gB, gS, on, d, L, -, -⟩ := hlaw k hkm
    exact L.distinct
  have hl' := aggs_length h hl
  obtain ⟨s1, w1, h1, h2⟩ := aggs_append h
  simp only [aggs] at h2
  cases hx : agg c a s1 w1 with
  | error e => simp [hx] at h2
  | ok x =>
    obtain ⟨s2, w2, e⟩ := x
    simp only [hx, Except.ok.injEq, Prod.mk.injEq] at h2
    obtain ⟨rfl, rfl⟩ := h2
    refine initBuffers_of_md hne hi hl' fun n k b hn hbn => ?_
    have hmem := List.mem_of_getElem? hn
    have hlt := (List.getElem?_eq_some_iff.1 hn).1
    obtain ⟨V, FB, FS, ok, gB, gS, on, d, L, hV, h0⟩ := hlaw k hmem
    obtain ⟨b', hb', hr', hkept, -⟩ := key_crashed hk hn L hl (s0 := s0) (q0 := q0) (by
      rw [hb, List.getElem?_replicate, if_pos hlt]) h0 (hw k hmem _ (touches_main k.2))
      (hw k hmem _ (touches_snapKey k.2)) ha h hcr hV (List.prefix_refl _)
    rw [hbn, Option.some.injEq] at hb'
    subst hb'
    obtain ⟨b2, hb2, hin, hmd⟩ := C53_recorded hk hd ha (aggs_length h1 hl) hx hi ht hn
    rw [hbn, Option.some.injEq] at hb2
    subst hb2
    obtain ⟨-, k2, k3⟩ := hkept (hrows k hmem)
    exact ⟨hr', k3 hin, k2.trans hmd⟩

/-- **C50** From that state, calls that bring again the rows of the interrupted call, possibly cut otherwise and followed by
others, store the results on all rows, as if there had been no crash. -/
theorem C50_replayed {c : Config K R A S P Q F} (hk : Apart c.keys) {i : Nat} {f : F} {cfg : KeyCfg K R A S Q}
    (hi : c.keys[i]? = some (f, cfg)) {V : List R → Prop} {FB : List R → List (Row A)}
    {FS : Option (List R → List (Row A))} {ok : List R → S → Prop} {gB gS : Row A → Row A} {on : Col} {d : DupOn}
    (L : KeyLaws cfg V FB FS ok gB gS on d) {s s' s'' : State A S P Q} {w w' wc w'' : World K A (Md S P Q)}
    (hl : s.bufs.length = c.keys.length) {s0 : S} {q0 : Q} (hb : s.bufs[i]? = some { seg := s0, post := q0 })
    (h0 : ok [] s0) (hm : (w cfg.main).rgs = []) (hs : (w cfg.snapKey).rgs = []) {as : List (Call R)} {a : Call R}
    (ha : a.finalWrite = true) (h : aggs c (as ++ [a]) s w = .ok (s', w')) {a2 : Call R} (hc : Crash c a2 s' w' wc)
    (hsafe : KeySafe cfg w') {as3 : List (Call R)} {a3 : Call R} (ha3 : a3.finalWrite = true)
    (hV : V (received c f (as ++ [a]) s.restart s.pre ++ received c f (as3 ++ [a3]) s'.restart s'.pre))
    (hnew : delivered f (iterData c.ord s'.restart c.pre s'.pre c.filters a2.trimStart a2.discardLast a2.seed).1 <+:
      received c f (as3 ++ [a3]) s'.restart s'.pre)
    (h3 : aggs c (as3 ++ [a3]) s' wc = .ok (s'', w'')) :
    (cfg.resType ≠ .snaps → readRows (w'' cfg.main).rgs =
      (FB (received c f (as ++ [a]) s.restart s.pre ++ received c f (as3 ++ [a3]) s'.restart s'.pre)).map gB) ∧
    (cfg.resType ≠ .bins → ∀ fs, FS = some fs → readRows (w'' cfg.snapKey).rgs =
      (fs (received c f (as ++ [a]) s.restart s.pre ++ received c f (as3 ++ [a3]) s'.restart s'.pre)).map gS) := by
  obtain ⟨b, hb', -, -, hinv⟩ := key_crashed hk hi L hl hb h0 hm hs ha h hc hV hnew
  have hinv := hinv hsafe
  obtain ⟨b', w1, g1, -, g3⟩ := aggs_key hk h3 (aggs_length h hl) hi hb'
  obtain ⟨ops, r', pb', hops⟩ := keyOpsAll_final c f as3 ha3 s'.restart s'.pre
  have hrows := opRows_keyOpsAll c f (as3 ++ [a3]) s'.restart s'.pre
  have hok := keyOpsAll_ok c f (as3 ++ [a3]) s'.restart s'.pre
  simp only at g1
  rw [hops] at g1 hrows hok
  rw [opRows_append] at hrows
  simp only [opRows, List.append_nil] at hrows
  rw [← hrows] at hinv hV ⊢
  obtain ⟨-, -, e1, e2⟩ := keyRun_final L (ops := ops) (fun ch hch => hok ch (List.mem_append_left _ hch)) hV hinv g1
  rw [← g3 cfg.main (touches_main cfg), ← g3 cfg.snapKey (touches_snapKey cfg)]
  exact ⟨e1, e2⟩

/-- A call without final write leaves the store as a crash may. -/
theorem crash_of_agg {c : Config K R A S P Q F} (hk : Apart c.keys) {a : Call R} (ha : a.finalWrite = false)
    {s s' : State A S P Q} {w w' : World K A (Md S P Q)} {e : Bool} (hl : s.bufs.length = c.keys.length)
    (h : agg c a s w = .ok (s', w', e)) : Crash c a s w w' := by
  intro i k b hi hb
  obtain ⟨h1, -⟩ := agg_idx h hl
  obtain ⟨b', w1, e1, -, e3⟩ := (idxRun_proj hk h1).2.2.2 i k b hi hb
  rw [opsOf_callOps hi] at e1
  simp only [keyOps, ha, Bool.false_eq_true, if_false, List.append_nil] at e1
  exact ⟨_, [], b', w1, (List.append_nil _).symm, e1, Or.inl fun x hx => (e3 x hx).symm⟩

/-- The rows of the interrupted call are received again if it is run again. -/
theorem C50_again {c : Config K R A S P Q F} (f : F) (a2 : Call R) (r : Option Int) (pb : P) :
    received c f [{ a2 with finalWrite := true }] r pb =
      delivered f (iterData c.ord r c.pre pb c.filters a2.trimStart a2.discardLast a2.seed).1 := by
  simp [received]

end

section
variable {K R B D V S P Q F : Type} [DecidableEq K] [DecidableEq F] [DecidableEq D]
variable (O : D → Ops V) (get : R → Nat → V) {dtype : Nat → Option D} {agg : List (Nat × Nat × Option Fn)}
  {gc : List (D × Group)} (z : List (List V) → Bool)
variable {c : Config K R (List (List V)) S P Q F} {i : Nat} {f : F} {cfg : KeyCfg K R (List (List V)) S Q}
  {gB gS : Row (List (List V)) → Row (List (List V))} {on : Col} {d : DupOn}

/-- Key with a `TimeGrouper` for `bin_by`. -/
theorem streamed_time_bins (hagg : setupCumsegagg agg dtype = .ok gc) (g : Grouper) (hg : Fixed g) (pos : R → Int)
    (ordered : Option (R → Int)) {emb : Buf ScaleBuf (List (List V)) → S}
    {e0 : Bool} (hcall : Embeds emb (inPlace (frameCall O get gc z (grouperFn g pos) ordered none e0)) cfg.call)
    (hres : cfg.resType = .bins) (hpost : PostRow cfg gB gS) (hw : WriteOk cfg.table cfg.params on d)
    (hT : ByLabel cfg.table on d gB) {rows : List R} (hasc : AscOn pos rows)
    (ho : ∀ o, ordered = some o → AscOn o rows) : Streamed cfg (emb (Buf.init {})) rows := by
  have hc := cfgOk_of hagg
  have hL := grouper_lawful g g.origin0 hg.anchored pos
  exact ⟨_, _, _, _, _, _, _, _, keyLaws_bins O get hc z hL (ordered := ordered) hcall hres hpost hw hT,
    binsValid_of hL hasc ho (gridSpec_strict (g.closed == .right) g.labelRight g.origin0 g.freq pos rows hg.anchored.1),
    ⟨_, rfl, frameOk_init O get trivial hL⟩⟩

/-- **C50** Key with a `TimeGrouper` for `bin_by`: after a crash in call `a2` and a replay, what is stored is what `cumsegagg`
returns on all rows at once. -/
theorem C50_time_bins (hk : Apart c.keys) (hi : c.keys[i]? = some (f, cfg))
    (hagg : setupCumsegagg agg dtype = .ok gc) (g : Grouper) (hg : Fixed g) (pos : R → Int) (ordered : Option (R → Int))
    {emb : Buf ScaleBuf (List (List V)) → S}
    {e0 : Bool} (hcall : Embeds emb (inPlace (frameCall O get gc z (grouperFn g pos) ordered none e0)) cfg.call)
    (hres : cfg.resType = .bins) (hpost : PostRow cfg gB gS) (hw : WriteOk cfg.table cfg.params on d)
    (hT : ByLabel cfg.table on d gB) {s s' s'' : State (List (List V)) S P Q}
    {w w' wc w'' : World K (List (List V)) (Md S P Q)} {q0 : Q} (hl : s.bufs.length = c.keys.length)
    (hb : s.bufs[i]? = some { seg := emb (Buf.init {}), post := q0 }) (hm : (w cfg.main).rgs = [])
    {as : List (Call R)} {a : Call R} (ha : a.finalWrite = true) (h : aggs c (as ++ [a]) s w = .ok (s', w'))
    {a2 : Call R} (hc : Crash c a2 s' w' wc)
    (hsafe : KeySafe cfg w') {rows : List R}
    (hrows : rows = received c f (as ++ [a]) s.restart s.pre ++
      received c f [{ a2 with finalWrite := true }] s'.restart s'.pre)
    (hne : rows ≠ []) (hasc : AscOn pos rows) (ho : ∀ o, ordered = some o → AscOn o rows)
    (h3 : aggs c [{ a2 with finalWrite := true }] s' wc = .ok (s'', w'')) :
    ∃ one, frameCall O get gc z (grouperFn g pos) ordered none false rows none = .ok (some one, none) ∧
      readRows (w'' cfg.main).rgs = one.bins.map gB := by
  have hcf := cfgOk_of hagg
  have hL := grouper_lawful g g.origin0 hg.anchored pos
  have hst := gridSpec_strict (g.closed == .right) g.labelRight g.origin0 g.freq pos rows hg.anchored.1
  obtain ⟨one, h1, h2, _⟩ := frame_once_bins O get hcf z hL ordered hne hasc ho (strictLabels_ok hst)
  have hKL := keyLaws_bins O get hcf z hL (ordered := ordered) hcall hres hpost hw hT
  have hms : (w cfg.snapKey).rgs = [] := by simpa [KeyCfg.snapKey, hres] using hm
  subst hrows
  obtain ⟨e1, _⟩ := C50_replayed hk hi hKL hl hb ⟨_, rfl, frameOk_init O get trivial hL⟩ hm hms ha h hc hsafe
    (as3 := []) (a3 := { a2 with finalWrite := true }) rfl
    (binsValid_of hL hasc ho hst) (by rw [List.nil_append, C50_again]; exact List.prefix_refl _) h3
  exact ⟨one, h1, by rw [e1 (by simp [hres]), h2]; rfl⟩

/-- Key with `by_x_rows` for `bin_by`. -/
theorem streamed_rows_bins (hagg : setupCumsegagg agg dtype = .ok gc) (n : Nat) (hn : 0 < n) (cl : Closed) (pos : R → Int)
    (ordered : Option (R → Int)) {emb : Buf (Option RowsBuf) (List (List V)) → S}
    {e0 : Bool} (hcall : Embeds emb (inPlace (frameCall O get gc z (rowsFn n cl pos) ordered none e0)) cfg.call)
    (hres : cfg.resType = .bins) (hpost : PostRow cfg gB gS) (hw : WriteOk cfg.table cfg.params on d)
    (hT : ByLabel cfg.table on d gB) {rows : List R} (ho : ∀ o, ordered = some o → AscOn o rows)
    (hst : StrictLabels (xBins (cl == .right) n pos rows)) : Streamed cfg (emb (Buf.init none)) rows := by
  have hc := cfgOk_of hagg
  have hL := rows_lawful n hn cl pos (fun _ => 0)
  have hasc : AscOn (fun _ => 0) rows := by
    unfold AscOn
    exact List.Pairwise.imp (R := fun _ _ => True) (by simp) (List.pairwise_of_forall (by simp))
  exact ⟨_, _, _, _, _, _, _, _, keyLaws_bins O get hc z hL (ordered := ordered) hcall hres hpost hw hT,
    binsValid_of hL hasc ho hst, ⟨_, rfl, frameOk_init O get trivial hL⟩⟩

/-- **C50** Key with `by_x_rows` for `bin_by`: same, if labels of bins are in strict order. -/
theorem C50_rows_bins (hk : Apart c.keys) (hi : c.keys[i]? = some (f, cfg))
    (hagg : setupCumsegagg agg dtype = .ok gc) (n : Nat) (hn : 0 < n) (cl : Closed) (pos : R → Int)
    (ordered : Option (R → Int)) {emb : Buf (Option RowsBuf) (List (List V)) → S}
    {e0 : Bool} (hcall : Embeds emb (inPlace (frameCall O get gc z (rowsFn n cl pos) ordered none e0)) cfg.call)
    (hres : cfg.resType = .bins) (hpost : PostRow cfg gB gS) (hw : WriteOk cfg.table cfg.params on d)
    (hT : ByLabel cfg.table on d gB) {s s' s'' : State (List (List V)) S P Q}
    {w w' wc w'' : World K (List (List V)) (Md S P Q)} {q0 : Q} (hl : s.bufs.length = c.keys.length)
    (hb : s.bufs[i]? = some { seg := emb (Buf.init none), post := q0 }) (hm : (w cfg.main).rgs = [])
    {as : List (Call R)} {a : Call R} (ha : a.finalWrite = true) (h : aggs c (as ++ [a]) s w = .ok (s', w'))
    {a2 : Call R} (hc : Crash c a2 s' w' wc)
    (hsafe : KeySafe cfg w') {rows : List R}
    (hrows : rows = received c f (as ++ [a]) s.restart s.pre ++
      received c f [{ a2 with finalWrite := true }] s'.restart s'.pre)
    (hne : rows ≠ []) (ho : ∀ o, ordered = some o → AscOn o rows)
    (h3 : aggs c [{ a2 with finalWrite := true }] s' wc = .ok (s'', w'')) :
    ∃ one, frameCall O get gc z (rowsFn n cl pos) ordered none false rows none = .ok (some one, none) ∧
      ((one.bins.map Prod.fst).Pairwise (· < ·) → readRows (w'' cfg.main).rgs = one.bins.map gB) := by
  have hcf := cfgOk_of hagg
  have hL := rows_lawful n hn cl pos (fun _ => 0)
  have hasc : AscOn (fun _ => 0) rows := by
    unfold AscOn
    exact List.Pairwise.imp (R := fun _ _ => True) (by simp) (List.pairwise_of_forall (by simp))
  obtain ⟨one, h1, h2, _⟩ := frame_once_bins O get hcf z hL ordered hne hasc ho (xBins_labels _ n hn pos _)
  have hKL := keyLaws_bins O get hcf z hL (ordered := ordered) hcall hres hpost hw hT
  have hms : (w cfg.snapKey).rgs = [] := by simpa [KeyCfg.snapKey, hres] using hm
  refine ⟨one, h1, fun hst => ?_⟩
  rw [h2, binRes_fst] at hst
  subst hrows
  obtain ⟨e1, _⟩ := C50_replayed hk hi hKL hl hb ⟨_, rfl, frameOk_init O get trivial hL⟩ hm hms ha h hc hsafe
    (as3 := []) (a3 := { a2 with finalWrite := true }) rfl
    (binsValid_of hL hasc ho hst) (by rw [List.nil_append, C50_again]; exact List.prefix_refl _) h3
  rw [e1 (by simp [hres]), h2]
  rfl

/-- Key with snapshots from a `TimeGrouper`, bins from another one. -/
theorem streamed_time_snaps (hagg : setupCumsegagg agg dtype = .ok gc) (g : Grouper) (hg : Fixed g) (gs : Grouper)
    (hgs : Fixed gs) (pos : R → Int) {emb : Buf ScaleBuf (List (List V)) → S} {e0 : Bool}
    (hcall : Embeds emb (inPlace (frameCall O get gc z (grouperFn g pos) (some pos) (some (.grouper gs)) e0)) cfg.call)
    (hres : cfg.resType ≠ .bins) (hd : cfg.resType = .both → cfg.main ≠ cfg.snap) (hpost : PostRow cfg gB gS)
    (hw : WriteOk cfg.table cfg.params on d) (hws : cfg.resType = .both → WriteOk cfg.table cfg.snapParams on d)
    (hT : cfg.resType = .both → ByLabel cfg.table on d gB) (hTs : ByLabel cfg.table on d gS) {rows : List R}
    (hasc : AscOn pos rows) : Streamed cfg (emb (Buf.init {})) rows := by
  have hc := cfgOk_of hagg
  have hL := grouper_lawful g g.origin0 hg.anchored pos
  have hSL := grouper_snaps gs gs.origin0 hgs.anchored g.closed pos
  have hst : ∀ q, StrictLabels (gridSpec (g.closed == .right) g.labelRight g.origin0 g.freq pos q) := fun q =>
    gridSpec_strict _ _ _ _ _ _ hg.1
  exact ⟨_, _, _, _, _, _, _, _, keyLaws_snaps O get hc z hL hSL (gridPts_prefix gs hgs g.closed pos)
      (gridPts_ne gs hgs g.closed pos) hcall hres hd hpost hw hws hT hTs,
    ⟨hasc, fun q _ => ⟨strictLabels_ok (hst q), gridSpec_sep _ _ _ _ _ _ hg.1, fun _ => hst q, by
      rw [gridPts_fst]; exact gridSpec_strict _ _ _ _ _ _ hgs.1⟩⟩,
    ⟨_, rfl, frameOk_init O get hSL.init hL⟩⟩

/-- **C50** Key with snapshots from a `TimeGrouper`, bins from another one: same, for snapshots, and for bins with a pair of
keys. -/
theorem C50_time_snaps (hk : Apart c.keys) (hi : c.keys[i]? = some (f, cfg))
    (hagg : setupCumsegagg agg dtype = .ok gc) (g : Grouper) (hg : Fixed g) (gs : Grouper) (hgs : Fixed gs) (pos : R → Int)
    {emb : Buf ScaleBuf (List (List V)) → S} {e0 : Bool}
    (hcall : Embeds emb (inPlace (frameCall O get gc z (grouperFn g pos) (some pos) (some (.grouper gs)) e0)) cfg.call)
    (hres : cfg.resType ≠ .bins) (hd : cfg.resType = .both → cfg.main ≠ cfg.snap) (hpost : PostRow cfg gB gS)
    (hw : WriteOk cfg.table cfg.params on d) (hws : cfg.resType = .both → WriteOk cfg.table cfg.snapParams on d)
    (hT : cfg.resType = .both → ByLabel cfg.table on d gB) (hTs : ByLabel cfg.table on d gS)
    {s s' s'' : State (List (List V)) S P Q} {w w' wc w'' : World K (List (List V)) (Md S P Q)} {q0 : Q}
    (hl : s.bufs.length = c.keys.length) (hb : s.bufs[i]? = some { seg := emb (Buf.init {}), post := q0 })
    (hm : (w cfg.main).rgs = []) (hms : cfg.resType = .both → (w cfg.snap).rgs = [])
    {as : List (Call R)} {a : Call R} (ha : a.finalWrite = true) (h : aggs c (as ++ [a]) s w = .ok (s', w'))
    {a2 : Call R} (hc : Crash c a2 s' w' wc)
    (hsafe : KeySafe cfg w') {rows : List R}
    (hrows : rows = received c f (as ++ [a]) s.restart s.pre ++
      received c f [{ a2 with finalWrite := true }] s'.restart s'.pre)
    (hne : rows ≠ []) (hasc : AscOn pos rows) (h3 : aggs c [{ a2 with finalWrite := true }] s' wc = .ok (s'', w'')) :
    ∃ one sns, frameCall O get gc z (grouperFn g pos) (some pos) (some (.grouper gs)) false rows none =
        .ok (some one, none) ∧ one.snaps = some sns ∧
      (cfg.resType = .snaps → readRows (w'' cfg.main).rgs = sns.map gS) ∧
      (cfg.resType = .both → readRows (w'' cfg.main).rgs = one.bins.map gB ∧ readRows (w'' cfg.snap).rgs = sns.map gS) := by
  have hcf := cfgOk_of hagg
  have hL := grouper_lawful g g.origin0 hg.anchored pos
  have hSL := grouper_snaps gs gs.origin0 hgs.anchored g.closed pos
  have hst : ∀ q, StrictLabels (gridSpec (g.closed == .right) g.labelRight g.origin0 g.freq pos q) := fun q =>
    gridSpec_strict _ _ _ _ _ _ hg.1
  obtain ⟨one, sns, h1, h2, h2', h4⟩ := frame_once_snaps O get hcf z hL hSL hne hasc (strictLabels_ok (hst _))
    (gridSpec_sep _ _ _ _ _ _ hg.1)
  have hKL := keyLaws_snaps O get hcf z hL hSL (gridPts_prefix gs hgs g.closed pos) (gridPts_ne gs hgs g.closed pos)
    hcall hres hd hpost hw hws hT hTs
  have hms' : (w cfg.snapKey).rgs = [] := by
    unfold KeyCfg.snapKey
    split
    · rename_i h; exact hms h
    · exact hm
  subst hrows
  obtain ⟨e1, e2⟩ := C50_replayed hk hi hKL hl hb ⟨_, rfl, frameOk_init O get hSL.init hL⟩ hm hms' ha h hc hsafe
    (as3 := []) (a3 := { a2 with finalWrite := true }) rfl
    ⟨hasc, fun q _ => ⟨strictLabels_ok (hst q), gridSpec_sep _ _ _ _ _ _ hg.1, fun _ => hst q, by
      rw [gridPts_fst]; exact gridSpec_strict _ _ _ _ _ _ hgs.1⟩⟩
    (by rw [List.nil_append, C50_again]; exact List.prefix_refl _) h3
  refine ⟨one, sns, h1, h2', fun hr => ?_, fun hr => ?_⟩
  · have := e2 hres _ rfl
    rw [show cfg.snapKey = cfg.main by simp [KeyCfg.snapKey, hr]] at this
    rw [this, h4]; rfl
  · have := e2 hres _ rfl
    rw [show cfg.snapKey = cfg.snap by simp [KeyCfg.snapKey, hr]] at this
    rw [this, h4, e1 (by simp [hr]), h2]
    exact ⟨rfl, rfl⟩

/-- Key with snapshots from a `TimeGrouper`, bins from `by_x_rows`. -/
theorem streamed_rows_snaps (hagg : setupCumsegagg agg dtype = .ok gc) (n : Nat) (hn : 0 < n) (cl : Closed) (gs : Grouper)
    (hgs : Fixed gs) (pos : R → Int) {emb : Buf (Option RowsBuf) (List (List V)) → S} {e0 : Bool}
    (hcall : Embeds emb (inPlace (frameCall O get gc z (rowsFn n cl pos) (some pos) (some (.grouper gs)) e0)) cfg.call)
    (hres : cfg.resType ≠ .bins) (hd : cfg.resType = .both → cfg.main ≠ cfg.snap) (hpost : PostRow cfg gB gS)
    (hw : WriteOk cfg.table cfg.params on d) (hws : cfg.resType = .both → WriteOk cfg.table cfg.snapParams on d)
    (hT : cfg.resType = .both → ByLabel cfg.table on d gB) (hTs : ByLabel cfg.table on d gS) {rows : List R}
    (hasc : AscOn pos rows) (hties : cl = .right → rows.Pairwise (fun x y => pos x < pos y))
    (hst : cfg.resType = .both → StrictLabels (xBins (cl == .right) n pos rows)) :
    Streamed cfg (emb (Buf.init none)) rows := by
  have hc := cfgOk_of hagg
  have hL := rows_lawful n hn cl pos pos
  have hSL := grouper_snaps gs gs.origin0 hgs.anchored cl pos
  exact ⟨_, _, _, _, _, _, _, _, keyLaws_snaps O get hc z hL hSL (gridPts_prefix gs hgs cl pos)
      (gridPts_ne gs hgs cl pos) hcall hres hd hpost hw hws hT hTs,
    ⟨hasc, fun q hq => ⟨xBins_labels _ n hn pos _, xBins_sep _ n hn pos q (List.Pairwise.sublist hq.sublist hasc)
        (fun hr => List.Pairwise.sublist hq.sublist (hties (by simpa using hr))),
      fun hb => (binsValid_of (ordered := none) hL hasc (by simp) (hst (by simpa using hb))).2.2 q hq, by
      rw [gridPts_fst]; exact gridSpec_strict _ _ _ _ _ _ hgs.1⟩⟩,
    ⟨_, rfl, frameOk_init O get hSL.init hL⟩⟩

/-- **C50** Key with snapshots from a `TimeGrouper`, bins from `by_x_rows`: same, for left-closed bins or rows at distinct
positions, and when bins are stored also, if their labels are in strict order. -/
theorem C50_rows_snaps (hk : Apart c.keys) (hi : c.keys[i]? = some (f, cfg))
    (hagg : setupCumsegagg agg dtype = .ok gc) (n : Nat) (hn : 0 < n) (cl : Closed) (gs : Grouper) (hgs : Fixed gs)
    (pos : R → Int) {emb : Buf (Option RowsBuf) (List (List V)) → S} {e0 : Bool}
    (hcall : Embeds emb (inPlace (frameCall O get gc z (rowsFn n cl pos) (some pos) (some (.grouper gs)) e0)) cfg.call)
    (hres : cfg.resType ≠ .bins) (hd : cfg.resType = .both → cfg.main ≠ cfg.snap) (hpost : PostRow cfg gB gS)
    (hw : WriteOk cfg.table cfg.params on d) (hws : cfg.resType = .both → WriteOk cfg.table cfg.snapParams on d)
    (hT : cfg.resType = .both → ByLabel cfg.table on d gB) (hTs : ByLabel cfg.table on d gS)
    {s s' s'' : State (List (List V)) S P Q} {w w' wc w'' : World K (List (List V)) (Md S P Q)} {q0 : Q}
    (hl : s.bufs.length = c.keys.length) (hb : s.bufs[i]? = some { seg := emb (Buf.init none), post := q0 })
    (hm : (w cfg.main).rgs = []) (hms : cfg.resType = .both → (w cfg.snap).rgs = [])
    {as : List (Call R)} {a : Call R} (ha : a.finalWrite = true) (h : aggs c (as ++ [a]) s w = .ok (s', w'))
    {a2 : Call R} (hc : Crash c a2 s' w' wc)
    (hsafe : KeySafe cfg w') {rows : List R}
    (hrows : rows = received c f (as ++ [a]) s.restart s.pre ++
      received c f [{ a2 with finalWrite := true }] s'.restart s'.pre)
    (hne : rows ≠ []) (hasc : AscOn pos rows) (hties : cl = .right → rows.Pairwise (fun x y => pos x < pos y))
    (h3 : aggs c [{ a2 with finalWrite := true }] s' wc = .ok (s'', w'')) :
    ∃ one sns, frameCall O get gc z (rowsFn n cl pos) (some pos) (some (.grouper gs)) false rows none =
        .ok (some one, none) ∧ one.snaps = some sns ∧
      (cfg.resType = .snaps → readRows (w'' cfg.main).rgs = sns.map gS) ∧
      (cfg.resType = .both → (one.bins.map Prod.fst).Pairwise (· < ·) →
        readRows (w'' cfg.main).rgs = one.bins.map gB ∧ readRows (w'' cfg.snap).rgs = sns.map gS) := by
  have hcf := cfgOk_of hagg
  have hL := rows_lawful n hn cl pos pos
  have hSL := grouper_snaps gs gs.origin0 hgs.anchored cl pos
  have hsep : ∀ q, q <+: rows → Separated (cl == .right) pos (xBins (cl == .right) n pos q) := fun q hq =>
    xBins_sep _ n hn pos q (List.Pairwise.sublist hq.sublist hasc)
      (fun hr => List.Pairwise.sublist hq.sublist (hties (by simpa using hr)))
  obtain ⟨one, sns, h1, h2, h2', h4⟩ := frame_once_snaps O get hcf z hL hSL hne hasc (xBins_labels _ n hn pos _)
    (hsep _ (List.prefix_refl _))
  have hKL := keyLaws_snaps O get hcf z hL hSL (gridPts_prefix gs hgs cl pos) (gridPts_ne gs hgs cl pos)
    hcall hres hd hpost hw hws hT hTs
  have hms' : (w cfg.snapKey).rgs = [] := by
    unfold KeyCfg.snapKey
    split
    · rename_i h; exact hms h
    · exact hm
  subst hrows
  have hmain := fun hv => C50_replayed hk hi hKL hl hb ⟨_, rfl, frameOk_init O get hSL.init hL⟩ hm hms' ha h hc hsafe
    (as3 := []) (a3 := { a2 with finalWrite := true }) rfl
    (V := SnapsValid pos (cl == .right) (decide (cfg.resType = .both)) (xBins (cl == .right) n pos) _) ⟨hasc, hv⟩
    (by rw [List.nil_append, C50_again]; exact List.prefix_refl _) h3
  have hpts : ∀ q : List R, ((gridPts (cl == .right) gs.labelRight gs.origin0 gs.freq pos q).map Prod.fst).Pairwise
      (· < ·) := fun q => by rw [gridPts_fst]; exact gridSpec_strict _ _ _ _ _ _ hgs.1
  refine ⟨one, sns, h1, h2', fun hr => ?_, fun hr hst => ?_⟩
  · obtain ⟨e1, e2⟩ := hmain fun q hq => ⟨xBins_labels _ n hn pos _, hsep q hq, by simp [hr], hpts q⟩
    have := e2 hres _ rfl
    rw [show cfg.snapKey = cfg.main by simp [KeyCfg.snapKey, hr]] at this
    rw [this, h4]; rfl
  · rw [h2, binRes_fst] at hst
    obtain ⟨e1, e2⟩ := hmain fun q hq => ⟨xBins_labels _ n hn pos _, hsep q hq, fun _ =>
      (binsValid_of (ordered := none) hL hasc (by simp) hst).2.2 q hq, hpts q⟩
    have := e2 hres _ rfl
    rw [show cfg.snapKey = cfg.snap by simp [KeyCfg.snapKey, hr]] at this
    rw [this, h4, e1 (by simp [hr]), h2]
    exact ⟨rfl, rfl⟩

end

/-! ### Examples -/

/-- Result of calls, then of another stream created from the store. -/
def exThen {S : Type} (s0 : S) (c : Config Nat (Int × Int) (List (List Int)) S Unit Unit Nat)
    (as : List (Call (Int × Int))) (r : Except Err (State (List (List Int)) S Unit Unit × ExWorld S)) :
    Except Err (State (List (List Int)) S Unit Unit × ExWorld S) :=
  match r with
  | .error e => .error e
  | .ok (_, w) =>
    match initBuffers s0 () () c w with
    | .error e => .error e
    | .ok s => aggs c as s w

/-- Exception raised. -/
def exErr {α : Type} : Except Err α → Option Err
  | .error e => some e
  | .ok _ => none

def ex0 : ExBuf := Buf.init {}

/-- Keys 0 and 1, the second one for rows of value above 10. -/
def exConf2 (maxSize : Nat) : Config Nat (Int × Int) (List (List Int)) ExBuf Unit Unit Nat where
  ord := Prod.fst
  filters := [(0, none), (1, some fun l => .ok (l.map fun r => decide (10 < r.2)))]
  keys := [(0, exKey 0 maxSize), (1, exKey 1 maxSize)]
  truthy := fun i => decide (i ≠ 0)

theorem exConf_apart (maxSize : Nat) : Apart (exConf2 maxSize).keys := by
  refine List.pairwise_pair.2 ?_
  rintro k (rfl | ⟨h, -⟩)
  · rintro (h | ⟨h, -⟩)
    · cases h
    · cases h
  · cases h

-- C49: two sessions, or one
example :
    exStored 0 ((sessions ex0 () () (exConf2 1) [[⟨exSeed1, false, false, true⟩], [⟨exSeed2, false, false, true⟩]]
      exWorld).map fun w => (exState 2 ex0, w)) =
    exStored 0 (aggs (exConf2 1) [⟨exSeed1, false, false, true⟩, ⟨exSeed2, false, false, true⟩] (exState 2 ex0) exWorld) ∧
    exStored 1 ((sessions ex0 () () (exConf2 1) [[⟨exSeed1, false, false, true⟩], [⟨exSeed2, false, false, true⟩]]
      exWorld).map fun w => (exState 2 ex0, w)) =
    some [[(20, some [[16, 16]]), (30, some [[96, 64]]), (40, some [[128, 128]])]] := ⟨rfl, rfl⟩

-- C49: the hypotheses hold, for any two sessions that both write
example (a1 a2 : Call (Int × Int)) (h1 : a1.finalWrite = true) (h2 : a2.finalWrite = true)
    (hi : (iterAfter (exConf2 1) [a1] none ()).1 = some 25) :
    sessions ex0 () () (exConf2 1) [[a1], [a2]] exWorld =
      (aggs (exConf2 1) [a1, a2] (exState 2 ex0) exWorld).map Prod.snd := by
  refine C49_sessions (s := exState 2 ex0) (exConf_apart 1) (by simp [exConf2]) ?_ ?_ ex0 () () ?_ rfl ?_ rfl ?_
  · intro k hk h
    simp only [exConf2, List.mem_cons, List.not_mem_nil, or_false] at hk
    rcases hk with rfl | rfl <;> cases h
  · intro k hk
    simp only [exConf2, List.mem_cons, List.not_mem_nil, or_false] at hk
    rcases hk with rfl | rfl <;> exact answers_frame _ _ _ _ _ _ _ _
  · intro as has
    simp only [List.mem_cons, List.not_mem_nil, or_false] at has
    rcases has with rfl | rfl
    · exact ⟨[], a1, rfl, h1⟩
    · exact ⟨[], a2, rfl, h2⟩
  · intro b hb
    rw [List.eq_of_mem_replicate hb]; rfl
  · intro n h0 hn
    have : n = 1 := by simp at hn; omega
    subst this
    exact ⟨25, hi, rfl⟩

-- C53: metadata of the key without results also
example : (aggs (exConf2 100) [⟨exSeed1, false, false, true⟩] (exState 2 ex0) exWorld).toOption.map
      (fun x => ((x.2 0).md.map Md.restart, (x.2 1).md.map Md.restart, (x.2 1).rgs.length)) =
    some (some 25, some 25, 0) := rfl

/-- An index that is 0 is not recorded: after the write, a new stream is refused. -/
theorem C53_zero_fails :
    (aggs (exConf [(0, exKey 0 100)]) [⟨[[(-5, 1), (0, 2)]], false, false, true⟩] (exState 1 ex0) exWorld).toOption.map
      (fun x => ((x.2 0).inStore, (x.2 0).md.map Md.restart, (x.2 0).rgs.map RG.rows)) =
      some (true, none, [[(-10, some [[1, 1]]), (0, some [[2, 2]])]]) ∧
    exErr (exThen ex0 (exConf [(0, exKey 0 100)]) []
      (aggs (exConf [(0, exKey 0 100)]) [⟨[[(-5, 1), (0, 2)]], false, false, true⟩] (exState 1 ex0) exWorld)) =
      some .notAggStream := ⟨rfl, rfl⟩

-- C55: a store accepted, two refused
example :
    exErr (initBuffers ex0 () () (exConf2 100) (fun k => if k = 0 then ⟨[], some ⟨5, (), ex0, ()⟩, true⟩ else {})) = none ∧
    exErr (initBuffers ex0 () () (exConf2 100) (fun _ => ⟨[], some ⟨5, (), ex0, ()⟩, true⟩)) = none ∧
    exErr (initBuffers ex0 () () (exConf2 100) (fun k => ⟨[], some ⟨k, (), ex0, ()⟩, true⟩)) = some .diverging ∧
    exErr (initBuffers ex0 () () (exConf2 100) (fun k => ⟨[], if k = 1 then none else some ⟨5, (), ex0, ()⟩, true⟩)) =
      some .notAggStream := ⟨rfl, rfl, rfl, rfl⟩

/-- A key added to a stream that has results is accepted, and holds results on the rows that follow only. -/
theorem C55_added_key_fails :
    exStored 1 (exThen ex0 (exConf [(0, exKey 0 100), (0, exKey 1 100)]) [⟨exSeed1 ++ exSeed2, true, false, true⟩]
      (aggs (exConf [(0, exKey 0 100)]) [⟨exSeed1, false, true, true⟩] (exState 1 ex0) exWorld)) =
      some [[(20, some [[24, 16]]), (30, some [[96, 64]]), (40, some [[128, 128]])]] ∧
    exStored 1 (aggs (exConf [(0, exKey 0 100), (0, exKey 1 100)])
      [⟨exSeed1, false, true, true⟩, ⟨exSeed1 ++ exSeed2, true, false, true⟩] (exState 2 ex0) exWorld) =
      some [[(0, some [[1, 1]]), (10, some [[6, 4]]), (20, some [[24, 16]]), (30, some [[96, 64]]),
        (40, some [[128, 128]])]] := ⟨rfl, rfl⟩

-- C50: a call stopped after an intermediate write that changed what is stored, then run again
example :
    exStored 0 (aggs (exConf [(0, exKey 0 0)])
      [⟨exSeed1, false, false, true⟩, ⟨exSeed2 ++ [[(42, 256)]], false, false, false⟩] (exState 1 ex0) exWorld) =
      some [[(0, some [[1, 1]]), (10, some [[6, 4]]), (20, some [[24, 16]]), (30, some [[96, 64]])]] ∧
    exStored 0 (exThen ex0 (exConf [(0, exKey 0 0)]) [⟨exSeed2, false, false, true⟩] (aggs (exConf [(0, exKey 0 0)])
      [⟨exSeed1, false, false, true⟩, ⟨exSeed2 ++ [[(42, 256)]], false, false, false⟩] (exState 1 ex0) exWorld)) =
      some [[(0, some [[1, 1]]), (10, some [[6, 4]]), (20, some [[24, 16]]), (30, some [[96, 64]]),
        (40, some [[128, 128]])]] := ⟨rfl, rfl⟩

-- C50: same with bins of two rows, stopped within a bin; the replay has other chunks
example :
    exStored 0 (aggs (exConf [(0, exRows 2 0)]) [⟨[[(1, 1), (2, 2)], [(3, 4)]], false, false, true⟩,
        ⟨[[(4, 8), (5, 16)], [(6, 32), (7, 64)], [(8, 128)]], false, false, false⟩] (exState 1 (Buf.init none)) exWorld) =
      some [[(1, some [[3, 2]]), (3, some [[12, 8]]), (5, some [[48, 32]])]] ∧
    exStored 0 (exThen (Buf.init none) (exConf [(0, exRows 2 0)]) [⟨[[(4, 8), (5, 16), (6, 32)], [(7, 64)]], false, false, true⟩]
      (aggs (exConf [(0, exRows 2 0)]) [⟨[[(1, 1), (2, 2)], [(3, 4)]], false, false, true⟩,
        ⟨[[(4, 8), (5, 16)], [(6, 32), (7, 64)], [(8, 128)]], false, false, false⟩] (exState 1 (Buf.init none)) exWorld)) =
      some [[(1, some [[3, 2]]), (3, some [[12, 8]]), (5, some [[48, 32]]), (7, some [[64, 64]])]] := ⟨rfl, rfl⟩

-- C50: same with bins and snapshots
example :
    exStored 1 (aggs (exConf [(0, exBoth 0 none)]) [⟨[[(-8, 1), (-2, 2)]], false, false, true⟩,
        ⟨exSeedB ++ [[(24, 32)]], false, false, false⟩] (exState 1 ex0) exWorld) =
      some [[(-5, some [[1, 1]]), (0, some [[3, 2]]), (5, some [[3, 2]]), (10, some [[7, 4]])]] ∧
    exStored 1 (exThen ex0 (exConf [(0, exBoth 0 none)]) [⟨exSeedB, false, false, true⟩]
      (aggs (exConf [(0, exBoth 0 none)]) [⟨[[(-8, 1), (-2, 2)]], false, false, true⟩,
        ⟨exSeedB ++ [[(24, 32)]], false, false, false⟩] (exState 1 ex0) exWorld)) =
      some [[(-5, some [[1, 1]]), (0, some [[3, 2]]), (5, some [[3, 2]]), (10, some [[7, 4]])], [(15, some [[24, 16]])]] :=
  ⟨rfl, rfl⟩

-- C50 with `max_nirgs`: after the final write the dataset begins with a complete row group, and another one follows
example :
    (aggs (exConf [(0, exNirgs 0 2 1)]) [⟨[[(1, 1)], [(12, 2), (23, 4)]], false, false, true⟩] (exState 1 ex0) exWorld).toOption.map
      (fun x => (x.2 0).rgs.map fun g => g.rows.length) = some [2, 1] ∧
    exStored 0 (aggs (exConf [(0, exNirgs 0 2 1)]) [⟨[[(1, 1)], [(12, 2), (23, 4)]], false, false, true⟩,
        ⟨[[(24, 8)], [(35, 16)], [(46, 32)], [(57, 64)], [(68, 128)]], false, false, false⟩] (exState 1 ex0) exWorld) =
      some [[(0, some [[1, 1]]), (10, some [[2, 2]])], [(20, some [[12, 8]]), (30, some [[16, 16]])], [(40, some [[32, 32]])]] ∧
    exStored 0 (exThen ex0 (exConf [(0, exNirgs 0 2 1)])
        [⟨[[(24, 8), (35, 16)], [(46, 32)], [(57, 64), (68, 128)]], false, false, true⟩]
      (aggs (exConf [(0, exNirgs 0 2 1)]) [⟨[[(1, 1)], [(12, 2), (23, 4)]], false, false, true⟩,
        ⟨[[(24, 8)], [(35, 16)], [(46, 32)], [(57, 64)], [(68, 128)]], false, false, false⟩] (exState 1 ex0) exWorld)) =
      some [[(0, some [[1, 1]]), (10, some [[2, 2]])], [(20, some [[12, 8]]), (30, some [[16, 16]])],
        [(40, some [[32, 32]])], [(50, some [[64, 64]]), (60, some [[128, 128]])]] := ⟨rfl, rfl, rfl⟩

-- C50 with `max_nirgs`: the condition on row groups holds
example : ∃ s' w', aggs (exConf [(0, exNirgs 0 2 1)]) [⟨[[(1, 1)], [(12, 2), (23, 4)]], false, false, true⟩] (exState 1 ex0)
      exWorld = .ok (s', w') ∧ KeySafe (exNirgs 0 2 1) w' := by
  refine ⟨_, _, rfl, Or.inr ⟨2, _, _, _, rfl, rfl, by decide⟩, fun h => by cases h⟩

/-- With `max_nirgs`, a replay cut otherwise than the interrupted call may store rows twice: its first write overlaps all
row groups, from the first one, and is appended after the complete ones. -/
theorem C50_max_nirgs_fails :
    exStored 0 (aggs (exConf [(0, exNirgs 0 2 1)]) [⟨[[(1, 1)]], false, false, true⟩,
        ⟨[[(2, 2)], [(12, 4)], [(23, 8)], [(34, 16)], [(45, 32)]], false, false, false⟩] (exState 1 ex0) exWorld) =
      some [[(0, some [[3, 2]]), (10, some [[4, 4]])], [(20, some [[8, 8]])]] ∧
    exStored 0 (exThen ex0 (exConf [(0, exNirgs 0 2 1)])
        [⟨[[(2, 2), (12, 4)], [(23, 8)], [(34, 16)], [(45, 32)]], false, false, true⟩]
      (aggs (exConf [(0, exNirgs 0 2 1)]) [⟨[[(1, 1)]], false, false, true⟩,
        ⟨[[(2, 2)], [(12, 4)], [(23, 8)], [(34, 16)], [(45, 32)]], false, false, false⟩] (exState 1 ex0) exWorld)) =
      some [[(0, some [[3, 2]]), (10, some [[4, 4]])], [(0, some [[3, 2]]), (10, some [[4, 4]])], [(20, some [[8, 8]])],
        [(30, some [[16, 16]]), (40, some [[32, 32]])]] := ⟨rfl, rfl⟩

/-- Without any final write before the crash, what is stored has no metadata: a new stream is refused. -/
theorem C50_first_run_fails :
    exErr (exThen ex0 (exConf [(0, exKey 0 0)]) [⟨exSeed1, false, false, true⟩] (aggs (exConf [(0, exKey 0 0)])
      [⟨exSeed1 ++ exSeed2, false, false, false⟩] (exState 1 ex0) exWorld)) = some .notAggStream := rfl

/-- Same if a key had no results at the time of the final write: the metadata recorded then is lost by the first write of
rows. -/
theorem C50_metadata_only_fails :
    exErr (exThen ex0 (exConf2 0) [] (aggs (exConf2 0) [⟨exSeed1, false, false, true⟩] (exState 2 ex0) exWorld)) = none ∧
    exErr (exThen ex0 (exConf2 0) [] (aggs (exConf2 0) [⟨exSeed1, false, false, true⟩, ⟨exSeed2 ++ [[(52, 256)]], false, false, false⟩]
      (exState 2 ex0) exWorld)) = some .notAggStream := ⟨rfl, rfl⟩

/-- Store with the datasets `l` of the second one, others being those of the first one. -/
def exMix {S : Type} (l : List Nat) (a b : Except Err (State (List (List Int)) S Unit Unit × ExWorld S)) :
    Except Err (State (List (List Int)) S Unit Unit × ExWorld S) :=
  match a, b with
  | .ok (s, w), .ok (_, w') => .ok (s, fun k => if k ∈ l then w' k else w k)
  | .error e, _ => .error e
  | _, .error e => .error e

/-- A crash between the final writes of two keys: a new stream is refused. -/
theorem C50_between_keys_fails :
    exErr (exThen ex0 (exConf2 100) [] (exMix [0]
      (aggs (exConf2 100) [⟨exSeed1, false, false, true⟩] (exState 2 ex0) exWorld)
      (aggs (exConf2 100) [⟨exSeed1, false, false, true⟩, ⟨exSeed2, false, false, true⟩] (exState 2 ex0) exWorld))) =
    some .diverging := rfl

/-- A crash between the two final writes of a pair of keys: a new stream goes on after the rows aggregated, without the
snapshots that were not written. -/
theorem C50_within_pair_fails :
    exStored 1 (exThen ex0 (exConf [(0, exBoth 100 none)]) [⟨exSeedB ++ [[(24, 32), (28, 64)]], true, false, true⟩] (exMix [0]
      (aggs (exConf [(0, exBoth 100 none)]) [⟨[[(1, 1), (2, 2)]], false, true, true⟩] (exState 1 ex0) exWorld)
      (aggs (exConf [(0, exBoth 100 none)]) [⟨[[(1, 1), (2, 2)]], false, true, true⟩,
        ⟨exSeedB, true, true, true⟩] (exState 1 ex0) exWorld))) =
      some [[(5, some [[1, 1]])], [(15, some [[24, 16]]), (20, some [[24, 16]]), (25, some [[32, 32]]), (30, some [[96, 64]])]] ∧
    exStored 1 (exThen ex0 (exConf [(0, exBoth 100 none)]) [⟨exSeedB ++ [[(24, 32), (28, 64)]], true, false, true⟩]
      (aggs (exConf [(0, exBoth 100 none)]) [⟨[[(1, 1), (2, 2)]], false, true, true⟩,
        ⟨exSeedB, true, true, true⟩] (exState 1 ex0) exWorld)) =
      some [[(5, some [[3, 2]]), (10, some [[7, 4]]), (15, some [[24, 16]]), (20, some [[24, 16]]), (25, some [[32, 32]]),
        (30, some [[96, 64]])]] := ⟨rfl, rfl⟩

-- `C50_time_bins`: a call that stops after writes on the way, then runs again from what it left
example : ∃ s' w' s1 wc s'' w'',
    aggs (exConf [(0, exKey 0 0)]) [⟨exSeed1, false, false, true⟩] (exState 1 ex0) exWorld = .ok (s', w') ∧
    agg (exConf [(0, exKey 0 0)]) ⟨exSeed2 ++ [[(42, 256)]], false, false, false⟩ s' w' = .ok (s1, wc, false) ∧
    (w' 0).rgs.map RG.rows ≠ (wc 0).rgs.map RG.rows ∧
    aggs (exConf [(0, exKey 0 0)]) [⟨exSeed2 ++ [[(42, 256)]], false, false, true⟩] s' wc = .ok (s'', w'') ∧
    ∃ one, frameCall (fun _ => intOps) ex_get ex_cfg exZ (grouperFn { freq := 10 } Prod.fst) none none false
        [(1, 1), (12, 2), (13, 4), (25, 8), (26, 16), (38, 32), (39, 64), (41, 128), (42, 256)] none = .ok (some one, none) ∧
      readRows (w'' 0).rgs = one.bins.map id := by
  have hap : Apart (exConf [(0, exKey 0 0)]).keys := by simp [Apart, exConf]
  refine ⟨_, _, _, _, _, _, rfl, rfl, by decide +kernel, rfl, C50_time_bins (emb := id) (e0 := true) (gB := id) (gS := id) (on := 0)
    (d := .one 0) (q0 := ()) (s := exState 1 ex0) (w := exWorld) (i := 0) (f := 0) (c := exConf [(0, exKey 0 0)]) (cfg := exKey 0 0)
    (as := []) (a := ⟨exSeed1, false, false, true⟩) (a2 := ⟨exSeed2 ++ [[(42, 256)]], false, false, false⟩)
    (fun _ : Unit => intOps) ex_get (dtype := fun _ => some ()) (agg := [(0, 0, some .sum), (1, 0, some .last)]) (gc := ex_cfg) exZ
    hap rfl rfl { freq := 10 } ⟨by decide, .inr (.inr ⟨rfl, by decide⟩)⟩ Prod.fst none (exEmbeds _) rfl ⟨rfl, rfl⟩
    ⟨rfl, rfl, by decide, by decide⟩ exKey_byLabel rfl rfl rfl rfl rfl (crash_of_agg (e := false) hap rfl rfl rfl)
    ⟨.inl rfl, fun h => by cases h⟩ ?_ (by simp) (by simp [AscOn]) (by simp) rfl⟩
  rfl

-- `C50_restart` for the same calls: another process starts in the state of the first one after its final write
example : ∃ s' w' s1 wc, aggs (exConf [(0, exKey 0 0)]) [⟨exSeed1, false, false, true⟩] (exState 1 ex0) exWorld = .ok (s', w') ∧
    agg (exConf [(0, exKey 0 0)]) ⟨exSeed2 ++ [[(42, 256)]], false, false, false⟩ s' w' = .ok (s1, wc, false) ∧
    initBuffers ex0 () () (exConf [(0, exKey 0 0)]) wc = .ok s' := by
  have hap : Apart (exConf [(0, exKey 0 0)]).keys := by simp [Apart, exConf]
  have hk : ∀ k ∈ (exConf [(0, exKey 0 0)]).keys, k = (0, exKey 0 0) := by simp [exConf]
  refine ⟨_, _, _, _, rfl, rfl, C50_restart (c := exConf [(0, exKey 0 0)]) (s := exState 1 ex0) (w := exWorld)
    (as := []) (a := ⟨exSeed1, false, false, true⟩) (a2 := ⟨exSeed2 ++ [[(42, 256)]], false, false, false⟩) (i := 25) hap
    (by simp [exConf]) (fun k h => ?_) rfl (fun k h x _ => rfl) rfl rfl rfl rfl (fun k h => ?_)
    (crash_of_agg (e := false) hap rfl rfl rfl) (fun k h => ?_) ()⟩
  · rw [hk k h]; exact answers_frame _ _ _ _ _ _ _ _
  · rw [hk k h]; exact fun h => by cases h
  · rw [hk k h]
    refine streamed_time_bins (cfg := exKey 0 0) (emb := id) (e0 := true) (gB := id) (gS := id) (on := 0) (d := .one 0) (fun _ : Unit => intOps)
      ex_get (dtype := fun _ => some ()) (agg := [(0, 0, some .sum), (1, 0, some .last)]) (gc := ex_cfg) exZ rfl { freq := 10 }
      ⟨by decide, .inr (.inr ⟨rfl, by decide⟩)⟩ Prod.fst none (exEmbeds _) rfl ⟨rfl, rfl⟩ ⟨rfl, rfl, by decide, by decide⟩
      exKey_byLabel ?_ (by simp)
    show AscOn _ [((1 : Int), (1 : Int)), (12, 2), (13, 4), (25, 8), (26, 16), (38, 32), (39, 64), (41, 128), (42, 256)]
    simp [AscOn]

-- `C50_rows_bins`: same with bins of two rows, the process stopping within a bin
example : ∃ s' w' s1 wc s'' w'',
    aggs (exConf [(0, exRows 2 0)]) [⟨exSeed1, false, false, true⟩] (exState 1 (Buf.init none)) exWorld = .ok (s', w') ∧
    agg (exConf [(0, exRows 2 0)]) ⟨[[(26, 16), (27, 32)], [(28, 64), (29, 128)], [(30, 256)]], false, false, false⟩ s' w' =
      .ok (s1, wc, false) ∧
    (w' 0).rgs.map RG.rows ≠ (wc 0).rgs.map RG.rows ∧
    aggs (exConf [(0, exRows 2 0)]) [⟨[[(26, 16), (27, 32)], [(28, 64), (29, 128)], [(30, 256)]], false, false, true⟩] s' wc =
      .ok (s'', w'') ∧
    ∃ one, frameCall (fun _ => intOps) ex_get ex_cfg exZ (rowsFn 2 .left Prod.fst) none none false
        [(1, 1), (12, 2), (13, 4), (25, 8), (26, 16), (27, 32), (28, 64), (29, 128), (30, 256)] none = .ok (some one, none) ∧
      ((one.bins.map Prod.fst).Pairwise (· < ·) → readRows (w'' 0).rgs = one.bins.map id) := by
  have hap : Apart (exConf [(0, exRows 2 0)]).keys := by simp [Apart, exConf]
  refine ⟨_, _, _, _, _, _, rfl, rfl, by decide +kernel, rfl, C50_rows_bins (emb := id) (e0 := true) (gB := id) (gS := id) (on := 0)
    (d := .one 0) (q0 := ()) (s := exState 1 (Buf.init none)) (w := exWorld) (i := 0) (f := 0) (c := exConf [(0, exRows 2 0)])
    (cfg := exRows 2 0) (as := []) (a := ⟨exSeed1, false, false, true⟩)
    (a2 := ⟨[[(26, 16), (27, 32)], [(28, 64), (29, 128)], [(30, 256)]], false, false, false⟩)
    (fun _ : Unit => intOps) ex_get (dtype := fun _ => some ()) (agg := [(0, 0, some .sum), (1, 0, some .last)]) (gc := ex_cfg) exZ
    hap rfl rfl 2 (by decide) .left Prod.fst none (exEmbeds _) rfl ⟨rfl, rfl⟩
    ⟨rfl, rfl, by decide, by decide⟩ exKey_byLabel rfl rfl rfl rfl rfl (crash_of_agg (e := false) hap rfl rfl rfl)
    ⟨.inl rfl, fun h => by cases h⟩ ?_ (by simp) (by simp) rfl⟩
  rfl

-- `C50_time_snaps`: same with a pair of keys
example : ∃ s' w' s1 wc s'' w'',
    aggs (exConf [(0, exBoth 0 none)]) [⟨[[(-8, 1), (-2, 2)]], false, false, true⟩] (exState 1 ex0) exWorld = .ok (s', w') ∧
    agg (exConf [(0, exBoth 0 none)]) ⟨exSeedB ++ [[(24, 32)]], false, false, false⟩ s' w' = .ok (s1, wc, false) ∧
    (w' 1).rgs.map RG.rows ≠ (wc 1).rgs.map RG.rows ∧
    aggs (exConf [(0, exBoth 0 none)]) [⟨exSeedB ++ [[(24, 32)]], false, false, true⟩] s' wc = .ok (s'', w'') ∧
    ∃ one sns, frameCall (fun _ => intOps) ex_get ex_cfg exZ (grouperFn { freq := 10 } Prod.fst) (some Prod.fst)
        (some (.grouper { freq := 5, labelRight := true })) false
        [(-8, 1), (-2, 2), (1, 1), (2, 2), (7, 4), (12, 8), (13, 16), (24, 32)] none = .ok (some one, none) ∧
      one.snaps = some sns ∧ (ResType.both = .snaps → readRows (w'' 0).rgs = sns.map id) ∧
      (ResType.both = .both → readRows (w'' 0).rgs = one.bins.map id ∧ readRows (w'' 1).rgs = sns.map id) := by
  have hap : Apart (exConf [(0, exBoth 0 none)]).keys := by simp [Apart, exConf]
  refine ⟨_, _, _, _, _, _, rfl, rfl, by decide +kernel, rfl, C50_time_snaps (emb := id) (e0 := true) (gB := id) (gS := id) (on := 0)
    (d := .one 0) (q0 := ()) (s := exState 1 ex0) (w := exWorld) (i := 0) (f := 0) (c := exConf [(0, exBoth 0 none)])
    (cfg := exBoth 0 none) (as := []) (a := ⟨[[(-8, 1), (-2, 2)]], false, false, true⟩)
    (a2 := ⟨exSeedB ++ [[(24, 32)]], false, false, false⟩)
    (fun _ : Unit => intOps) ex_get (dtype := fun _ => some ()) (agg := [(0, 0, some .sum), (1, 0, some .last)]) (gc := ex_cfg) exZ
    hap rfl rfl { freq := 10 } ⟨by decide, .inr (.inr ⟨rfl, by decide⟩)⟩ { freq := 5, labelRight := true }
    ⟨by decide, .inr (.inr ⟨rfl, by decide⟩)⟩ Prod.fst (exEmbeds _) (by simp [exBoth]) (by simp [exBoth])
    ⟨rfl, rfl⟩ ⟨rfl, rfl, by decide, by decide⟩ (fun _ => ⟨rfl, rfl, by decide, by decide⟩) (fun _ => exKey_byLabel)
    exKey_byLabel rfl rfl rfl (fun _ => rfl) rfl rfl (crash_of_agg (e := false) hap rfl rfl rfl)
    ⟨.inl rfl, fun _ => .inl rfl⟩ ?_ (by simp) (by simp [AscOn]) rfl⟩
  rfl

-- `C50_rows_snaps`: same with snapshots of bins of two rows
example : ∃ s' w' s1 wc s'' w'',
    aggs (exConf [(0, exRowSnaps 0)]) [⟨[[(-8, 1), (-2, 2)]], false, false, true⟩] (exState 1 (Buf.init none)) exWorld = .ok (s', w') ∧
    agg (exConf [(0, exRowSnaps 0)]) ⟨exSeedB ++ [[(24, 32)]], false, false, false⟩ s' w' = .ok (s1, wc, false) ∧
    (w' 0).rgs.map RG.rows ≠ (wc 0).rgs.map RG.rows ∧
    aggs (exConf [(0, exRowSnaps 0)]) [⟨exSeedB ++ [[(24, 32)]], false, false, true⟩] s' wc = .ok (s'', w'') ∧
    ∃ one sns, frameCall (fun _ => intOps) ex_get ex_cfg exZ (rowsFn 2 .left Prod.fst) (some Prod.fst)
        (some (.grouper { freq := 5, labelRight := true })) false
        [(-8, 1), (-2, 2), (1, 1), (2, 2), (7, 4), (12, 8), (13, 16), (24, 32)] none = .ok (some one, none) ∧
      one.snaps = some sns ∧ (ResType.snaps = .snaps → readRows (w'' 0).rgs = sns.map id) ∧
      (ResType.snaps = .both → (one.bins.map Prod.fst).Pairwise (· < ·) →
        readRows (w'' 0).rgs = one.bins.map id ∧ readRows (w'' 0).rgs = sns.map id) := by
  have hap : Apart (exConf [(0, exRowSnaps 0)]).keys := by simp [Apart, exConf]
  refine ⟨_, _, _, _, _, _, rfl, rfl, by decide +kernel, rfl, C50_rows_snaps (emb := id) (e0 := true) (gB := id) (gS := id) (on := 0)
    (d := .one 0) (q0 := ()) (s := exState 1 (Buf.init none)) (w := exWorld) (i := 0) (f := 0) (c := exConf [(0, exRowSnaps 0)])
    (cfg := exRowSnaps 0) (as := []) (a := ⟨[[(-8, 1), (-2, 2)]], false, false, true⟩)
    (a2 := ⟨exSeedB ++ [[(24, 32)]], false, false, false⟩)
    (fun _ : Unit => intOps) ex_get (dtype := fun _ => some ()) (agg := [(0, 0, some .sum), (1, 0, some .last)]) (gc := ex_cfg) exZ
    hap rfl rfl 2 (by decide) .left { freq := 5, labelRight := true }
    ⟨by decide, .inr (.inr ⟨rfl, by decide⟩)⟩ Prod.fst (exEmbeds _) (by simp [exRowSnaps]) (by simp [exRowSnaps])
    ⟨rfl, rfl⟩ ⟨rfl, rfl, by decide, by decide⟩ (fun _ => ⟨rfl, rfl, by decide, by decide⟩) (fun _ => exKey_byLabel)
    exKey_byLabel rfl rfl rfl (fun _ => rfl) rfl rfl (crash_of_agg (e := false) hap rfl rfl rfl)
    ⟨.inl rfl, fun h => by cases h⟩ ?_ (by simp) (by simp [AscOn]) (by simp) rfl⟩
  rfl

end Oups.AggStream
