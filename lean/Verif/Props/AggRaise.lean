import Verif.Proofs.AggRaise
import Verif.Props.AggRestart
/-! Exceptions raised in `agg`: what is left, and how to go on. C66. -/
set_option linter.unusedSimpArgs false
namespace Oups.AggStream
open Oups.Agg Oups.Agg.Spec Oups.Segment Oups.Segment.Spec
open Oups.Writer (Table Params RG Col DupOn dupCols readRows StrictOn)

section
variable {K R A S P Q F : Type} [DecidableEq K] [DecidableEq F]
variable {left : List R → S → S}

/-- **C66** The model that describes what exceptions leave and the one that does not agree. -/
theorem C66_same (c : Config K R A S P Q F) (a : Call R) (s : State A S P Q) (w : World K A (Md S P Q)) :
    agg c a s w = match aggR c left a s w with
      | .done s w e => .ok (s, w, e)
      | .seed _ _ e => .error (.iter e)
      | .job _ _ _ e => .error e
      | .final e => .error e := by
  simp only [agg, aggR]
  rcases iterData c.ord s.restart c.pre s.pre c.filters a.trimStart a.discardLast a.seed with ⟨ys, pb, exc⟩
  simp only [aggLoopR_eq (left := left)]
  rcases aggLoopR c left ys s.restart s.bufs w with ⟨r, bs, w1, _ | e⟩
  · simp only
    split
    · split
      · cases finalWrite c ⟨r, pb, bs⟩ w1 with
        | error e => rfl
        | ok x => rfl
      · rfl
    · rfl
  · rfl

/-- **C66** Jobs one after the other leave what jobs in parallel may leave. -/
theorem C66_left {c : Config K R A S P Q F} (hk : Apart c.keys) {a : Call R} {s : State A S P Q}
    {w wc : World K A (Md S P Q)} {r : Option Int} {bs : List (KeyBuf A S Q)} {e : Err}
    (h : aggR c left a s w = .job r bs wc e) : ∃ done, Left c left a s w done bs wc := by
  simp only [aggR] at h
  rcases hit : iterData c.ord s.restart c.pre s.pre c.filters a.trimStart a.discardLast a.seed with ⟨ys, pb, exc⟩
  simp only [hit] at h
  rcases hl : aggLoopR c left ys s.restart s.bufs w with ⟨r1, bs1, w1, _ | e1⟩
  · simp only [hl] at h
    split at h
    · split at h
      · cases hf : finalWrite c ⟨r1, pb, bs1⟩ w1 with
        | error e => simp [hf] at h
        | ok x => simp [hf] at h
      · simp at h
    · simp at h
  · simp only [hl, AggOut.job.injEq] at h
    obtain ⟨-, rfl, rfl, -⟩ := h
    have hx : ∀ i : Nat, ∃ done, ∀ k b, c.keys[i]? = some k → s.bufs[i]? = some b →
        ∃ b', bs1[i]? = some b' ∧ KeyLeft k.2 left c.truthy (callFrames c a s k.1) b w done b' w1 := by
      intro i
      cases hi : c.keys[i]? with
      | none => exact ⟨[], fun k b h => by cases h⟩
      | some k =>
        cases hb : s.bufs[i]? with
        | none => exact ⟨[], fun k b _ h => by cases h⟩
        | some b =>
          obtain ⟨done, b', e1, e2⟩ := aggLoopR_left hk hl hi hb
          refine ⟨done, fun k' b2 h1 h2 => ?_⟩
          cases h1
          cases h2
          exact ⟨b', e1, by simpa only [callFrames, hit] using e2⟩
    choose done hdone using hx
    exact ⟨done, fun i k b hi hb => hdone i k b hi hb⟩

/-- **C66** When a job raises, the restart index is that of the last frame all the keys have processed. -/
theorem C66_index {c : Config K R A S P Q F} {a : Call R} {s : State A S P Q} {w wc : World K A (Md S P Q)}
    {r : Option Int} {bs : List (KeyBuf A S Q)} {e : Err} (h : aggR c left a s w = .job r bs wc e) :
    ∃ ys y ys' bs1 w1, (iterData c.ord s.restart c.pre s.pre c.filters a.trimStart a.discardLast a.seed).1 = ys ++ y :: ys' ∧
      aggLoop c ys s.restart s.bufs w = .ok (r, bs1, w1) ∧ r = ((ys.getLast?.map Yield.last).or s.restart) ∧
      forKeys (fun f => decide (f = y.filt)) (fun cfg => aggIter cfg c.truthy y.rows) c.keys bs1 w1 = .error e := by
  simp only [aggR] at h
  rcases hit : iterData c.ord s.restart c.pre s.pre c.filters a.trimStart a.discardLast a.seed with ⟨ys, pb, exc⟩
  simp only [hit] at h
  rcases hl : aggLoopR c left ys s.restart s.bufs w with ⟨r1, bs1, w1, _ | e1⟩
  · simp only [hl] at h
    split at h
    · split at h
      · cases hf : finalWrite c ⟨r1, pb, bs1⟩ w1 with
        | error e => simp [hf] at h
        | ok x => simp [hf] at h
      · simp at h
    · simp at h
  · simp only [hl, AggOut.job.injEq] at h
    obtain ⟨rfl, rfl, rfl, rfl⟩ := h
    clear hit
    generalize s.restart = r0 at hl ⊢
    generalize s.bufs = b0 at hl
    induction ys generalizing r0 b0 w with
    | nil => simp [aggLoopR] at hl
    | cons y ys ih =>
      simp only [aggLoopR] at hl
      have heq := forKeysR_eq (sel := fun f => decide (f = y.filt)) (truthy := c.truthy) (left := left) (chunk := y.rows)
        (keys := c.keys) (bs := b0) (w := w)
      rcases hx : forKeysR (fun f => decide (f = y.filt)) (fun cfg => aggIterR cfg left c.truthy y.rows) c.keys b0 w with
        ⟨b2, w2, _ | e2⟩
      · simp only [hx] at hl heq
        obtain ⟨zs, z, zs', b3, w3, g1, g2, g3, g4⟩ := ih _ _ hl
        simp only at g1
        refine ⟨y :: zs, z, zs', b3, w3, by simp only [g1, List.cons_append], by simp only [aggLoop, heq, g2], ?_, g4⟩
        cases zs with
        | nil => simpa using g3
        | cons u us =>
          rw [g3, List.getLast?_cons_cons]
          cases h : (u :: us).getLast? with
          | none => simp at h
          | some v => rfl
      · simp only [hx, Prod.mk.injEq, Option.some.injEq] at hl heq
        obtain ⟨rfl, rfl, rfl, rfl⟩ := hl
        exact ⟨[], y, ys, b0, w, rfl, rfl, by simp, heq⟩

/-- A key after a final write, then a call in which jobs raised. -/
theorem key_left {c : Config K R A S P Q F} (hk : Apart c.keys) {i : Nat} {f : F} {cfg : KeyCfg K R A S Q}
    (hi : c.keys[i]? = some (f, cfg)) {V : List R → Prop} {FB : List R → List (Row A)}
    {FS : Option (List R → List (Row A))} {ok : List R → S → Prop} {gB gS : Row A → Row A} {on : Col} {d : DupOn}
    (L : KeyLaws cfg V FB FS ok gB gS on d) {s s' : State A S P Q} {w w' wc : World K A (Md S P Q)}
    (hl : s.bufs.length = c.keys.length) {s0 : S} {q0 : Q} (hb : s.bufs[i]? = some { seg := s0, post := q0 })
    (h0 : ok [] s0) (hm : (w cfg.main).rgs = []) (hs : (w cfg.snapKey).rgs = []) {as : List (Call R)} {a : Call R}
    (ha : a.finalWrite = true) (h : aggs c (as ++ [a]) s w = .ok (s', w')) {a2 : Call R} {done : Nat → List (List R)}
    {bs : List (KeyBuf A S Q)} (hc : Left c left a2 s' w' done bs wc)
    {new : List R} (hV : V (received c f (as ++ [a]) s.restart s.pre ++ new)) (hnew : (done i).flatten <+: new) :
    ∃ b, s'.bufs[i]? = some b ∧ b.Rest ∧ Kept cfg w' wc ∧ (KeySafe cfg w' →
      KInv cfg FB FS ok gB gS on d (received c f (as ++ [a]) s.restart s.pre ++ new)
        (received c f (as ++ [a]) s.restart s.pre) (received c f (as ++ [a]) s.restart s.pre) b wc) := by
  obtain ⟨b, hb', hrest, hinv⟩ := key_after hk hi L hl hb h0 hm hs ha (L.valid _ _ hV) h
  have hinv' := hinv.advance L hV ⟨new, rfl⟩ hrest
  obtain ⟨b', -, hcr⟩ := hc i _ b hi hb'
  obtain ⟨g1, g2⟩ := keyLeft_inv L hV (fun ch hch => by
      obtain ⟨y, hy, he⟩ := List.mem_map.1 hch
      rw [← he]
      exact iterLoop_ne_nil (Prod.ext rfl (Prod.ext rfl rfl)) y (List.mem_filter.1 hy).1)
    hrest hinv' ((List.prefix_append_right_inj _).2 hnew) hcr
  exact ⟨b, hb', hrest, g1, fun hsafe => g2 (hinv.loose hrest hsafe)⟩

/-- **C66** After a final write, jobs of a later call raise, the other ones being anywhere: if every key has rows in the
store, a new stream starts in the state after the final write. -/
theorem C66_restart {c : Config K R A S P Q F} (hk : Apart c.keys) (hne : c.keys ≠ [])
    {s s' : State A S P Q} {w w' wc : World K A (Md S P Q)} {s0 : S} {q0 : Q}
    (hb : s.bufs = List.replicate c.keys.length { seg := s0, post := q0 })
    (hw : ∀ k ∈ c.keys, ∀ x, k.2.touches x → (w x).rgs = []) {as : List (Call R)} {a : Call R} (ha : a.finalWrite = true)
    (h : aggs c (as ++ [a]) s w = .ok (s', w')) {i : Int} (hi : s'.restart = some i) (ht : c.truthy i = true)
    (hrows : ∀ k ∈ c.keys, (w' k.2.main).rgs ≠ []) {a2 : Call R} {done : Nat → List (List R)} {bs : List (KeyBuf A S Q)}
    (hcr : Left c left a2 s' w' done bs wc)
    (hlaw : ∀ (n : Nat) k, c.keys[n]? = some k →
      Streamed k.2 s0 (received c k.1 (as ++ [a]) s.restart s.pre ++ (done n).flatten))
    (p0 : P) : initBuffers s0 p0 q0 c wc = .ok s' := by
  have hl : s.bufs.length = c.keys.length := by rw [hb, List.length_replicate]
  have hd : ∀ k ∈ c.keys, k.2.resType = .both → k.2.main ≠ k.2.snap := by
    intro k hkm
    obtain ⟨n, hn⟩ := List.mem_iff_getElem?.1 hkm
    obtain ⟨V, FB, FS, ok, gB, gS, on, d, L, -, -⟩ := hlaw n k hn
    exact L.distinct
  have hl' := aggs_length h hl
  obtain ⟨s1, w1, h1, h2⟩ := aggs_append h
  simp only [aggs] at h2
  cases hx : agg c a s1 w1 with
  | error e => simp [hx] at h2
  | ok x =>
    obtain ⟨s2, w2, e⟩ := x
    simp only [hx, Except.ok.injEq, Prod.mk.injEq] at h2
    obtain ⟨rfl, rfl⟩ := h2
    refine initBuffers_of_md hne hi hl' fun n k b hn hbn => ?_
    have hmem := List.mem_of_getElem? hn
    have hlt := (List.getElem?_eq_some_iff.1 hn).1
    obtain ⟨V, FB, FS, ok, gB, gS, on, d, L, hV, h0⟩ := hlaw n k hn
    obtain ⟨b', hb', hr', hkept, -⟩ := key_left hk hn L hl (s0 := s0) (q0 := q0) (by
      rw [hb, List.getElem?_replicate, if_pos hlt]) h0 (hw k hmem _ (touches_main k.2))
      (hw k hmem _ (touches_snapKey k.2)) ha h hcr hV (List.prefix_refl _)
    rw [hbn, Option.some.injEq] at hb'
    subst hb'
    obtain ⟨b2, hb2, hin, hmd⟩ := C53_recorded hk hd ha (aggs_length h1 hl) hx hi ht hn
    rw [hbn, Option.some.injEq] at hb2
    subst hb2
    obtain ⟨-, k2, k3⟩ := hkept (hrows k hmem)
    exact ⟨hr', k3 hin, k2.trans hmd⟩

/-- **C66** From that state, calls that bring again the rows that were processed before the exception, followed by any
others (the frame that made a job raise may be corrected), store the results on all these rows. -/
theorem C66_replayed {c : Config K R A S P Q F} (hk : Apart c.keys) {i : Nat} {f : F} {cfg : KeyCfg K R A S Q}
    (hi : c.keys[i]? = some (f, cfg)) {V : List R → Prop} {FB : List R → List (Row A)}
    {FS : Option (List R → List (Row A))} {ok : List R → S → Prop} {gB gS : Row A → Row A} {on : Col} {d : DupOn}
    (L : KeyLaws cfg V FB FS ok gB gS on d) {s s' s'' : State A S P Q} {w w' wc w'' : World K A (Md S P Q)}
    (hl : s.bufs.length = c.keys.length) {s0 : S} {q0 : Q} (hb : s.bufs[i]? = some { seg := s0, post := q0 })
    (h0 : ok [] s0) (hm : (w cfg.main).rgs = []) (hs : (w cfg.snapKey).rgs = []) {as : List (Call R)} {a : Call R}
    (ha : a.finalWrite = true) (h : aggs c (as ++ [a]) s w = .ok (s', w')) {a2 : Call R} {done : Nat → List (List R)}
    {bs : List (KeyBuf A S Q)} (hc : Left c left a2 s' w' done bs wc)
    (hsafe : KeySafe cfg w') {as3 : List (Call R)} {a3 : Call R} (ha3 : a3.finalWrite = true)
    (hV : V (received c f (as ++ [a]) s.restart s.pre ++ received c f (as3 ++ [a3]) s'.restart s'.pre))
    (hnew : (done i).flatten <+: received c f (as3 ++ [a3]) s'.restart s'.pre)
    (h3 : aggs c (as3 ++ [a3]) s' wc = .ok (s'', w'')) :
    (cfg.resType ≠ .snaps → readRows (w'' cfg.main).rgs =
      (FB (received c f (as ++ [a]) s.restart s.pre ++ received c f (as3 ++ [a3]) s'.restart s'.pre)).map gB) ∧
    (cfg.resType ≠ .bins → ∀ fs, FS = some fs → readRows (w'' cfg.snapKey).rgs =
      (fs (received c f (as ++ [a]) s.restart s.pre ++ received c f (as3 ++ [a3]) s'.restart s'.pre)).map gS) := by
  obtain ⟨b, hb', -, -, hinv⟩ := key_left hk hi L hl hb h0 hm hs ha h hc hV hnew
  have hinv := hinv hsafe
  obtain ⟨b', w1, g1, -, g3⟩ := aggs_key hk h3 (aggs_length h hl) hi hb'
  obtain ⟨ops, r', pb', hops⟩ := keyOpsAll_final c f as3 ha3 s'.restart s'.pre
  have hrows := opRows_keyOpsAll c f (as3 ++ [a3]) s'.restart s'.pre
  have hok := keyOpsAll_ok c f (as3 ++ [a3]) s'.restart s'.pre
  simp only at g1
  rw [hops] at g1 hrows hok
  rw [opRows_append] at hrows
  simp only [opRows, List.append_nil] at hrows
  rw [← hrows] at hinv hV ⊢
  obtain ⟨-, -, e1, e2⟩ := keyRun_final L (ops := ops) (fun ch hch => hok ch (List.mem_append_left _ hch)) hV hinv g1
  rw [← g3 cfg.main (touches_main cfg), ← g3 cfg.snapKey (touches_snapKey cfg)]
  exact ⟨e1, e2⟩

/-! ### Exceptions of the seed -/

/-- **C66** The iteration over the seed raises (anything but `SeedPreException`) after the chunks `good`: the stream and the
store are left as by a call on `good` without final write. -/
theorem C66_seed {c : Config K R A S P Q F} {good seed : List (List R)} {trim discard fin : Bool}
    {s : State A S P Q} {w : World K A (Md S P Q)} {ys : List (Yield F R)} {pb : P} {e : IterExc}
    (hg : iterData c.ord s.restart c.pre s.pre c.filters trim discard good = (ys, pb, none))
    (hb : iterData c.ord s.restart c.pre s.pre c.filters trim discard seed = (ys, pb, some e)) (he : e ≠ .seedPre) :
    match agg c ⟨good, trim, discard, false⟩ s w, aggR c left ⟨seed, trim, discard, fin⟩ s w with
    | .ok (s1, w1, _), .seed s2 w2 e2 => s1 = s2 ∧ w1 = w2 ∧ e2 = e
    | .error e1, .job _ _ _ e2 => e1 = e2
    | _, _ => False := by
  simp only [agg, aggR, hg, hb, aggLoopR_eq (left := left)]
  rcases aggLoopR c left ys s.restart s.bufs w with ⟨r, bs, w1, _ | e'⟩
  · have : ¬ (some e = none ∨ some e = some IterExc.seedPre) := by simpa using he
    simp only [true_or, if_true, Bool.false_eq_true, if_false, this, Option.getD_some, and_self]
  · trivial

/-- Without `pre` and `discard_last`, a chunk without rows is such a case. -/
theorem C66_empty_chunk {c : Config K R A S P Q F} (hp : c.pre = none) {r : Option Int} {pb : P}
    {good rest : List (List R)} {trim : Bool} {ys : List (Yield F R)}
    (hg : iterData c.ord r c.pre pb c.filters trim false good = (ys, pb, none)) :
    iterData c.ord r c.pre pb c.filters trim false (good ++ [] :: rest) = (ys, pb, some .index) := by
  simp only [iterData] at hg ⊢
  generalize (if trim then r else none) = t at hg ⊢
  have hr : ∀ ch : List R, runPre c.pre ch pb = (ch, pb, false) := by intro ch; simp [runPre, hp]
  induction good generalizing t ys with
  | nil =>
    simp only [iterLoop, Prod.mk.injEq] at hg
    obtain ⟨rfl, -, -⟩ := hg
    simp only [List.nil_append, iterLoop, hr]
    rfl
  | cons ch good ih =>
    simp only [List.cons_append, iterLoop, hr] at hg ⊢
    split at hg
    · simp at hg
    · rename_i hasc
      rw [if_neg hasc]
      cases hx : ([] ++ ch).getLast? with
      | none => simp only [hx] at hg; simp at hg
      | some x =>
        simp only [hx] at hg ⊢
        split at hg
        · rename_i h1
          rw [if_pos h1]
          exact ih _ hg
        · rename_i h1
          rw [if_neg h1]
          simp only [Bool.false_eq_true, if_false] at hg ⊢
          rcases hf : filterLoop (c.ord x) ([] ++ ch) (([] ++ ch).map fun r => t.all fun t => decide (t ≤ c.ord r))
            c.filters with ⟨zs, _ | e⟩
          · simp only [hf] at hg ⊢
            rcases hi : iterLoop c.ord c.pre c.filters false none [] pb good with ⟨us, pb', e'⟩
            simp only [hi, Prod.mk.injEq] at hg
            obtain ⟨rfl, rfl, rfl⟩ := hg
            rw [ih _ hi]
          · simp only [hf] at hg; simp at hg

/-! ### Final write made again -/

/-- A key that was written has nothing left to write. -/
theorem final_again {cfg : KeyCfg K R A S Q} (hd : cfg.resType = .both → cfg.main ≠ cfg.snap) {truthy : Int → Bool}
    {fin : Option (Int × P)} {st st1 : KeyBuf A S Q} {w w1 v : World K A (Md S P Q)}
    (h : postNWrite cfg truthy true fin st w = .ok (st1, w1)) (hv : v cfg.main = w1 cfg.main) :
    postNWrite cfg truthy true fin st1 v = .ok (st1, v) := by
  obtain ⟨q, main, snap, h1, h2, h3⟩ := postNWrite_ok h
  have hb : st1.bin = none := by
    subst h3
    cases hb : st.bin <;> simp [hb]
  have hq : st1.post = q := by
    subst h3
    cases hb : st.bin <;> simp [hb]
  have hs : st1.seg = st.seg := by
    subst h3
    cases hb : st.bin <;> simp [hb]
  have hst : { st1 with post := q } = st1 := by rw [← hq]
  have hres : results cfg true st1 = .ok (q, none, none) := by simp only [results, hb, hq]
  have hbs : st1.bin.isSome = false := by rw [hb]; rfl
  have hpm : pendingMd truthy fin st1.seg q = pendingMd truthy fin st.seg q := by rw [hs]
  simp only [postNWrite, hres, hbs, hpm, Bool.false_eq_true, if_false, hst]
  cases hmd : pendingMd truthy fin st.seg q with
  | none => simp only [writeResults]
  | some m =>
    rw [hmd] at h2
    have hw : (w1 cfg.main).md = some m ∧ (w1 cfg.main).inStore = true := by
      cases main with
      | none => exact (writeResults_none h2).2.2.1 m rfl
      | some rows =>
        obtain ⟨-, e2, e3, -⟩ := storeSet_ok (writeResults_some hd h2).1
        exact ⟨e3 m rfl, e2⟩
    simp only [writeResults, Except.ok.injEq, Prod.mk.injEq, true_and]
    funext x
    by_cases e : x = cfg.main
    · subst e
      rw [set_same, hv, hw.2, if_pos rfl, ← hw.1, ← hw.2]
    · rw [set_other _ _ e]

/-- **C66** A final write which was interrupted between keys (an exception of the file system, say) is completed by the next
one: stream and store end as if it had not been. -/
theorem C66_final_again {c : Config K R A S P Q F} (hk : Apart c.keys)
    (hd : ∀ k ∈ c.keys, k.2.resType = .both → k.2.main ≠ k.2.snap) {s s' : State A S P Q} {w w' wm : World K A (Md S P Q)}
    {bs : List (KeyBuf A S Q)} (hl : s.bufs.length = c.keys.length) (h : finalWrite c s w = .ok (s', w'))
    (hp : FinalPart c s s' w w' bs wm) : finalWrite c { s with bufs := bs } wm = .ok (s', w') := by
  obtain ⟨hlen, hout, hkey⟩ := hp
  simp only [finalWrite] at h ⊢
  cases hf : forKeys (fun _ => true) (fun cfg => postNWrite cfg c.truthy true (s.restart.map fun i => (i, s.pre))) c.keys
      s.bufs w with
  | error e => simp [hf] at h
  | ok x =>
    obtain ⟨bs', w1⟩ := x
    simp only [hf, Except.ok.injEq, Prod.mk.injEq] at h
    obtain ⟨rfl, rfl⟩ := h
    simp only at hkey
    suffices forKeys (fun _ => true) (fun cfg => postNWrite cfg c.truthy true (s.restart.map fun i => (i, s.pre))) c.keys
        bs wm = .ok (bs', w1) by simp only [this]
    clear * - hk hd hl hf hlen hout hkey
    generalize (s.restart.map fun i => (i, s.pre)) = fin at hf ⊢
    generalize s.bufs = b0 at hl hf hlen hkey
    generalize c.keys = ks at *
    generalize c.truthy = tr at *
    induction ks generalizing b0 bs bs' w w1 wm with
    | nil =>
      obtain rfl : b0 = [] := List.length_eq_zero_iff.1 hl
      obtain rfl : bs = [] := List.length_eq_zero_iff.1 hlen
      simp only [forKeys, Except.ok.injEq, Prod.mk.injEq] at hf ⊢
      obtain ⟨rfl, rfl⟩ := hf
      exact ⟨rfl, funext fun x => hout x (by simp)⟩
    | cons k ks ih =>
      cases b0 with
      | nil => simp at hl
      | cons b b0 =>
        cases bs with
        | nil => simp at hlen
        | cons c1 bs =>
          simp only [Apart, List.pairwise_cons] at hk
          obtain ⟨hk0, hks⟩ := hk
          simp only [List.length_cons, Nat.add_right_cancel_iff] at hl hlen
          simp only [forKeys, if_true] at hf ⊢
          cases hp : postNWrite k.2 tr true fin b w with
          | error e => simp [hp] at hf
          | ok x =>
            obtain ⟨b1, w2⟩ := x
            simp only [hp] at hf
            cases hr : forKeys (fun _ => true) (fun cfg => postNWrite cfg tr true fin) ks b0 w2 with
            | error e => simp [hr] at hf
            | ok x =>
              obtain ⟨bs2, w3⟩ := x
              simp only [hr, Except.ok.injEq, Prod.mk.injEq] at hf
              obtain ⟨rfl, rfl⟩ := hf
              have hfr : ∀ x, ¬ k.2.touches x → w2 x = w x := by
                have := postNWrite_local k.2 tr true fin b (w1 := w) (w2 := w) fun _ _ => rfl
                rw [hp] at this
                exact this.2.2.1
              have htl : ∀ x, (∀ k' ∈ ks, ¬ k'.2.touches x) → w3 x = w2 x := by
                clear * - hr
                intro x hx
                induction ks generalizing b0 bs2 w2 with
                | nil => simp only [forKeys, Except.ok.injEq, Prod.mk.injEq] at hr; rw [hr.2]
                | cons k ks ih =>
                  cases b0 with
                  | nil => simp only [forKeys, Except.ok.injEq, Prod.mk.injEq] at hr; rw [hr.2]
                  | cons b b0 =>
                    simp only [forKeys, if_true] at hr
                    cases hp : postNWrite k.2 tr true fin b w2 with
                    | error e => simp [hp] at hr
                    | ok y =>
                      obtain ⟨b1, w4⟩ := y
                      simp only [hp] at hr
                      cases hq : forKeys (fun _ => true) (fun cfg => postNWrite cfg tr true fin) ks b0 w4 with
                      | error e => simp [hq] at hr
                      | ok y =>
                        obtain ⟨bs3, w5⟩ := y
                        simp only [hq, Except.ok.injEq, Prod.mk.injEq] at hr
                        obtain ⟨-, rfl⟩ := hr
                        have := postNWrite_local k.2 tr true fin b (w1 := w2) (w2 := w2) fun _ _ => rfl
                        rw [hp] at this
                        rw [ih (hr := hq) (hx := fun k' hk' => hx k' (List.mem_cons_of_mem _ hk')), this.2.2.1 x (hx k (by simp))]
              -- the first key gets to the same point
              have hhead : ∃ wm1, postNWrite k.2 tr true fin c1 wm = .ok (b1, wm1) ∧ (∀ x, k.2.touches x → wm1 x = w2 x) ∧
                  ∀ x, ¬ k.2.touches x → wm1 x = wm x := by
                rcases hkey 0 k rfl with ⟨e1, e2⟩ | ⟨e1, e2⟩
                · simp only [List.getElem?_cons_zero, Option.some.injEq] at e1
                  subst e1
                  have := postNWrite_local k.2 tr true fin c1 (w1 := w) (w2 := wm) fun x hx => (e2 x hx).symm
                  rw [hp] at this
                  cases hq : postNWrite k.2 tr true fin c1 wm with
                  | error e => rw [hq] at this; exact this.elim
                  | ok y =>
                    obtain ⟨b2, wm1⟩ := y
                    rw [hq] at this
                    obtain ⟨rfl, t1, -, t3⟩ := this
                    exact ⟨wm1, rfl, fun x hx => (t1 x hx).symm, t3⟩
                · simp only [List.getElem?_cons_zero, Option.some.injEq] at e1
                  subst e1
                  have e3 : ∀ x, k.2.touches x → wm x = w2 x := fun x hx => by
                    rw [e2 x hx, htl x fun k' hk' ht => hk0 k' hk' x hx ht]
                  exact ⟨wm, final_again (hd k (by simp)) hp (e3 _ (touches_main k.2)), e3, fun _ _ => rfl⟩
              obtain ⟨wm1, g1, g2, g3⟩ := hhead
              simp only [g1]
              rw [ih (w := w2) (hk := hks) (hd := fun k' hk' => hd k' (List.mem_cons_of_mem _ hk')) (hl := hl) (hf := hr)
                (hlen := hlen) (hout := fun x hx => ?_)
                (hkey := fun i k' hi => ?_)]
              · by_cases ht : k.2.touches x
                · exact g2 x ht
                · rw [g3 x ht, hfr x ht]
                  exact hout x fun k' hk' => by
                    rcases List.mem_cons.1 hk' with rfl | hk'
                    · exact ht
                    · exact hx k' hk'
              · have hkm : k' ∈ ks := List.mem_of_getElem? hi
                have hno : ∀ x, k'.2.touches x → ¬ k.2.touches x := fun x hx ht => hk0 k' hkm x ht hx
                rcases hkey (i + 1) k' (by simpa using hi) with ⟨e1, e2⟩ | ⟨e1, e2⟩
                · simp only [List.getElem?_cons_succ] at e1
                  exact Or.inl ⟨e1, fun x hx => by rw [g3 x (hno x hx), hfr x (hno x hx)]; exact e2 x hx⟩
                · simp only [List.getElem?_cons_succ] at e1
                  exact Or.inr ⟨e1, fun x hx => by rw [g3 x (hno x hx)]; exact e2 x hx⟩

/-! ### Going on with the same stream -/

/-- The results held by a key which raised are appended to its buffers a second time by what follows: rows of a final write
without new data, `b` being the results held. -/
theorem C66_held_twice_fails {cfg : KeyCfg K R A S Q} {truthy : Int → Bool} {chunk : List R} {st : KeyBuf A S Q}
    {w : World K A (Md S P Q)} {b : List (Row A)} {e : AggErr} (hb : st.bin = some b) (hne : b ≠ [])
    (hsize : st.size + st.size / (st.binBuf.length + 1) ≤ cfg.maxSize) (hcall : cfg.call chunk st.seg = .error e)
    (hr : cfg.resType = .bins) (hp : cfg.post = none) (hs : st.snap = none) :
    ∃ stc, aggIterR cfg left truthy chunk st w = (stc, w, some (.agg e)) ∧
      results cfg true stc = .ok (st.post, some (st.binBuf.flatten ++ b.dropLast ++ b), none) := by
  have hbe : b.isEmpty = false := by cases b <;> simp_all
  have hsz : ¬ (st.size + st.size / (st.binBuf.length + 1) > cfg.maxSize) := by omega
  refine ⟨{ pushPrev cfg st b with seg := left chunk st.seg }, ?_, ?_⟩
  · simp only [aggIterR, flushPrevR, hb, hbe, Bool.false_eq_true, if_false, hsz]
    have : (pushPrev cfg st b).seg = st.seg := rfl
    simp only [this, hcall]
  · have h1 : concatRes (st.binBuf ++ [b.dropLast]) b true =
        .ok (st.binBuf.flatten ++ b.dropLast ++ b) := by
      simp [concatRes]
    simp [results, pushPrev, hb, concatSnap, hs, hp, hr, h1]

/-- A write that raises comes after `post`: results are still held, and `post` gets them a second time, with the buffer it has
already updated, in the next write. -/
theorem C66_post_twice_fails {cfg : KeyCfg K R A S Q} {truthy : Int → Bool} {fin : Option (Int × P)} {st : KeyBuf A S Q}
    {w : World K A (Md S P Q)} {q : Q} {main snap : Option (List (Row A))} {e : Err}
    (hr : results cfg true st = .ok (q, main, snap))
    (hw : writeResults cfg (pendingMd truthy fin st.seg q) main snap w = .error e) {f : Post (Row A) Q}
    (hp : cfg.post = some f) {b bins : List (Row A)} (hb : st.bin = some b) (hc : concatRes st.binBuf b true = .ok bins)
    (ht : cfg.resType = .bins) :
    ∃ stc wc, postNWriteR cfg truthy true fin st w = (stc, wc, some e) ∧ stc.post = (f st.post bins none).1 ∧
      ∀ q' main' snap', results cfg true stc = .ok (q', main', snap') → q' = (f (f st.post bins none).1 bins none).1 := by
  have key : ∀ (st' : KeyBuf A S Q), st'.bin = some b → concatRes st'.binBuf b true = .ok bins → ∀ q main snap,
      results cfg true st' = .ok (q, main, snap) → q = (f st'.post bins none).1 := by
    intro st' hb hc q main snap hr
    simp only [results, hb, hc, hp, ht, if_true] at hr
    cases hs : concatSnap st' true with
    | error e => simp [hs] at hr
    | ok x =>
      rcases hf : f st'.post bins none with ⟨q1, r⟩
      cases r <;> simp_all
  have hq := key st hb hc _ _ _ hr
  refine ⟨{ st with post := q }, writeLeft cfg (pendingMd truthy fin st.seg q) main w, by simp only [postNWriteR, hr, hw], hq, fun q' main' snap' h => ?_⟩
  rw [← hq]
  exact key { st with post := q } hb hc _ _ _ h

/-- Same if what `post` returned is refused: nothing is written, but `post` was run. -/
theorem C66_post_refused_fails {cfg : KeyCfg K R A S Q} {truthy : Int → Bool} {last : Bool} {fin : Option (Int × P)}
    {st : KeyBuf A S Q} {w : World K A (Md S P Q)} {f : Post (Row A) Q} (hp : cfg.post = some f)
    {b bins : List (Row A)} {snaps : Option (List (Row A))} (hb : st.bin = some b)
    (hc : concatRes st.binBuf b last = .ok bins) (hs : concatSnap st last = .ok snaps) {e : Err}
    (hr : results cfg last st = .error e) :
    postNWriteR cfg truthy last fin st w =
      ({ st with post := (f st.post bins (if cfg.resType = .bins then none else snaps)).1 }, w, some e) := by
  simp only [postNWriteR, hr, postLeft, hb, hp, hc, hs]

end

/-! ### Keys with bins from a `TimeGrouper` -/

section
variable {K R B D V S P Q F : Type} [DecidableEq K] [DecidableEq F] [DecidableEq D]
variable (O : D → Ops V) (get : R → Nat → V) {dtype : Nat → Option D} {agg : List (Nat × Nat × Option Fn)}
  {gc : List (D × Group)} (z : List (List V) → Bool)
variable {c : Config K R (List (List V)) S P Q F} {i : Nat} {f : F} {cfg : KeyCfg K R (List (List V)) S Q}
variable {gB gS : Row (List (List V)) → Row (List (List V))} {on : Col} {d : DupOn} {left : List R → S → S}

/-- **C66** After a final write, jobs of a later call raise; another stream created from the store is then given any seeds that
bring again the rows already processed by the key: the bins stored are those of one call to `cumsegagg` on all the rows. -/
theorem C66_time_bins (hk : Apart c.keys) (hi : c.keys[i]? = some (f, cfg))
    (hagg : setupCumsegagg agg dtype = .ok gc) (g : Grouper) (hg : Fixed g) (pos : R → Int) (ordered : Option (R → Int))
    {emb : Buf ScaleBuf (List (List V)) → S}
    {e0 : Bool} (hcall : Embeds emb (inPlace (frameCall O get gc z (grouperFn g pos) ordered none e0)) cfg.call)
    (hres : cfg.resType = .bins) (hpost : PostRow cfg gB gS) (hw : WriteOk cfg.table cfg.params on d)
    (hT : ByLabel cfg.table on d gB) {s s' s'' : State (List (List V)) S P Q}
    {w w' wc w'' : World K (List (List V)) (Md S P Q)} {q0 : Q} (hl : s.bufs.length = c.keys.length)
    (hb : s.bufs[i]? = some { seg := emb (Buf.init {}), post := q0 }) (hm : (w cfg.main).rgs = [])
    {as : List (Call R)} {a : Call R} (ha : a.finalWrite = true) (h : aggs c (as ++ [a]) s w = .ok (s', w'))
    {a2 : Call R} {done : Nat → List (List R)} {bs : List (KeyBuf (List (List V)) S Q)}
    (hc : Left c left a2 s' w' done bs wc) (hsafe : KeySafe cfg w') {as3 : List (Call R)} {a3 : Call R} (ha3 : a3.finalWrite = true) {rows : List R}
    (hrows : rows = received c f (as ++ [a]) s.restart s.pre ++ received c f (as3 ++ [a3]) s'.restart s'.pre)
    (hnew : (done i).flatten <+: received c f (as3 ++ [a3]) s'.restart s'.pre)
    (hne : rows ≠ []) (hasc : AscOn pos rows) (ho : ∀ o, ordered = some o → AscOn o rows)
    (h3 : aggs c (as3 ++ [a3]) s' wc = .ok (s'', w'')) :
    ∃ one, frameCall O get gc z (grouperFn g pos) ordered none false rows none = .ok (some one, none) ∧
      readRows (w'' cfg.main).rgs = one.bins.map gB := by
  have hcf := cfgOk_of hagg
  have hL := grouper_lawful g g.origin0 hg.anchored pos
  have hst := gridSpec_strict (g.closed == .right) g.labelRight g.origin0 g.freq pos rows hg.anchored.1
  obtain ⟨one, h1, h2, _⟩ := frame_once_bins O get hcf z hL ordered hne hasc ho (strictLabels_ok hst)
  have hKL := keyLaws_bins O get hcf z hL (ordered := ordered) hcall hres hpost hw hT
  have hms : (w cfg.snapKey).rgs = [] := by simpa [KeyCfg.snapKey, hres] using hm
  subst hrows
  obtain ⟨e1, _⟩ := C66_replayed hk hi hKL hl hb ⟨_, rfl, frameOk_init O get trivial hL⟩ hm hms ha h hc hsafe ha3
    (binsValid_of hL hasc ho hst) hnew h3
  exact ⟨one, h1, by rw [e1 (by simp [hres]), h2]⟩

end

/-! ### Examples -/

/-- Buffer left when results hold a zero: the check comes last. -/
def exLeft (ch : List (Int × Int)) (b : ExBuf) : ExBuf :=
  match inPlace (frameCall (fun _ => intOps) ex_get ex_cfg exZ (grouperFn { freq := 10 } Prod.fst) none none false) ch b with
  | .ok (_, b) => b
  | .error _ => b

/-- State and store after a call that raised in a job or in the seed. -/
def exStopped (r : AggOut Nat (List (List Int)) ExBuf Unit Unit) :
    Option (State (List (List Int)) ExBuf Unit Unit × ExWorld ExBuf) :=
  match r with
  | .job r bs w _ => some (⟨r, (), bs⟩, w)
  | .seed s w _ => some (s, w)
  | _ => none

/-- Same call on the state after calls. -/
def exFail (left : List (Int × Int) → ExBuf → ExBuf) (c : Config Nat (Int × Int) (List (List Int)) ExBuf Unit Unit Nat)
    (as : List (Call (Int × Int))) (a : Call (Int × Int)) (s : State (List (List Int)) ExBuf Unit Unit) :
    Option (State (List (List Int)) ExBuf Unit Unit × ExWorld ExBuf) :=
  match aggs c as s exWorld with
  | .ok (s, w) => exStopped (aggR c left a s w)
  | .error _ => none

/-- Going on with what was left. -/
def exGoOn (c : Config Nat (Int × Int) (List (List Int)) ExBuf Unit Unit Nat) (as : List (Call (Int × Int)))
    (r : Option (State (List (List Int)) ExBuf Unit Unit × ExWorld ExBuf)) :
    Except AggStream.Err (State (List (List Int)) ExBuf Unit Unit × ExWorld ExBuf) :=
  match r with
  | none => .error .notAggStream
  | some (s, w) => aggs c as s w

/-- Frames of which the third one gives a zero. -/
def exZero : List (List (Int × Int)) := [[(26, 16), (38, 32)], [(39, 64), (41, 128)], [(42, -128)]]

/-- Corrected. -/
def exGood : List (List (Int × Int)) := [[(26, 16), (38, 32), (39, 64)], [(41, 128), (42, 256)]]

/-- Store left. -/
def exLeftStore (r : Option (State (List (List Int)) ExBuf Unit Unit × ExWorld ExBuf)) :
    Except AggStream.Err (State (List (List Int)) ExBuf Unit Unit × ExWorld ExBuf) :=
  r.elim (.error .notAggStream) .ok

-- C66: two frames of the failing call were processed, and results written, the third one raised; another stream is created
-- from the store and given corrected data
example :
    exStored 0 (exLeftStore (exFail exLeft (exConf [(0, exKey 0 0)]) [⟨exSeed1, false, false, true⟩]
      ⟨exZero, false, false, true⟩ (exState 1 ex0))) =
      some [[(0, some [[1, 1]]), (10, some [[6, 4]]), (20, some [[24, 16]]), (30, some [[96, 64]])]] ∧
    exStored 0 (exThen ex0 (exConf [(0, exKey 0 0)]) [⟨exGood, false, false, true⟩]
      (exLeftStore (exFail exLeft (exConf [(0, exKey 0 0)]) [⟨exSeed1, false, false, true⟩] ⟨exZero, false, false, true⟩
        (exState 1 ex0)))) =
      some [[(0, some [[1, 1]]), (10, some [[6, 4]]), (20, some [[24, 16]]), (30, some [[96, 64]]),
        (40, some [[384, 256]])]] := ⟨rfl, rfl⟩

-- C66: an empty chunk, then the call again on the chunks that follow
example :
    exErr (aggs (exConf2 100) [⟨exSeed1 ++ [] :: exSeed2, false, false, true⟩] (exState 2 ex0) exWorld) = some (.iter .index) ∧
    exStored 0 (exGoOn (exConf2 100) [⟨exSeed2, false, false, true⟩]
      (exFail exLeft (exConf2 100) [] ⟨exSeed1 ++ [] :: exSeed2, false, false, true⟩ (exState 2 ex0))) =
    exStored 0 (aggs (exConf2 100) [⟨exSeed1 ++ exSeed2, false, false, true⟩] (exState 2 ex0) exWorld) ∧
    exStored 1 (exGoOn (exConf2 100) [⟨exSeed2, false, false, true⟩]
      (exFail exLeft (exConf2 100) [] ⟨exSeed1 ++ [] :: exSeed2, false, false, true⟩ (exState 2 ex0))) =
    some [[(20, some [[16, 16]]), (30, some [[96, 64]]), (40, some [[128, 128]])]] := ⟨rfl, rfl, rfl⟩

/-- Final write of the first key only, then of both. -/
def exAgain (c : Config Nat (Int × Int) (List (List Int)) ExBuf Unit Unit Nat) (as : List (Call (Int × Int))) :
    Except AggStream.Err (State (List (List Int)) ExBuf Unit Unit × ExWorld ExBuf) :=
  match aggs c as (exState 2 ex0) exWorld with
  | .error e => .error e
  | .ok (s, w) =>
    match finalWrite c s w with
    | .error e => .error e
    | .ok (s', w') =>
      finalWrite c { s with bufs := s'.bufs.take 1 ++ s.bufs.drop 1 } (fun k => if k = 0 then w' k else w k)

-- C66: a final write that was interrupted between two keys
example :
    exStored 0 (exAgain (exConf2 100) [⟨exSeed1 ++ exSeed2, false, false, false⟩]) =
      exStored 0 (aggs (exConf2 100) [⟨exSeed1 ++ exSeed2, false, false, true⟩] (exState 2 ex0) exWorld) ∧
    exStored 1 (exAgain (exConf2 100) [⟨exSeed1 ++ exSeed2, false, false, false⟩]) =
      some [[(20, some [[16, 16]]), (30, some [[96, 64]]), (40, some [[128, 128]])]] ∧
    ((exAgain (exConf2 100) [⟨exSeed1 ++ exSeed2, false, false, false⟩]).toOption.map fun x =>
      ((x.2 0).md.map Md.restart, (x.2 1).md.map Md.restart)) = some (some 41, some 41) := ⟨rfl, rfl, rfl⟩

/-- Seed of which the second chunk gives a zero. -/
def exZero2 : List (List (Int × Int)) := [[(1, 1), (12, 2)], [(13, -2), (25, 8)]]

/-- Going on with a stream whose key raised. A mere final write records a bin twice; after another chunk with the value
corrected, a bin is missing and what the failing chunk brought is counted. -/
theorem C66_go_on_fails :
    exStored 0 (exGoOn (exConf [(0, exKey 0 100)]) [⟨[], false, false, true⟩]
      (exFail exLeft (exConf [(0, exKey 0 100)]) [] ⟨exZero2, false, false, true⟩ (exState 1 ex0))) =
      some [[(0, some [[1, 1]]), (0, some [[1, 1]]), (10, some [[2, 2]])]] ∧
    exStored 0 (exGoOn (exConf [(0, exKey 0 100)]) [⟨[[(13, 4), (25, 8)]], false, false, true⟩]
      (exFail exLeft (exConf [(0, exKey 0 100)]) [] ⟨exZero2, false, false, true⟩ (exState 1 ex0))) =
      some [[(0, some [[1, 1]]), (0, some [[1, 1]]), (20, some [[20, 8]])]] := ⟨rfl, rfl⟩

/-- Same as `exKey`, zeros being accepted. -/
def exAny (main : Nat) : KeyCfg Nat (Int × Int) (List (List Int)) ExBuf Unit :=
  { exKey main 100 with
    call := inPlace (frameCall (fun _ => intOps) ex_get ex_cfg exZ (grouperFn { freq := 10 } Prod.fst) none none false) }

/-- A key that did not raise has counted the chunk for which another one raised: if the chunk is given again to the stream, its
rows count twice. -/
theorem C66_other_key_fails :
    exStored 0 (exGoOn (exConf [(0, exAny 0), (0, exKey 1 100)]) [⟨[[(13, 4), (14, 8)]], false, false, true⟩]
      (exFail exLeft (exConf [(0, exAny 0), (0, exKey 1 100)]) [] ⟨[[(1, 1), (12, 2)], [(13, -2), (14, 8), (15, -8)]], false, false, true⟩
        (exState 2 ex0))) =
      some [[(0, some [[1, 1]]), (10, some [[12, 8]])]] ∧
    exStored 0 (aggs (exConf [(0, exAny 0), (0, exKey 1 100)]) [⟨[[(1, 1), (12, 2)], [(13, 4), (14, 8)]], false, false, true⟩]
      (exState 2 ex0) exWorld) = some [[(0, some [[1, 1]]), (10, some [[14, 8]])]] := ⟨rfl, rfl⟩

-- `C66_empty_chunk` and `C66_seed`: an empty chunk after `exSeed1`
example : ∃ ys, iterData Prod.fst none (none : Option (Pre (Int × Int) Unit)) () (exConf2 100).filters false false
      (exSeed1 ++ [] :: exSeed2) = (ys, (), some .index) ∧
    match agg (exConf2 100) ⟨exSeed1, false, false, false⟩ (exState 2 ex0) exWorld,
      aggR (exConf2 100) exLeft ⟨exSeed1 ++ [] :: exSeed2, false, false, true⟩ (exState 2 ex0) exWorld with
    | .ok (s1, w1, _), .seed s2 w2 e2 => s1 = s2 ∧ w1 = w2 ∧ e2 = .index
    | .error e1, .job _ _ _ e2 => e1 = e2
    | _, _ => False :=
  have h := C66_empty_chunk (c := exConf2 100) rfl (r := none) (pb := ()) (good := exSeed1) (rest := exSeed2) (trim := false) rfl
  ⟨_, h, C66_seed (c := exConf2 100) (s := exState 2 ex0) (w := exWorld) (left := exLeft) (good := exSeed1) (fin := true)
    rfl h (by simp)⟩

/-- `post` which counts its calls. -/
def exCount : KeyCfg Nat (Int × Int) (List (List Int)) ExBuf Nat where
  main := 0
  snap := 0
  call := (exKey 0 100).call
  mem := List.length
  maxSize := 100
  table := exT
  params := { orderedOn := some (.col 7), dupOn := some (.one 0) }
  post := some fun q b _ => (q + 1, .one b)

-- `C66_post_twice_fails`: the write raises, as `ordered_on` is not a column
example : ∃ stc wc, postNWriteR (P := Unit) exCount (fun _ => true) true (some (5, ())) { seg := ex0, post := 0, bin := some [(0, some [[1, 1]])] }
      (fun _ => {}) =
      (stc, wc, some (.write .valueError)) ∧ stc.post = 1 ∧
    ∀ q' main' snap', results exCount true stc = .ok (q', main', snap') → q' = 2 :=
  C66_post_twice_fails (cfg := exCount) rfl rfl rfl rfl rfl rfl

end Oups.AggStream
