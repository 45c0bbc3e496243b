import Verif.Props.Reading
/-! Streams fed by the results of another one while it runs: C91. -/
set_option linter.unusedSimpArgs false
namespace Oups.AggStream
open Oups.Agg Oups.Agg.Spec Oups.Segment Oups.Segment.Spec
open Oups.Writer (Table Params RG Col DupOn dupCols readRows StrictOn Along)

section
variable {K R A S P Q F K2 A2 S2 P2 Q2 F2 : Type} [DecidableEq K] [DecidableEq F] [DecidableEq K2] [DecidableEq F2]

/-- Calls of a stream with `trim_start` and `discard_last`, each one over rows read from a dataset, in chunks of any size, from the
start or without rows that are before the restart index. What is read at each call, calls made, and state reached. -/
inductive Fed (c : Config K2 (Row A) A2 S2 P2 Q2 F2) (s : State A2 S2 P2 Q2) (w : World K2 A2 (Md S2 P2 Q2)) :
    List (List (Row A)) → List (Call (Row A)) → State A2 S2 P2 Q2 → World K2 A2 (Md S2 P2 Q2) → Prop
  | nil : Fed c s w [] [] s w
  | call {reads bs t v read seed d fw t' v'} : Fed c s w reads bs t v → seed.flatten = read.drop d →
    (∀ x ∈ read.take d, ∃ u, t.restart = some u ∧ c.ord x < u) →
    agg c ⟨seed, true, true, fw⟩ t v = .ok (t', v', false) →
    Fed c s w (reads ++ [read]) (bs ++ [⟨seed, true, true, fw⟩]) t' v'

variable {c : Config K2 (Row A) A2 S2 P2 Q2 F2} {s s' : State A2 S2 P2 Q2} {w w' : World K2 A2 (Md S2 P2 Q2)}
  {reads : List (List (Row A))} {bs : List (Call (Row A))}

theorem Fed.aggs (h : Fed c s w reads bs s' w') : aggs c bs s w = .ok (s', w') := by
  induction h with
  | nil => rfl
  | call h1 h2 h3 h4 ih =>
    rw [aggs_append_ok' ih]
    simp only [AggStream.aggs, h4]

/-- **C91** A stream is fed by successive reads of a dataset, each of which is later than those before, with rows in strict order: a
key has received the rows of the last read but the last row, once, those that pass its filter. -/
theorem C91_fed (hp : c.pre = none) (hn : (c.filters.map Prod.fst).Nodup) (p : F2 → Row A → Bool)
    (hf : ∀ e ∈ c.filters, RowFilter e.2 (p e.1)) {e : F2 × Filt (Row A)} (he : e ∈ c.filters)
    (hl : s.bufs.length = c.keys.length) (hr : s.restart = none) (hlat : reads.Pairwise (Later c.ord))
    (hst : ∀ r ∈ reads, StrictOn c.ord r) (h : Fed c s w reads bs s' w') :
    received c e.1 bs none s.pre = ((reads.getLast?.getD []).dropLast).filter (p e.1) := by
  have main : ∀ {reads bs t v}, Fed c s w reads bs t v → reads.Pairwise (Later c.ord) → (∀ r ∈ reads, StrictOn c.ord r) →
      Revised c s.pre bs (reads.getLast?.getD []) := by
    intro reads bs t v h
    induction h with
    | nil => intro _ _; exact .nil
    | @call reads bs t v read seed d fw t' v' h1 h2 h3 h4 ih =>
      intro hlat hst
      rw [List.pairwise_append] at hlat
      have ih := ih hlat.1 fun r hr => hst r (List.mem_append_left _ hr)
      have st2 := hst read (by simp)
      have hit := aggs_iter h1.aggs hl
      rw [hr] at hit
      obtain ⟨_, _, ys, exc, g1, g2, _, g3⟩ := agg_idx h4 (by rw [aggs_length h1.aggs hl])
      have hexc : exc = none := g3.1 rfl
      subst hexc
      have hi1 : (iterAfter c bs none s.pre).1 = t.restart := by rw [← hit]
      have hi2 : (iterAfter c bs none s.pre).2 = t.pre := by rw [← hit]
      have hid : ∀ (pb : P2) (l : List (List (Row A))), preprocessed c.pre pb l = l := by
        intro pb l
        rw [hp]
        induction l with
        | nil => rfl
        | cons x l ihl => simp only [preprocessed, ihl]
      rw [List.getLast?_concat, Option.getD_some]
      refine .call (d := d) (ys := ys) (pb' := t'.pre) ih rfl rfl ?_ ?_ ?_ ?_ ?_
      · exact List.Pairwise.imp le_of_lt st2
      · cases hl : reads.getLast? with
        | none => intro x hx; simp at hx
        | some r =>
          have hm := List.mem_of_getLast? hl
          have L := hlat.2.2 r hm read (by simp)
          rw [Option.getD_some]
          exact goesOn_of_prefix (List.pairwise_map.2 (hst r (List.mem_append_left _ hm))) (List.pairwise_map.2 st2) L.settled
            L.labels
      · rw [hid]; exact h2
      · rw [hi1]; exact h3
      · rw [hi1, hi2]; exact g1
  rw [C89_received hn p hf (main h hlat hst) he]
  have st : StrictOn c.ord (reads.getLast?.getD []) := by
    cases hl : reads.getLast? with
    | none => exact List.Pairwise.nil
    | some r => exact hst r (List.mem_of_getLast? hl)
  rw [List.filter_congr (q := fun x => p e.1 x && notLast c.ord (reads.getLast?.getD []) x)
    (fun _ _ => Bool.and_comm _ _), ← List.filter_filter, strict_notLast (by rw [List.pairwise_map]; exact st)]

/-- Same as `Fed`, each call being in a new process: the stream is created from what is in its store, and ends with a final write, after
which it has a restart index that is not 0 (C53_zero_fails). -/
inductive FedSessions (s0 : S2) (p0 : P2) (q0 : Q2) (c : Config K2 (Row A) A2 S2 P2 Q2 F2) (w : World K2 A2 (Md S2 P2 Q2)) :
    List (List (Row A)) → List (Call (Row A)) → World K2 A2 (Md S2 P2 Q2) → Prop
  | nil : FedSessions s0 p0 q0 c w [] [] w
  | call {reads bs v t read seed d t' v' j} : FedSessions s0 p0 q0 c w reads bs v → initBuffers s0 p0 q0 c v = .ok t →
    seed.flatten = read.drop d → (∀ x ∈ read.take d, ∃ u, t.restart = some u ∧ c.ord x < u) →
    agg c ⟨seed, true, true, true⟩ t v = .ok (t', v', false) → t'.restart = some j → c.truthy j = true →
    FedSessions s0 p0 q0 c w (reads ++ [read]) (bs ++ [⟨seed, true, true, true⟩]) v'

/-- **C91** Calls in new processes do the same as calls of a stream that is kept. -/
theorem C91_sessions {s0 : S2} {p0 : P2} {q0 : Q2} (hk : Apart c.keys) (hne : c.keys ≠ [])
    (hd : ∀ k ∈ c.keys, k.2.resType = .both → k.2.main ≠ k.2.snap) (hc : ∀ k ∈ c.keys, Answers k.2.call)
    (h1 : initBuffers s0 p0 q0 c w = .ok s) (hl : s.bufs.length = c.keys.length) (hs : ∀ b ∈ s.bufs, b.Rest)
    (h : FedSessions s0 p0 q0 c w reads bs w') :
    ∃ s', Fed c s w reads bs s' w' ∧ initBuffers s0 p0 q0 c w' = .ok s' := by
  induction h with
  | nil => exact ⟨s, .nil, h1⟩
  | call _ g1 g2 g3 g4 g5 g6 ih =>
    obtain ⟨u, k1, k2⟩ := ih
    rw [g1, Except.ok.injEq] at k2
    subst k2
    have hf := Fed.call k1 g2 g3 g4
    exact ⟨_, hf, C49_same_state hk hne hd hc rfl hl hs hf.aggs g5 g6 s0 p0 q0⟩

/-- **C91** A stream is fed by the bins that another one stores while it runs: `ops` are the operations of a new key of the first one
(frames processed, final writes); call number `j` of the second one is over what is read when `ns[j]` of them are done. Whatever these
moments, a key of the second stream has received the rows of the last read but the last row, once, those that pass its filter; they
are results of the first stream on all of its rows, with their final values. -/
theorem C91_polled {cfg : KeyCfg K R A S Q} {V : List R → Prop} {FB : List R → List (Row A)}
    {FS : Option (List R → List (Row A))} {ok : List R → S → Prop} {gB gS : Row A → Row A} {on : Col} {d : DupOn}
    {truthy : Int → Bool} (L : KeyLaws cfg V FB FS ok gB gS on d) (hres : cfg.resType ≠ .snaps)
    (hpre : ∀ h p, V (h ++ p) → (FB h).dropLast <+: FB (h ++ p)) {s0 : S} {q0 : Q} (h0 : ok [] s0) {w1 : World K A (Md S P Q)}
    (hm : (w1 cfg.main).rgs = []) (hs : (w1 cfg.snapKey).rgs = []) {ops : List (KOp R P)} (hops : OpsOk ops) (hV : V (opRows ops))
    {ns : List Nat} (hns : ns.Pairwise (· ≤ ·)) {wd : Nat → World K A (Md S P Q)}
    (hrun : ∀ n ∈ ns, ∃ st, keyRun cfg truthy (ops.take n) { seg := s0, post := q0 } w1 = .ok (st, wd n))
    (hord : c.ord = cfg.table.get on) (hp : c.pre = none) (hn : (c.filters.map Prod.fst).Nodup) (p : F2 → Row A → Bool)
    (hf : ∀ e ∈ c.filters, RowFilter e.2 (p e.1)) {e : F2 × Filt (Row A)} (he : e ∈ c.filters)
    (hl : s.bufs.length = c.keys.length) (hr : s.restart = none)
    (h : Fed c s w (ns.map fun n => readRows (wd n cfg.main).rgs) bs s' w') :
    received c e.1 bs none s.pre =
      ((((ns.map fun n => readRows (wd n cfg.main).rgs).getLast?).getD []).dropLast).filter (p e.1) ∧
    received c e.1 bs none s.pre <+: ((FB (opRows ops)).dropLast.map gB).filter (p e.1) := by
  have moment : ∀ n ∈ ns, StrictOn c.ord (readRows (wd n cfg.main).rgs) ∧
      (readRows (wd n cfg.main).rgs).dropLast <+: (FB (opRows ops)).dropLast.map gB := by
    intro n hn
    obtain ⟨st, hst⟩ := hrun n hn
    have o1 : OpsOk (ops.take n) := fun ch hc => hops ch (List.mem_of_mem_take hc)
    have hsplit : opRows ops = opRows (ops.take n) ++ opRows (ops.drop n) := by rw [← opRows_append, List.take_append_drop]
    have hV' := hV
    rw [hsplit] at hV'
    have hi := keyRun_inv L (L.valid _ _ hV') o1 (KInv.init L h0 hm hs (opRows (ops.take n))) (List.prefix_refl _) hst
    obtain ⟨-, pre, -, -, h3, -⟩ := hi.bins hres
    obtain ⟨h4, h5⟩ := (keyRun_seen L h0 hm hs o1 (L.valid _ _ hV') hst).1 hres
    refine ⟨?_, ?_⟩
    · have hsub := (labels_of_keys L.wmain.col h3.along.keys).sublist
      have := ((L.bins hres).strict _ (L.valid _ _ hV'))
      rw [hord]
      exact List.pairwise_map.1 ((List.pairwise_map.2 this).sublist hsub)
    · rw [hsplit]
      have k1 := hpre _ _ hV'
      have k2 := ((L.bins hres).keys _ _ hV').length_le
      simp only [List.length_map] at k2
      refine h4.trans (List.IsPrefix.map gB ?_)
      exact List.prefix_of_prefix_length_le k1 (List.dropLast_prefix _) (by simp only [List.length_dropLast]; omega)
  have e1 := C91_fed hp hn p hf he hl hr (List.pairwise_map.2 (List.Pairwise.imp_of_mem (fun {a b} ha hb hab => by
      obtain ⟨_, ha⟩ := hrun a ha
      obtain ⟨_, hb⟩ := hrun b hb
      rw [hord]
      exact (C90_polls L h0 hm hs hops hV hab ha hb).1 hres) hns))
    (fun r hr => by obtain ⟨n, hn, rfl⟩ := List.mem_map.1 hr; exact (moment n hn).1) h
  refine ⟨e1, ?_⟩
  rw [e1]
  refine List.IsPrefix.filter _ ?_
  rw [List.getLast?_map]
  cases hla : ns.getLast? with
  | none => simp
  | some n => exact (moment n (List.mem_of_getLast? hla)).2

/-- **C91** Same, the rows read being the snapshots of the first stream, stored alone or beside bins. -/
theorem C91_polled_snaps {cfg : KeyCfg K R A S Q} {V : List R → Prop} {FB : List R → List (Row A)}
    {FS : List R → List (Row A)} {ok : List R → S → Prop} {gB gS : Row A → Row A} {on : Col} {d : DupOn}
    {truthy : Int → Bool} (L : KeyLaws cfg V FB (some FS) ok gB gS on d) (hres : cfg.resType ≠ .bins)
    (hpre : ∀ h p, V (h ++ p) → (FS h).dropLast <+: FS (h ++ p)) {s0 : S} {q0 : Q} (h0 : ok [] s0) {w1 : World K A (Md S P Q)}
    (hm : (w1 cfg.main).rgs = []) (hs : (w1 cfg.snapKey).rgs = []) {ops : List (KOp R P)} (hops : OpsOk ops) (hV : V (opRows ops))
    {ns : List Nat} (hns : ns.Pairwise (· ≤ ·)) {wd : Nat → World K A (Md S P Q)}
    (hrun : ∀ n ∈ ns, ∃ st, keyRun cfg truthy (ops.take n) { seg := s0, post := q0 } w1 = .ok (st, wd n))
    (hord : c.ord = cfg.table.get on) (hp : c.pre = none) (hn : (c.filters.map Prod.fst).Nodup) (p : F2 → Row A → Bool)
    (hf : ∀ e ∈ c.filters, RowFilter e.2 (p e.1)) {e : F2 × Filt (Row A)} (he : e ∈ c.filters)
    (hl : s.bufs.length = c.keys.length) (hr : s.restart = none)
    (h : Fed c s w (ns.map fun n => readRows (wd n cfg.snapKey).rgs) bs s' w') :
    received c e.1 bs none s.pre =
      ((((ns.map fun n => readRows (wd n cfg.snapKey).rgs).getLast?).getD []).dropLast).filter (p e.1) ∧
    received c e.1 bs none s.pre <+: ((FS (opRows ops)).dropLast.map gS).filter (p e.1) := by
  obtain ⟨f, hfs, law⟩ := L.snaps hres
  obtain rfl : FS = f := by simpa using hfs
  have moment : ∀ n ∈ ns, StrictOn c.ord (readRows (wd n cfg.snapKey).rgs) ∧
      (readRows (wd n cfg.snapKey).rgs).dropLast <+: (FS (opRows ops)).dropLast.map gS := by
    intro n hn
    obtain ⟨st, hst⟩ := hrun n hn
    have o1 : OpsOk (ops.take n) := fun ch hc => hops ch (List.mem_of_mem_take hc)
    have hsplit : opRows ops = opRows (ops.take n) ++ opRows (ops.drop n) := by rw [← opRows_append, List.take_append_drop]
    have hV' := hV
    rw [hsplit] at hV'
    have hi := keyRun_inv L (L.valid _ _ hV') o1 (KInv.init L h0 hm hs (opRows (ops.take n))) (List.prefix_refl _) hst
    obtain ⟨-, pre, -, -, h3, -⟩ := hi.snaps hres _ rfl
    obtain ⟨h4, h5⟩ := (keyRun_seen L h0 hm hs o1 (L.valid _ _ hV') hst).2 hres _ rfl
    refine ⟨?_, ?_⟩
    · have hsub := (labels_of_keys L.wsnap.col h3.along.keys).sublist
      have := (law.strict _ (L.valid _ _ hV'))
      rw [hord]
      exact List.pairwise_map.1 ((List.pairwise_map.2 this).sublist hsub)
    · rw [hsplit]
      have k1 := hpre _ _ hV'
      have k2 := (law.keys _ _ hV').length_le
      simp only [List.length_map] at k2
      refine h4.trans (List.IsPrefix.map gS ?_)
      exact List.prefix_of_prefix_length_le k1 (List.dropLast_prefix _) (by simp only [List.length_dropLast]; omega)
  have e1 := C91_fed hp hn p hf he hl hr (List.pairwise_map.2 (List.Pairwise.imp_of_mem (fun {a b} ha hb hab => by
      obtain ⟨_, ha⟩ := hrun a ha
      obtain ⟨_, hb⟩ := hrun b hb
      rw [hord]
      exact (C90_polls L h0 hm hs hops hV hab ha hb).2 hres) hns))
    (fun r hr => by obtain ⟨n, hn, rfl⟩ := List.mem_map.1 hr; exact (moment n hn).1) h
  refine ⟨e1, ?_⟩
  rw [e1]
  refine List.IsPrefix.filter _ ?_
  rw [List.getLast?_map]
  cases hla : ns.getLast? with
  | none => simp
  | some n => exact (moment n (List.mem_of_getLast? hla)).2

/-- Sessions of the first stream, each one with its own settings, a dataset `ds` being read after some of them: what is read, and rows
received by the key. -/
inductive Polls (s0 : S) (p0 : P) (q0 : Q) (k : KeyCfg K R A S Q) (Lw : KeyCfg K R A S Q → Prop) (ds : K)
    (w0 : World K A (Md S P Q)) :
    List (List (Row A)) → List R → World K A (Md S P Q) → Prop
  | nil : Polls s0 p0 q0 k Lw ds w0 [] [] w0
  | read {reads rows rows' w w'} : Polls s0 p0 q0 k Lw ds w0 reads rows w → SessionRuns s0 p0 q0 k Lw w rows' w' →
    Polls s0 p0 q0 k Lw ds w0 (reads ++ [readRows (w' ds).rgs]) (rows ++ rows') w'

theorem SessionRuns.trans {s0 : S} {p0 : P} {q0 : Q} {k : KeyCfg K R A S Q} {Lw : KeyCfg K R A S Q → Prop}
    {w w1 w2 : World K A (Md S P Q)} {rows rows' : List R} (h : SessionRuns s0 p0 q0 k Lw w rows w1)
    (h' : SessionRuns s0 p0 q0 k Lw w1 rows' w2) : SessionRuns s0 p0 q0 k Lw w (rows ++ rows') w2 := by
  induction h with
  | nil => exact h'
  | session apart key same law start final calls index truthy next ih =>
    rw [List.append_assoc]
    exact .session apart key same law start final calls index truthy (ih h')

/-- **C91** The first stream is created again, with other settings, as often as one likes, and the second one is run after some of
these sessions: it has received all results on all rows but the last one. -/
theorem C91_settings {k : KeyCfg K R A S Q} {Lw : KeyCfg K R A S Q → Prop} {V : List R → Prop} {FB : List R → List (Row A)}
    {FS : Option (List R → List (Row A))} {ok : List R → S → Prop} {gB gS : Row A → Row A} {on : Col} {d : DupOn}
    (hL : ∀ cfg, Lw cfg → KeyLaws cfg V FB FS ok gB gS on d) (hk : Lw k) (hres : k.resType ≠ .snaps) {s0 : S} {p0 : P} {q0 : Q}
    (h0 : ok [] s0) {w0 w1 : World K A (Md S P Q)} (hin : (w0 k.main).inStore = false) (hm : (w0 k.main).rgs = [])
    (hs : (w0 k.snapKey).rgs = []) {rows : List R} (hV : V rows) (hpolls : Polls s0 p0 q0 k Lw k.main w0 reads rows w1)
    (hord : c.ord = k.table.get on) (hp : c.pre = none) (hn : (c.filters.map Prod.fst).Nodup) (p : F2 → Row A → Bool)
    (hf : ∀ e ∈ c.filters, RowFilter e.2 (p e.1)) {e : F2 × Filt (Row A)} (he : e ∈ c.filters)
    (hl : s.bufs.length = c.keys.length) (hr : s.restart = none) (h : Fed c s w reads bs s' w') :
    received c e.1 bs none s.pre = ((FB rows).dropLast.map gB).filter (p e.1) := by
  have L := hL _ hk
  have law := L.bins hres
  have main : ∀ {reads rows w}, Polls s0 p0 q0 k Lw k.main w0 reads rows w → V rows →
      SessionRuns s0 p0 q0 k Lw w0 rows w ∧ reads.Pairwise (Later c.ord) ∧ (∀ r ∈ reads, StrictOn c.ord r) ∧
      (∀ r ∈ reads, Later c.ord r (readRows (w k.main).rgs)) ∧ reads.getLast?.getD [] = (FB rows).map gB := by
    intro reads rows w h
    induction h with
    | nil => intro _; exact ⟨.nil _, .nil, by simp, by simp, by simp [law.nil]⟩
    | @read reads rows rows' w w' _ h2 ih =>
      intro hV
      obtain ⟨a1, a2, a3, a4, a5⟩ := ih (L.valid _ _ hV)
      have b1 := a1.trans h2
      have b2 := (C71_settings hL hk h0 hV hin hm hs b1).1 hres
      have b3 := (C90_sessions hL h0 hin hm hs a1 h2 hV).1 hres
      rw [← hord] at b3
      have b4 : ∀ r ∈ reads, Later c.ord r (readRows (w' k.main).rgs) := fun r hr => (a4 r hr).trans b3
      refine ⟨b1, List.pairwise_append.2 ⟨a2, List.pairwise_singleton _ _, fun x hx y hy => ?_⟩, fun r hr => ?_, fun r hr => ?_, ?_⟩
      · rw [List.mem_singleton.1 hy]; exact b4 x hx
      · rcases List.mem_append.1 hr with hr | hr
        · exact a3 r hr
        · rw [List.mem_singleton.1 hr, b2, hord]; exact law.strict _ hV
      · rcases List.mem_append.1 hr with hr | hr
        · exact b4 r hr
        · rw [List.mem_singleton.1 hr]; exact .refl _ _
      · rw [List.getLast?_concat, Option.getD_some, b2]
  obtain ⟨-, m2, m3, -, m5⟩ := main hpolls hV
  rw [C91_fed hp hn p hf he hl hr m2 m3 h, m5, List.map_dropLast]

/-- **C91** Same for the snapshots of the first stream, stored alone or beside bins. -/
theorem C91_settings_snaps {k : KeyCfg K R A S Q} {Lw : KeyCfg K R A S Q → Prop} {V : List R → Prop} {FB : List R → List (Row A)}
    {FS : List R → List (Row A)} {ok : List R → S → Prop} {gB gS : Row A → Row A} {on : Col} {d : DupOn}
    (hL : ∀ cfg, Lw cfg → KeyLaws cfg V FB (some FS) ok gB gS on d) (hk : Lw k) (hres : k.resType ≠ .bins) {s0 : S} {p0 : P} {q0 : Q}
    (h0 : ok [] s0) {w0 w1 : World K A (Md S P Q)} (hin : (w0 k.main).inStore = false) (hm : (w0 k.main).rgs = [])
    (hs : (w0 k.snapKey).rgs = []) {rows : List R} (hV : V rows) (hpolls : Polls s0 p0 q0 k Lw k.snapKey w0 reads rows w1)
    (hord : c.ord = k.table.get on) (hp : c.pre = none) (hn : (c.filters.map Prod.fst).Nodup) (p : F2 → Row A → Bool)
    (hf : ∀ e ∈ c.filters, RowFilter e.2 (p e.1)) {e : F2 × Filt (Row A)} (he : e ∈ c.filters)
    (hl : s.bufs.length = c.keys.length) (hr : s.restart = none) (h : Fed c s w reads bs s' w') :
    received c e.1 bs none s.pre = ((FS rows).dropLast.map gS).filter (p e.1) := by
  have L := hL _ hk
  obtain ⟨fs, hfs, law⟩ := L.snaps hres
  obtain rfl : FS = fs := by simpa using hfs
  have main : ∀ {reads rows w}, Polls s0 p0 q0 k Lw k.snapKey w0 reads rows w → V rows →
      SessionRuns s0 p0 q0 k Lw w0 rows w ∧ reads.Pairwise (Later c.ord) ∧ (∀ r ∈ reads, StrictOn c.ord r) ∧
      (∀ r ∈ reads, Later c.ord r (readRows (w k.snapKey).rgs)) ∧ reads.getLast?.getD [] = (FS rows).map gS := by
    intro reads rows w h
    induction h with
    | nil => intro _; exact ⟨.nil _, .nil, by simp, by simp, by simp [law.nil]⟩
    | @read reads rows rows' w w' _ h2 ih =>
      intro hV
      obtain ⟨a1, a2, a3, a4, a5⟩ := ih (L.valid _ _ hV)
      have b1 := a1.trans h2
      have b2 := (C71_settings hL hk h0 hV hin hm hs b1).2 hres _ rfl
      have b3 := (C90_sessions hL h0 hin hm hs a1 h2 hV).2 hres
      rw [← hord] at b3
      have b4 : ∀ r ∈ reads, Later c.ord r (readRows (w' k.snapKey).rgs) := fun r hr => (a4 r hr).trans b3
      refine ⟨b1, List.pairwise_append.2 ⟨a2, List.pairwise_singleton _ _, fun x hx y hy => ?_⟩, fun r hr => ?_, fun r hr => ?_, ?_⟩
      · rw [List.mem_singleton.1 hy]; exact b4 x hx
      · rcases List.mem_append.1 hr with hr | hr
        · exact a3 r hr
        · rw [List.mem_singleton.1 hr, b2, hord]; exact law.strict _ hV
      · rcases List.mem_append.1 hr with hr | hr
        · exact b4 r hr
        · rw [List.mem_singleton.1 hr]; exact .refl _ _
      · rw [List.getLast?_concat, Option.getD_some, b2]
  obtain ⟨-, m2, m3, -, m5⟩ := main hpolls hV
  rw [C91_fed hp hn p hf he hl hr m2 m3 h, m5, List.map_dropLast]

end

section
variable {K R D V S P Q F K2 A2 S2 P2 Q2 F2 : Type} [DecidableEq K] [DecidableEq F] [DecidableEq D] [DecidableEq K2] [DecidableEq F2]
variable (O : D → Ops V) (get : R → Nat → V) {dtype : Nat → Option D} {agg : List (Nat × Nat × Option Fn)}
  {gc : List (D × Group)} (z : List (List V) → Bool)
variable {c1 : Config K R (List (List V)) S P Q F} {f : F} {cfg : KeyCfg K R (List (List V)) S Q}
  {gB gS : Row (List (List V)) → Row (List (List V))} {on : Col} {d : DupOn} {r1 : Option Int} {p1 : P}
  {w1 : World K (List (List V)) (Md S P Q)} {q0 : Q} {as : List (Call R)}
  {c2 : Config K2 (Row (List (List V))) A2 S2 P2 Q2 F2} {s2 s2' : State A2 S2 P2 Q2} {w2 w2' : World K2 A2 (Md S2 P2 Q2)}
  {bs : List (Call (Row (List (List V))))}

/-- **C91** Same, the bins of the first stream being from a `TimeGrouper`, its calls being `as`. -/
theorem C91_time (hagg : setupCumsegagg agg dtype = .ok gc) (gr : Grouper) (hgr : Fixed gr) (pos : R → Int)
    (ordered : Option (R → Int)) {emb : Buf ScaleBuf (List (List V)) → S}
    {e0 : Bool} (hcall : Embeds emb (inPlace (frameCall O get gc z (grouperFn gr pos) ordered none e0)) cfg.call)
    (hres : cfg.resType = .bins) (hpost : PostRow cfg gB gS) (hw : WriteOk cfg.table cfg.params on d)
    (hT : ByLabel cfg.table on d gB) (hm : (w1 cfg.main).rgs = [])
    (hne : received c1 f as r1 p1 ≠ []) (hasc : AscOn pos (received c1 f as r1 p1))
    (ho : ∀ o, ordered = some o → AscOn o (received c1 f as r1 p1))
    {ns : List Nat} (hns : ns.Pairwise (· ≤ ·)) {wd : Nat → World K (List (List V)) (Md S P Q)}
    (hrun : ∀ n ∈ ns, ∃ st, keyRun cfg c1.truthy ((keyOpsAll c1 f as r1 p1).take n) { seg := emb (Buf.init {}), post := q0 } w1 =
      .ok (st, wd n))
    (hord : c2.ord = cfg.table.get on) (hp : c2.pre = none) (hn : (c2.filters.map Prod.fst).Nodup)
    (p : F2 → Row (List (List V)) → Bool) (hf : ∀ e ∈ c2.filters, RowFilter e.2 (p e.1))
    {e : F2 × Filt (Row (List (List V)))} (he : e ∈ c2.filters)
    (hl : s2.bufs.length = c2.keys.length) (hr : s2.restart = none)
    (h : Fed c2 s2 w2 (ns.map fun n => readRows (wd n cfg.main).rgs) bs s2' w2') :
    ∃ one, frameCall O get gc z (grouperFn gr pos) ordered none false (received c1 f as r1 p1) none = .ok (some one, none) ∧
      received c2 e.1 bs none s2.pre =
        ((((ns.map fun n => readRows (wd n cfg.main).rgs).getLast?).getD []).dropLast).filter (p e.1) ∧
      received c2 e.1 bs none s2.pre <+: (one.bins.dropLast.map gB).filter (p e.1) := by
  have hcf := cfgOk_of hagg
  have hL := grouper_lawful gr gr.origin0 hgr.anchored pos
  have hst := gridSpec_strict (gr.closed == .right) gr.labelRight gr.origin0 gr.freq pos (received c1 f as r1 p1) hgr.anchored.1
  obtain ⟨one, e1, e2, _⟩ := frame_once_bins O get hcf z hL ordered hne hasc ho (strictLabels_ok hst)
  have hKL := keyLaws_bins O get hcf z hL (ordered := ordered) hcall hres hpost hw hT
  have hms : (w1 cfg.snapKey).rgs = [] := by simpa [KeyCfg.snapKey, hres] using hm
  have hrows := opRows_keyOpsAll c1 f as r1 p1
  have := C91_polled hKL (by simp [hres]) (fun a b hv => by
      unfold binRes
      rw [← List.map_dropLast]
      exact (hL.dropLast_prefix a b hv.1).map _)
    ⟨_, rfl, frameOk_init O get trivial hL⟩ hm hms (keyOpsAll_ok c1 f as r1 p1) (by rw [hrows]; exact binsValid_of hL hasc ho hst)
    hns hrun hord hp hn p hf he hl hr h
  rw [hrows] at this
  exact ⟨one, e1, this.1, by rw [e2]; exact this.2⟩

/-- **C91** Same with `by_x_rows`, if the labels of the results on all rows, at once, are in strict order. -/
theorem C91_rows (hagg : setupCumsegagg agg dtype = .ok gc) (n : Nat) (hn0 : 0 < n) (cl : Closed) (pos : R → Int)
    (ordered : Option (R → Int)) {emb : Buf (Option RowsBuf) (List (List V)) → S}
    {e0 : Bool} (hcall : Embeds emb (inPlace (frameCall O get gc z (rowsFn n cl pos) ordered none e0)) cfg.call)
    (hres : cfg.resType = .bins) (hpost : PostRow cfg gB gS) (hw : WriteOk cfg.table cfg.params on d)
    (hT : ByLabel cfg.table on d gB) (hm : (w1 cfg.main).rgs = []) (hne : received c1 f as r1 p1 ≠ [])
    (ho : ∀ o, ordered = some o → AscOn o (received c1 f as r1 p1))
    {ns : List Nat} (hns : ns.Pairwise (· ≤ ·)) {wd : Nat → World K (List (List V)) (Md S P Q)}
    (hrun : ∀ n ∈ ns, ∃ st, keyRun cfg c1.truthy ((keyOpsAll c1 f as r1 p1).take n) { seg := emb (Buf.init none), post := q0 } w1 =
      .ok (st, wd n))
    (hord : c2.ord = cfg.table.get on) (hp : c2.pre = none) (hn : (c2.filters.map Prod.fst).Nodup)
    (p : F2 → Row (List (List V)) → Bool) (hf : ∀ e ∈ c2.filters, RowFilter e.2 (p e.1))
    {e : F2 × Filt (Row (List (List V)))} (he : e ∈ c2.filters)
    (hl : s2.bufs.length = c2.keys.length) (hr : s2.restart = none)
    (h : Fed c2 s2 w2 (ns.map fun n => readRows (wd n cfg.main).rgs) bs s2' w2') :
    ∃ one, frameCall O get gc z (rowsFn n cl pos) ordered none false (received c1 f as r1 p1) none = .ok (some one, none) ∧
      ((one.bins.map Prod.fst).Pairwise (· < ·) →
        received c2 e.1 bs none s2.pre =
          ((((ns.map fun n => readRows (wd n cfg.main).rgs).getLast?).getD []).dropLast).filter (p e.1) ∧
        received c2 e.1 bs none s2.pre <+: (one.bins.dropLast.map gB).filter (p e.1)) := by
  have hcf := cfgOk_of hagg
  have hL := rows_lawful n hn0 cl pos (fun _ => 0)
  have hasc : AscOn (fun _ => 0) (received c1 f as r1 p1) := by
    unfold AscOn
    exact List.Pairwise.imp (R := fun _ _ => True) (by simp) (List.pairwise_of_forall (by simp))
  obtain ⟨one, e1, e2, _⟩ := frame_once_bins O get hcf z hL ordered hne hasc ho (xBins_labels _ n hn0 pos _)
  have hKL := keyLaws_bins O get hcf z hL (ordered := ordered) hcall hres hpost hw hT
  have hms : (w1 cfg.snapKey).rgs = [] := by simpa [KeyCfg.snapKey, hres] using hm
  have hrows := opRows_keyOpsAll c1 f as r1 p1
  refine ⟨one, e1, fun hst => ?_⟩
  rw [e2, binRes_fst] at hst
  have := C91_polled hKL (by simp [hres]) (fun a b hv => by
      unfold binRes
      rw [← List.map_dropLast]
      exact (hL.dropLast_prefix a b hv.1).map _)
    ⟨_, rfl, frameOk_init O get trivial hL⟩ hm hms (keyOpsAll_ok c1 f as r1 p1) (by rw [hrows]; exact binsValid_of hL hasc ho hst)
    hns hrun hord hp hn p hf he hl hr h
  rw [hrows] at this
  exact ⟨this.1, by rw [e2]; exact this.2⟩

/-- **C91** Same for snapshots from a `TimeGrouper`, stored alone or with bins. -/
theorem C91_snaps (hagg : setupCumsegagg agg dtype = .ok gc) (gr : Grouper) (hgr : Fixed gr) (gs : Grouper) (hgs : Fixed gs)
    (pos : R → Int) {emb : Buf ScaleBuf (List (List V)) → S} {e0 : Bool}
    (hcall : Embeds emb (inPlace (frameCall O get gc z (grouperFn gr pos) (some pos) (some (.grouper gs)) e0)) cfg.call)
    (hres : cfg.resType ≠ .bins) (hd : cfg.resType = .both → cfg.main ≠ cfg.snap) (hpost : PostRow cfg gB gS)
    (hw : WriteOk cfg.table cfg.params on d) (hws : cfg.resType = .both → WriteOk cfg.table cfg.snapParams on d)
    (hT : cfg.resType = .both → ByLabel cfg.table on d gB) (hTs : ByLabel cfg.table on d gS)
    (hm : (w1 cfg.main).rgs = []) (hms : cfg.resType = .both → (w1 cfg.snap).rgs = [])
    (hne : received c1 f as r1 p1 ≠ []) (hasc : AscOn pos (received c1 f as r1 p1))
    {ns : List Nat} (hns : ns.Pairwise (· ≤ ·)) {wd : Nat → World K (List (List V)) (Md S P Q)}
    (hrun : ∀ n ∈ ns, ∃ st, keyRun cfg c1.truthy ((keyOpsAll c1 f as r1 p1).take n) { seg := emb (Buf.init {}), post := q0 } w1 =
      .ok (st, wd n))
    (hord : c2.ord = cfg.table.get on) (hp : c2.pre = none) (hn : (c2.filters.map Prod.fst).Nodup)
    (p : F2 → Row (List (List V)) → Bool) (hf : ∀ e ∈ c2.filters, RowFilter e.2 (p e.1))
    {e : F2 × Filt (Row (List (List V)))} (he : e ∈ c2.filters)
    (hl : s2.bufs.length = c2.keys.length) (hr : s2.restart = none)
    (h : Fed c2 s2 w2 (ns.map fun n => readRows (wd n cfg.snapKey).rgs) bs s2' w2') :
    ∃ one sns, frameCall O get gc z (grouperFn gr pos) (some pos) (some (.grouper gs)) false (received c1 f as r1 p1) none =
        .ok (some one, none) ∧ one.snaps = some sns ∧
      received c2 e.1 bs none s2.pre =
        ((((ns.map fun n => readRows (wd n cfg.snapKey).rgs).getLast?).getD []).dropLast).filter (p e.1) ∧
      received c2 e.1 bs none s2.pre <+: (sns.dropLast.map gS).filter (p e.1) := by
  have hcf := cfgOk_of hagg
  have hL := grouper_lawful gr gr.origin0 hgr.anchored pos
  have hSL := grouper_snaps gs gs.origin0 hgs.anchored gr.closed pos
  have hst : ∀ q, StrictLabels (gridSpec (gr.closed == .right) gr.labelRight gr.origin0 gr.freq pos q) := fun q =>
    gridSpec_strict _ _ _ _ _ _ hgr.1
  obtain ⟨one, sns, e1, e2, e3, e4⟩ := frame_once_snaps O get hcf z hL hSL hne hasc (strictLabels_ok (hst _))
    (gridSpec_sep _ _ _ _ _ _ hgr.1)
  have hKL := keyLaws_snaps O get hcf z hL hSL (gridPts_prefix gs hgs gr.closed pos) (gridPts_ne gs hgs gr.closed pos)
    hcall hres hd hpost hw hws hT hTs
  have hms' : (w1 cfg.snapKey).rgs = [] := by
    unfold KeyCfg.snapKey
    split
    · rename_i h; exact hms h
    · exact hm
  have hrows := opRows_keyOpsAll c1 f as r1 p1
  have := C91_polled_snaps hKL hres (fun a b hv => snapRes_dropLast O get hcf hL hSL a b hv)
    ⟨_, rfl, frameOk_init O get hSL.init hL⟩ hm hms' (keyOpsAll_ok c1 f as r1 p1) (by
      rw [hrows]
      exact ⟨hasc, fun q _ => ⟨strictLabels_ok (hst q), gridSpec_sep _ _ _ _ _ _ hgr.1, fun _ => hst q, by
        rw [gridPts_fst]; exact gridSpec_strict _ _ _ _ _ _ hgs.1⟩⟩)
    hns hrun hord hp hn p hf he hl hr h
  rw [hrows] at this
  exact ⟨one, sns, e1, e3, this.1, by rw [e4]; exact this.2⟩

/-- **C91** What the second stream then stores: if its last call ends with a final write, what `cumsegagg` returns at once on the
first rows of what `cumsegagg` returns at once on all rows of the first stream, up to the last row but one read at this call. -/
theorem C91_time_stored {D2 V2 : Type} [DecidableEq D2] {O2 : D2 → Ops V2} {get2 : Row (List (List V)) → Nat → V2}
    {dtype2 : Nat → Option D2} {agg2 : List (Nat × Nat × Option Fn)} {gc2 : List (D2 × Group)} {z2 : List (List V2) → Bool}
    {c2 : Config K2 (Row (List (List V))) (List (List V2)) S2 P2 Q2 F2} {s2 s2' : State (List (List V2)) S2 P2 Q2}
    {w2 w2' : World K2 (List (List V2)) (Md S2 P2 Q2)} {b : Call (Row (List (List V)))}
    (hagg : setupCumsegagg agg dtype = .ok gc) (gr : Grouper) (hgr : Fixed gr) (pos : R → Int)
    (ordered : Option (R → Int)) {emb : Buf ScaleBuf (List (List V)) → S}
    {e0 : Bool} (hcall : Embeds emb (inPlace (frameCall O get gc z (grouperFn gr pos) ordered none e0)) cfg.call)
    (hres : cfg.resType = .bins) (hpost : PostRow cfg gB gS) (hw : WriteOk cfg.table cfg.params on d)
    (hT : ByLabel cfg.table on d gB) (hm : (w1 cfg.main).rgs = [])
    (hne : received c1 f as r1 p1 ≠ []) (hasc : AscOn pos (received c1 f as r1 p1))
    (ho : ∀ o, ordered = some o → AscOn o (received c1 f as r1 p1))
    {ns : List Nat} (hns : ns.Pairwise (· ≤ ·)) {wd : Nat → World K (List (List V)) (Md S P Q)}
    (hrun : ∀ n ∈ ns, ∃ st, keyRun cfg c1.truthy ((keyOpsAll c1 f as r1 p1).take n) { seg := emb (Buf.init {}), post := q0 } w1 =
      .ok (st, wd n))
    (hord : c2.ord = cfg.table.get on) (hp : c2.pre = none) (hn : (c2.filters.map Prod.fst).Nodup)
    (p : F2 → Row (List (List V)) → Bool) (hf : ∀ e ∈ c2.filters, RowFilter e.2 (p e.1))
    {e : F2 × Filt (Row (List (List V)))} (he : e ∈ c2.filters)
    (hl : s2.bufs.length = c2.keys.length) (hr : s2.restart = none)
    {j : Nat} {cfg2 : KeyCfg K2 (Row (List (List V))) (List (List V2)) S2 Q2} {q2 : Q2}
    {gB2 gS2 : Row (List (List V2)) → Row (List (List V2))} {on2 : Col} {d2 : DupOn}
    (hk2 : Apart c2.keys) (hj : c2.keys[j]? = some (e.1, cfg2)) (hagg2 : setupCumsegagg agg2 dtype2 = .ok gc2)
    (gr2 : Grouper) (hgr2 : Fixed gr2) {emb2 : Buf ScaleBuf (List (List V2)) → S2} {e2 : Bool}
    (hcall2 : Embeds emb2 (inPlace (frameCall O2 get2 gc2 z2 (grouperFn gr2 c2.ord) none none e2)) cfg2.call)
    (hres2 : cfg2.resType = .bins) (hpost2 : PostRow cfg2 gB2 gS2) (hw2 : WriteOk cfg2.table cfg2.params on2 d2)
    (hT2 : ByLabel cfg2.table on2 d2 gB2) (hb2 : s2.bufs[j]? = some { seg := emb2 (Buf.init {}), post := q2 })
    (hm2 : (w2 cfg2.main).rgs = []) (hb' : b.finalWrite = true)
    (hne2 : received c2 e.1 (bs ++ [b]) none s2.pre ≠ [])
    (h : Fed c2 s2 w2 (ns.map fun n => readRows (wd n cfg.main).rgs) (bs ++ [b]) s2' w2') :
    ∃ one two n, frameCall O get gc z (grouperFn gr pos) ordered none false (received c1 f as r1 p1) none = .ok (some one, none) ∧
      n = ((((ns.map fun n => readRows (wd n cfg.main).rgs).getLast?).getD []).dropLast.filter (p e.1)).length ∧
      frameCall O2 get2 gc2 z2 (grouperFn gr2 c2.ord) none none false
        (((one.bins.dropLast.map gB).filter (p e.1)).take n) none = .ok (some two, none) ∧
      readRows (w2' cfg2.main).rgs = two.bins.map gB2 := by
  obtain ⟨one, h1, h2, h3⟩ := C91_time O get z hagg gr hgr pos ordered hcall hres hpost hw hT hm hne hasc ho hns hrun hord hp hn p hf
    he hl hr h
  have hc := cfgOk_of hagg
  have hL := grouper_lawful gr gr.origin0 hgr.anchored pos
  have hst := gridSpec_strict (gr.closed == .right) gr.labelRight gr.origin0 gr.freq pos (received c1 f as r1 p1) hgr.anchored.1
  obtain ⟨one', h1', h4, _⟩ := frame_once_bins O get hc z hL ordered hne hasc ho (strictLabels_ok hst)
  obtain rfl : one = one' := by
    rw [h1'] at h1
    simpa using h1.symm
  have hasc2 : AscOn c2.ord (received c2 e.1 (bs ++ [b]) s2.restart s2.pre) := by
    rw [hr]
    refine List.Pairwise.sublist (h3.sublist.trans List.filter_sublist) ?_
    rw [List.pairwise_map]
    refine List.Pairwise.sublist (List.dropLast_sublist _) ?_
    have := hst
    unfold StrictLabels at this
    rw [← binRes_fst (updCfg O get gc) (chunkRes0 O gc), ← h4, List.pairwise_map] at this
    exact this.imp fun {x y} hxy => by rw [hord, hT.label, hT.label]; exact hxy.le
  obtain ⟨two, h5, h6⟩ := C48_time_bins O2 get2 z2 hk2 hj hagg2 gr2 hgr2 c2.ord none hcall2 hres2 hpost2 hw2 hT2 hl hb2 hm2 hb'
    (by rw [hr]; exact hne2) hasc2 (by simp) h.aggs
  refine ⟨one, two, _, h1, rfl, ?_, h6⟩
  rw [← h2, ← List.prefix_iff_eq_take.1 h3]
  rw [hr] at h5
  exact h5

/-- **C91** Same, the bins of the first stream being from a `TimeGrouper`. -/
theorem C91_time_settings (hagg : setupCumsegagg agg dtype = .ok gc) (gr : Grouper) (hgr : Fixed gr) (pos : R → Int)
    (ordered : Option (R → Int)) {emb : Buf ScaleBuf (List (List V)) → S} {k : KeyCfg K R (List (List V)) S Q}
    {L : KeyCfg K R (List (List V)) S Q → Prop} (hk : L k)
    (hL : ∀ cfg, L cfg → (∃ e0, Embeds emb (inPlace (frameCall O get gc z (grouperFn gr pos) ordered none e0)) cfg.call) ∧
      cfg.resType = .bins ∧ PostRow cfg gB gS ∧ WriteOk cfg.table cfg.params on d ∧ ByLabel cfg.table on d gB)
    {p0 : P} {w0 : World K (List (List V)) (Md S P Q)} (hin : (w0 k.main).inStore = false) (hm : (w0 k.main).rgs = [])
    {rows : List R} (hne : rows ≠ []) (hasc : AscOn pos rows) (ho : ∀ o, ordered = some o → AscOn o rows)
    {reads : List (List (Row (List (List V))))} (hpolls : Polls (emb (Buf.init {})) p0 q0 k L k.main w0 reads rows w1)
    (hord : c2.ord = k.table.get on) (hp : c2.pre = none) (hn : (c2.filters.map Prod.fst).Nodup)
    (p : F2 → Row (List (List V)) → Bool) (hf : ∀ e ∈ c2.filters, RowFilter e.2 (p e.1))
    {e : F2 × Filt (Row (List (List V)))} (he : e ∈ c2.filters)
    (hl : s2.bufs.length = c2.keys.length) (hr : s2.restart = none) (h : Fed c2 s2 w2 reads bs s2' w2') :
    ∃ one, frameCall O get gc z (grouperFn gr pos) ordered none false rows none = .ok (some one, none) ∧
      received c2 e.1 bs none s2.pre = (one.bins.dropLast.map gB).filter (p e.1) := by
  have hcf := cfgOk_of hagg
  have hLs := grouper_lawful gr gr.origin0 hgr.anchored pos
  have hst := gridSpec_strict (gr.closed == .right) gr.labelRight gr.origin0 gr.freq pos rows hgr.anchored.1
  obtain ⟨one, e1, e2, _⟩ := frame_once_bins O get hcf z hLs ordered hne hasc ho (strictLabels_ok hst)
  have hres := (hL k hk).2.1
  have hms : (w0 k.snapKey).rgs = [] := by simpa [KeyCfg.snapKey, hres] using hm
  have hKL := fun cfg (hcfg : L cfg) => keyLaws_bins O get hcf z hLs (ordered := ordered) (key := cfg) (hL cfg hcfg).1.choose_spec
    (hL cfg hcfg).2.1 (hL cfg hcfg).2.2.1 (hL cfg hcfg).2.2.2.1 (hL cfg hcfg).2.2.2.2
  refine ⟨one, e1, ?_⟩
  rw [e2]
  exact C91_settings hKL hk (by simp [hres]) ⟨_, rfl, frameOk_init O get trivial hLs⟩ hin hm hms (binsValid_of hLs hasc ho hst) hpolls
    hord hp hn p hf he hl hr h

/-- **C91** Same with `by_x_rows`, if the labels of the results on all rows, at once, are in strict order. -/
theorem C91_rows_settings (hagg : setupCumsegagg agg dtype = .ok gc) (n : Nat) (hn0 : 0 < n) (cl : Closed) (pos : R → Int)
    (ordered : Option (R → Int)) {emb : Buf (Option RowsBuf) (List (List V)) → S} {k : KeyCfg K R (List (List V)) S Q}
    {L : KeyCfg K R (List (List V)) S Q → Prop} (hk : L k)
    (hL : ∀ cfg, L cfg → (∃ e0, Embeds emb (inPlace (frameCall O get gc z (rowsFn n cl pos) ordered none e0)) cfg.call) ∧
      cfg.resType = .bins ∧ PostRow cfg gB gS ∧ WriteOk cfg.table cfg.params on d ∧ ByLabel cfg.table on d gB)
    {p0 : P} {w0 : World K (List (List V)) (Md S P Q)} (hin : (w0 k.main).inStore = false) (hm : (w0 k.main).rgs = [])
    {rows : List R} (hne : rows ≠ []) (ho : ∀ o, ordered = some o → AscOn o rows)
    {reads : List (List (Row (List (List V))))} (hpolls : Polls (emb (Buf.init none)) p0 q0 k L k.main w0 reads rows w1)
    (hord : c2.ord = k.table.get on) (hp : c2.pre = none) (hn : (c2.filters.map Prod.fst).Nodup)
    (p : F2 → Row (List (List V)) → Bool) (hf : ∀ e ∈ c2.filters, RowFilter e.2 (p e.1))
    {e : F2 × Filt (Row (List (List V)))} (he : e ∈ c2.filters)
    (hl : s2.bufs.length = c2.keys.length) (hr : s2.restart = none) (h : Fed c2 s2 w2 reads bs s2' w2') :
    ∃ one, frameCall O get gc z (rowsFn n cl pos) ordered none false rows none = .ok (some one, none) ∧
      ((one.bins.map Prod.fst).Pairwise (· < ·) →
        received c2 e.1 bs none s2.pre = (one.bins.dropLast.map gB).filter (p e.1)) := by
  have hcf := cfgOk_of hagg
  have hLs := rows_lawful n hn0 cl pos (fun _ => 0)
  have hasc : AscOn (fun _ => 0) rows := by
    unfold AscOn
    exact List.Pairwise.imp (R := fun _ _ => True) (by simp) (List.pairwise_of_forall (by simp))
  obtain ⟨one, e1, e2, _⟩ := frame_once_bins O get hcf z hLs ordered hne hasc ho (xBins_labels _ n hn0 pos _)
  have hres := (hL k hk).2.1
  have hms : (w0 k.snapKey).rgs = [] := by simpa [KeyCfg.snapKey, hres] using hm
  have hKL := fun cfg (hcfg : L cfg) => keyLaws_bins O get hcf z hLs (ordered := ordered) (key := cfg) (hL cfg hcfg).1.choose_spec
    (hL cfg hcfg).2.1 (hL cfg hcfg).2.2.1 (hL cfg hcfg).2.2.2.1 (hL cfg hcfg).2.2.2.2
  refine ⟨one, e1, fun hst => ?_⟩
  rw [e2, binRes_fst] at hst
  rw [e2]
  exact C91_settings hKL hk (by simp [hres]) ⟨_, rfl, frameOk_init O get trivial hLs⟩ hin hm hms (binsValid_of hLs hasc ho hst) hpolls
    hord hp hn p hf he hl hr h

/-- **C91** Same for snapshots from a `TimeGrouper`, stored alone or with bins. -/
theorem C91_snaps_settings (hagg : setupCumsegagg agg dtype = .ok gc) (gr : Grouper) (hgr : Fixed gr) (gs : Grouper) (hgs : Fixed gs)
    (pos : R → Int) {emb : Buf ScaleBuf (List (List V)) → S} {t : ResType} (ht : t ≠ .bins)
    {k : KeyCfg K R (List (List V)) S Q} {L : KeyCfg K R (List (List V)) S Q → Prop} (hk : L k)
    (hL : ∀ cfg, L cfg → SnapsKept O get z (gc := gc) (gB := gB) (gS := gS) (on := on) (d := d) (grouperFn gr pos) pos
      (.grouper gs) emb t cfg)
    {p0 : P} {w0 : World K (List (List V)) (Md S P Q)} (hin : (w0 k.main).inStore = false) (hm : (w0 k.main).rgs = [])
    (hms : t = .both → (w0 k.snap).rgs = []) {rows : List R} (hne : rows ≠ []) (hasc : AscOn pos rows)
    {reads : List (List (Row (List (List V))))} (hpolls : Polls (emb (Buf.init {})) p0 q0 k L k.snapKey w0 reads rows w1)
    (hord : c2.ord = k.table.get on) (hp : c2.pre = none) (hn : (c2.filters.map Prod.fst).Nodup)
    (p : F2 → Row (List (List V)) → Bool) (hf : ∀ e ∈ c2.filters, RowFilter e.2 (p e.1))
    {e : F2 × Filt (Row (List (List V)))} (he : e ∈ c2.filters)
    (hl : s2.bufs.length = c2.keys.length) (hr : s2.restart = none) (h : Fed c2 s2 w2 reads bs s2' w2') :
    ∃ one sns, frameCall O get gc z (grouperFn gr pos) (some pos) (some (.grouper gs)) false rows none = .ok (some one, none) ∧
      one.snaps = some sns ∧ received c2 e.1 bs none s2.pre = (sns.dropLast.map gS).filter (p e.1) := by
  have hc := cfgOk_of hagg
  have hLs := grouper_lawful gr gr.origin0 hgr.anchored pos
  have hSL := grouper_snaps gs gs.origin0 hgs.anchored gr.closed pos
  have hst : ∀ q, StrictLabels (gridSpec (gr.closed == .right) gr.labelRight gr.origin0 gr.freq pos q) := fun q =>
    gridSpec_strict _ _ _ _ _ _ hgr.1
  obtain ⟨one, sns, g1, g2, g3, g4⟩ := frame_once_snaps O get hc z hLs hSL hne hasc (strictLabels_ok (hst _))
    (gridSpec_sep _ _ _ _ _ _ hgr.1)
  have hv : SnapsValid pos (gr.closed == .right) (decide (t = .both))
      (gridSpec (gr.closed == .right) gr.labelRight gr.origin0 gr.freq pos)
      (gridPts (gr.closed == .right) gs.labelRight gs.origin0 gs.freq pos) rows :=
    ⟨hasc, fun q _ => ⟨strictLabels_ok (hst q), gridSpec_sep _ _ _ _ _ _ hgr.1, fun _ => hst q, by
      rw [gridPts_fst]; exact gridSpec_strict _ _ _ _ _ _ hgs.1⟩⟩
  have hkl := fun (cfg : KeyCfg K R (List (List V)) S Q) (hcfg : L cfg) =>
    keyLaws_snaps O get hc z hLs hSL (gridPts_prefix gs hgs gr.closed pos)
      (gridPts_ne gs hgs gr.closed pos) (hL cfg hcfg).call.choose_spec (by rw [(hL cfg hcfg).type]; exact ht) (hL cfg hcfg).pair
      (hL cfg hcfg).post (hL cfg hcfg).write (hL cfg hcfg).writeSnap (hL cfg hcfg).label (hL cfg hcfg).labelSnap
  have hkl' : ∀ cfg : KeyCfg K R (List (List V)) S Q, L cfg → KeyLaws cfg _ _ _ _ gB gS on d :=
    fun cfg hcfg => (hL cfg hcfg).type ▸ hkl cfg hcfg
  have hty := (hL k hk).type
  have hms' : (w0 k.snapKey).rgs = [] := by
    unfold KeyCfg.snapKey
    split
    · rename_i h; exact hms (by rw [← hty]; exact h)
    · exact hm
  refine ⟨one, sns, g1, g3, ?_⟩
  rw [g4]
  exact C91_settings_snaps hkl' hk (by rw [hty]; exact ht) ⟨_, rfl, frameOk_init O get hSL.init hLs⟩ hin hm hms' hv hpolls
    hord hp hn p hf he hl hr h

/-- **C91** Three streams with `TimeGrouper`s, the second one being fed by the bins of the first one, the third one by those of the
second one, at any moments. Rows received by the third one are the first results of `cumsegagg`, at once, on the first results of
`cumsegagg`, at once, on all rows of the first stream: final values at each stage. -/
theorem C91_three {K3 A3 S3 P3 Q3 F3 D2 V2 : Type} [DecidableEq K3] [DecidableEq F3] [DecidableEq D2] {O2 : D2 → Ops V2}
    {get2 : Row (List (List V)) → Nat → V2}
    {dtype2 : Nat → Option D2} {agg2 : List (Nat × Nat × Option Fn)} {gc2 : List (D2 × Group)} {z2 : List (List V2) → Bool}
    {c2 : Config K2 (Row (List (List V))) (List (List V2)) S2 P2 Q2 F2} {s2 s2' : State (List (List V2)) S2 P2 Q2}
    {w2 w2' : World K2 (List (List V2)) (Md S2 P2 Q2)}
    {c3 : Config K3 (Row (List (List V2))) A3 S3 P3 Q3 F3} {s3 s3' : State A3 S3 P3 Q3} {w3 w3' : World K3 A3 (Md S3 P3 Q3)}
    {bs3 : List (Call (Row (List (List V2))))}
    (hagg : setupCumsegagg agg dtype = .ok gc) (gr : Grouper) (hgr : Fixed gr) (pos : R → Int)
    (ordered : Option (R → Int)) {emb : Buf ScaleBuf (List (List V)) → S}
    {e0 : Bool} (hcall : Embeds emb (inPlace (frameCall O get gc z (grouperFn gr pos) ordered none e0)) cfg.call)
    (hres : cfg.resType = .bins) (hpost : PostRow cfg gB gS) (hw : WriteOk cfg.table cfg.params on d)
    (hT : ByLabel cfg.table on d gB) (hm : (w1 cfg.main).rgs = [])
    (hne : received c1 f as r1 p1 ≠ []) (hasc : AscOn pos (received c1 f as r1 p1))
    (ho : ∀ o, ordered = some o → AscOn o (received c1 f as r1 p1))
    {ns : List Nat} (hns : ns.Pairwise (· ≤ ·)) {wd : Nat → World K (List (List V)) (Md S P Q)}
    (hrun : ∀ n ∈ ns, ∃ st, keyRun cfg c1.truthy ((keyOpsAll c1 f as r1 p1).take n) { seg := emb (Buf.init {}), post := q0 } w1 =
      .ok (st, wd n))
    (hord : c2.ord = cfg.table.get on) (hp : c2.pre = none) (hn : (c2.filters.map Prod.fst).Nodup)
    (p : F2 → Row (List (List V)) → Bool) (hf : ∀ e ∈ c2.filters, RowFilter e.2 (p e.1))
    {e : F2 × Filt (Row (List (List V)))} (he : e ∈ c2.filters)
    (hl : s2.bufs.length = c2.keys.length) (hr : s2.restart = none)
    {cfg2 : KeyCfg K2 (Row (List (List V))) (List (List V2)) S2 Q2} {q2 : Q2}
    {gB2 gS2 : Row (List (List V2)) → Row (List (List V2))} {on2 : Col} {d2 : DupOn}
    (hagg2 : setupCumsegagg agg2 dtype2 = .ok gc2)
    (gr2 : Grouper) (hgr2 : Fixed gr2) {emb2 : Buf ScaleBuf (List (List V2)) → S2} {e2 : Bool}
    (hcall2 : Embeds emb2 (inPlace (frameCall O2 get2 gc2 z2 (grouperFn gr2 c2.ord) none none e2)) cfg2.call)
    (hres2 : cfg2.resType = .bins) (hpost2 : PostRow cfg2 gB2 gS2) (hw2 : WriteOk cfg2.table cfg2.params on2 d2)
    (hT2 : ByLabel cfg2.table on2 d2 gB2) (hm2 : (w2 cfg2.main).rgs = [])
    (hne2 : received c2 e.1 bs none s2.pre ≠ [])
    {ms : List Nat} (hms : ms.Pairwise (· ≤ ·)) {wd2 : Nat → World K2 (List (List V2)) (Md S2 P2 Q2)}
    (hrun2 : ∀ n ∈ ms, ∃ st, keyRun cfg2 c2.truthy ((keyOpsAll c2 e.1 bs none s2.pre).take n)
      { seg := emb2 (Buf.init {}), post := q2 } w2 = .ok (st, wd2 n))
    (hord3 : c3.ord = cfg2.table.get on2) (hp3 : c3.pre = none) (hn3 : (c3.filters.map Prod.fst).Nodup)
    (p3 : F3 → Row (List (List V2)) → Bool) (hf3 : ∀ e ∈ c3.filters, RowFilter e.2 (p3 e.1))
    {e3 : F3 × Filt (Row (List (List V2)))} (he3 : e3 ∈ c3.filters)
    (hl3 : s3.bufs.length = c3.keys.length) (hr3 : s3.restart = none)
    (h : Fed c2 s2 w2 (ns.map fun n => readRows (wd n cfg.main).rgs) bs s2' w2')
    (h3 : Fed c3 s3 w3 (ms.map fun n => readRows (wd2 n cfg2.main).rgs) bs3 s3' w3') :
    ∃ one two n, frameCall O get gc z (grouperFn gr pos) ordered none false (received c1 f as r1 p1) none = .ok (some one, none) ∧
      frameCall O2 get2 gc2 z2 (grouperFn gr2 c2.ord) none none false
        (((one.bins.dropLast.map gB).filter (p e.1)).take n) none = .ok (some two, none) ∧
      received c3 e3.1 bs3 none s3.pre =
        ((((ms.map fun n => readRows (wd2 n cfg2.main).rgs).getLast?).getD []).dropLast).filter (p3 e3.1) ∧
      received c3 e3.1 bs3 none s3.pre <+: (two.bins.dropLast.map gB2).filter (p3 e3.1) := by
  obtain ⟨one, h1, -, h2⟩ := C91_time O get z hagg gr hgr pos ordered hcall hres hpost hw hT hm hne hasc ho hns hrun hord hp hn p hf
    he hl hr h
  have hc := cfgOk_of hagg
  have hL := grouper_lawful gr gr.origin0 hgr.anchored pos
  have hst := gridSpec_strict (gr.closed == .right) gr.labelRight gr.origin0 gr.freq pos (received c1 f as r1 p1) hgr.anchored.1
  obtain ⟨one', h1', h4, _⟩ := frame_once_bins O get hc z hL ordered hne hasc ho (strictLabels_ok hst)
  obtain rfl : one = one' := by
    rw [h1'] at h1
    simpa using h1.symm
  have hasc2 : AscOn c2.ord (received c2 e.1 bs none s2.pre) := by
    refine List.Pairwise.sublist (h2.sublist.trans List.filter_sublist) ?_
    rw [List.pairwise_map]
    refine List.Pairwise.sublist (List.dropLast_sublist _) ?_
    have := hst
    unfold StrictLabels at this
    rw [← binRes_fst (updCfg O get gc) (chunkRes0 O gc), ← h4, List.pairwise_map] at this
    exact this.imp fun {x y} hxy => by rw [hord, hT.label, hT.label]; exact hxy.le
  obtain ⟨two, h5, h6, h7⟩ := C91_time O2 get2 z2 hagg2 gr2 hgr2 c2.ord none hcall2 hres2 hpost2 hw2 hT2 hm2 hne2 hasc2 (by simp) hms
    hrun2 hord3 hp3 hn3 p3 hf3 he3 hl3 hr3 h3
  refine ⟨one, two, (received c2 e.1 bs none s2.pre).length, h1, ?_, h6, h7⟩
  rw [← List.prefix_iff_eq_take.1 h2]
  exact h5

end
/-! ### C91: examples -/

/-- A call of the first stream, with results written at each frame. -/
def exFeedCalls : List (Call (Int × Int)) := [⟨exSeed1 ++ exReadSeed, false, false, true⟩]
def exFeed1 : List (List (Row (List (List Int)))) := [[(0, some [[1, 1]])], [(10, some [[6, 4]])]]
/-- From the restart index of the second stream. -/
def exFeed2 : List (List (Row (List (List Int)))) := [[(10, some [[6, 4]])], [(20, some [[24, 16]]), (30, some [[96, 64]])]]

/-- The second stream is run when three frames, then when five frames, are processed by the first one. -/
theorem exFed : ∃ (wd : Nat → ExWorld ExBuf) (s2 : State (List (List Int)) ExBuf Unit Unit) (w2 : ExWorld ExBuf),
    (∀ n ∈ [3, 5], ∃ st, keyRun (exKey 0 0) (exConf [(0, exKey 0 0)]).truthy
      ((keyOpsAll (exConf [(0, exKey 0 0)]) 0 exFeedCalls none ()).take n) { seg := Buf.init {}, post := () } exWorld =
        .ok (st, wd n)) ∧
    Fed (exNextConf 1) (exState 1 (Buf.init {})) exWorld ([3, 5].map fun n => readRows (wd n 0).rgs)
      [⟨exFeed1, true, true, true⟩, ⟨exFeed2, true, true, true⟩] s2 w2 ∧
    [3, 5].map (fun n => readRows (wd n 0).rgs) = [[(0, some [[1, 1]]), (10, some [[6, 4]])],
      [(0, some [[1, 1]]), (10, some [[6, 4]]), (20, some [[24, 16]]), (30, some [[96, 64]])]] ∧
    (w2 0).rgs.map RG.rows = [[(0, some [[7, 6]]), (20, some [[24, 24]])]] := by
  obtain ⟨sa, wa, sb, wb, h1, h2, h3, h4⟩ : ∃ (sa : KeyBuf (List (List Int)) ExBuf Unit)
      (wa : ExWorld ExBuf) (sb : KeyBuf (List (List Int)) ExBuf Unit) (wb : ExWorld ExBuf),
      keyRun (exKey 0 0) (exConf [(0, exKey 0 0)]).truthy ((keyOpsAll (exConf [(0, exKey 0 0)]) 0 exFeedCalls none ()).take 3)
        { seg := Buf.init {}, post := () } exWorld = .ok (sa, wa) ∧
      keyRun (exKey 0 0) (exConf [(0, exKey 0 0)]).truthy ((keyOpsAll (exConf [(0, exKey 0 0)]) 0 exFeedCalls none ()).take 5)
        { seg := Buf.init {}, post := () } exWorld = .ok (sb, wb) ∧
      readRows (wa 0).rgs = [(0, some [[1, 1]]), (10, some [[6, 4]])] ∧
      readRows (wb 0).rgs = [(0, some [[1, 1]]), (10, some [[6, 4]]), (20, some [[24, 16]]), (30, some [[96, 64]])] :=
    ⟨_, _, _, _, rfl, rfl, rfl, rfl⟩
  have hreads : [3, 5].map (fun n => readRows ((if n = 3 then wa else wb) 0).rgs) = [[(0, some [[1, 1]]), (10, some [[6, 4]])],
      [(0, some [[1, 1]]), (10, some [[6, 4]]), (20, some [[24, 16]]), (30, some [[96, 64]])]] := by
    simp [h3, h4]
  obtain ⟨s2, w2, hfed, hw⟩ : ∃ (s2 : State (List (List Int)) ExBuf Unit Unit) (w2 : ExWorld ExBuf),
      Fed (exNextConf 1) (exState 1 (Buf.init {})) exWorld [[(0, some [[1, 1]]), (10, some [[6, 4]])],
        [(0, some [[1, 1]]), (10, some [[6, 4]]), (20, some [[24, 16]]), (30, some [[96, 64]])]]
        [⟨exFeed1, true, true, true⟩, ⟨exFeed2, true, true, true⟩] s2 w2 ∧
      (w2 0).rgs.map RG.rows = [[(0, some [[7, 6]]), (20, some [[24, 24]])]] := by
    refine ⟨_, _, .call (reads := [[(0, some [[1, 1]]), (10, some [[6, 4]])]]) (bs := [⟨exFeed1, true, true, true⟩]) (d := 1)
      (seed := exFeed2) (.call (reads := []) (bs := []) (d := 0) (seed := exFeed1) .nil rfl (by simp) rfl) rfl ?_ rfl, ?_⟩
    · show ∀ x ∈ [((0 : Int), some [[(1 : Int), 1]])], ∃ t, some (10 : Int) = some t ∧ x.1 < t
      simp
    · rfl
  refine ⟨fun n => if n = 3 then wa else wb, s2, w2, ?_, hreads ▸ hfed, hreads, hw⟩
  intro n hn
  simp only [List.mem_cons, List.not_mem_nil, or_false] at hn
  rcases hn with rfl | rfl
  · exact ⟨sa, h1⟩
  · exact ⟨sb, h2⟩

-- `C91_sessions` for the same calls of the second stream
example : ∃ (s2 : State (List (List Int)) ExBuf Unit Unit) (w2 : ExWorld ExBuf),
    FedSessions (Buf.init {}) () () (exNextConf 1) exWorld [[(0, some [[1, 1]]), (10, some [[6, 4]])],
        [(0, some [[1, 1]]), (10, some [[6, 4]]), (20, some [[24, 16]]), (30, some [[96, 64]])]]
        [⟨exFeed1, true, true, true⟩, ⟨exFeed2, true, true, true⟩] w2 ∧
    Fed (exNextConf 1) (exState 1 (Buf.init {})) exWorld [[(0, some [[1, 1]]), (10, some [[6, 4]])],
        [(0, some [[1, 1]]), (10, some [[6, 4]]), (20, some [[24, 16]]), (30, some [[96, 64]])]]
        [⟨exFeed1, true, true, true⟩, ⟨exFeed2, true, true, true⟩] s2 w2 := by
  have h : ∃ w2 : ExWorld ExBuf, FedSessions (Buf.init {}) () () (exNextConf 1) exWorld [[(0, some [[1, 1]]), (10, some [[6, 4]])],
        [(0, some [[1, 1]]), (10, some [[6, 4]]), (20, some [[24, 16]]), (30, some [[96, 64]])]]
        [⟨exFeed1, true, true, true⟩, ⟨exFeed2, true, true, true⟩] w2 := by
    refine ⟨_, .call (reads := [[(0, some [[1, 1]]), (10, some [[6, 4]])]]) (bs := [⟨exFeed1, true, true, true⟩]) (d := 1)
      (seed := exFeed2) (j := 30) (.call (reads := []) (bs := []) (d := 0) (seed := exFeed1) (j := 10) .nil rfl rfl (by simp) rfl rfl rfl)
      rfl rfl ?_ rfl rfl rfl⟩
    show ∀ x ∈ [((0 : Int), some [[(1 : Int), 1]])], ∃ t, some (10 : Int) = some t ∧ x.1 < t
    simp
  obtain ⟨w2, h⟩ := h
  obtain ⟨s2, e, -⟩ := C91_sessions (s := exState 1 (Buf.init {})) (by simp [Apart, exNextConf]) (by simp [exNextConf])
    (by simp [exNextConf, exNextKey])
    (by simp only [exNextConf, List.mem_singleton, forall_eq, exNextKey]; exact answers_frame _ _ _ _ _ _ _ _)
    rfl rfl (by simp [exState, KeyBuf.Rest]) h
  exact ⟨s2, w2, h, e⟩

-- `C91_time` (thus `C91_polled` and `C91_fed`)
example : ∃ one : Res (List (List Int)),
    frameCall (fun _ => intOps) ex_get ex_cfg exZ (grouperFn { freq := 10 } Prod.fst) none none false
      (exSeed1 ++ exReadSeed).flatten none = .ok (some one, none) ∧
    received (exNextConf 1) 0 [⟨exFeed1, true, true, true⟩, ⟨exFeed2, true, true, true⟩] none () =
      [(0, some [[1, 1]]), (10, some [[6, 4]]), (20, some [[24, 16]])] ∧
    [(0, some [[1, 1]]), (10, some [[6, 4]]), (20, some [[24, 16]])] <+: one.bins.dropLast := by
  obtain ⟨wd, s2, w2, hrun, hfed, hreads, -⟩ := exFed
  have hrec : received (exConf [(0, exKey 0 0)]) 0 exFeedCalls none () =
      [((1 : Int), (1 : Int)), (12, 2), (13, 4), (25, 8), (26, 16), (38, 32), (39, 64), (41, 128), (52, 256), (63, 512)] := rfl
  obtain ⟨one, e1, e2, e3⟩ := C91_time (emb := id) (e0 := true) (gB := id) (gS := id) (on := 0) (d := .one 0) (q0 := ()) (f := 0)
    (c1 := exConf [(0, exKey 0 0)]) (cfg := exKey 0 0) (as := exFeedCalls) (r1 := none) (p1 := ()) (w1 := exWorld)
    (fun _ : Unit => intOps) ex_get
    (dtype := fun _ => some ()) (agg := [(0, 0, some .sum), (1, 0, some .last)]) (gc := ex_cfg) exZ (c2 := exNextConf 1)
    rfl { freq := 10 } ⟨by decide, .inr (.inr ⟨rfl, by decide⟩)⟩ Prod.fst none (exEmbeds _) rfl ⟨rfl, rfl⟩
    ⟨rfl, rfl, by decide, by decide⟩ exKey_byLabel rfl (by rw [hrec]; simp) (by rw [hrec]; simp [AscOn]) (by simp)
    (ns := [3, 5]) (by simp) hrun rfl rfl (by simp [exNextConf]) (fun _ _ => true) (by simp [exNextConf, RowFilter])
    (e := (0, none)) (by simp [exNextConf]) rfl rfl hfed
  have e4 : received (exNextConf 1) 0 [⟨exFeed1, true, true, true⟩, ⟨exFeed2, true, true, true⟩] none () =
      [(0, some [[1, 1]]), (10, some [[6, 4]]), (20, some [[24, 16]])] := by
    refine e2.trans ?_
    show ((([3, 5].map (fun n => readRows (wd n 0).rgs)).getLast?.getD []).dropLast).filter _ = _
    rw [hreads]
    rfl
  refine ⟨one, e1, e4, ?_⟩
  rw [← e4]
  have e5 : ((one.bins.dropLast.map id).filter fun _ => true) = one.bins.dropLast := by simp
  exact e5 ▸ e3

-- `C91_time_stored` for the same calls
example : ∃ (w2 : ExWorld ExBuf) (one two : Res (List (List Int))),
    frameCall (fun _ => intOps) ex_get ex_cfg exZ (grouperFn { freq := 10 } Prod.fst) none none false
      (exSeed1 ++ exReadSeed).flatten none = .ok (some one, none) ∧
    frameCall (fun _ => intOps) exNextGet ex_cfg exZ (grouperFn { freq := 20 } (exT.get 0)) none none false
      (one.bins.dropLast.take 3) none = .ok (some two, none) ∧
    readRows (w2 0).rgs = two.bins ∧ (w2 0).rgs.map RG.rows = [[(0, some [[7, 6]]), (20, some [[24, 24]])]] := by
  obtain ⟨wd, s2, w2, hrun, hfed, hreads, hw2⟩ := exFed
  have hrec : received (exConf [(0, exKey 0 0)]) 0 exFeedCalls none () =
      [((1 : Int), (1 : Int)), (12, 2), (13, 4), (25, 8), (26, 16), (38, 32), (39, 64), (41, 128), (52, 256), (63, 512)] := rfl
  obtain ⟨one, two, n, e1, e2, e3, e4⟩ := C91_time_stored (emb := id) (e0 := true) (gB := id) (gS := id) (on := 0) (d := .one 0)
    (q0 := ()) (f := 0)
    (c1 := exConf [(0, exKey 0 0)]) (cfg := exKey 0 0) (as := exFeedCalls) (r1 := none) (p1 := ()) (w1 := exWorld)
    (fun _ : Unit => intOps) ex_get
    (dtype := fun _ => some ()) (agg := [(0, 0, some .sum), (1, 0, some .last)]) (gc := ex_cfg) exZ (c2 := exNextConf 1)
    (O2 := fun _ : Unit => intOps) (get2 := exNextGet) (z2 := exZ) (bs := [⟨exFeed1, true, true, true⟩])
    (b := ⟨exFeed2, true, true, true⟩)
    rfl { freq := 10 } ⟨by decide, .inr (.inr ⟨rfl, by decide⟩)⟩ Prod.fst none (exEmbeds _) rfl ⟨rfl, rfl⟩
    ⟨rfl, rfl, by decide, by decide⟩ exKey_byLabel rfl (by rw [hrec]; simp) (by rw [hrec]; simp [AscOn]) (by simp)
    (ns := [3, 5]) (by simp) hrun rfl rfl (by simp [exNextConf]) (fun _ _ => true) (by simp [exNextConf, RowFilter])
    (e := (0, none)) (by simp [exNextConf]) rfl rfl
    (j := 0) (cfg2 := exNextKey 1) (q2 := ()) (gB2 := id) (gS2 := id) (on2 := 0) (d2 := .one 0) (emb2 := id) (e2 := true)
    (dtype2 := fun _ => some ()) (agg2 := [(0, 0, some .sum), (1, 0, some .last)]) (gc2 := ex_cfg)
    (by simp [Apart, exNextConf]) rfl rfl { freq := 20 } ⟨by decide, .inr (.inr ⟨rfl, by decide⟩)⟩ (exEmbeds _) rfl ⟨rfl, rfl⟩
    ⟨rfl, rfl, by decide, by decide⟩ exKey_byLabel rfl rfl rfl
    (by
      show [((0 : Int), some [[(1 : Int), 1]]), (10, some [[6, 4]]), (20, some [[24, 16]])] ≠ []
      simp) hfed
  have e5 : n = 3 := by
    refine e2.trans ?_
    show ((([3, 5].map (fun n => readRows (wd n 0).rgs)).getLast?.getD []).dropLast.filter _).length = _
    rw [hreads]
    rfl
  subst e5
  refine ⟨w2, one, two, e1, ?_, by simpa [exNextKey] using e4, hw2⟩
  simpa [exNextConf] using e3

def exFeedRows : List (Call (Int × Int)) :=
  [⟨[[(1, 1), (12, 2)], [(13, 4), (25, 8), (26, 16)], [(38, 32), (39, 64)], [(40, 128), (41, 256), (42, 512)], [(43, 1)]],
    false, false, true⟩]
def exFeedRows1 : List (List (Row (List (List Int)))) := [[(1, some [[7, 4]]), (25, some [[56, 32]]), (39, some [[448, 256]])]]
def exFeedRows2 : List (List (Row (List (List Int)))) := [[(39, some [[448, 256]]), (42, some [[513, 1]])]]

-- `C91_rows`: bins of three rows, read before the final write and after it
example : ∃ one : Res (List (List Int)),
    frameCall (fun _ => intOps) ex_get ex_cfg exZ (rowsFn 3 .left Prod.fst) none none false
      [(1, 1), (12, 2), (13, 4), (25, 8), (26, 16), (38, 32), (39, 64), (40, 128), (41, 256), (42, 512), (43, 1)] none =
      .ok (some one, none) ∧
    ((one.bins.map Prod.fst).Pairwise (· < ·) →
      received (exNextConf 1) 0 [⟨exFeedRows1, true, true, true⟩, ⟨exFeedRows2, true, true, true⟩] none () =
        [(1, some [[7, 4]]), (25, some [[56, 32]]), (39, some [[448, 256]])] ∧
      received (exNextConf 1) 0 [⟨exFeedRows1, true, true, true⟩, ⟨exFeedRows2, true, true, true⟩] none () <+: one.bins.dropLast) := by
  obtain ⟨sa, wa, sb, wb, h1, h2, h3, h4⟩ : ∃ (sa : KeyBuf (List (List Int)) (Buf (Option RowsBuf) (List (List Int))) Unit)
      (wa : ExWorld (Buf (Option RowsBuf) (List (List Int)))) (sb : KeyBuf (List (List Int)) (Buf (Option RowsBuf) (List (List Int))) Unit)
      (wb : ExWorld (Buf (Option RowsBuf) (List (List Int)))),
      keyRun (exRows 3 0) (exConf [(0, exRows 3 0)]).truthy ((keyOpsAll (exConf [(0, exRows 3 0)]) 0 exFeedRows none ()).take 5)
        { seg := Buf.init none, post := () } exWorld = .ok (sa, wa) ∧
      keyRun (exRows 3 0) (exConf [(0, exRows 3 0)]).truthy ((keyOpsAll (exConf [(0, exRows 3 0)]) 0 exFeedRows none ()).take 6)
        { seg := Buf.init none, post := () } exWorld = .ok (sb, wb) ∧
      readRows (wa 0).rgs = [(1, some [[7, 4]]), (25, some [[56, 32]]), (39, some [[448, 256]])] ∧
      readRows (wb 0).rgs = [(1, some [[7, 4]]), (25, some [[56, 32]]), (39, some [[448, 256]]), (42, some [[513, 1]])] :=
    ⟨_, _, _, _, rfl, rfl, rfl, rfl⟩
  have hreads : [5, 6].map (fun n => readRows ((if n = 5 then wa else wb) 0).rgs) =
      [[(1, some [[7, 4]]), (25, some [[56, 32]]), (39, some [[448, 256]])],
        [(1, some [[7, 4]]), (25, some [[56, 32]]), (39, some [[448, 256]]), (42, some [[513, 1]])]] := by
    simp [h3, h4]
  obtain ⟨s2, w2, hfed⟩ : ∃ (s2 : State (List (List Int)) ExBuf Unit Unit) (w2 : ExWorld ExBuf),
      Fed (exNextConf 1) (exState 1 (Buf.init {})) exWorld [[(1, some [[7, 4]]), (25, some [[56, 32]]), (39, some [[448, 256]])],
        [(1, some [[7, 4]]), (25, some [[56, 32]]), (39, some [[448, 256]]), (42, some [[513, 1]])]]
        [⟨exFeedRows1, true, true, true⟩, ⟨exFeedRows2, true, true, true⟩] s2 w2 := by
    refine ⟨_, _, .call (reads := [[(1, some [[7, 4]]), (25, some [[56, 32]]), (39, some [[448, 256]])]])
      (bs := [⟨exFeedRows1, true, true, true⟩]) (d := 2)
      (seed := exFeedRows2) (.call (reads := []) (bs := []) (d := 0) (seed := exFeedRows1) .nil rfl (by simp) rfl) rfl ?_ rfl⟩
    show ∀ x ∈ [((1 : Int), some [[(7 : Int), 4]]), (25, some [[56, 32]])], ∃ t, some (39 : Int) = some t ∧ x.1 < t
    simp
  have hrec : received (exConf [(0, exRows 3 0)]) 0 exFeedRows none () =
      [((1 : Int), (1 : Int)), (12, 2), (13, 4), (25, 8), (26, 16), (38, 32), (39, 64), (40, 128), (41, 256), (42, 512), (43, 1)] := rfl
  obtain ⟨one, e1, e2⟩ := C91_rows (emb := id) (e0 := true) (gB := id) (gS := id) (on := 0) (d := .one 0) (q0 := ()) (f := 0)
    (c1 := exConf [(0, exRows 3 0)]) (cfg := exRows 3 0) (as := exFeedRows) (r1 := none) (p1 := ()) (w1 := exWorld)
    (fun _ : Unit => intOps) ex_get
    (dtype := fun _ => some ()) (agg := [(0, 0, some .sum), (1, 0, some .last)]) (gc := ex_cfg) exZ (c2 := exNextConf 1)
    rfl 3 (by decide) .left Prod.fst none (exEmbeds _) rfl ⟨rfl, rfl⟩
    ⟨rfl, rfl, by decide, by decide⟩ exKey_byLabel rfl (by rw [hrec]; simp) (by simp)
    (ns := [5, 6]) (by simp) (wd := fun n => if n = 5 then wa else wb)
    (by
      intro n hn
      simp only [List.mem_cons, List.not_mem_nil, or_false] at hn
      rcases hn with rfl | rfl
      · exact ⟨sa, h1⟩
      · exact ⟨sb, h2⟩)
    rfl rfl (by simp [exNextConf]) (fun _ _ => true) (by simp [exNextConf, RowFilter])
    (e := (0, none)) (by simp [exNextConf]) rfl rfl (hreads ▸ hfed)
  refine ⟨one, e1, fun hst => ?_⟩
  obtain ⟨e3, e4⟩ := e2 hst
  refine ⟨e3.trans ?_, ?_⟩
  · show ((([5, 6].map (fun n => readRows ((if n = 5 then wa else wb) 0).rgs)).getLast?.getD []).dropLast).filter _ = _
    rw [hreads]
    rfl
  · have e5 : ((one.bins.dropLast.map id).filter fun _ => true) = one.bins.dropLast := by simp
    exact e5 ▸ e4

def exFeedBoth : List (Call (Int × Int)) :=
  [⟨[[(1, 1), (2, 2)], [(7, 4)], [(8, 8)], [(12, 16), (16, 32)], [(23, 64)], [(34, 128)]], false, false, true⟩]
def exFeedSnaps1 : List (List (Row (List (List Int)))) := [[(5, some [[3, 2]]), (10, some [[15, 8]])], [(15, some [[16, 16]])]]
def exFeedSnaps2 : List (List (Row (List (List Int)))) :=
  [[(15, some [[16, 16]]), (20, some [[48, 32]]), (25, some [[64, 64]])], [(30, some [[64, 64]]), (35, some [[128, 128]])]]

-- `C91_snaps` (thus `C91_polled_snaps`): snapshots of a stream with bins and snapshots, read before the final write and after it
example : ∃ (one : Res (List (List Int))) (sns : List (Row (List (List Int)))),
    frameCall (fun _ => intOps) ex_get ex_cfg exZ (grouperFn { freq := 10 } Prod.fst) (some Prod.fst)
        (some (.grouper { freq := 5, labelRight := true })) false
        [(1, 1), (2, 2), (7, 4), (8, 8), (12, 16), (16, 32), (23, 64), (34, 128)] none = .ok (some one, none) ∧ one.snaps = some sns ∧
    received (exNextConf 1) 0 [⟨exFeedSnaps1, true, true, true⟩, ⟨exFeedSnaps2, true, true, true⟩] none () =
      [(5, some [[3, 2]]), (10, some [[15, 8]]), (15, some [[16, 16]]), (20, some [[48, 32]]), (25, some [[64, 64]]),
        (30, some [[64, 64]])] ∧
    received (exNextConf 1) 0 [⟨exFeedSnaps1, true, true, true⟩, ⟨exFeedSnaps2, true, true, true⟩] none () <+: sns.dropLast := by
  obtain ⟨sa, wa, sb, wb, h1, h2, h3, h4⟩ : ∃ (sa : KeyBuf (List (List Int)) ExBuf Unit)
      (wa : ExWorld ExBuf) (sb : KeyBuf (List (List Int)) ExBuf Unit) (wb : ExWorld ExBuf),
      keyRun (exBoth 0 none) (exConf [(0, exBoth 0 none)]).truthy ((keyOpsAll (exConf [(0, exBoth 0 none)]) 0 exFeedBoth none ()).take 5)
        { seg := Buf.init {}, post := () } exWorld = .ok (sa, wa) ∧
      keyRun (exBoth 0 none) (exConf [(0, exBoth 0 none)]).truthy ((keyOpsAll (exConf [(0, exBoth 0 none)]) 0 exFeedBoth none ()).take 7)
        { seg := Buf.init {}, post := () } exWorld = .ok (sb, wb) ∧
      readRows (wa 1).rgs = [(5, some [[3, 2]]), (10, some [[15, 8]]), (15, some [[16, 16]])] ∧
      readRows (wb 1).rgs = [(5, some [[3, 2]]), (10, some [[15, 8]]), (15, some [[16, 16]]), (20, some [[48, 32]]),
        (25, some [[64, 64]]), (30, some [[64, 64]]), (35, some [[128, 128]])] :=
    ⟨_, _, _, _, rfl, rfl, rfl, rfl⟩
  have hreads : [5, 7].map (fun n => readRows ((if n = 5 then wa else wb) 1).rgs) =
      [[(5, some [[3, 2]]), (10, some [[15, 8]]), (15, some [[16, 16]])],
        [(5, some [[3, 2]]), (10, some [[15, 8]]), (15, some [[16, 16]]), (20, some [[48, 32]]),
        (25, some [[64, 64]]), (30, some [[64, 64]]), (35, some [[128, 128]])]] := by
    simp [h3, h4]
  obtain ⟨s2, w2, hfed⟩ : ∃ (s2 : State (List (List Int)) ExBuf Unit Unit) (w2 : ExWorld ExBuf),
      Fed (exNextConf 1) (exState 1 (Buf.init {})) exWorld [[(5, some [[3, 2]]), (10, some [[15, 8]]), (15, some [[16, 16]])],
        [(5, some [[3, 2]]), (10, some [[15, 8]]), (15, some [[16, 16]]), (20, some [[48, 32]]),
        (25, some [[64, 64]]), (30, some [[64, 64]]), (35, some [[128, 128]])]]
        [⟨exFeedSnaps1, true, true, true⟩, ⟨exFeedSnaps2, true, true, true⟩] s2 w2 := by
    refine ⟨_, _, .call (reads := [[(5, some [[3, 2]]), (10, some [[15, 8]]), (15, some [[16, 16]])]])
      (bs := [⟨exFeedSnaps1, true, true, true⟩]) (d := 2)
      (seed := exFeedSnaps2) (.call (reads := []) (bs := []) (d := 0) (seed := exFeedSnaps1) .nil rfl (by simp) rfl) rfl ?_ rfl⟩
    show ∀ x ∈ [((5 : Int), some [[(3 : Int), 2]]), (10, some [[15, 8]])], ∃ t, some (15 : Int) = some t ∧ x.1 < t
    simp
  have hrec : received (exConf [(0, exBoth 0 none)]) 0 exFeedBoth none () =
      [((1 : Int), (1 : Int)), (2, 2), (7, 4), (8, 8), (12, 16), (16, 32), (23, 64), (34, 128)] := rfl
  obtain ⟨one, sns, e1, e2, e3, e4⟩ := C91_snaps (emb := id) (e0 := true) (gB := id) (gS := id) (on := 0) (d := .one 0) (q0 := ())
    (f := 0) (c1 := exConf [(0, exBoth 0 none)]) (cfg := exBoth 0 none) (as := exFeedBoth) (r1 := none) (p1 := ()) (w1 := exWorld)
    (fun _ : Unit => intOps) ex_get
    (dtype := fun _ => some ()) (agg := [(0, 0, some .sum), (1, 0, some .last)]) (gc := ex_cfg) exZ (c2 := exNextConf 1)
    rfl { freq := 10 } ⟨by decide, .inr (.inr ⟨rfl, by decide⟩)⟩
    { freq := 5, labelRight := true } ⟨by decide, .inr (.inr ⟨rfl, by decide⟩)⟩ Prod.fst (exEmbeds _) (by simp [exBoth])
    (by simp [exBoth]) ⟨rfl, rfl⟩ ⟨rfl, rfl, by decide, by decide⟩ (fun _ => ⟨rfl, rfl, by decide, by decide⟩)
    (fun _ => exKey_byLabel) exKey_byLabel rfl (fun _ => rfl) (by rw [hrec]; simp) (by rw [hrec]; simp [AscOn])
    (ns := [5, 7]) (by simp) (wd := fun n => if n = 5 then wa else wb)
    (by
      intro n hn
      simp only [List.mem_cons, List.not_mem_nil, or_false] at hn
      rcases hn with rfl | rfl
      · exact ⟨sa, h1⟩
      · exact ⟨sb, h2⟩)
    rfl rfl (by simp [exNextConf]) (fun _ _ => true) (by simp [exNextConf, RowFilter])
    (e := (0, none)) (by simp [exNextConf]) rfl rfl (hreads ▸ hfed)
  refine ⟨one, sns, e1, e2, e3.trans ?_, ?_⟩
  · show ((([5, 7].map (fun n => readRows ((if n = 5 then wa else wb) 1).rgs)).getLast?.getD []).dropLast).filter _ = _
    rw [hreads]
    rfl
  · have e5 : ((sns.dropLast.map id).filter fun _ => true) = sns.dropLast := by simp
    exact e5 ▸ e4

/-- Two sessions of the first stream, row groups of one row in the first one, of two rows in the second one, and reads after each. -/
theorem exPolls : ∃ w : ExWorld ExBuf, Polls ex0 () () (exKeyF 10 100 1) (fun cfg => ∃ m size, cfg = exKeyF 10 m size) 0 exWorld
    [[(0, some [[1, 1]]), (10, some [[6, 4]]), (20, some [[8, 8]])],
      [(0, some [[1, 1]]), (10, some [[6, 4]]), (20, some [[24, 16]]), (30, some [[96, 64]]), (40, some [[128, 128]])]]
    (exSeed1.flatten ++ exSeed2.flatten) w := by
  obtain ⟨s1, w1, s2, s3, w2, e1, e2, e3, e4, e5, e6, e7, e8⟩ : ∃ (s1 : State (List (List Int)) ExBuf Unit Unit)
      (w1 : ExWorld ExBuf) (s2 s3 : State (List (List Int)) ExBuf Unit Unit) (w2 : ExWorld ExBuf),
      aggs (exConf [(0, exKeyF 10 100 1)]) ([] ++ [⟨exSeed1, false, false, true⟩]) (exState 1 ex0) exWorld = .ok (s1, w1) ∧
      s1.restart = some 25 ∧ initBuffers ex0 () () (exConf [(0, exKeyF 10 0 2)]) w1 = .ok s2 ∧
      aggs (exConf [(0, exKeyF 10 0 2)]) ([] ++ [⟨exSeed2, false, false, true⟩]) s2 w1 = .ok (s3, w2) ∧ s3.restart = some 41 ∧
      received (exConf [(0, exKeyF 10 0 2)]) 0 ([] ++ [⟨exSeed2, false, false, true⟩]) s2.restart s2.pre = exSeed2.flatten ∧
      readRows (w1 0).rgs = [(0, some [[1, 1]]), (10, some [[6, 4]]), (20, some [[8, 8]])] ∧
      readRows (w2 0).rgs = [(0, some [[1, 1]]), (10, some [[6, 4]]), (20, some [[24, 16]]), (30, some [[96, 64]]), (40, some [[128, 128]])] :=
    ⟨_, _, _, _, _, rfl, rfl, rfl, rfl, rfl, rfl, rfl, rfl⟩
  have h1 : SessionRuns ex0 () () (exKeyF 10 100 1) (fun cfg => ∃ m size, cfg = exKeyF 10 m size) exWorld exSeed1.flatten w1 :=
    SessionRuns.session (k := exKeyF 10 100 1) (L := fun cfg => ∃ m size, cfg = exKeyF 10 m size) (i := 0) (f := 0)
      (c := exConf [(0, exKeyF 10 100 1)]) (cfg := exKeyF 10 100 1) (s := exState 1 ex0) (List.pairwise_singleton _ _) rfl
      ⟨rfl, rfl, rfl, rfl⟩ ⟨_, _, rfl⟩ rfl rfl e1 e2 rfl (.nil _)
  have h2 := SessionRuns.session (k := exKeyF 10 100 1) (L := fun cfg => ∃ m size, cfg = exKeyF 10 m size) (i := 0) (f := 0)
      (c := exConf [(0, exKeyF 10 0 2)]) (cfg := exKeyF 10 0 2) (s := s2) (List.pairwise_singleton _ _) rfl
      ⟨rfl, rfl, rfl, rfl⟩ ⟨_, _, rfl⟩ e3 rfl e4 e5 rfl (.nil _)
  rw [e6, List.append_nil] at h2
  have := Polls.read (ds := 0) (Polls.read .nil h1) h2
  rw [e7, e8] at this
  exact ⟨w2, this⟩

-- `C91_time_settings` (thus `C91_settings`) for these sessions
example : ∃ one : Res (List (List Int)),
    frameCall (fun _ => intOps) ex_get ex_cfg exZ (grouperFn { freq := 10 } Prod.fst) none none false
      (exSeed1.flatten ++ exSeed2.flatten) none = .ok (some one, none) ∧
    received (exNextConf 1) 0 [⟨exNextRead1, true, true, true⟩, ⟨exNextRead2, true, true, true⟩] none () = one.bins.dropLast := by
  obtain ⟨w, hpolls⟩ := exPolls
  obtain ⟨s2, w2, hfed⟩ : ∃ (s2 : State (List (List Int)) ExBuf Unit Unit) (w2 : ExWorld ExBuf),
      Fed (exNextConf 1) (exState 1 (Buf.init {})) exWorld [[(0, some [[1, 1]]), (10, some [[6, 4]]), (20, some [[8, 8]])],
        [(0, some [[1, 1]]), (10, some [[6, 4]]), (20, some [[24, 16]]), (30, some [[96, 64]]), (40, some [[128, 128]])]]
        [⟨exNextRead1, true, true, true⟩, ⟨exNextRead2, true, true, true⟩] s2 w2 := by
    refine ⟨_, _, .call (reads := [[(0, some [[1, 1]]), (10, some [[6, 4]]), (20, some [[8, 8]])]])
      (bs := [⟨exNextRead1, true, true, true⟩]) (d := 2)
      (seed := exNextRead2) (.call (reads := []) (bs := []) (d := 0) (seed := exNextRead1) .nil rfl (by simp) rfl) rfl ?_ rfl⟩
    show ∀ x ∈ [((0 : Int), some [[(1 : Int), 1]]), (10, some [[6, 4]])], ∃ t, some (20 : Int) = some t ∧ x.1 < t
    simp
  obtain ⟨one, e1, e2⟩ := C91_time_settings (k := exKeyF 10 100 1) (emb := id) (gB := id) (gS := id) (on := 0) (d := .one 0)
    (q0 := ()) (fun _ : Unit => intOps) ex_get
    (dtype := fun _ => some ()) (agg := [(0, 0, some .sum), (1, 0, some .last)]) (gc := ex_cfg) exZ (c2 := exNextConf 1)
    rfl { freq := 10 } ⟨by decide, .inr (.inr ⟨rfl, by decide⟩)⟩ Prod.fst none
    (L := fun cfg => ∃ m size, cfg = exKeyF 10 m size) ⟨_, _, rfl⟩
    (fun cfg h => ⟨⟨true, (exKeyF_kept cfg h).1⟩, (exKeyF_kept cfg h).2⟩) rfl rfl
    (by simp [exSeed1]) (by decide) (by simp) hpolls rfl rfl (by simp [exNextConf]) (fun _ _ => true)
    (by simp [exNextConf, RowFilter]) (e := (0, none)) (by simp [exNextConf]) rfl rfl hfed
  refine ⟨one, e1, e2.trans ?_⟩
  simp

-- `C91_three`: the third stream is run after each call of the second one, which had a temporary bin at its first call
example : ∃ (one two : Res (List (List Int))) (n : Nat),
    frameCall (fun _ => intOps) ex_get ex_cfg exZ (grouperFn { freq := 10 } Prod.fst) none none false
      (exSeed1 ++ exReadSeed).flatten none = .ok (some one, none) ∧
    frameCall (fun _ => intOps) exNextGet ex_cfg exZ (grouperFn { freq := 20 } (exT.get 0)) none none false
      (one.bins.dropLast.take n) none = .ok (some two, none) ∧
    received (exNextConf 1) 0 [⟨[[(0, some [[1, 1]])]], true, true, false⟩,
      ⟨[[(0, some [[7, 6]])], [(20, some [[24, 24]])]], true, true, true⟩] none () = [(0, some [[7, 6]])] ∧
    [(0, some [[7, 6]])] <+: two.bins.dropLast := by
  obtain ⟨wd, s2, w2, hrun, hfed, hreads, -⟩ := exFed
  obtain ⟨sa, wa, sb, wb, h1, h2, h3, h4⟩ : ∃ (sa : KeyBuf (List (List Int)) ExBuf Unit)
      (wa : ExWorld ExBuf) (sb : KeyBuf (List (List Int)) ExBuf Unit) (wb : ExWorld ExBuf),
      keyRun (exNextKey 1) (exNextConf 1).truthy
        ((keyOpsAll (exNextConf 1) 0 [⟨exFeed1, true, true, true⟩, ⟨exFeed2, true, true, true⟩] none ()).take 2)
        { seg := Buf.init {}, post := () } exWorld = .ok (sa, wa) ∧
      keyRun (exNextKey 1) (exNextConf 1).truthy
        ((keyOpsAll (exNextConf 1) 0 [⟨exFeed1, true, true, true⟩, ⟨exFeed2, true, true, true⟩] none ()).take 5)
        { seg := Buf.init {}, post := () } exWorld = .ok (sb, wb) ∧
      readRows (wa 0).rgs = [(0, some [[1, 1]])] ∧ readRows (wb 0).rgs = [(0, some [[7, 6]]), (20, some [[24, 24]])] :=
    ⟨_, _, _, _, rfl, rfl, rfl, rfl⟩
  have hreads2 : [2, 5].map (fun n => readRows ((if n = 2 then wa else wb) 0).rgs) = [[(0, some [[1, 1]])],
      [(0, some [[7, 6]]), (20, some [[24, 24]])]] := by
    simp [h3, h4]
  obtain ⟨s3, w3, hfed3⟩ : ∃ (s3 : State (List (List Int)) ExBuf Unit Unit) (w3 : ExWorld ExBuf),
      Fed (exNextConf 1) (exState 1 (Buf.init {})) exWorld [[(0, some [[1, 1]])], [(0, some [[7, 6]]), (20, some [[24, 24]])]]
        [⟨[[(0, some [[1, 1]])]], true, true, false⟩, ⟨[[(0, some [[7, 6]])], [(20, some [[24, 24]])]], true, true, true⟩] s3 w3 :=
    ⟨_, _, .call (reads := [[(0, some [[1, 1]])]]) (bs := [⟨[[(0, some [[1, 1]])]], true, true, false⟩]) (d := 0)
      (seed := [[(0, some [[7, 6]])], [(20, some [[24, 24]])]])
      (.call (reads := []) (bs := []) (d := 0) (seed := [[(0, some [[1, 1]])]]) .nil rfl (by simp) rfl) rfl (by simp) rfl⟩
  have hrec : received (exConf [(0, exKey 0 0)]) 0 exFeedCalls none () =
      [((1 : Int), (1 : Int)), (12, 2), (13, 4), (25, 8), (26, 16), (38, 32), (39, 64), (41, 128), (52, 256), (63, 512)] := rfl
  obtain ⟨one, two, n, e1, e2, e3, e4⟩ := C91_three (emb := id) (e0 := true) (gB := id) (gS := id) (on := 0) (d := .one 0)
    (q0 := ()) (f := 0)
    (c1 := exConf [(0, exKey 0 0)]) (cfg := exKey 0 0) (as := exFeedCalls) (r1 := none) (p1 := ()) (w1 := exWorld)
    (fun _ : Unit => intOps) ex_get
    (dtype := fun _ => some ()) (agg := [(0, 0, some .sum), (1, 0, some .last)]) (gc := ex_cfg) exZ (c2 := exNextConf 1)
    (O2 := fun _ : Unit => intOps) (get2 := exNextGet) (z2 := exZ) (c3 := exNextConf 1) (w2 := exWorld)
    (bs := [⟨exFeed1, true, true, true⟩, ⟨exFeed2, true, true, true⟩])
    rfl { freq := 10 } ⟨by decide, .inr (.inr ⟨rfl, by decide⟩)⟩ Prod.fst none (exEmbeds _) rfl ⟨rfl, rfl⟩
    ⟨rfl, rfl, by decide, by decide⟩ exKey_byLabel rfl (by rw [hrec]; simp) (by rw [hrec]; simp [AscOn]) (by simp)
    (ns := [3, 5]) (by simp) hrun rfl rfl (by simp [exNextConf]) (fun _ _ => true) (by simp [exNextConf, RowFilter])
    (e := (0, none)) (by simp [exNextConf]) rfl rfl
    (cfg2 := exNextKey 1) (q2 := ()) (gB2 := id) (gS2 := id) (on2 := 0) (d2 := .one 0) (emb2 := id) (e2 := true)
    (dtype2 := fun _ => some ()) (agg2 := [(0, 0, some .sum), (1, 0, some .last)]) (gc2 := ex_cfg)
    rfl { freq := 20 } ⟨by decide, .inr (.inr ⟨rfl, by decide⟩)⟩ (exEmbeds _) rfl ⟨rfl, rfl⟩
    ⟨rfl, rfl, by decide, by decide⟩ exKey_byLabel rfl
    (by
      show [((0 : Int), some [[(1 : Int), 1]]), (10, some [[6, 4]]), (20, some [[24, 16]])] ≠ []
      simp)
    (ms := [2, 5]) (by simp) (wd2 := fun n => if n = 2 then wa else wb)
    (by
      intro n hn
      simp only [List.mem_cons, List.not_mem_nil, or_false] at hn
      rcases hn with rfl | rfl
      · exact ⟨sa, h1⟩
      · exact ⟨sb, h2⟩)
    rfl rfl (by simp [exNextConf]) (fun _ _ => true) (by simp [exNextConf, RowFilter])
    (e3 := (0, none)) (by simp [exNextConf]) rfl rfl hfed (hreads2 ▸ hfed3)
  have e5 : received (exNextConf 1) 0 [⟨[[(0, some [[1, 1]])]], true, true, false⟩,
      ⟨[[(0, some [[7, 6]])], [(20, some [[24, 24]])]], true, true, true⟩] none () = [(0, some [[7, 6]])] := by
    refine e3.trans ?_
    show ((([2, 5].map (fun n => readRows ((if n = 2 then wa else wb) 0).rgs)).getLast?.getD []).dropLast).filter _ = _
    rw [hreads2]
    rfl
  refine ⟨one, two, n, e1, by simpa [exNextConf] using e2, e5, ?_⟩
  rw [← e5]
  have e6 : ((two.bins.dropLast.map id).filter fun _ => true) = two.bins.dropLast := by simp
  exact e6 ▸ e4

-- `C91_rows_settings`: bins of two rows, two sessions with different settings, then a call of the second stream
example : ∃ one : Res (List (List Int)),
    frameCall (fun _ => intOps) ex_get ex_cfg exZ (rowsFn 2 .left Prod.fst) none none false
      [(1, 1), (12, 2), (13, 4), (25, 16), (26, 32), (38, 64)] none = .ok (some one, none) ∧
    ((one.bins.map Prod.fst).Pairwise (· < ·) →
      received (exNextConf 1) 0 [⟨[[(1, some [[3, 2]]), (13, some [[20, 16]])], [(26, some [[96, 64]])]], true, true, true⟩] none () =
        one.bins.dropLast) := by
  obtain ⟨s1, w1, s2, s3, w2, e1, e2, e3, e4, e5, e6, e7⟩ :
      ∃ (s1 : State (List (List Int)) (Buf (Option RowsBuf) (List (List Int))) Unit Unit)
      (w1 : ExWorld (Buf (Option RowsBuf) (List (List Int))))
      (s2 s3 : State (List (List Int)) (Buf (Option RowsBuf) (List (List Int))) Unit Unit)
      (w2 : ExWorld (Buf (Option RowsBuf) (List (List Int)))),
      aggs (exConf [(0, exRowsF 100 2)]) ([] ++ [⟨[[(1, 1), (12, 2)], [(13, 4)]], false, false, true⟩])
        (exState 1 (Buf.init none)) exWorld = .ok (s1, w1) ∧ s1.restart = some 13 ∧
      initBuffers (Buf.init none) () () (exConf [(0, exRowsF 0 2)]) w1 = .ok s2 ∧
      aggs (exConf [(0, exRowsF 0 2)]) ([] ++ [⟨[[(25, 16), (26, 32)], [(38, 64)]], false, false, true⟩]) s2 w1 = .ok (s3, w2) ∧
      s3.restart = some 38 ∧
      received (exConf [(0, exRowsF 0 2)]) 0 ([] ++ [⟨[[(25, 16), (26, 32)], [(38, 64)]], false, false, true⟩]) s2.restart s2.pre =
        [(25, 16), (26, 32), (38, 64)] ∧
      readRows (w2 0).rgs = [(1, some [[3, 2]]), (13, some [[20, 16]]), (26, some [[96, 64]])] :=
    ⟨_, _, _, _, _, rfl, rfl, rfl, rfl, rfl, rfl, rfl⟩
  have hr := exTwo (k1 := exRowsF 100 2) (k2 := exRowsF 0 2) (L := fun cfg => ∃ m size, cfg = exRowsF m size) ⟨_, _, rfl⟩ ⟨_, _, rfl⟩
    ⟨rfl, rfl, rfl, rfl⟩ rfl e1 ⟨e2, rfl⟩ e3 e4 ⟨e5, rfl⟩
  rw [e6] at hr
  have hpolls := Polls.read (ds := 0) .nil hr
  rw [e7] at hpolls
  obtain ⟨t2, v2, hfed⟩ : ∃ (t2 : State (List (List Int)) ExBuf Unit Unit) (v2 : ExWorld ExBuf),
      Fed (exNextConf 1) (exState 1 (Buf.init {})) exWorld ([] ++ [[(1, some [[3, 2]]), (13, some [[20, 16]]), (26, some [[96, 64]])]])
        [⟨[[(1, some [[3, 2]]), (13, some [[20, 16]])], [(26, some [[96, 64]])]], true, true, true⟩] t2 v2 :=
    ⟨_, _, .call (bs := []) (d := 0) .nil rfl (by simp) rfl⟩
  obtain ⟨one, f1, f2⟩ := C91_rows_settings (k := exRowsF 100 2) (emb := id) (on := 0) (d := .one 0) (gB := id) (gS := id)
    (q0 := ()) (fun _ : Unit => intOps)
    ex_get (dtype := fun _ => some ()) (agg := [(0, 0, some .sum), (1, 0, some .last)]) (gc := ex_cfg) exZ (c2 := exNextConf 1)
    rfl 2 (by decide) .left
    Prod.fst none (L := fun cfg => ∃ m size, cfg = exRowsF m size) ⟨_, _, rfl⟩
    (by
      rintro cfg ⟨m, size, rfl⟩
      refine ⟨⟨true, fun p b => ?_⟩, rfl, ⟨rfl, rfl⟩,
        ⟨rfl, rfl, (by decide : 0 ∈ exT.cols), (by decide : Writer.DupKnown exT (some (.one 0)))⟩, exKey_byLabel⟩
      simp only [exRowsF, exRows, id]
      cases inPlace (frameCall (fun _ => intOps) ex_get ex_cfg exZ (rowsFn 2 .left Prod.fst) none none true) p b <;> rfl)
    rfl rfl (by decide) (by simp) hpolls rfl rfl (by simp [exNextConf]) (fun _ _ => true)
    (by simp [exNextConf, RowFilter]) (e := (0, none)) (by simp [exNextConf]) rfl rfl hfed
  refine ⟨one, f1, fun hst => (f2 hst).trans ?_⟩
  simp

-- `C91_snaps_settings` (thus `C91_settings_snaps`): snapshots beside bins
example : ∃ (one : Res (List (List Int))) (sns : List (Row (List (List Int)))),
    frameCall (fun _ => intOps) ex_get ex_cfg exZ (grouperFn { freq := 10 } Prod.fst) (some Prod.fst)
      (some (.grouper { freq := 5, labelRight := true })) false [(1, 1), (7, 2), (12, 4), (13, 8), (16, 16)] none =
        .ok (some one, none) ∧ one.snaps = some sns ∧
    received (exNextConf 1) 0 [⟨[[(5, some [[1, 1]]), (10, some [[3, 2]])], [(15, some [[12, 8]]), (20, some [[28, 16]])]],
      true, true, true⟩] none () = sns.dropLast := by
  obtain ⟨s1, w1, s2, s3, w2, e1, e2, e3, e4, e5, e6, e7⟩ : ∃ (s1 : State (List (List Int)) ExBuf Unit Unit)
      (w1 : ExWorld ExBuf) (s2 s3 : State (List (List Int)) ExBuf Unit Unit) (w2 : ExWorld ExBuf),
      aggs (exConf [(0, exBothF 100 2)]) ([] ++ [⟨[[(1, 1), (7, 2)], [(12, 4)]], false, false, true⟩])
        (exState 1 ex0) exWorld = .ok (s1, w1) ∧ s1.restart = some 12 ∧
      initBuffers ex0 () () (exConf [(0, exBothF 0 2)]) w1 = .ok s2 ∧
      aggs (exConf [(0, exBothF 0 2)]) ([] ++ [⟨[[(13, 8)], [(16, 16)]], false, false, true⟩]) s2 w1 = .ok (s3, w2) ∧
      s3.restart = some 16 ∧
      received (exConf [(0, exBothF 0 2)]) 0 ([] ++ [⟨[[(13, 8)], [(16, 16)]], false, false, true⟩]) s2.restart s2.pre =
        [(13, 8), (16, 16)] ∧
      readRows (w2 1).rgs = [(5, some [[1, 1]]), (10, some [[3, 2]]), (15, some [[12, 8]]), (20, some [[28, 16]])] :=
    ⟨_, _, _, _, _, rfl, rfl, rfl, rfl, rfl, rfl, rfl⟩
  have hr := exTwo (k1 := exBothF 100 2) (k2 := exBothF 0 2) (L := fun cfg => ∃ m size, cfg = exBothF m size) ⟨_, _, rfl⟩ ⟨_, _, rfl⟩
    ⟨rfl, rfl, rfl, rfl⟩ rfl e1 ⟨e2, rfl⟩ e3 e4 ⟨e5, rfl⟩
  rw [e6] at hr
  have hpolls := Polls.read (ds := 1) .nil hr
  rw [e7] at hpolls
  obtain ⟨t2, v2, hfed⟩ : ∃ (t2 : State (List (List Int)) ExBuf Unit Unit) (v2 : ExWorld ExBuf),
      Fed (exNextConf 1) (exState 1 (Buf.init {})) exWorld
        ([] ++ [[(5, some [[1, 1]]), (10, some [[3, 2]]), (15, some [[12, 8]]), (20, some [[28, 16]])]])
        [⟨[[(5, some [[1, 1]]), (10, some [[3, 2]])], [(15, some [[12, 8]]), (20, some [[28, 16]])]], true, true, true⟩] t2 v2 :=
    ⟨_, _, .call (bs := []) (d := 0) .nil rfl (by simp) rfl⟩
  obtain ⟨one, sns, h1, h2, h3⟩ := C91_snaps_settings (k := exBothF 100 2) (emb := id) (on := 0) (d := .one 0) (gB := id) (gS := id)
    (q0 := ()) (t := .both) (fun _ : Unit => intOps) ex_get (dtype := fun _ => some ())
    (agg := [(0, 0, some .sum), (1, 0, some .last)]) (gc := ex_cfg) exZ (c2 := exNextConf 1) rfl
    { freq := 10 } exFixed { freq := 5, labelRight := true } ⟨by decide, .inr (.inr ⟨rfl, by decide⟩)⟩ Prod.fst (by simp)
    (L := fun cfg => ∃ m size, cfg = exBothF m size) ⟨_, _, rfl⟩
    (by rintro cfg ⟨m, size, rfl⟩; exact exBothF_kept m size) rfl rfl (fun _ => rfl) (by decide) (by decide) hpolls rfl rfl
    (by simp [exNextConf]) (fun _ _ => true) (by simp [exNextConf, RowFilter]) (e := (0, none)) (by simp [exNextConf]) rfl rfl hfed
  refine ⟨one, sns, h1, h2, h3.trans ?_⟩
  simp

end Oups.AggStream
