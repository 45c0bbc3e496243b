import Verif.Spec.KeysConfig
import Verif.Proofs.KeysConfig
/-! Properties C54 and C58: configuration of keys, filters. -/
set_option linter.unusedSimpArgs false
set_option linter.unusedSectionVars false
namespace Oups.KeysConfig
open Oups.Segment (BinBy SnapBy SegConfig setupSegmentby)
open Oups.AggStream (ResType)

/-! ### C54 -/

/-- Parameters that have their own place in the configuration, or are adjusted. -/
def special : List String :=
  ["bin_on", "snap_by", "agg", "post", "max_in_memory_size_b", "duplicates_on", "max_row_group_size"]

theorem splitBinOn_iff {v : Option Val} {inp out : Option Nat} : splitBinOn v = .ok (inp, out) ↔ BinOnIs v inp out := by
  unfold splitBinOn BinOnIs
  split <;> simp_all [eq_comm]

theorem toSnap_iff {v : Option Val} {s : Option SnapBy} : toSnap v = .ok s ↔ SnapIs v s := by
  unfold toSnap SnapIs
  split <;> simp_all [eq_comm]

theorem keySeg_iff {seedOn : Option Nat} {bv : Val} {binOn : Option Nat} {v : Option Val} {seg : SegConfig} :
    keySeg seedOn bv binOn v = .ok seg ↔ ∃ b s, bv = .binBy b ∧ SnapIs v s ∧ setupSegmentby b binOn seedOn s = .ok seg := by
  simp only [keySeg]
  cases hs : toSnap v with
  | error e =>
    simp only [reduceCtorEq, false_iff, not_exists, not_and]
    intro b s _ h
    rw [← toSnap_iff, hs] at h
    cases h
  | ok s =>
    have hs' := toSnap_iff.1 hs
    have huniq : ∀ s', SnapIs v s' → s' = s := by
      intro s' h
      rw [← toSnap_iff, hs] at h
      cases h; rfl
    simp only
    split
    · rename_i b
      constructor
      · intro h
        refine ⟨b, s, rfl, hs', ?_⟩
        cases hx : setupSegmentby b binOn seedOn s with
        | error e => simp [hx] at h
        | ok c => simpa [hx] using h
      · rintro ⟨b', s', hb, hs2, h⟩
        cases hb
        rw [huniq s' hs2] at h
        rw [h]
    · rename_i hne
      simp only [reduceCtorEq, false_iff, not_exists, not_and]
      intro b _ h
      exact absurd h (hne b)

theorem setDuplicates_get {d d' : Dict} {out : Option Nat} (h : setDuplicates d out = .ok d') :
    (∀ p, p ≠ "duplicates_on" → d'.get p = d.get p) ∧
    (Given (d.get "duplicates_on") → d'.get "duplicates_on" = d.get "duplicates_on") ∧
    (¬ Given (d.get "duplicates_on") → d'.get "duplicates_on" = (out.map Val.name).or (d.get "ordered_on")) := by
  revert h
  have key : ∀ v, (∀ p, p ≠ "duplicates_on" → (d.set "duplicates_on" v).get p = d.get p) ∧
      (d.set "duplicates_on" v).get "duplicates_on" = some v := by
    intro v
    refine ⟨fun p hp => by rw [get_set, if_neg hp], by rw [get_set, if_pos rfl]⟩
  have main : ¬ Given (d.get "duplicates_on") → (match out with
      | some c => .ok (d.set "duplicates_on" (.name c))
      | none => match d.get "ordered_on" with
        | some v => .ok (d.set "duplicates_on" v)
        | none => .error .keyError : Except Err Dict) = .ok d' → (∀ p, p ≠ "duplicates_on" → d'.get p = d.get p) ∧
      (Given (d.get "duplicates_on") → d'.get "duplicates_on" = d.get "duplicates_on") ∧
      (¬ Given (d.get "duplicates_on") → d'.get "duplicates_on" = (out.map Val.name).or (d.get "ordered_on")) := by
    intro hg h
    cases out with
    | some c =>
      simp only [Except.ok.injEq] at h
      subst h
      exact ⟨(key _).1, fun h => absurd h hg, fun _ => by rw [(key _).2]; rfl⟩
    | none =>
      cases ho : d.get "ordered_on" with
      | none => simp [ho] at h
      | some v =>
        simp only [ho, Except.ok.injEq] at h
        subst h
        exact ⟨(key _).1, fun h => absurd h hg, fun _ => by rw [(key _).2]; rfl⟩
  intro h
  simp only [setDuplicates] at h
  cases hd : d.get "duplicates_on" with
  | none =>
    simp only [hd] at h main
    exact main (by simp [Given]) h
  | some v =>
    by_cases hv : v = .none
    · subst hv
      simp only [hd] at h main
      exact main (by simp [Given]) h
    · have : d' = d := by
        rw [hd] at h
        cases v <;> simp_all
      subst this
      exact ⟨fun _ _ => rfl, fun _ => hd, fun hg => absurd ⟨by simp, by simpa using hv⟩ hg⟩

theorem setRowGroupSize_get (d : Dict) (t : ResType) :
    (∀ p, p ≠ "max_row_group_size" → (setRowGroupSize d t).get p = d.get p) ∧
    (t ≠ .both → (setRowGroupSize d t).get "max_row_group_size" = d.get "max_row_group_size") ∧
    (t = .both → (setRowGroupSize d t).get "max_row_group_size" = match d.get "max_row_group_size" with
      | some (.pair a b) => some (.pair a b)
      | some v => some (.pair v v)
      | none => some (.pair .none .none)) := by
  simp only [setRowGroupSize]
  by_cases ht : t = .both
  · simp only [ht, if_true, ne_eq, not_true, false_implies, true_implies, true_and]
    cases hd : d.get "max_row_group_size" with
    | none =>
      refine ⟨fun p hp => by rw [get_set, if_neg hp], by rw [get_set, if_pos rfl]⟩
    | some v =>
      cases v with
      | pair a b => exact ⟨fun _ _ => rfl, hd⟩
      | _ => exact ⟨fun p hp => by rw [get_set, if_neg hp], by rw [get_set, if_pos rfl]⟩
  · simp only [ht, if_false, false_implies, and_true]
    exact ⟨fun _ _ => trivial, fun _ => trivial⟩

theorem toBytes_get {d d' : Dict} (h : toBytes d = .ok d') (p : String) (hp : p ≠ "max_in_memory_size") :
    d'.get p = if p = "max_in_memory_size_b" then (match d.get "max_in_memory_size" with
      | some (.size n) => some (.size (n * 1048576))
      | _ => d.get p) else d.get p := by
  simp only [toBytes] at h
  cases hd : d.get "max_in_memory_size" with
  | none => simp only [hd, Except.ok.injEq] at h; subst h; simp
  | some v =>
    cases v <;> simp only [hd, reduceCtorEq, Except.ok.injEq] at h
    subst h
    rw [get_set, get_drop, if_neg hp]
    rfl

/-- What an accepted configuration is made of. -/
structure Consolidated (seedOn : Option Nat) (default conf : Dict) (pair : Bool) (c : KeyConf) : Prop where
  /-- Segmentation is the one of `setup_segmentby`; the column of bins is the second item of `bin_on`, or the one
  determined by `setup_segmentby`. -/
  seg : ∃ b s inp out, conf.get "bin_by" = some (.binBy b) ∧ BinOnIs (effective default conf "bin_on") inp out ∧
    SnapIs (effective default conf "snap_by") s ∧ setupSegmentby b inp seedOn s = .ok c.seg ∧ c.binOnOut = out.or c.seg.binOn ∧
    (c.resType = .bins ↔ ∀ k cl, s ≠ some (.grouper k cl)) ∧
    (c.resType = .both ↔ pair = true ∧ ∃ k cl, s = some (.grouper k cl)) ∧
    (c.resType = .snaps ↔ pair = false ∧ ∃ k cl, s = some (.grouper k cl))
  agg : effective default conf "agg" = some (.agg c.agg)
  noClash : ∀ o, c.binOnOut = some o → o ∉ c.agg
  post : effective default conf "post" = some c.post
  maxMem : effective default conf "max_in_memory_size_b" = some c.maxMem
  /-- `duplicates_on` -/
  dupGiven : Given (effective default conf "duplicates_on") →
    c.write.get "duplicates_on" = effective default conf "duplicates_on"
  dupDefault : ¬ Given (effective default conf "duplicates_on") →
    c.write.get "duplicates_on" = (c.binOnOut.map Val.name).or (effective default conf "ordered_on")
  /-- One maximum size per dataset. -/
  sizeOne : c.resType ≠ .both → c.write.get "max_row_group_size" = effective default conf "max_row_group_size"
  sizeTwo : c.resType = .both → c.write.get "max_row_group_size" = match effective default conf "max_row_group_size" with
      | some (.pair a b) => some (.pair a b)
      | some v => some (.pair v v)
      | none => some (.pair .none .none)
  /-- Other parameters are forwarded to `write` as they are. -/
  write : ∀ p, p ∉ special → p ≠ "bin_by" → p ≠ "max_in_memory_size" → c.write.get p = effective default conf p
  valid : ∀ p, p ≠ "bin_by" → p ≠ "max_in_memory_size" → (effective default conf p).isSome → p ∈ keyParams
  /-- And nothing else is. -/
  writeOnly : ∀ p, (c.write.get p).isSome → p ∈ writeParams

theorem resTypeOf_iff (s : Option SnapBy) (pair : Bool) (g : Bool) (hg : g = Oups.Segment.snapIsGrouper s) :
    (resTypeOf g pair = .bins ↔ ∀ k cl, s ≠ some (.grouper k cl)) ∧
    (resTypeOf g pair = .both ↔ pair = true ∧ ∃ k cl, s = some (.grouper k cl)) ∧
    (resTypeOf g pair = .snaps ↔ pair = false ∧ ∃ k cl, s = some (.grouper k cl)) := by
  subst hg
  cases s with
  | none => simp [resTypeOf, Oups.Segment.snapIsGrouper]
  | some s => cases s <;> cases pair <;> simp [resTypeOf, Oups.Segment.snapIsGrouper]

theorem setup_grouper {b : BinBy} {i o : Option Nat} {s : Option SnapBy} {seg : SegConfig}
    (h : setupSegmentby b i o s = .ok seg) : seg.snapGrouper = Oups.Segment.snapIsGrouper s := by
  simp only [setupSegmentby] at h
  cases h1 : Oups.Segment.setupBin b i o with
  | error e => simp [h1] at h
  | ok x =>
    obtain ⟨b', o', cl⟩ := x
    simp only [h1] at h
    cases h2 : Oups.Segment.setupSnap s o' cl with
    | error e => simp [h2] at h
    | ok y => simp only [h2, Except.ok.injEq] at h; rw [← h]

/-- What `initKey` goes through. -/
theorem initKey_ok {seedOn : Option Nat} {default conf : Dict} {pair : Bool} {c : KeyConf} :
    (initKey seedOn default pair conf).1 = .ok c ↔ ∃ bv conf', conf.get "bin_by" = some bv ∧
      toBytes (conf.drop "bin_by") = .ok conf' ∧ (∀ p, ((default.merge conf').get p).isSome → p ∈ keyParams) ∧
      finishKey seedOn pair bv (default.merge conf') = .ok c := by
  simp only [initKey]
  cases hb : conf.get "bin_by" with
  | none => simp
  | some bv =>
    cases ht : toBytes (conf.drop "bin_by") with
    | error e => simp
    | ok conf' =>
      cases hf : (default.merge conf').find? fun x => !keyParams.contains x.1 with
      | some x =>
        have : ¬ ∀ p, ((default.merge conf').get p).isSome → p ∈ keyParams := by
          rw [← any_params, hf]; simp
        simp only [hf, reduceCtorEq, false_iff, not_exists, not_and]
        intro _ c1 _ e2 h3
        cases e2
        exact absurd h3 this
      | none =>
        have := (any_params _ _).1 hf
        simp only [hf]
        constructor
        · intro h; exact ⟨bv, conf', rfl, rfl, this, h⟩
        · rintro ⟨bv', c1, e1, e2, _, h⟩
          cases e1
          cases e2
          exact h

theorem merged_get {default conf conf' : Dict} (ht : toBytes (conf.drop "bin_by") = .ok conf') (p : String)
    (h1 : p ≠ "bin_by") (h2 : p ≠ "max_in_memory_size") : (default.merge conf').get p = effective default conf p := by
  rw [get_merge, toBytes_get ht p h2, effective]
  simp only [get_drop, h1, if_false, show ("max_in_memory_size" = "bin_by") = False by decide]
  by_cases hp : p = "max_in_memory_size_b"
  · simp only [hp, if_true]
    cases conf.get "max_in_memory_size" with
    | none => rfl
    | some v => cases v <;> rfl
  · simp only [hp, if_false]

/-- **C54** What an accepted configuration contains. -/
theorem C54_consolidated {seedOn : Option Nat} {default conf : Dict} {pair : Bool} {c : KeyConf}
    (h : (initKey seedOn default pair conf).1 = .ok c) : Consolidated seedOn default conf pair c := by
  obtain ⟨bv, conf', hb, ht, hv, hf⟩ := initKey_ok.1 h
  have hg := fun p h1 h2 => merged_get (default := default) ht p h1 h2
  have e1 := hg "bin_on" (by decide) (by decide)
  have e2 := hg "snap_by" (by decide) (by decide)
  have e3 := hg "agg" (by decide) (by decide)
  generalize default.merge conf' = d at hv hf hg e1 e2 e3
  simp only [finishKey] at hf
  cases h1 : splitBinOn (d.get "bin_on") with
  | error e => simp [h1] at hf
  | ok x =>
    obtain ⟨inp, out⟩ := x
    simp only [h1] at hf
    cases h2 : keySeg seedOn bv inp (d.get "snap_by") with
    | error e => simp [h2] at hf
    | ok seg =>
      simp only [h2] at hf
      obtain ⟨b, s, rfl, hs, hseg⟩ := keySeg_iff.1 h2
      cases h3 : d.get "agg" with
      | none => simp [h3] at hf
      | some av =>
        cases av <;> simp only [h3, reduceCtorEq] at hf
        rename_i outs
        by_cases hc : (out.or seg.binOn).any (fun c => outs.contains c) = true
        · rw [if_pos hc] at hf; cases hf
        · simp only [hc, Bool.false_eq_true, if_false] at hf
          cases h4 : setDuplicates (((d.drop "bin_on").drop "snap_by").drop "agg") (out.or seg.binOn) with
          | error e => simp [h4] at hf
          | ok d' =>
            simp only [h4] at hf
            obtain ⟨d1, d2, d3⟩ := setDuplicates_get h4
            obtain ⟨r1, r2, r3⟩ := setRowGroupSize_get d' (resTypeOf seg.snapGrouper pair)
            cases h5 : (setRowGroupSize d' (resTypeOf seg.snapGrouper pair)).get "max_in_memory_size_b" with
            | none => simp [h5] at hf
            | some m =>
              cases h6 : (setRowGroupSize d' (resTypeOf seg.snapGrouper pair)).get "post" with
              | none => simp [h5, h6] at hf
              | some po =>
                simp only [h5, h6, Except.ok.injEq] at hf
                subst hf
                have base : ∀ p, p ≠ "bin_on" → p ≠ "snap_by" → p ≠ "agg" →
                    (((d.drop "bin_on").drop "snap_by").drop "agg").get p = d.get p := by
                  intro p a1 a2 a3
                  rw [get_drop, if_neg a3, get_drop, if_neg a2, get_drop, if_neg a1]
                have wget : ∀ p, p ≠ "post" → p ≠ "max_in_memory_size_b" →
                    (((setRowGroupSize d' (resTypeOf seg.snapGrouper pair)).drop "max_in_memory_size_b").drop "post").get p =
                    (setRowGroupSize d' (resTypeOf seg.snapGrouper pair)).get p := by
                  intro p a1 a2
                  rw [get_drop, if_neg a1, get_drop, if_neg a2]
                have bdup := base "duplicates_on" (by decide) (by decide) (by decide)
                have bord := base "ordered_on" (by decide) (by decide) (by decide)
                have bsz := base "max_row_group_size" (by decide) (by decide) (by decide)
                rw [hg _ (by decide) (by decide)] at bdup bord bsz
                rw [bdup] at d2 d3
                rw [bord] at d3
                rw [d1 _ (by decide), bsz] at r2 r3
                have hres := resTypeOf_iff s pair seg.snapGrouper (setup_grouper hseg)
                refine ⟨⟨b, s, inp, out, hb, ?_, ?_, hseg, rfl, hres⟩, ?_, ?_, ?_, ?_, ?_, ?_, ?_, ?_, ?_, ?_, ?_⟩
                · rw [← e1]; exact splitBinOn_iff.1 h1
                · rw [← e2]; exact hs
                · rw [← e3]; exact h3
                · intro o ho hmem
                  apply hc
                  simp only at ho
                  rw [ho]
                  simpa using hmem
                · rw [← hg _ (by decide) (by decide), ← base "post" (by decide) (by decide) (by decide), ← d1 _ (by decide),
                    ← r1 _ (by decide)]; exact h6
                · rw [← hg _ (by decide) (by decide), ← base "max_in_memory_size_b" (by decide) (by decide) (by decide),
                    ← d1 _ (by decide), ← r1 _ (by decide)]; exact h5
                · intro hgv
                  rw [wget _ (by decide) (by decide), r1 _ (by decide)]
                  exact d2 hgv
                · intro hgv
                  rw [wget _ (by decide) (by decide), r1 _ (by decide)]
                  exact d3 hgv
                · intro ht
                  rw [wget _ (by decide) (by decide)]
                  exact r2 ht
                · intro ht
                  rw [wget _ (by decide) (by decide)]
                  exact r3 ht
                · intro p hp n1 n2
                  simp only [special, List.mem_cons, List.not_mem_nil, or_false, not_or] at hp
                  obtain ⟨a1, a2, a3, a4, a5, a6, a7⟩ := hp
                  rw [wget _ a4 a5, r1 _ a7, d1 _ a6, base _ a1 a2 a3, hg _ n1 n2]
                · intro p n1 n2 hp
                  rw [← hg _ n1 n2] at hp
                  exact hv p hp
                · intro p hp
                  simp only at hp
                  by_cases q1 : p = "post"
                  · rw [q1, get_drop, if_pos rfl] at hp; simp at hp
                  by_cases q2 : p = "max_in_memory_size_b"
                  · rw [q2, get_drop, if_neg (by decide), get_drop, if_pos rfl] at hp; simp at hp
                  by_cases q3 : p = "max_row_group_size"
                  · rw [q3]; decide
                  by_cases q4 : p = "duplicates_on"
                  · rw [q4]; decide
                  rw [wget _ q1 q2, r1 _ q3, d1 _ q4] at hp
                  by_cases q5 : p = "agg"
                  · rw [q5, get_drop, if_pos rfl] at hp; simp at hp
                  by_cases q6 : p = "snap_by"
                  · rw [q6, get_drop, if_neg (by decide), get_drop, if_pos rfl] at hp; simp at hp
                  by_cases q7 : p = "bin_on"
                  · rw [q7, get_drop, if_neg (by decide), get_drop, if_neg (by decide), get_drop, if_pos rfl] at hp
                    simp at hp
                  rw [base _ q7 q6 q5] at hp
                  have := hv p hp
                  simp only [keyParams, List.cons_append, List.nil_append, List.mem_cons] at this
                  rcases this with rfl | rfl | rfl | rfl | rfl | this
                  · exact absurd rfl q7
                  · exact absurd rfl q6
                  · exact absurd rfl q5
                  · exact absurd rfl q1
                  · exact absurd rfl q2
                  · exact this

/-- **C54** A key without `bin_by` is refused. -/
theorem C54_missing_bin_by {seedOn : Option Nat} {default conf : Dict} {pair : Bool} (h : conf.get "bin_by" = none) :
    initKey seedOn default pair conf = (.error .missingBinBy, conf) := by
  simp [initKey, h]

/-- **C54** A key with an unknown parameter is refused, whatever the rest. -/
theorem C54_unknown {seedOn : Option Nat} {default conf : Dict} {pair : Bool} {p : String} (h : (conf.get p).isSome)
    (h1 : p ≠ "bin_by") (h2 : p ≠ "max_in_memory_size") (h3 : p ∉ keyParams) :
    ∃ e, (initKey seedOn default pair conf).1 = .error e := by
  cases hc : (initKey seedOn default pair conf).1 with
  | error e => exact ⟨e, rfl⟩
  | ok c =>
    refine absurd ((C54_consolidated hc).valid p h1 h2 ?_) h3
    have hb : p ≠ "max_in_memory_size_b" := by rintro rfl; exact h3 (by decide)
    rw [effective, if_neg hb]
    cases hg : conf.get p with
    | none => rw [hg] at h; simp at h
    | some v => simp

/-- **C54** Exactly the configurations that are accepted, given the default values of a stream. -/
theorem C54_accepted {seedOn : Option Nat} {default conf : Dict} {pair : Bool}
    (hord : (default.get "ordered_on").isSome) (hpost : (default.get "post").isSome)
    (hmem : (default.get "max_in_memory_size_b").isSome)
    (hmb : ∀ v, conf.get "max_in_memory_size" = some v → ∃ n, v = .size n)
    (hdef : default.get "bin_by" = none ∧ default.get "max_in_memory_size" = none) :
    (∃ c, (initKey seedOn default pair conf).1 = .ok c) ↔
      (∀ p, p ≠ "bin_by" → p ≠ "max_in_memory_size" → (effective default conf p).isSome → p ∈ keyParams) ∧
      ∃ b s inp out seg outs, conf.get "bin_by" = some (.binBy b) ∧ BinOnIs (effective default conf "bin_on") inp out ∧
        SnapIs (effective default conf "snap_by") s ∧ setupSegmentby b inp seedOn s = .ok seg ∧
        effective default conf "agg" = some (.agg outs) ∧ ∀ o, out.or seg.binOn = some o → o ∉ outs := by
  constructor
  · rintro ⟨c, hc⟩
    have C := C54_consolidated hc
    obtain ⟨b, s, inp, out, h1, h2, h3, h4, h5, -⟩ := C.seg
    exact ⟨C.valid, b, s, inp, out, c.seg, c.agg, h1, h2, h3, h4, C.agg, fun o ho => C.noClash o (h5 ▸ ho)⟩
  · rintro ⟨hv, b, s, inp, out, seg, outs, h1, h2, h3, h4, h5, h6⟩
    obtain ⟨conf', ht⟩ : ∃ conf', toBytes (conf.drop "bin_by") = .ok conf' := by
      simp only [toBytes, get_drop, show ("max_in_memory_size" = "bin_by") = False by decide, if_false]
      cases hm : conf.get "max_in_memory_size" with
      | none => exact ⟨_, rfl⟩
      | some v =>
        obtain ⟨n, rfl⟩ := hmb v hm
        exact ⟨_, rfl⟩
    have hg := fun p h1 h2 => merged_get (default := default) ht p h1 h2
    have hval : ∀ p, ((default.merge conf').get p).isSome → p ∈ keyParams := by
      intro p hp
      by_cases q1 : p = "bin_by"
      · exfalso
        rw [q1, get_merge, hdef.1, toBytes_get ht _ (by decide), if_neg (by decide), get_drop, if_pos rfl] at hp
        simp at hp
      by_cases q2 : p = "max_in_memory_size"
      · exfalso
        rw [q2, get_merge, hdef.2] at hp
        simp only [toBytes] at ht
        cases hm : (conf.drop "bin_by").get "max_in_memory_size" with
        | none =>
          simp only [hm, Except.ok.injEq] at ht
          subst ht
          rw [hm] at hp; simp at hp
        | some v =>
          cases v <;> simp only [hm, reduceCtorEq, Except.ok.injEq] at ht
          subst ht
          rw [get_set, if_neg (by decide), get_drop, if_pos rfl] at hp
          simp at hp
      rw [hg p q1 q2] at hp
      exact hv p q1 q2 hp
    have hsome : ∀ p, p ≠ "bin_by" → p ≠ "max_in_memory_size" → (default.get p).isSome →
        ((default.merge conf').get p).isSome := by
      intro p _ _ hp
      rw [get_merge]
      cases conf'.get p with
      | none => simpa using hp
      | some v => simp
    have a1 := hsome "ordered_on" (by decide) (by decide) hord
    have a2 := hsome "post" (by decide) (by decide) hpost
    have a3 := hsome "max_in_memory_size_b" (by decide) (by decide) hmem
    have e1 := hg "bin_on" (by decide) (by decide)
    have e2 := hg "snap_by" (by decide) (by decide)
    have e3 := hg "agg" (by decide) (by decide)
    suffices ∃ c, finishKey seedOn pair (.binBy b) (default.merge conf') = .ok c by
      obtain ⟨c, hc⟩ := this
      exact ⟨c, initKey_ok.2 ⟨_, conf', h1, ht, hval, hc⟩⟩
    generalize default.merge conf' = d at hval a1 a2 a3 e1 e2 e3
    have k1 : splitBinOn (d.get "bin_on") = .ok (inp, out) := by rw [e1]; exact splitBinOn_iff.2 h2
    have k2 : keySeg seedOn (.binBy b) inp (d.get "snap_by") = .ok seg := by
      rw [e2]; exact keySeg_iff.2 ⟨b, s, rfl, h3, h4⟩
    have k3 : (out.or seg.binOn).any (fun c => outs.contains c) = false := by
      cases ho : out.or seg.binOn with
      | none => rfl
      | some o => simpa using h6 o ho
    simp only [finishKey, k1, k2, e3, h5, k3, Bool.false_eq_true, if_false]
    have bord : (((d.drop "bin_on").drop "snap_by").drop "agg").get "ordered_on" = d.get "ordered_on" := by
      rw [get_drop, if_neg (by decide), get_drop, if_neg (by decide), get_drop, if_neg (by decide)]
    obtain ⟨d', hd'⟩ : ∃ d', setDuplicates (((d.drop "bin_on").drop "snap_by").drop "agg") (out.or seg.binOn) = .ok d' := by
      have hh : ∃ d', (match out.or seg.binOn with
        | some c => .ok ((((d.drop "bin_on").drop "snap_by").drop "agg").set "duplicates_on" (.name c))
        | none => match (((d.drop "bin_on").drop "snap_by").drop "agg").get "ordered_on" with
          | some v => .ok ((((d.drop "bin_on").drop "snap_by").drop "agg").set "duplicates_on" v)
          | none => .error .keyError : Except Err Dict) = .ok d' := by
        cases out.or seg.binOn with
        | some c => exact ⟨_, rfl⟩
        | none =>
          rw [bord]
          cases ho : d.get "ordered_on" with
          | none => rw [ho] at a1; simp at a1
          | some v => exact ⟨_, rfl⟩
      simp only [setDuplicates]
      cases hx : (((d.drop "bin_on").drop "snap_by").drop "agg").get "duplicates_on" with
      | none => exact hh
      | some v => cases v <;> first | exact hh | exact ⟨_, rfl⟩
    rw [hd']
    obtain ⟨d1, -, -⟩ := setDuplicates_get hd'
    obtain ⟨r1, -, -⟩ := setRowGroupSize_get d' (resTypeOf seg.snapGrouper pair)
    have base : ∀ p, p ≠ "bin_on" → p ≠ "snap_by" → p ≠ "agg" →
        (((d.drop "bin_on").drop "snap_by").drop "agg").get p = d.get p := by
      intro p a1 a2 a3
      rw [get_drop, if_neg a3, get_drop, if_neg a2, get_drop, if_neg a1]
    simp only
    rw [r1 _ (by decide), d1 _ (by decide), base _ (by decide) (by decide) (by decide),
      r1 _ (by decide), d1 _ (by decide), base _ (by decide) (by decide) (by decide)]
    cases x1 : d.get "max_in_memory_size_b" with
    | none => rw [x1] at a3; simp at a3
    | some m =>
      cases x2 : d.get "post" with
      | none => rw [x2] at a2; simp at a2
      | some po => exact ⟨_, rfl⟩

/-! ### The stream -/

section
variable {K F C : Type} [DecidableEq K] [DecidableEq F]

theorem initKeys_mem {seedOn : Nat} {default : Dict} {isPair : K → Bool} {l : List (F × K × Dict)}
    {r : List (F × K × KeyConf)} (h : initKeys seedOn default isPair l = .ok r) :
    r.map (fun x => (x.1, x.2.1)) = l.map (fun x => (x.1, x.2.1)) ∧
    ∀ f k c, (f, k, c) ∈ r → ∃ d, (f, k, d) ∈ l ∧ (initKey (some seedOn) default (isPair k) d).1 = .ok c := by
  induction l generalizing r with
  | nil =>
    simp only [initKeys, Except.ok.injEq] at h
    subst h
    simp
  | cons x l ih =>
    obtain ⟨f, k, d⟩ := x
    simp only [initKeys] at h
    cases h1 : (initKey (some seedOn) default (isPair k) d).1 with
    | error e => simp [h1] at h
    | ok c =>
      cases h2 : initKeys seedOn default isPair l with
      | error e => simp [h1, h2] at h
      | ok r' =>
        simp only [h1, h2, Except.ok.injEq] at h
        subst h
        obtain ⟨i1, i2⟩ := ih h2
        refine ⟨by simp [i1], ?_⟩
        intro f' k' c' hm
        rcases List.mem_cons.1 hm with he | hm
        · cases he
          exact ⟨d, List.mem_cons_self .., h1⟩
        · obtain ⟨d', hd, hi⟩ := i2 _ _ _ hm
          exact ⟨d', List.mem_cons_of_mem _ hd, hi⟩

theorem initKeys_all {seedOn : Nat} {default : Dict} {isPair : K → Bool} {l : List (F × K × Dict)} :
    (∃ r, initKeys seedOn default isPair l = .ok r) ↔
    ∀ f k d, (f, k, d) ∈ l → ∃ c, (initKey (some seedOn) default (isPair k) d).1 = .ok c := by
  induction l with
  | nil => simp [initKeys]
  | cons x l ih =>
    obtain ⟨f, k, d⟩ := x
    simp only [initKeys]
    cases h1 : (initKey (some seedOn) default (isPair k) d).1 with
    | error e =>
      simp only [reduceCtorEq, exists_false, false_iff]
      intro h
      obtain ⟨c, hc⟩ := h f k d (List.mem_cons_self ..)
      rw [h1] at hc; cases hc
    | ok c =>
      cases h2 : initKeys seedOn default isPair l with
      | error e =>
        simp only [reduceCtorEq, exists_false, false_iff]
        intro h
        obtain ⟨r, hr⟩ := ih.2 fun f k d hm => h f k d (List.mem_cons_of_mem _ hm)
        rw [h2] at hr; cases hr
      | ok r =>
        simp only [Except.ok.injEq, exists_eq', true_iff]
        intro f' k' d' hm
        rcases List.mem_cons.1 hm with he | hm
        · cases he; exact ⟨c, h1⟩
        · exact ih.1 ⟨r, h2⟩ f' k' d' hm

/-- Keys as given by the user, with filter ids and own parameters. A key alone has the parameters of the stream. -/
def givenKeys (noId : F) (a : Args K F C) : List (F × K × Dict) :=
  match a.keys with
  | .single k => [(noId, k, (keysDefault a.snapBy a.agg a.post a.orderedOn a.maxMem a.kwargs).merge
      [("bin_by", a.binBy), ("bin_on", a.binOn)])]
  | .plain l => l.map fun x => (noId, x.1, x.2)
  | .byFilter l => l.flatMap fun x => x.2.map fun y => (x.1, y.1, y.2)

theorem hasDup_iff (l : List K) : hasDup l = true ↔ ¬ l.Nodup := by
  induction l with
  | nil => simp [hasDup]
  | cons k l ih => simp [hasDup, ih, List.nodup_cons]; tauto

theorem pairFilters_keys {noId : F} {filters : Option (List (F × Option (List (List C))))} (a : Args K F C)
    {fs : List (F × Option (List (List C)))} {ks : List (F × List (K × Dict))}
    (h : pairFilters noId filters (keysDefault a.snapBy a.agg a.post a.orderedOn a.maxMem a.kwargs) a.binBy a.binOn
      a.keys = .ok (fs, ks)) :
    (ks.flatMap fun x => x.2.map fun y => (x.1, y.1, y.2)) = givenKeys noId a ∧
    (ks.flatMap fun x => x.2.map Prod.fst) = (givenKeys noId a).map fun x => x.2.1 := by
  have h2 : (ks.flatMap fun x => x.2.map fun y => (x.1, y.1, y.2)) = givenKeys noId a := by
    unfold pairFilters at h
    unfold givenKeys
    cases hk : a.keys with
    | single k =>
      simp only [hk, Except.ok.injEq, Prod.mk.injEq] at h
      rw [← h.2]; rfl
    | plain l =>
      simp only [hk, Except.ok.injEq, Prod.mk.injEq] at h
      rw [← h.2]; simp
    | byFilter l =>
      simp only [hk] at h
      cases filters with
      | none => simp at h
      | some f0 =>
        simp only at h
        split at h
        · simp at h
        · split at h
          · simp at h
          · simp only [Except.ok.injEq, Prod.mk.injEq] at h
            rw [← h.2]
  refine ⟨h2, ?_⟩
  rw [← h2, List.map_flatMap]
  congr 1
  funext x
  simp [Function.comp_def]

/-- What `initStream` goes through. -/
theorem initStream_ok {noId : F} {isPair : K → Bool} {a : Args K F C} {fs : List (F × Option (List (List C)))}
    {cs : List (F × K × KeyConf)} (h : initStream noId isPair a = .ok (fs, cs)) :
    (∀ p, (a.kwargs.get p).isSome → p ∈ writeParams) ∧
    ((givenKeys noId a).map fun x => x.2.1).Nodup ∧
    initKeys a.orderedOn (keysDefault a.snapBy a.agg a.post a.orderedOn a.maxMem a.kwargs) isPair (givenKeys noId a) =
      .ok cs ∧
    ∃ filters ks, encloseAll a.filters = .ok filters ∧
      pairFilters noId filters (keysDefault a.snapBy a.agg a.post a.orderedOn a.maxMem a.kwargs) a.binBy a.binOn a.keys =
        .ok (fs, ks) := by
  simp only [initStream] at h
  cases h1 : a.kwargs.find? fun x => !writeParams.contains x.1 with
  | some x => rw [h1] at h; simp at h
  | none =>
    rw [h1] at h
    simp only at h
    cases he : encloseAll a.filters with
    | error e => simp [he] at h
    | ok filters =>
      simp only [he] at h
      cases h2 : pairFilters noId filters (keysDefault a.snapBy a.agg a.post a.orderedOn a.maxMem a.kwargs) a.binBy
          a.binOn a.keys with
      | error e => simp [h2] at h
      | ok x =>
        obtain ⟨fs', ks⟩ := x
        obtain ⟨k1, k2⟩ := pairFilters_keys a h2
        simp only [h2, k1, k2] at h
        by_cases hd : hasDup ((givenKeys noId a).map fun x => x.2.1) = true
        · simp [hd] at h
        · simp only [hd, Bool.false_eq_true, if_false] at h
          cases h3 : initKeys a.orderedOn (keysDefault a.snapBy a.agg a.post a.orderedOn a.maxMem a.kwargs) isPair
              (givenKeys noId a) with
          | error e => simp [h3] at h
          | ok cs' =>
            simp only [h3, Except.ok.injEq, Prod.mk.injEq] at h
            obtain ⟨rfl, rfl⟩ := h
            refine ⟨(any_params _ _).1 h1, ?_, rfl, filters, ks, rfl, h2⟩
            by_contra hn
            exact hd ((hasDup_iff _).2 hn)

/-- Defaults of a stream: its arguments. -/
theorem keysDefault_get (snap agg post : Val) (orderedOn maxMem : Nat) (kwargs : Dict) (p : String) :
    (keysDefault snap agg post orderedOn maxMem kwargs).get p = (kwargs.get p).or
      (if p = "snap_by" then some snap else if p = "agg" then some agg else if p = "post" then some post
       else if p = "ordered_on" then some (.name orderedOn)
       else if p = "max_in_memory_size_b" then some (.size (maxMem * 1048576)) else none) := by
  rw [keysDefault, get_merge]
  congr 1
  simp only [get_cons, get_nil, megabyte, eq_comm]

/-- **C54** Each key of an accepted stream is configured from its own parameters, those of the stream being the default
ones; keys and filters are those given, in the same order. -/
theorem C54_stream {noId : F} {isPair : K → Bool} {a : Args K F C} {fs : List (F × Option (List (List C)))}
    {cs : List (F × K × KeyConf)} (h : initStream noId isPair a = .ok (fs, cs)) :
    cs.map (fun x => (x.1, x.2.1)) = (givenKeys noId a).map (fun x => (x.1, x.2.1)) ∧
    ∀ f k c, (f, k, c) ∈ cs → ∃ d, (f, k, d) ∈ givenKeys noId a ∧
      Consolidated (some a.orderedOn) (keysDefault a.snapBy a.agg a.post a.orderedOn a.maxMem a.kwargs) d (isPair k) c := by
  obtain ⟨-, -, h3, -⟩ := initStream_ok h
  obtain ⟨i1, i2⟩ := initKeys_mem h3
  refine ⟨i1, fun f k c hm => ?_⟩
  obtain ⟨d, hd, hi⟩ := i2 f k c hm
  exact ⟨d, hd, C54_consolidated hi⟩

/-- **C54** Unknown arguments are refused. -/
theorem C54_kwargs {noId : F} {isPair : K → Bool} {a : Args K F C} {p : String} (h : (a.kwargs.get p).isSome)
    (hp : p ∉ writeParams) : ∃ e, initStream noId isPair a = .error e := by
  cases hc : initStream noId isPair a with
  | error e => exact ⟨e, rfl⟩
  | ok r => exact absurd ((initStream_ok (fs := r.1) (cs := r.2) hc).1 p h) hp

/-! ### C58 -/

theorem encloseFilters_ok {l : List (F × FiltIn C)} {r : List (F × Option (List (List C)))}
    (h : encloseFilters l = .ok r) : List.Forall₂ (fun x y => y.1 = x.1 ∧ ∃ z, y.2 = some z ∧ encloseFilter x.2 = .ok z) l r := by
  induction l generalizing r with
  | nil => simp only [encloseFilters, Except.ok.injEq] at h; subst h; exact .nil
  | cons x l ih =>
    obtain ⟨f, x⟩ := x
    simp only [encloseFilters] at h
    cases h1 : encloseFilter x with
    | error e => simp [h1] at h
    | ok y =>
      cases h2 : encloseFilters l with
      | error e => simp [h1, h2] at h
      | ok r' =>
        simp only [h1, h2, Except.ok.injEq] at h
        subst h
        exact .cons ⟨rfl, y, rfl, h1⟩ (ih h2)

/-- What conditions of a filter mean: alternatives, each being a list of conditions that all hold. -/
def FilterIs : FiltIn C → List (List C) → Prop
  | .null, _ => False
  | .flat l, z => l ≠ [] ∧ z = [l]
  | .nested l, z => l ≠ [] ∧ z = l

theorem encloseFilter_iff {x : FiltIn C} {z : List (List C)} : encloseFilter x = .ok z ↔ FilterIs x z := by
  unfold encloseFilter FilterIs
  cases x with
  | null => simp
  | flat l => cases l <;> simp [eq_comm]
  | nested l => cases l <;> simp [eq_comm]

theorem sameIds_iff (noId : F) (a b : List F) : sameIds noId a b = true ↔ ∀ f, f ≠ noId → (f ∈ a ↔ f ∈ b) := by
  simp only [sameIds, Bool.and_eq_true, List.all_eq_true, Bool.or_eq_true, decide_eq_true_eq, List.contains_iff_mem]
  constructor
  · rintro ⟨h1, h2⟩ f hf
    exact ⟨fun h => (h1 f h).resolve_left hf, fun h => (h2 f h).resolve_left hf⟩
  · intro h
    refine ⟨fun f hf => ?_, fun f hf => ?_⟩
    · by_cases he : f = noId
      · exact .inl he
      · exact .inr ((h f he).1 hf)
    · by_cases he : f = noId
      · exact .inl he
      · exact .inr ((h f he).2 hf)

/-- **C58** With filters: `filters` is given, no condition is given for the reserved id, other ids are the same in
`filters` and `keys`, each key is in one filter only, and each id in use has its conditions. -/
theorem C58_filters {noId : F} {isPair : K → Bool} {a : Args K F C} {fs : List (F × Option (List (List C)))}
    {cs : List (F × K × KeyConf)} {l : List (F × List (K × Dict))} (hk : a.keys = .byFilter l)
    (h : initStream noId isPair a = .ok (fs, cs)) :
    ∃ given, a.filters = some given ∧ noId ∉ given.map Prod.fst ∧
      (∀ f, f ≠ noId → (f ∈ given.map Prod.fst ↔ f ∈ l.map Prod.fst)) ∧
      (l.flatMap fun x => x.2.map Prod.fst).Nodup ∧
      (∀ f ∈ l.map Prod.fst, (f = noId ∧ (f, none) ∈ fs) ∨ ∃ x z, (f, x) ∈ given ∧ FilterIs x z ∧ (f, some z) ∈ fs) ∧
      ∀ f y, (f, y) ∈ fs → f ∈ l.map Prod.fst ∧
        ((f = noId ∧ y = none) ∨ ∃ x z, (f, x) ∈ given ∧ FilterIs x z ∧ y = some z) := by
  obtain ⟨-, hnd, -, filters, ks, hf, hp⟩ := initStream_ok h
  cases hg : a.filters with
  | none =>
    simp only [hg, encloseAll, Except.ok.injEq] at hf
    subst hf
    simp [pairFilters, hk] at hp
  | some given =>
    simp only [hg, encloseAll] at hf
    cases he : encloseFilters given with
    | error e => simp [he] at hf
    | ok fs0 =>
      simp only [he, Except.ok.injEq] at hf
      subst hf
      have hF := encloseFilters_ok he
      simp only [pairFilters, hk] at hp
      split at hp
      · simp at hp
      rename_i hres
      split at hp
      · simp at hp
      rename_i hids
      simp only [Except.ok.injEq, Prod.mk.injEq] at hp
      obtain ⟨hfs, -⟩ := hp
      have hnames : fs0.map Prod.fst = given.map Prod.fst := by
        clear he hres hids hfs hg
        induction hF with
        | nil => rfl
        | cons hx _ ih => simp [hx.1, ih]
      have hmem : ∀ f y, (f, y) ∈ fs0 → ∃ x z, (f, x) ∈ given ∧ FilterIs x z ∧ y = some z := by
        clear he hres hids hfs hnames hg
        induction hF with
        | nil => simp
        | cons hx _ ih =>
          intro f y hm
          rcases List.mem_cons.1 hm with he | hm
          · obtain ⟨e1, z, e2, e3⟩ := hx
            rw [← he] at e1 e2
            exact ⟨_, z, by rw [show f = _ from e1]; exact List.mem_cons_self .., encloseFilter_iff.1 e3, e2⟩
          · obtain ⟨x, z, h1, h2, h3⟩ := ih f y hm
            exact ⟨x, z, List.mem_cons_of_mem _ h1, h2, h3⟩
      have hno : noId ∉ given.map Prod.fst := by
        intro hn
        rw [← hnames] at hn
        obtain ⟨⟨f, y⟩, hm, hfn⟩ := List.mem_map.1 hn
        obtain ⟨x, z, -, -, hz⟩ := hmem f y hm
        apply hres
        rw [List.any_eq_true]
        refine ⟨_, hm, ?_⟩
        simp only at hfn
        simp [hfn, hz]
      have hids' : ∀ f, f ≠ noId → (f ∈ given.map Prod.fst ↔ f ∈ l.map Prod.fst) := by
        rw [← hnames]
        refine (sameIds_iff noId _ _).1 ?_
        simpa using hids
      have hno0 : noId ∉ fs0.map Prod.fst := by rw [hnames]; exact hno
      have hfsm : ∀ f y, (f, y) ∈ fs ↔ (f, y) ∈ fs0 ∨ (f = noId ∧ y = none ∧ noId ∈ l.map Prod.fst) := by
        intro f y
        rw [← hfs]
        by_cases hc : noId ∈ l.map Prod.fst
        · rw [if_pos (by simp only [Bool.and_eq_true, List.contains_iff_mem, Bool.not_eq_true', hc, true_and]
                         simpa using hno0)]
          simp [hc]
        · rw [if_neg (by simp only [Bool.and_eq_true, List.contains_iff_mem, hc, false_and, not_false_iff])]
          simp [hc]
      refine ⟨given, rfl, hno, hids', ?_, ?_, ?_⟩
      · have : ((givenKeys noId a).map fun x => x.2.1) = l.flatMap fun x => x.2.map Prod.fst := by
          simp only [givenKeys, hk, List.map_flatMap]
          congr 1
          funext x
          simp [Function.comp_def]
        rw [← this]; exact hnd
      · intro f hfl
        by_cases hfn : f = noId
        · left
          exact ⟨hfn, (hfsm f none).2 (.inr ⟨hfn, rfl, hfn ▸ hfl⟩)⟩
        · right
          have h1 := (hids' f hfn).2 hfl
          rw [← hnames] at h1
          obtain ⟨⟨f', y⟩, hm, rfl⟩ := List.mem_map.1 h1
          obtain ⟨x, z, h2, h3, rfl⟩ := hmem f' y hm
          exact ⟨x, z, h2, h3, (hfsm _ _).2 (.inl hm)⟩
      · intro f y hm
        rcases (hfsm f y).1 hm with hm | ⟨h1, h2, h3⟩
        · obtain ⟨x, z, h2, h3, rfl⟩ := hmem f y hm
          have hfg : f ∈ given.map Prod.fst := List.mem_map.2 ⟨_, h2, rfl⟩
          have hfn : f ≠ noId := by rintro rfl; exact hno hfg
          exact ⟨(hids' f hfn).1 hfg, .inr ⟨x, z, h2, h3, rfl⟩⟩
        · subst h1
          exact ⟨h3, .inl ⟨rfl, h2⟩⟩

/-- **C58** Without filter ids in `keys`, no row is filtered. -/
theorem C58_no_filter {noId : F} {isPair : K → Bool} {a : Args K F C} {fs : List (F × Option (List (List C)))}
    {cs : List (F × K × KeyConf)} (hk : ∀ l, a.keys ≠ .byFilter l) (h : initStream noId isPair a = .ok (fs, cs)) :
    fs = [(noId, none)] ∧ ∀ f k c, (f, k, c) ∈ cs → f = noId := by
  obtain ⟨-, -, h3, filters, ks, -, hp⟩ := initStream_ok h
  have hks : ∀ f k d, (f, k, d) ∈ givenKeys noId a → f = noId := by
    intro f k d hm
    unfold givenKeys at hm
    cases hk2 : a.keys with
    | single k => simp [hk2] at hm; exact hm.1
    | plain l => simp only [hk2, List.mem_map, Prod.mk.injEq] at hm; obtain ⟨_, _, h, _⟩ := hm; exact h.symm
    | byFilter l => exact absurd hk2 (hk l)
  refine ⟨?_, fun f k c hm => ?_⟩
  · cases hk2 : a.keys with
    | single k => simp only [pairFilters, hk2, Except.ok.injEq, Prod.mk.injEq] at hp; exact hp.1.symm
    | plain l => simp only [pairFilters, hk2, Except.ok.injEq, Prod.mk.injEq] at hp; exact hp.1.symm
    | byFilter l => exact absurd hk2 (hk l)
  · obtain ⟨d, hd, -⟩ := (initKeys_mem h3).2 f k c hm
    exact hks f k d hd

/-- **C58** And any such stream is accepted, provided that its keys are (C54). -/
theorem C58_accepted {noId : F} {isPair : K → Bool} {a : Args K F C} {l : List (F × List (K × Dict))}
    {given : List (F × FiltIn C)} (hk : a.keys = .byFilter l) (hf : a.filters = some given)
    (hkw : ∀ p, (a.kwargs.get p).isSome → p ∈ writeParams) (hno : noId ∉ given.map Prod.fst)
    (hval : ∀ f x, (f, x) ∈ given → ∃ z, FilterIs x z)
    (hids : ∀ f, f ≠ noId → (f ∈ given.map Prod.fst ↔ f ∈ l.map Prod.fst))
    (hnd : (l.flatMap fun x => x.2.map Prod.fst).Nodup)
    (hc : ∀ f k d, (f, k, d) ∈ givenKeys noId a → ∃ c, (initKey (some a.orderedOn)
      (keysDefault a.snapBy a.agg a.post a.orderedOn a.maxMem a.kwargs) (isPair k) d).1 = .ok c) :
    ∃ r, initStream noId isPair a = .ok r := by
  obtain ⟨fs0, he⟩ : ∃ fs0, encloseFilters given = .ok fs0 := by
    clear hf hno hids
    induction given with
    | nil => exact ⟨_, rfl⟩
    | cons x g ih =>
      obtain ⟨f, x⟩ := x
      obtain ⟨z, hz⟩ := hval f x (List.mem_cons_self ..)
      obtain ⟨r, hr⟩ := ih fun f x hm => hval f x (List.mem_cons_of_mem _ hm)
      exact ⟨(f, some z) :: r, by simp only [encloseFilters, encloseFilter_iff.2 hz, hr]⟩
  have hnames : fs0.map Prod.fst = given.map Prod.fst := by
    have hF := encloseFilters_ok he
    clear he hf hno hids hval
    induction hF with
    | nil => rfl
    | cons hx _ ih => simp [hx.1, ih]
  have hres : ¬ (fs0.any (fun f => decide (f.1 = noId) && f.2.isSome)) = true := by
    rw [List.any_eq_true]
    rintro ⟨⟨f, y⟩, hm, hb⟩
    simp only [Bool.and_eq_true, decide_eq_true_eq] at hb
    apply hno
    rw [← hnames, ← hb.1]
    exact List.mem_map.2 ⟨_, hm, rfl⟩
  have hsame : ¬ sameIds noId (fs0.map Prod.fst) (l.map Prod.fst) = false := by
    rw [hnames, (sameIds_iff noId _ _).2 hids]; simp
  obtain ⟨cs, hcs⟩ := initKeys_all.2 hc
  have hk1 : (l.flatMap fun x => x.2.map fun y => (x.1, y.1, y.2)) = givenKeys noId a := by simp [givenKeys, hk]
  have hdup : ¬ hasDup (l.flatMap fun x => x.2.map Prod.fst) = true := by rw [hasDup_iff]; simpa using hnd
  have hfind := (any_params a.kwargs writeParams).2 hkw
  refine ⟨(if (l.map Prod.fst).contains noId && !(fs0.map Prod.fst).contains noId then fs0 ++ [(noId, none)] else fs0, cs), ?_⟩
  have e1 : encloseAll a.filters = .ok (some fs0) := by rw [hf]; simp only [encloseAll, he]
  simp only [initStream, hfind, e1, pairFilters, hk]
  rw [if_neg hres, if_neg hsame]
  simp only
  rw [if_neg hdup, hk1, hcs]

end

/-! ### Examples -/

section
open Oups.Segment (Closed)

/-- Bins by a function, on column 7. -/
def conf1 : Dict := [("bin_by", .binBy .callable), ("bin_on", .pair (.name 7) (.name 8)), ("post", .other 3),
  ("max_in_memory_size", .size 2)]
/-- Bins and snapshots by time. -/
def conf2 : Dict := [("bin_by", .binBy (.grouper (some 5) .left)), ("snap_by", .snapBy (.grouper (some 5) .left)),
  ("max_row_group_size", .size 9), ("ordered_on", .name 6)]

def args : Args Nat String Nat :=
  { orderedOn := 5, keys := .byFilter [("f", [(1, conf1)]), ("_", [(2, conf2)])],
    filters := some [("f", .flat [40, 41])], agg := .agg [20, 21], kwargs := [("max_row_group_size", .size 4), ("max_nirgs", .size 3)] }

/-- C54, C58: key 1 is filtered, has its own `post`, size limit and name of bins. Key 2 is a pair, not filtered. -/
example : initStream "_" (fun k => decide (k = 2)) args = .ok ([("f", some [[40, 41]]), ("_", none)],
    [("f", 1, ⟨⟨.two 7 5, some 5, some 7, false⟩, some 8, .size 2097152, .other 3,
        [("ordered_on", .name 5), ("max_row_group_size", .size 4), ("max_nirgs", .size 3), ("duplicates_on", .name 8)],
        .bins, [20, 21]⟩),
      ("_", 2, ⟨⟨.one 5, some 5, some 5, true⟩, some 5, .size 146800640, .none,
        [("ordered_on", .name 6), ("max_row_group_size", .pair (.size 9) (.size 9)), ("max_nirgs", .size 3),
          ("duplicates_on", .name 5)], .both, [20, 21]⟩)]) := by rfl

/-- C54: a key alone has the parameters of the stream. -/
example : (initStream "_" (fun _ => false)
      ({ args with keys := .single 3, filters := none, binBy := .binBy (.grouper (some 5) .right) } : Args Nat String Nat)).map (fun r => r.2.map fun x => (x.2.1, x.2.2.binOnOut, x.2.2.resType)) =
    .ok [(3, some 5, .bins)] := by rfl

/-- C54: refusals. -/
example : (initKey (some 5) [] false (conf1.drop "bin_by")).1 = .error .missingBinBy ∧
    (initKey (some 5) [] false (("nope", .none) :: conf1)).1 = .error (.badParam "nope") ∧
    (initKey (some 5) [("agg", .agg [8]), ("snap_by", .none)] false conf1).1 = .error .clash := ⟨rfl, rfl, rfl⟩

/-- C58: refusals. -/
example : (initStream "_" (fun _ => false) ({ args with filters := none } : Args Nat String Nat)).map Prod.fst = .error .noFilters ∧
    (initStream "_" (fun _ => false) { args with filters := some [("g", .flat [1])] }).map Prod.fst = .error .filterIds ∧
    (initStream "_" (fun _ => false) { args with filters := some [("f", .flat [1]), ("_", .flat [2])] }).map Prod.fst =
      .error .reservedFilter ∧
    (initStream "_" (fun _ => false) { args with keys := .byFilter [("f", [(1, conf1)]), ("_", [(1, conf2)])] }).map
      Prod.fst = .error .dupKeys := ⟨rfl, rfl, rfl, rfl⟩

/-! ### What does not hold -/

/-- Parameters of a key cannot be used for two streams: the dict is changed by the first one. -/
theorem C54_reuse_fails :
    (∃ c, (initKey (some 5) (keysDefault .none (.agg [20]) .none 5 140 []) false conf1).1 = .ok c) ∧
    (initKey (some 5) (keysDefault .none (.agg [20]) .none 5 140 []) false
      (initKey (some 5) (keysDefault .none (.agg [20]) .none 5 140 []) false conf1).2).1 = .error .missingBinBy :=
  ⟨⟨_, rfl⟩, rfl⟩

/-- Snapshots at given times (a `Series`): the configuration is the one for bins only. -/
theorem C54_series_snaps_fails :
    (initKey (some 5) (keysDefault .none (.agg [20]) .none 5 140 []) true
      [("bin_by", .binBy (.grouper (some 5) .left)), ("snap_by", .snapBy .values)]).1.map (fun c => c.resType) =
    .ok .bins := by rfl

/-- `bin_by` and `bin_on` of the stream are not defaults for the keys of a dict. -/
theorem C54_stream_bin_by_fails :
    initStream "_" (fun _ => false) ({ args with keys := .plain [(1, [("post", .none)])], binBy := .binBy (.grouper (some 5) .left) } :
        Args Nat String Nat) = .error .missingBinBy := by rfl

/-- Parameters that `write` gets from the store are not refused. -/
theorem C54_store_params_fails :
    (initKey (some 5) (keysDefault .none (.agg [20]) .none 5 140 []) false
      (("dirpath", .other 1) :: ("data", .other 2) :: ("md_key", .other 3) :: conf1)).1.map
      (fun c => (c.write.get "dirpath", c.write.get "data", c.write.get "md_key")) =
    .ok (some (.other 1), some (.other 2), some (.other 3)) := by rfl

/-- Without `agg`, the error is not about `agg`. -/
theorem C54_agg_missing_fails :
    (initKey (some 5) (keysDefault .none .none .none 5 140 []) false conf1).1 = .error .typeError := by rfl

/-- `filters={"_": None}`, although allowed by the check, is not accepted. -/
theorem C58_reserved_none_fails :
    (initStream "_" (fun _ => false) { args with filters := some [("f", .flat [40, 41]), ("_", .null)] }).map Prod.fst =
      .error .typeError := by rfl

/-- Filters are ignored if keys are not under filter ids. -/
theorem C58_ignored_fails :
    (initStream "_" (fun _ => false) { args with keys := .plain [(1, conf1)] }).map Prod.fst = .ok [("_", none)] := by rfl

end

end Oups.KeysConfig
