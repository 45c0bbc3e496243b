import Verif.Model.ResultCols
import Verif.Spec.ResultCols
import Verif.Props.KeysConfig
import Verif.Props.AggLife
import Verif.Proofs.ResultFirst
/-! Property C75: columns of results, and parameters of writes made by the constructor. -/
set_option linter.unusedSimpArgs false
set_option linter.unusedSectionVars false
namespace Oups.ResultCols
open Oups.KeysConfig
open Oups.Segment (BinBy SnapBy SegConfig setupSegmentby)
open Oups.Writer (Col Table Params OrdOn DupOn RG readRows dupCols)
open Oups.AggStream (KeyCfg Row ResType WriteOk ByLabel PostRow NoCoalescing)

theorem setup_on {b : BinBy} {i : Option Nat} {o : Nat} {s : Option SnapBy} {seg : SegConfig}
    (h : setupSegmentby b i (some o) s = .ok seg) :
    seg.orderedOn = some o ∧ (seg.binOn = i ∧ b = .callable ∨ seg.binOn = some o ∧ (i = none ∨ i = some o)) := by
  simp only [setupSegmentby] at h
  cases h1 : Oups.Segment.setupBin b i (some o) with
  | error e => simp [h1] at h
  | ok x =>
    obtain ⟨b', o', cl⟩ := x
    simp only [h1] at h
    have h3 : o' = some o ∧ (b' = i ∧ b = .callable ∨ b' = some o ∧ (i = none ∨ i = some o)) := by
      unfold Oups.Segment.setupBin at h1
      cases b with
      | grouper key closed =>
        simp only at h1
        cases hg : Oups.Segment.grouperOn key i with
        | error e => simp [hg] at h1
        | ok b =>
          simp only [hg] at h1
          split at h1
          · cases h1
          · rename_i hob
            simp only [Except.ok.injEq, Prod.mk.injEq] at h1
            obtain ⟨rfl, rfl, -⟩ := h1
            refine ⟨rfl, .inr ⟨by simpa [eq_comm] using hob, ?_⟩⟩
            simp only [ne_eq, not_not] at hob
            subst hob
            unfold Oups.Segment.grouperOn at hg
            split at hg
            · split at hg
              · cases hg
              · simp only [Except.ok.injEq] at hg; subst hg; exact .inr rfl
            · exact .inl rfl
            · simp only [Except.ok.injEq] at hg; subst hg; exact .inr rfl
            · cases hg
      | callable => simp only [Option.isNone_some, Bool.and_false, Bool.false_eq_true, if_false, Except.ok.injEq,
          Prod.mk.injEq] at h1; obtain ⟨rfl, rfl, -⟩ := h1; exact ⟨rfl, .inl ⟨rfl, rfl⟩⟩
      | other => simp at h1
    obtain ⟨rfl, h3⟩ := h3
    cases h2 : Oups.Segment.setupSnap s (some o) cl with
    | error e => simp [h2] at h
    | ok y =>
      simp only [h2, Except.ok.injEq] at h
      subst h
      refine ⟨?_, h3⟩
      simp only
      unfold Oups.Segment.setupSnap at h2
      split at h2
      · cases h2; rfl
      · split at h2
        · cases h2
        · rename_i o2 ho
          have : o2 = some o := by
            unfold Oups.Segment.snapOn at ho
            split at ho
            · simp_all
            · split at ho
              · cases ho
              · simp_all
            · simp_all
          subst this
          split at h2
          · split at h2
            · cases h2
            · cases h2; rfl
          · cases h2; rfl
      · simp at h2; exact h2.symm

theorem binOnIs_unique {v : Option Val} {i o i' o' : Option Nat} (h : BinOnIs v i o) (h' : BinOnIs v i' o') :
    i = i' ∧ o = o' := by
  rw [← splitBinOn_iff] at h h'
  rw [h] at h'
  cases h'
  exact ⟨rfl, rfl⟩

variable {seedOn : Nat} {default conf : Dict} {pair : Bool} {c : KeyConf} {inp out : Option Nat}

/-- The label column, from the configuration. -/
theorem label_of (hc : Consolidated (some seedOn) default conf pair c) (hb : BinOnIs (effective default conf "bin_on") inp out) :
    c.seg.orderedOn = some seedOn ∧ c.binOnOut.getD seedOn = label seedOn inp out ∧
    (c.binOnOut = none → inp = none ∧ out = none ∧ conf.get "bin_by" = some (.binBy .callable)) := by
  obtain ⟨b, s, inp', out', h1, h2, -, h3, h4, -⟩ := hc.seg
  obtain ⟨rfl, rfl⟩ := binOnIs_unique h2 hb
  obtain ⟨e1, e2⟩ := setup_on h3
  refine ⟨e1, ?_, ?_⟩
  · rw [h4, label]
    cases out' with
    | some o => rfl
    | none =>
      rcases e2 with ⟨e2, -⟩ | ⟨e2, rfl | rfl⟩ <;> rw [e2] <;> rfl
  · intro hn
    rw [h4] at hn
    cases out' with
    | some o => simp at hn
    | none =>
      simp only [Option.none_or] at hn
      rcases e2 with ⟨e2, rfl⟩ | ⟨e2, -⟩
      · exact ⟨e2 ▸ hn, rfl, h1⟩
      · rw [hn] at e2; cases e2

/-- **C75** Columns of results, for bins and for snapshots: the label, then aggregations in the order given. -/
theorem C75_columns (idx lvl : Nat) (hc : Consolidated (some seedOn) default conf pair c)
    (hb : BinOnIs (effective default conf "bin_on") inp out) :
    (label seedOn inp out ∉ c.agg → binCols idx lvl c = .ok (label seedOn inp out :: c.agg) ∧
      snapCols idx lvl c = .ok (label seedOn inp out :: c.agg)) ∧
    (label seedOn inp out ∈ c.agg → binCols idx lvl c = .error .exists ∧ snapCols idx lvl c = .error .exists) := by
  obtain ⟨h1, h2, -⟩ := label_of hc hb
  rw [← h2]
  simp only [binCols, snapCols, binIndex, snapIndex, h1]
  cases c.binOnOut <;> simp +contextual [concatCols, resetIndex]

/-- **C75** The label is never one of the aggregations, except for a callable `bin_by` without `bin_on`. -/
theorem C75_label_new (hc : Consolidated (some seedOn) default conf pair c)
    (hb : BinOnIs (effective default conf "bin_on") inp out) (hm : label seedOn inp out ∈ c.agg) :
    conf.get "bin_by" = some (.binBy .callable) ∧ inp = none ∧ out = none ∧ seedOn ∈ c.agg := by
  obtain ⟨-, h2, h3⟩ := label_of hc hb
  rw [← h2] at hm
  cases ho : c.binOnOut with
  | some o => rw [ho] at hm; exact absurd hm (hc.noClash o ho)
  | none =>
    obtain ⟨rfl, rfl, h⟩ := h3 ho
    rw [ho] at hm
    exact ⟨h, rfl, rfl, hm⟩

/-- **C75** With a `TimeGrouper`, and a single name for `bin_on` or none, labels are in column `ordered_on` of the stream. -/
theorem C75_label_time (hc : Consolidated (some seedOn) default conf pair c)
    (hb : BinOnIs (effective default conf "bin_on") inp none) (hg : conf.get "bin_by" ≠ some (.binBy .callable)) :
    label seedOn inp none = seedOn := by
  obtain ⟨b, s, inp', out', h1, h2, -, h3, h4, -⟩ := hc.seg
  obtain ⟨rfl, rfl⟩ := binOnIs_unique h2 hb
  obtain ⟨-, ⟨-, rfl⟩ | ⟨-, rfl | rfl⟩⟩ := setup_on h3
  · exact absurd h1 hg
  · rfl
  · rfl

/-! ### Parameters -/

variable {on : Nat}

theorem params_default {size : Option Val} {p : Params} (ho : c.write.get "ordered_on" = some (.name on))
    {dn : Nat} (hd : c.write.get "duplicates_on" = some (.name dn)) (hp : paramsOf c.write size = some p) :
    p.orderedOn = some (.col on) ∧ p.dupOn = some (.one dn) ∧ numOf size = some p.maxRg ∧
      numOf (c.write.get "max_nirgs") = some p.maxNirgs := by
  simp only [paramsOf, ho, hd, ordOf, dupOf] at hp
  split at hp
  · rename_i o d m n h1 h2 h3 h4
    simp only [Option.some.injEq] at h1 h2 hp
    subst hp
    exact ⟨h1.symm, h2.symm, h3, h4⟩
  · cases hp

theorem write_default (hc : Consolidated (some seedOn) default conf pair c)
    (ho : effective default conf "ordered_on" = some (.name on)) (hd : ¬ Given (effective default conf "duplicates_on")) :
    c.write.get "ordered_on" = some (.name on) ∧ c.write.get "duplicates_on" = some (.name (c.binOnOut.getD on)) := by
  refine ⟨by rw [hc.write _ (by decide) (by decide) (by decide)]; exact ho, ?_⟩
  rw [hc.dupDefault hd, ho]
  cases c.binOnOut <;> rfl

theorem main_size {p : Params} (h : mainParams c = some p) : ∃ size, paramsOf c.write size = some p := by
  unfold mainParams at h
  split at h <;> exact ⟨_, h⟩

theorem snap_size {p : Params} (h : snapParams c = some p) : ∃ size, paramsOf c.write size = some p := by
  unfold snapParams at h
  split at h <;> exact ⟨_, h⟩

variable {A : Type} {idx lvl : Nat} {val : Col → Option A → Int}

/-- **C75** A write is refused, whatever is stored and whatever the rows, when `ordered_on` is not a column of results. -/
theorem C75_refused (hc : Consolidated (some seedOn) default conf pair c)
    (hb : BinOnIs (effective default conf "bin_on") inp out) (ho : effective default conf "ordered_on" = some (.name on))
    {p : Params} (hp : mainParams c = some p) (h1 : on ≠ label seedOn inp out) (h2 : on ∉ c.agg) (rgs : List (RG (Row A)))
    (rows : List (Row A)) : writeRows idx lvl c val p rgs rows =
      .error (if label seedOn inp out ∈ c.agg then .exists else .write .valueError) := by
  obtain ⟨size, hs⟩ := main_size hp
  have ho' : p.orderedOn = some (.col on) := by
    simp only [paramsOf, hc.write "ordered_on" (by decide) (by decide) (by decide), ho, ordOf] at hs
    split at hs
    · rename_i h _ _ _
      simp only [Option.some.injEq] at h hs
      subst hs
      exact h.symm
    · cases hs
  obtain ⟨g1, g2⟩ := C75_columns idx lvl hc hb
  by_cases hm : label seedOn inp out ∈ c.agg
  · simp [writeRows, g2 hm, hm]
  · simp [writeRows, g1 hm, hm, Oups.Writer.write, resTable, ho', Oups.Writer.checkOrderedOn, h1, h2, bind, Except.bind]

/-- **C75** The first write is accepted, and has all rows, when `ordered_on` is a column of results. -/
theorem C75_first (hc : Consolidated (some seedOn) default conf pair c)
    (hb : BinOnIs (effective default conf "bin_on") inp out) (ho : effective default conf "ordered_on" = some (.name on))
    {p : Params} (hp : mainParams c = some p) (h1 : on = label seedOn inp out ∨ on ∈ c.agg) (hl : label seedOn inp out ∉ c.agg)
    (hm : p.maxRg ≠ some 0) (rows : List (Row A)) : ∃ rgs, writeRows idx lvl c val p [] rows = .ok rgs ∧ readRows rgs = rows := by
  obtain ⟨size, hs⟩ := main_size hp
  have ho' : p.orderedOn = some (.col on) := by
    simp only [paramsOf, hc.write "ordered_on" (by decide) (by decide) (by decide), ho, ordOf] at hs
    split at hs
    · rename_i h _ _ _
      simp only [Option.some.injEq] at h hs
      subst hs
      exact h.symm
    · cases hs
  obtain ⟨g1, -⟩ := C75_columns idx lvl hc hb
  refine ⟨Oups.Writer.numberFrom 0 (Oups.Writer.slices rows (Oups.Writer.partStarts rows.length
    (p.maxRg.getD Oups.Writer.defaultMaxRg))), ?_, ?_⟩
  · simp [writeRows, g1 hl, Oups.Writer.write, resTable, ho', Oups.Writer.checkOrderedOn, h1, bind, Except.bind,
      Oups.Writer.iter_plain hm, pure, Except.pure]
  · rw [Oups.Writer.readRows_numberFrom]
    exact Oups.Writer.iter_plain_flatten (Oups.Writer.iter_plain (T := resTable val []) (v := false) hm)

theorem binOnOut_none (hc : Consolidated (some seedOn) default conf pair c) (hb : BinOnIs (effective default conf "bin_on") none none)
    (h : conf.get "bin_by" = some (.binBy .callable)) : c.binOnOut = none := by
  obtain ⟨b, s, inp', out', h1, h2, -, h3, h4, -⟩ := hc.seg
  obtain ⟨rfl, rfl⟩ := binOnIs_unique h2 hb
  rw [h1] at h
  cases h
  rw [h4]
  simp only [setupSegmentby, Oups.Segment.setupBin, Option.isNone_some, Bool.and_false, Bool.false_eq_true, if_false] at h3
  split at h3
  · cases h3
  · cases h3' : c.seg; rw [h3'] at h3; cases h3; rfl

/-- **C75** With `None` for `ordered_on` of a key, which the constructor accepts: once there are rows, writes are refused, except with a
callable `bin_by` without `bin_on`, for which rows are put after those stored. -/
theorem C75_unordered (hc : Consolidated (some seedOn) default conf pair c)
    (hb : BinOnIs (effective default conf "bin_on") inp out) (ho : effective default conf "ordered_on" = some .none)
    (hd : ¬ Given (effective default conf "duplicates_on")) {p : Params} (hp : mainParams c = some p)
    (hm : p.maxRg ≠ some 0) (hl : label seedOn inp out ∉ c.agg) (rgs : List (RG (Row A))) (rows : List (Row A)) :
    (∃ rgs', writeRows idx lvl c val p [] rows = .ok rgs' ∧ readRows rgs' = rows) ∧
    (rgs ≠ [] → ¬ (conf.get "bin_by" = some (.binBy .callable) ∧ inp = none ∧ out = none) →
      writeRows idx lvl c val p rgs rows = .error (.write .valueError)) ∧
    (conf.get "bin_by" = some (.binBy .callable) → inp = none → out = none → p.maxNirgs = none →
      ∃ rgs', writeRows idx lvl c val p rgs rows = .ok rgs' ∧ readRows rgs' = readRows rgs ++ rows) := by
  obtain ⟨size, hs⟩ := main_size hp
  obtain ⟨g1, -⟩ := C75_columns idx lvl hc hb
  obtain ⟨-, -, h3⟩ := label_of hc hb
  have hdup := hc.dupDefault hd
  rw [ho] at hdup
  have key : p.orderedOn = none ∧ p.dupOn = c.binOnOut.map DupOn.one := by
    cases hbo : c.binOnOut <;> rw [hbo] at hdup <;>
      simp only [paramsOf, hc.write "ordered_on" (by decide) (by decide) (by decide), ho, ordOf, hdup, dupOf, Option.map_none,
        Option.map_some, Option.none_or, Option.some_or] at hs <;>
    · split at hs
      · rename_i h h' _ _
        simp only [Option.some.injEq] at h h' hs
        subst hs
        exact ⟨h.symm, h'.symm⟩
      · cases hs
  refine ⟨⟨Oups.Writer.numberFrom 0 (Oups.Writer.slices rows (Oups.Writer.partStarts rows.length
    (p.maxRg.getD Oups.Writer.defaultMaxRg))), ?_, ?_⟩, fun hne hcall => ?_, fun h1 h2 h4 hn => ?_⟩
  · simp [writeRows, g1 hl, Oups.Writer.write, resTable, key.1, Oups.Writer.checkOrderedOn, bind, Except.bind,
      Oups.Writer.iter_plain hm, pure, Except.pure]
  · rw [Oups.Writer.readRows_numberFrom]
    exact Oups.Writer.iter_plain_flatten (Oups.Writer.iter_plain (T := resTable val []) (v := false) hm)
  · have hbo : c.binOnOut.isSome := by
      rw [Option.isSome_iff_ne_none]
      exact fun h => hcall ⟨(h3 h).2.2, (h3 h).1, (h3 h).2.1⟩
    obtain ⟨x, hx⟩ := Option.isSome_iff_exists.1 hbo
    have : rgs.isEmpty = false := by cases rgs <;> simp_all
    simp [writeRows, g1 hl, Oups.Writer.write, key.1, key.2, hx, Oups.Writer.checkOrderedOn, bind, Except.bind, this, throw,
      throwThe, MonadExceptOf.throw]
  · subst h2 h4
    have hbo := binOnOut_none hc hb h1
    obtain ⟨rgs', h⟩ := Oups.Writer.C14_append_succeeds (T := resTable val (label seedOn none none :: c.agg)) (rgs := rgs) (data := rows) key.1
      (by rw [key.2, hbo]; rfl) hn hm
    exact ⟨rgs', by simp [writeRows, g1 hl, h], Oups.Writer.write_plain key.1 h⟩

/-- **C75** Results whose index has no name: pandas names the column of labels `idx` ("index"), or `lvl` ("level_0") when there is an
aggregation of that name. -/
theorem C75_unnamed (idx lvl : Nat) (cols : List Nat) :
    (idx ∉ cols → concatCols idx lvl none none cols = .ok (idx :: cols)) ∧
    (idx ∈ cols → lvl ∉ cols → concatCols idx lvl none none cols = .ok (lvl :: cols)) ∧
    (idx ∈ cols → lvl ∈ cols → concatCols idx lvl none none cols = .error .exists) := by
  simp +contextual [concatCols, resetIndex]

/-! ### Results over sessions -/

section
variable {K R S Q P : Type}

/-- `cfg` is made by the constructor from a configuration that was accepted, for results of type `t` in order of labels, which
are in column `on`. Neither `duplicates_on` nor `post` is used. -/
structure Made (seedOn on : Nat) (t : ResType) (cfg : KeyCfg K R A S Q) : Prop where
  made : ∃ default conf pair c inp out idx lvl val, Consolidated (some seedOn) default conf pair c ∧
    BinOnIs (effective default conf "bin_on") inp out ∧ label seedOn inp out = on ∧
    effective default conf "ordered_on" = some (.name on) ∧ ¬ Given (effective default conf "duplicates_on") ∧
    c.resType = t ∧
    keyCfg idx lvl c cfg.main cfg.snap cfg.call cfg.mem val = some cfg

/-- **C75** What the results of C48 to C72 rely on, for keys made by the constructor. -/
theorem C75_made {t : ResType} {cfg : KeyCfg K R A S Q} (h : Made seedOn on t cfg) :
    cfg.resType = t ∧ PostRow cfg id id ∧ WriteOk cfg.table cfg.params on (.one on) ∧
    WriteOk cfg.table cfg.snapParams on (.one on) ∧ ByLabel cfg.table on (.one on) id := by
  obtain ⟨default, conf, pair, c, inp, out, idx, lvl, val, hc, hb, rfl, ho, hd, rfl, hk⟩ := h.made
  obtain ⟨w1, w2⟩ := write_default hc ho hd
  have hl : c.binOnOut.getD (label seedOn inp out) = label seedOn inp out := by
    obtain ⟨-, l2, -⟩ := label_of hc hb
    cases hcb : c.binOnOut with
    | none => rfl
    | some o => rw [hcb] at l2; simpa using l2
  rw [hl] at w2
  obtain ⟨g1, g2⟩ := C75_columns idx lvl hc hb
  unfold keyCfg at hk
  split at hk
  · rename_i cols p ps m h1 h2 h3 h4 h5
    simp only [Option.some.injEq] at hk
    by_cases hm : label seedOn inp out ∈ c.agg
    · rw [(g2 hm).1] at h1; cases h1
    · rw [(g1 hm).1] at h1
      cases h1
      obtain ⟨_, s1⟩ := main_size h2
      obtain ⟨_, s2⟩ := snap_size h3
      obtain ⟨a1, a2, -, -⟩ := params_default w1 w2 s1
      obtain ⟨b1, b2, -, -⟩ := params_default w1 w2 s2
      rw [← hk]
      refine ⟨rfl, ⟨rfl, rfl⟩, ⟨a1, a2, ?_, ?_⟩, ⟨b1, b2, ?_, ?_⟩, ⟨?_, ?_⟩⟩
      · exact List.mem_cons_self
      · exact List.mem_cons_self
      · exact List.mem_cons_self
      · exact List.mem_cons_self
      · intro r; simp [resTable]
      · intro r r' h; simp [resTable, Table.key, dupCols, h]
  · cases hk

/-- **C75** Such a key is made from any accepted configuration without `post`, sizes being numbers or `None`. -/
theorem C75_makes (hc : Consolidated (some seedOn) default conf pair c) (hb : BinOnIs (effective default conf "bin_on") inp out)
    (ho : effective default conf "ordered_on" = some (.name (label seedOn inp out)))
    (hd : ¬ Given (effective default conf "duplicates_on")) {j : Option Nat} (hn : numOf (effective default conf "max_nirgs") = some j)
    (hp : effective default conf "post" = some .none) (hm : ∃ n, effective default conf "max_in_memory_size_b" = some (.size n))
    (hs : effective default conf "max_row_group_size" = none ∨ ∃ v, effective default conf "max_row_group_size" = some v ∧
      ((v = .none ∨ ∃ n, v = .size n) ∨
        c.resType = .both ∧ ∃ a b, v = .pair a b ∧ (a = .none ∨ ∃ n, a = .size n) ∧ (b = .none ∨ ∃ n, b = .size n)))
    (hl : label seedOn inp out ∉ c.agg) (idx lvl : Nat) (main snap : K)
    (call : List R → S → Except Oups.Agg.AggErr (Option (Oups.Agg.Res A) × S)) (mem : List (Row A) → Nat)
    (val : Col → Option A → Int) :
    ∃ cfg : KeyCfg K R A S Q, keyCfg idx lvl c main snap call mem val = some cfg ∧
      Made seedOn (label seedOn inp out) c.resType cfg ∧ cfg.main = main ∧ cfg.snap = snap ∧ cfg.call = call ∧
      effective default conf "max_in_memory_size_b" = some (.size cfg.maxSize) ∧ cfg.params.maxNirgs = j ∧
      cfg.snapParams.maxNirgs = j := by
  obtain ⟨w1, w2⟩ := write_default hc ho hd
  obtain ⟨g1, -⟩ := C75_columns idx lvl hc hb
  obtain ⟨n, hm⟩ := hm
  have m1 : memOf c.maxMem = some n := by
    have := hc.maxMem
    rw [hm] at this
    rw [← Option.some.inj this]
    rfl
  have p1 : c.post = .none := by
    have := hc.post
    rw [hp] at this
    exact (Option.some.inj this).symm
  have n1 : numOf (c.write.get "max_nirgs") = some j := by
    rw [hc.write "max_nirgs" (by decide) (by decide) (by decide)]
    exact hn
  have key : ∀ {size : Option Val}, (∃ x, numOf size = some x) → ∃ p, paramsOf c.write size = some p ∧ p.maxNirgs = j := by
    rintro size ⟨x, hx⟩
    exact ⟨⟨x, some (.col (label seedOn inp out)), some (.one (c.binOnOut.getD (label seedOn inp out))), j⟩, by
      simp [paramsOf, w1, w2, ordOf, dupOf, hx, n1], rfl⟩
  have num : ∀ {v : Val}, (v = .none ∨ ∃ n, v = .size n) → ∃ x, numOf (some v) = some x := by
    rintro v (rfl | ⟨n, rfl⟩)
    · exact ⟨_, rfl⟩
    · exact ⟨_, rfl⟩
  have q : (∃ p, mainParams c = some p ∧ p.maxNirgs = j) ∧ ∃ p, snapParams c = some p ∧ p.maxNirgs = j := by
    unfold mainParams snapParams
    by_cases hr : c.resType = .both
    · simp only [hr, if_true]
      have hz := hc.sizeTwo hr
      rcases hs with hs | ⟨v, hs, h | ⟨-, a, b, rfl, ha, hb⟩⟩
      · rw [hs] at hz
        rw [hz]
        exact ⟨key (num (.inl rfl)), key (num (.inl rfl))⟩
      · rw [hs] at hz
        have : c.write.get "max_row_group_size" = some (.pair v v) := by
          rcases h with rfl | ⟨n, rfl⟩ <;> exact hz
        rw [this]
        exact ⟨key (num h), key (num h)⟩
      · rw [hs] at hz
        rw [hz]
        exact ⟨key (num ha), key (num hb)⟩
    · simp only [hr, if_false]
      rw [hc.sizeOne hr]
      rcases hs with hs | ⟨v, hs, h | ⟨h, -⟩⟩
      · rw [hs]; exact ⟨key ⟨_, rfl⟩, key ⟨_, rfl⟩⟩
      · rw [hs]; exact ⟨key (num h), key (num h)⟩
      · exact absurd h hr
  obtain ⟨⟨p, q1, q3⟩, ps, q2, q4⟩ := q
  have hk : keyCfg (Q := Q) idx lvl c main snap call mem val =
      some ⟨main, snap, c.resType, call, mem, n, resTable val (label seedOn inp out :: c.agg), p, ps, none⟩ := by
    simp [keyCfg, (g1 hl).1, q1, q2, m1, p1]
  exact ⟨_, hk, ⟨default, conf, pair, c, inp, out, idx, lvl, val, hc, hb, rfl, ho, hd, rfl, hk⟩, rfl, rfl, rfl, hm, q3, q4⟩

end

section
open Oups.AggStream Oups.Agg Oups.Agg.Spec Oups.Segment Oups.Segment.Spec

variable {K R B D V S P Q : Type} [DecidableEq K] [DecidableEq D]
variable (O : D → Ops V) (get : R → Nat → V) {dtype : Nat → Option D} {agg : List (Nat × Nat × Option Fn)}
  {gc : List (D × Group)} (z : List (List V) → Bool) {p0 : P} {q0 : Q}

/-- A key made by the constructor, with the function of its configuration. -/
def MadeBins (seedOn on : Nat) (gc : List (D × Group)) (fn : BinFn R B) (pos : R → Int) (emb : Buf B (List (List V)) → S)
    (cfg : KeyCfg K R (List (List V)) S Q) : Prop :=
  Made seedOn on .bins cfg ∧ ∃ e0, Embeds emb (inPlace (frameCall O get gc z fn (some pos) none e0)) cfg.call

/-- Same, with snapshots. A pair is of two keys. -/
def MadeSnaps (seedOn on : Nat) (gc : List (D × Group)) (fn : BinFn R B) (pos : R → Int) (sn : Snaps)
    (emb : Buf B (List (List V)) → S) (t : ResType) (cfg : KeyCfg K R (List (List V)) S Q) : Prop :=
  Made seedOn on t cfg ∧ (t = .both → cfg.main ≠ cfg.snap) ∧
    ∃ e0, Embeds emb (inPlace (frameCall O get gc z fn (some pos) (some sn) e0)) cfg.call

theorem sameBins_of {fn : BinFn R B} {pos : R → Int} {emb : Buf B (List (List V)) → S} {cfg : KeyCfg K R (List (List V)) S Q}
    (h : MadeBins O get z seedOn on gc fn pos emb cfg) : SameBins O get z gc fn (some pos) emb id id on (.one on) cfg := by
  obtain ⟨h1, h2, h3, -, h4⟩ := C75_made h.1
  exact ⟨h.2, h1, h2, h3, h4⟩

theorem sameSnaps_of {fn : BinFn R B} {pos : R → Int} {sn : Snaps} {emb : Buf B (List (List V)) → S} {t : ResType}
    {cfg : KeyCfg K R (List (List V)) S Q} (h : MadeSnaps O get z seedOn on gc fn pos sn emb t cfg) :
    SameSnaps O get z gc fn pos sn emb id id on (.one on) t cfg := by
  obtain ⟨h1, h2, h3, h4, h5⟩ := C75_made h.1
  exact ⟨h.2.2, h1, fun hb => h.2.1 (h1 ▸ hb), h2, h3, fun _ => h4, fun _ => h5, h5⟩

variable {k : KeyCfg K R (List (List V)) S Q} {w : World K (List (List V)) (Md S P Q)} {rows : List R} {last : Option (Int × P)}
  {sure : Bool} {L : KeyCfg K R (List (List V)) S Q → Prop}

/-- **C75** From arguments of streams to what is stored, for bins of a `TimeGrouper`: each session has its own settings. -/
theorem C75_time_bins (hagg : setupCumsegagg agg dtype = .ok gc) (g : Grouper) (hg : Fixed g) (pos : R → Int)
    {emb : Buf ScaleBuf (List (List V)) → S} (hJ : ∀ cfg, L cfg → MadeBins O get z seedOn on gc (grouperFn g pos) pos emb cfg) (hk : L k) (hne : rows ≠ [])
    (hasc : AscOn pos rows)
    (h : Life (emb (Buf.init {})) p0 q0 k L w rows rows last sure) :
    ∃ one, frameCall O get gc z (grouperFn g pos) (some pos) none false rows none = .ok (some one, none) ∧
      readRows (w k.main).rgs = one.bins := by
  simpa using C72_time_bins O get z hagg g hg pos (some pos) (fun cfg h => sameBins_of O get z (hJ cfg h)) hk hne hasc (by rintro _ ⟨⟩; exact hasc)
    h

/-- **C75** Same, for bins of `by_x_rows`. -/
theorem C75_rows_bins (hagg : setupCumsegagg agg dtype = .ok gc) (n : Nat) (hn : 0 < n) (cl : Closed) (pos : R → Int)
    {emb : Buf (Option RowsBuf) (List (List V)) → S} (hJ : ∀ cfg, L cfg → MadeBins O get z seedOn on gc (rowsFn n cl pos) pos emb cfg) (hk : L k)
    (hne : rows ≠ []) (hasc : rows.Pairwise fun x y => pos x < pos y)
    (h : Life (emb (Buf.init none)) p0 q0 k L w rows rows last sure) :
    ∃ one, frameCall O get gc z (rowsFn n cl pos) (some pos) none false rows none = .ok (some one, none) ∧
      readRows (w k.main).rgs = one.bins := by
  simpa using C72_rows_bins O get z hagg n hn cl pos (some pos) (fun cfg h => sameBins_of O get z (hJ cfg h)) hk hne hasc
    (by rintro _ ⟨⟩; exact hasc.imp fun h => by omega) h

/-- **C75** Same, with snapshots of a `TimeGrouper`, alone or with bins. -/
theorem C75_time_snaps (hagg : setupCumsegagg agg dtype = .ok gc) (g : Grouper) (hg : Fixed g) (gs : Grouper) (hgs : Fixed gs)
    (pos : R → Int) {emb : Buf ScaleBuf (List (List V)) → S} {t : ResType} (ht : t ≠ .bins)
    (hJ : ∀ cfg, L cfg → MadeSnaps O get z seedOn on gc (grouperFn g pos) pos (.grouper gs) emb t cfg) (hk : L k) (hne : rows ≠ []) (hasc : AscOn pos rows)
    (h : Life (emb (Buf.init {})) p0 q0 k L w rows rows last sure) :
    ∃ one sns, frameCall O get gc z (grouperFn g pos) (some pos) (some (.grouper gs)) false rows none = .ok (some one, none) ∧
      one.snaps = some sns ∧ (t = .snaps → readRows (w k.main).rgs = sns) ∧
      (t = .both → readRows (w k.main).rgs = one.bins ∧ readRows (w k.snap).rgs = sns) := by
  simpa using C72_time_snaps O get z hagg g hg gs hgs pos ht (fun cfg h => sameSnaps_of O get z (hJ cfg h)) hk hne hasc
    h

/-- **C75** Same, with bins of `by_x_rows`. -/
theorem C75_rows_snaps (hagg : setupCumsegagg agg dtype = .ok gc) (n : Nat) (hn : 0 < n) (cl : Closed) (gs : Grouper)
    (hgs : Fixed gs) (pos : R → Int) {emb : Buf (Option RowsBuf) (List (List V)) → S} {t : ResType} (ht : t ≠ .bins)
    (hJ : ∀ cfg, L cfg → MadeSnaps O get z seedOn on gc (rowsFn n cl pos) pos (.grouper gs) emb t cfg) (hk : L k) (hne : rows ≠ [])
    (hasc : AscOn pos rows) (hties : cl = .right ∨ t = .both → rows.Pairwise fun x y => pos x < pos y)
    (h : Life (emb (Buf.init none)) p0 q0 k L w rows rows last sure) :
    ∃ one sns, frameCall O get gc z (rowsFn n cl pos) (some pos) (some (.grouper gs)) false rows none = .ok (some one, none) ∧
      one.snaps = some sns ∧ (t = .snaps → readRows (w k.main).rgs = sns) ∧
      (t = .both → readRows (w k.main).rgs = one.bins ∧ readRows (w k.snap).rgs = sns) := by
  simpa using C72_rows_snaps O get z hagg n hn cl gs hgs pos ht (fun cfg h => sameSnaps_of O get z (hJ cfg h)) hk hne hasc hties
    h

/-! ### Results in the order of a column of first values -/

/-- A key made by the constructor, with bins and no snapshot. Results have labels in column `l`, and are in the order of another
column `on`. Duplicates are not set: they are found in `dn`, then. `toInt` are values in the order of the column. -/
def MadeFirst (seedOn l on dn : Nat) (agg : List (Nat × Nat × Option Fn)) (gc : List (D × Group)) (toInt : V → Int)
    (fn : BinFn R B) (pos : R → Int) (emb : Buf B (List (List V)) → S) (cfg : KeyCfg K R (List (List V)) S Q) : Prop :=
  (∃ default conf pair c inp out idx lvl, Consolidated (some seedOn) default conf pair c ∧
    BinOnIs (effective default conf "bin_on") inp out ∧ label seedOn inp out = l ∧ l ≠ on ∧ c.agg = agg.map Prod.fst ∧
    effective default conf "ordered_on" = some (.name on) ∧ ¬ Given (effective default conf "duplicates_on") ∧
    dn = c.binOnOut.getD on ∧ c.resType = .bins ∧
    keyCfg idx lvl c cfg.main cfg.snap cfg.call cfg.mem (fun col a => ((a.bind (readCol col gc)).map toInt).getD 0) =
      some cfg) ∧
  ∃ e0, Embeds emb (inPlace (frameCall O get gc z fn (some pos) none e0)) cfg.call

theorem madeFirst {l dn i : Nat} {D0 : D} {toInt : V → Int} {fn : BinFn R B} {pos : R → Int}
    {emb : Buf B (List (List V)) → S} (hagg : setupCumsegagg agg dtype = .ok gc) (hout : (agg.map Prod.fst).Nodup)
    (hi : (on, i, some Fn.first) ∈ agg) (hd0 : dtype i = some D0) (hpos : ∀ r, toInt (get r i) = pos r)
    {cfg : KeyCfg K R (List (List V)) S Q} (h : MadeFirst O get z seedOn l on dn agg gc toInt fn pos emb cfg) :
    cfg.resType = .bins ∧ PostRow cfg id id ∧ WriteOk cfg.table cfg.params on (.one dn) ∧
    ByFirst cfg.table on (.one dn) (updCfg O get gc) (chunkRes0 O gc) pos := by
  obtain ⟨⟨default, conf, pair, c, inp, out, idx, lvl, hc, hb, rfl, hne, hca, ho, hd, rfl, ht, hk⟩, -⟩ := h
  obtain ⟨w1, w2⟩ := write_default hc ho hd
  have hl : c.binOnOut.getD on = label seedOn inp out ∨ c.binOnOut.getD on = on := by
    obtain ⟨-, l2, -⟩ := label_of hc hb
    cases hcb : c.binOnOut with
    | none => exact .inr rfl
    | some o => rw [hcb] at l2; exact .inl (by simpa using l2)
  obtain ⟨g1, g2⟩ := C75_columns idx lvl hc hb
  have hon : on ∈ c.agg := by rw [hca]; exact List.mem_map.2 ⟨_, hi, rfl⟩
  unfold keyCfg at hk
  split at hk
  · rename_i cols p ps m h1 h2 h3 h4 h5
    simp only [Option.some.injEq] at hk
    by_cases hm : label seedOn inp out ∈ c.agg
    · rw [(g2 hm).1] at h1; cases h1
    · rw [(g1 hm).1] at h1
      cases h1
      obtain ⟨_, s1⟩ := main_size h2
      obtain ⟨a1, a2, -, -⟩ := params_default w1 w2 s1
      rw [← hk]
      refine ⟨ht, ⟨rfl, rfl⟩, ⟨a1, a2, ?_, ?_⟩, ?_⟩
      · exact List.mem_cons_of_mem _ hon
      · rcases hl with hl | hl
        · rw [hl]; exact List.mem_cons_self
        · rw [hl]; exact List.mem_cons_of_mem _ hon
      · refine byFirst_of O get (cfgOk_of hagg) hout hl hi hd0 hpos ?_ ?_
        · intro r; simp [resTable, Ne.symm hne]
        · intro r; simp [resTable]
  · cases hk

section
variable {l dn i : Nat} {D0 : D} {toInt : V → Int}

/-- **C75** Labels in a column of their own, results in the order of an aggregation with `first` of the column of positions, for
bins of a `TimeGrouper`. No bin is empty. -/
theorem C75_time_first (hagg : setupCumsegagg agg dtype = .ok gc) (hout : (agg.map Prod.fst).Nodup)
    (hi : (on, i, some Fn.first) ∈ agg) (hd0 : dtype i = some D0) (g : Grouper) (hg : Fixed g) (pos : R → Int)
    (hpos : ∀ r, toInt (get r i) = pos r) {emb : Buf ScaleBuf (List (List V)) → S}
    (hJ : ∀ cfg, L cfg → MadeFirst O get z seedOn l on dn agg gc toInt (grouperFn g pos) pos emb cfg) (hk : L k) (hne : rows ≠ []) (hasc : AscOn pos rows)
    (hfull : ∀ one, frameCall O get gc z (grouperFn g pos) (some pos) none false rows none = .ok (some one, none) →
      ∀ r ∈ one.bins, r.2 ≠ none)
    (h : Life (emb (Buf.init {})) p0 q0 k L w rows rows last sure) :
    ∃ one, frameCall O get gc z (grouperFn g pos) (some pos) none false rows none = .ok (some one, none) ∧
      readRows (w k.main).rgs = one.bins := by
  have hc := cfgOk_of hagg
  have hLs := grouper_lawful g g.origin0 hg.anchored pos
  have hst := gridSpec_strict (g.closed == .right) g.labelRight g.origin0 g.freq pos rows hg.anchored.1
  have hasc' : ∀ o, some pos = some o → AscOn o rows := by rintro _ ⟨⟩; exact hasc
  obtain ⟨one, h1, h2, _⟩ := frame_once_bins O get hc z hLs (some pos) hne hasc hasc' (strictLabels_ok hst)
  have hf := first_grid (right := g.closed == .right) (lr := g.labelRight) (a := g.origin0) hg.anchored.1 (pos := pos) (rows := rows)
    (by
      intro b hb he
      refine hfull one h1 (b.label, value (updCfg O get gc) (chunkRes0 O gc) none b.rows) ?_ (by simp [he, value])
      rw [h2]; exact List.mem_map.2 ⟨b, hb, rfl⟩)
  have := C72_stored (fun cfg hcfg => let hm := madeFirst O get z hagg hout hi hd0 hpos (hJ cfg hcfg);
    keyLaws_first O get hc z hLs (ordered := some pos) (hJ cfg hcfg).2.choose_spec hm.1 hm.2.1 hm.2.2.1 hm.2.2.2) hk ⟨_, rfl, frameOk_init O get trivial hLs⟩
    ⟨binsValid_of hLs hasc hasc' hst, hf⟩ h
  exact ⟨one, h1, by rw [this.1 (by simp [(madeFirst O get z hagg hout hi hd0 hpos (hJ k hk)).1]), h2]; simp⟩

/-- **C75** Same, for bins of `by_x_rows`. -/
theorem C75_rows_first (hagg : setupCumsegagg agg dtype = .ok gc) (hout : (agg.map Prod.fst).Nodup)
    (hi : (on, i, some Fn.first) ∈ agg) (hd0 : dtype i = some D0) (n : Nat) (hn : 0 < n) (cl : Closed) (pos : R → Int)
    (hpos : ∀ r, toInt (get r i) = pos r) {emb : Buf (Option RowsBuf) (List (List V)) → S}
    (hJ : ∀ cfg, L cfg → MadeFirst O get z seedOn l on dn agg gc toInt (rowsFn n cl pos) pos emb cfg) (hk : L k) (hne : rows ≠ [])
    (hasc : rows.Pairwise fun x y => pos x < pos y)
    (h : Life (emb (Buf.init none)) p0 q0 k L w rows rows last sure) :
    ∃ one, frameCall O get gc z (rowsFn n cl pos) (some pos) none false rows none = .ok (some one, none) ∧
      readRows (w k.main).rgs = one.bins := by
  have hc := cfgOk_of hagg
  have hLs := rows_lawful n hn cl pos pos
  have hasc' : AscOn pos rows := hasc.imp fun h => by omega
  have ho : ∀ o, some pos = some o → AscOn o rows := by rintro _ ⟨⟩; exact hasc'
  have hst := xBins_strict (right := cl == .right) hn hasc
  obtain ⟨one, h1, h2, _⟩ := frame_once_bins O get hc z hLs (some pos) hne hasc' ho (strictLabels_ok hst)
  have := C72_stored (fun cfg hcfg => let hm := madeFirst O get z hagg hout hi hd0 hpos (hJ cfg hcfg);
    keyLaws_first O get hc z hLs (ordered := some pos) (hJ cfg hcfg).2.choose_spec hm.1 hm.2.1 hm.2.2.1 hm.2.2.2) hk ⟨_, rfl, frameOk_init O get trivial hLs⟩
    ⟨binsValid_of hLs hasc' ho hst, first_rows hn hst⟩ h
  exact ⟨one, h1, by rw [this.1 (by simp [(madeFirst O get z hagg hout hi hd0 hpos (hJ k hk)).1]), h2]; simp⟩

end
end
/-! ### Examples -/

section
open Oups.AggStream Oups.Agg Oups.Agg.Spec Oups.Segment Oups.Segment.Spec

/-- Default parameters of a stream on column 5; parameters of a key. -/
def exDef (outs : List Nat) : Dict := keysDefault .none (.agg outs) .none 5 512 []

def exConfOf (binBy : BinBy) (rest : Dict) (m n : Nat) : Dict :=
  [("bin_by", .binBy binBy), ("max_in_memory_size_b", .size m), ("max_row_group_size", .size n)] ++ rest

/-- What the constructor makes of it. -/
def exKeyConf (outs : List Nat) (binOn out : Option Nat) (dup : Nat) (both : Bool) (m n : Nat) : KeyConf where
  seg := ⟨.one 5, some 5, binOn, both⟩
  binOnOut := out
  maxMem := .size m
  post := .none
  write := [("ordered_on", .name 5), ("max_row_group_size", if both then .pair (.size n) (.size n) else .size n),
    ("duplicates_on", .name dup)]
  resType := if both then .both else .bins
  agg := outs

-- a `TimeGrouper` on column 5: labels are in column 5, on which results are ordered, and duplicates dropped
example (m n : Nat) : (initKey (some 5) (exDef [20, 21]) false (exConfOf (.grouper (some 5) .left) [] m n)).1 =
      .ok (exKeyConf [20, 21] (some 5) (some 5) 5 false m n) ∧
    binCols 90 91 (exKeyConf [20, 21] (some 5) (some 5) 5 false m n) = .ok [5, 20, 21] ∧
    mainParams (exKeyConf [20, 21] (some 5) (some 5) 5 false m n) = some ⟨some n, some (.col 5), some (.one 5), none⟩ :=
  ⟨rfl, rfl, rfl⟩

example : label 5 none none = 5 ∧ label 5 (some 7) none = 7 ∧ label 5 (some 7) (some 8) = 8 := ⟨rfl, rfl, rfl⟩

/-- Aggregations of column 0 of rows, which is their value. -/
def exAggM : List (Nat × Nat × Option Fn) := [(20, 0, some .sum), (21, 0, some .last)]
def exGcM : List (Unit × Group) := (setupCumsegagg exAggM fun _ => some ()).toOption.getD []

/-- With the first position, in column 5. -/
def exAggF : List (Nat × Nat × Option Fn) := [(5, 1, some .first), (21, 0, some .last)]
def exGcF : List (Unit × Group) := (setupCumsegagg exAggF fun _ => some ()).toOption.getD []
def exGetF : Int × Int → Nat → Int := fun r i => if i = 1 then r.1 else r.2

def exValOf (gc : List (Unit × Group)) (col : Col) (a : Option (List (List Int))) : Int :=
  ((a.bind (readCol col gc)).map id).getD 0

def exMade {S : Type} (call : List (Int × Int) → S → Except AggErr (Option (Res (List (List Int))) × S)) (gc : List (Unit × Group))
    (cols : List Nat) (dup : Nat) (both : Bool) (m n : Nat) : KeyCfg Nat (Int × Int) (List (List Int)) S Unit :=
  ⟨0, 1, if both then .both else .bins, call, List.length, m, resTable (exValOf gc) cols,
    ⟨some n, some (.col 5), some (.one dup), none⟩, ⟨some n, some (.col 5), some (.one dup), none⟩, none⟩

abbrev ExBufX := Buf (Option RowsBuf) (List (List Int))

def exSn : Snaps := .grouper { freq := 5, labelRight := true }

theorem exEmb {S : Type} (call : List (Int × Int) → S → Except AggErr (Option (Res (List (List Int))) × S)) :
    Embeds id call call := by
  intro p b
  simp only [id]
  cases call p b <;> rfl

theorem exNot {v : Option Val} (h : v = none) : ¬ Given v := by simp [h, Given]

/-- Bins of a `TimeGrouper`. -/
def exTime (m n : Nat) : KeyCfg Nat (Int × Int) (List (List Int)) ExBuf Unit :=
  exMade (inPlace (frameCall (fun _ => intOps) ex_get exGcM exZ (grouperFn { freq := 10 } Prod.fst) (some Prod.fst) none true))
    exGcM [5, 20, 21] 5 false m n

theorem exTime_made (m n : Nat) : MadeBins (fun _ : Unit => intOps) ex_get exZ 5 5 exGcM (grouperFn { freq := 10 } Prod.fst)
    Prod.fst id (exTime m n) :=
  ⟨⟨⟨exDef [20, 21], (exConfOf (.grouper (some 5) .left) [] m n), false, (exKeyConf [20, 21] (some 5) (some 5) 5 false m n), none, none, 90, 91, exValOf exGcM, C54_consolidated rfl,
    splitBinOn_iff.1 rfl, rfl, rfl, exNot rfl, rfl, rfl⟩⟩, true, exEmb _⟩

example : ∃ w' : ExWorld ExBuf, (w' 0).rgs.map RG.rows =
      [[(0, some [[3, 2]])], [(10, some [[28, 16]])], [(20, some [[96, 64]]), (30, some [[128, 128]]), (40, some [[768, 512]])]] ∧
    ∃ one, frameCall (fun _ : Unit => intOps) ex_get exGcM exZ (grouperFn { freq := 10 } Prod.fst) (some Prod.fst) none false exWhole none =
      .ok (some one, none) ∧ readRows (w' 0).rgs = one.bins := by
  obtain ⟨s1, w1, s2, s2', w2, s3, s3', w3, e1, e2, e3, e4, e5, e6, e7, e8, e9, e10, e11, e12⟩ :
      ∃ (s1 : State (List (List Int)) ExBuf Unit Unit) (w1 : ExWorld ExBuf)
        (s2 s2' : State (List (List Int)) ExBuf Unit Unit) (w2 : ExWorld ExBuf)
        (s3 s3' : State (List (List Int)) ExBuf Unit Unit) (w3 : ExWorld ExBuf),
      aggs (exConf [(0, exTime 100 1)]) ([] ++ [⟨exHalf1, false, false, true⟩]) (exState 1 ex0) exWorld = .ok (s1, w1) ∧
      s1.restart = some 13 ∧
      initBuffers ex0 () () (exConf [(0, exTime 0 2)]) w1 = .ok s2 ∧
      aggs (exConf [(0, exTime 0 2)]) [⟨exHalf2, false, false, false⟩] s2 w1 = .ok (s2', w2) ∧
      received (exConf [(0, exTime 0 2)]) 0 [⟨exHalf2, false, false, false⟩] s2.restart s2.pre = exHalf2.flatten ∧
      (w1 0).rgs.isEmpty = false ∧ (w2 0).rgs.isEmpty = false ∧
      initBuffers ex0 () () (exConf [(0, exTime 100 3)]) w2 = .ok s3 ∧
      aggs (exConf [(0, exTime 100 3)]) ([] ++ [⟨[exHalf2.flatten], false, false, true⟩]) s3 w2 = .ok (s3', w3) ∧
      s3'.restart = some 46 ∧
      received (exConf [(0, exTime 100 3)]) 0 ([] ++ [⟨[exHalf2.flatten], false, false, true⟩]) s3.restart s3.pre =
        exHalf2.flatten ∧
      (w3 0).rgs.map RG.rows = [[(0, some [[3, 2]])], [(10, some [[28, 16]])], [(20, some [[96, 64]]), (30, some [[128, 128]]), (40, some [[768, 512]])]] :=
    ⟨_, _, _, _, _, _, _, _, rfl, rfl, rfl, rfl, rfl, rfl, rfl, rfl, rfl, rfl, rfl, rfl⟩
  obtain ⟨-, h2⟩ := exLives (key := exTime) (L := fun cfg => (∃ m n, cfg = exTime m n)) (fun m n => ⟨m, n, rfl⟩) (by rintro _ ⟨m, n, rfl⟩; exact ⟨rfl, fun _ => rfl⟩) (fun _ _ => ⟨rfl, rfl, rfl, rfl⟩) rfl e1 e2 e3 e4 e5 e6 e7 e8 e9 e10 e11
  exact ⟨w3, e12, C75_time_bins (emb := id) (fun _ => intOps) ex_get (dtype := fun _ => some ()) (agg := exAggM) (gc := exGcM) exZ rfl { freq := 10 } exFixed Prod.fst (by rintro _ ⟨m, n, rfl⟩; exact exTime_made m n) ⟨_, _, rfl⟩ (by decide) (by decide) h2⟩

-- with `max_nirgs`, the key is made, for any name of the store, with this `max_nirgs`
example (m n j : Nat) (call : List (Int × Int) → ExBuf → Except AggErr (Option (Res (List (List Int))) × ExBuf)) :
    ∃ (c : KeyConf) (cfg : KeyCfg Nat (Int × Int) (List (List Int)) ExBuf Unit),
      (initKey (some 5) (exDef [20, 21]) false (exConfOf (.grouper (some 5) .left) [("max_nirgs", .size j)] m n)).1 = .ok c ∧
      keyCfg 90 91 c 3 4 call List.length (exValOf exGcM) = some cfg ∧ Made 5 5 .bins cfg ∧ cfg.maxSize = m ∧
      cfg.params.maxNirgs = some j := by
  obtain ⟨cfg, h1, h2, -, -, -, h3, h4, -⟩ := C75_makes (seedOn := 5) (default := exDef [20, 21])
    (conf := exConfOf (.grouper (some 5) .left) [("max_nirgs", .size j)] m n) (pair := false) (inp := none) (out := none)
    (C54_consolidated rfl) (splitBinOn_iff.1 rfl) rfl (exNot rfl) (j := some j) rfl rfl ⟨m, rfl⟩ (.inr ⟨_, rfl, .inl (.inr ⟨n, rfl⟩)⟩)
    (show 5 ∉ [20, 21] by decide) 90 91 (3 : Nat) 4 call List.length (exValOf exGcM) (Q := Unit)
  refine ⟨_, cfg, rfl, h1, h2, ?_, h4⟩
  have : effective (exDef [20, 21]) (exConfOf (.grouper (some 5) .left) [("max_nirgs", .size j)] m n) "max_in_memory_size_b" =
    some (.size m) := rfl
  rw [this] at h3
  simpa using h3.symm

/-- Bins of two rows. -/
def exRows (m n : Nat) : KeyCfg Nat (Int × Int) (List (List Int)) ExBufX Unit :=
  exMade (inPlace (frameCall (fun _ => intOps) ex_get exGcM exZ (rowsFn 2 .right Prod.fst) (some Prod.fst) none true))
    exGcM [5, 20, 21] 5 false m n

theorem exRows_made (m n : Nat) : MadeBins (fun _ : Unit => intOps) ex_get exZ 5 5 exGcM (rowsFn 2 .right Prod.fst)
    Prod.fst id (exRows m n) :=
  ⟨⟨⟨exDef [20, 21], (exConfOf .callable [] m n), false, (exKeyConf [20, 21] none none 5 false m n), none, none, 90, 91, exValOf exGcM, C54_consolidated rfl,
    splitBinOn_iff.1 rfl, rfl, rfl, exNot rfl, rfl, rfl⟩⟩, true, exEmb _⟩

example : ∃ w' : ExWorld ExBufX, (w' 0).rgs.map RG.rows =
      [[(1, some [[3, 2]])], [(12, some [[12, 8]])], [(16, some [[48, 32]]), (27, some [[192, 128]]), (41, some [[768, 512]])]] ∧
    ∃ one, frameCall (fun _ : Unit => intOps) ex_get exGcM exZ (rowsFn 2 .right Prod.fst) (some Prod.fst) none false exWhole none =
      .ok (some one, none) ∧ readRows (w' 0).rgs = one.bins := by
  obtain ⟨s1, w1, s2, s2', w2, s3, s3', w3, e1, e2, e3, e4, e5, e6, e7, e8, e9, e10, e11, e12⟩ :
      ∃ (s1 : State (List (List Int)) ExBufX Unit Unit) (w1 : ExWorld ExBufX)
        (s2 s2' : State (List (List Int)) ExBufX Unit Unit) (w2 : ExWorld ExBufX)
        (s3 s3' : State (List (List Int)) ExBufX Unit Unit) (w3 : ExWorld ExBufX),
      aggs (exConf [(0, exRows 100 1)]) ([] ++ [⟨exHalf1, false, false, true⟩]) (exState 1 (Buf.init none : ExBufX)) exWorld = .ok (s1, w1) ∧
      s1.restart = some 13 ∧
      initBuffers (Buf.init none : ExBufX) () () (exConf [(0, exRows 0 2)]) w1 = .ok s2 ∧
      aggs (exConf [(0, exRows 0 2)]) [⟨exHalf2, false, false, false⟩] s2 w1 = .ok (s2', w2) ∧
      received (exConf [(0, exRows 0 2)]) 0 [⟨exHalf2, false, false, false⟩] s2.restart s2.pre = exHalf2.flatten ∧
      (w1 0).rgs.isEmpty = false ∧ (w2 0).rgs.isEmpty = false ∧
      initBuffers (Buf.init none : ExBufX) () () (exConf [(0, exRows 100 3)]) w2 = .ok s3 ∧
      aggs (exConf [(0, exRows 100 3)]) ([] ++ [⟨[exHalf2.flatten], false, false, true⟩]) s3 w2 = .ok (s3', w3) ∧
      s3'.restart = some 46 ∧
      received (exConf [(0, exRows 100 3)]) 0 ([] ++ [⟨[exHalf2.flatten], false, false, true⟩]) s3.restart s3.pre =
        exHalf2.flatten ∧
      (w3 0).rgs.map RG.rows = [[(1, some [[3, 2]])], [(12, some [[12, 8]])], [(16, some [[48, 32]]), (27, some [[192, 128]]), (41, some [[768, 512]])]] :=
    ⟨_, _, _, _, _, _, _, _, rfl, rfl, rfl, rfl, rfl, rfl, rfl, rfl, rfl, rfl, rfl, rfl⟩
  obtain ⟨-, h2⟩ := exLives (key := exRows) (L := fun cfg => (∃ m n, cfg = exRows m n)) (fun m n => ⟨m, n, rfl⟩) (by rintro _ ⟨m, n, rfl⟩; exact ⟨rfl, fun _ => rfl⟩) (fun _ _ => ⟨rfl, rfl, rfl, rfl⟩) rfl e1 e2 e3 e4 e5 e6 e7 e8 e9 e10 e11
  exact ⟨w3, e12, C75_rows_bins (emb := id) (fun _ => intOps) ex_get (dtype := fun _ => some ()) (agg := exAggM) (gc := exGcM) exZ rfl 2 (by decide) .right Prod.fst (by rintro _ ⟨m, n, rfl⟩; exact exRows_made m n) ⟨_, _, rfl⟩ (by decide) (by decide) h2⟩

/-- Bins and snapshots. -/
def exTimeS (m n : Nat) : KeyCfg Nat (Int × Int) (List (List Int)) ExBuf Unit :=
  exMade (inPlace (frameCall (fun _ => intOps) ex_get exGcM exZ (grouperFn { freq := 10 } Prod.fst) (some Prod.fst) (some exSn) true))
    exGcM [5, 20, 21] 5 true m n

theorem exTimeS_made (m n : Nat) : MadeSnaps (fun _ : Unit => intOps) ex_get exZ 5 5 exGcM (grouperFn { freq := 10 } Prod.fst)
    Prod.fst exSn id .both (exTimeS m n) :=
  ⟨⟨⟨exDef [20, 21], (exConfOf (.grouper (some 5) .left) [("snap_by", .snapBy (.grouper (some 5) .left))] m n), true, (exKeyConf [20, 21] (some 5) (some 5) 5 true m n), none, none, 90, 91, exValOf exGcM, C54_consolidated rfl,
    splitBinOn_iff.1 rfl, rfl, rfl, exNot rfl, rfl, rfl⟩⟩, fun _ => (by simp [exMade, exTimeS]), true, exEmb _⟩

example : ∃ w' : ExWorld ExBuf, (w' 0).rgs.map RG.rows =
      [[(0, some [[3, 2]])], [(10, some [[28, 16]])], [(20, some [[96, 64]]), (30, some [[128, 128]]), (40, some [[768, 512]])]] ∧
    ∃ one sns, frameCall (fun _ : Unit => intOps) ex_get exGcM exZ (grouperFn { freq := 10 } Prod.fst) (some Prod.fst) (some exSn) false exWhole none =
      .ok (some one, none) ∧ one.snaps = some sns ∧ readRows (w' 0).rgs = one.bins ∧ readRows (w' 1).rgs = sns := by
  obtain ⟨s1, w1, s2, s2', w2, s3, s3', w3, e1, e2, e3, e4, e5, e6, e7, e8, e9, e10, e11, e12⟩ :
      ∃ (s1 : State (List (List Int)) ExBuf Unit Unit) (w1 : ExWorld ExBuf)
        (s2 s2' : State (List (List Int)) ExBuf Unit Unit) (w2 : ExWorld ExBuf)
        (s3 s3' : State (List (List Int)) ExBuf Unit Unit) (w3 : ExWorld ExBuf),
      aggs (exConf [(0, exTimeS 100 1)]) ([] ++ [⟨exHalf1, false, false, true⟩]) (exState 1 ex0) exWorld = .ok (s1, w1) ∧
      s1.restart = some 13 ∧
      initBuffers ex0 () () (exConf [(0, exTimeS 0 2)]) w1 = .ok s2 ∧
      aggs (exConf [(0, exTimeS 0 2)]) [⟨exHalf2, false, false, false⟩] s2 w1 = .ok (s2', w2) ∧
      received (exConf [(0, exTimeS 0 2)]) 0 [⟨exHalf2, false, false, false⟩] s2.restart s2.pre = exHalf2.flatten ∧
      (w1 0).rgs.isEmpty = false ∧ (w2 0).rgs.isEmpty = false ∧
      initBuffers ex0 () () (exConf [(0, exTimeS 100 3)]) w2 = .ok s3 ∧
      aggs (exConf [(0, exTimeS 100 3)]) ([] ++ [⟨[exHalf2.flatten], false, false, true⟩]) s3 w2 = .ok (s3', w3) ∧
      s3'.restart = some 46 ∧
      received (exConf [(0, exTimeS 100 3)]) 0 ([] ++ [⟨[exHalf2.flatten], false, false, true⟩]) s3.restart s3.pre =
        exHalf2.flatten ∧
      (w3 0).rgs.map RG.rows = [[(0, some [[3, 2]])], [(10, some [[28, 16]])], [(20, some [[96, 64]]), (30, some [[128, 128]]), (40, some [[768, 512]])]] :=
    ⟨_, _, _, _, _, _, _, _, rfl, rfl, rfl, rfl, rfl, rfl, rfl, rfl, rfl, rfl, rfl, rfl⟩
  obtain ⟨-, h2⟩ := exLives (key := exTimeS) (L := fun cfg => (∃ m n, cfg = exTimeS m n)) (fun m n => ⟨m, n, rfl⟩) (by rintro _ ⟨m, n, rfl⟩; exact ⟨rfl, fun _ => rfl⟩) (fun _ _ => ⟨rfl, rfl, rfl, rfl⟩) rfl e1 e2 e3 e4 e5 e6 e7 e8 e9 e10 e11
  obtain ⟨one, sns, g1, g2, -, g3⟩ := C75_time_snaps (emb := id) (t := .both) (seedOn := 5) (on := 5) (fun _ => intOps) ex_get (dtype := fun _ => some ()) (agg := exAggM) (gc := exGcM) exZ rfl { freq := 10 } exFixed { freq := 5, labelRight := true } (by exact ⟨by decide, .inr (.inr ⟨rfl, by decide⟩)⟩) Prod.fst (by decide) (by rintro _ ⟨m, n, rfl⟩; exact exTimeS_made m n) ⟨_, _, rfl⟩ (by decide) (by decide) h2
  exact ⟨w3, e12, one, sns, g1, g2, g3 rfl⟩

/-- Bins of two rows and snapshots. -/
def exRowsS (m n : Nat) : KeyCfg Nat (Int × Int) (List (List Int)) ExBufX Unit :=
  exMade (inPlace (frameCall (fun _ => intOps) ex_get exGcM exZ (rowsFn 2 .right Prod.fst) (some Prod.fst) (some exSn) true))
    exGcM [5, 20, 21] 5 true m n

theorem exRowsS_made (m n : Nat) : MadeSnaps (fun _ : Unit => intOps) ex_get exZ 5 5 exGcM (rowsFn 2 .right Prod.fst)
    Prod.fst exSn id .both (exRowsS m n) :=
  ⟨⟨⟨exDef [20, 21], (exConfOf .callable [("snap_by", .snapBy (.grouper (some 5) .left))] m n), true, (exKeyConf [20, 21] none none 5 true m n), none, none, 90, 91, exValOf exGcM, C54_consolidated rfl,
    splitBinOn_iff.1 rfl, rfl, rfl, exNot rfl, rfl, rfl⟩⟩, fun _ => (by simp [exMade, exRowsS]), true, exEmb _⟩

example : ∃ w' : ExWorld ExBufX, (w' 0).rgs.map RG.rows =
      [[(1, some [[3, 2]])], [(12, some [[12, 8]])], [(16, some [[48, 32]]), (27, some [[192, 128]]), (41, some [[768, 512]])]] ∧
    ∃ one sns, frameCall (fun _ : Unit => intOps) ex_get exGcM exZ (rowsFn 2 .right Prod.fst) (some Prod.fst) (some exSn) false exWhole none =
      .ok (some one, none) ∧ one.snaps = some sns ∧ readRows (w' 0).rgs = one.bins ∧ readRows (w' 1).rgs = sns := by
  obtain ⟨s1, w1, s2, s2', w2, s3, s3', w3, e1, e2, e3, e4, e5, e6, e7, e8, e9, e10, e11, e12⟩ :
      ∃ (s1 : State (List (List Int)) ExBufX Unit Unit) (w1 : ExWorld ExBufX)
        (s2 s2' : State (List (List Int)) ExBufX Unit Unit) (w2 : ExWorld ExBufX)
        (s3 s3' : State (List (List Int)) ExBufX Unit Unit) (w3 : ExWorld ExBufX),
      aggs (exConf [(0, exRowsS 100 1)]) ([] ++ [⟨exHalf1, false, false, true⟩]) (exState 1 (Buf.init none : ExBufX)) exWorld = .ok (s1, w1) ∧
      s1.restart = some 13 ∧
      initBuffers (Buf.init none : ExBufX) () () (exConf [(0, exRowsS 0 2)]) w1 = .ok s2 ∧
      aggs (exConf [(0, exRowsS 0 2)]) [⟨exHalf2, false, false, false⟩] s2 w1 = .ok (s2', w2) ∧
      received (exConf [(0, exRowsS 0 2)]) 0 [⟨exHalf2, false, false, false⟩] s2.restart s2.pre = exHalf2.flatten ∧
      (w1 0).rgs.isEmpty = false ∧ (w2 0).rgs.isEmpty = false ∧
      initBuffers (Buf.init none : ExBufX) () () (exConf [(0, exRowsS 100 3)]) w2 = .ok s3 ∧
      aggs (exConf [(0, exRowsS 100 3)]) ([] ++ [⟨[exHalf2.flatten], false, false, true⟩]) s3 w2 = .ok (s3', w3) ∧
      s3'.restart = some 46 ∧
      received (exConf [(0, exRowsS 100 3)]) 0 ([] ++ [⟨[exHalf2.flatten], false, false, true⟩]) s3.restart s3.pre =
        exHalf2.flatten ∧
      (w3 0).rgs.map RG.rows = [[(1, some [[3, 2]])], [(12, some [[12, 8]])], [(16, some [[48, 32]]), (27, some [[192, 128]]), (41, some [[768, 512]])]] :=
    ⟨_, _, _, _, _, _, _, _, rfl, rfl, rfl, rfl, rfl, rfl, rfl, rfl, rfl, rfl, rfl, rfl⟩
  obtain ⟨-, h2⟩ := exLives (key := exRowsS) (L := fun cfg => (∃ m n, cfg = exRowsS m n)) (fun m n => ⟨m, n, rfl⟩) (by rintro _ ⟨m, n, rfl⟩; exact ⟨rfl, fun _ => rfl⟩) (fun _ _ => ⟨rfl, rfl, rfl, rfl⟩) rfl e1 e2 e3 e4 e5 e6 e7 e8 e9 e10 e11
  obtain ⟨one, sns, g1, g2, -, g3⟩ := C75_rows_snaps (emb := id) (t := .both) (seedOn := 5) (on := 5) (fun _ => intOps) ex_get (dtype := fun _ => some ()) (agg := exAggM) (gc := exGcM) exZ rfl 2 (by decide) .right { freq := 5, labelRight := true } (by exact ⟨by decide, .inr (.inr ⟨rfl, by decide⟩)⟩) Prod.fst (by decide) (by rintro _ ⟨m, n, rfl⟩; exact exRowsS_made m n) ⟨_, _, rfl⟩ (by decide) (by decide) (fun _ => by decide) h2
  exact ⟨w3, e12, one, sns, g1, g2, g3 rfl⟩

/-- Bins of a `TimeGrouper`, labels in column 8, results in the order of first positions. -/
def exTimeF (m n : Nat) : KeyCfg Nat (Int × Int) (List (List Int)) ExBuf Unit :=
  exMade (inPlace (frameCall (fun _ => intOps) exGetF exGcF exZ (grouperFn { freq := 10 } Prod.fst) (some Prod.fst) none true))
    exGcF [8, 5, 21] 8 false m n

theorem exTimeF_made (m n : Nat) : MadeFirst (fun _ : Unit => intOps) exGetF exZ 5 8 5 8 exAggF exGcF id
    (grouperFn { freq := 10 } Prod.fst) Prod.fst id (exTimeF m n) :=
  ⟨⟨exDef [5, 21], (exConfOf (.grouper (some 5) .left) [("bin_on", .pair (.name 5) (.name 8))] m n), false, (exKeyConf [5, 21] (some 5) (some 8) 8 false m n), (some 5), (some 8), 90, 91, C54_consolidated rfl,
    splitBinOn_iff.1 rfl, rfl, (by decide), rfl, rfl, exNot rfl, rfl, rfl, rfl⟩, true, exEmb _⟩

example : ∃ w' : ExWorld ExBuf, (w' 0).rgs.map RG.rows =
      [[(0, some [[1, 2]])], [(10, some [[12, 16]])], [(20, some [[22, 64]]), (30, some [[33, 128]]), (40, some [[41, 512]])]] ∧
    ∃ one, frameCall (fun _ : Unit => intOps) exGetF exGcF exZ (grouperFn { freq := 10 } Prod.fst) (some Prod.fst) none false exWhole none =
      .ok (some one, none) ∧ readRows (w' 0).rgs = one.bins := by
  obtain ⟨s1, w1, s2, s2', w2, s3, s3', w3, e1, e2, e3, e4, e5, e6, e7, e8, e9, e10, e11, e12⟩ :
      ∃ (s1 : State (List (List Int)) ExBuf Unit Unit) (w1 : ExWorld ExBuf)
        (s2 s2' : State (List (List Int)) ExBuf Unit Unit) (w2 : ExWorld ExBuf)
        (s3 s3' : State (List (List Int)) ExBuf Unit Unit) (w3 : ExWorld ExBuf),
      aggs (exConf [(0, exTimeF 100 1)]) ([] ++ [⟨exHalf1, false, false, true⟩]) (exState 1 ex0) exWorld = .ok (s1, w1) ∧
      s1.restart = some 13 ∧
      initBuffers ex0 () () (exConf [(0, exTimeF 0 2)]) w1 = .ok s2 ∧
      aggs (exConf [(0, exTimeF 0 2)]) [⟨exHalf2, false, false, false⟩] s2 w1 = .ok (s2', w2) ∧
      received (exConf [(0, exTimeF 0 2)]) 0 [⟨exHalf2, false, false, false⟩] s2.restart s2.pre = exHalf2.flatten ∧
      (w1 0).rgs.isEmpty = false ∧ (w2 0).rgs.isEmpty = false ∧
      initBuffers ex0 () () (exConf [(0, exTimeF 100 3)]) w2 = .ok s3 ∧
      aggs (exConf [(0, exTimeF 100 3)]) ([] ++ [⟨[exHalf2.flatten], false, false, true⟩]) s3 w2 = .ok (s3', w3) ∧
      s3'.restart = some 46 ∧
      received (exConf [(0, exTimeF 100 3)]) 0 ([] ++ [⟨[exHalf2.flatten], false, false, true⟩]) s3.restart s3.pre =
        exHalf2.flatten ∧
      (w3 0).rgs.map RG.rows = [[(0, some [[1, 2]])], [(10, some [[12, 16]])], [(20, some [[22, 64]]), (30, some [[33, 128]]), (40, some [[41, 512]])]] :=
    ⟨_, _, _, _, _, _, _, _, rfl, rfl, rfl, rfl, rfl, rfl, rfl, rfl, rfl, rfl, rfl, rfl⟩
  obtain ⟨-, h2⟩ := exLives (key := exTimeF) (L := fun cfg => (∃ m n, cfg = exTimeF m n)) (fun m n => ⟨m, n, rfl⟩) (by rintro _ ⟨m, n, rfl⟩; exact ⟨rfl, fun _ => rfl⟩) (fun _ _ => ⟨rfl, rfl, rfl, rfl⟩) rfl e1 e2 e3 e4 e5 e6 e7 e8 e9 e10 e11
  exact ⟨w3, e12, C75_time_first (emb := id) (seedOn := 5) (on := 5) (fun _ => intOps) exGetF (dtype := fun _ => some ()) (agg := exAggF) (gc := exGcF) exZ rfl (by decide) (i := 1) (D0 := ()) (by decide) rfl { freq := 10 } exFixed Prod.fst (fun _ => rfl) (by rintro _ ⟨m, n, rfl⟩; exact exTimeF_made m n) ⟨_, _, rfl⟩ (by decide) (by decide) (by rintro one ⟨⟩; decide) h2⟩

/-- Bins of two rows, labels in column 8, results in the order of first positions. -/
def exRowsF8 (m n : Nat) : KeyCfg Nat (Int × Int) (List (List Int)) ExBufX Unit :=
  exMade (inPlace (frameCall (fun _ => intOps) exGetF exGcF exZ (rowsFn 2 .right Prod.fst) (some Prod.fst) none true))
    exGcF [8, 5, 21] 8 false m n

theorem exRowsF8_made (m n : Nat) : MadeFirst (fun _ : Unit => intOps) exGetF exZ 5 8 5 8 exAggF exGcF id
    (rowsFn 2 .right Prod.fst) Prod.fst id (exRowsF8 m n) :=
  ⟨⟨exDef [5, 21], (exConfOf .callable [("bin_on", .pair (.name 5) (.name 8))] m n), false, (exKeyConf [5, 21] (some 5) (some 8) 8 false m n), (some 5), (some 8), 90, 91, C54_consolidated rfl,
    splitBinOn_iff.1 rfl, rfl, (by decide), rfl, rfl, exNot rfl, rfl, rfl, rfl⟩, true, exEmb _⟩

example : ∃ w' : ExWorld ExBufX, (w' 0).rgs.map RG.rows =
      [[(1, some [[1, 2]])], [(12, some [[12, 8]])], [(16, some [[16, 32]]), (27, some [[27, 128]]), (41, some [[41, 512]])]] ∧
    ∃ one, frameCall (fun _ : Unit => intOps) exGetF exGcF exZ (rowsFn 2 .right Prod.fst) (some Prod.fst) none false exWhole none =
      .ok (some one, none) ∧ readRows (w' 0).rgs = one.bins := by
  obtain ⟨s1, w1, s2, s2', w2, s3, s3', w3, e1, e2, e3, e4, e5, e6, e7, e8, e9, e10, e11, e12⟩ :
      ∃ (s1 : State (List (List Int)) ExBufX Unit Unit) (w1 : ExWorld ExBufX)
        (s2 s2' : State (List (List Int)) ExBufX Unit Unit) (w2 : ExWorld ExBufX)
        (s3 s3' : State (List (List Int)) ExBufX Unit Unit) (w3 : ExWorld ExBufX),
      aggs (exConf [(0, exRowsF8 100 1)]) ([] ++ [⟨exHalf1, false, false, true⟩]) (exState 1 (Buf.init none : ExBufX)) exWorld = .ok (s1, w1) ∧
      s1.restart = some 13 ∧
      initBuffers (Buf.init none : ExBufX) () () (exConf [(0, exRowsF8 0 2)]) w1 = .ok s2 ∧
      aggs (exConf [(0, exRowsF8 0 2)]) [⟨exHalf2, false, false, false⟩] s2 w1 = .ok (s2', w2) ∧
      received (exConf [(0, exRowsF8 0 2)]) 0 [⟨exHalf2, false, false, false⟩] s2.restart s2.pre = exHalf2.flatten ∧
      (w1 0).rgs.isEmpty = false ∧ (w2 0).rgs.isEmpty = false ∧
      initBuffers (Buf.init none : ExBufX) () () (exConf [(0, exRowsF8 100 3)]) w2 = .ok s3 ∧
      aggs (exConf [(0, exRowsF8 100 3)]) ([] ++ [⟨[exHalf2.flatten], false, false, true⟩]) s3 w2 = .ok (s3', w3) ∧
      s3'.restart = some 46 ∧
      received (exConf [(0, exRowsF8 100 3)]) 0 ([] ++ [⟨[exHalf2.flatten], false, false, true⟩]) s3.restart s3.pre =
        exHalf2.flatten ∧
      (w3 0).rgs.map RG.rows = [[(1, some [[1, 2]])], [(12, some [[12, 8]])], [(16, some [[16, 32]]), (27, some [[27, 128]]), (41, some [[41, 512]])]] :=
    ⟨_, _, _, _, _, _, _, _, rfl, rfl, rfl, rfl, rfl, rfl, rfl, rfl, rfl, rfl, rfl, rfl⟩
  obtain ⟨-, h2⟩ := exLives (key := exRowsF8) (L := fun cfg => (∃ m n, cfg = exRowsF8 m n)) (fun m n => ⟨m, n, rfl⟩) (by rintro _ ⟨m, n, rfl⟩; exact ⟨rfl, fun _ => rfl⟩) (fun _ _ => ⟨rfl, rfl, rfl, rfl⟩) rfl e1 e2 e3 e4 e5 e6 e7 e8 e9 e10 e11
  exact ⟨w3, e12, C75_rows_first (emb := id) (seedOn := 5) (on := 5) (fun _ => intOps) exGetF (dtype := fun _ => some ()) (agg := exAggF) (gc := exGcF) exZ rfl (by decide) (i := 1) (D0 := ()) (by decide) rfl 2 (by decide) .right Prod.fst (fun _ => rfl) (by rintro _ ⟨m, n, rfl⟩; exact exRowsF8_made m n) ⟨_, _, rfl⟩ (by decide) (by decide) h2⟩

/-! ### Findings -/

/-- A callable `bin_by` without `bin_on`, and an aggregation named as `ordered_on` of the stream: accepted by the constructor, but
columns of results cannot be made. With `bin_on` the constructor refuses it. -/
theorem C75_shadow_fails :
    (∃ c, (initKey (some 5) (exDef [20, 5]) false (exConfOf .callable [] 100 2)).1 = .ok c ∧ binCols 90 91 c = .error .exists) ∧
    (initKey (some 5) (exDef [20, 5]) false (exConfOf .callable [("bin_on", .name 5)] 100 2)).1 = .error .clash :=
  ⟨⟨_, rfl, rfl⟩, rfl⟩

/-- A name for labels which is not `ordered_on` of results, without an aggregation of that name: accepted by the constructor,
but no row is ever written. -/
theorem C75_renamed_fails (rgs : List (RG (Row (List (List Int))))) (rows : List (Row (List (List Int)))) :
    ∃ c p, (initKey (some 5) (exDef [20, 21]) false (exConfOf (.grouper (some 5) .left) [("bin_on", .pair (.name 5) (.name 8))] 100 2)).1 =
      .ok c ∧ mainParams c = some p ∧ writeRows 90 91 c (exValOf exGcM) p rgs rows = .error (.write .valueError) := by
  refine ⟨exKeyConf [20, 21] (some 5) (some 8) 8 false 100 2, _, rfl, rfl, ?_⟩
  exact C75_refused (seedOn := 5) (inp := some 5) (out := some 8) (on := 5) (C54_consolidated (default := exDef [20, 21]) (pair := false)
    (conf := exConfOf (.grouper (some 5) .left) [("bin_on", .pair (.name 5) (.name 8))] 100 2) rfl) (splitBinOn_iff.1 rfl) rfl rfl
    (by decide) (by decide) rgs rows

/-- Last position in column 5. -/
def exGcL : List (Unit × Group) := (setupCumsegagg [(5, 1, some .last), (21, 0, some .last)] fun _ => some ()).toOption.getD []

def exTimeL (m n : Nat) : KeyCfg Nat (Int × Int) (List (List Int)) ExBuf Unit :=
  exMade (inPlace (frameCall (fun _ => intOps) exGetF exGcL exZ (grouperFn { freq := 10 } Prod.fst) (some Prod.fst) none true))
    exGcL [8, 5, 21] 8 false m n

/-- Results in the order of a `last` value, with the last position in column 5, and labels in column 8: the row of a bin which was
not complete at the end of a session is kept, along with that of the complete bin. -/
theorem C75_last_fails :
    keyCfg 90 91 (exKeyConf [5, 21] (some 5) (some 8) 8 false 100 3) 0 1 (exTimeL 100 3).call List.length (exValOf exGcL) =
      some (exTimeL 100 3) ∧
    exStored 0 (exThen ex0 (exConf [(0, exTimeL 100 3)]) [⟨exHalf2, false, false, true⟩]
      (aggs (exConf [(0, exTimeL 100 3)]) [⟨exHalf1, false, false, true⟩] (exState 1 ex0) exWorld)) =
      some [[(0, some [[7, 2]]), (10, some [[13, 8]])], [(10, some [[16, 16]]), (20, some [[27, 64]])],
        [(30, some [[33, 128]]), (40, some [[46, 512]])]] := ⟨rfl, rfl⟩

/-- `max_nirgs` without `max_row_group_size`: accepted by the constructor, and by the first write, but not by the second one. -/
theorem C75_nirgs_fails :
    ∃ c p rgs, (initKey (some 5) (exDef [20, 21]) false [("bin_by", .binBy (.grouper (some 5) .left)), ("max_nirgs", .size 2)]).1 =
      .ok c ∧ mainParams c = some p ∧ writeRows 90 91 c (exValOf exGcM) p [] [(0, some [[1, 1]])] = .ok rgs ∧
      writeRows 90 91 c (exValOf exGcM) p rgs [(10, some [[2, 2]])] = .error (.write .typeError) := by
  exact ⟨_, _, _, rfl, rfl, rfl, rfl⟩

-- a key with `ordered_on=None`, of which the second write is refused; without `bin_on` and with a callable, bin 0 is stored twice
example : ∃ c p rgs, (initKey (some 5) (exDef [20, 21]) false (exConfOf (.grouper (some 5) .left) [("ordered_on", .none)] 100 2)).1 =
      .ok c ∧ mainParams c = some p ∧ writeRows 90 91 c (exValOf exGcM) p [] [(0, some [[1, 1]])] = .ok rgs ∧
      writeRows 90 91 c (exValOf exGcM) p rgs [(10, some [[2, 2]])] = .error (.write .valueError) :=
  ⟨_, _, _, rfl, rfl, rfl, rfl⟩

example : ∃ c p rgs rgs', (initKey (some 5) (exDef [20, 21]) false (exConfOf .callable [("ordered_on", .none)] 100 2)).1 =
      .ok c ∧ mainParams c = some p ∧ writeRows 90 91 c (exValOf exGcM) p [] [(0, some [[1, 1]])] = .ok rgs ∧
      writeRows 90 91 c (exValOf exGcM) p rgs [(0, some [[2, 2]])] = .ok rgs' ∧
      readRows rgs' = [(0, some [[1, 1]]), (0, some [[2, 2]])] :=
  ⟨_, _, _, _, rfl, rfl, rfl, rfl, rfl⟩

example : concatCols 90 91 none none [20, 90] = .ok [91, 20, 90] := rfl

end
end Oups.ResultCols
