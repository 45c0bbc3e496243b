import Verif.Props.KeysConfig
/-! Properties C54 and C58: reasons of the exceptions of the constructor of a stream. -/
namespace Oups.KeysConfig
open Oups.Segment (BinBy SnapBy SegConfig setupSegmentby)

/-- Why the configuration of a key is refused with exception `e`. -/
def Reason (seedOn : Option Nat) (default conf : Dict) : Err → Prop
  | .missingBinBy => conf.get "bin_by" = none
  | .badParam p => p ∉ keyParams ∧ ((conf.get p).isSome ∨ (default.get p).isSome)
  | .typeError => (∃ v, conf.get "max_in_memory_size" = some v ∧ ∀ n, v ≠ .size n) ∨
      (∀ inp out, ¬ BinOnIs (effective default conf "bin_on") inp out) ∨
      ∃ v, effective default conf "agg" = some v ∧ ∀ outs, v ≠ .agg outs
  | .segment => ∃ inp out, BinOnIs (effective default conf "bin_on") inp out ∧
      ∀ b s seg, conf.get "bin_by" = some (.binBy b) → SnapIs (effective default conf "snap_by") s →
        setupSegmentby b inp seedOn s ≠ .ok seg
  | .clash => ∃ b s inp out seg outs o, conf.get "bin_by" = some (.binBy b) ∧ BinOnIs (effective default conf "bin_on") inp out ∧
      SnapIs (effective default conf "snap_by") s ∧ setupSegmentby b inp seedOn s = .ok seg ∧
      effective default conf "agg" = some (.agg outs) ∧ out.or seg.binOn = some o ∧ o ∈ outs
  | .keyError => ∃ p ∈ ["agg", "ordered_on", "post", "max_in_memory_size_b"], effective default conf p = none
  | _ => False

theorem toSnap_err {v : Option Val} {e : Err} (h : toSnap v = .error e) : e = .segment ∧ ∀ s, ¬ SnapIs v s := by
  refine ⟨?_, fun s hs => by rw [toSnap_iff.2 hs] at h; cases h⟩
  unfold toSnap at h
  split at h <;> cases h <;> rfl

theorem keySeg_err {seedOn : Option Nat} {bv : Val} {inp : Option Nat} {v : Option Val} {e : Err}
    (h : keySeg seedOn bv inp v = .error e) : e = .segment := by
  unfold keySeg at h
  split at h
  · rename_i e' he
    cases h
    exact (toSnap_err he).1
  · split at h
    · split at h <;> cases h
      rfl
    · cases h; rfl

theorem finishKey_err {seedOn : Option Nat} {default conf conf' : Dict} {pair : Bool} {bv : Val} {e : Err}
    (hb : conf.get "bin_by" = some bv) (ht : toBytes (conf.drop "bin_by") = .ok conf')
    (h : finishKey seedOn pair bv (default.merge conf') = .error e) : Reason seedOn default conf e := by
  have hg := fun p h1 h2 => merged_get (default := default) ht p h1 h2
  have e1 := hg "bin_on" (by decide) (by decide)
  have e2 := hg "snap_by" (by decide) (by decide)
  have e3 := hg "agg" (by decide) (by decide)
  have e4 := hg "ordered_on" (by decide) (by decide)
  have e5 := hg "post" (by decide) (by decide)
  have e6 := hg "max_in_memory_size_b" (by decide) (by decide)
  generalize default.merge conf' = d at h e1 e2 e3 e4 e5 e6
  simp only [finishKey] at h
  cases h1 : splitBinOn (d.get "bin_on") with
  | error e' =>
    simp only [h1, Except.error.injEq] at h
    subst h
    have : e' = .typeError := by
      unfold splitBinOn at h1
      split at h1 <;> cases h1
      rfl
    subst this
    refine .inr (.inl fun inp out hbo => ?_)
    rw [← e1] at hbo
    rw [splitBinOn_iff.2 hbo] at h1
    cases h1
  | ok x =>
    obtain ⟨inp, out⟩ := x
    have hbo := splitBinOn_iff.1 h1
    rw [e1] at hbo
    simp only [h1] at h
    cases h2 : keySeg seedOn bv inp (d.get "snap_by") with
    | error e' =>
      simp only [h2, Except.error.injEq] at h
      subst h
      cases keySeg_err h2
      refine ⟨inp, out, hbo, fun b s seg a1 a2 a3 => ?_⟩
      rw [hb] at a1
      cases a1
      rw [← e2] at a2
      rw [keySeg_iff.2 ⟨b, s, rfl, a2, a3⟩] at h2
      cases h2
    | ok seg =>
      simp only [h2] at h
      obtain ⟨b, s, rfl, hs, hseg⟩ := keySeg_iff.1 h2
      rw [e2] at hs
      cases h3 : d.get "agg" with
      | none =>
        simp only [h3, Except.error.injEq] at h
        subst h
        exact ⟨"agg", by decide, by rw [← e3, h3]⟩
      | some av =>
        by_cases hav : ∃ outs, av = .agg outs
        · obtain ⟨outs, rfl⟩ := hav
          simp only [h3] at h
          by_cases hc : (out.or seg.binOn).any (fun c => outs.contains c) = true
          · rw [if_pos hc] at h
            cases h
            cases ho : out.or seg.binOn with
            | none => rw [ho] at hc; simp at hc
            | some o =>
              rw [ho] at hc
              exact ⟨b, s, inp, out, seg, outs, o, hb, hbo, hs, hseg, by rw [← e3, h3], ho, by simpa using hc⟩
          · simp only [hc, Bool.false_eq_true, if_false] at h
            cases h4 : setDuplicates (((d.drop "bin_on").drop "snap_by").drop "agg") (out.or seg.binOn) with
            | error e' =>
              simp only [h4, Except.error.injEq] at h
              subst h
              unfold setDuplicates at h4
              split at h4
              all_goals first
                | cases h4; done
                | split at h4
                  · cases h4
                  · split at h4
                    · cases h4
                    · rename_i hx
                      cases h4
                      rw [get_drop, if_neg (by decide), get_drop, if_neg (by decide), get_drop, if_neg (by decide)] at hx
                      exact ⟨"ordered_on", by decide, by rw [← e4, hx]⟩
            | ok d' =>
              simp only [h4] at h
              obtain ⟨d1, -, -⟩ := setDuplicates_get h4
              obtain ⟨r1, -, -⟩ := setRowGroupSize_get d' (resTypeOf seg.snapGrouper pair)
              have base : ∀ p, p ≠ "bin_on" → p ≠ "snap_by" → p ≠ "agg" →
                  (((d.drop "bin_on").drop "snap_by").drop "agg").get p = d.get p := by
                intro p a1 a2 a3
                rw [get_drop, if_neg a3, get_drop, if_neg a2, get_drop, if_neg a1]
              rw [r1 _ (by decide), d1 _ (by decide), base _ (by decide) (by decide) (by decide),
                r1 _ (by decide), d1 _ (by decide), base _ (by decide) (by decide) (by decide)] at h
              cases x1 : d.get "max_in_memory_size_b" with
              | none =>
                simp only [x1, Except.error.injEq] at h
                subst h
                exact ⟨"max_in_memory_size_b", by decide, by rw [← e6, x1]⟩
              | some m =>
                cases x2 : d.get "post" with
                | none =>
                  simp only [x1, x2, Except.error.injEq] at h
                  subst h
                  exact ⟨"post", by decide, by rw [← e5, x2]⟩
                | some po => simp [x1, x2] at h
        · have : e = .typeError := by
            cases av <;> first | exact absurd ⟨_, rfl⟩ hav | (simp only [h3, Except.error.injEq] at h; exact h.symm)
          subst this
          exact .inr (.inr ⟨av, by rw [← e3, h3], fun outs ho => hav ⟨outs, ho⟩⟩)

/-- **C54** The exception with which a key is refused tells why it is. -/
theorem C54_raises {seedOn : Option Nat} {default conf : Dict} {pair : Bool} {e : Err}
    (h : (initKey seedOn default pair conf).1 = .error e) : Reason seedOn default conf e := by
  unfold initKey at h
  split at h
  · rename_i hb
    cases h
    exact hb
  · rename_i bv hb
    split at h
    · rename_i e' ht
      simp only [Except.error.injEq] at h
      subst h
      simp only [toBytes, get_drop, show ("max_in_memory_size" = "bin_by") = False by decide, if_false] at ht
      split at ht <;> cases ht
      rename_i v hv _
      exact .inl ⟨v, by assumption, fun n hn => by subst hn; simp_all⟩
    · rename_i conf' ht
      split at h
      · rename_i x hx
        simp only [Except.error.injEq] at h
        subst h
        have hm := List.mem_of_find?_eq_some hx
        have hp := List.find?_some hx
        simp only [Bool.not_eq_true', List.contains_eq_mem, decide_eq_false_iff_not] at hp
        refine ⟨hp, ?_⟩
        have hs : ((default.merge conf').get x.1).isSome := by
          rw [Dict.get, Option.isSome_map, List.find?_isSome]
          exact ⟨x, hm, by simp⟩
        by_cases q1 : x.1 = "bin_by"
        · rw [q1, hb]; exact .inl rfl
        by_cases q2 : x.1 = "max_in_memory_size"
        · rw [q2] at hs ⊢
          rw [get_merge] at hs
          by_cases hd : (default.get "max_in_memory_size").isSome
          · exact .inr hd
          · left
            simp only [toBytes] at ht
            cases hv : (conf.drop "bin_by").get "max_in_memory_size" with
            | none =>
              simp only [hv, Except.ok.injEq] at ht
              subst ht
              rw [hv] at hs
              simp only [Option.none_or] at hs
              exact absurd hs hd
            | some v =>
              rw [get_drop, if_neg (by decide)] at hv
              rw [hv]; rfl
        rw [merged_get ht x.1 q1 q2, effective, if_neg (by rintro q; rw [q] at hp; exact hp (by decide))] at hs
        cases hc : conf.get x.1 with
        | some v => exact .inl rfl
        | none => rw [hc] at hs; exact .inr (by simpa using hs)
      · exact finishKey_err hb ht h

section
variable {K F C : Type} [DecidableEq K] [DecidableEq F]

/-- Why a stream is refused with exception `e`. -/
def StreamReason (noId : F) (a : Args K F C) (e : Err) : Prop :=
  match e with
  | .badKwarg p => p ∉ writeParams ∧ (a.kwargs.get p).isSome
  | .indexError => ∃ given f, a.filters = some given ∧ ((f, .flat []) ∈ given ∨ (f, .nested []) ∈ given)
  | .noFilters => (∃ l, a.keys = .byFilter l) ∧ a.filters = none
  | .reservedFilter => (∃ l, a.keys = .byFilter l) ∧ ∃ given, a.filters = some given ∧ noId ∈ given.map Prod.fst
  | .filterIds => ∃ l given f, a.keys = .byFilter l ∧ a.filters = some given ∧ f ≠ noId ∧
      ¬ (f ∈ given.map Prod.fst ↔ f ∈ l.map Prod.fst)
  | .dupKeys => ¬ ((givenKeys noId a).map fun x => x.2.1).Nodup
  | .keyError => False
  | e => (e = .typeError ∧ ∃ given f, a.filters = some given ∧ (f, .null) ∈ given) ∨
      ∃ f k d, (f, k, d) ∈ givenKeys noId a ∧
        Reason (some a.orderedOn) (keysDefault a.snapBy a.agg a.post a.orderedOn a.maxMem a.kwargs) d e

theorem encloseFilters_err {l : List (F × FiltIn C)} {e : Err} (h : encloseFilters l = .error e) :
    (e = .indexError ∧ ∃ f, (f, .flat []) ∈ l ∨ (f, .nested []) ∈ l) ∨ (e = .typeError ∧ ∃ f, (f, .null) ∈ l) := by
  induction l with
  | nil => cases h
  | cons x l ih =>
    obtain ⟨f, x⟩ := x
    simp only [encloseFilters] at h
    cases h1 : encloseFilter x with
    | error e' =>
      simp only [h1, Except.error.injEq] at h
      subst h
      unfold encloseFilter at h1
      split at h1 <;> cases h1
      · exact .inr ⟨rfl, f, List.mem_cons_self ..⟩
      · exact .inl ⟨rfl, f, .inl (List.mem_cons_self ..)⟩
      · exact .inl ⟨rfl, f, .inr (List.mem_cons_self ..)⟩
    | ok y =>
      simp only [h1] at h
      cases h2 : encloseFilters l with
      | error e' =>
        simp only [h2, Except.error.injEq] at h
        subst h
        rcases ih h2 with ⟨a, f, b⟩ | ⟨a, f, b⟩
        · exact .inl ⟨a, f, b.imp (List.mem_cons_of_mem _) (List.mem_cons_of_mem _)⟩
        · exact .inr ⟨a, f, List.mem_cons_of_mem _ b⟩
      | ok r => simp [h2] at h

theorem initKeys_err {seedOn : Nat} {default : Dict} {isPair : K → Bool} {l : List (F × K × Dict)} {e : Err}
    (h : initKeys seedOn default isPair l = .error e) :
    ∃ f k d, (f, k, d) ∈ l ∧ Reason (some seedOn) default d e := by
  induction l with
  | nil => cases h
  | cons x l ih =>
    obtain ⟨f, k, d⟩ := x
    simp only [initKeys] at h
    cases h1 : (initKey (some seedOn) default (isPair k) d).1 with
    | error e' =>
      simp only [h1, Except.error.injEq] at h
      subst h
      exact ⟨f, k, d, List.mem_cons_self .., C54_raises h1⟩
    | ok c =>
      simp only [h1] at h
      cases h2 : initKeys seedOn default isPair l with
      | error e' =>
        simp only [h2, Except.error.injEq] at h
        subst h
        obtain ⟨f', k', d', hm, hr⟩ := ih h2
        exact ⟨f', k', d', List.mem_cons_of_mem _ hm, hr⟩
      | ok r => simp [h2] at h

/-- In a stream, all parameters have default values. -/
theorem reason_keyError {snap agg post : Val} {seedOn : Option Nat} {orderedOn maxMem : Nat} {kwargs d : Dict} :
    ¬ Reason seedOn (keysDefault snap agg post orderedOn maxMem kwargs) d .keyError := by
  rintro ⟨p, hp, h⟩
  have hd : ((keysDefault snap agg post orderedOn maxMem kwargs).get p).isSome := by
    rw [keysDefault_get]
    simp only [List.mem_cons, List.not_mem_nil, or_false] at hp
    rcases hp with rfl | rfl | rfl | rfl <;> cases kwargs.get _ <;> simp
  have hn : (keysDefault snap agg post orderedOn maxMem kwargs).get p = none := by
    unfold effective at h
    split at h
    · split at h
      · cases h
      · exact (Option.or_eq_none_iff.1 h).2
    · exact (Option.or_eq_none_iff.1 h).2
  rw [hn] at hd
  cases hd

theorem encloseFilters_names {l : List (F × FiltIn C)} {r : List (F × Option (List (List C)))}
    (h : List.Forall₂ (fun x y => y.1 = x.1 ∧ ∃ z, y.2 = some z ∧ encloseFilter x.2 = .ok z) l r) :
    r.map Prod.fst = l.map Prod.fst := by
  induction h with
  | nil => rfl
  | cons hx _ ih => simp [hx.1, ih]

/-- **C58** The exception with which a stream is refused tells why it is. -/
theorem C58_raises {noId : F} {isPair : K → Bool} {a : Args K F C} {e : Err} (h : initStream noId isPair a = .error e) :
    StreamReason noId a e := by
  unfold initStream at h
  split at h
  · rename_i x hx
    cases h
    have hm := List.mem_of_find?_eq_some hx
    have hp := List.find?_some hx
    simp only [Bool.not_eq_true', List.contains_eq_mem, decide_eq_false_iff_not] at hp
    refine ⟨hp, ?_⟩
    rw [Dict.get, Option.isSome_map, List.find?_isSome]
    exact ⟨x, hm, by simp⟩
  · split at h
    · rename_i e' he
      cases h
      unfold encloseAll at he
      split at he
      · cases he
      · rename_i given hg
        split at he <;> cases he
        rename_i he
        rcases encloseFilters_err he with ⟨rfl, f, b⟩ | ⟨rfl, f, b⟩
        · exact ⟨given, f, hg, b⟩
        · exact .inl ⟨rfl, given, f, hg, b⟩
    · rename_i filters hfil
      split at h
      · rename_i e' hp
        cases h
        unfold pairFilters at hp
        split at hp
        · cases hp
        · cases hp
        · rename_i l hk
          have hnames : ∀ fs, filters = some fs → ∃ given, a.filters = some given ∧ fs.map Prod.fst = given.map Prod.fst := by
            rintro fs rfl
            unfold encloseAll at hfil
            split at hfil
            · cases hfil
            · rename_i given hg
              split at hfil
              · cases hfil
              · rename_i r he
                cases hfil
                refine ⟨given, hg, ?_⟩
                exact encloseFilters_names (encloseFilters_ok he)
          split at hp
          · cases hp
            refine ⟨⟨l, hk⟩, ?_⟩
            unfold encloseAll at hfil
            split at hfil
            · assumption
            · split at hfil <;> cases hfil
          · rename_i fs
            obtain ⟨given, hg, hn⟩ := hnames fs rfl
            split at hp
            · rename_i hr
              cases hp
              refine ⟨⟨l, hk⟩, given, hg, ?_⟩
              rw [List.any_eq_true] at hr
              obtain ⟨f, hm, hb⟩ := hr
              simp only [Bool.and_eq_true, decide_eq_true_eq] at hb
              rw [← hn, ← hb.1]
              exact List.mem_map.2 ⟨_, hm, rfl⟩
            · split at hp
              · rename_i hs
                cases hp
                by_contra hno
                have : sameIds noId (fs.map Prod.fst) (l.map Prod.fst) = true := by
                  rw [sameIds_iff]
                  intro f hf
                  by_contra hx
                  exact hno ⟨l, given, f, hk, hg, hf, hn ▸ hx⟩
                rw [this] at hs
                cases hs
              · cases hp
      · rename_i fs ks hp
        obtain ⟨k1, k2⟩ := pairFilters_keys a hp
        rw [k1, k2] at h
        split at h
        · rename_i hd
          cases h
          exact (hasDup_iff _).1 hd
        · split at h
          · rename_i e' hk
            cases h
            obtain ⟨f, k, d, hm, hr⟩ := initKeys_err hk
            cases e <;> first | exact hr.elim | exact (reason_keyError hr).elim | exact .inr ⟨f, k, d, hm, hr⟩
          · cases h

end

/-- Refusals, with their reasons. -/
example : Reason (some 5) (keysDefault .none (.agg [20]) .none 5 140 []) (("max_in_memory_size", .name 1) :: conf1) .typeError :=
  C54_raises (pair := false) rfl

example : StreamReason "_" ({ args with filters := some [("f", .flat [])] } : Args Nat String Nat) .indexError :=
  C58_raises (isPair := fun _ => false) rfl

end Oups.KeysConfig
