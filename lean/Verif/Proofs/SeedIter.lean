import Verif.Spec.SeedIter
import Mathlib.Data.List.Basic
import Mathlib.Tactic.Common
import Mathlib.Order.Lattice
/-! Proofs about `_iter_data`. -/
set_option linter.unusedSimpArgs false
namespace Oups.AggStream
variable {F R P : Type}

theorem isAscending_iff (l : List Int) : isAscending l = true ↔ l.Pairwise (· ≤ ·) := by
  induction l with
  | nil => simp [isAscending]
  | cons a l ih =>
    cases l with
    | nil => simp [isAscending]
    | cons b l =>
      rw [isAscending, Bool.and_eq_true, ih, decide_eq_true_eq, List.pairwise_cons (l := b :: l)]
      constructor
      · rintro ⟨h, hp⟩
        refine ⟨fun c hc => ?_, hp⟩
        rcases List.mem_cons.1 hc with rfl | hc
        · exact h
        · exact le_trans h ((List.pairwise_cons.1 hp).1 c hc)
      · rintro ⟨h, hp⟩
        exact ⟨h b (by simp), hp⟩

theorem isAscending_map (ord : R → Int) (l : List R) : isAscending (l.map ord) = true ↔ Ascending ord l := by
  rw [isAscending_iff, List.pairwise_map]; rfl

theorem maskRows_map (p : R → Bool) (l : List R) : maskRows (l.map p) l = l.filter p := by
  induction l with
  | nil => rfl
  | cons a l ih =>
    simp only [maskRows, List.map_cons, List.zip_cons_cons, List.filter_cons] at *
    cases p a <;> simp [ih]

theorem zipWith_and_map (p q : R → Bool) (l : List R) :
    List.zipWith (· && ·) (l.map p) (l.map q) = l.map fun r => p r && q r := by
  induction l with
  | nil => rfl
  | cons a l ih => simp [ih]

theorem delivered_append [DecidableEq F] (id : F) (a b : List (Yield F R)) :
    delivered id (a ++ b) = delivered id a ++ delivered id b := by
  simp [delivered]

theorem delivered_cons [DecidableEq F] (id : F) (y : Yield F R) (b : List (Yield F R)) :
    delivered id (y :: b) = (if y.filt = id then y.rows else []) ++ delivered id b := by
  simp only [delivered, List.filter_cons]
  split <;> simp_all

theorem filterArray_spec {f : Filt R} {p : R → Bool} (hf : RowFilter f p) {chunk : List R} {q : R → Bool}
    {m : List Bool} (h : filterArray chunk (chunk.map q) f = .ok m) : m = chunk.map fun r => q r && p r := by
  cases f with
  | none =>
    simp only [filterArray, Except.ok.injEq] at h
    simp only [RowFilter] at hf
    rw [← h]
    exact List.map_congr_left fun r _ => by simp [hf r]
  | some g =>
    simp only [filterArray] at h
    cases hg : g chunk with
    | error e => simp [hg] at h
    | ok m' =>
      simp only [hg, Except.ok.injEq] at h
      rw [← h, hf _ _ hg, zipWith_and_map]
      exact List.map_congr_left fun r _ => Bool.and_comm _ _

/-- What the filters deliver from one chunk. -/
theorem filterLoop_spec [DecidableEq F] {last : Int} {chunk : List R} {q : R → Bool} {fs : List (F × Filt R)}
    {ys : List (Yield F R)} (hn : (fs.map Prod.fst).Nodup) (p : F → R → Bool)
    (hf : ∀ f ∈ fs, RowFilter f.2 (p f.1))
    (h : filterLoop last chunk (chunk.map q) fs = (ys, none)) :
    (∀ f ∈ fs, delivered f.1 ys = chunk.filter fun r => q r && p f.1 r) ∧
    (∀ y ∈ ys, y.last = last ∧ y.rows ≠ [] ∧ y.filt ∈ fs.map Prod.fst) := by
  induction fs generalizing ys with
  | nil =>
    simp only [filterLoop, Prod.mk.injEq, and_true] at h
    subst h
    simp
  | cons f fs ih =>
    obtain ⟨id, f⟩ := f
    simp only [List.map_cons, List.nodup_cons] at hn
    simp only [filterLoop] at h
    cases hm : filterArray chunk (chunk.map q) f with
    | error e => simp [hm] at h
    | ok m =>
      rw [hm] at h
      have hm' := filterArray_spec (hf (id, f) (by simp)) hm
      simp only at h
      have key : ∀ zs, filterLoop last chunk (chunk.map q) fs = (zs, none) →
          delivered id zs = [] := by
        intro zs hz
        have := (ih hn.2 (fun f hf' => hf f (by simp [hf'])) hz).2
        simp only [delivered, List.flatMap_eq_nil_iff, List.mem_filter, decide_eq_true_eq]
        rintro y ⟨hy, he⟩
        exact absurd (he ▸ (this y hy).2.2) hn.1
      have heq : maskRows m chunk = chunk.filter fun r => q r && p id r := by rw [hm', maskRows_map]
      split at h
      · rename_i ha
        generalize hz : filterLoop last chunk (chunk.map q) fs = z at h
        obtain ⟨zs, ez⟩ := z
        simp only [Prod.mk.injEq] at h
        obtain ⟨h, rfl⟩ := h
        subst h
        obtain ⟨i1, i2⟩ := ih hn.2 (fun f hf' => hf f (by simp [hf'])) hz
        refine ⟨fun g hg => ?_, fun y hy => ?_⟩
        · rw [delivered_cons]
          rcases List.mem_cons.1 hg with rfl | hg
          · simp only [if_true, heq, key zs hz, List.append_nil]
          · have : id ≠ g.1 := fun e => hn.1 (e ▸ List.mem_map_of_mem hg)
            rw [if_neg this, List.nil_append, i1 g hg]
        · rcases List.mem_cons.1 hy with rfl | hy
          · refine ⟨rfl, ?_, by simp⟩
            simp only [heq, ne_eq, List.filter_eq_nil_iff, not_forall]
            rw [hm'] at ha
            simp only [List.any_map, List.any_eq_true, Function.comp] at ha
            obtain ⟨r, hr, ha⟩ := ha
            exact ⟨r, hr, by simpa using ha⟩
          · obtain ⟨j1, j2, j3⟩ := i2 y hy
            exact ⟨j1, j2, by simp [j3]⟩
      · rename_i ha
        obtain ⟨i1, i2⟩ := ih hn.2 (fun f hf' => hf f (by simp [hf'])) h
        refine ⟨fun g hg => ?_, fun y hy => ?_⟩
        · rcases List.mem_cons.1 hg with rfl | hg
          · simp only [key ys h]
            symm
            rw [List.filter_eq_nil_iff]
            intro r hr hc
            apply ha
            rw [hm']
            simp only [List.any_map, List.any_eq_true, Function.comp]
            exact ⟨r, hr, by simpa using hc⟩
          · exact i1 g hg
        · obtain ⟨j1, j2, j3⟩ := i2 y hy
          exact ⟨j1, j2, by simp [j3]⟩

theorem asc_last {ord : R → Int} {l : List R} {x : R} (h : Ascending ord l) (hx : l.getLast? = some x) :
    ∀ r ∈ l, ord r ≤ ord x := by
  obtain ⟨l', rfl⟩ := List.getLast?_eq_some_iff.1 hx
  intro r hr
  rcases List.mem_append.1 hr with hr | hr
  · exact (List.pairwise_append.1 h).2.2 r hr x (by simp)
  · simp only [List.mem_singleton] at hr; subst hr; exact le_refl _

/-- An ascending list is its rows below a value, then the others. -/
theorem asc_split {ord : R → Int} {l : List R} (v : Int) (h : Ascending ord l) :
    l = l.filter (fun r => decide (ord r < v)) ++ l.filter (fun r => !decide (ord r < v)) := by
  induction l with
  | nil => rfl
  | cons a l ih =>
    have h' := List.pairwise_cons.1 h
    by_cases ha : ord a < v
    · simp only [List.filter_cons, ha, decide_true, if_true, Bool.not_true, List.cons_append]
      exact congrArg (a :: ·) (by simpa using ih h'.2)
    · have e1 : (a :: l).filter (fun r => decide (ord r < v)) = [] := by
        rw [List.filter_eq_nil_iff]
        intro r hr
        rcases List.mem_cons.1 hr with rfl | hr
        · simpa using ha
        · have := h'.1 r hr
          simp only [decide_eq_true_eq]; omega
      have e2 : (a :: l).filter (fun r => !decide (ord r < v)) = a :: l := by
        rw [List.filter_eq_self]
        intro r hr
        rcases List.mem_cons.1 hr with rfl | hr
        · simpa using ha
        · have := h'.1 r hr
          simp only [Bool.not_eq_true', decide_eq_false_iff_not]; omega
      rw [e1, e2]; rfl

theorem restartAfter_nil (r : Option Int) : restartAfter r ([] : List (Yield F R)) = r := rfl

theorem restartAfter_append (r : Option Int) (a b : List (Yield F R)) :
    restartAfter r (a ++ b) = restartAfter (restartAfter r a) b := by
  simp only [restartAfter, List.getLast?_append]
  cases b.getLast? <;> simp

theorem preprocessed_cons (pre : Option (Pre R P)) (pb : P) (c : List R) (cs : List (List R)) :
    preprocessed pre pb (c :: cs) =
      (runPre pre c pb).1 :: preprocessed pre (runPre pre c pb).2.1 cs := by
  cases pre <;> rfl

theorem notBefore_all (ord : R → Int) (trim : Option Int) :
    (fun r => trim.all fun t => decide (t ≤ ord r)) = notBefore ord trim := by
  funext r; cases trim <;> rfl

/-- Rows delivered by the loop, from its state on. -/
theorem iterLoop_spec [DecidableEq F] {ord : R → Int} {pre : Option (Pre R P)} {fs : List (F × Filt R)} {discard : Bool}
    (hn : (fs.map Prod.fst).Nodup) (p : F → R → Bool) (hf : ∀ f ∈ fs, RowFilter f.2 (p f.1))
    {seed : List (List R)} {trim : Option Int} {rem : List R} {pb pb' : P} {ys : List (Yield F R)}
    (hrem : rem ≠ [] → discard = true ∧ trim = none)
    (h : iterLoop ord pre fs discard trim rem pb seed = (ys, pb', none)) {L : List R}
    (hL : L = rem ++ (preprocessed pre pb seed).flatten) (hasc : Ascending ord L) (hsame : ∀ a ∈ rem, ∀ b ∈ rem, ord a = ord b) :
    (∀ f ∈ fs, delivered f.1 ys = L.filter fun r =>
      notBefore ord trim r && (!discard || notLast ord L r) && p f.1 r) ∧
    (∀ y ∈ ys, y.rows ≠ [] ∧ y.filt ∈ fs.map Prod.fst ∧ y.last ∈ L.map ord ∧
      ∀ r ∈ y.rows, ord r ≤ y.last ∧ (discard = true → ord r < y.last)) ∧
    (ys.map Yield.last).Pairwise (· ≤ ·) := by
  induction seed generalizing trim rem pb pb' ys L with
  | nil =>
    simp only [iterLoop, Prod.mk.injEq, and_true] at h
    obtain ⟨rfl, rfl⟩ := h
    simp only [preprocessed, List.flatten_nil, List.append_nil] at hL
    subst hL
    refine ⟨fun f _ => ?_, by simp, by simp⟩
    symm
    rw [show delivered f.1 ([] : List (Yield F R)) = [] from rfl, List.filter_eq_nil_iff]
    intro r hr
    have hd := hrem (List.ne_nil_of_mem hr)
    have : notLast ord L r = false := by
      simp only [notLast, List.any_eq_false, decide_eq_true_eq]
      intro s hs
      rw [hsame r hr s hs]; exact lt_irrefl _
    simp [this, hd.1]
  | cons c cs ih =>
    rw [preprocessed_cons] at hL
    simp only [iterLoop] at h
    split at h
    · simp at h
    · rename_i hcasc
      generalize hr : runPre pre c pb = rp at h hL
      obtain ⟨c', pb1, b⟩ := rp
      cases b with
      | true => simp at h
      | false =>
      simp only at h hL
      rw [List.flatten_cons, ← List.append_assoc] at hL
      generalize hX : rem ++ c' = X at h hL
      cases hx : X.getLast? with
      | none => simp [hx] at h
      | some x =>
      simp only [hx] at h
      have hasc' := hasc
      rw [hL] at hasc'
      obtain ⟨aX, aR, aXR⟩ := List.pairwise_append.1 hasc'
      have hle := asc_last aX hx
      have hxX : x ∈ X := List.mem_of_getLast? hx
      split at h
      · -- skipped chunk
        rename_i hskip
        cases trim with
        | none => simp at hskip
        | some t =>
          simp only [Option.any_some, decide_eq_true_eq] at hskip
          have hrn : rem = [] := by
            by_contra hne
            simpa using (hrem hne).2
          subst hrn
          obtain ⟨i1, i2, i3⟩ := ih (by simp) h rfl (by rw [List.nil_append]; exact aR) (by simp)
          simp only [List.nil_append] at i1 i2 i3
          refine ⟨fun f hf' => ?_, fun y hy => ?_, i3⟩
          · rw [i1 f hf', hL, List.filter_append]
            have : X.filter (fun r => notBefore ord (some t) r && (!discard || notLast ord
                (X ++ (preprocessed pre pb1 cs).flatten) r) && p f.1 r) = [] := by
              rw [List.filter_eq_nil_iff]
              intro r hr
              have := hle r hr
              have : notBefore ord (some t) r = false := by
                simp only [notBefore, decide_eq_false_iff_not]; omega
              simp [this]
            rw [this, List.nil_append]
            apply List.filter_congr
            intro r hr
            have : notLast ord (X ++ (preprocessed pre pb1 cs).flatten) r =
                notLast ord (preprocessed pre pb1 cs).flatten r := by
              simp only [notLast, List.any_append, Bool.or_eq_right_iff_imp]
              intro hany
              exfalso
              obtain ⟨s, hs, hlt⟩ := List.any_eq_true.1 hany
              have := aXR s hs r hr
              simp only [decide_eq_true_eq] at hlt
              omega
            rw [this]
          · obtain ⟨j1, j2, j3, j4⟩ := i2 y hy
            refine ⟨j1, j2, ?_, j4⟩
            rw [hL, List.map_append]
            exact List.mem_append_right _ j3
      · rename_i hskip
        have htrim : ∀ r ∈ L, ord x ≤ ord r → notBefore ord trim r = true := by
          intro r _ hr
          cases trim with
          | none => rfl
          | some t =>
            simp only [Option.any_some, decide_eq_true_eq] at hskip
            simp only [notBefore, decide_eq_true_eq]; omega
        rw [notBefore_all] at h
        generalize hy1 : filterLoop (ord x) X _ fs = fl at h
        obtain ⟨ys1, e1⟩ := fl
        cases e1 with
        | some e => simp at h
        | none =>
        simp only at h
        generalize hz : iterLoop ord pre fs discard none _ pb1 cs = it at h
        obtain ⟨zs, pb2, e2⟩ := it
        simp only [Prod.mk.injEq] at h
        obtain ⟨rfl, rfl, rfl⟩ := h
        cases discard with
        | false =>
          have hrn : rem = [] := by
            by_contra hne
            simpa using (hrem hne).1
          subst hrn
          simp only [Bool.false_eq_true, if_false] at hy1 hz
          obtain ⟨f1, f2⟩ := filterLoop_spec hn p hf hy1
          obtain ⟨i1, i2, i3⟩ := ih (by simp) hz rfl (by rw [List.nil_append]; exact aR) (by simp)
          simp only [List.nil_append] at i1 i2 i3
          refine ⟨fun f hf' => ?_, fun y hy => ?_, ?_⟩
          · rw [delivered_append, f1 f hf', i1 f hf', hL, List.filter_append]
            congr 1
            · apply List.filter_congr
              intro r _
              simp
            · apply List.filter_congr
              intro r hr
              rw [htrim r (by rw [hL]; simp [hr]) (aXR x hxX r hr)]
              simp [notBefore]
          · rcases List.mem_append.1 hy with hy | hy
            · obtain ⟨j1, j2, j3⟩ := f2 y hy
              refine ⟨j2, j3, ?_, fun r hr => ⟨?_, by simp⟩⟩
              · rw [j1, hL]; exact List.mem_map_of_mem (by simp [hxX])
              · rw [j1]
                obtain ⟨g, hg, hge⟩ := List.mem_map.1 j3
                have : r ∈ delivered g.1 ys1 := by
                  simp only [delivered, List.mem_flatMap, List.mem_filter, decide_eq_true_eq]
                  exact ⟨y, ⟨hy, hge.symm⟩, hr⟩
                rw [f1 g hg] at this
                exact hle r (List.mem_filter.1 this).1
            · obtain ⟨j1, j2, j3, j4⟩ := i2 y hy
              refine ⟨j1, j2, ?_, j4⟩
              rw [hL, List.map_append]
              exact List.mem_append_right _ j3
          · rw [List.map_append, List.pairwise_append]
            refine ⟨?_, i3, ?_⟩
            · rw [List.pairwise_map]
              refine List.Pairwise.imp_of_mem ?_ (List.pairwise_of_forall (R := fun _ _ => True) (fun _ _ => trivial))
              intro a b ha hb _
              rw [(f2 a ha).1, (f2 b hb).1]
            · intro a ha b hb
              obtain ⟨y, hy, rfl⟩ := List.mem_map.1 ha
              obtain ⟨z, hz', rfl⟩ := List.mem_map.1 hb
              rw [(f2 y hy).1]
              obtain ⟨r, hr, hre⟩ := List.mem_map.1 (i2 z hz').2.2.1
              rw [← hre]
              exact aXR x hxX r hr
        | true =>
          simp only [if_true] at hy1 hz
          rw [zipWith_and_map] at hy1
          rw [List.map_map, show ((fun b => !b) ∘ fun r => decide (ord r < ord x)) = fun r => !decide (ord r < ord x) from rfl,
            maskRows_map] at hz
          obtain ⟨f1, f2⟩ := filterLoop_spec hn p hf hy1
          have hsp := asc_split (ord x) aX
          generalize hlo : X.filter (fun r => decide (ord r < ord x)) = lo at hsp
          generalize hhi : X.filter (fun r => !decide (ord r < ord x)) = hi at hsp hz
          have mlo : ∀ r ∈ lo, ord r < ord x := by
            intro r hr
            rw [← hlo] at hr
            simpa using (List.mem_filter.1 hr).2
          have mhi : ∀ r ∈ hi, ord r = ord x := by
            intro r hr
            rw [← hhi] at hr
            have h1 := (List.mem_filter.1 hr)
            have h2 := hle r h1.1
            have h3 := h1.2
            simp only [Bool.not_eq_true', decide_eq_false_iff_not] at h3
            omega
          have hL' : L = lo ++ (hi ++ (preprocessed pre pb1 cs).flatten) := by
            rw [hL, ← List.append_assoc, ← hsp]
          have aHi : Ascending ord (hi ++ (preprocessed pre pb1 cs).flatten) := by
            rw [hL'] at hasc
            exact (List.pairwise_append.1 hasc).2.1
          obtain ⟨i1, i2, i3⟩ := ih (by simp) hz rfl aHi
            (fun a ha b hb => by rw [mhi a ha, mhi b hb])
          have mge : ∀ r ∈ hi ++ (preprocessed pre pb1 cs).flatten, ord x ≤ ord r := by
            intro r hr
            rcases List.mem_append.1 hr with hr | hr
            · rw [mhi r hr]
            · exact aXR x hxX r hr
          refine ⟨fun f hf' => ?_, fun y hy => ?_, ?_⟩
          · rw [delivered_append, f1 f hf', i1 f hf']
            have e1 : X.filter (fun r => (notBefore ord trim r && decide (ord r < ord x)) && p f.1 r) =
                lo.filter (fun r => notBefore ord trim r && (!true || notLast ord L r) && p f.1 r) := by
              rw [← hlo, List.filter_filter]
              apply List.filter_congr
              intro r hr
              by_cases hlt : ord r < ord x
              · have : notLast ord L r = true := by
                  simp only [notLast, List.any_eq_true, decide_eq_true_eq]
                  exact ⟨x, by rw [hL]; simp [hxX], hlt⟩
                simp [this, hlt]
              · simp [hlt]
            rw [e1]
            conv_rhs => rw [hL', List.filter_append, ← hL']
            congr 1
            apply List.filter_congr
            intro r hr
            rw [htrim r (by rw [hL']; exact List.mem_append_right _ hr) (mge r hr)]
            have : notLast ord L r = notLast ord (hi ++ (preprocessed pre pb1 cs).flatten) r := by
              rw [hL']
              simp only [notLast]
              rw [List.any_append, Bool.or_eq_right_iff_imp]
              intro hany
              exfalso
              obtain ⟨s, hs, hlt⟩ := List.any_eq_true.1 hany
              have h1 := mlo s hs
              have h2 := mge r hr
              simp only [decide_eq_true_eq] at hlt
              omega
            rw [this]
            simp [notBefore]
          · rcases List.mem_append.1 hy with hy | hy
            · obtain ⟨j1, j2, j3⟩ := f2 y hy
              refine ⟨j2, j3, ?_, fun r hr => ?_⟩
              · rw [j1, hL]; exact List.mem_map_of_mem (by simp [hxX])
              · rw [j1]
                obtain ⟨g, hg, hge⟩ := List.mem_map.1 j3
                have : r ∈ delivered g.1 ys1 := by
                  simp only [delivered, List.mem_flatMap, List.mem_filter, decide_eq_true_eq]
                  exact ⟨y, ⟨hy, hge.symm⟩, hr⟩
                rw [f1 g hg] at this
                have := (List.mem_filter.1 this).2
                simp only [Bool.and_eq_true, decide_eq_true_eq] at this
                exact ⟨le_of_lt this.1.2, fun _ => this.1.2⟩
            · obtain ⟨j1, j2, j3, j4⟩ := i2 y hy
              refine ⟨j1, j2, ?_, j4⟩
              rw [hL', List.map_append]
              exact List.mem_append_right _ j3
          · rw [List.map_append, List.pairwise_append]
            refine ⟨?_, i3, ?_⟩
            · rw [List.pairwise_map]
              refine List.Pairwise.imp_of_mem ?_ (List.pairwise_of_forall (R := fun _ _ => True) (fun _ _ => trivial))
              intro a b ha hb _
              rw [(f2 a ha).1, (f2 b hb).1]
            · intro a ha b hb
              obtain ⟨y, hy, rfl⟩ := List.mem_map.1 ha
              obtain ⟨z, hz', rfl⟩ := List.mem_map.1 hb
              rw [(f2 y hy).1]
              obtain ⟨r, hr, hre⟩ := List.mem_map.1 (i2 z hz').2.2.1
              rw [← hre]
              exact mge r hr

/-- A failing chunk ends the iteration; what precedes is as if the seed had ended before it. -/
theorem iterLoop_fail {ord : R → Int} {pre : Option (Pre R P)} {fs : List (F × Filt R)} {discard : Bool}
    {a b : List (List R)} {c : List R} {trim : Option Int} {rem : List R} {pb pb' : P} {ys : List (Yield F R)}
    (h : iterLoop ord pre fs discard trim rem pb a = (ys, pb', none)) (hc : fails ord pre pb' c = true) :
    iterLoop ord pre fs discard trim rem pb (a ++ c :: b) = (ys, failBuffer ord pre pb' c, some .seedPre) := by
  induction a generalizing trim rem pb ys with
  | nil =>
    simp only [iterLoop, Prod.mk.injEq, and_true] at h
    obtain ⟨rfl, rfl⟩ := h
    simp only [List.nil_append, iterLoop]
    simp only [fails, failBuffer] at *
    cases ha : isAscending (c.map ord) with
    | false => simp
    | true =>
      generalize hr : runPre pre c pb = r at hc
      obtain ⟨r1, r2, r3⟩ := r
      simp only [ha, Bool.not_true, Bool.false_or] at hc
      subst hc
      simp [hr]
  | cons d a ih =>
    simp only [iterLoop] at h
    simp only [List.cons_append]
    rw [iterLoop]
    split at h
    · simp at h
    · rename_i hasc
      rw [if_neg hasc]
      generalize hr : runPre pre d pb = r at h
      obtain ⟨r1, r2, r3⟩ := r
      cases r3 with
      | true => simp at h
      | false =>
        simp only at h ⊢
        cases hx : (rem ++ r1).getLast? with
        | none => simp [hx] at h
        | some x =>
          simp only [hx] at h ⊢
          split at h
          · rename_i hs
            rw [if_pos hs]
            exact ih h
          · rename_i hs
            rw [if_neg hs]
            generalize hy1 : filterLoop (ord x) (rem ++ r1) _ fs = fl at h
            obtain ⟨ys1, e1⟩ := fl
            cases e1 with
            | some e => simp at h
            | none =>
              simp only at h
              generalize hz : iterLoop ord pre fs discard none _ r2 a = it at h
              obtain ⟨zs, pb2, e2⟩ := it
              simp only [Prod.mk.injEq] at h
              obtain ⟨rfl, rfl, rfl⟩ := h
              simp only [hy1]
              rw [ih hz]

/-- `SeedPreException` comes from a failing chunk only. -/
theorem iterLoop_seedPre {ord : R → Int} {pre : Option (Pre R P)} {fs : List (F × Filt R)} {discard : Bool}
    {seed : List (List R)} {trim : Option Int} {rem : List R} {pb pb' : P} {ys : List (Yield F R)}
    (h : iterLoop ord pre fs discard trim rem pb seed = (ys, pb', some .seedPre)) :
    ∃ a c b pb1, seed = a ++ c :: b ∧ iterLoop ord pre fs discard trim rem pb a = (ys, pb1, none) ∧
      fails ord pre pb1 c = true ∧ pb' = failBuffer ord pre pb1 c := by
  induction seed generalizing trim rem pb ys with
  | nil => simp [iterLoop] at h
  | cons d a ih =>
    simp only [iterLoop] at h
    split at h
    · rename_i hasc
      simp only [Prod.mk.injEq, and_true] at h
      obtain ⟨rfl, rfl⟩ := h
      refine ⟨[], d, a, pb, rfl, rfl, by simp [fails, hasc], by simp [failBuffer, hasc]⟩
    · rename_i hasc
      generalize hr : runPre pre d pb = r at h
      obtain ⟨r1, r2, r3⟩ := r
      cases r3 with
      | true =>
        simp only [Prod.mk.injEq, and_true] at h
        obtain ⟨rfl, rfl⟩ := h
        refine ⟨[], d, a, pb, rfl, rfl, by simp [fails, hr], ?_⟩
        simp only [Bool.not_eq_false] at hasc
        simp [failBuffer, hasc, hr]
      | false =>
        simp only at h
        cases hx : (rem ++ r1).getLast? with
        | none => simp [hx] at h
        | some x =>
          simp only [hx] at h
          split at h
          · rename_i hs
            obtain ⟨a', c, b, pb1, rfl, h1, h2, h3⟩ := ih h
            refine ⟨d :: a', c, b, pb1, rfl, ?_, h2, h3⟩
            rw [iterLoop, if_neg hasc]
            simp only [hr, hx]
            rw [if_pos hs]
            exact h1
          · rename_i hs
            generalize hy1 : filterLoop (ord x) (rem ++ r1) _ fs = fl at h
            obtain ⟨ys1, e1⟩ := fl
            cases e1 with
            | some e =>
              exfalso
              simp only [Prod.mk.injEq, Option.some.injEq] at h
              have : ∀ (gs : List (F × Filt R)) (q : List Bool) ys, filterLoop (ord x) (rem ++ r1) q gs ≠ (ys, some .seedPre) := by
                intro gs q
                induction gs with
                | nil => simp [filterLoop]
                | cons g gs ihg =>
                  obtain ⟨id, g⟩ := g
                  intro ys
                  simp only [filterLoop]
                  split
                  · simp
                  · split
                    · intro hc
                      simp only [Prod.mk.injEq] at hc
                      exact ihg (filterLoop (ord x) (rem ++ r1) q gs).1 (Prod.ext rfl hc.2)
                    · exact ihg ys
              rw [h.2.2] at hy1
              exact this fs _ ys1 hy1
            | none =>
              simp only at h
              generalize hz : iterLoop ord pre fs discard none _ r2 a = it at h
              obtain ⟨zs, pb2, e2⟩ := it
              simp only [Prod.mk.injEq] at h
              obtain ⟨rfl, rfl, rfl⟩ := h
              obtain ⟨a', c, b, pb1, rfl, h1, h2, h3⟩ := ih hz
              refine ⟨d :: a', c, b, pb1, rfl, ?_, h2, h3⟩
              rw [iterLoop, if_neg hasc]
              simp only [hr, hx]
              rw [if_neg hs]
              simp only [hy1, h1]

/-- `pre` raises on none of the chunks. -/
def PreOk (pre : Option (Pre R P)) : P → List (List R) → Prop
  | _, [] => True
  | pb, c :: cs => (runPre pre c pb).2.2 = false ∧ PreOk pre (runPre pre c pb).2.1 cs

/-- Conditions for the iteration to end without exception. -/
theorem iterLoop_total {ord : R → Int} {pre : Option (Pre R P)} {fs : List (F × Filt R)} {discard : Bool}
    {seed : List (List R)} {trim : Option Int} {rem : List R} {pb : P}
    (ha : ∀ c ∈ seed, Ascending ord c) (hp : PreOk pre pb seed) (hne : ∀ c ∈ preprocessed pre pb seed, c ≠ [])
    (hf : ∀ f ∈ fs, ∀ g, f.2 = some g → ∀ l, ∃ m, g l = .ok m) :
    ∃ ys pb', iterLoop ord pre fs discard trim rem pb seed = (ys, pb', none) := by
  induction seed generalizing trim rem pb with
  | nil => exact ⟨_, _, rfl⟩
  | cons d a ih =>
    rw [preprocessed_cons] at hne
    obtain ⟨hp1, hp2⟩ := hp
    rw [iterLoop]
    have : isAscending (d.map ord) = true := (isAscending_map ord d).2 (ha d (by simp))
    rw [if_neg (by simp [this])]
    generalize hr : runPre pre d pb = r at hne hp1 hp2
    obtain ⟨r1, r2, r3⟩ := r
    simp only at hp1 hp2 hne
    subst hp1
    simp only
    have hr1 : r1 ≠ [] := hne r1 (by simp)
    cases hx : (rem ++ r1).getLast? with
    | none => simp [hr1] at hx
    | some x =>
      simp only
      have ih' := fun t r => ih (trim := t) (rem := r) (fun c hc => ha c (by simp [hc])) hp2 (fun c hc => hne c (by simp [hc]))
      split
      · exact ih' _ _
      · have : ∀ (gs : List (F × Filt R)) (q : List Bool), (∀ f ∈ gs, ∀ g, f.2 = some g → ∀ l, ∃ m, g l = .ok m) →
            ∃ ys, filterLoop (ord x) (rem ++ r1) q gs = (ys, none) := by
          intro gs q hgs
          induction gs with
          | nil => exact ⟨_, rfl⟩
          | cons g gs ihg =>
            obtain ⟨id, g⟩ := g
            obtain ⟨ys, hys⟩ := ihg (fun f hf => hgs f (by simp [hf]))
            have : ∃ m, filterArray (rem ++ r1) q g = .ok m := by
              cases g with
              | none => exact ⟨_, rfl⟩
              | some g =>
                obtain ⟨m, hm⟩ := hgs (id, some g) (by simp) g rfl (rem ++ r1)
                exact ⟨List.zipWith (· && ·) m q, by simp only [filterArray, hm]⟩
            obtain ⟨m, hm⟩ := this
            simp only [filterLoop, hm, hys]
            split <;> exact ⟨_, rfl⟩
        generalize hq : filterLoop (ord x) (rem ++ r1) _ fs = fl
        obtain ⟨ys, hys⟩ := this fs _ hf
        rw [hys] at hq
        subst hq
        simp only
        generalize hz : iterLoop ord pre fs discard none _ r2 a = it
        obtain ⟨zs, pb', hz'⟩ := ih' none _
        rw [hz'] at hz
        subst hz
        exact ⟨_, _, rfl⟩

end Oups.AggStream
