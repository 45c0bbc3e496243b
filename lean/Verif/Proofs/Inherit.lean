import Verif.Spec.Inherit
import Mathlib.Data.List.Nodup
import Mathlib.Data.List.Induction
/-
Fields and attributes of chains of classes.
-/
namespace Oups.Inherit
open Oups.Indexer (Str AErr)

variable {A V : Type}

theorem find_name {l : List (AField A V)} (hn : (l.map (·.name)).Nodup) {g : AField A V} (hg : g ∈ l) :
    l.find? (fun f => decide (f.name = g.name)) = some g := by
  induction l with
  | nil => cases hg
  | cons a l ih =>
    rw [List.map_cons, List.nodup_cons] at hn
    rcases List.mem_cons.1 hg with rfl | h
    · simp
    · have : a.name ≠ g.name := fun he => hn.1 (he ▸ List.mem_map.2 ⟨g, h, rfl⟩)
      rw [List.find?_cons_of_neg (by simpa using this)]
      exact ih hn.2 h

theorem find_none {l : List (AField A V)} {n : String} (h : n ∉ l.map (·.name)) :
    l.find? (fun f => decide (f.name = n)) = none := by
  rw [List.find?_eq_none]
  intro f hf he
  exact h (List.mem_map.2 ⟨f, hf, by simpa using he⟩)

/-! ### `merge` -/

theorem merge_nil (b : List (AField A V)) : merge b [] = b := by simp [merge]

theorem dictSet_names (b : List (AField A V)) (f : AField A V) :
    (dictSet b f).map (·.name) = if f.name ∈ b.map (·.name) then b.map (·.name) else b.map (·.name) ++ [f.name] := by
  unfold dictSet
  by_cases h : f.name ∈ b.map (·.name)
  · have h' : (b.any fun g => g.name == f.name) = true := by
      obtain ⟨g, hg, he⟩ := List.mem_map.1 h
      exact List.any_eq_true.2 ⟨g, hg, by simpa using he⟩
    rw [if_pos h', if_pos h, List.map_map]
    refine List.map_congr_left fun g _ => ?_
    by_cases hg : g.name = f.name <;> simp [hg]
  · have h' : (b.any fun g => g.name == f.name) = false := by
      rw [Bool.eq_false_iff]
      intro ht
      obtain ⟨g, hg, he⟩ := List.any_eq_true.1 ht
      exact h (List.mem_map.2 ⟨g, hg, by simpa using he⟩)
    rw [h', if_neg (by simp), if_neg h]
    simp

theorem dictSet_merge (b : List (AField A V)) (f : AField A V) : dictSet b f = merge b [f] := by
  unfold dictSet merge
  by_cases h : f.name ∈ b.map (·.name)
  · have h' : (b.any fun g => g.name == f.name) = true := by
      obtain ⟨g, hg, he⟩ := List.mem_map.1 h
      exact List.any_eq_true.2 ⟨g, hg, by simpa using he⟩
    rw [if_pos h']
    have : [f].filter (fun g => decide (g.name ∉ b.map (·.name))) = [] := by simpa using h
    rw [this, List.append_nil]
    refine List.map_congr_left fun g _ => ?_
    by_cases hg : g.name = f.name
    · simp [hg]
    · have : f.name ≠ g.name := fun he => hg he.symm
      simp [hg, this]
  · have h' : (b.any fun g => g.name == f.name) = false := by
      rw [Bool.eq_false_iff]
      intro ht
      obtain ⟨g, hg, he⟩ := List.any_eq_true.1 ht
      exact h (List.mem_map.2 ⟨g, hg, by simpa using he⟩)
    rw [h', if_neg (by simp)]
    have h2 : [f].filter (fun g => decide (g.name ∉ b.map (·.name))) = [f] := by simpa using h
    rw [h2]
    congr 1
    refine ((List.map_congr_left (g := id) fun g hg => ?_).trans (List.map_id _)).symm
    have : f.name ≠ g.name := fun he => h (he ▸ List.mem_map.2 ⟨g, hg, rfl⟩)
    simp [this]

/-- Fields set one after the other in a dict. -/
theorem foldl_dictSet (own : List (AField A V)) : ∀ b : List (AField A V), (own.map (·.name)).Nodup →
    own.foldl dictSet b = merge b own := by
  induction own with
  | nil => exact fun b _ => (merge_nil b).symm
  | cons f own ih =>
    intro b hn
    rw [List.map_cons, List.nodup_cons] at hn
    rw [List.foldl_cons, ih _ hn.2]
    have hnone : own.find? (fun g => decide (g.name = f.name)) = none := find_none hn.1
    by_cases h : f.name ∈ b.map (·.name)
    · have h1 : dictSet b f = b.map (fun g => if g.name = f.name then f else g) := by
        rw [dictSet_merge]
        unfold merge
        have : [f].filter (fun g => decide (g.name ∉ b.map (·.name))) = [] := by simpa using h
        rw [this, List.append_nil]
        refine List.map_congr_left fun g _ => ?_
        by_cases hg : g.name = f.name
        · simp [hg]
        · have : f.name ≠ g.name := fun he => hg he.symm
          simp [hg, this]
      have h2 : (dictSet b f).map (·.name) = b.map (·.name) := by rw [dictSet_names, if_pos h]
      unfold merge
      rw [h2, h1, List.map_map]
      congr 1
      · refine List.map_congr_left fun g _ => ?_
        by_cases hg : g.name = f.name
        · simp [hg, hnone]
        · have : f.name ≠ g.name := fun he => hg he.symm
          simp [hg, this]
      · rw [List.filter_cons_of_neg (by simpa using h)]
    · have h1 : dictSet b f = b ++ [f] := by
        rw [dictSet_merge]
        unfold merge
        have h2 : [f].filter (fun g => decide (g.name ∉ b.map (·.name))) = [f] := by simpa using h
        rw [h2]
        congr 1
        refine (List.map_congr_left (g := id) fun g hg => ?_).trans (List.map_id _)
        have : f.name ≠ g.name := fun he => h (he ▸ List.mem_map.2 ⟨g, hg, rfl⟩)
        simp [this]
      rw [h1]
      unfold merge
      rw [List.map_append, List.map_cons, List.map_nil, hnone, List.append_assoc]
      congr 1
      · refine List.map_congr_left fun g hg => ?_
        have : f.name ≠ g.name := fun he => h (he ▸ List.mem_map.2 ⟨g, hg, rfl⟩)
        simp [this]
      · rw [List.filter_cons_of_pos (by simpa using h)]
        simp only [Option.getD_none, List.singleton_append, List.cons.injEq, true_and]
        refine List.filter_congr fun g hg => ?_
        have : g.name ≠ f.name := fun he => hn.1 (he ▸ List.mem_map.2 ⟨g, hg, rfl⟩)
        simp [this]

theorem merge_names (b own : List (AField A V)) :
    (merge b own).map (·.name) = b.map (·.name) ++ (own.map (·.name)).filter (fun n => decide (n ∉ b.map (·.name))) := by
  unfold merge
  rw [List.map_append, List.map_map]
  congr 1
  · refine List.map_congr_left fun f _ => ?_
    show ((own.find? _).getD f).name = f.name
    cases h : own.find? (fun g => decide (g.name = f.name)) with
    | none => rfl
    | some g => simpa using List.find?_some h
  · rw [List.filter_map]
    rfl

theorem merge_nodup {b own : List (AField A V)} (hb : (b.map (·.name)).Nodup) (ho : (own.map (·.name)).Nodup) :
    ((merge b own).map (·.name)).Nodup := by
  rw [merge_names]
  refine List.Nodup.append hb (ho.filter _) ?_
  intro n hn hm
  have := (List.mem_filter.1 hm).2
  simp only [decide_eq_true_eq] at this
  exact this hn

theorem merge_same {F G N : List (AField A V)} (hm : F.map (·.name) = G.map (·.name))
    (hn : ((G ++ N).map (·.name)).Nodup) : merge F (G ++ N) = G ++ N := by
  unfold merge
  congr 1
  · have key : ∀ (F G : List (AField A V)) (L : List (AField A V)), F.map (·.name) = G.map (·.name) →
        (∀ g ∈ G, L.find? (fun f => decide (f.name = g.name)) = some g) →
        F.map (fun f => (L.find? fun g => decide (g.name = f.name)).getD f) = G := by
      intro F
      induction F with
      | nil => intro G L h _; cases G with
        | nil => rfl
        | cons _ _ => simp at h
      | cons f F ih =>
        intro G L h hL
        cases G with
        | nil => simp at h
        | cons g G =>
          simp only [List.map_cons, List.cons.injEq] at h
          rw [List.map_cons, ih G L h.2 fun x hx => hL x (List.mem_cons_of_mem _ hx), h.1,
            hL g List.mem_cons_self]
          rfl
    exact key F G _ hm fun g hg => find_name hn (List.mem_append_left _ hg)
  · rw [List.filter_append, hm]
    rw [List.map_append] at hn
    have h1 : G.filter (fun g => decide (g.name ∉ G.map (·.name))) = [] := by
      rw [List.filter_eq_nil_iff]
      intro g hg
      simp only [decide_eq_true_eq, not_not]
      exact List.mem_map.2 ⟨g, hg, rfl⟩
    have h2 : N.filter (fun g => decide (g.name ∉ G.map (·.name))) = N := by
      rw [List.filter_eq_self]
      intro g hg
      simp only [decide_eq_true_eq]
      intro hG
      exact (List.nodup_append.1 hn).2.2 _ hG _ (List.mem_map.2 ⟨g, hg, rfl⟩) rfl
    rw [h1, h2, List.nil_append]

theorem merge_merge {F own : List (AField A V)} (hF : (F.map (·.name)).Nodup) (ho : (own.map (·.name)).Nodup) :
    merge F (merge F own) = merge F own := by
  have h := merge_nodup hF ho
  show merge F (_ ++ _) = _ ++ _
  refine merge_same ?_ h
  rw [List.map_map]
  refine List.map_congr_left fun f _ => ?_
  show f.name = ((own.find? _).getD f).name
  cases h : own.find? (fun g => decide (g.name = f.name)) with
  | none => rfl
  | some g =>
    have := List.find?_some h
    simp only [decide_eq_true_eq] at this
    simp [this]

theorem merge_self {F : List (AField A V)} (hF : (F.map (·.name)).Nodup) : merge F F = F := by
  have := merge_same (F := F) (G := F) (N := []) rfl (by simpa using hF)
  simpa using this

/-! ### Attributes -/

theorem lookup_attrs (c : Stmt A V) (n : String) : c.attrs.lookup n = c.written n := by
  unfold Stmt.attrs Stmt.written
  induction c.own with
  | nil => rfl
  | cons f l ih =>
    cases hd : f.dflt with
    | none =>
      rw [List.filterMap_cons_none (by simp [hd]), ih, List.find?_cons_of_neg (by simp [hd])]
    | some v =>
      rw [List.filterMap_cons_some (b := (f.name, v)) (by simp [hd])]
      by_cases hn : f.name = n
      · subst hn
        rw [List.lookup_cons_self, List.find?_cons_of_pos (by simp [hd])]
        simp [hd]
      · rw [List.lookup_cons, List.find?_cons_of_neg (by simp [hn]), ← ih]
        have : (n == f.name) = false := by simpa using fun he : n = f.name => hn he.symm
        rw [this]

theorem lookup_append {l m : List (String × V)} {n : String} : (l ++ m).lookup n = (l.lookup n).or (m.lookup n) :=
  List.lookup_append ..

theorem lastWritten_snoc (cs : List (Stmt A V)) (c : Stmt A V) (n : String) :
    lastWritten (cs ++ [c]) n = (c.written n).or (lastWritten cs n) := by
  unfold lastWritten
  rw [List.reverse_append, List.reverse_cons, List.reverse_nil, List.nil_append, List.singleton_append]
  cases h : c.written n with
  | none => rw [List.filterMap_cons_none (f := fun c : Stmt A V => c.written n) h]; rfl
  | some v => rw [List.filterMap_cons_some (f := fun c : Stmt A V => c.written n) h]; rfl

theorem misordered_eq (fs : List (AField A V)) : misordered fs = false ↔ Ordered fs := by
  unfold Ordered
  induction fs with
  | nil => simp [misordered]
  | cons f fs ih =>
    rw [misordered, Bool.or_eq_false_iff, ih, List.pairwise_cons]
    refine and_congr_left fun _ => ?_
    rw [Bool.and_eq_false_iff]
    constructor
    · rintro (h | h) g hg hs
      · rw [h] at hs; cases hs
      · rw [Bool.eq_false_iff] at h
        cases hd : g.dflt with
        | some _ => rfl
        | none => exact absurd (List.any_eq_true.2 ⟨g, hg, by simp [hd]⟩) h
    · intro h
      cases hd : f.dflt with
      | none => exact .inl rfl
      | some v =>
        refine .inr ?_
        rw [Bool.eq_false_iff]
        intro ha
        obtain ⟨g, hg, hx⟩ := List.any_eq_true.1 ha
        have := h g hg (by simp [hd])
        cases hg2 : g.dflt <;> simp [hg2] at hx this

theorem own_names (c : Stmt A V) (d : String → Option V) :
    ((c.own.map fun f => ({ f with dflt := d f.name } : AField A V)).map (·.name)) = c.own.map (·.name) := by
  rw [List.map_map]; rfl

theorem fieldsOf_snoc (cs : List (Stmt A V)) (c : Stmt A V) :
    fieldsOf (cs ++ [c]) = if c.isData then
      merge (fieldsOf cs) (c.own.map fun f => { f with dflt := lastWritten (cs ++ [c]) f.name }) else fieldsOf cs := by
  unfold fieldsOf
  rw [List.reverse_append, List.reverse_cons, List.reverse_nil, List.nil_append, List.singleton_append, fieldsRev]
  rw [List.reverse_cons, List.reverse_reverse]

theorem fieldsOf_nodup (cs : List (Stmt A V)) (h : ∀ c ∈ cs, c.WF) : ((fieldsOf cs).map (·.name)).Nodup := by
  induction cs using List.reverseRecOn with
  | nil => exact List.nodup_nil
  | append_singleton cs c ih =>
    rw [fieldsOf_snoc]
    have ih := ih fun x hx => h x (List.mem_append_left _ hx)
    split
    · exact merge_nodup ih (by rw [own_names c]; exact h c (List.mem_append_right _ (List.mem_singleton.2 rfl)))
    · exact ih

theorem sepOf_snoc (cs : List (Stmt A V)) (c : Stmt A V) :
    sepOf (cs ++ [c]) = match c.deco with
      | .toplevel s => some s
      | _ => sepOf cs := by
  unfold sepOf
  rw [List.reverse_append, List.reverse_cons, List.reverse_nil, List.nil_append, List.singleton_append]
  cases h : c.deco with
  | toplevel s => rw [List.filterMap_cons_some (b := s) (by rw [h])]; rfl
  | _ => rw [List.filterMap_cons_none (by rw [h])]

/-! ### Chains -/

/-- What is known of the classes of a chain. -/
structure Inv (cs : List (Stmt A V)) (ms : List (Made A V)) : Prop where
  fields : baseFields ms = fieldsOf cs
  last : ((ms.getLast?.getD {}).fields).getD [] = fieldsOf cs
  some : (ms.getLast?.getD {}).fields.isSome = true ↔ ∃ c ∈ cs, c.isData
  attrs : ∀ n, (ms.getLast?.getD {}).attrs.lookup n = lastWritten cs n
  sep : (ms.getLast?.getD {}).sep = sepOf cs
  frozen : ∀ b ∈ ms, b.fields.isSome = true → (b.frozen = true ↔ ∀ c ∈ cs, c.deco ≠ .dataclass)
  exists_ : (∃ c ∈ cs, c.isData) → ∃ b ∈ ms, b.fields.isSome = true
  base : ∀ b ∈ ms, b.fields.isSome = true → ∃ c ∈ cs, c.isData
  kinds : (∀ c ∈ cs, c.deco ≠ .dataclass) ∨ ∀ c ∈ cs, c.isData → c.deco = .dataclass

theorem inv_nil : Inv ([] : List (Stmt A V)) [] where
  fields := rfl
  last := rfl
  some := by simp
  attrs _ := rfl
  sep := rfl
  frozen := by simp
  exists_ := by simp
  base := by simp
  kinds := by simp

theorem baseFields_snoc (ms : List (Made A V)) (m : Made A V) :
    baseFields (ms ++ [m]) = (m.fields.getD []).foldl dictSet (baseFields ms) := by
  unfold baseFields
  rw [List.foldl_append]; rfl

/-- Is the class decorated by `toplevel` or `sublevel`? -/
def Deco.frozen : Deco → Bool
  | .dataclass => false
  | _ => true

theorem any_frozen {cs : List (Stmt A V)} {ms : List (Made A V)} (h : Inv cs ms) (fr : Bool) :
    ms.any (fun b => b.fields.isSome && b.frozen != fr) = false ↔
      ∀ c ∈ cs, c.isData → (fr = false ↔ c.deco = .dataclass) := by
  constructor
  · intro ha c hc hd
    obtain ⟨b, hb, hs⟩ := h.exists_ ⟨c, hc, hd⟩
    have hf : b.frozen = fr := by
      by_contra hne
      rw [Bool.eq_false_iff] at ha
      exact ha (List.any_eq_true.2 ⟨b, hb, by simp [hs, hne]⟩)
    have hfr := h.frozen b hb hs
    rw [hf] at hfr
    rcases h.kinds with hk | hk
    · have h1 := hfr.2 hk
      rw [h1]
      exact ⟨fun h => absurd h (by simp), fun h => absurd h (hk c hc)⟩
    · have h1 := hk c hc hd
      have h2 : fr ≠ true := fun hf => hfr.1 hf c hc h1
      exact ⟨fun _ => h1, fun _ => by
        cases fr with
        | false => rfl
        | true => exact absurd rfl h2⟩
  · intro hc
    rw [Bool.eq_false_iff]
    intro ha
    obtain ⟨b, hb, hx⟩ := List.any_eq_true.1 ha
    rw [Bool.and_eq_true] at hx
    have hfr := h.frozen b hb hx.1
    obtain ⟨c, hm, hd⟩ := h.base b hb hx.1
    have h1 := hc c hm hd
    rcases h.kinds with hk | hk
    · have h2 := hfr.2 hk
      have : fr ≠ false := fun hf => hk c hm (h1.1 hf)
      rw [h2] at hx
      cases fr <;> simp_all
    · have h2 : b.frozen ≠ true := fun hf => hfr.1 hf c hm (hk c hm hd)
      have h3 := h1.2 (hk c hm hd)
      rw [h3] at hx
      cases hbf : b.frozen <;> simp_all

/-- `dataclass` on a class at the end of a chain. -/
theorem dataclass_eq {cs : List (Stmt A V)} {ms : List (Made A V)} (h : Inv cs ms) {c : Stmt A V} (hc : c.WF)
    (hd : c.isData) (fr : Bool) :
    dataclass ms c.own (c.attrs ++ (ms.getLast?.getD {}).attrs) fr =
      if ms.any (fun b => b.fields.isSome && b.frozen != fr) then .error .typeError
      else if misordered (fieldsOf (cs ++ [c])) then .error .typeError
      else .ok (fieldsOf (cs ++ [c])) := by
  have : (c.own.map fun f => ({ f with dflt := (c.attrs ++ (ms.getLast?.getD {}).attrs).lookup f.name } : AField A V)).foldl
      dictSet (baseFields ms) = fieldsOf (cs ++ [c]) := by
    rw [foldl_dictSet _ _ (by rw [own_names c fun n => (c.attrs ++ (ms.getLast?.getD {}).attrs).lookup n]; exact hc),
      fieldsOf_snoc, if_pos hd, h.fields]
    congr 1
    refine List.map_congr_left fun f _ => ?_
    rw [lookup_append, lookup_attrs, h.attrs, lastWritten_snoc]
  unfold dataclass
  simp only [this]

/-- The class statement is accepted at the end of the chain. -/
def Accepted (cs : List (Stmt A V)) (c : Stmt A V) : Prop :=
  c.isData → (∀ b ∈ cs, b.isData → (c.deco = .dataclass ↔ b.deco = .dataclass)) ∧ Ordered (fieldsOf (cs ++ [c])) ∧
    (c.deco ≠ .dataclass → c.deco ≠ .sublevel → fieldsOf (cs ++ [c]) ≠ [])

theorem dataclass_ok {cs : List (Stmt A V)} {ms : List (Made A V)} (h : Inv cs ms) {c : Stmt A V} (hc : c.WF)
    (hd : c.isData) {fr : Bool} (hfr : fr = false ↔ c.deco = .dataclass) {fs : List (AField A V)} :
    dataclass ms c.own (c.attrs ++ (ms.getLast?.getD {}).attrs) fr = .ok fs ↔
      (∀ b ∈ cs, b.isData → (c.deco = .dataclass ↔ b.deco = .dataclass)) ∧ Ordered (fieldsOf (cs ++ [c])) ∧
        fs = fieldsOf (cs ++ [c]) := by
  rw [dataclass_eq h hc hd, ← misordered_eq]
  have ha := any_frozen h fr
  rw [hfr] at ha
  by_cases hx : ms.any (fun b => b.fields.isSome && b.frozen != fr) = true
  · rw [if_pos hx]
    refine ⟨fun h => (nomatch h), fun hh => ?_⟩
    rw [ha.2 hh.1] at hx
    cases hx
  · rw [if_neg hx]
    have hx' := ha.1 (Bool.eq_false_iff.2 hx)
    cases hm : misordered (fieldsOf (cs ++ [c])) with
    | true =>
      rw [if_pos rfl]
      exact ⟨fun h => (by cases h), fun hh => (by cases hh.2.1)⟩
    | false =>
      rw [if_neg (by simp)]
      constructor
      · intro he
        injection he with he
        exact ⟨hx', rfl, he.symm⟩
      · rintro ⟨_, _, he⟩
        rw [he]

theorem getDepth_ok (levels : A → Option Nat) (fs : List (AField A V)) :
    (∃ d, getDepth levels fs = .ok d) ↔ fs ≠ [] := by
  unfold getDepth
  cases h : fs.getLast? with
  | none => simp [List.getLast?_eq_none_iff.1 h]
  | some f =>
    refine ⟨fun _ he => ?_, fun _ => ⟨_, rfl⟩⟩
    rw [he] at h
    cases h

/-- What a class statement gives, at the end of a chain. -/
theorem define_ok (levels : A → Option Nat) {cs : List (Stmt A V)} {ms : List (Made A V)} (h : Inv cs ms) {c : Stmt A V}
    (hc : c.WF) : (∃ m, define levels ms c = .ok m) ↔ Accepted cs c := by
  unfold define Accepted
  cases hd : c.deco with
  | bare => simp [Stmt.isData, hd]
  | dataclass =>
    have hdata : c.isData := by simp [Stmt.isData, hd]
    have hk := fun fs => dataclass_ok (fs := fs) h hc hdata (fr := false) (by simp [hd])
    rw [hd] at hk
    constructor
    · rintro ⟨m, hm⟩ _
      simp only at hm
      split at hm
      · rename_i fs he
        have := (hk fs).1 he
        exact ⟨this.1, this.2.1, fun h => absurd rfl h⟩
      · cases hm
    · intro hh
      obtain ⟨h1, h2, _⟩ := hh hdata
      simp only
      rw [(hk _).2 ⟨h1, h2, rfl⟩]
      exact ⟨_, rfl⟩
  | sublevel =>
    have hdata : c.isData := by simp [Stmt.isData, hd]
    have hk := fun fs => dataclass_ok (fs := fs) h hc hdata (fr := true) (by simp [hd])
    rw [hd] at hk
    constructor
    · rintro ⟨m, hm⟩ _
      simp only at hm
      split at hm
      · rename_i fs he
        have := (hk fs).1 he
        exact ⟨this.1, this.2.1, fun _ h => absurd rfl h⟩
      · cases hm
    · intro hh
      obtain ⟨h1, h2, _⟩ := hh hdata
      simp only
      rw [(hk _).2 ⟨h1, h2, rfl⟩]
      exact ⟨_, rfl⟩
  | toplevel s =>
    have hdata : c.isData := by simp [Stmt.isData, hd]
    have hk := fun fs => dataclass_ok (fs := fs) h hc hdata (fr := true) (by simp [hd])
    rw [hd] at hk
    constructor
    · rintro ⟨m, hm⟩ _
      simp only at hm
      split at hm
      · rename_i fs he
        have := (hk fs).1 he
        refine ⟨this.1, this.2.1, fun _ _ => ?_⟩
        rw [← this.2.2]
        split at hm
        · rename_i d hd
          exact (getDepth_ok levels fs).1 ⟨d, hd⟩
        · cases hm
      · cases hm
    · intro hh
      obtain ⟨h1, h2, h3⟩ := hh hdata
      obtain ⟨d, hd⟩ := (getDepth_ok levels (fieldsOf (cs ++ [c]))).2 (h3 (by simp) (by simp))
      simp only
      rw [(hk _).2 ⟨h1, h2, rfl⟩]
      simp only
      rw [hd]
      exact ⟨_, rfl⟩

/-- Fields and separator of the class, and what it keeps of its base class. -/
theorem define_made (levels : A → Option Nat) {cs : List (Stmt A V)} {ms : List (Made A V)} (h : Inv cs ms) {c : Stmt A V}
    (hc : c.WF) {m : Made A V} (hm : define levels ms c = .ok m) :
    (c.isData → m.fields = some (fieldsOf (cs ++ [c])) ∧ (m.frozen = true ↔ c.deco ≠ .dataclass)) ∧
    (¬ c.isData → m.fields = (ms.getLast?.getD {}).fields ∧ m.frozen = (ms.getLast?.getD {}).frozen) ∧
    m.attrs = c.attrs ++ (ms.getLast?.getD {}).attrs ∧ m.sep = sepOf (cs ++ [c]) ∧
    (∀ s, c.deco = .toplevel s → .ok (m.depth.getD 0) = getDepth levels (fieldsOf (cs ++ [c])) ∧ m.depth.isSome = true) ∧
    ((∀ s, c.deco ≠ .toplevel s) → m.depth = (ms.getLast?.getD {}).depth) := by
  unfold define at hm
  rw [sepOf_snoc, ← h.sep]
  cases hd : c.deco with
  | bare =>
    rw [hd] at hm
    injection hm with hm
    subst hm
    simp [Stmt.isData, hd]
  | dataclass =>
    have hdata : c.isData := by simp [Stmt.isData, hd]
    rw [hd] at hm
    simp only at hm
    split at hm
    · rename_i fs he
      have := ((dataclass_ok h hc hdata (fr := false) (by simp [hd])).1 he).2.2
      injection hm with hm
      subst hm
      simp [hdata, this]
    · cases hm
  | sublevel =>
    have hdata : c.isData := by simp [Stmt.isData, hd]
    rw [hd] at hm
    simp only at hm
    split at hm
    · rename_i fs he
      have := ((dataclass_ok h hc hdata (fr := true) (by simp [hd])).1 he).2.2
      injection hm with hm
      subst hm
      simp [hdata, this]
    · cases hm
  | toplevel s =>
    have hdata : c.isData := by simp [Stmt.isData, hd]
    rw [hd] at hm
    simp only at hm
    split at hm
    · rename_i fs he
      have := ((dataclass_ok h hc hdata (fr := true) (by simp [hd])).1 he).2.2
      split at hm
      · rename_i d hdp
        injection hm with hm
        subst hm
        subst this
        simp [hdata, hdp]
      · cases hm
    · cases hm

theorem inv_step (levels : A → Option Nat) {cs : List (Stmt A V)} {ms : List (Made A V)} (h : Inv cs ms) {c : Stmt A V}
    (hcs : ∀ c ∈ cs, c.WF) (hc : c.WF) {m : Made A V} (hm : define levels ms c = .ok m) : Inv (cs ++ [c]) (ms ++ [m]) := by
  have hacc := (define_ok levels h hc).1 ⟨m, hm⟩
  obtain ⟨h1, h2, h3, h4, _, _⟩ := define_made levels h hc hm
  have hl : (ms ++ [m]).getLast?.getD {} = m := by simp
  have hF := fieldsOf_nodup cs hcs
  have hlast : (m.fields).getD [] = fieldsOf (cs ++ [c]) := by
    by_cases hd : c.isData
    · rw [(h1 hd).1]; rfl
    · rw [(h2 hd).1, h.last, fieldsOf_snoc, if_neg hd]
  have hsome : m.fields.isSome = true ↔ ∃ x ∈ cs ++ [c], x.isData := by
    by_cases hd : c.isData
    · rw [(h1 hd).1]
      exact ⟨fun _ => ⟨c, by simp, hd⟩, fun _ => rfl⟩
    · rw [(h2 hd).1, h.some]
      constructor
      · rintro ⟨x, hx, hxd⟩; exact ⟨x, List.mem_append_left _ hx, hxd⟩
      · rintro ⟨x, hx, hxd⟩
        rcases List.mem_append.1 hx with hx | hx
        · exact ⟨x, hx, hxd⟩
        · rw [List.mem_singleton.1 hx] at hxd; exact absurd hxd hd
  have hbare : ¬ c.isData → c.deco = .bare := fun hd => by
    simpa [Stmt.isData] using hd
  have hdd : c.deco = .dataclass → c.isData := fun h => by simp [Stmt.isData, h]
  have hfroz : ∀ b ∈ ms, b.fields.isSome = true → (b.frozen = true ↔ ∀ x ∈ cs ++ [c], x.deco ≠ .dataclass) := by
    intro b hb hs
    rw [h.frozen b hb hs]
    constructor
    · intro hall x hx
      rcases List.mem_append.1 hx with hx | hx
      · exact hall x hx
      · rw [List.mem_singleton.1 hx]
        intro he
        obtain ⟨y, hy, hyd⟩ := h.base b hb hs
        exact hall y hy (((hacc (hdd he)).1 y hy hyd).1 he)
    · exact fun hall x hx => hall x (List.mem_append_left _ hx)
  refine ⟨?_, by rw [hl]; exact hlast, by rw [hl]; exact hsome, ?_, by rw [hl]; exact h4, ?_, ?_, ?_, ?_⟩
  · rw [baseFields_snoc, hlast, h.fields,
      foldl_dictSet _ _ (fieldsOf_nodup _ fun x hx => by
        rcases List.mem_append.1 hx with hx | hx
        · exact hcs x hx
        · rw [List.mem_singleton.1 hx]; exact hc)]
    rw [fieldsOf_snoc]
    split
    · exact merge_merge hF (by rw [own_names c]; exact hc)
    · exact merge_self hF
  · intro n
    rw [hl, h3, lookup_append, lookup_attrs, h.attrs, lastWritten_snoc]
  · intro b hb hs
    rcases List.mem_append.1 hb with hb | hb
    · exact hfroz b hb hs
    · rw [List.mem_singleton.1 hb] at hs ⊢
      by_cases hd : c.isData
      · rw [(h1 hd).2]
        constructor
        · intro hne x hx
          rcases List.mem_append.1 hx with hx | hx
          · by_cases hxd : x.isData
            · exact fun he => hne (((hacc hd).1 x hx hxd).2 he)
            · exact fun he => hxd (by simp [Stmt.isData, he])
          · rw [List.mem_singleton.1 hx]; exact hne
        · exact fun hall => hall c (by simp)
      · rw [(h2 hd).1] at hs
        rw [(h2 hd).2]
        cases hg : ms.getLast? with
        | none => rw [hg] at hs; cases hs
        | some b' =>
          rw [hg] at hs
          exact hfroz b' (List.mem_of_getLast? hg) hs
  · rintro ⟨x, hx, hxd⟩
    exact ⟨m, by simp, hsome.2 ⟨x, hx, hxd⟩⟩
  · intro b hb hs
    rcases List.mem_append.1 hb with hb | hb
    · obtain ⟨x, hx, hxd⟩ := h.base b hb hs
      exact ⟨x, List.mem_append_left _ hx, hxd⟩
    · rw [List.mem_singleton.1 hb] at hs
      exact hsome.1 hs
  · by_cases hd : c.isData
    · by_cases he : c.deco = .dataclass
      · refine .inr fun x hx hxd => ?_
        rcases List.mem_append.1 hx with hx | hx
        · exact ((hacc hd).1 x hx hxd).1 he
        · rw [List.mem_singleton.1 hx]; exact he
      · refine .inl fun x hx hxe => ?_
        rcases List.mem_append.1 hx with hx | hx
        · exact he (((hacc hd).1 x hx (by simp [Stmt.isData, hxe])).2 hxe)
        · rw [List.mem_singleton.1 hx] at hxe; exact he hxe
    · rcases h.kinds with hk | hk
      · refine .inl fun x hx => ?_
        rcases List.mem_append.1 hx with hx | hx
        · exact hk x hx
        · rw [List.mem_singleton.1 hx, hbare hd]; simp
      · refine .inr fun x hx hxd => ?_
        rcases List.mem_append.1 hx with hx | hx
        · exact hk x hx hxd
        · rw [List.mem_singleton.1 hx] at hxd; exact absurd hxd hd

theorem defineAll_snoc (levels : A → Option Nat) (c : Stmt A V) : ∀ (cs : List (Stmt A V)) (bs : List (Made A V)),
    defineAll levels bs (cs ++ [c]) = match defineAll levels bs cs with
      | .ok ms => (match define levels ms c with
        | .ok m => .ok (ms ++ [m])
        | .error e => .error e)
      | .error e => .error e := by
  intro cs
  induction cs with
  | nil => intro bs; simp only [List.nil_append, defineAll]; rfl
  | cons x cs ih =>
    intro bs
    simp only [List.cons_append, defineAll]
    cases define levels bs x with
    | ok m => exact ih _
    | error e => rfl

theorem inv_all (levels : A → Option Nat) (cs : List (Stmt A V)) : (∀ c ∈ cs, c.WF) → ∀ ms, defineAll levels [] cs = .ok ms →
    Inv cs ms := by
  induction cs using List.reverseRecOn with
  | nil =>
    intro _ ms hm
    injection hm with hm
    subst hm
    exact inv_nil
  | append_singleton cs c ih =>
    intro hw ms hm
    rw [defineAll_snoc] at hm
    have hcs : ∀ x ∈ cs, x.WF := fun x hx => hw x (List.mem_append_left _ hx)
    cases h0 : defineAll levels [] cs with
    | error e => rw [h0] at hm; cases hm
    | ok ms0 =>
      rw [h0] at hm
      simp only at hm
      cases h1 : define levels ms0 c with
      | error e => rw [h1] at hm; cases hm
      | ok m =>
        rw [h1] at hm
        injection hm with hm
        subst hm
        exact inv_step levels (ih hcs ms0 h0) hcs (hw c (by simp)) h1

end Oups.Inherit
