import Verif.Spec.CollectionShare
import Verif.Props.Collection
/-! Several collections on the same files. -/
namespace Oups.Collection
open Oups.Indexer (Str join)

section
variable {K C W : Type} [DecidableEq K] {E : Env K C W} {comps : K → List Str}

/-- Files are as left by instances. -/
structure Files (E : Env K C W) (comps : K → List Str) (base : Str) (fs : FS C) : Prop where
  plain : PlainBase base
  wf : fs.WF
  canonical : Canonical E comps (resolve base) fs
  tidy : Tidy E comps (resolve base) fs

theorem Files.noStray {base : Str} {fs : FS C} (h : Files E comps base fs) : NoStray E comps (resolve base) fs :=
  fun k c hl => Or.inl (h.tidy k c hl)

theorem Files.inv (hE : Lawful E comps) {base : Str} {fs : FS C} (h : Files E comps base fs) :
    Inv E comps (PS.openAt E base fs) := Inv.openAt hE h.plain h.wf h.canonical h.noStray

theorem Files.stored {base : Str} {fs : FS C} (h : Files E comps base fs) (k : K) :
    storedDict E comps (resolve base) fs k = fs.lookup (resolve base ++ comps k) := by
  rw [storedDict]
  cases hl : fs.lookup (resolve base ++ comps k) with
  | none => rfl
  | some c => simp only [h.tidy k c hl, if_true]

/-- Keys as a sorted list of the known ones. -/
def Knows (E : Env K C W) (l : List K) (f : K → Bool) : Prop :=
  l.Pairwise (fun a b => E.lt a b = true) ∧ ∀ k, k ∈ l ↔ f k = true

/-- State of the instances and what users have in mind. -/
structure Rel (E : Env K C W) (comps : K → List Str) (base : Str) (s : Share K C) (v : View K C) : Prop where
  files : Files E comps base s.fs
  dict : v.dict = storedDict E comps (resolve base) s.fs
  known : List.Forall₂ (Knows E) s.insts v.known

theorem forall₂_get {α β : Type} {R : α → β → Prop} {a : List α} {b : List β} (h : List.Forall₂ R a b) (i : Nat) :
    (a[i]? = none ∧ b[i]? = none) ∨ ∃ x y, a[i]? = some x ∧ b[i]? = some y ∧ R x y := by
  induction h generalizing i with
  | nil => simp
  | cons hr _ ih =>
    cases i with
    | zero => exact Or.inr ⟨_, _, rfl, rfl, hr⟩
    | succ i => simpa using ih i

theorem forall₂_update {α β : Type} {R : α → β → Prop} {a : List α} {b : List β} (h : List.Forall₂ R a b) (i : Nat) (x : α)
    (f : β → β) (hx : ∀ y, b[i]? = some y → R x (f y)) : List.Forall₂ R (a.set i x) (b.modify i f) := by
  induction h generalizing i with
  | nil => cases i <;> simp
  | @cons p q a b hr ht ih =>
    cases i with
    | zero => exact List.Forall₂.cons (hx _ rfl) ht
    | succ i =>
      rw [List.set_cons_succ, List.modify_succ_cons]
      exact List.Forall₂.cons hr (ih i fun y hy => hx y (by simpa using hy))

theorem forall₂_same {α β : Type} {R : α → β → Prop} {a : List α} {b : List β} (h : List.Forall₂ R a b) (i : Nat) (x : α)
    (hx : a[i]? = some x) : List.Forall₂ R (a.set i x) b := by
  have : a.set i x = a := by
    apply List.ext_getElem?
    intro j
    rw [List.getElem?_set]
    split
    · rename_i e; subst e
      split
      · exact hx.symm
      · rename_i hl; rw [List.getElem?_eq_none (by omega)] at hx; cases hx
    · rfl
  rwa [this]

theorem Files.set (hE : Lawful E comps) {base : Str} {fs : FS C} (h : Files E comps base fs) (ks : List K)
    (key : Option K) (isDf : Bool) (w : W) : Files E comps base (PS.set E ⟨base, ks, fs⟩ key isDf w).1.fs := by
  have hfs : (PS.set E ⟨base, ks, fs⟩ key isDf w).1.fs = (PS.set E (PS.openAt E base fs) key isDf w).1.fs := by
    cases key with
    | none => rfl
    | some k =>
      cases isDf with
      | false => rfl
      | true => simp only [PS.set, PS.openAt, Bool.not_true, Bool.false_eq_true, if_false]; split <;> rfl
  obtain ⟨h1, h2⟩ := (h.inv hE).set hE key isDf w
  have h2 : (PS.set E (PS.openAt E base fs) key isDf w).1.basepath = base := h2
  rw [hfs]
  refine ⟨h.plain, h1.wf, by simpa only [h2] using h1.canonical, ?_⟩
  intro k' c' hl
  cases key with
  | none => exact h.tidy k' c' hl
  | some k =>
    cases isDf with
    | false => exact h.tidy k' c' hl
    | true =>
      cases hw : E.writer w ((fs.lookup (resolve base ++ comps k)).getD E.empty) with
      | none => rw [set_fail (ps := PS.openAt E base fs) hE h.plain hw] at hl; exact h.tidy k' c' hl
      | some c =>
        rw [set_spec (ps := PS.openAt E base fs) hE h.plain hw] at hl
        simp only [PS.openAt] at hl
        rw [mkdirs_comps hE] at hl
        split at hl
        · cases hl; exact hE.writes _ _ _ hw
        · exact h.tidy k' c' hl

/-- Deletion through an instance that knows the key, when there is a dataset. -/
theorem Files.del (hE : Lawful E comps) {base : Str} {fs : FS C} (h : Files E comps base fs) {ks : List K} {k : K}
    (hk : k ∈ ks) (hs : (fs.lookup (resolve base ++ comps k)).isSome) :
    (PS.del E ⟨base, ks, fs⟩ k).2 = none ∧ (PS.del E ⟨base, ks, fs⟩ k).1.keys = ks.filter (· ≠ k) ∧
    Files E comps base (PS.del E ⟨base, ks, fs⟩ k).1.fs ∧
    ∀ k', storedDict E comps (resolve base) (PS.del E ⟨base, ks, fs⟩ k).1.fs k' =
      if k' = k then none else storedDict E comps (resolve base) fs k' := by
  classical
  obtain ⟨h1, h2, h3, _, h5⟩ := del_spec (ps := ⟨base, ks, fs⟩) hE h.plain h.wf hk hs
  have sub : ∀ q c, (PS.del E ⟨base, ks, fs⟩ k).1.fs.lookup q = some c → fs.lookup q = some c := by
    intro q c hq
    rw [h5] at hq
    split at hq
    · cases hq
    · exact hq
  have hF : Files E comps base (PS.del E ⟨base, ks, fs⟩ k).1.fs :=
    ⟨h.plain, h2, fun rel c k' hl => h.canonical rel c k' (sub _ _ hl), fun k' c hl => h.tidy k' c (sub _ _ hl)⟩
  refine ⟨h1, h3, hF, fun k' => ?_⟩
  rw [hF.stored, h.stored, h5]
  by_cases e : k' = k
  · subst e; simp
  · rw [if_neg e, if_neg]
    rintro (h1 | h1)
    · exact e (comps_prefix hE h1).symm
    · have := h1.2.2.1.length_le
      have hd := hE.pos
      have hl := hE.length k
      have hl' := hE.length k'
      simp only [List.length_append, List.length_take] at this
      omega

theorem del_missing (hE : Lawful E comps) {base : Str} (hb : PlainBase base) {fs : FS C} {ks : List K} {k : K}
    (hk : k ∈ ks) (hs : fs.lookup (resolve base ++ comps k) = none) :
    PS.del E ⟨base, ks, fs⟩ k = (⟨base, ks, fs⟩, some .fileNotFound) := by
  simp only [PS.del, if_pos hk, resolve_dir hE hb, hs]
  rfl

theorem Rel.lt_iff {base : Str} {s : Share K C} {v : View K C} (h : Rel E comps base s v) {i : Nat} {ks : List K}
    (hi : s.insts[i]? = some ks) : i < v.known.length := by
  rcases forall₂_get h.known i with ⟨h1, _⟩ | ⟨x, y, _, h2, _⟩
  · rw [h1] at hi; cases hi
  · exact (List.getElem?_eq_some_iff.1 h2).1

theorem Rel.act (hE : Lawful E comps) {base : Str} {s : Share K C} {v : View K C} (h : Rel E comps base s v)
    (a : Act K W) : Rel E comps base (s.act E base a).1 (v.step E.writer E.empty a).1 ∧
      (s.act E base a).2 = (v.step E.writer E.empty a).2 := by
  cases a with
  | opening =>
    refine ⟨⟨h.files, h.dict, ?_⟩, rfl⟩
    have hi := h.files.inv hE
    refine List.rel_append h.known (List.Forall₂.cons ⟨hi.sorted, fun k => ?_⟩ List.Forall₂.nil)
    rw [hi.mem_isSome k, h.dict]
    exact Iff.rfl
  | use i op =>
    rcases forall₂_get h.known i with ⟨h1, h2⟩ | ⟨ks, f, h1, h2, hr⟩
    · have hlen : ¬ i < v.known.length := by
        have := List.getElem?_eq_none_iff.1 h2
        omega
      have hs : s.act E base (.use i op) = (s, none) := by simp only [Share.act, h1]
      have hv : v.step E.writer E.empty (.use i op) = (v, none) := by
        cases op with
        | del k => simp only [View.step, h2]; simp
        | set k d w => cases k <;> cases d <;> simp only [View.step, if_neg hlen]
      rw [hs, hv]; exact ⟨h, rfl⟩
    · have hlen : i < v.known.length := (List.getElem?_eq_some_iff.1 h2).1
      cases op with
      | del k =>
        by_cases hk : k ∈ ks
        · have hf : f k = true := (hr.2 k).1 hk
          by_cases hd : (s.fs.lookup (resolve base ++ comps k)).isSome
          · obtain ⟨d1, d2, d3, d4⟩ := h.files.del hE hk hd
            have hv : (v.dict k).isSome := by rw [h.dict, h.files.stored]; exact hd
            simp only [Share.act, h1, PS.step, View.step, h2, Option.map_some, hf, if_true, hv]
            refine ⟨⟨d3, ?_, ?_⟩, d1⟩
            · funext k'; rw [d4, h.dict]
            · rw [d2]
              refine forall₂_update h.known i _ _ fun y hy => ?_
              rw [h2] at hy; cases hy
              refine ⟨hr.1.filter _, fun k' => ?_⟩
              rw [List.mem_filter, hr.2 k']
              simp [and_comm]
          · have hd : s.fs.lookup (resolve base ++ comps k) = none := by simpa using hd
            have hv : v.dict k = none := by rw [h.dict, h.files.stored]; exact hd
            simp only [Share.act, h1, PS.step, View.step, h2, Option.map_some, hf, if_true, hv, Option.isSome_none,
              del_missing hE h.files.plain hk hd]
            exact ⟨⟨h.files, h.dict, forall₂_same h.known i ks h1⟩, rfl⟩
        · have hf : f k = false := by
            cases e : f k with
            | false => rfl
            | true => exact absurd ((hr.2 k).2 e) hk
          have hd : PS.del E ⟨base, ks, s.fs⟩ k = (⟨base, ks, s.fs⟩, none) := Inv.del_unknown hk
          simp only [Share.act, h1, PS.step, View.step, h2, Option.map_some, hf, hd]
          exact ⟨⟨h.files, h.dict, forall₂_same h.known i ks h1⟩, rfl⟩
      | set key d w =>
        have hF := h.files.set hE ks key d w
        have trivialCase : ∀ e, PS.set E ⟨base, ks, s.fs⟩ key d w = (⟨base, ks, s.fs⟩, some e) →
            v.step E.writer E.empty (.use i (.set key d w)) = (v, some e) →
            Rel E comps base (s.act E base (.use i (.set key d w))).1
              (v.step E.writer E.empty (.use i (.set key d w))).1 ∧
            (s.act E base (.use i (.set key d w))).2 = (v.step E.writer E.empty (.use i (.set key d w))).2 := by
          intro e he hv
          rw [hv]
          simp only [Share.act, h1, PS.step, he]
          exact ⟨⟨h.files, h.dict, forall₂_same h.known i ks h1⟩, trivial⟩
        cases key with
        | none => exact trivialCase .typeError rfl (by simp only [View.step, if_pos hlen])
        | some k =>
          cases d with
          | false => exact trivialCase .typeError rfl (by simp only [View.step, if_pos hlen])
          | true =>
            have hg : (v.dict k).getD E.empty = (s.fs.lookup (resolve base ++ comps k)).getD E.empty := by
              rw [h.dict, h.files.stored]
            cases hw : E.writer w ((s.fs.lookup (resolve base ++ comps k)).getD E.empty) with
            | none =>
              exact trivialCase .writer (set_fail (ps := ⟨base, ks, s.fs⟩) hE h.files.plain hw)
                (by simp only [View.step, if_pos hlen, hg, hw])
            | some c =>
              have hs := set_spec (ps := ⟨base, ks, s.fs⟩) hE h.files.plain hw
              rw [hs] at hF
              simp only [Share.act, h1, PS.step, View.step, if_pos hlen, hg, hw, hs]
              refine ⟨⟨hF, ?_, ?_⟩, trivial⟩
              · funext k'
                rw [hF.stored]
                simp only
                rw [mkdirs_comps hE, h.dict, h.files.stored]
              · refine forall₂_update h.known i _ _ fun y hy => ?_
                rw [h2] at hy; cases hy
                constructor
                · split
                  · exact hr.1
                  · exact sortedAdd_sorted hE _ _ hr.1
                · intro k'
                  have hm : (k' ∈ if k ∈ ks then ks else sortedAdd E.lt k ks) ↔ k' = k ∨ k' ∈ ks := by
                    split
                    · rename_i hk
                      constructor
                      · exact Or.inr
                      · rintro (rfl | h)
                        · exact hk
                        · exact h
                    · exact mem_sortedAdd _ _ _ _
                  rw [hm, hr.2 k']
                  simp

theorem Rel.run (hE : Lawful E comps) {base : Str} (as : List (Act K W)) {s : Share K C} {v : View K C}
    (h : Rel E comps base s v) : Rel E comps base (s.run E base as).1 (v.run E.writer E.empty as).1 ∧
      (s.run E base as).2 = (v.run E.writer E.empty as).2 := by
  induction as generalizing s v with
  | nil => exact ⟨h, rfl⟩
  | cons a as ih =>
    obtain ⟨h1, h2⟩ := h.act hE a
    obtain ⟨h3, h4⟩ := ih h1
    refine ⟨h3, ?_⟩
    simp only [Share.run, View.run]
    rw [h2, h4]

theorem Rel.start {base : Str} {fs : FS C} (h : Files E comps base fs) :
    Rel E comps base ⟨[], fs⟩ ⟨storedDict E comps (resolve base) fs, []⟩ := ⟨h, rfl, List.Forall₂.nil⟩

/-! ### Instances with keys of their own -/

/-- Owners know what there is of their keys. -/
def Aware (owner : K → Nat) (v : View K C) : Prop :=
  ∀ i f, v.known[i]? = some f → ∀ k, owner k = i → f k = (v.dict k).isSome

theorem Aware.step {owner : K → Nat} {v : View K C} {writer : W → C → Option C} {empty : C} (h : Aware owner v)
    {a : Act K W} (ha : Owned owner a) : Aware owner (v.step writer empty a).1 := by
  cases a with
  | opening =>
    intro i f hf k hk
    simp only [View.step] at hf ⊢
    rw [List.getElem?_append] at hf
    split at hf
    · exact h i f hf k hk
    · have : f = fun k => (v.dict k).isSome := by
        rcases Nat.eq_zero_or_pos (i - v.known.length) with e | e
        · rw [e] at hf; simpa using hf.symm
        · rw [List.getElem?_eq_none (by simp only [List.length_singleton]; omega)] at hf; cases hf
      rw [this]
  | use i op =>
    cases op with
    | set key d w =>
      cases key with
      | none => cases d <;> (simp only [View.step]; split <;> exact h)
      | some k =>
        cases d with
        | false => simp only [View.step]; split <;> exact h
        | true =>
          simp only [View.step]
          split
          · split
            · intro j f hf k' hk'
              simp only [List.getElem?_modify] at hf ⊢
              obtain ⟨g, hg, rfl⟩ := Option.map_eq_some_iff.1 hf
              have := h j g hg k' hk'
              by_cases e : k' = k
              · subst e
                have hij : i = j := by rw [← hk']; exact (ha k' rfl).symm
                simp [hij]
              · split <;> simp [e, this]
            · exact h
          · exact h
    | del k =>
      simp only [View.step]
      split
      · split
        · intro j f hf k' hk'
          simp only [List.getElem?_modify] at hf ⊢
          obtain ⟨g, hg, rfl⟩ := Option.map_eq_some_iff.1 hf
          have := h j g hg k' hk'
          by_cases e : k' = k
          · subst e
            have hij : i = j := by rw [← hk']; exact (ha k' rfl).symm
            simp [hij]
          · split <;> simp [e, this]
        · exact h
      · exact h

theorem Aware.run {owner : K → Nat} {writer : W → C → Option C} {empty : C} (as : List (Act K W))
    (has : ∀ a ∈ as, Owned owner a) {v : View K C} (h : Aware owner v) : Aware owner (v.run writer empty as).1 := by
  induction as generalizing v with
  | nil => exact h
  | cons a as ih => exact ih (fun b hb => has b (by simp [hb])) (h.step (has a (by simp)))

/-- What owners do is what is expected of a dictionary. -/
theorem Aware.plain {owner : K → Nat} {v : View K C} {writer : W → C → Option C} {empty : C} (h : Aware owner v)
    {i : Nat} (hi : i < v.known.length) {op : Op K W} (ha : Owned owner (.use i op)) :
    (v.step writer empty (.use i op)).1.dict = Dict.step writer empty v.dict op ∧
    (v.step writer empty (.use i op)).2 = Dict.raises writer empty v.dict op := by
  cases op with
  | set key d w =>
    cases key with
    | none => cases d <;> simp [View.step, Dict.step, Dict.raises, hi]
    | some k =>
      cases d with
      | false => simp [View.step, Dict.step, Dict.raises, hi]
      | true =>
        simp only [View.step, Dict.step, Dict.raises, if_pos hi]
        cases writer w ((v.dict k).getD empty) <;> simp
  | del k =>
    have hg : v.known[i]? = some v.known[i] := List.getElem?_eq_getElem hi
    have hw := h i _ hg k (ha k rfl)
    simp only [View.step, Dict.step, Dict.raises, hg, Option.map_some, hw, Option.some.injEq]
    cases hd : v.dict k with
    | none =>
      simp only [Option.isSome_none, Bool.false_eq_true, if_false, and_true]
      funext k'
      split
      · rename_i e; rw [e, hd]
      · rfl
    | some c => simp

end

/-! ### Two collections that have nothing in common -/

section
variable {K₁ K₂ C W₁ W₂ : Type} [DecidableEq K₁] [DecidableEq K₂] {E₁ : Env K₁ C W₁} {E₂ : Env K₂ C W₂}
variable {comps₁ : K₁ → List Str} {comps₂ : K₂ → List Str}

/-- What a collection does leaves another one as it is. -/
theorem Inv.other (hE₁ : Lawful E₁ comps₁) (hE₂ : Lawful E₂ comps₂) (hn : E₁.names = E₂.names) {b₁ b₂ : Str}
    (hd₁ : ∀ k₁ k₂, ¬ resolve b₁ ++ comps₁ k₁ <+: resolve b₂ ++ comps₂ k₂)
    (hd₂ : ∀ k₁ k₂, ¬ resolve b₂ ++ comps₂ k₂ <+: resolve b₁ ++ comps₁ k₁)
    (hr : ∀ k₁ rel, resolve b₁ ++ comps₁ k₁ = resolve b₂ ++ rel → rel.length = E₂.depth →
      E₂.fromPath (join '/' rel) = none) {ks₁ : List K₁} {ks₂ : List K₂} {fs : FS C}
    (h₁ : Inv E₁ comps₁ ⟨b₁, ks₁, fs⟩) (h₂ : Inv E₂ comps₂ ⟨b₂, ks₂, fs⟩) (op : Op K₁ W₁) :
    Inv E₂ comps₂ ⟨b₂, ks₂, (PS.step E₁ ⟨b₁, ks₁, fs⟩ op).1.fs⟩ ∧
    storedDict E₂ comps₂ (resolve b₂) (PS.step E₁ ⟨b₁, ks₁, fs⟩ op).1.fs = storedDict E₂ comps₂ (resolve b₂) fs := by
  have hwf := (h₁.step hE₁ op).1.wf
  suffices hk : (∀ k₂, (PS.step E₁ ⟨b₁, ks₁, fs⟩ op).1.fs.lookup (resolve b₂ ++ comps₂ k₂) =
        fs.lookup (resolve b₂ ++ comps₂ k₂)) ∧
      ∀ q c, (PS.step E₁ ⟨b₁, ks₁, fs⟩ op).1.fs.lookup q = some c → (E₁.names c).any isParquetFile = true →
        fs.lookup q = some c ∨ ∃ k₁, q = resolve b₁ ++ comps₁ k₁ by
    obtain ⟨hk1, hk2⟩ := hk
    refine ⟨⟨h₂.base, hwf, ?_, ?_, h₂.sorted, ?_⟩, ?_⟩
    · intro rel c k hl hlen hp hf
      rcases hk2 _ _ hl (by rw [hn]; exact hp) with h | ⟨k₁, h⟩
      · exact h₂.canonical rel c k h hlen hp hf
      · rw [hr k₁ rel h.symm hlen] at hf; cases hf
    · intro k c hl
      rw [hk1] at hl
      exact h₂.noStray k c hl
    · intro k
      have := h₂.mem k
      simp only [Stored] at this ⊢
      rw [hk1]; exact this
    · funext k
      simp only [storedDict, hk1]
  cases op with
  | del k =>
    by_cases hk : k ∈ ks₁
    · classical
      obtain ⟨_, _, _, _, h5⟩ := del_spec hE₁ h₁.base h₁.wf hk (h₁.dirExists hk)
      constructor
      · intro k₂
        simp only [PS.step]
        rw [h5, if_neg]
        rintro (h | h)
        · exact hd₁ k k₂ h
        · exact hd₂ k k₂ (h.2.2.1.trans ((List.prefix_append_right_inj _).2 (List.take_prefix _ _)))
      · intro q c hl _
        simp only [PS.step] at hl
        rw [h5] at hl
        split at hl
        · cases hl
        · exact Or.inl hl
    · have : PS.step E₁ ⟨b₁, ks₁, fs⟩ (.del k) = (⟨b₁, ks₁, fs⟩, none) := Inv.del_unknown hk
      rw [this]
      exact ⟨fun _ => rfl, fun q c hl _ => Or.inl hl⟩
  | set key d w =>
    cases key with
    | none => exact ⟨fun _ => rfl, fun q c hl _ => Or.inl hl⟩
    | some k =>
      cases d with
      | false => exact ⟨fun _ => rfl, fun q c hl _ => Or.inl hl⟩
      | true =>
        simp only [PS.step]
        cases hw : E₁.writer w ((fs.lookup (resolve b₁ ++ comps₁ k)).getD E₁.empty) with
        | none =>
          rw [set_fail (ps := ⟨b₁, ks₁, fs⟩) hE₁ h₁.base hw]
          exact ⟨fun _ => rfl, fun q c hl _ => Or.inl hl⟩
        | some c =>
          rw [set_spec (ps := ⟨b₁, ks₁, fs⟩) hE₁ h₁.base hw]
          constructor
          · intro k₂
            simp only
            rw [lookup_mkdirs_put, if_neg, if_neg (hd₂ k k₂)]
            · cases fs.lookup (resolve b₂ ++ comps₂ k₂) <;> simp
            · intro e
              exact hd₁ k k₂ (by rw [e]; exact List.prefix_rfl)
          · intro q c' hl hp
            simp only at hl
            rw [lookup_mkdirs_put] at hl
            split at hl
            · rename_i e; exact Or.inr ⟨k, e⟩
            · split at hl
              · exact Or.inl hl
              · split at hl
                · cases hl
                  rw [hE₁.noFile] at hp; simp at hp
                · cases hl

end
end Oups.Collection
