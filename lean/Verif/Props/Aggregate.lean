import Verif.Proofs.AggregateFrame
import Verif.Props.Segment
import Mathlib.Order.Lattice
import Mathlib.Order.Defs.LinearOrder
import Mathlib.Algebra.BigOperators.Group.List.Basic
/-! Properties C35 to C44: aggregation. -/
set_option linter.unusedSimpArgs false
namespace Oups.Agg
open Oups.Segment Spec Oups.Segment.Spec

/-! ### C35: aggregation functions -/

section
variable {V : Type}

theorem C35_first (O : Ops V) (x : V) (xs : List V) (a : V) : jagg O .first (x :: xs) a false = x := rfl

theorem C35_last (O : Ops V) (xs : List V) (x a : V) : jagg O .last (xs ++ [x]) a false = x := by
  simp [jagg, jlast]

theorem foldl_max [LinearOrder V] (O : Ops V) (hlt : ∀ a b, O.lt a b = decide (a < b)) (xs : List V) (x : V) :
    xs.foldl (fun r v => if O.lt r v then v else r) x ∈ x :: xs ∧
      ∀ y ∈ x :: xs, y ≤ xs.foldl (fun r v => if O.lt r v then v else r) x := by
  induction xs generalizing x with
  | nil => simp
  | cons v xs ih =>
    rw [List.foldl_cons]
    obtain ⟨h1, h2⟩ := ih (if O.lt x v then v else x)
    by_cases h : x < v
    · have hx : O.lt x v = true := by simp [hlt, h]
      simp only [hx, if_true] at h1 h2 ⊢
      refine ⟨List.mem_cons_of_mem _ h1, fun y hy => ?_⟩
      rcases List.mem_cons.1 hy with rfl | hy
      · exact le_trans (le_of_lt h) (h2 v (by simp))
      · exact h2 y hy
    · have hx : O.lt x v = false := by simp [hlt, h]
      simp only [hx, Bool.false_eq_true, if_false] at h1 h2 ⊢
      constructor
      · rcases List.mem_cons.1 h1 with h1 | h1
        · rw [h1]; simp
        · exact List.mem_cons_of_mem _ (List.mem_cons_of_mem _ h1)
      · intro y hy
        rcases List.mem_cons.1 hy with rfl | hy
        · exact h2 _ (by simp)
        · rcases List.mem_cons.1 hy with rfl | hy
          · exact le_trans (not_lt.1 h) (h2 x (by simp))
          · exact h2 y (by simp [hy])

theorem foldl_min [LinearOrder V] (O : Ops V) (hlt : ∀ a b, O.lt a b = decide (a < b)) (xs : List V) (x : V) :
    xs.foldl (fun r v => if O.lt v r then v else r) x ∈ x :: xs ∧
      ∀ y ∈ x :: xs, xs.foldl (fun r v => if O.lt v r then v else r) x ≤ y := by
  induction xs generalizing x with
  | nil => simp
  | cons v xs ih =>
    rw [List.foldl_cons]
    obtain ⟨h1, h2⟩ := ih (if O.lt v x then v else x)
    by_cases h : v < x
    · have hx : O.lt v x = true := by simp [hlt, h]
      simp only [hx, if_true] at h1 h2 ⊢
      refine ⟨List.mem_cons_of_mem _ h1, fun y hy => ?_⟩
      rcases List.mem_cons.1 hy with rfl | hy
      · exact le_trans (h2 v (by simp)) (le_of_lt h)
      · exact h2 y hy
    · have hx : O.lt v x = false := by simp [hlt, h]
      simp only [hx, Bool.false_eq_true, if_false] at h1 h2 ⊢
      constructor
      · rcases List.mem_cons.1 h1 with h1 | h1
        · rw [h1]; simp
        · exact List.mem_cons_of_mem _ (List.mem_cons_of_mem _ h1)
      · intro y hy
        rcases List.mem_cons.1 hy with rfl | hy
        · exact h2 _ (by simp)
        · rcases List.mem_cons.1 hy with rfl | hy
          · exact le_trans (h2 x (by simp)) (not_lt.1 h)
          · exact h2 y (by simp [hy])

/-- Values totally ordered (integers, dates, strings, floats without NaN): the maximum is a value of the column, no
other is above. -/
theorem C35_max [LinearOrder V] (O : Ops V) (hlt : ∀ a b, O.lt a b = decide (a < b)) (xs : List V) (hne : xs ≠ [])
    (a : V) : jagg O .max xs a false ∈ xs ∧ ∀ y ∈ xs, y ≤ jagg O .max xs a false := by
  cases xs with
  | nil => exact absurd rfl hne
  | cons x xs => exact foldl_max O hlt xs x

theorem C35_min [LinearOrder V] (O : Ops V) (hlt : ∀ a b, O.lt a b = decide (a < b)) (xs : List V) (hne : xs ≠ [])
    (a : V) : jagg O .min xs a false ∈ xs ∧ ∀ y ∈ xs, jagg O .min xs a false ≤ y := by
  cases xs with
  | nil => exact absurd rfl hne
  | cons x xs => exact foldl_min O hlt xs x

/-- Exact arithmetic: the sum. Otherwise see `C35_spec`: the elementary additions, from left to right. -/
theorem C35_sum [AddMonoid V] (O : Ops V) (hadd : ∀ a b, O.add a b = a + b) (xs : List V) (hne : xs ≠ []) (a : V) :
    jagg O .sum xs a false = xs.sum := by
  have key : ∀ (xs : List V) (x : V), xs.foldl (fun r v => O.add r v) x = x + xs.sum := by
    intro xs
    induction xs with
    | nil => intro x; simp
    | cons v xs ih => intro x; rw [List.foldl_cons, ih, hadd, List.sum_cons, add_assoc]
  cases xs with
  | nil => exact absurd rfl hne
  | cons x xs => rw [List.sum_cons, ← key]; rfl

/-- All functions, any arithmetic: the result does not depend on the content of the result array before. -/
theorem C35_spec (O : Ops V) (f : Fn) (xs : List V) (hne : xs ≠ []) (a : V) :
    aggCol O f xs = some (jagg O f xs a false) := (jagg_fresh O f xs a hne).symm

/-- Integers. -/
def intOps : Ops Int := ⟨fun a b => decide (a < b), (· + ·), 0⟩

/-- Floats with NaN: every comparison with `none` is false. -/
def nanOps : Ops (Option Int) :=
  ⟨fun a b => match a, b with
    | some a, some b => decide (a < b)
    | _, _ => false,
   fun a b => match a, b with
    | some a, some b => some (a + b)
    | _, _ => none, some 0⟩

example : jagg intOps .max [3, 9, 2] 100 false = 9 ∧ jagg intOps .min [3, 9, 2] (-100) false = 2 ∧
    jagg intOps .sum [3, 9, 2] 100 false = 14 ∧ jagg intOps .first [3, 9, 2] 100 false = 3 ∧
    jagg intOps .last [3, 9, 2] 100 false = 2 ∧ ∀ a b, intOps.lt a b = decide (a < b) := by
  refine ⟨by decide, by decide, by decide, by decide, by decide, fun _ _ => rfl⟩

/-- With NaN the maximum depends on the order of rows: a leading NaN is kept, a later one ignored. -/
theorem C35_nan_fails : jagg nanOps .max [none, some 1] none false = none ∧
    jagg nanOps .max [some 1, none] none false = some 1 := by decide

/-- Values with NaN: every comparison with a NaN is false, others are those of the values that are numbers. -/
def NanLt [LinearOrder V] (O : Ops (Option V)) : Prop :=
  (∀ a, O.lt none a = false) ∧ (∀ a, O.lt a none = false) ∧ ∀ a b : V, O.lt (some a) (some b) = decide (a < b)

/-- **C35** With NaN, exactly: minimum and maximum are NaN if the first value of the bin is, whatever the other ones; otherwise those of
the values that are numbers. -/
theorem C35_nan [LinearOrder V] (O : Ops (Option V)) (h : NanLt O) (xs : List (Option V)) (a : Option V) :
    (jagg O .max (none :: xs) a false = none ∧ jagg O .min (none :: xs) a false = none) ∧
    ∀ x, (∃ m, jagg O .max (some x :: xs) a false = some m ∧ some m ∈ some x :: xs ∧ ∀ y, some y ∈ some x :: xs → y ≤ m) ∧
      ∃ m, jagg O .min (some x :: xs) a false = some m ∧ some m ∈ some x :: xs ∧ ∀ y, some y ∈ some x :: xs → m ≤ y := by
  obtain ⟨h1, h2, h3⟩ := h
  constructor
  · constructor
    · show xs.foldl _ none = none
      induction xs with
      | nil => rfl
      | cons y ys ih => simpa [h1] using ih
    · show xs.foldl _ none = none
      induction xs with
      | nil => rfl
      | cons y ys ih => simpa [h2] using ih
  · intro x
    constructor
    · show ∃ m, xs.foldl (fun res v => if O.lt res v then v else res) (some x) = some m ∧ _
      induction xs generalizing x with
      | nil => exact ⟨x, rfl, by simp, by simp⟩
      | cons y ys ih =>
        cases y with
        | none =>
          obtain ⟨m, e, hm, hle⟩ := ih x
          refine ⟨m, by simpa [h2] using e, by simp at hm ⊢; exact hm, fun z hz => hle z (by simpa using hz)⟩
        | some y =>
          by_cases hxy : x < y
          · obtain ⟨m, e, hm, hle⟩ := ih y
            refine ⟨m, by simpa [h3, hxy] using e, List.mem_cons_of_mem _ hm, fun z hz => ?_⟩
            rcases List.mem_cons.1 hz with hz | hz
            · cases hz
              exact le_of_lt (lt_of_lt_of_le hxy (hle y (by simp)))
            · exact hle z hz
          · obtain ⟨m, e, hm, hle⟩ := ih x
            refine ⟨m, by simpa [h3, hxy] using e, ?_, fun z hz => ?_⟩
            · rcases List.mem_cons.1 hm with hm | hm
              · exact List.mem_cons.2 (Or.inl hm)
              · exact List.mem_cons_of_mem _ (List.mem_cons_of_mem _ hm)
            · rcases List.mem_cons.1 hz with hz | hz
              · exact hle z (by simp [hz])
              · rcases List.mem_cons.1 hz with hz | hz
                · cases hz
                  exact le_trans (not_lt.1 hxy) (hle x (by simp))
                · exact hle z (List.mem_cons_of_mem _ hz)
    · show ∃ m, xs.foldl (fun res v => if O.lt v res then v else res) (some x) = some m ∧ _
      induction xs generalizing x with
      | nil => exact ⟨x, rfl, by simp, by simp⟩
      | cons y ys ih =>
        cases y with
        | none =>
          obtain ⟨m, e, hm, hle⟩ := ih x
          refine ⟨m, by simpa [h1] using e, by simp at hm ⊢; exact hm, fun z hz => hle z (by simpa using hz)⟩
        | some y =>
          by_cases hxy : y < x
          · obtain ⟨m, e, hm, hle⟩ := ih y
            refine ⟨m, by simpa [h3, hxy] using e, List.mem_cons_of_mem _ hm, fun z hz => ?_⟩
            rcases List.mem_cons.1 hz with hz | hz
            · cases hz
              exact le_of_lt (lt_of_le_of_lt (hle y (by simp)) hxy)
            · exact hle z hz
          · obtain ⟨m, e, hm, hle⟩ := ih x
            refine ⟨m, by simpa [h3, hxy] using e, ?_, fun z hz => ?_⟩
            · rcases List.mem_cons.1 hm with hm | hm
              · exact List.mem_cons.2 (Or.inl hm)
              · exact List.mem_cons_of_mem _ (List.mem_cons_of_mem _ hm)
            · rcases List.mem_cons.1 hz with hz | hz
              · exact hle z (by simp [hz])
              · rcases List.mem_cons.1 hz with hz | hz
                · cases hz
                  exact le_trans (hle x (by simp)) (not_lt.1 hxy)
                · exact hle z (List.mem_cons_of_mem _ hz)

example : NanLt nanOps ∧ jagg nanOps .max [some 3, none, some 9, some 2] none false = some 9 ∧
    jagg nanOps .min [none, some 3] (some 1) false = none :=
  ⟨⟨fun _ => rfl, fun a => by cases a <;> rfl, fun _ _ => rfl⟩, by decide, by decide⟩

/-- **C35** Date-times, aggregated as integers, the missing date `NaT` being the smallest of them: the minimum is `NaT` if one value of the
bin is, the maximum if all are; otherwise the maximum is that of the other dates. -/
theorem C35_nat (O : Ops Int) (hlt : ∀ a b, O.lt a b = decide (a < b)) (nat : Int) (xs : List Int) (hne : xs ≠ [])
    (hb : ∀ x ∈ xs, nat ≤ x) (a : Int) :
    (jagg O .min xs a false = nat ↔ nat ∈ xs) ∧ (jagg O .max xs a false = nat ↔ ∀ x ∈ xs, x = nat) ∧
    (∀ x ∈ xs, x ≠ nat → jagg O .max xs a false ∈ xs.filter (· ≠ nat) ∧
      ∀ y ∈ xs.filter (· ≠ nat), y ≤ jagg O .max xs a false) := by
  obtain ⟨h1, h2⟩ := C35_min O hlt xs hne a
  obtain ⟨h3, h4⟩ := C35_max O hlt xs hne a
  refine ⟨⟨fun h => h ▸ h1, fun h => le_antisymm (h2 nat h) (hb _ h1)⟩,
    ⟨fun h x hx => le_antisymm (h ▸ h4 x hx) (hb x hx), fun h => h _ h3⟩, fun x hx hxn => ⟨?_, ?_⟩⟩
  · refine List.mem_filter.2 ⟨h3, ?_⟩
    simp only [decide_eq_true_eq]
    intro hc
    have := h4 x hx
    have := hb x hx
    omega
  · exact fun y hy => h4 y (List.mem_filter.1 hy).1

example : jagg intOps .min [7, -9223372036854775808, 3] 0 false = -9223372036854775808 ∧
    jagg intOps .max [7, -9223372036854775808, 3] 0 false = 7 := by decide

/-! ### C36: continuation -/

/-- Any arithmetic. -/
theorem C36_continue (O : Ops V) (f : Fn) (xs ys : List V) (hx : xs ≠ []) (a : V) (p : Bool) :
    jagg O f ys (jagg O f xs a p) true = jagg O f (xs ++ ys) a p :=
  (jagg_append O f xs ys a p hx)

/-- Over any splitting. -/
theorem C36_split (O : Ops V) (f : Fn) (x : List V) (hx : x ≠ []) (pieces : List (List V)) (a : V) :
    pieces.foldl (fun r ys => jagg O f ys r true) (jagg O f x a false) = jagg O f (x ++ pieces.flatten) a false := by
  induction pieces generalizing x with
  | nil => simp
  | cons y ys ih =>
    rw [List.foldl_cons, C36_continue O f x y hx, ih (x ++ y) (by simp [hx]), List.flatten_cons, List.append_assoc]

-- wrapping addition on 4 bits, not associative with the comparison
example : jagg (⟨fun a b => decide (a < b), fun a b => (a + b) % 16, 0⟩ : Ops Nat) .sum [9] (jagg ⟨fun a b => decide (a < b),
    fun a b => (a + b) % 16, 0⟩ .sum [7, 3] 5 false) true = 3 ∧
    jagg intOps .min [4, 1] (jagg intOps .min [3] 0 false) true = 1 := by decide

end

/-! ### C41: set-up of the columns -/

section
variable {R B V D : Type} [DecidableEq D] (O : D → Ops V) (get : R → Nat → V)

/-- An unknown column or function is refused, and nothing else. -/
theorem C41_accepts_iff (dtype : Nat → Option D) (agg : List (Nat × Nat × Option Fn)) :
    (∃ cfg, setupCumsegagg agg dtype = .ok cfg) ↔ ∀ e ∈ agg, dtype e.2.1 ≠ none ∧ e.2.2 ≠ none := by
  rcases setup_spec dtype agg with ⟨cfg, h1, _, h3⟩ | ⟨err, h1, e, he, h3⟩
  · exact ⟨fun _ => h3, fun _ => ⟨cfg, h1⟩⟩
  · constructor
    · rintro ⟨cfg, h⟩; rw [h1] at h; cases h
    · intro h
      rcases h3 with h3 | h3
      · exact absurd h3 (h e he).1
      · exact absurd h3 (h e he).2

/-- Whatever the accumulators `res` hold and the rows of `chunk`, each output column becomes its own function of its
own input column, from its own previous value. -/
theorem C41_columns (dtype : Nat → Option D) (agg : List (Nat × Nat × Option Fn)) (cfg : List (D × Group))
    (h : setupCumsegagg agg dtype = .ok cfg) (hout : (agg.map Prod.fst).Nodup) (out i : Nat) (f : Fn) (d : D)
    (he : (out, i, some f) ∈ agg) (hd : dtype i = some d) (chunks : List (List R × Bool)) (chunk : List R) (p : Bool) :
    ∃ v, readCol out cfg (chunks.foldl (fun a c => updCfg O get cfg c.1 a c.2) (chunkRes0 O cfg)) = some v ∧
      readCol out cfg (updCfg O get cfg chunk
        (chunks.foldl (fun a c => updCfg O get cfg c.1 a c.2) (chunkRes0 O cfg)) p) =
      some (jagg (O d) f (chunk.map fun row => get row i) v p) := by
  have hs : ∀ (l : List (List R × Bool)) a, Shaped cfg a →
      Shaped cfg (l.foldl (fun a c => updCfg O get cfg c.1 a c.2) a) := by
    intro l
    induction l with
    | nil => intro a h; exact h
    | cons c l ih => intro a h; exact ih _ (shaped_upd O get cfg _ _ _ h)
  obtain ⟨h1, h2⟩ := updCfg_col O get (cfgOk_of h) hout he hd _ (hs chunks _ (shaped_zero O cfg))
  obtain ⟨v, hv⟩ := Option.isSome_iff_exists.1 h1
  exact ⟨v, hv, by rw [h2, hv]; rfl⟩

-- two dtypes, shared functions and input columns
example :
    let dtype : Nat → Option Bool := fun i => if i = 0 then some false else if i ≤ 2 then some true else none
    let agg : List (Nat × Nat × Option Fn) :=
      [(10, 1, some .max), (11, 0, some .max), (12, 2, some .max), (13, 1, some .sum), (14, 2, some .first)]
    let get : (Int × Int × Int) → Nat → Int := fun r i => if i = 0 then r.1 else if i = 1 then r.2.1 else r.2.2
    let cfg := (setupCumsegagg agg dtype).toOption.getD []
    let res := updCfg (fun _ => intOps) get cfg [(1, 20, 300), (2, 10, 400)] (chunkRes0 (fun _ => intOps) cfg) false
    ([10, 11, 12, 13, 14].map fun o => readCol o cfg res) = [some 20, some 2, some 400, some 30, some 300] ∧
    (setupCumsegagg (agg ++ [(15, 3, some .max)]) dtype) = .error (.unknownColumn 3) := by decide

/-! ### C37: bins -/

/-- Any `bin_by`, without buffer: its chunk starts cut the rows, each result is the aggregate of its rows, null iff
there is none. Labels of bins are distinct when some bin has no row. -/
theorem C37_bins (dtype : Nat → Option D) (agg : List (Nat × Nat × Option Fn)) (cfg : List (D × Group))
    (h : setupCumsegagg agg dtype = .ok cfg) (hout : (agg.map Prod.fst).Nodup) (z : List (List V) → Bool)
    (fn : BinFn R B) (ordered : Option (R → Int)) (p : List R) (hp : p ≠ []) (r : BinRes) (b' : Option B)
    (hf : fn p none = .ok (r, b')) (ho : ∀ o, ordered = some o → AscOn o p) (hcl : r.closed ≠ none)
    (hl1 : r.labels.length = r.starts.length) (hl2 : r.ends.length = r.starts.length)
    (hm : r.starts.Pairwise (· ≤ ·)) (hle : ∀ t ∈ r.starts, t ≤ p.length) (hne : r.starts ≠ [])
    (hlab : r.labels.Nodup ∨ ∀ c ∈ cut p 0 r.starts, c ≠ []) :
    ∃ res b, frameCall O get cfg z fn ordered none false p none = .ok (some res, b) ∧ res.snaps = none ∧
      ∀ out i f d, (out, i, some f) ∈ agg → dtype i = some d →
        column cfg out res.bins =
          r.labels.zip ((cut p 0 r.starts).map fun rows => aggCol (O d) f (rows.map fun row => get row i)) := by
  have hc := cfgOk_of h
  have hcons : ∀ {A : Type}, Consistent p.length (none : Option (Buf B A)).isSome
      (((none : Option (Buf B A)).map Buf.seg).bind MainBuf.lastBinLabel) r := by
    intro A
    exact ⟨hcl, hl1, hl2, by simp, by simp, by simp⟩
  have hrows := readBins_rows (u := r.unknownLast) (rows := p) hl1 hl2 hne
  have hvals : ∀ {A : Type} (upd : List R → A → Bool → A) (a0 : A),
      setNulls r.labels (binVals upd a0 (before a0 (none : Option (Buf B A)) r.labels)
        (readBins r.starts r.labels r.ends r.unknownLast p)) =
      r.labels.zip ((cut p 0 r.starts).map fun rows => value upd a0 none rows) := by
    intro A upd a0
    have hb : before a0 (none : Option (Buf B A)) r.labels = none := rfl
    rw [hb, binVals_none, ← hrows, List.map_map, setNulls_eq]
    · rfl
    · rcases hlab with hlab | hlab
      · exact Or.inl hlab
      · right
        intro x hx
        obtain ⟨b, hb, rfl⟩ := List.mem_map.1 hx
        have : b.rows ≠ [] := hlab _ (by rw [← hrows]; exact List.mem_map.2 ⟨b, hb, rfl⟩)
        simp [value, this]
    · rw [List.length_map, readBins_length hl1 hl2 hne, hl1]
  obtain ⟨bu, hu⟩ := call_bins (A := Unit) unitHom () (fun _ => false) fn ordered p hp none r b' hf ho hcons hm hle hne
  obtain ⟨res, b, h1, h2, h3, h4⟩ := frame_call O get hc hout z fn ordered none p none (by simp) hu
  refine ⟨res, b, h1, ?_, ?_⟩
  · have := congrArg Res.snaps h2
    simpa [Res.proj] using this
  · intro out i f d he hd
    obtain ⟨b'', h5⟩ := h4 out i f d he hd
    obtain ⟨b3, h6⟩ := call_bins (colUpd_hom (O d) f fun r => get r i) (O d).zero (fun _ => false) fn ordered p hp none r b'
      hf ho hcons hm hle hne
    have h5' := h5
    simp only [Option.map_none] at h5'
    rw [h6] at h5'
    simp only [Except.ok.injEq, Prod.mk.injEq, Option.some.injEq] at h5'
    have h7 := congrArg Res.bins h5'.1
    simp only [Res.proj] at h7
    rw [column_eq O get hc hout he hd _ h3.1, ← h7, hvals]
    congr 1
    apply List.map_congr_left
    intro rows _
    exact value_col _ _ _ _ _

/-- Restart, any `bin_by`: the first result continues the rows `prev` of the bin in progress, whose aggregates are
kept in the buffer. -/
theorem C37_continue (dtype : Nat → Option D) (agg : List (Nat × Nat × Option Fn)) (cfg : List (D × Group))
    (h : setupCumsegagg agg dtype = .ok cfg) (hout : (agg.map Prod.fst).Nodup) (z : List (List V) → Bool)
    (fn : BinFn R B) (ordered : Option (R → Int)) (p : List R) (hp : p ≠ []) (buf : Buf B (List (List V)))
    (prev : List R) (hprev : prev ≠ []) (a : List (List V)) (hchunk : buf.chunk = some a) (hshape : Shaped cfg a)
    (hval : ∀ out i f d, (out, i, some f) ∈ agg → dtype i = some d →
      readCol out cfg a = aggCol (O d) f (prev.map fun row => get row i))
    (r : BinRes) (b' : Option B)
    (hf : fn p (some buf.seg.bin) = .ok (r, b')) (ho : ∀ o, ordered = some o → AscOn o p)
    (lbl : Int) (hlbl : buf.seg.lastBinLabel = some lbl)
    (hcons : Consistent p.length true (some lbl) r)
    (hm : r.starts.Pairwise (· ≤ ·))
    (c0 : List R) (cs : List (List R)) (hcut : cut p 0 r.starts = c0 :: cs)
    (hlab : r.labels.Nodup ∨ ∀ c ∈ cs, c ≠ []) :
    ∃ res b, frameCall O get cfg z fn ordered none false p (some buf) = .ok (some res, b) ∧ res.snaps = none ∧
      ∀ out i f d, (out, i, some f) ∈ agg → dtype i = some d →
        column cfg out res.bins =
          r.labels.zip (((prev ++ c0) :: cs).map fun rows => aggCol (O d) f (rows.map fun row => get row i)) := by
  have hc := cfgOk_of h
  have hl1 := hcons.labels_len
  have hl2 := hcons.ends_len
  have hne : r.starts ≠ [] := by intro h0; rw [h0] at hcut; simp [cut] at hcut
  have hle : ∀ t ∈ r.starts, t ≤ p.length := by
    have hl := hcons.covers rfl
    obtain ⟨l, hl'⟩ := List.getLast?_eq_some_iff.1 hl
    rw [hl'] at hm ⊢
    intro t ht
    rcases List.mem_append.1 ht with ht | ht
    · exact (List.pairwise_append.1 hm).2.2 t ht _ (by simp)
    · simp at ht; omega
  have hrows := readBins_rows (u := r.unknownLast) (rows := p) hl1 hl2 hne
  have hpres : ∀ {A : Type} (ch : Option A), preserves (some (⟨buf.seg, ch⟩ : Buf B A)) r.labels = true := by
    intro A ch
    simp only [preserves, Option.isSome_some, Option.map_some, Option.bind_some, hlbl, Bool.true_and]
    rw [decide_eq_true_iff]
    exact ⟨by simp, (hcons.label rfl lbl rfl).symm⟩
  have hvals : ∀ {A : Type} (upd : List R → A → Bool → A) (H : Hom upd) (a0 av : A),
      value upd a0 none prev = some av →
      setNulls r.labels (binVals upd a0 (before a0 (some (⟨buf.seg, some av⟩ : Buf B A)) r.labels)
        (readBins r.starts r.labels r.ends r.unknownLast p)) =
      r.labels.zip (((prev ++ c0) :: cs).map fun rows => value upd a0 none rows) := by
    intro A upd H a0 av hav
    have hb : before a0 (some (⟨buf.seg, some av⟩ : Buf B A)) r.labels = value upd a0 none prev := by
      simp only [before, hpres, if_true, hav]; rfl
    rw [hcut] at hrows
    rw [hb]
    cases hbins : readBins r.starts r.labels r.ends r.unknownLast p with
    | nil => rw [hbins] at hrows; simp at hrows
    | cons b0 bs =>
      rw [hbins] at hrows
      simp only [List.map_cons, List.cons.injEq] at hrows
      obtain ⟨hb0, hbs⟩ := hrows
      rw [binVals, value_append H, hb0, binVals_none, List.map_cons, ← hbs, List.map_map, setNulls_eq]
      · rfl
      · rcases hlab with hlab | hlab
        · exact Or.inl hlab
        · right
          intro x hx
          rcases List.mem_cons.1 hx with rfl | hx
          · simp [value, hprev]
          · obtain ⟨b, hb, rfl⟩ := List.mem_map.1 hx
            have : b.rows ≠ [] := hlab _ (by rw [← hbs]; exact List.mem_map.2 ⟨b, hb, rfl⟩)
            simp [value, this]
      · have := readBins_length (u := r.unknownLast) (rows := p) hl1 hl2 hne
        rw [hbins] at this
        rw [List.length_cons, List.length_map, hl1, ← this, List.length_cons]
  have hcons' : ∀ {A : Type} (ch : Option A), Consistent p.length (some (⟨buf.seg, ch⟩ : Buf B A)).isSome
      (((some (⟨buf.seg, ch⟩ : Buf B A)).map Buf.seg).bind MainBuf.lastBinLabel) r := by
    intro A ch
    simpa [hlbl] using hcons
  have hbuf : buf = ⟨buf.seg, some a⟩ := by rw [← hchunk]
  have hsh : ∀ b, some buf = some b → ∀ x, b.chunk = some x → Shaped cfg x := by
    intro b hb x hx
    cases hb
    rw [hchunk] at hx
    cases hx; exact hshape
  obtain ⟨bu, hu⟩ := call_bins (A := Unit) unitHom () (fun _ => false) fn ordered p hp (some ⟨buf.seg, some ()⟩) r b' hf ho
    (hcons' _) hm hle hne
  obtain ⟨res, b, h1, h2, h3, h4⟩ := frame_call O get hc hout z fn ordered none p (some buf) hsh (by
    rw [hbuf]; exact hu)
  refine ⟨res, b, h1, ?_, ?_⟩
  · have := congrArg Res.snaps h2
    simpa [Res.proj] using this
  · intro out i f d he hd
    obtain ⟨b'', h5⟩ := h4 out i f d he hd
    have hav : value (colUpd (O d) f fun r => get r i) (O d).zero none prev = some (colProj O cfg d out a) := by
      rw [value_col, ← hval out i f d he hd]
      have := (updCfg_col O get hc hout he hd a hshape).1
      obtain ⟨v, hv⟩ := Option.isSome_iff_exists.1 this
      rw [colProj, hv]; rfl
    obtain ⟨b3, h6⟩ := call_bins (colUpd_hom (O d) f fun r => get r i) (O d).zero (fun _ => false) fn ordered p hp
      (some ⟨buf.seg, some (colProj O cfg d out a)⟩) r b' hf ho (hcons' _) hm hle hne
    have h5' := h5
    rw [hbuf] at h5'
    simp only [Option.map_some, Buf.proj] at h5'
    rw [h6] at h5'
    simp only [Except.ok.injEq, Prod.mk.injEq, Option.some.injEq] at h5'
    have h7 := congrArg Res.bins h5'.1
    simp only [Res.proj] at h7
    rw [column_eq O get hc hout he hd _ h3.1, ← h7, hvals _ (colUpd_hom _ _ _) _ _ hav]
    congr 1
    apply List.map_congr_left
    intro rows _
    exact value_col _ _ _ _ _

/-- Two rows per bin. -/
def ex_cfg : List (Unit × Group) := (setupCumsegagg [(0, 0, some .sum), (1, 0, some .last)] fun _ => some ()).toOption.getD []

def ex_get : Int × Int → Nat → Int := fun r _ => r.2

example : setupCumsegagg [(0, 0, some .sum), (1, 0, some .last)] (fun _ => some ()) = .ok ex_cfg ∧
    ((frameCall (fun _ => intOps) ex_get ex_cfg (fun _ => false) (rowsFn 2 .left Prod.fst) none none false
      [(1, 10), (2, 20), (5, 30)] none).toOption.bind Prod.fst).map (fun r => (column ex_cfg 0 r.bins, column ex_cfg 1 r.bins)) =
      some ([(1, some 30), (5, some 30)], [(1, some 20), (5, some 30)]) ∧
    ((frameCall (fun _ => intOps) ex_get ex_cfg (fun _ => false) (grouperFn { freq := 10 } Prod.fst) none none false
      [(1, 10), (2, 20), (25, 30)] none).toOption.bind Prod.fst).map (fun r => column ex_cfg 0 r.bins) =
      some [(0, some 30), (10, none), (20, some 30)] := by decide

/-- Nulls are set by label: with repeated labels, a bin with rows is lost when another one of the same label is
empty. -/
theorem C37_repeated_labels_fails :
    let fn : BinFn (Int × Int) Unit := fun _ _ => .ok (⟨[1, 1], [7, 7], 1, some .left, [5, 9], false⟩, none)
    ((frameCall (fun _ => intOps) ex_get ex_cfg (fun _ => false) fn none none false [(1, 10)] none).toOption.bind
      Prod.fst).map (fun r => column ex_cfg 0 r.bins) = some [(7, none), (7, none)] := by decide

/-! ### C38: snapshots -/

/-- Any `bin_by` whose ends separate its bins, any snapshots in order: each snapshot holds the aggregates of the rows
of the bin in progress up to it. -/
theorem C38_snapshots (dtype : Nat → Option D) (agg : List (Nat × Nat × Option Fn)) (cfg : List (D × Group))
    (h : setupCumsegagg agg dtype = .ok cfg) (hout : (agg.map Prod.fst).Nodup) (z : List (List V) → Bool)
    (fn : BinFn R B) (pos : R → Int) (sn : Snaps) (hok : Snaps.Ok sn) (p : List R) (hp : p ≠ []) (hs : AscOn pos p)
    (r : BinRes) (b' : Option B) (hf : fn p none = .ok (r, b')) (c : Closed) (hcl : r.closed = some c)
    (hl1 : r.labels.length = r.starts.length) (hl2 : r.ends.length = r.starts.length)
    (hm : r.starts.Pairwise (· ≤ ·)) (hl : r.starts.getLast? = some p.length)
    (hsep : Separated (c == .right) pos (readBins r.starts r.labels r.ends r.unknownLast p))
    (hlab : LabelsOk (readBins r.starts r.labels r.ends r.unknownLast p))
    (ss : Seg) (sb : Option ScaleBuf) (hss : runSnaps sn c (p.map pos) none = .ok (ss, sb)) (hnd : ss.labels.Nodup) :
    ∃ res b, frameCall O get cfg z fn (some pos) (some sn) false p none = .ok (some res, b) ∧
      HasBins O get dtype agg cfg (readBins r.starts r.labels r.ends r.unknownLast p) res.bins ∧
      HasSnaps O get dtype agg cfg (c == .right) pos (readBins r.starts r.labels r.ends r.unknownLast p)
        (ss.labels.zip ss.ends) (res.snaps.getD []) ∧ res.snaps.isSome :=
  frame_call_snaps O get (cfgOk_of h) hout z fn pos sn hok p hp hs r b' hf c hcl hl1 hl2 hm hl hsep hlab ss sb hss hnd

/-- Explicit points over lawful bins. -/
theorem points_lawful {fn : BinFn R B} {pos : R → Int} {c : Closed} {b0 : B} {spec : List R → List (Bin R)}
    {ok : List R → B → Prop} (L : Lawful fn pos c b0 spec ok)
    (dtype : Nat → Option D) (agg : List (Nat × Nat × Option Fn)) (cfg : List (D × Group))
    (h : setupCumsegagg agg dtype = .ok cfg) (hout : (agg.map Prod.fst).Nodup) (z : List (List V) → Bool)
    (w : List R) (hw : w ≠ []) (hs : AscOn pos w)
    (l e : List Int) (hlen : l.length = e.length) (he : Asc e) (hnd : l.Nodup)
    (hlab : LabelsOk (spec w)) (hsep : Separated (c == .right) pos (spec w)) :
    ∃ (res : Res (List (List V))) (b : Option (Buf B (List (List V)))) (k : Nat),
      frameCall O get cfg z fn (some pos) (some (.values l e)) false w none = .ok (some res, b) ∧
      HasBins O get dtype agg cfg (spec w) res.bins ∧
      HasSnaps O get dtype agg cfg (c == .right) pos (spec w) ((l.zip e).take k) (res.snaps.getD []) ∧
      (∀ x ∈ e.drop k, ∃ y ∈ e.take k, ∀ v ∈ w, within (c == .right) y (pos v) = true) := by
  obtain ⟨r, h1, h2, h3⟩ := oneShot_lawful L w hw hs
  have hcl : r.closed = some c := by
    obtain ⟨r', b', g1, g2⟩ := L.noBuf w hw hs
    obtain ⟨r'', b'', g3, _, g4, _⟩ := L.step [] w b0 hw (by simpa using hs) L.init
    rw [g1] at g3
    rw [h1] at g2
    cases g3; cases g2; exact g4
  obtain ⟨ss, k, g1, g2, g3, g4⟩ := points_once l e hlen he c (w.map pos) (by rw [Asc, List.pairwise_map]; exact hs)
    (by simpa using hw)
  obtain ⟨res, b, k1, k2, k3, _⟩ := C38_snapshots O get dtype agg cfg h hout z fn pos (.values l e) he w hw hs r none h1 c hcl
    h3.labels_len h3.ends_len h3.mono h3.last (by rw [h2]; exact hsep) (by rw [h2]; exact hlab) ss none g1
    (by rw [g2]; exact hnd.sublist (List.take_sublist _ _))
  rw [h2] at k2 k3
  refine ⟨res, b, k, k1, k2, ?_, ?_⟩
  · have : (l.zip e).take k = ss.labels.zip ss.ends := by rw [g2, g3, List.zip_eq_zipWith, List.zip_eq_zipWith, List.take_zipWith]
    rw [this]; exact k3
  · intro x hx
    obtain ⟨y, hy, hy'⟩ := g4 x hx
    exact ⟨y, hy, fun v hv => hy' _ (List.mem_map.2 ⟨v, hv, rfl⟩)⟩

/-- Explicit points with distinct labels, `TimeGrouper` bins: all points up to the first one past the last row. -/
theorem C38_points_grouper (g : Grouper) (hg : Fixed g) (pos : R → Int)
    (dtype : Nat → Option D) (agg : List (Nat × Nat × Option Fn)) (cfg : List (D × Group))
    (h : setupCumsegagg agg dtype = .ok cfg) (hout : (agg.map Prod.fst).Nodup) (z : List (List V) → Bool)
    (w : List R) (hw : w ≠ []) (hs : AscOn pos w)
    (l e : List Int) (hlen : l.length = e.length) (he : Asc e) (hnd : l.Nodup) :
    ∃ (bins : List (Bin R)) (res : Res (List (List V))) (b : Option (Buf ScaleBuf (List (List V)))) (k : Nat),
      IsGrid (g.closed == .right) g.labelRight g.origin0 g.freq pos w bins ∧
      frameCall O get cfg z (grouperFn g pos) (some pos) (some (.values l e)) false w none = .ok (some res, b) ∧
      HasBins O get dtype agg cfg bins res.bins ∧
      HasSnaps O get dtype agg cfg (g.closed == .right) pos bins ((l.zip e).take k) (res.snaps.getD []) ∧
      (∀ x ∈ e.drop k, ∃ y ∈ e.take k, ∀ v ∈ w, within (g.closed == .right) y (pos v) = true) := by
  obtain ⟨res, b, k, h1, h2, h3, h4⟩ := points_lawful O get (grouper_lawful g g.origin0 hg.anchored pos) dtype agg cfg h hout z w
    hw hs l e hlen he hnd (gridSpec_labels _ _ _ _ _ _ hg.1) (gridSpec_sep _ _ _ _ _ _ hg.1)
  exact ⟨_, res, b, k, gridSpec_isGrid _ _ _ _ _ _ hg.1 hs, h1, h2, h3, h4⟩

/-- Explicit points, bins of `n` rows; positions all different when right-closed. -/
theorem C38_points_rows (n : Nat) (hn : 0 < n) (closed : Closed) (pos : R → Int)
    (dtype : Nat → Option D) (agg : List (Nat × Nat × Option Fn)) (cfg : List (D × Group))
    (h : setupCumsegagg agg dtype = .ok cfg) (hout : (agg.map Prod.fst).Nodup) (z : List (List V) → Bool)
    (w : List R) (hw : w ≠ []) (hs : AscOn pos w)
    (hstrict : closed = .right → w.Pairwise (fun a b => pos a < pos b))
    (l e : List Int) (hlen : l.length = e.length) (he : Asc e) (hnd : l.Nodup) :
    ∃ (bins : List (Bin R)) (res : Res (List (List V))) (b : Option (Buf (Option RowsBuf) (List (List V)))) (k : Nat),
      IsRowBins (closed == .right) n pos w bins ∧
      frameCall O get cfg z (rowsFn n closed pos) (some pos) (some (.values l e)) false w none = .ok (some res, b) ∧
      HasBins O get dtype agg cfg bins res.bins ∧
      HasSnaps O get dtype agg cfg (closed == .right) pos bins ((l.zip e).take k) (res.snaps.getD []) ∧
      (∀ x ∈ e.drop k, ∃ y ∈ e.take k, ∀ v ∈ w, within (closed == .right) y (pos v) = true) := by
  obtain ⟨res, b, k, h1, h2, h3, h4⟩ := points_lawful O get (rows_lawful n hn closed pos pos) dtype agg cfg h hout z w
    hw hs l e hlen he hnd (xBins_labels _ _ hn _ _) (xBins_sep _ _ hn _ _ hs (by
      intro hr; exact hstrict (by cases closed <;> simp_all)))
  exact ⟨_, res, b, k, xBins_spec _ n pos w hn, h1, h2, h3, h4⟩

-- bins [0, 10), [10, 20), [20, 30); snapshots at 2, 5, 12, 26, 40, 50
example : ((frameCall (fun _ => intOps) ex_get ex_cfg (fun _ => false) (grouperFn { freq := 10 } Prod.fst) (some Prod.fst)
      (some (.values [2, 5, 12, 26, 40, 50] [2, 5, 12, 26, 40, 50])) false
      [(1, 10), (2, 20), (25, 30), (27, 40)] none).toOption.bind Prod.fst).map
        (fun r => (column ex_cfg 0 r.bins, r.snaps.map (column ex_cfg 0))) =
      some ([(0, some 30), (10, none), (20, some 70)],
        some [(2, some 10), (5, some 30), (12, none), (26, some 30), (40, none)]) := by decide

/-! ### C39: snapshots and bins -/

/-- Any `bin_by` whose ends separate its bins, any snapshots in order, from any buffer: same bins with and without. -/
theorem C39_same_bins (dtype : Nat → Option D) (agg : List (Nat × Nat × Option Fn)) (cfg : List (D × Group))
    (h : setupCumsegagg agg dtype = .ok cfg) (hout : (agg.map Prod.fst).Nodup) (z : List (List V) → Bool)
    (fn : BinFn R B) (pos : R → Int) (sn : Snaps) (hok : Snaps.Ok sn) (p : List R) (hp : p ≠ []) (hs : AscOn pos p)
    (buf : Option (Buf B (List (List V)))) (hb : ∀ b, buf = some b → ∀ a, b.chunk = some a → Shaped cfg a)
    (r : BinRes) (b' : Option B) (hf : fn p (buf.map fun b => b.seg.bin) = .ok (r, b')) (c : Closed) (hcl : r.closed = some c)
    (hc : Consistent p.length buf.isSome (buf.bind fun b => b.seg.lastBinLabel) r)
    (hm : r.starts.Pairwise (· ≤ ·)) (hl : r.starts.getLast? = some p.length)
    (hsep : Separated (c == .right) pos (readBins r.starts r.labels r.ends r.unknownLast p))
    (ss : Seg) (sb : Option ScaleBuf)
    (hss : runSnaps sn c (p.map pos) (buf.map fun b => b.seg.snap) = .ok (ss, sb)) :
    ∃ res0 b0 res1 b1, frameCall O get cfg z fn (some pos) none false p buf = .ok (some res0, b0) ∧
      frameCall O get cfg z fn (some pos) (some sn) false p buf = .ok (some res1, b1) ∧
      res1.bins.map Prod.fst = res0.bins.map Prod.fst ∧
      ∀ out i f d, (out, i, some f) ∈ agg → dtype i = some d → column cfg out res1.bins = column cfg out res0.bins := by
  have hcfg := cfgOk_of h
  have hne : r.starts ≠ [] := by intro h; rw [h] at hl; simp at hl
  have hle : ∀ t ∈ r.starts, t ≤ p.length := by
    obtain ⟨l, hl'⟩ := List.getLast?_eq_some_iff.1 hl
    rw [hl'] at hm ⊢
    intro t ht
    rcases List.mem_append.1 ht with ht | ht
    · exact (List.pairwise_append.1 hm).2.2 t ht _ (by simp)
    · simp at ht; omega
  have hlen := runSnaps_labels sn c (p.map pos) (by rw [Asc, List.pairwise_map]; exact hs) (by simpa using hp) hok _ ss sb hss
  have hf' : ∀ {A : Type} (π : List (List V) → A), fn p ((buf.map (Buf.proj π)).map fun b => b.seg.bin) = .ok (r, b') := by
    intro A π; rw [← hf]; cases buf <;> rfl
  have hss' : ∀ {A : Type} (π : List (List V) → A),
      runSnaps sn c (p.map pos) ((buf.map (Buf.proj π)).map fun b => b.seg.snap) = .ok (ss, sb) := by
    intro A π; rw [← hss]; cases buf <;> rfl
  have hc' : ∀ {A : Type} (π : List (List V) → A), Consistent p.length (buf.map (Buf.proj π)).isSome
      (((buf.map (Buf.proj π)).map Buf.seg).bind MainBuf.lastBinLabel) r := by
    intro A π; cases buf <;> exact hc
  obtain ⟨u0, hu0⟩ := call_bins unitHom () (fun _ => false) fn (some pos) p hp (buf.map (Buf.proj fun _ => ())) r b' (hf' _)
    (by intro o ho; cases ho; exact hs) (hc' _) hm hle hne
  obtain ⟨u1, hu1⟩ := call_snaps unitHom () (fun _ => false) fn pos sn hok p hp (buf.map (Buf.proj fun _ => ())) r b' (hf' _) hs
    c hcl (hc' _) hm hl hsep ss sb (hss' _) hlen
  obtain ⟨res0, b0, p1, p2, p3, p4⟩ := frame_call O get hcfg hout z fn (some pos) none p buf hb hu0
  obtain ⟨res1, b1, q1, q2, q3, q4⟩ := frame_call O get hcfg hout z fn (some pos) (some sn) p buf hb hu1
  refine ⟨res0, b0, res1, b1, p1, q1, ?_, ?_⟩
  · rw [← projRows_fst (fun _ => ()) res0.bins, ← projRows_fst (fun _ => ()) res1.bins,
      show projRows (fun _ => ()) res0.bins = _ from congrArg Res.bins p2,
      show projRows (fun _ => ()) res1.bins = _ from congrArg Res.bins q2]
  · intro out i f d he hd
    obtain ⟨_, p5⟩ := p4 out i f d he hd
    obtain ⟨_, q5⟩ := q4 out i f d he hd
    obtain ⟨_, p6⟩ := call_bins (colUpd_hom (O d) f fun r => get r i) (O d).zero (fun _ => false) fn (some pos) p hp
      (buf.map (Buf.proj (colProj O cfg d out))) r b' (hf' _) (by intro o ho; cases ho; exact hs) (hc' _) hm hle hne
    obtain ⟨_, q6⟩ := call_snaps (colUpd_hom (O d) f fun r => get r i) (O d).zero (fun _ => false) fn pos sn hok p hp
      (buf.map (Buf.proj (colProj O cfg d out))) r b' (hf' _) hs c hcl (hc' _) hm hl hsep ss sb (hss' _) hlen
    rw [p6] at p5
    rw [q6] at q5
    simp only [Except.ok.injEq, Prod.mk.injEq, Option.some.injEq] at p5 q5
    have p7 := congrArg Res.bins p5.1
    have q7 := congrArg Res.bins q5.1
    simp only [Res.proj] at p7 q7
    rw [column_eq O get hcfg hout he hd _ p3.1, column_eq O get hcfg hout he hd _ q3.1, ← p7, ← q7]

/-- `TimeGrouper` bins are separated by their ends. -/
theorem C39_grouper_separated (g : Grouper) (hg : Fixed g) (pos : R → Int) (w : List R) (hs : AscOn pos w)
    (bins : List (Bin R)) (h : IsGrid (g.closed == .right) g.labelRight g.origin0 g.freq pos w bins) :
    Separated (g.closed == .right) pos bins := by
  unfold IsGrid at h
  split at h
  · obtain ⟨c0, c1, _, _, _, rfl⟩ := h
    exact gridBins_sep _ _ _ _ _ _ _ _ hg.1
  · rw [h]; trivial

-- four rows, snapshots in the middle of bins
example : ((frameCall (fun _ => intOps) ex_get ex_cfg (fun _ => false) (rowsFn 2 .right Prod.fst) (some Prod.fst)
      (some (.values [1, 3] [1, 3])) false [(1, 10), (2, 20), (3, 30), (4, 40)] none).toOption.bind Prod.fst).map
        (fun r => (column ex_cfg 0 r.bins, r.snaps.map (column ex_cfg 0))) =
      some ([(1, some 30), (3, some 70)], some [(1, some 10), (3, some 30)]) ∧
    ((frameCall (fun _ => intOps) ex_get ex_cfg (fun _ => false) (rowsFn 2 .right Prod.fst) (some Prod.fst)
      none false [(1, 10), (2, 20), (3, 30), (4, 40)] none).toOption.bind Prod.fst).map (fun r => column ex_cfg 0 r.bins) =
      some [(1, some 30), (3, some 70)] := by decide

/-- Right-closed bins of 2 rows, all at the same position: a snapshot at this position moves the rows of the second
bin in the first one. -/
theorem C39_ties_fails :
    ((frameCall (fun _ => intOps) ex_get ex_cfg (fun _ => false) (rowsFn 2 .right Prod.fst) (some Prod.fst)
      (some (.values [1] [1])) false [(1, 10), (1, 20), (1, 30), (1, 40)] none).toOption.bind Prod.fst).map
        (fun r => column ex_cfg 0 r.bins) ≠
    ((frameCall (fun _ => intOps) ex_get ex_cfg (fun _ => false) (rowsFn 2 .right Prod.fst) (some Prod.fst)
      none false [(1, 10), (1, 20), (1, 30), (1, 40)] none).toOption.bind Prod.fst).map (fun r => column ex_cfg 0 r.bins) := by
  decide

/-! ### C40: null buffers -/

/-- Any `bin_by` counting its empty bins, any snapshots in order: the rows recorded as null fit in the arrays. -/
theorem C40_bounds {A : Type} (upd : List R → A → Bool → A) (preserve : Bool) (res : A)
    (fn : BinFn R B) (pos : R → Int) (sn : Option Snaps) (hok : ∀ x, sn = some x → Snaps.Ok x) (p : List R) (hp : p ≠ [])
    (buf : Option (MainBuf B)) (r : BinRes) (b' : Option B) (hf : fn p (buf.map MainBuf.bin) = .ok (r, b'))
    (hm : r.starts.Pairwise (· ≤ ·)) (hl : r.starts.getLast? = some p.length)
    (hnull : r.nNull = (cut p 0 r.starts).countP List.isEmpty)
    (hend : Ended pos (readBins r.starts r.labels r.ends r.unknownLast p))
    (s : SegRes) (seg : Option (MainBuf B)) (h : segmentby fn (some pos) sn p buf = .ok (s, seg)) :
    (jcsagg upd p s.starts s.binIndices (decide ((s.snapLabels.map List.length).getD 0 ≠ 0)) preserve res).1.countP
        Option.isNone ≤ s.nNullBins ∧
    (jcsagg upd p s.starts s.binIndices (decide ((s.snapLabels.map List.length).getD 0 ≠ 0)) preserve res).2.1.countP
        Option.isNone ≤ s.nMaxNullSnaps := by
  have hne : r.starts ≠ [] := by intro h; rw [h] at hl; simp at hl
  have hle : ∀ t ∈ r.starts, t ≤ p.length := by
    obtain ⟨l, hl'⟩ := List.getLast?_eq_some_iff.1 hl
    rw [hl'] at hm ⊢
    intro t ht
    rcases List.mem_append.1 ht with ht | ht
    · exact (List.pairwise_append.1 hm).2.2 t ht _ (by simp)
    · simp at ht; omega
  have hnosnap : ∀ (starts idx : List Nat) (A : Type) (upd : List R → A → Bool → A) (preserve : Bool) (res : A),
      (jcsagg upd p starts idx false preserve res).2.1 = [] := by
    intro starts idx A upd preserve res
    unfold jcsagg
    simp only [Bool.false_eq_true, if_false]
    have : ∀ (l : List Nat) (st : St A), ((jloop upd p st (l.map fun s => (true, s))).1.filter (fun r => !r.1)) = [] := by
      intro l
      induction l with
      | nil => intro st; rfl
      | cons x l ih => intro st; simp only [List.map_cons, jloop]; rw [List.filter_cons]; simp [ih]
    rw [this]; rfl
  cases sn with
  | none =>
    rw [segmentby_noSnap_iff] at h
    obtain ⟨r', b'', h1, _, _, h4⟩ := h
    rw [hf] at h1
    cases h1
    simp only [Prod.mk.injEq] at h4
    rw [h4.1]
    simp only [Option.map_none, Option.getD_none, ne_eq, not_true_eq_false, decide_false]
    rw [hnosnap, hnull]
    exact ⟨nulls_bins upd preserve res hm hle, by simp⟩
  | some sn =>
    obtain ⟨r', b'', o, c, ss, sb, h1, h2, h3, h4, h5, h6, h7, h8⟩ := segmentby_snap_ok fn _ sn p buf _ h
    rw [hf] at h1
    cases h1
    cases h2
    have hasc : Asc (p.map pos) := by rw [Asc, List.pairwise_map]; exact h3
    obtain ⟨f1, f2, f3⟩ := runSnaps_facts sn (hok sn rfl) c (p.map pos) hasc (by simpa using hp) _ ss sb h6
    have flen := runSnaps_labels sn c (p.map pos) hasc (by simpa using hp) (hok sn rfl) _ ss sb h6
    have hs8 := congrArg Prod.fst h8
    simp only at hs8 h7
    rw [f2] at h7
    obtain ⟨n1, n2⟩ := nulls_snaps upd preserve res h5.labels_len h5.ends_len hm hl hend f1 h7
    have e1 : s.snapLabels = some ss.labels := by rw [hs8]
    have e2 : s.nNullBins = r.nNull := by rw [hs8]
    have e3 : s.nMaxNullSnaps = ss.nNull + binsFollowedBySnap s.starts s.binIndices := by rw [hs8]
    rw [e1, e2, e3, hnull, f3, f2]
    by_cases h0 : ss.labels.length = 0
    · -- no snapshot: bins only
      simp only [Option.map_some, Option.getD_some, h0, ne_eq, not_true_eq_false, decide_false, hnosnap, List.countP_nil,
        Nat.zero_le, and_true]
      have he : ss.ends = [] := List.length_eq_zero_iff.1 (by omega)
      rw [he, List.map_nil, mergesort_eq [] _ [] _ _ rfl h5.ends_len List.Pairwise.nil
        (ends_asc h5.labels_len h5.ends_len hne hend) hne] at h7
      simp only [Except.ok.injEq, Prod.mk.injEq] at h7
      have hall : events (evs false [] []) (evs true r.ends r.starts) r.unknownLast = evs true r.ends r.starts := by
        unfold events
        simp only [evs, List.zip_nil_right, List.map_nil, mergeEv]
        split
        · generalize (r.ends.zip r.starts).map (fun p => ((p.1, true, p.2) : Ev)) = l
          rcases List.eq_nil_or_concat l with rfl | ⟨l', x, rfl⟩
          · rfl
          · simp
        · rfl
      rw [← h7.1, hall, evs_map_snd _ _ _ h5.ends_len]
      exact nulls_bins upd preserve res hm hle
    · rw [show decide ((some ss.labels |>.map List.length).getD 0 ≠ 0) = true by simpa using h0]
      exact ⟨n1, n2⟩

/-- Bins and snapshots of `TimeGrouper`s, at any call of a stream. -/
theorem C40_grouper {A : Type} (upd : List R → A → Bool → A) (preserve : Bool) (res : A) (g : Grouper) (hg : Fixed g)
    (pos : R → Int) (sn : Option Snaps) (hok : ∀ x, sn = some x → Snaps.Ok x)
    (pieces : List (List R)) (hpieces : ∀ q ∈ pieces, q ≠ []) (bins : List (Bin R)) (b : ScaleBuf)
    (hstream : streamBins (grouperFn g pos) {} [] pieces = .ok (bins, b))
    (p : List R) (hp : p ≠ []) (hs : AscOn pos (pieces.flatten ++ p)) (buf : MainBuf ScaleBuf) (hbuf : buf.bin = b)
    (s : SegRes) (seg : Option (MainBuf ScaleBuf)) (h : segmentby (grouperFn g pos) (some pos) sn p (some buf) = .ok (s, seg)) :
    (jcsagg upd p s.starts s.binIndices (decide ((s.snapLabels.map List.length).getD 0 ≠ 0)) preserve res).1.countP
        Option.isNone ≤ s.nNullBins ∧
    (jcsagg upd p s.starts s.binIndices (decide ((s.snapLabels.map List.length).getD 0 ≠ 0)) preserve res).2.1.countP
        Option.isNone ≤ s.nMaxNullSnaps := by
  have L := grouper_lawful g g.origin0 hg.anchored pos
  obtain ⟨b', hb1, hb2⟩ := stream_lawful L [] pieces {} hpieces
    (by simpa using hs.sublist (List.sublist_append_left _ _)) L.init
  rw [L.spec_nil, hstream] at hb1
  simp only [Except.ok.injEq, Prod.mk.injEq] at hb1
  obtain ⟨r, b'', h1, _, h3, h4⟩ := L.step _ p b' hp (by simpa using hs) hb2
  have hbb : b' = buf.bin := by rw [hbuf]; exact hb1.2.symm
  rw [hbb] at h1
  refine C40_bounds upd preserve res _ pos sn hok p hp (some buf) r _ h1 h4.mono h4.last h4.null ?_ s seg h
  have hsep := gridSpec_sep (g.closed == .right) g.labelRight g.origin0 g.freq pos ([] ++ pieces.flatten ++ p) hg.1
  obtain ⟨f, tl, hft, hcase⟩ := step_cases L (by simpa using hs) h4
  rw [hft]
  rcases hcase with ⟨hh, hsp⟩ | ⟨hh, bs, l, hsp1, hsp2, _⟩
  · rw [hsp] at hsep; exact hsep.ended
  · rw [hsp2] at hsep
    exact ended_local (ended_suffix hsep.ended)

/-- Bins of `n` rows, whichever rows share a position. -/
theorem C40_rows {A : Type} (upd : List R → A → Bool → A) (preserve : Bool) (res : A) (n : Nat) (hn : 0 < n)
    (closed : Closed) (pos : R → Int) (sn : Option Snaps) (hok : ∀ x, sn = some x → Snaps.Ok x)
    (pieces : List (List R)) (hpieces : ∀ q ∈ pieces, q ≠ []) (bins : List (Bin R)) (b : Option RowsBuf)
    (hstream : streamBins (rowsFn n closed pos) none [] pieces = .ok (bins, b))
    (p : List R) (hp : p ≠ []) (hs : AscOn pos (pieces.flatten ++ p))
    (buf : MainBuf (Option RowsBuf)) (hbuf : buf.bin = b)
    (s : SegRes) (seg : Option (MainBuf (Option RowsBuf)))
    (h : segmentby (rowsFn n closed pos) (some pos) sn p (some buf) = .ok (s, seg)) :
    (jcsagg upd p s.starts s.binIndices (decide ((s.snapLabels.map List.length).getD 0 ≠ 0)) preserve res).1.countP
        Option.isNone ≤ s.nNullBins ∧
    (jcsagg upd p s.starts s.binIndices (decide ((s.snapLabels.map List.length).getD 0 ≠ 0)) preserve res).2.1.countP
        Option.isNone ≤ s.nMaxNullSnaps := by
  have L := rows_lawful n hn closed pos pos
  obtain ⟨b', hb1, hb2⟩ := stream_lawful L [] pieces none hpieces
    (by simpa using hs.sublist (List.sublist_append_left _ _)) L.init
  rw [L.spec_nil, hstream] at hb1
  simp only [Except.ok.injEq, Prod.mk.injEq] at hb1
  obtain ⟨r, b'', h1, _, h3, h4⟩ := L.step _ p b' hp (by simpa using hs) hb2
  have hbb : b' = buf.bin := by rw [hbuf]; exact hb1.2.symm
  rw [hbb] at h1
  refine C40_bounds upd preserve res _ pos sn hok p hp (some buf) r _ h1 h4.mono h4.last h4.null ?_ s seg h
  have hend := xBins_ended (closed == .right) n hn pos ([] ++ pieces.flatten ++ p) (by simpa using hs)
  obtain ⟨f, tl, hft, hcase⟩ := step_cases L (by simpa using hs) h4
  rw [hft]
  rcases hcase with ⟨hh, hsp⟩ | ⟨hh, bs, l, hsp1, hsp2, _⟩
  · rw [hsp] at hend; exact hend
  · rw [hsp2] at hend
    exact ended_local (ended_suffix hend)

-- the bound on bins is reached: bins 0..10, 10..20, 20..30; snapshots each 5
example :
    let s := ((segmentby (grouperFn { freq := 10 } id) (some id) (some (.grouper { freq := 5 })) [1, 2, 25] none).toOption.map
      Prod.fst).getD ⟨[], [], [], 0, none, 0⟩
    let j := jcsagg (fun _ _ _ => ()) [1, 2, 25] s.starts s.binIndices true false ()
    s.nNullBins = 1 ∧ s.nMaxNullSnaps = 6 ∧ j.1 = [some (), none, some ()] ∧
      j.2.1 = [some (), some (), none, none, none, some ()] := by decide

-- right-closed bins of 2 rows, the rows of two of them at the same position: the first snapshot is placed before the
-- first bin, so that chunk starts go back from 4 to 2; the second snapshot is null
example :
    let s := ((segmentby (rowsFn 2 .right id) (some id) (some (.values [1, 2] [1, 2])) [1, 1, 1, 1, 3] none).toOption.map
      Prod.fst).getD ⟨[], [], [], 0, none, 0⟩
    let j := jcsagg (fun _ _ _ => ()) [1, 1, 1, 1, 3] s.starts s.binIndices true false ()
    s.starts = [4, 2, 4, 4, 5] ∧ s.nNullBins = 0 ∧ s.nMaxNullSnaps = 2 ∧ j.1 = [some (), some (), some ()] ∧
      j.2.1 = [some (), none] := by decide

/-- A user-defined `bin_by` whose ends are not those of its rows passes all checks, yet more snapshots are null than
the array can hold. -/
theorem C40_inconsistent_ends_fails :
    let fn : BinFn Int Unit := fun _ _ => .ok (⟨[2, 4], [0, 1], 0, some .left, [1, 10], false⟩, none)
    let s := ((segmentby fn (some id) (some (.values [6, 7, 9] [6, 7, 9])) [5, 6, 7, 8] none).toOption.map
      Prod.fst).getD ⟨[], [], [], 0, none, 0⟩
    let j := jcsagg (fun _ _ _ => ()) [5, 6, 7, 8] s.starts s.binIndices true false ()
    (segmentby fn (some id) (some (.values [6, 7, 9] [6, 7, 9])) [5, 6, 7, 8] none).toOption.isSome ∧
      s.nMaxNullSnaps < j.2.1.countP Option.isNone := by decide

/-! ### C42, C43: successive calls -/

/-- Bins of `n` rows: successive calls sharing a buffer and one call give the same columns, those of the bins of `n`
rows of the whole. -/
theorem C42_rows (n : Nat) (hn : 0 < n) (closed : Closed) (pos : R → Int) (ordered : Option (R → Int))
    (dtype : Nat → Option D) (agg : List (Nat × Nat × Option Fn)) (cfg : List (D × Group))
    (h : setupCumsegagg agg dtype = .ok cfg) (hout : (agg.map Prod.fst).Nodup) (z : List (List V) → Bool)
    (pieces : List (List R)) (hne : pieces.flatten ≠ []) (ho : ∀ o, ordered = some o → AscOn o pieces.flatten) :
    ∃ bins stream b one, IsRowBins (closed == .right) n pos pieces.flatten bins ∧
      streamAgg (frameCall O get cfg z (rowsFn n closed pos) ordered none false) ⟨[], none⟩ (some (Buf.init none)) pieces =
        .ok (stream, b) ∧
      frameCall O get cfg z (rowsFn n closed pos) ordered none false pieces.flatten none = .ok (some one, none) ∧
      HasBins O get dtype agg cfg bins stream.bins ∧ HasBins O get dtype agg cfg bins one.bins := by
  have L := rows_lawful n hn closed pos (fun _ => 0)
  have hz : AscOn (fun _ : R => (0 : Int)) pieces.flatten := List.pairwise_of_forall (fun _ _ => Int.le_refl _)
  obtain ⟨stream, b, h1, _, h2⟩ := frame_stream_bins O get L (cfgOk_of h) hout z ordered pieces hz ho
    (fun q _ => xBins_labels _ n hn pos q)
  obtain ⟨one, h3, _, h4⟩ := frame_oneshot_bins O get L (cfgOk_of h) hout z ordered pieces.flatten hne hz ho
    (fun q _ => xBins_labels _ n hn pos q)
  exact ⟨_, stream, b, one, xBins_spec _ n pos _ hn, h1, h3, h2, h4⟩

/-- Bins of a `TimeGrouper`. -/
theorem C42_grouper (g : Grouper) (hg : Fixed g) (pos : R → Int) (ordered : Option (R → Int))
    (dtype : Nat → Option D) (agg : List (Nat × Nat × Option Fn)) (cfg : List (D × Group))
    (h : setupCumsegagg agg dtype = .ok cfg) (hout : (agg.map Prod.fst).Nodup) (z : List (List V) → Bool)
    (pieces : List (List R)) (hne : pieces.flatten ≠ []) (hs : AscOn pos pieces.flatten)
    (ho : ∀ o, ordered = some o → AscOn o pieces.flatten) :
    ∃ bins stream b one, IsGrid (g.closed == .right) g.labelRight g.origin0 g.freq pos pieces.flatten bins ∧
      streamAgg (frameCall O get cfg z (grouperFn g pos) ordered none false) ⟨[], none⟩ (some (Buf.init {})) pieces =
        .ok (stream, b) ∧
      frameCall O get cfg z (grouperFn g pos) ordered none false pieces.flatten none = .ok (some one, none) ∧
      HasBins O get dtype agg cfg bins stream.bins ∧ HasBins O get dtype agg cfg bins one.bins := by
  have L := grouper_lawful g g.origin0 hg.anchored pos
  obtain ⟨stream, b, h1, _, h2⟩ := frame_stream_bins O get L (cfgOk_of h) hout z ordered pieces hs ho
    (fun q _ => gridSpec_labels _ _ _ _ _ _ hg.1)
  obtain ⟨one, h3, _, h4⟩ := frame_oneshot_bins O get L (cfgOk_of h) hout z ordered pieces.flatten hne hs ho
    (fun q _ => gridSpec_labels _ _ _ _ _ _ hg.1)
  exact ⟨_, stream, b, one, gridSpec_isGrid _ _ _ _ _ _ hg.1 hs, h1, h3, h2, h4⟩

/-- Hence equal columns. -/
theorem C42_same (dtype : Nat → Option D) (agg : List (Nat × Nat × Option Fn)) (cfg : List (D × Group))
    (bins : List (Bin R)) (x y : List (Int × Option (List (List V)))) (h1 : HasBins O get dtype agg cfg bins x)
    (h2 : HasBins O get dtype agg cfg bins y) :
    x.map Prod.fst = y.map Prod.fst ∧ ∀ out i f d, (out, i, some f) ∈ agg → dtype i = some d →
      column cfg out x = column cfg out y :=
  ⟨h1.1.trans h2.1.symm, fun out i f d he hd => (h1.2 out i f d he hd).trans (h2.2 out i f d he hd).symm⟩

example : ((streamAgg (frameCall (fun _ => intOps) ex_get ex_cfg (fun _ => false) (rowsFn 3 .left Prod.fst) none none false)
      ⟨[], none⟩ (some (Buf.init none)) [[(1, 10)], [(2, 20), (3, 30), (4, 40)], [(5, 50)]]).toOption.map
        (fun r => (column ex_cfg 0 r.1.bins, column ex_cfg 1 r.1.bins))) =
      some ([(1, some 60), (4, some 90)], [(1, some 30), (4, some 50)]) ∧
    ((streamAgg (frameCall (fun _ => intOps) ex_get ex_cfg (fun _ => false) (grouperFn { freq := 10 } Prod.fst) none none false)
      ⟨[], none⟩ (some (Buf.init {})) [[(1, 10)], [(2, 20), (23, 30)], [(25, 50)]]).toOption.map
        (fun r => column ex_cfg 0 r.1.bins)) =
      some [(0, some 30), (10, none), (20, some 80)] := by decide

/-- Bins and snapshots of `TimeGrouper`s (`gs` takes the closure of the bins): bins and snapshots of successive
calls are those of one call, with the snapshots of the grid of `gs`. -/
theorem C43_grouper (g : Grouper) (hg : Fixed g) (gs : Grouper) (hgs : Fixed gs) (pos : R → Int)
    (dtype : Nat → Option D) (agg : List (Nat × Nat × Option Fn)) (cfg : List (D × Group))
    (h : setupCumsegagg agg dtype = .ok cfg) (hout : (agg.map Prod.fst).Nodup) (z : List (List V) → Bool)
    (pieces : List (List R)) (hne : pieces.flatten ≠ []) (hs : AscOn pos pieces.flatten) :
    ∃ bins pts stream b one, IsGrid (g.closed == .right) g.labelRight g.origin0 g.freq pos pieces.flatten bins ∧
      (∃ sbins : List (Bin R), IsGrid (g.closed == .right) gs.labelRight gs.origin0 gs.freq pos pieces.flatten sbins ∧
        pts.map (fun q => (q.1, some q.2)) = sbins.map fun b => (b.label, b.stop)) ∧
      streamAgg (frameCall O get cfg z (grouperFn g pos) (some pos) (some (.grouper gs)) false) ⟨[], none⟩
        (some (Buf.init {})) pieces = .ok (stream, b) ∧
      frameCall O get cfg z (grouperFn g pos) (some pos) (some (.grouper gs)) false pieces.flatten none = .ok (some one, none) ∧
      HasBins O get dtype agg cfg bins stream.bins ∧ HasBins O get dtype agg cfg bins one.bins ∧
      HasSnaps O get dtype agg cfg (g.closed == .right) pos bins pts (stream.snaps.getD []) ∧
      HasSnaps O get dtype agg cfg (g.closed == .right) pos bins pts (one.snaps.getD []) ∧
      stream.snaps.isSome ∧ one.snaps.isSome := by
  have L := grouper_lawful g g.origin0 hg.anchored pos
  have SL := grouper_snaps gs gs.origin0 hgs.anchored g.closed pos
  obtain ⟨stream, b, h1, h2, h3, h4⟩ := frame_stream_snaps O get L (cfgOk_of h) hout z SL pieces hs
    (fun q _ => gridSpec_labels _ _ _ _ _ _ hg.1) (fun q _ => gridSpec_sep _ _ _ _ _ _ hg.1)
  obtain ⟨one, g1, g2, g3, g4⟩ := frame_oneshot_snaps O get L (cfgOk_of h) hout z SL pieces.flatten hne hs
    (fun q _ => gridSpec_labels _ _ _ _ _ _ hg.1) (fun q _ => gridSpec_sep _ _ _ _ _ _ hg.1)
  refine ⟨_, _, stream, b, one, gridSpec_isGrid _ _ _ _ _ _ hg.1 hs, ⟨_, gridSpec_isGrid _ _ _ _ _ _ hgs.1 hs, ?_⟩,
    h1, g1, h2, g2, h3, g3, h4 hne, g4⟩
  unfold gridPts
  rw [List.map_map]
  apply List.map_congr_left
  intro x hx
  simp only [Function.comp, Prod.mk.injEq, true_and]
  unfold gridSpec at hx
  split at hx
  · obtain ⟨c, _, _, hst, _⟩ := mem_gridBins hx
    rw [hst]; rfl
  · simp at hx

example : ((streamAgg (frameCall (fun _ => intOps) ex_get ex_cfg (fun _ => false) (grouperFn { freq := 10 } Prod.fst)
      (some Prod.fst) (some (.grouper { freq := 5 })) false)
      ⟨[], none⟩ (some (Buf.init {})) [[(1, 10)], [(2, 20), (13, 30)], [(14, 50), (21, 60)]]).toOption.map
        (fun r => (column ex_cfg 0 r.1.bins, r.1.snaps.map (column ex_cfg 0)))) =
      some ([(0, some 30), (10, some 80), (20, some 60)],
        some [(0, some 30), (5, some 30), (10, some 80), (15, some 80), (20, some 60)]) := by decide

/-- Bins of `n` rows, snapshots of a `TimeGrouper`; positions all different when right-closed. -/
theorem C43_rows (n : Nat) (hn : 0 < n) (closed : Closed) (gs : Grouper) (hgs : Fixed gs) (pos : R → Int)
    (dtype : Nat → Option D) (agg : List (Nat × Nat × Option Fn)) (cfg : List (D × Group))
    (h : setupCumsegagg agg dtype = .ok cfg) (hout : (agg.map Prod.fst).Nodup) (z : List (List V) → Bool)
    (pieces : List (List R)) (hne : pieces.flatten ≠ []) (hs : AscOn pos pieces.flatten)
    (hstrict : closed = .right → pieces.flatten.Pairwise (fun a b => pos a < pos b)) :
    ∃ bins pts stream b one, IsRowBins (closed == .right) n pos pieces.flatten bins ∧
      (∃ sbins : List (Bin R), IsGrid (closed == .right) gs.labelRight gs.origin0 gs.freq pos pieces.flatten sbins ∧
        pts.map (fun q => (q.1, some q.2)) = sbins.map fun b => (b.label, b.stop)) ∧
      streamAgg (frameCall O get cfg z (rowsFn n closed pos) (some pos) (some (.grouper gs)) false) ⟨[], none⟩
        (some (Buf.init none)) pieces = .ok (stream, b) ∧
      frameCall O get cfg z (rowsFn n closed pos) (some pos) (some (.grouper gs)) false pieces.flatten none =
        .ok (some one, none) ∧
      HasBins O get dtype agg cfg bins stream.bins ∧ HasBins O get dtype agg cfg bins one.bins ∧
      HasSnaps O get dtype agg cfg (closed == .right) pos bins pts (stream.snaps.getD []) ∧
      HasSnaps O get dtype agg cfg (closed == .right) pos bins pts (one.snaps.getD []) ∧
      stream.snaps.isSome ∧ one.snaps.isSome := by
  have L := rows_lawful n hn closed pos pos
  have SL := grouper_snaps gs gs.origin0 hgs.anchored closed pos
  have hsep : ∀ q, q <+: pieces.flatten → Separated (closed == .right) pos (xBins (closed == .right) n pos q) := by
    intro q hq
    exact xBins_sep _ n hn pos q (hs.sublist hq.sublist) (by
      intro hr; exact (hstrict (by cases closed <;> simp_all)).sublist hq.sublist)
  obtain ⟨stream, b, h1, h2, h3, h4⟩ := frame_stream_snaps O get L (cfgOk_of h) hout z SL pieces hs
    (fun q _ => xBins_labels _ n hn pos q) hsep
  obtain ⟨one, g1, g2, g3, g4⟩ := frame_oneshot_snaps O get L (cfgOk_of h) hout z SL pieces.flatten hne hs
    (fun q _ => xBins_labels _ n hn pos q) hsep
  refine ⟨_, _, stream, b, one, xBins_spec _ n pos _ hn, ⟨_, gridSpec_isGrid _ _ _ _ _ _ hgs.1 hs, ?_⟩,
    h1, g1, h2, g2, h3, g3, h4 hne, g4⟩
  unfold gridPts
  rw [List.map_map]
  apply List.map_congr_left
  intro x hx
  simp only [Function.comp, Prod.mk.injEq, true_and]
  unfold gridSpec at hx
  split at hx
  · obtain ⟨c, _, _, hst, _⟩ := mem_gridBins hx
    rw [hst]; rfl
  · simp at hx

example : ((streamAgg (frameCall (fun _ => intOps) ex_get ex_cfg (fun _ => false) (rowsFn 2 .left Prod.fst)
      (some Prod.fst) (some (.grouper { freq := 5 })) false)
      ⟨[], none⟩ (some (Buf.init none)) [[(1, 10)], [(2, 20), (13, 30)], [(14, 50), (21, 60)]]).toOption.map
        (fun r => (column ex_cfg 0 r.1.bins, r.1.snaps.map (column ex_cfg 0)))) =
      some ([(1, some 30), (13, some 80), (21, some 60)],
        some [(0, some 30), (5, some 30), (10, some 80), (15, some 80), (20, some 60)]) := by decide

/-! ### C44: zeros -/

/-- A value of a column of the frame is zero. -/
def HasZero (eq0 : D → V → Bool) (dtype : Nat → Option D) (agg : List (Nat × Nat × Option Fn)) (cfg : List (D × Group))
    (rows : List (Int × Option (List (List V)))) : Prop :=
  ∃ out i f d l v, (out, i, some f) ∈ agg ∧ dtype i = some d ∧ (l, some v) ∈ column cfg out rows ∧ eq0 d v = true

theorem anyZero_iff {eq0 : D → V → Bool} {dtype : Nat → Option D} {agg : List (Nat × Nat × Option Fn)}
    {cfg : List (D × Group)} (h : CfgOk dtype agg cfg) (hout : (agg.map Prod.fst).Nodup)
    (rows : List (Int × Option (List (List V)))) (hs : ∀ x ∈ rows, ∀ a, x.2 = some a → Shaped cfg a) :
    anyZero (rowZero eq0 cfg) rows = true ↔ HasZero eq0 dtype agg cfg rows := by
  unfold anyZero HasZero column
  rw [List.any_eq_true]
  constructor
  · rintro ⟨⟨l, a⟩, hx, hz⟩
    cases a with
    | none => cases hz
    | some a =>
      obtain ⟨out, i, f, d, v, h1, h2, h3, h4⟩ := (rowZero_iff h hout eq0 a (hs _ hx a rfl)).1 hz
      exact ⟨out, i, f, d, l, v, h1, h2, List.mem_map.2 ⟨_, hx, by simp [h3]⟩, h4⟩
  · rintro ⟨out, i, f, d, l, v, h1, h2, h3, h4⟩
    obtain ⟨⟨l', a⟩, hx, hx'⟩ := List.mem_map.1 h3
    simp only [Prod.mk.injEq] at hx'
    cases a with
    | none => simp at hx'
    | some a =>
      exact ⟨_, hx, (rowZero_iff h hout eq0 a (hs _ hx a rfl)).2 ⟨out, i, f, d, v, h1, h2, by simpa using hx'.2, h4⟩⟩

/-- With the check, the call raises iff the call without raises or gives a zero in some column of a snapshot or of a
bin; otherwise same results, same buffer. -/
theorem C44_check (eq0 : D → V → Bool) (dtype : Nat → Option D) (agg : List (Nat × Nat × Option Fn)) (cfg : List (D × Group))
    (h : setupCumsegagg agg dtype = .ok cfg) (hout : (agg.map Prod.fst).Nodup)
    (fn : BinFn R B) (ordered : Option (R → Int)) (sn : Option Snaps) (p : List R) (buf : Option (Buf B (List (List V))))
    (hb : ∀ b, buf = some b → ∀ a, b.chunk = some a → Shaped cfg a) :
    (∀ e, frameCall O get cfg (rowZero eq0 cfg) fn ordered sn false p buf = .error e →
      frameCall O get cfg (rowZero eq0 cfg) fn ordered sn true p buf = .error e) ∧
    (∀ b, frameCall O get cfg (rowZero eq0 cfg) fn ordered sn false p buf = .ok (none, b) →
      frameCall O get cfg (rowZero eq0 cfg) fn ordered sn true p buf = .ok (none, b)) ∧
    (∀ res b, frameCall O get cfg (rowZero eq0 cfg) fn ordered sn false p buf = .ok (some res, b) →
      (HasZero eq0 dtype agg cfg res.bins ∨ HasZero eq0 dtype agg cfg (res.snaps.getD []) →
        ∃ e, frameCall O get cfg (rowZero eq0 cfg) fn ordered sn true p buf = .error e) ∧
      (¬ HasZero eq0 dtype agg cfg res.bins → ¬ HasZero eq0 dtype agg cfg (res.snaps.getD []) →
        frameCall O get cfg (rowZero eq0 cfg) fn ordered sn true p buf = .ok (some res, b))) := by
  have hc := cfgOk_of h
  obtain ⟨_, hP⟩ := cumsegagg_proj (upd := updCfg O get cfg) (upd' := unitUpd) (P := Shaped cfg) (π := fun _ => ())
    (fun _ _ _ _ => rfl) (fun xs a p h => shaped_upd O get cfg xs a p h) (chunkRes0 O cfg) (shaped_zero O cfg)
    (rowZero eq0 cfg) (fun _ => false) fn ordered sn p buf hb
  have hall : ∀ res b, frameCall O get cfg (rowZero eq0 cfg) fn ordered sn false p buf = .ok (some res, b) →
      res.All (Shaped cfg) := fun res b hr => (hP _ hr).1 res rfl
  unfold frameCall at hall ⊢
  by_cases hp : p.isEmpty = true
  · unfold cumsegagg
    simp only [hp, if_true]
    refine ⟨fun _ h => by simp at h, fun _ h => h, fun _ _ h => by simp at h⟩
  · cases hseg : segmentby fn ordered sn p (buf.map Buf.seg) with
    | error e =>
      unfold cumsegagg
      simp only [hp, Bool.false_eq_true, if_false, hseg]
      exact ⟨fun _ h => h, fun _ h => by simp at h, fun _ _ h => by simp at h⟩
    | ok x =>
      obtain ⟨s, seg⟩ := x
      obtain ⟨res, b, hres⟩ : ∃ res b, ∀ e0, cumsegagg (updCfg O get cfg) (chunkRes0 O cfg) (rowZero eq0 cfg) fn ordered sn e0
          p buf = if e0 && (match res.snaps with
            | some l => anyZero (rowZero eq0 cfg) l
            | none => false) then .error .zeroSnap
          else if e0 && anyZero (rowZero eq0 cfg) res.bins then .error .zeroBin
          else .ok (some res, b) := by
        unfold cumsegagg
        simp only [hp, Bool.false_eq_true, if_false, hseg]
        generalize jcsagg (updCfg O get cfg) p s.starts s.binIndices _ _ _ = j
        refine ⟨⟨setNulls s.binLabels j.1, s.snapLabels.map fun l => setNulls l j.2.1⟩, seg.map fun m => ⟨m, some j.2.2⟩,
          fun _ => ?_⟩
        cases s.snapLabels <;> rfl
      have h0 := hres false
      simp only [Bool.false_and, Bool.false_eq_true, if_false] at h0
      have hsh := hall res b h0
      rw [h0, hres true]
      have hsn : (match res.snaps with
            | some l => anyZero (rowZero eq0 cfg) l
            | none => false) = anyZero (rowZero eq0 cfg) (res.snaps.getD []) := by
        cases res.snaps <;> rfl
      have hz2 := anyZero_iff (eq0 := eq0) hc hout (res.snaps.getD []) (by
        cases hsn : res.snaps with
        | none => simp
        | some l => exact hsh.2 l hsn)
      have hz1 := anyZero_iff (eq0 := eq0) hc hout res.bins hsh.1
      rw [hsn]
      refine ⟨fun _ h => by simp at h, fun _ h => by simp at h, ?_⟩
      intro res' b' hr
      simp only [Except.ok.injEq, Prod.mk.injEq, Option.some.injEq] at hr
      obtain ⟨rfl, rfl⟩ := hr
      rw [← hz1, ← hz2]
      cases anyZero (rowZero eq0 cfg) (res.snaps.getD []) <;> cases anyZero (rowZero eq0 cfg) res.bins <;> simp

/-- A stream accepted with the check gives what it gives without. -/
theorem C44_stream (eq0 : D → V → Bool) (dtype : Nat → Option D) (agg : List (Nat × Nat × Option Fn)) (cfg : List (D × Group))
    (h : setupCumsegagg agg dtype = .ok cfg) (hout : (agg.map Prod.fst).Nodup)
    (fn : BinFn R B) (ordered : Option (R → Int)) (sn : Option Snaps) (pieces : List (List R))
    (acc : Res (List (List V))) (buf : Option (Buf B (List (List V))))
    (hb : ∀ b, buf = some b → ∀ a, b.chunk = some a → Shaped cfg a) (out : Res (List (List V)) × Option (Buf B (List (List V))))
    (hr : streamAgg (frameCall O get cfg (rowZero eq0 cfg) fn ordered sn true) acc buf pieces = .ok out) :
    streamAgg (frameCall O get cfg (rowZero eq0 cfg) fn ordered sn false) acc buf pieces = .ok out := by
  induction pieces generalizing acc buf with
  | nil => exact hr
  | cons p ps ih =>
    obtain ⟨h1, h2, h3⟩ := C44_check O get eq0 dtype agg cfg h hout fn ordered sn p buf hb
    obtain ⟨_, hP⟩ := cumsegagg_proj (upd := updCfg O get cfg) (upd' := unitUpd) (P := Shaped cfg) (π := fun _ => ())
      (fun _ _ _ _ => rfl) (fun xs a p h => shaped_upd O get cfg xs a p h) (chunkRes0 O cfg) (shaped_zero O cfg)
      (rowZero eq0 cfg) (fun _ => false) fn ordered sn p buf hb
    unfold streamAgg at hr ⊢
    cases hc : frameCall O get cfg (rowZero eq0 cfg) fn ordered sn false p buf with
    | error e => rw [h1 e hc] at hr; cases hr
    | ok o =>
      obtain ⟨r, b'⟩ := o
      have hb' := (hP _ hc).2
      have hsame : frameCall O get cfg (rowZero eq0 cfg) fn ordered sn true p buf = .ok (r, b') := by
        cases r with
        | none => exact h2 b' hc
        | some r =>
          obtain ⟨h4, h5⟩ := h3 r b' hc
          by_cases hz : HasZero eq0 dtype agg cfg r.bins ∨ HasZero eq0 dtype agg cfg (r.snaps.getD [])
          · obtain ⟨e, he⟩ := h4 hz
            rw [he] at hr; cases hr
          · exact h5 (fun x => hz (Or.inl x)) (fun x => hz (Or.inr x))
      rw [hsame] at hr
      exact ih _ b' hb' hr

-- a legitimate sum of zero is refused; the null bin in the middle is not
example : frameCall (fun _ => intOps) ex_get ex_cfg (rowZero (fun _ v => decide (v = 0)) ex_cfg)
      (grouperFn { freq := 10 } Prod.fst) none none true [(1, 10), (2, -10), (25, 30)] none = .error .zeroBin ∧
    ((frameCall (fun _ => intOps) ex_get ex_cfg (rowZero (fun _ v => decide (v = 0)) ex_cfg)
      (grouperFn { freq := 10 } Prod.fst) none none true [(1, 10), (2, 20), (25, 30)] none).toOption.bind Prod.fst).map
        (fun r => column ex_cfg 0 r.bins) = some [(0, some 30), (10, none), (20, some 30)] := by
  constructor
  · rfl
  · decide

end
end Oups.Agg
