import Verif.Props.Indexer
import Verif.Proofs.IndexerScan
/-! Property C06: reading of any directory name as a key, and names for which the key read designates the
directory. -/
namespace Oups.Indexer

/-- **C06** What is read from any text: the text is cut at each separator of fields and at each '/', surplus tokens
on the left are ignored, and the last tokens, as many as plain fields in the class, are converted one by one. -/
theorem C06_read {sep : Char} {sch : Schema} (hw : sch.WF) (p : Str) (v : FVal) :
    fromStr sep sch p = some v ↔
      ∃ pre toks gs, Cut sep p (pre ++ toks) ∧ Reads sch toks gs ∧ v = .dc gs :=
  fromStr_iff hw p v

/-- **C06** A directory read as a key is the directory of that key exactly if its name is made, for each level,
of the texts of the fields separated by `sep`, with '/' between levels. -/
theorem C06_exact {sep : Char} (hd : isDigit sep = false) {sch : Schema} {p : Str} {gs : List FVal} (hw : sch.WF)
    (h : fromStr sep sch p = some (.dc gs)) : toPath sep gs = .ok p ↔ Named sep sch p := by
  constructor
  · exact read_named hd hw h
  · intro hn
    obtain ⟨gs', h1, h2⟩ := named_read hw hn
    rw [h] at h1
    cases h1
    exact h2

/-- **C06** Each directory so named is read as a key, of which it is the directory. -/
theorem C06_named {sep : Char} {sch : Schema} {p : Str} (hw : sch.WF) (h : Named sep sch p) :
    ∃ gs, fromStr sep sch p = some (.dc gs) ∧ toPath sep gs = .ok p :=
  named_read hw h

/-- **C06** In particular the directories written by oups for a non exceptional key. -/
theorem C06_written {sep : Char} {sch : Schema} {fs : List FVal} {p : Str}
    (hw : sch.WF) (hc : sch.Conf fs) (hv : validate sep fs = .ok ()) (hx : ¬ Exceptional fs)
    (hp : toPath sep fs = .ok p) :
    ∃ gs, fromStr sep sch p = some (.dc gs) ∧ toPath sep gs = .ok p := by
  obtain ⟨q, h1, h2⟩ := C01_path_roundtrip hw hc hv hx
  rw [hp] at h1; cases h1
  exact ⟨fs, h2, hp⟩

example : ∃ p gs, toPath '_' key2 = .ok p ∧ fromStr '_' sch2 p = some (.dc gs) ∧ toPath '_' gs = .ok p := by
  obtain ⟨p, h1, _⟩ := C01_path_roundtrip key2_wf key2_conf (validate_complete _ _ key2_valid)
    key2_not_exceptional
  obtain ⟨gs, h2, h3⟩ := C06_written key2_wf key2_conf (validate_complete _ _ key2_valid)
    key2_not_exceptional h1
  exact ⟨p, gs, h1, h2, h3⟩

/-- Directory "x/a_b/c" is read, with a surplus field, as the key ("a", "b", Sub("c")). -/
example : ∃ pre toks, Cut '_' "x/a_b/c".toList (pre ++ toks) ∧
    Reads (.node [.str, .str] (.leaf [.str])) toks [.str ['a'], .str ['b'], .dc [.str ['c']]] := by
  obtain ⟨pre, toks, gs, h1, h2, h3⟩ :=
    (C06_read (sep := '_') (sch := .node [.str, .str] (.leaf [.str])) (by simp [Schema.WF]) "x/a_b/c".toList
      (.dc [.str ['a'], .str ['b'], .dc [.str ['c']]])).1 rfl
  cases h3
  exact ⟨pre, toks, h1, h2⟩

/-- A dot in a directory name, which no key created by the user may have, is no obstacle: "v1.2_b" is listed, and is
the directory of the key listed. -/
example : ∃ gs, fromStr '_' (.leaf [.str, .str]) "v1.2_b".toList = some (.dc gs) ∧
    toPath '_' gs = .ok "v1.2_b".toList :=
  C06_named (by simp [Schema.WF])
    (.leaf (ts := [.str, .str]) (ss := ["v1.2".toList, "b".toList])
      (.cons (by simp [Spelled, NoSep]) (.cons (by simp [Spelled, NoSep]) .nil)) (by simp))

/-- "a_b" is read as ("a", Sub("b")), but is not the directory of this key, as '/' is expected between levels. -/
example : fromStr '_' (.node [.str] (.leaf [.str])) "a_b".toList = some (.dc [.str ['a'], .dc [.str ['b']]]) ∧
    ¬ toPath '_' [.str ['a'], .dc [.str ['b']]] = .ok "a_b".toList := by
  have hr : fromStr '_' (.node [.str] (.leaf [.str])) "a_b".toList = some (.dc [.str ['a'], .dc [.str ['b']]]) := rfl
  refine ⟨hr, ?_⟩
  rw [C06_exact (by decide) (by simp [Schema.WF]) hr]
  intro h
  have hm : '/' ∈ "a_b".toList := by
    generalize "a_b".toList = p at h
    cases h
    simp
  simp at hm

/-- Slices of python with a null bound: `l[-0:]` is the whole list and `l[:-0]` the empty list. -/
example : sliceFrom 0 [1, 2, 3] = [1, 2, 3] ∧ sliceTo 0 [1, 2, 3] = [] ∧
    sliceFrom 2 [1, 2, 3] = [2, 3] ∧ sliceTo 2 [1, 2, 3] = [1] := ⟨rfl, rfl, rfl, rfl⟩

/-- " +1_0" is read as the integer 10; "1__0" and "_1" are not integers. -/
example : fromStr '-' (.leaf [.int]) " +1_0".toList = some (.dc [.int 10]) ∧ IntText " +1_0".toList 10 ∧
    fromStr '-' (.leaf [.int]) "1__0".toList = none ∧ fromStr '-' (.leaf [.int]) "_1".toList = none :=
  ⟨rfl, .plus (pre := [' ']) (s := ['1', '_', '0']) (post := []) (n := 10) (by simp [Blank])
    (.under (s := ['1']) (n := 1) (d := 0) (.one (d := 1) (by omega)) (by omega)) (by simp), rfl, rfl⟩

end Oups.Indexer
