import Verif.Proofs.FilterLemmas

/-! Helper lemmas for `filter_intensity` and `load_calibration_lines`. -/

set_option linter.unusedSectionVars false

namespace Rascal

variable {K V : Type _}

theorem dictFill_append_singleton (kvs : List (String × V)) (kv : String × V) :
    dictFill (kvs ++ [kv]) = dictSet (dictFill kvs) kv.1 kv.2 := by
  simp [dictFill, List.foldl_append]

theorem dictFill_eq_some (kvs : List (String × V)) (k : String) (v : V) :
    dictFill kvs k = some v ↔
      ∃ i : Nat, kvs[i]? = some (k, v) ∧ ∀ j : Nat, i < j → ∀ v', kvs[j]? ≠ some (k, v') := by
  induction kvs using List.reverseRecOn with
  | nil => simp [dictFill]
  | append_singleton l a ih =>
    rw [dictFill_append_singleton]
    obtain ⟨ak, av⟩ := a
    simp only [dictSet]
    split
    · rename_i h
      subst h
      constructor
      · intro hv
        simp at hv
        subst hv
        refine ⟨l.length, by simp, ?_⟩
        intro j hj v' hc
        have := (List.getElem?_eq_some_iff.1 hc).1
        simp at this
        omega
      · rintro ⟨i, hi, hmax⟩
        by_cases hil : i < l.length
        · exact absurd (by simp) (hmax l.length hil av)
        · have := (List.getElem?_eq_some_iff.1 hi).1
          have : i = l.length := by simp at this; omega
          subst this
          simpa using hi
    · rename_i h
      rw [ih]
      constructor
      · rintro ⟨i, hi, hmax⟩
        have hil := (List.getElem?_eq_some_iff.1 hi).1
        refine ⟨i, by rwa [List.getElem?_append_left hil], ?_⟩
        intro j hj v' hc
        by_cases hjl : j < l.length
        · rw [List.getElem?_append_left hjl] at hc
          exact hmax j hj v' hc
        · have := (List.getElem?_eq_some_iff.1 hc).1
          have : j = l.length := by simp at this; omega
          subst this
          simp at hc
          exact h hc.1.symm
      · rintro ⟨i, hi, hmax⟩
        by_cases hil : i < l.length
        · rw [List.getElem?_append_left hil] at hi
          refine ⟨i, hi, ?_⟩
          intro j hj v' hc
          have hjl := (List.getElem?_eq_some_iff.1 hc).1
          exact hmax j hj v' (by rwa [List.getElem?_append_left hjl])
        · have := (List.getElem?_eq_some_iff.1 hi).1
          have : i = l.length := by simp at this; omega
          subst this
          simp at hi
          exact absurd hi.1.symm h

theorem dictFill_const (es : List String) (v : V) (k : String) :
    dictFill (es.map (fun e => (e, v))) k = if k ∈ es then some v else none := by
  induction es using List.reverseRecOn with
  | nil => simp [dictFill]
  | append_singleton l a ih =>
    rw [List.map_append, List.map_singleton, dictFill_append_singleton]
    simp only [dictSet, ih, List.mem_append, List.mem_singleton]
    by_cases h : k = a <;> by_cases h2 : k ∈ l <;> simp [h, h2]

theorem dictFill_isSome (kvs : List (String × V)) (k : String) :
    (dictFill kvs k).isSome ↔ k ∈ kvs.map Prod.fst := by
  induction kvs using List.reverseRecOn with
  | nil => simp [dictFill]
  | append_singleton l a ih =>
    rw [dictFill_append_singleton]
    simp only [dictSet, List.map_append, List.map_singleton, List.mem_append,
      List.mem_singleton]
    by_cases h : k = a.1
    · simp [h]
    · simp [h, ih]

theorem dictFill_zip_eq_some (es : List String) (vs : List V) (hlen : vs.length = es.length)
    (k : String) (v : V) :
    dictFill (es.zip vs) k = some v ↔ Spec.LastEntry es vs k v := by
  rw [dictFill_eq_some]
  unfold Spec.LastEntry
  constructor
  · rintro ⟨i, hi, hmax⟩
    rw [List.getElem?_zip_eq_some] at hi
    refine ⟨i, hi.1, hi.2, ?_⟩
    intro j hj hc
    have hjl := (List.getElem?_eq_some_iff.1 hc).1
    have hjv : j < vs.length := by omega
    exact hmax j hj vs[j] (List.getElem?_zip_eq_some.2 ⟨hc, List.getElem?_eq_getElem hjv⟩)
  · rintro ⟨i, h1, h2, hmax⟩
    refine ⟨i, List.getElem?_zip_eq_some.2 ⟨h1, h2⟩, ?_⟩
    intro j hj v' hc
    exact hmax j hj (List.getElem?_zip_eq_some.1 hc).1

theorem intensityLoop_ok [LinearOrder K] (d : String → Option K) (thr : Row K → K)
    (lines : List (Row K)) (h : ∀ r ∈ lines, d r.elem = some (thr r)) :
    intensityLoop d lines = .ok (lines.map (fun r => decide (thr r ≤ r.inten))) := by
  induction lines with
  | nil => rfl
  | cons r t ih =>
    unfold intensityLoop
    rw [h r (by simp), ih (fun q hq => h q (by simp [hq]))]
    rfl

theorem intensityLoop_error [LinearOrder K] (d : String → Option K)
    (lines : List (Row K)) (h : ∃ r ∈ lines, d r.elem = none) :
    intensityLoop d lines = .error .keyError := by
  induction lines with
  | nil => simp at h
  | cons r t ih =>
    unfold intensityLoop
    cases hd : d r.elem with
    | none => rfl
    | some v =>
      have : ∃ r ∈ t, d r.elem = none := by
        obtain ⟨q, hq, hqn⟩ := h
        rcases List.mem_cons.1 hq with rfl | hq
        · rw [hd] at hqn; cases hqn
        · exact ⟨q, hq, hqn⟩
      rw [ih this]

/-- The arrays of a list of rows. -/
def arraysOf (rows : List (Row K)) : LineArrays K :=
  ⟨rows.map Row.elem, rows.map Row.wl, rows.map Row.inten⟩

/-- The rows kept by the brightness limit (src/rascal/util.py:399-405 read on whole rows). -/
def brightRows (argsort : List K → List Nat) (b : Option Int) (rows : List (Row K)) :
    List (Row K) :=
  match b with
  | none => rows
  | some n => takeIdx rows (pyTake (argsort (rows.map Row.inten)).reverse n)

theorem keepBrightest_arraysOf (argsort : List K → List Nat) (b : Option Int)
    (rows : List (Row K)) :
    keepBrightest argsort b (arraysOf rows) = arraysOf (brightRows argsort b rows) := by
  cases b with
  | none => rfl
  | some n => simp [keepBrightest, arraysOf, takeIdx_map, brightRows]

end Rascal
