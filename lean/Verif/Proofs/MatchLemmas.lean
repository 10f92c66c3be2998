import Verif.Model.Match
import Verif.Spec.Match
import Verif.Proofs.RansacLemmas

/-! Lemmas about the objective of the refinement and the matching loop. -/

namespace Rascal

open Spec

set_option linter.unusedSectionVars false

variable {K : Type _} [Field K] [LinearOrder K] [IsStrictOrderedRing K]

/-- The nearest line is a line, and none is closer. -/
theorem nearestLine_spec (x : K) (l : List K) (a : K) (h : nearestLine x l = some a) :
    a ∈ l ∧ ∀ b ∈ l, |a - x| ≤ |b - x| := by
  cases l with
  | nil => simp [nearestLine] at h
  | cons c t =>
    simp only [nearestLine, Option.some.injEq] at h
    subst h
    have key : ∀ (t : List K) (c : K),
        (t.foldl (fun b c => if |c - x| < |b - x| then c else b) c) ∈ c :: t ∧
        ∀ b ∈ c :: t, |t.foldl (fun b c => if |c - x| < |b - x| then c else b) c - x| ≤ |b - x| := by
      intro t
      induction t with
      | nil => intro c; simp
      | cons d t ih =>
        intro c
        simp only [List.foldl_cons]
        by_cases hd : |d - x| < |c - x|
        · rw [if_pos hd]
          obtain ⟨h1, h2⟩ := ih d
          refine ⟨List.mem_cons_of_mem _ h1, ?_⟩
          intro b hb
          rcases List.mem_cons.1 hb with rfl | hb
          · exact (h2 d (List.mem_cons_self ..)).trans hd.le
          · exact h2 b hb
        · rw [if_neg hd]
          obtain ⟨h1, h2⟩ := ih c
          refine ⟨?_, ?_⟩
          · rcases List.mem_cons.1 h1 with h | h
            · rw [h]; exact List.mem_cons_self ..
            · exact List.mem_cons_of_mem _ (List.mem_cons_of_mem _ h)
          · intro b hb
            rcases List.mem_cons.1 hb with rfl | hb
            · exact h2 b (List.mem_cons_self ..)
            · rcases List.mem_cons.1 hb with rfl | hb
              · exact (h2 c (List.mem_cons_self ..)).trans (not_lt.1 hd)
              · exact h2 b (List.mem_cons_of_mem _ hb)
    exact key t c

/-- There is a nearest line if there is a line. -/
theorem nearestLine_isSome (x : K) (l : List K) (h : l ≠ []) : ∃ a, nearestLine x l = some a := by
  cases l with
  | nil => exact absurd rfl h
  | cons c t => exact ⟨_, rfl⟩

/-- The distance to the nearest line is the one specified. -/
theorem nearestLine_dist (x : K) (l : List K) (a d : K) (h : nearestLine x l = some a)
    (hd : LineDist l x d) : |a - x| = d := by
  obtain ⟨h1, h2⟩ := nearestLine_spec x l a h
  obtain ⟨⟨b, hb, rfl⟩, h3⟩ := hd
  exact le_antisymm (h2 b hb) (h3 a h1)

/-- The matches of the objective: the peaks within the tolerance, each with its distance. -/
theorem adjustMatches_spec (f : K → K) (lines : List K) (tol : K) (hl : lines ≠ []) (dist : K → K)
    (hd : ∀ p, LineDist lines (f p) (dist p)) (peaks : List K) :
    (adjustMatches f lines tol peaks).map Prod.fst = peaks.filter (fun p => decide (dist p < tol)) ∧
    ∀ e ∈ adjustMatches f lines tol peaks, |e.2 - f e.1| = dist e.1 := by
  induction peaks with
  | nil => simp [adjustMatches]
  | cons p t ih =>
    obtain ⟨a, ha⟩ := nearestLine_isSome (f p) lines hl
    have hda := nearestLine_dist _ _ _ _ ha (hd p)
    by_cases hlt : dist p < tol
    · have e : adjustMatches f lines tol (p :: t) = (p, a) :: adjustMatches f lines tol t := by
        simp only [adjustMatches, List.filterMap_cons, ha, hda, hlt, if_true]
      rw [e]
      refine ⟨?_, ?_⟩
      · rw [List.map_cons, ih.1, List.filter_cons, if_pos (by simpa using hlt)]
      · intro e he
        rcases List.mem_cons.1 he with rfl | he
        · exact hda
        · exact ih.2 e he
    · have e : adjustMatches f lines tol (p :: t) = adjustMatches f lines tol t := by
        simp only [adjustMatches, List.filterMap_cons, ha, hda, hlt, if_false]
      rw [e]
      refine ⟨?_, ih.2⟩
      rw [ih.1, List.filter_cons, if_neg (by simpa using hlt)]

/-- The shifted coefficients. -/
theorem addDelta_spec (fit delta : List K) (h : delta.length ≤ fit.length) :
    ∃ new, addDelta fit delta = .ok new ∧ Shifted fit delta new := by
  refine ⟨_, by rw [addDelta, if_neg (by omega)], by simp, ?_⟩
  intro i hi
  rw [List.getD_eq_getElem?_getD, List.getElem?_mapIdx, List.getElem?_eq_getElem hi]
  simp [List.getD_eq_getElem?_getD, List.getElem?_eq_getElem hi]

/-- A successful expansion appends at most one line per peak; one for each peak only if no peak is
ambiguous. -/
theorem expandMatches_ok (ms : List (List K)) (c r : List K) (h : expandMatches ms c = .ok r) :
    ∃ t, r = c ++ t ∧ t.length ≤ ms.length ∧
      (t.length = ms.length → List.Forall₂ (fun m v => m = [v]) ms t) := by
  induction ms generalizing c with
  | nil =>
    simp only [expandMatches, Except.ok.injEq] at h
    exact ⟨[], by simp [h], by simp, fun _ => .nil⟩
  | cons m ms ih =>
    rw [expandMatches] at h
    by_cases h1 : m.length = 1
    · rw [if_pos h1] at h
      obtain ⟨v, rfl⟩ := List.length_eq_one_iff.1 h1
      obtain ⟨t, rfl, ht, hf⟩ := ih _ h
      refine ⟨v :: t, by simp, by simpa using ht, ?_⟩
      intro hl
      exact .cons rfl (hf (by simpa using hl))
    · rw [if_neg h1] at h
      split at h
      · obtain ⟨t, rfl, ht, hf⟩ := ih _ h
        refine ⟨t, rfl, by simp; omega, ?_⟩
        intro hl
        simp at hl
        omega
      · cases h

/-- The expansion only raises TypeError, and only at an ambiguous peak. -/
theorem expandMatches_error (ms : List (List K)) (c : List K) (e : PyErr)
    (h : expandMatches ms c = .error e) : e = .typeError ∧ ∃ m ∈ ms, m.length ≠ 1 := by
  induction ms generalizing c with
  | nil => simp [expandMatches] at h
  | cons m ms ih =>
    rw [expandMatches] at h
    by_cases h1 : m.length = 1
    · rw [if_pos h1] at h
      obtain ⟨h2, m', hm, hl⟩ := ih _ h
      exact ⟨h2, m', List.mem_cons_of_mem _ hm, hl⟩
    · rw [if_neg h1] at h
      refine ⟨?_, m, List.mem_cons_self .., h1⟩
      split at h
      · exact (ih _ h).1
      · cases h; rfl

/-- With one line each the expansion lists them. -/
theorem expandMatches_singles (ms : List (List K)) (c t : List K)
    (h : List.Forall₂ (fun m v => m = [v]) ms t) : expandMatches ms c = .ok (c ++ t) := by
  induction h generalizing c with
  | nil => simp [expandMatches]
  | cons h1 h2 ih =>
    subst h1
    rw [expandMatches, if_pos (by simp), ih]
    simp

/-- The peaks of the matching loop. -/
theorem matchLoop_fst (f : K → K) (lines : List K) (tol : K) (peaks : List K) :
    (matchLoop f lines tol peaks).map Prod.fst =
      peaks.filter (fun p => decide (Near lines tol (f p))) := by
  induction peaks with
  | nil => rfl
  | cons p t ih =>
    have hn : linesNear lines tol (f p) = [] ↔ ¬ Near lines tol (f p) := by
      simp [linesNear, Near, List.filter_eq_nil_iff]
    by_cases h : Near lines tol (f p)
    · have : linesNear lines tol (f p) ≠ [] := fun h' => hn.1 h' h
      rw [List.filter_cons, if_pos (by simpa using h), ← ih]
      simp only [matchLoop, List.filterMap_cons, if_neg this, List.map_cons]
    · rw [List.filter_cons, if_neg (by simpa using h), ← ih]
      simp only [matchLoop, List.filterMap_cons, if_pos (hn.2 h)]

/-- The lines of the matching loop. -/
theorem matchLoop_snd (f : K → K) (lines : List K) (tol : K) (peaks : List K) :
    ∀ e ∈ matchLoop f lines tol peaks, e.2 = linesNear lines tol (f e.1) ∧ e.2 ≠ [] := by
  intro e he
  simp only [matchLoop, List.mem_filterMap] at he
  obtain ⟨p, _, hp⟩ := he
  split at hp
  · cases hp
  · rename_i hne
    cases hp
    exact ⟨rfl, hne⟩

/-- Exactly one entry is near. -/
theorem linesNear_singleton (lines : List K) (tol x a : K) (h : linesNear lines tol x = [a]) :
    OnlyNear lines tol x a := by
  unfold linesNear at h
  rw [List.filter_eq_cons_iff] at h
  obtain ⟨l₁, l₂, rfl, h1, h2, h3⟩ := h
  rw [List.filter_eq_nil_iff] at h3
  refine ⟨l₁, l₂, rfl, by simpa using h2, ?_⟩
  intro b hb
  rcases List.mem_append.1 hb with hb | hb
  · simpa using h1 b hb
  · simpa using h3 b hb

/-- The converse of `linesNear_singleton`. -/
theorem linesNear_of_onlyNear (lines : List K) (tol x a : K) (h : OnlyNear lines tol x a) :
    linesNear lines tol x = [a] := by
  obtain ⟨l₁, l₂, rfl, h1, h2⟩ := h
  unfold linesNear
  rw [List.filter_eq_cons_iff]
  refine ⟨l₁, l₂, rfl, ?_, by simpa using h1, ?_⟩
  · intro b hb; simpa using h2 b (List.mem_append_left _ hb)
  · rw [List.filter_eq_nil_iff]
    intro b hb; simpa using h2 b (List.mem_append_right _ hb)

end Rascal
