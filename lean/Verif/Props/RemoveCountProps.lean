import Mathlib.Data.List.Rotate
import Verif.Props.RemoveOrderProps

/-!
Property theorems C41 and C133, how many calls of `remove_atlas_lines_range` are needed for a number of lines in range.
-/

set_option linter.unusedSectionVars false

namespace Rascal

variable {K α : Type _}

theorem leadRun_le_countP (p : α → Bool) (l : List α) : leadRun p l ≤ l.countP p := by
  induction l with
  | nil => simp [leadRun]
  | cons a t ih =>
    unfold leadRun
    by_cases h : p a = true
    · rw [if_pos h, List.countP_cons_of_pos h]
      omega
    · rw [if_neg h]
      omega

theorem longestRun_le_countP (p : α → Bool) (l : List α) : longestRun p l ≤ l.countP p := by
  induction l with
  | nil => simp [longestRun]
  | cons a t ih =>
    unfold longestRun
    refine max_le (leadRun_le_countP p _) (ih.trans ?_)
    exact (List.sublist_cons_self a t).countP_le

section
variable [Field K] [LinearOrder K] [IsStrictOrderedRing K]

/-- Above a line in range, the lines in range come first. -/
theorem leadRun_sorted (w tol : K) (c : AtlasLine K) (hc : InRange w tol c = true) (l : List (AtlasLine K))
    (hs : (c :: l).Pairwise (fun u v => u.wl ≤ v.wl)) : leadRun (InRange w tol) l = l.countP (InRange w tol) := by
  induction l generalizing c with
  | nil => rfl
  | cons b t ih =>
    rw [List.pairwise_cons] at hs
    by_cases hb : InRange w tol b = true
    · rw [leadRun, if_pos hb, List.countP_cons_of_pos hb, ih b hb hs.2]
    · rw [leadRun, if_neg hb, List.countP_cons_of_neg hb]
      symm
      rw [List.countP_eq_zero]
      intro d hd hd'
      have h1 := hs.1 b (by simp)
      have h2 := (List.pairwise_cons.1 hs.2).1 d hd
      have h3 := abs_lt.1 (of_decide_eq_true hc)
      have h4 := abs_lt.1 (of_decide_eq_true hd')
      exact hb (decide_eq_true (abs_lt.2 ⟨by linarith [h3.1], by linarith [h4.2]⟩))

theorem longestRun_sorted (w tol : K) (l : List (AtlasLine K)) (hs : l.Pairwise (fun u v => u.wl ≤ v.wl)) :
    longestRun (InRange w tol) l = l.countP (InRange w tol) := by
  refine le_antisymm (longestRun_le_countP _ _) ?_
  induction l with
  | nil => simp
  | cons a t ih =>
    unfold longestRun
    by_cases ha : InRange w tol a = true
    · refine le_trans ?_ (le_max_left _ _)
      rw [leadRun, if_pos ha, List.countP_cons_of_pos ha, leadRun_sorted w tol a ha t hs]
    · rw [List.countP_cons_of_neg ha]
      exact (ih (List.pairwise_cons.1 hs).2).trans (le_max_right _ _)

/-- C41, by the number of lines: `n` calls of `remove_atlas_lines_range` with the same arguments are enough if fewer than
`2 ^ n` lines are in range.  If the lines are in order of wavelength they are enough only then.  What is missing: one
call for any number of lines. -/
theorem C41_count_partial (at_ : Atlas K) (w tol : K) (n : Nat) :
    ((at_.getLines.filter (fun x => |x - w| < tol)).length < 2 ^ n →
      ((fun a : Atlas K => a.removeRange w tol)^[n] at_).getLines = at_.getLines.filter (fun x => tol ≤ |x - w|)) ∧
    (at_.getLines.Pairwise (· ≤ ·) →
      ((fun a : Atlas K => a.removeRange w tol)^[n] at_).getLines = at_.getLines.filter (fun x => tol ≤ |x - w|) →
      (at_.getLines.filter (fun x => |x - w| < tol)).length < 2 ^ n) := by
  have hcount : (at_.getLines.filter (fun x => |x - w| < tol)).length = at_.lines.countP (InRange w tol) := by
    unfold Atlas.getLines
    rw [List.filter_map, List.length_map, List.countP_eq_length_filter]
    rfl
  have hfil : at_.getLines.filter (fun x => tol ≤ |x - w|) =
      (at_.lines.filter (fun l => !InRange w tol l)).map AtlasLine.wl := by
    unfold Atlas.getLines
    rw [List.filter_map]
    congr 1
    refine List.filter_congr (fun a _ => ?_)
    rw [Bool.eq_iff_iff]
    simp [InRange]
  rw [hcount, hfil]
  constructor
  · intro h
    refine congrArg (List.map AtlasLine.wl) ((C41_calls_partial at_ w tol n).2 ?_)
    rw [← longestRun_ge, not_le]
    exact lt_of_le_of_lt (longestRun_le_countP _ _) h
  · intro hs h
    unfold Atlas.getLines at hs
    rw [List.pairwise_map] at hs
    obtain ⟨_, h2⟩ := removeRange_iterate at_ w tol n
    have hl : ((fun a : Atlas K => a.removeRange w tol)^[n] at_).lines = at_.lines.filter (fun l => !InRange w tol l) := by
      have hlen := congrArg List.length h
      unfold Atlas.getLines at hlen
      rw [List.length_map, List.length_map] at hlen
      rw [← h2] at hlen ⊢
      exact (List.filter_sublist.eq_of_length hlen.symm).symm
    have := (C41_calls_partial at_ w tol n).1 hl
    rw [← longestRun_ge, not_le, longestRun_sorted w tol _ hs] at this
    exact this

/-- C133, for `remove_atlas_lines_range`: two atlases with the same lines in another order have the same lines, in another
order, after `n` calls if fewer than `2 ^ n` lines are in range.  What is missing: fewer calls, after which other lines
may be left. -/
theorem C133_remove_partial (a b : Atlas K) (hp : a.lines.Perm b.lines) (w tol : K) (n : Nat)
    (h : (a.getLines.filter (fun x => |x - w| < tol)).length < 2 ^ n) :
    ((fun a : Atlas K => a.removeRange w tol)^[n] a).lines.Perm ((fun a : Atlas K => a.removeRange w tol)^[n] b).lines := by
  have hcount : (a.getLines.filter (fun x => |x - w| < tol)).length = a.lines.countP (InRange w tol) := by
    unfold Atlas.getLines
    rw [List.filter_map, List.length_map, List.countP_eq_length_filter]
    rfl
  rw [hcount] at h
  have key : ∀ c : Atlas K, c.lines.countP (InRange w tol) < 2 ^ n →
      ((fun a : Atlas K => a.removeRange w tol)^[n] c).lines = c.lines.filter (fun l => !InRange w tol l) := by
    intro c hc
    refine (C41_calls_partial c w tol n).2 ?_
    rw [← longestRun_ge, not_le]
    exact lt_of_le_of_lt (longestRun_le_countP _ _) hc
  rw [key a h, key b (by rwa [← hp.countP_eq])]
  exact hp.filter _

end

/-- A case for `C133_remove_partial`, and what one call does. -/
example : ((fun a : Atlas ℚ => a.removeRange 5000 10)^[2] inOrder).lines.Perm
      ((fun a : Atlas ℚ => a.removeRange 5000 10)^[2] { inOrder with lines := inOrder.lines.rotate 2 }).lines ∧
    (inOrder.removeRange 5000 10).getLines = [5001, 7000, 8000] ∧
    (Atlas.removeRange { inOrder with lines := inOrder.lines.rotate 2 } 5000 10).getLines = [7000, 8000, 5001] ∧
    (Atlas.removeRange { inOrder with lines := inOrder.lines.rotate 1 } 5000 10).getLines = [5002, 7000, 8000] :=
  ⟨C133_remove_partial inOrder _ (List.rotate_perm _ _).symm 5000 10 2 (by decide +kernel), by decide +kernel,
    by decide +kernel, by decide +kernel⟩

/-- A case for `C41_count_partial`: three of the lines, which are in order, are in range; two calls are enough and one is
not. -/
example : ((fun a : Atlas ℚ => a.removeRange 5000 10)^[2] inOrder).getLines =
      inOrder.getLines.filter (fun x => 10 ≤ |x - 5000|) ∧
    ((fun a : Atlas ℚ => a.removeRange 5000 10)^[1] inOrder).getLines ≠
      inOrder.getLines.filter (fun x => 10 ≤ |x - 5000|) :=
  ⟨(C41_count_partial inOrder 5000 10 2).1 (by decide +kernel),
    fun h => absurd ((C41_count_partial inOrder 5000 10 1).2 (by decide +kernel) h) (by decide +kernel)⟩

end Rascal
