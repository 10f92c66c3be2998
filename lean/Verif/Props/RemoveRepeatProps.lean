import Verif.Props.RemoveOrderProps

/-!
Property theorems C219: several ranges removed again and again.
-/

set_option linter.unusedSectionVars false

namespace Rascal

variable {K : Type _} [Field K] [LinearOrder K] [IsStrictOrderedRing K]

/-- Without lines in the ranges nothing changes. -/
theorem removeAll_none (at_ : Atlas K) (rs : List (K × K)) (h : ∀ l ∈ at_.lines, ∀ r ∈ rs, r.2 ≤ |l.wl - r.1|) :
    Spec.removeAll at_ rs = at_ := by
  induction rs with
  | nil => rfl
  | cons x rs ih =>
    have e : at_.removeRange x.1 x.2 = at_ := by
      rw [removeRange_lines, survivors_none]
      intro l hl
      exact decide_eq_false (not_lt.2 (h l hl x (by simp)))
    show Spec.removeAll (at_.removeRange x.1 x.2) rs = at_
    rw [e]
    exact ih (fun l hl r hr => h l hl r (List.mem_cons_of_mem _ hr))

/-- With a line in one of the ranges some line is removed. -/
theorem removeAll_length_lt (at_ : Atlas K) (rs : List (K × K)) (h : ∃ l ∈ at_.lines, ∃ r ∈ rs, |l.wl - r.1| < r.2) :
    (Spec.removeAll at_ rs).lines.length < at_.lines.length := by
  induction rs with
  | nil =>
    obtain ⟨_, _, _, hr, _⟩ := h
    exact absurd hr (by simp)
  | cons x rs ih =>
    show (Spec.removeAll (at_.removeRange x.1 x.2) rs).lines.length < _
    by_cases hx : ∃ l ∈ at_.lines, InRange x.1 x.2 l = true
    · exact lt_of_le_of_lt (C219_kept (at_.removeRange x.1 x.2) rs).1.length_le ((C41_remove_partial at_ x.1 x.2).2.2.1 hx)
    · have hx' : ∀ l ∈ at_.lines, InRange x.1 x.2 l = false := by
        intro l hl
        by_contra hc
        exact hx ⟨l, hl, by simpa using hc⟩
      have e : at_.removeRange x.1 x.2 = at_ := by
        rw [removeRange_lines, survivors_none _ _ hx']
      rw [e]
      refine ih ?_
      obtain ⟨l, hl, r, hr, hlt⟩ := h
      rcases List.mem_cons.1 hr with rfl | hr
      · exact absurd (hx' l hl) (by unfold InRange; simp [hlt])
      · exact ⟨l, hl, r, hr, hlt⟩

/-- C219, repeated: whatever the order of the lines and whether or not the ranges meet, a sequence of calls of
`remove_atlas_lines_range` made as often as there are lines leaves just the lines outside all ranges, in order.  What is
missing: making the sequence of calls once. -/
theorem C219_repeat_partial (at_ : Atlas K) (rs : List (K × K)) (n : Nat) (hn : at_.lines.length ≤ n) :
    ((fun a : Atlas K => Spec.removeAll a rs)^[n] at_).lines =
      at_.lines.filter (fun l => decide (∀ r ∈ rs, r.2 ≤ |l.wl - r.1|)) := by
  induction n generalizing at_ with
  | zero =>
    have : at_.lines = [] := List.length_eq_zero_iff.1 (by omega)
    simp [this]
  | succ n ih =>
    by_cases h : ∃ l ∈ at_.lines, ∃ r ∈ rs, |l.wl - r.1| < r.2
    · have hlt := removeAll_length_lt at_ rs h
      rw [Function.iterate_succ_apply, ih _ (by omega), (C219_kept at_ rs).2]
    · have hout : ∀ l ∈ at_.lines, ∀ r ∈ rs, r.2 ≤ |l.wl - r.1| :=
        fun l hl r hr => not_lt.1 (fun hc => h ⟨l, hl, r, hr, hc⟩)
      rw [Function.iterate_fixed (removeAll_none at_ rs hout)]
      exact (List.filter_eq_self.2 (fun l hl => decide_eq_true (hout l hl))).symm

/-- C219, repeated, for the order of the calls: two sequences of calls with the same ranges, in another order or some of
them made more often, leave the same lines once both are repeated as often as there are lines. -/
theorem C219_repeat_order_partial (at_ : Atlas K) (rs rs' : List (K × K)) (h : ∀ r, r ∈ rs ↔ r ∈ rs') (n m : Nat)
    (hn : at_.lines.length ≤ n) (hm : at_.lines.length ≤ m) :
    ((fun a : Atlas K => Spec.removeAll a rs)^[n] at_).lines =
      ((fun a : Atlas K => Spec.removeAll a rs')^[m] at_).lines := by
  rw [C219_repeat_partial at_ rs n hn, C219_repeat_partial at_ rs' m hm]
  simp only [h]

/-- A case for the theorems: the lines of `C219_refuted`, with the ranges in either order; one round is not enough. -/
example : ((fun a : Atlas ℚ => Spec.removeAll a [(7000, 10), (5000, 10)])^[4] twoElements).lines =
      ((fun a : Atlas ℚ => Spec.removeAll a [(5000, 10), (7000, 10)])^[5] twoElements).lines ∧
    (Spec.removeAll twoElements [(7000, 10), (5000, 10)]).getLines = [5001, 8000] ∧
    twoElements.lines.filter (fun l => decide (∀ r ∈ [((7000 : ℚ), (10 : ℚ)), (5000, 10)], r.2 ≤ |l.wl - r.1|)) =
      [⟨8000, "Xe", 1, none⟩] :=
  ⟨C219_repeat_order_partial twoElements _ _ (by intro r; simp [or_comm]) 4 5 (by decide) (by decide), by decide +kernel,
    by decide +kernel⟩

end Rascal
