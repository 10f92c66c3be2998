import Verif.Props.AtlasProps

/-!
Property theorem C41, how many calls of `remove_atlas_lines_range` are needed.
-/

set_option linter.unusedSectionVars false

namespace Rascal

variable {K α : Type _}

/-- There are `n` consecutive entries satisfying `p`. -/
def Spec.LongRun (p : α → Bool) (n : Nat) (l : List α) : Prop :=
  ∃ i : Nat, ∀ j < n, ∃ a, l[i + j]? = some a ∧ p a = true

/-- The number of entries at the front satisfying `p`. -/
def leadRun (p : α → Bool) : List α → Nat
  | [] => 0
  | a :: t => if p a then leadRun p t + 1 else 0

/-- The length of the longest run. -/
def longestRun (p : α → Bool) : List α → Nat
  | [] => 0
  | a :: t => max (leadRun p (a :: t)) (longestRun p t)

theorem leadRun_ge (p : α → Bool) (l : List α) (n : Nat) :
    n ≤ leadRun p l ↔ ∀ j < n, ∃ a, l[j]? = some a ∧ p a = true := by
  induction l generalizing n with
  | nil =>
    constructor
    · intro h j hj
      simp only [leadRun] at h
      omega
    · intro h
      rcases n with _ | n
      · exact Nat.zero_le _
      · obtain ⟨a, ha, _⟩ := h 0 (by omega)
        simp at ha
  | cons b t ih =>
    unfold leadRun
    by_cases hb : p b = true
    · rw [if_pos hb]
      rcases n with _ | n
      · simp
      · rw [Nat.add_le_add_iff_right, ih]
        constructor
        · intro h j hj
          rcases j with _ | j
          · exact ⟨b, rfl, hb⟩
          · exact h j (by omega)
        · intro h j hj
          exact h (j + 1) (by omega)
    · rw [if_neg hb]
      constructor
      · intro h j hj
        omega
      · intro h
        rcases n with _ | n
        · exact le_rfl
        · obtain ⟨a, ha, hp⟩ := h 0 (by omega)
          simp only [List.getElem?_cons_zero, Option.some.injEq] at ha
          exact absurd (ha ▸ hp) hb

theorem longestRun_ge (p : α → Bool) (l : List α) (n : Nat) : n ≤ longestRun p l ↔ Spec.LongRun p n l := by
  induction l with
  | nil =>
    constructor
    · intro h
      simp only [longestRun] at h
      exact ⟨0, fun j hj => by omega⟩
    · rintro ⟨i, h⟩
      rcases n with _ | n
      · exact Nat.zero_le _
      · obtain ⟨a, ha, _⟩ := h 0 (by omega)
        simp at ha
  | cons b t ih =>
    unfold longestRun
    rw [le_max_iff, ih, leadRun_ge]
    constructor
    · rintro (h | ⟨i, h⟩)
      · exact ⟨0, by simpa using h⟩
      · refine ⟨i + 1, fun j hj => ?_⟩
        rw [show i + 1 + j = (i + j) + 1 by omega, List.getElem?_cons_succ]
        exact h j hj
    · rintro ⟨i, h⟩
      rcases i with _ | i
      · left
        simpa using h
      · right
        refine ⟨i, fun j hj => ?_⟩
        have := h j hj
        rwa [show i + 1 + j = (i + j) + 1 by omega, List.getElem?_cons_succ] at this

/-- One call halves every run. -/
theorem survivors_runs (p : α → Bool) (l : List α) :
    leadRun p (Spec.survivors p l) = leadRun p l / 2 ∧ longestRun p (Spec.survivors p l) = longestRun p l / 2 := by
  induction l using Spec.survivors.induct p with
  | case1 => simp [Spec.survivors, leadRun, longestRun]
  | case2 a h => simp [Spec.survivors, h, leadRun, longestRun]
  | case3 a h => simp [Spec.survivors, h, leadRun, longestRun]
  | case4 a b t h ih =>
    rw [Spec.survivors, if_pos h]
    by_cases hb : p b = true
    · simp only [leadRun, longestRun, h, hb, if_true, ih.1, ih.2]
      omega
    · simp only [leadRun, longestRun, h, hb, if_true, if_false, ih.1, ih.2, Bool.false_eq_true]
      constructor
      · simp
      · omega
  | case5 a b t h ih =>
    rw [Spec.survivors, if_neg h]
    simp only [Bool.not_eq_true] at h
    have e1 : ∀ m : List α, leadRun p (a :: m) = 0 := fun m => by simp [leadRun, h]
    have e2 : ∀ m : List α, longestRun p (a :: m) = longestRun p m := fun m => by
      rw [longestRun, e1]
      exact Nat.zero_max _
    rw [e1, e1, e2, e2]
    exact ⟨rfl, ih.2⟩

section
variable [AddCommGroup K] [LinearOrder K]

theorem removeRange_iterate (at_ : Atlas K) (w tol : K) (n : Nat) :
    longestRun (InRange w tol) ((fun a : Atlas K => a.removeRange w tol)^[n] at_).lines =
      longestRun (InRange w tol) at_.lines / 2 ^ n ∧
    ((fun a : Atlas K => a.removeRange w tol)^[n] at_).lines.filter (fun l => !InRange w tol l) =
      at_.lines.filter (fun l => !InRange w tol l) := by
  induction n generalizing at_ with
  | zero => simp
  | succ n ih =>
    rw [Function.iterate_succ_apply]
    obtain ⟨h1, h2⟩ := ih (at_.removeRange w tol)
    rw [h1, h2, removeRange_lines]
    refine ⟨?_, filter_survivors _ _⟩
    dsimp only
    rw [(survivors_runs _ _).2, Nat.div_div_eq_div_mul, pow_succ, mul_comm]

/-- C41, exactly when it works: after `n` calls of `remove_atlas_lines_range` with the same arguments just the lines in
range are gone if and only if there were no `2 ^ n` consecutive lines in range.  For one call: no two neighbours. -/
theorem C41_calls_partial (at_ : Atlas K) (w tol : K) (n : Nat) :
    ((fun a : Atlas K => a.removeRange w tol)^[n] at_).lines = at_.lines.filter (fun l => !InRange w tol l) ↔
      ¬ Spec.LongRun (InRange w tol) (2 ^ n) at_.lines := by
  obtain ⟨h1, h2⟩ := removeRange_iterate at_ w tol n
  rw [← h2, eq_comm, List.filter_eq_self, ← longestRun_ge, not_le]
  generalize ((fun a : Atlas K => a.removeRange w tol)^[n] at_).lines = l at h1 h2
  have h3 : longestRun (InRange w tol) at_.lines < 2 ^ n ↔ longestRun (InRange w tol) l < 1 := by
    rw [h1, Nat.div_lt_iff_lt_mul (by positivity), one_mul]
  rw [h3, ← not_le, longestRun_ge]
  constructor
  · rintro h ⟨i, hi⟩
    obtain ⟨a, ha, hp⟩ := hi 0 (by omega)
    have := h a (List.mem_of_getElem? ha)
    rw [hp] at this
    cases this
  · intro h a ha
    obtain ⟨i, hi, rfl⟩ := List.getElem_of_mem ha
    by_contra hc
    refine h ⟨i, fun j hj => ⟨l[i], ?_, by simpa using hc⟩⟩
    rw [show i + j = i by omega]
    exact List.getElem?_eq_getElem hi

end

/-- Three neighbouring lines in range and a fourth one apart. -/
def threeClose : Atlas ℤ :=
  ⟨[⟨5000, "Ar", 1, none⟩, ⟨5001, "Ar", 1, none⟩, ⟨5002, "Ar", 1, none⟩, ⟨6000, "Ar", 1, none⟩,
    ⟨5003, "Ar", 1, none⟩], none, none, 500⟩

/-- A case for `C41_calls_partial`: one call leaves the middle line, two remove all. -/
example : (threeClose.removeRange 5000 10).getLines = [5001, 6000] ∧
    ((threeClose.removeRange 5000 10).removeRange 5000 10).getLines = [6000] := by decide

example : Spec.LongRun (InRange (5000 : ℤ) 10) 3 threeClose.lines ∧
    ¬ Spec.LongRun (InRange (5000 : ℤ) 10) 4 threeClose.lines := by
  rw [← longestRun_ge, ← longestRun_ge]
  decide

end Rascal
