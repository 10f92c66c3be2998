import Verif.Props.ConfigOrderProps
import Verif.Props.RemoveOrderProps

/-!
Property theorem C131, when `remove_atlas_lines_range` can be repeated.
-/

set_option linter.unusedSectionVars false

namespace Rascal

variable {K : Type _} [Field K] [LinearOrder K] [IsStrictOrderedRing K]

/-- Two neighbouring lines of an atlas are within `t` of `v`. -/
def Spec.Neighbours (v t : K) (l : List K) : Prop :=
  ∃ (j : Nat) (x y : K), l[j]? = some x ∧ l[j + 1]? = some y ∧ |x - v| < t ∧ |y - v| < t

theorem neighbours_iff (a : Atlas K) (v t : K) :
    Spec.Neighbours v t a.getLines ↔ Spec.LongRun (InRange v t) (2 ^ 1) a.lines := by
  unfold Spec.Neighbours Spec.LongRun Atlas.getLines
  constructor
  · rintro ⟨j, x, y, hx, hy, h1, h2⟩
    rw [List.getElem?_map, Option.map_eq_some_iff] at hx hy
    obtain ⟨b, hb, rfl⟩ := hx
    obtain ⟨c, hc, rfl⟩ := hy
    refine ⟨j, fun k hk => ?_⟩
    rcases (by omega : k = 0 ∨ k = 1) with rfl | rfl
    · exact ⟨b, hb, decide_eq_true h1⟩
    · exact ⟨c, hc, decide_eq_true h2⟩
  · rintro ⟨j, h⟩
    obtain ⟨b, hb, h1⟩ := h 0 (by omega)
    obtain ⟨c, hc, h2⟩ := h 1 (by omega)
    refine ⟨j, b.wl, c.wl, ?_, ?_, of_decide_eq_true h1, of_decide_eq_true h2⟩
    · rw [List.getElem?_map, show j = j + 0 from rfl, hb]
      rfl
    · rw [List.getElem?_map, hc]
      rfl

theorem removeRange_again_iff (a : Atlas K) (v t : K) :
    (a.removeRange v t).removeRange v t = a.removeRange v t ↔ ¬ Spec.Neighbours v t a.getLines := by
  rw [neighbours_iff, ← C41_calls_partial a v t 1]
  show _ ↔ (a.removeRange v t).lines = _
  constructor
  · intro h
    rw [← (C41_remove_partial a v t).2.1, eq_comm, List.filter_eq_self]
    intro l hl
    by_contra hc
    have := (C41_remove_partial (a.removeRange v t) v t).2.2.1 ⟨l, hl, by simpa using hc⟩
    rw [h] at this
    exact lt_irrefl _ this
  · intro h
    rw [removeRange_lines (a.removeRange v t), survivors_none]
    intro l hl
    rw [h, List.mem_filter] at hl
    simpa using hl.2

/-- C131, for `remove_atlas_lines_range`: the call can be repeated without effect exactly if no two neighbouring lines
of the calibrator's atlas are in range.  Without an atlas it raises AttributeError each time.  What is missing:
neighbouring lines in range. -/
theorem C131_remove_partial (E : CalEnv K) (w : World K) (v t : K) :
    (w.step E (.removeRange v t)).1.step E (.removeRange v t) = w.step E (.removeRange v t) ↔
      ∀ i a, w.cal.atlas = some i → w.atlases[i]? = some a → ¬ Spec.Neighbours v t a.getLines := by
  simp only [World.step, World.removeRange]
  cases hi : w.cal.atlas with
  | none => simp [hi]
  | some i =>
    simp only [World.modifyAtlas, hi, List.modify_modify_eq, Option.some.injEq, Prod.mk.injEq, and_true]
    constructor
    · rintro h j a rfl ha
      have h1 := congrArg (fun u : World K => u.atlases[i]?) h
      simp only [List.getElem?_modify_eq, ha] at h1
      exact (removeRange_again_iff a v t).1 (Option.some.inj h1)
    · intro h
      have hm : w.atlases.modify i ((fun a => a.removeRange v t) ∘ fun a => a.removeRange v t) =
          w.atlases.modify i (fun a => a.removeRange v t) := by
        refine List.ext_getElem? (fun k => ?_)
        rw [List.getElem?_modify, List.getElem?_modify]
        cases hk : w.atlases[k]? with
        | none => rfl
        | some a =>
          by_cases hik : i = k
          · subst hik
            simp only [if_true]
            exact congrArg some ((removeRange_again_iff a v t).2 (h i a rfl hk))
          · simp [hik]
      rw [hm]

/-- Two lines in range with another one between them. -/
def oneBetween : Atlas ℚ := ⟨[⟨5000, "Hg", 1, none⟩, ⟨6000, "Hg", 1, none⟩, ⟨5001, "Ar", 1, none⟩], none, none, 500⟩

theorem oneBetween_apart : ¬ Spec.Neighbours (5000 : ℚ) 10 oneBetween.getLines := by
  rw [← removeRange_again_iff]
  decide +kernel

/-- A case for `C131_remove_partial`: any calibrator with these lines; both lines in range are removed by the first
call. -/
example (c : Cal ℚ) : let w : World ℚ := ⟨[oneBetween], { c with atlas := some 0 }⟩
    (w.step cfgEnv (.removeRange 5000 10)).1.step cfgEnv (.removeRange 5000 10) =
      w.step cfgEnv (.removeRange 5000 10) ∧ (oneBetween.removeRange 5000 10).getLines = [6000] := by
  refine ⟨(C131_remove_partial cfgEnv _ 5000 10).2 ?_, by decide +kernel⟩
  intro i a hi ha
  obtain rfl : 0 = i := Option.some.inj hi
  obtain rfl : oneBetween = a := Option.some.inj ha
  exact oneBetween_apart

example : Spec.Neighbours (5000 : ℚ) 10 inOrder.getLines :=
  ⟨0, 5000, 5001, rfl, rfl, by decide +kernel, by decide +kernel⟩

end Rascal
