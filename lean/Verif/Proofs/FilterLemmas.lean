import Verif.Model.UtilFilters
import Verif.Spec.Lines
import Verif.Proofs.PyLemmas
import Mathlib.Tactic.Linarith
import Mathlib.Algebra.Order.Ring.Rat
import Mathlib.Algebra.Order.Group.MinMax

/-! Helper lemmas for the line filters. -/

set_option linter.unusedSectionVars false

namespace Rascal

variable {K : Type _}

theorem filterWavelengths_eq [LinearOrder K] (lines : List (Row K)) (lo hi : K) :
    filterWavelengths lines lo hi =
      (takeIdx lines (npUniqueIndex (lines.map Row.wl))).filter
        (fun r => decide (lo ≤ r.wl) && decide (r.wl ≤ hi)) := by
  unfold filterWavelengths filterWavelengthsBy
  simp only [takeIdx_map, List.map_map]
  rw [boolMask_map_pred]
  rfl

section Sep
variable [AddCommGroup K] [LinearOrder K] [IsOrderedAddMonoid K]

theorem diffs_length (ws : List K) : (diffs ws).length = ws.length - 1 := by
  simp [diffs]

theorem diffs_getElem (ws : List K) (i : Nat) (h : i + 1 < ws.length) :
    (diffs ws)[i]'(by rw [diffs_length]; omega) = ws[i+1] - ws[i] := by
  simp [diffs]

/-- Entry `i` of the separation mask. -/
def sepAt (ws : List K) (i : Nat) (h : i < ws.length) : K :=
  if h1 : i + 1 < ws.length then
    if h0 : i = 0 then ws[i+1] - ws[i]
    else min (ws[i+1] - ws[i]) (ws[i] - ws[i-1])
  else if h0 : i = 0 then 0
  else ws[i] - ws[i-1]

theorem filterSeparation_spec (ws : List K) (d : K) (hne : ws ≠ []) :
    ∃ mask, filterSeparation ws d = .ok mask ∧ mask.length = ws.length ∧
      ∀ i (h : i < ws.length), mask[i]? = some (decide (d ≤ |sepAt ws i h|)) := by
  obtain ⟨w, t, rfl⟩ := List.exists_cons_of_ne_nil hne
  refine ⟨_, rfl, ?_, ?_⟩
  · simp [diffs_length]
  · intro i h
    have hl : (diffs (w :: t)).length = t.length := by simp [diffs_length]
    rw [List.getElem?_map]
    have hlen : (List.zipWith min (diffs (w :: t) ++ [0]) (0 :: diffs (w :: t))).length
        = t.length + 1 := by simp [hl]
    simp only [List.length_cons] at h
    simp only [List.getElem?_set, List.length_set, hlen]
    -- last position
    by_cases hlast : i = t.length
    · subst hlast
      simp only [Nat.add_sub_cancel, if_true, lt_add_iff_pos_right, zero_lt_one]
      rw [Option.map_some]
      congr 3
      unfold sepAt
      rw [dif_neg (by simp)]
      split
      · rename_i h0
        have : t = [] := List.length_eq_zero_iff.1 h0
        subst this
        simp [diffs]
      · rename_i h0
        congr 1
        have hd : (0 :: diffs (w :: t)).getLastD 0 = (diffs (w::t))[t.length - 1]'(by omega) := by
          rw [List.getLastD_cons, List.getLastD_eq_getLast?, List.getLast?_eq_getElem?,
            List.getElem?_eq_getElem (by omega)]
          simp [hl]
        rw [hd, diffs_getElem _ _ (by simp; omega)]
        have : t.length - 1 + 1 = t.length := by omega
        simp only [this]
    · rw [if_neg (by omega)]
      have hi1 : i + 1 < (w :: t).length := by simp; omega
      by_cases h0 : i = 0
      · subst h0
        simp only [if_true]
        rw [if_pos (by omega), Option.map_some]
        congr 3
        unfold sepAt
        rw [dif_pos hi1, dif_pos rfl]
        congr 1
        have hd : (diffs (w :: t) ++ [0]).headD 0 = (diffs (w::t))[0]'(by omega) := by
          rw [List.headD_eq_head?_getD, List.head?_eq_getElem?, List.getElem?_append_left (by omega),
            List.getElem?_eq_getElem (by omega)]
          rfl
        rw [hd, diffs_getElem _ _ hi1]
      · rw [if_neg (by omega)]
        rw [List.getElem?_zipWith, List.getElem?_append_left (by omega),
          List.getElem?_eq_getElem (by omega), diffs_getElem _ _ hi1]
        obtain ⟨k, rfl⟩ : ∃ k, i = k + 1 := ⟨i - 1, by omega⟩
        rw [List.getElem?_cons_succ, List.getElem?_eq_getElem (by omega),
          diffs_getElem _ _ (by omega)]
        simp only [Option.map_some]
        congr 3
        unfold sepAt
        rw [dif_pos hi1, dif_neg h0]
        rfl

theorem sepAt_isolated (ws : List K) (hs : ws.Pairwise (· ≤ ·)) (h2 : 2 ≤ ws.length)
    (d : K) (i : Nat) (h : i < ws.length) :
    d ≤ |sepAt ws i h| ↔ Spec.Isolated ws d i := by
  have hmono : ∀ a b (ha : a < ws.length) (hb : b < ws.length), a ≤ b → ws[a] ≤ ws[b] := by
    intro a b ha hb hab
    rcases Nat.lt_or_eq_of_le hab with hlt | rfl
    · exact List.pairwise_iff_getElem.1 hs a b ha hb hlt
    · exact le_refl _
  -- distance to the right / left neighbours decides
  have hright : ∀ (h1 : i + 1 < ws.length) j (hj : j < ws.length), i < j →
      ws[i+1] - ws[i] ≤ |ws[j] - ws[i]| := by
    intro h1 j hj hij
    have := hmono (i+1) j h1 hj (by omega)
    have h3 := hmono i j h hj (by omega)
    rw [abs_of_nonneg (sub_nonneg.2 h3)]
    exact sub_le_sub_right this _
  have hleft : ∀ (h1 : i ≠ 0) j (hj : j < ws.length), j < i →
      ws[i] - ws[i-1] ≤ |ws[j] - ws[i]| := by
    intro h1 j hj hij
    have := hmono j (i-1) hj (by omega) (by omega)
    have h3 := hmono j i hj h (by omega)
    rw [abs_sub_comm, abs_of_nonneg (sub_nonneg.2 h3)]
    exact sub_le_sub_left this _
  have hr0 : ∀ (h1 : i + 1 < ws.length), 0 ≤ ws[i+1] - ws[i] := fun h1 =>
    sub_nonneg.2 (hmono i (i+1) h h1 (by omega))
  have hl0 : ∀ (h1 : i ≠ 0), 0 ≤ ws[i] - ws[i-1] := fun h1 =>
    sub_nonneg.2 (hmono (i-1) i (by omega) h (by omega))
  unfold sepAt
  constructor
  · intro hd _ j hj hji
    rcases Nat.lt_or_gt_of_ne hji with hlt | hgt
    · -- left of i
      have h0 : i ≠ 0 := by omega
      refine le_trans ?_ (hleft h0 j hj hlt)
      by_cases h1 : i + 1 < ws.length
      · rw [dif_pos h1, dif_neg h0, abs_of_nonneg (le_min (hr0 h1) (hl0 h0))] at hd
        exact hd.trans (min_le_right _ _)
      · rw [dif_neg h1, dif_neg h0, abs_of_nonneg (hl0 h0)] at hd
        exact hd
    · have h1 : i + 1 < ws.length := by omega
      refine le_trans ?_ (hright h1 j hj hgt)
      by_cases h0 : i = 0
      · rw [dif_pos h1, dif_pos h0, abs_of_nonneg (hr0 h1)] at hd
        exact hd
      · rw [dif_pos h1, dif_neg h0, abs_of_nonneg (le_min (hr0 h1) (hl0 h0))] at hd
        exact hd.trans (min_le_left _ _)
  · intro hiso
    have hiso := hiso h
    have hR : ∀ (h1 : i + 1 < ws.length), d ≤ ws[i+1] - ws[i] := fun h1 => by
      have := hiso (i+1) h1 (by omega)
      rwa [abs_of_nonneg (hr0 h1)] at this
    have hL : ∀ (h1 : i ≠ 0), d ≤ ws[i] - ws[i-1] := fun h1 => by
      have := hiso (i-1) (by omega) (by omega)
      rwa [abs_sub_comm, abs_of_nonneg (hl0 h1)] at this
    by_cases h1 : i + 1 < ws.length
    · by_cases h0 : i = 0
      · rw [dif_pos h1, dif_pos h0, abs_of_nonneg (hr0 h1)]; exact hR h1
      · rw [dif_pos h1, dif_neg h0, abs_of_nonneg (le_min (hr0 h1) (hl0 h0))]
        exact le_min (hR h1) (hL h0)
    · have h0 : i ≠ 0 := by omega
      rw [dif_neg h1, dif_neg h0, abs_of_nonneg (hl0 h0)]; exact hL h0

end Sep

end Rascal
