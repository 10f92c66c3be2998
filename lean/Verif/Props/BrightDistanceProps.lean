import Verif.Props.LineFilters

/-!
Property theorem C07, the part with a brightness limit: which lines `min_distance` removes.
-/

set_option linter.unusedSectionVars false

namespace Rascal

variable {K : Type _} [AddCommGroup K] [LinearOrder K]

theorem rows_nodup (s : List (Row K)) (h : (s.map Row.wl).Pairwise (· < ·)) : s.Nodup := by
  rw [List.pairwise_map] at h
  exact h.imp (fun {a b} hab hc => by subst hc; exact lt_irrefl _ hab)

theorem rows_ext (s t : List (Row K)) (hs : (s.map Row.wl).Pairwise (· < ·))
    (ht : (t.map Row.wl).Pairwise (· < ·)) (h : ∀ r, r ∈ s ↔ r ∈ t) : s = t := by
  have hp : s.Perm t := (List.perm_ext_iff_of_nodup (rows_nodup _ hs) (rows_nodup _ ht)).2 h
  rw [List.pairwise_map] at hs ht
  exact hp.eq_of_pairwise (fun a b _ _ h1 h2 => absurd h1 (lt_asymm h2)) hs ht

/-- C07 with any brightness limit.  Let `bright` be the lines returned without a minimum distance, in the order of
the result.  With none of them the call raises IndexError, with one nothing is returned.  Otherwise every line at
least `d` away from all others of `bright` is returned, and every line returned is at least `d` away from one other.
Missing from the full statement: the lines returned need not be `d` away from each other (`C07_refuted`). -/
theorem C07_brightest_partial [IsOrderedAddMonoid K] (argsort : List K → List Nat) (ha : IsArgsort argsort)
    (airToVac vacToAir : K → K)
    (lines : List (Row K)) (elements : List String) (lo hi : K) (mi : MinIntensity K)
    (d : K) (hd : 0 < d) (hv : Spec.ThresholdsFit elements mi) (b : Option Int) :
    ∃ bright : List (Row K),
      loadCalibrationLines argsort airToVac vacToAir lines elements lo hi mi 0 true b =
        .ok ⟨bright.map Row.elem, bright.map Row.wl, bright.map Row.inten⟩ ∧
      (bright.length = 0 → loadCalibrationLines argsort airToVac vacToAir lines elements lo hi mi
        d true b = .error .indexError) ∧
      (bright.length = 1 → loadCalibrationLines argsort airToVac vacToAir lines elements lo hi mi
        d true b = .ok ⟨[], [], []⟩) ∧
      (2 ≤ bright.length → ∃ out : List (Row K),
        loadCalibrationLines argsort airToVac vacToAir lines elements lo hi mi
        d true b = .ok ⟨out.map Row.elem, out.map Row.wl, out.map Row.inten⟩ ∧
        out.Sublist bright ∧
        (∀ r ∈ bright, (∀ q ∈ bright, q ≠ r → d ≤ |q.wl - r.wl|) → r ∈ out) ∧
        ∀ r ∈ out, ∃ q ∈ bright, q ≠ r ∧ d ≤ |q.wl - r.wl|) := by
  obtain ⟨sel, hs, hm, heq⟩ := load_eq argsort airToVac vacToAir lines elements lo hi mi
      d true b hv
  obtain ⟨sel', hs', hm', heq'⟩ := load_eq argsort airToVac vacToAir lines elements lo hi mi
      0 true b hv
  have hsel : sel' = sel := rows_ext _ _ hs' hs (fun r => by rw [hm, hm'])
  subst hsel
  have hnd : (brightRows argsort b sel').Nodup := by
    cases b with
    | none => exact rows_nodup _ hs
    | some n =>
      unfold brightRows pyTake
      set idx := argsort (sel'.map Row.inten) with hidx
      have hlt' : ∀ i ∈ idx.reverse, i < sel'.length := by
        intro i hi
        have := ha.lt (sel'.map Row.inten) i (List.mem_reverse.1 hi)
        simpa using this
      have hperm : (takeIdx sel' idx.reverse).Perm sel' := by
        apply takeIdx_perm_range
        refine (List.reverse_perm _).trans ?_
        have := ha.perm (sel'.map Row.inten)
        rwa [List.length_map] at this
      dsimp only
      rw [takeIdx_take_of_lt hlt']
      exact (hperm.nodup_iff.2 (rows_nodup _ hs)).sublist (List.take_sublist _ _)
  generalize brightRows argsort b sel' = bright at hnd heq heq'
  refine ⟨bright, ?_, ?_, ?_, ?_⟩
  · rw [heq']
    simp only [loadDistanceMask, if_neg (lt_irrefl _), if_true, List.map_map]
    rw [show ((fun _ => true) ∘ Row.wl : Row K → Bool) = (fun _ => true) from rfl,
      boolMask_map_pred]
    simp
  · intro h
    rw [heq, List.length_eq_zero_iff.1 h]
    simp [loadDistanceMask, hd, filterSeparation]
  · intro h
    obtain ⟨r, rfl⟩ := List.length_eq_one_iff.1 h
    rw [heq]
    simp [loadDistanceMask, filterSeparation, diffs, boolMask, hd]
  · intro h
    obtain ⟨mask, h1, h2, h3⟩ := filterSeparation_spec (bright.map Row.wl) d (by
      intro hn
      rw [List.map_eq_nil_iff] at hn
      rw [hn] at h
      simp at h)
    refine ⟨boolMask bright mask, ?_, boolMask_sublist _ _, ?_, ?_⟩
    · rw [heq]
      simp only [loadDistanceMask, if_pos hd, h1]
      rfl
    · intro r hr hall
      obtain ⟨i, hil, rfl⟩ := List.getElem_of_mem hr
      have hil' : i < (bright.map Row.wl).length := by simpa using hil
      rw [mem_boolMask]
      refine ⟨i, by simp [hil], ?_⟩
      rw [h3 i hil']
      simp only [Option.some.injEq, decide_eq_true_eq]
      have hne : ∀ j (hj : j < bright.length), j ≠ i → d ≤ |bright[j].wl - bright[i].wl| :=
        fun j hj hji => hall _ (List.getElem_mem _) (fun hc => hji ((hnd.getElem_inj_iff).1 hc))
      unfold sepAt
      split
      · rename_i g1
        have g1' : i + 1 < bright.length := by simpa using g1
        have r1 := hne (i + 1) g1' (by omega)
        split
        · simpa using r1
        · have r2 := hne (i - 1) (by omega) (by omega)
          rw [abs_sub_comm] at r2
          rcases min_choice ((bright.map Row.wl)[i+1] - (bright.map Row.wl)[i])
            ((bright.map Row.wl)[i] - (bright.map Row.wl)[i-1]) with e | e <;> rw [e]
          · simpa using r1
          · simpa using r2
      · rename_i g1
        have g1' : ¬ i + 1 < bright.length := by simpa using g1
        split
        · omega
        · have r2 := hne (i - 1) (by omega) (by omega)
          rw [abs_sub_comm] at r2
          simpa using r2
    · intro r hr
      rw [mem_boolMask] at hr
      obtain ⟨i, hi, hmi⟩ := hr
      obtain ⟨hil, rfl⟩ := List.getElem?_eq_some_iff.1 hi
      have hil' : i < (bright.map Row.wl).length := by simpa using hil
      rw [h3 i hil'] at hmi
      simp only [Option.some.injEq, decide_eq_true_eq] at hmi
      have hdist : ∀ j (hj : j < bright.length), j ≠ i → bright[j] ≠ bright[i] :=
        fun j hj hji hc => hji ((hnd.getElem_inj_iff).1 hc)
      unfold sepAt at hmi
      split at hmi
      · rename_i g1
        have g1' : i + 1 < bright.length := by simpa using g1
        split at hmi
        · exact ⟨bright[i+1], List.getElem_mem _, hdist _ g1' (by omega), by simpa using hmi⟩
        · rcases min_choice ((bright.map Row.wl)[i+1] - (bright.map Row.wl)[i])
            ((bright.map Row.wl)[i] - (bright.map Row.wl)[i-1]) with e | e <;> rw [e] at hmi
          · exact ⟨bright[i+1], List.getElem_mem _, hdist _ g1' (by omega), by simpa using hmi⟩
          · refine ⟨bright[i-1], List.getElem_mem _, hdist _ _ (by omega), ?_⟩
            rw [abs_sub_comm]
            simpa using hmi
      · rename_i g1
        have g1' : ¬ i + 1 < bright.length := by simpa using g1
        split at hmi
        · omega
        · refine ⟨bright[i-1], List.getElem_mem _, hdist _ _ (by omega), ?_⟩
          rw [abs_sub_comm]
          simpa using hmi

/-- A case for `C07_brightest_partial`, with the default limit of 1000 lines: 500 is isolated and returned, and so is
the close pair 400, 405, because 500 stands between them in the order of brightness. -/
example : loadCalibrationLines (K := ℤ) stableArgsort id id
    [⟨"Ar", 400, 90⟩, ⟨"Ar", 405, 70⟩, ⟨"Ar", 500, 80⟩] ["Ar"] 300 600 (.scalar 10) 10 true (some 1000) =
      .ok ⟨["Ar", "Ar", "Ar"], [400, 500, 405], [90, 80, 70]⟩ ∧
    loadCalibrationLines (K := ℤ) stableArgsort id id
    [⟨"Ar", 400, 90⟩, ⟨"Ar", 405, 85⟩, ⟨"Ar", 500, 80⟩] ["Ar"] 300 600 (.scalar 10) 10 true (some 1000) =
      .ok ⟨["Ar"], [500], [80]⟩ := by decide

end Rascal
