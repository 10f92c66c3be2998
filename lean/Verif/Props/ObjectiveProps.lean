import Verif.Proofs.MatchLemmas
import Verif.Proofs.ToyKern

/-! The objective minimised by `match_peaks(refine=True)` (C79). -/

namespace Rascal

open Spec

set_option linter.unusedSectionVars false

variable {K : Type _} [Field K] [LinearOrder K] [IsStrictOrderedRing K]

/-- The check on the sorted pixels says that the wavelengths increase. -/
theorem increasing_sorted (f : K → K) (pixels : List K) :
    increasing ((pixels.insertionSort (· ≤ ·)).map f) = true ↔ StrictlyIncreasingOn f pixels := by
  rw [increasing_iff, ← List.isChain_iff_getElem, List.isChain_iff_pairwise, List.pairwise_map]
  have hp := List.perm_insertionSort (fun a b : K => a ≤ b) pixels
  have hs := List.pairwise_insertionSort (fun a b : K => a ≤ b) pixels
  generalize pixels.insertionSort (fun a b : K => a ≤ b) = s at hp hs ⊢
  constructor
  · intro h
    refine ⟨hp.nodup_iff.1 (h.imp (fun hlt he => by simp [he] at hlt)), ?_⟩
    intro a ha b hb hab
    obtain ⟨i, hi, rfl⟩ := List.getElem_of_mem (hp.mem_iff.2 ha)
    obtain ⟨j, hj, rfl⟩ := List.getElem_of_mem (hp.mem_iff.2 hb)
    rcases Nat.lt_trichotomy i j with hij | hij | hij
    · exact List.pairwise_iff_getElem.1 h i j hi hj hij
    · subst hij; exact absurd hab (lt_irrefl _)
    · exact absurd (List.pairwise_iff_getElem.1 hs j i hj hi hij) (not_le.2 hab)
  · rintro ⟨hn, h⟩
    have hn' : s.Pairwise (· ≠ ·) := hp.nodup_iff.2 hn
    refine List.Pairwise.imp_of_mem ?_ (hs.and hn')
    intro a b ha hb hab
    exact h a (hp.mem_iff.1 ha) b (hp.mem_iff.1 hb) (lt_of_le_of_ne hab.1 hab.2)

/-- C79: the objective.  `dist p` is the distance between the wavelength predicted for the peak `p` and
the nearest atlas line, `used` the peaks nearer than the tolerance.  The objective is the sum of their
squared distances over the degrees of freedom if enough peaks are used and the solution increases with
the pixels, and infinity otherwise. -/
theorem C79_objective (k : Kernels K) (peaks lines pixels fit delta new : List K) (tol minFrac : K)
    (hl : lines ≠ []) (hf : fit ≠ []) (hlen : delta.length ≤ fit.length)
    (hnew : Shifted fit delta new) (dist : K → K)
    (hd : ∀ p, LineDist lines (k.polyval new p) (dist p)) :
    let used := peaks.filter (fun p => decide (dist p < tol))
    let good := new.length + 2 ≤ used.length ∧ (peaks.length : K) * minFrac ≤ (used.length : K) ∧
      StrictlyIncreasingOn (k.polyval new) pixels
    (good → adjustPolyfit k peaks lines pixels fit tol minFrac delta =
      .ok (.fin ((used.map (fun p => dist p ^ 2)).sum / ((used.length : K) - (new.length : K) - 1)))) ∧
    (¬ good → adjustPolyfit k peaks lines pixels fit tol minFrac delta = .ok .posInf) := by
  intro used good
  obtain ⟨new', h1, h2⟩ := addDelta_spec fit delta hlen
  have hn : new' = new := by
    apply List.ext_getElem (by rw [h2.1, hnew.1])
    intro i hi hi'
    have := (h2.2 i (by rw [← h2.1]; exact hi)).trans (hnew.2 i (by rw [← h2.1]; exact hi)).symm
    simpa [List.getD_eq_getElem?_getD, List.getElem?_eq_getElem hi, List.getElem?_eq_getElem hi'] using this
  subst hn
  have hne : new' ≠ [] := by
    intro h
    have := h2.1
    rw [h] at this
    exact hf (List.eq_nil_of_length_eq_zero this.symm)
  obtain ⟨m1, m2⟩ := adjustMatches_spec (k.polyval new') lines tol hl dist hd peaks
  have hlen' : (adjustMatches (k.polyval new') lines tol peaks).length = used.length := by
    rw [← List.length_map (f := Prod.fst), m1]
  have hsum : ((adjustMatches (k.polyval new') lines tol peaks).map
      (fun e => (e.2 - k.polyval new' e.1) ^ 2)).sum = (used.map (fun p => dist p ^ 2)).sum := by
    congr 1
    change _ = List.map _ (peaks.filter _)
    rw [← m1, List.map_map]
    apply List.map_congr_left
    intro e he
    simp only [Function.comp]
    rw [← m2 e he, sq_abs]
  have hA : adjustPolyfit k peaks lines pixels fit tol minFrac delta =
      (if (used.length : Int) - (new'.length : Int) - 1 < 1 then .ok .posInf
      else if (used.length : K) < (peaks.length : K) * minFrac then .ok .posInf
      else if !increasing ((pixels.insertionSort (· ≤ ·)).map (k.polyval new')) then .ok .posInf
      else .ok (.fin ((used.map (fun p => dist p ^ 2)).sum /
        ((used.length : K) - (new'.length : K) - 1)))) := by
    unfold adjustPolyfit
    simp only [h1, hne, hl, and_false, if_false, hlen', hsum]
  rw [hA]
  constructor
  · rintro ⟨g1, g2, g3⟩
    rw [if_neg (by omega), if_neg (not_lt.2 g2), (increasing_sorted _ _).2 g3]
    rfl
  · intro hg
    split
    · rfl
    · split
      · rfl
      · split
        · rfl
        · rename_i a1 a2 a3
          refine absurd ⟨by omega, not_lt.1 a2, (increasing_sorted _ _).1 ?_⟩ hg
          simpa using a3

/-- C79: whatever the state and the shift, the objective is infinite or not negative (or raises). -/
theorem C79_nonneg (k : Kernels K) (peaks lines pixels fit delta : List K) (tol minFrac : K)
    (v : PyFloat K) (h : adjustPolyfit k peaks lines pixels fit tol minFrac delta = .ok v) :
    v = .posInf ∨ ∃ q : K, v = .fin q ∧ 0 ≤ q := by
  unfold adjustPolyfit at h
  split at h
  · cases h
  · rename_i fitNew _
    split at h
    · cases h
    · split at h
      · cases h
      · dsimp only at h
        split at h
        · cases h; exact .inl rfl
        · split at h
          · cases h; exact .inl rfl
          · split at h
            · cases h; exact .inl rfl
            · rename_i hd _ _
              cases h
              refine .inr ⟨_, rfl, div_nonneg ?_ ?_⟩
              · apply List.sum_nonneg
                intro x hx
                obtain ⟨e, _, rfl⟩ := List.mem_map.1 hx
                exact sq_nonneg _
              · have : fitNew.length + 2 ≤
                    (adjustMatches (k.polyval fitNew) lines tol peaks).length := by omega
                have h' : ((fitNew.length + 2 : Nat) : K) ≤
                    ((adjustMatches (k.polyval fitNew) lines tol peaks).length : K) := by
                  exact_mod_cast this
                push_cast at h'
                linarith

/-- Four peaks on a straight line and one far away: the objective counts four of them. -/
example : adjustPolyfit Toy.kern [0, 1, 2, 3, 50] [10, 12, 14, 16] [0, 1, 2, 3] [9, 2] (3 / 2) (1 / 2)
    [2 / 1] = .ok (.fin 4) := by decide +kernel

/-- The shift in the example and the distances it gives satisfy the hypotheses of `C79_objective`. -/
example : Shifted [(9 : ℚ), 2] [2] [11, 2] ∧
    LineDist [(10 : ℚ), 12, 14, 16] (Toy.kern.polyval [11, 2] 1) 1 := by
  refine ⟨⟨rfl, ?_⟩, ⟨12, by simp, by decide +kernel⟩, by decide +kernel⟩
  intro i hi
  match i, hi with
  | 0, _ => decide +kernel
  | 1, _ => decide +kernel

/-- A decreasing solution is rejected, and so is one with too few matches. -/
example : adjustPolyfit Toy.kern [0, 1, 2, 3] [10, 12, 14, 16] [0, 1, 2, 3] [16, -2] 5 (1 / 2) [] =
      .ok .posInf ∧
    adjustPolyfit Toy.kern [0, 1, 2] [10, 12, 14, 16] [0, 1, 2, 3] [10, 2] 5 (1 / 2) [] =
      .ok .posInf := by decide +kernel

end Rascal
