import Verif.Proofs.RansacLemmas
import Verif.Props.CandidateProps

/-! What one pass through the loop, and a whole run, can do. -/

set_option linter.unusedSectionVars false

namespace Rascal

variable {K : Type _} [Field K] [LinearOrder K] [IsStrictOrderedRing K]

/-- The user's constraints on an accepted solution `s`, found from the data `data` when the best cost was
`prev`; the lists `x`, `y` of `c` are the candidate pairs. -/
structure AcceptedTrial (k : Kernels K) (c : RansacCfg K) (data : List (PyFloat K) × List (PyFloat K))
    (prev : PyFloat K) (s : Best K) : Prop where
  /-- The trial polynomial is not constant, starts inside the bounds, increases in unit steps over the
  peak range widened by a fifth on both sides, and passes within the tolerance of every match. -/
  trial : ∃ trial, k.polyfit data.1 data.2 c.fitDeg = .ok trial ∧ 1 < trial.length ∧
    c.minIntercept ≤ trial.getD 0 0 ∧ trial.getD 0 0 ≤ c.maxIntercept ∧
    (∀ p0 ∈ c.x, ∀ p1 ∈ c.x, (∀ p ∈ c.x, p0 ≤ p ∧ p ≤ p1) → ∀ i : Nat,
      p0 - (p1 - p0) / 5 + (i : K) + 1 < p1 + (p1 - p0) / 5 →
      k.polyval trial (p0 - (p1 - p0) / 5 + (i : K)) < k.polyval trial (p0 - (p1 - p0) / 5 + (i : K) + 1)) ∧
    ∀ e ∈ s.matchedPeaks.zip s.matchedAtlas, |k.polyval trial e.1 - e.2| < c.tol
  candidates : ∀ e ∈ s.matchedPeaks.zip s.matchedAtlas, e ∈ c.x.zip c.y
  lengths : s.matchedPeaks.length = s.inliers ∧ s.matchedAtlas.length = s.inliers
  distinct : s.matchedPeaks.Nodup ∧ s.matchedAtlas.Nodup
  enough : c.fitDeg < s.inliers ∧ c.minMatches ≤ (s.inliers : Int) ∧
    c.minUtil * (c.nPeaks : K) ≤ (s.inliers : K)
  fit : ∃ co, k.robust s.matchedPeaks s.matchedAtlas c.fitDeg = .ok co ∧ s.coeffs = some co ∧
    s.residual = some (fitResidual k c.tol co s.matchedPeaks s.matchedAtlas) ∧
    s.err = rmsOf k (fitResidual k c.tol co s.matchedPeaks s.matchedAtlas) ∧ c.minFitError ≤ s.err
  cost : s.cost.le prev = true
  /-- The matches are those of the trial's matching `m` that are within the tolerance; the cost is the sum
  of the errors, each at most the tolerance, divided by the degrees of freedom and by the weight. -/
  formula : ∃ trial m wt, k.polyfit data.1 data.2 c.fitDeg = .ok trial ∧
    matchBijective (k.polyval trial) (candTable c.x c.y) (npUnique c.x) = .ok m ∧
    c.weight k trial = .ok wt ∧
    s.matchedPeaks.zip s.matchedAtlas =
      (m.filter (fun e => decide (e.1 < c.tol))).map (fun e => (e.2.1, e.2.2)) ∧
    s.cost = PyFloat.div (PyFloat.div (.fin (m.map (fun e => min e.1 c.tol)).sum)
      (.fin ((m.length : K) - (trial.length : K) + 1))) (.fin (wt + 1 / 1000000000))

/-- The exceptions that can leave a pass once the data are chosen: those of the library routines, and two
of the weight. -/
def PassError (k : Kernels K) (c : RansacCfg K) (data : List (PyFloat K) × List (PyFloat K)) (e : PyErr) :
    Prop :=
  k.polyfit data.1 data.2 c.fitDeg = .error e ∨
  (∃ p a, k.robust p a c.fitDeg = .error e) ∨
  (e = .indexError ∧ ∃ trial, k.polyfit data.1 data.2 c.fitDeg = .ok trial ∧ trial.length ≤ 1) ∨
  (e = .unboundLocal ∧ c.density matches .unbound)

theorem derivativeCoeffs_eq_nil (p : List K) : derivativeCoeffs p = [] ↔ p.length ≤ 1 := by
  unfold derivativeCoeffs
  rw [List.map_eq_nil_iff, List.range'_eq_nil_iff]
  omega

theorem head_last_npUnique (x : List K) (p0 p1 : K) (h0 : p0 ∈ x) (h1 : p1 ∈ x)
    (h : ∀ p ∈ x, p0 ≤ p ∧ p ≤ p1) :
    (npUnique x).headD 0 = p0 ∧ (npUnique x).getLastD 0 = p1 := by
  have hs := npUnique_sorted x
  have hne : npUnique x ≠ [] := by
    intro hc
    have := (mem_npUnique x p0).2 h0
    rw [hc] at this; simp at this
  constructor
  · cases hu : npUnique x with
    | nil => exact absurd hu hne
    | cons a l =>
      rw [hu] at hs
      have ha : a ∈ x := (mem_npUnique x a).1 (by rw [hu]; simp)
      have hp0 : p0 ∈ a :: l := by rw [← hu]; exact (mem_npUnique x p0).2 h0
      rw [List.headD_cons]
      apply le_antisymm _ (h a ha).1
      rcases List.mem_cons.1 hp0 with rfl | hp0
      · exact le_refl _
      · exact ((List.pairwise_cons.1 hs).1 p0 hp0).le
  · rw [List.getLastD_eq_getLast?, List.getLast?_eq_some_getLast hne, Option.getD_some]
    have hl : (npUnique x).getLast hne ∈ x := (mem_npUnique x _).1 (List.getLast_mem hne)
    apply le_antisymm (h _ hl).2
    have hp1 : p1 ∈ npUnique x := (mem_npUnique x p1).2 h1
    obtain ⟨i, hi, hip⟩ := List.getElem_of_mem hp1
    rw [List.getLast_eq_getElem, ← hip]
    rcases Nat.lt_or_ge i ((npUnique x).length - 1) with hlt | hge
    · exact ((List.pairwise_iff_getElem.1 hs) i _ hi (by omega) hlt).le
    · have : i = (npUnique x).length - 1 := by omega
      subst this
      exact le_refl _

theorem monotoneOk_spec [FloorRing K] (k : Kernels K) (c : RansacCfg K) (co : List K)
    (h : c.monotoneOk k co = true) (p0 p1 : K) (h0 : p0 ∈ c.x) (h1 : p1 ∈ c.x)
    (hb : ∀ p ∈ c.x, p0 ≤ p ∧ p ≤ p1) (i : Nat)
    (hi : p0 - (p1 - p0) / 5 + (i : K) + 1 < p1 + (p1 - p0) / 5) :
    k.polyval co (p0 - (p1 - p0) / 5 + (i : K)) < k.polyval co (p0 - (p1 - p0) / 5 + (i : K) + 1) := by
  unfold RansacCfg.monotoneOk at h
  rw [increasing_iff] at h
  obtain ⟨e0, e1⟩ := head_last_npUnique c.x p0 p1 h0 h1 hb
  have hg : monotoneGrid (npUnique c.x) = arangeFrom (p0 - (p1 - p0) / 5) (p1 + (p1 - p0) / 5) := by
    unfold monotoneGrid
    dsimp only
    rw [e0, e1]
    congr 1 <;> ring
  rw [hg] at h
  have hlen : i + 1 < (arangeFrom (p0 - (p1 - p0) / 5) (p1 + (p1 - p0) / 5)).length := by
    rw [mem_range_arange]
    push_cast
    linarith
  have := h i (by rw [List.length_map]; exact hlen)
  rw [List.getElem_map, List.getElem_map, arangeFrom_getElem, arangeFrom_getElem] at this
  push_cast at this
  rw [← add_assoc] at this
  exact this

theorem zip_map_fst_snd {α β : Type _} {γ : Type _} (l : List γ) (f : γ → α) (g : γ → β) :
    (l.map f).zip (l.map g) = l.map (fun e => (f e, g e)) := by
  induction l with
  | nil => rfl
  | cons a l ih => simp [ih]

/-- One pass after the sample is drawn: retry, no change, an accepted solution, or a library error with
nothing changed. -/
theorem evaluate_cases [FloorRing K] (k : Kernels K) (c : RansacCfg K) (hxy : c.x.length = c.y.length)
    (data : List (PyFloat K) × List (PyFloat K)) (s : Best K) :
    c.evaluate k data s = .retry ∨ c.evaluate k data s = .next s ∨
    (∃ s', c.evaluate k data s = .next s' ∧ AcceptedTrial k c data s.cost s') ∨
    ∃ e, c.evaluate k data s = .raised e s ∧ PassError k c data e := by
  unfold RansacCfg.evaluate
  cases hpf : k.polyfit data.1 data.2 c.fitDeg with
  | error e => exact Or.inr (Or.inr (Or.inr ⟨e, rfl, Or.inl hpf⟩))
  | ok co =>
    simp only
    by_cases hio : c.interceptOk co = true
    swap
    · left; simp [hio]
    by_cases hmo : c.monotoneOk k co = true
    swap
    · left; simp [hio, hmo]
    simp only [hio, hmo, Bool.not_true, Bool.false_eq_true, if_false]
    obtain ⟨m, hm, hcand⟩ := C57_candidate_pairs (k.polyval co) c.x c.y hxy
    rw [hm]
    obtain ⟨hn1, hn2, hcl, _⟩ := C57_matching _ _ _ _ hm
    cases m with
    | nil => left; rfl
    | cons a l =>
      simp only
      generalize a :: l = m at hm hcand hn1 hn2 hcl
      unfold RansacCfg.compare
      have hw : ∀ e, c.weight k co = .error e → PassError k c data e := by
        intro e he
        unfold RansacCfg.weight at he
        split at he
        · rename_i hd
          rw [derivativeCoeffs_eq_nil] at hd
          simp only [Except.error.injEq] at he
          exact Or.inr (Or.inr (Or.inl ⟨he.symm, co, hpf, hd⟩))
        · split at he
          · simp at he
          · rename_i hd
            simp only [Except.error.injEq] at he
            exact Or.inr (Or.inr (Or.inr ⟨he.symm, by rw [hd]⟩))
          · simp at he
      cases hwt : c.weight k co with
      | error e => exact Or.inr (Or.inr (Or.inr ⟨e, rfl, hw e hwt⟩))
      | ok w =>
        simp only
        split
        swap
        · exact Or.inr (Or.inl rfl)
        rename_i hle
        unfold RansacCfg.consider
        dsimp only
        split
        · left; rfl
        rename_i hdeg
        cases hr : k.robust ((inlierList c.tol m).map (fun e => e.2.1))
            ((inlierList c.tol m).map (fun e => e.2.2)) c.fitDeg with
        | error e =>
          by_cases he : e = .linAlg
          · subst he; left; rfl
          · refine Or.inr (Or.inr (Or.inr ⟨e, ?_, Or.inr (Or.inl ⟨_, _, hr⟩)⟩))
            cases e <;> first | rfl | exact absurd rfl he
        | ok ro =>
          simp only
          unfold RansacCfg.judge
          dsimp only
          split
          · left; rfl
          rename_i h1
          split
          · left; rfl
          rename_i h2
          split
          · left; rfl
          rename_i h3
          have hsub : (inlierList c.tol m).Sublist m := List.filter_sublist
          have hd1 : ((inlierList c.tol m).map (fun e => e.2.1)).Nodup := hn1.sublist (hsub.map _)
          have hd2 : ((inlierList c.tol m).map (fun e => e.2.2)).Nodup := hn2.sublist (hsub.map _)
          rw [if_pos (oneToOne_of_nodup _ _ hd1 hd2 (by simp))]
          refine Or.inr (Or.inr (Or.inl ⟨_, rfl, ?_⟩))
          have hmem : ∀ e ∈ ((inlierList c.tol m).map (fun e => e.2.1)).zip
              ((inlierList c.tol m).map (fun e => e.2.2)),
              ∃ t ∈ inlierList c.tol m, e = (t.2.1, t.2.2) := by
            intro e he
            rw [zip_map_fst_snd, List.mem_map] at he
            obtain ⟨t, ht, rfl⟩ := he
            exact ⟨t, ht, rfl⟩
          have hlen : 1 < co.length := by
            unfold RansacCfg.weight at hwt
            split at hwt
            · simp at hwt
            · rename_i hd
              rw [derivativeCoeffs_eq_nil] at hd
              omega
          refine ⟨⟨co, hpf, hlen, ?_, ?_, ?_, ?_⟩, ?_, ⟨rfl, by simp⟩, ⟨hd1, hd2⟩, ⟨?_, ?_, ?_⟩, ⟨ro, hr, rfl, rfl, rfl, ?_⟩, hle,
            ⟨co, m, w, hpf, hm, hwt, ?_, ?_⟩⟩
          · unfold RansacCfg.interceptOk at hio
            simp only [Bool.not_eq_true', Bool.or_eq_false_iff, decide_eq_false_iff_not, not_lt] at hio
            exact hio.1
          · unfold RansacCfg.interceptOk at hio
            simp only [Bool.not_eq_true', Bool.or_eq_false_iff, decide_eq_false_iff_not, not_lt] at hio
            exact hio.2
          · exact fun p0 hp0 p1 hp1 hb i hi => monotoneOk_spec k c co hmo p0 p1 hp0 hp1 hb i hi
          · intro e he
            obtain ⟨t, ht, rfl⟩ := hmem e he
            rw [mem_inlierList] at ht
            have := (hcl t ht.1).2.2.1
            simp only
            rw [← this]
            exact ht.2
          · intro e he
            obtain ⟨t, ht, rfl⟩ := hmem e he
            rw [mem_inlierList] at ht
            exact (hcand t ht.1).1
          · simpa using hdeg
          · simpa using h2
          · simpa using h3
          · simpa using h1
          · dsimp only
            rw [zip_map_fst_snd]
            congr 1
            unfold inlierList clipErr
            congr 1
            funext e
            rw [decide_eq_decide]
            split
            · exact ⟨fun h => absurd h (lt_irrefl _), fun h => lt_trans ‹c.tol < e.1› h⟩
            · exact Iff.rfl
          · unfold trialCost
            dsimp only
            rw [List.length_map]
            congr 4
            apply List.map_congr_left
            intro e _
            unfold clipErr
            split
            · rw [min_eq_right (le_of_lt ‹_›)]
            · rw [min_eq_left (not_lt.1 ‹_›)]

end Rascal
