import Verif.Proofs.CandLemmas
import Mathlib.Algebra.Field.Rat
import Mathlib.Algebra.Order.Ring.Rat
import Mathlib.Tactic.NormNum

/-!
Property theorems C53, C54, C56, C57, C69 and C85: pairs, candidates and matching.
-/

set_option linter.unusedSectionVars false

namespace Rascal

section
variable {K : Type _} [Field K] [LinearOrder K] [IsStrictOrderedRing K]

/-! ### C53 -/

/-- C53, no constraint: every combination of a peak and a line is listed once per occurrence. -/
theorem C53_all_pairs (peaks lines : List K) : ∃ out, generatePairs peaks lines none = .ok out ∧
    ∀ p w, out.count (p, w) = peaks.count p * lines.count w :=
  ⟨_, rfl, count_allPairs peaks lines⟩

/-- Two peaks and a repeated line. -/
example : generatePairs [(10 : ℚ), 20] [500, 500] none = .ok [(10, 500), (10, 500), (20, 500), (20, 500)] := by
  decide +kernel

/-- C53, with the polygon: exactly the combinations inside the quadrilateral with corners
`(0, hi0), (0, lo0), (P, loP), (P, hiP)`, once per occurrence. -/
theorem C53_polygon (peaks lines : List K) (g : Polygon K) (hP : g.lastPix ≠ 0)
    (hh : ¬ (g.lo0 = g.hi0 ∧ g.loP = g.hiP)) (hp : peaks ≠ []) (hl : lines ≠ []) :
    ∃ out, generatePairs peaks lines (some g) = .ok out ∧ ∀ p w,
      (Spec.InHull (0, g.hi0) (0, g.lo0) (g.lastPix, g.loP) (g.lastPix, g.hiP) (p, w) →
        out.count (p, w) = peaks.count p * lines.count w) ∧
      (¬ Spec.InHull (0, g.hi0) (0, g.lo0) (g.lastPix, g.loP) (g.lastPix, g.hiP) (p, w) →
        (p, w) ∉ out) := by
  have hflat : g.flat = false := by
    unfold Polygon.flat
    simp only [Bool.or_eq_false_iff, Bool.and_eq_false_iff, decide_eq_false_iff_not]
    refine ⟨hP, ?_⟩
    by_cases h : g.lo0 = g.hi0
    · exact Or.inr (fun h2 => hh ⟨h, h2⟩)
    · exact Or.inl h
  have hne : allPairs peaks lines ≠ [] := by
    cases peaks with
    | nil => exact absurd rfl hp
    | cons a t =>
      cases lines with
      | nil => exact absurd rfl hl
      | cons b l => simp [allPairs]
  unfold generatePairs
  simp only [hflat, hne, Bool.false_eq_true, if_false]
  refine ⟨_, rfl, fun p w => ⟨?_, ?_⟩⟩
  · intro h
    rw [boolMask_map_pred, List.count_filter ((inside_iff_hull g hP _).2 h), count_allPairs]
  · intro h hm
    rw [boolMask_map_pred, List.mem_filter] at hm
    exact h ((inside_iff_hull g hP _).1 hm.2)

/-- A settings-like polygon over 1000 pixels: of three lines two combinations are kept. -/
example : generatePairs [(100 : ℚ), 900] [3500, 8600]
    (some ⟨1000, 2990, 3010, 8990, 9010⟩) = .ok [] := by decide +kernel

example : generatePairs [(100 : ℚ), 900] [3600, 8400]
    (some ⟨1000, 2990, 3010, 8990, 9010⟩) = .ok [(100, 3600), (900, 8400)] := by decide +kernel

/-! ### C56 -/

theorem npUnique_close (y : List K) (tol v : K) :
    v ∈ boolMask (npUnique y).dropLast
      ((List.zipWith (fun b a => b - a) (npUnique y).tail (npUnique y).dropLast).map
        (fun d => decide (d < 3 * tol))) ↔
      v ∈ y ∧ ∃ u ∈ y, v < u ∧ u - v < 3 * tol := by
  have hs := npUnique_sorted y
  have hm := mem_npUnique y
  generalize npUnique y = l at hs hm
  have hrel := List.pairwise_iff_getElem.1 hs
  rw [mem_boolMask]
  constructor
  · rintro ⟨i, h1, h2⟩
    rw [List.getElem?_map, List.getElem?_zipWith] at h2
    have h1' := h1
    rw [List.getElem?_dropLast] at h1
    split_ifs at h1 with hi
    rw [h1', List.getElem?_tail, List.getElem?_eq_getElem (show i + 1 < l.length by omega)] at h2
    simp only [Option.map_some, Option.some.injEq, decide_eq_true_eq] at h2
    refine ⟨(hm v).1 (List.mem_of_getElem? h1), l[i+1], (hm _).1 (List.getElem_mem _), ?_, h2⟩
    have h3 := hrel i (i+1) (by omega) (by omega) (by omega)
    have h4 : l[i]'(by omega) = v := (List.getElem?_eq_some_iff.1 h1).2
    rw [h4] at h3; exact h3
  · rintro ⟨hv, u, hu, hlt, hd⟩
    obtain ⟨i, hi, hiv⟩ := List.getElem_of_mem ((hm v).2 hv)
    obtain ⟨j, hj, hju⟩ := List.getElem_of_mem ((hm u).2 hu)
    have hij : i < j := by
      by_contra hc
      rcases Nat.lt_or_ge j i with h | h
      · have := hrel j i hj hi h
        rw [hiv, hju] at this
        exact absurd hlt (not_lt.2 this.le)
      · have : i = j := by omega
        subst this
        rw [hiv] at hju
        exact absurd hlt (by rw [hju]; exact lt_irrefl _)
    have hi1 : i + 1 < l.length := by omega
    have hnext : l[i+1] ≤ u := by
      rcases Nat.lt_or_ge (i+1) j with h | h
      · have := hrel (i+1) j hi1 hj h
        rw [hju] at this; exact this.le
      · have : i + 1 = j := by omega
        subst this
        exact hju.le
    refine ⟨i, ?_, ?_⟩
    · rw [List.getElem?_dropLast, if_pos (by omega), List.getElem?_eq_getElem hi, hiv]
    · rw [List.getElem?_map, List.getElem?_zipWith, List.getElem?_tail,
        List.getElem?_eq_getElem hi1, List.getElem?_dropLast, if_pos (by omega),
        List.getElem?_eq_getElem hi, hiv]
      simp only [Option.map_some, Option.some.injEq, decide_eq_true_eq]
      linarith

/-- C56.  Of the aligned lists exactly the pairs are kept whose wavelength has no larger candidate
wavelength nearer than `3 * tol`; so any two distinct remaining wavelengths are at least `3 * tol`
apart. -/
theorem C56_filter_close (tol : K) (x y : List K) (h : x.length = y.length) :
    (filterClose tol x y).1.length = (filterClose tol x y).2.length ∧
    ((filterClose tol x y).1.zip (filterClose tol x y).2).Sublist (x.zip y) ∧
    (∀ p w, (p, w) ∈ (filterClose tol x y).1.zip (filterClose tol x y).2 ↔
      (p, w) ∈ x.zip y ∧ ¬ ∃ u ∈ y, w < u ∧ u < w + 3 * tol) ∧
    (∀ v ∈ (filterClose tol x y).2, ∀ w ∈ (filterClose tol x y).2, v < w → 3 * tol ≤ w - v) := by
  have hsel : ∀ v, v ∈ y → (((boolMask (npUnique y).dropLast
      ((List.zipWith (fun b a => b - a) (npUnique y).tail (npUnique y).dropLast).map
        (fun d => decide (d < 3 * tol)))).contains v) = true ↔ ∃ u ∈ y, v < u ∧ u < v + 3 * tol) := by
    intro v hv
    rw [List.contains_iff_mem, npUnique_close]
    constructor
    · rintro ⟨_, u, hu, h1, h2⟩
      exact ⟨u, hu, h1, by linarith⟩
    · rintro ⟨u, hu, h1, h2⟩
      exact ⟨hv, u, hu, h1, by linarith⟩
  unfold filterClose
  dsimp only
  generalize boolMask (npUnique y).dropLast
      ((List.zipWith (fun b a => b - a) (npUnique y).tail (npUnique y).dropLast).map
        (fun d => decide (d < 3 * tol))) = idx at hsel
  have hx : x = (x.zip y).map Prod.fst := (List.map_fst_zip h.le).symm
  have hy : y = (x.zip y).map Prod.snd := (List.map_snd_zip h.ge).symm
  have hmask : y.map (fun v => !(idx.contains v)) =
      (x.zip y).map (fun q => !(idx.contains q.2)) := by
    conv_lhs => rw [hy]
    rw [List.map_map]; rfl
  have e1 : boolMask x (y.map (fun v => !(idx.contains v))) =
      ((x.zip y).filter (fun q => !(idx.contains q.2))).map Prod.fst := by
    conv_lhs => arg 1; rw [hx]
    rw [hmask, boolMask_map, boolMask_map_pred]
  have e2 : boolMask y (y.map (fun v => !(idx.contains v))) =
      ((x.zip y).filter (fun q => !(idx.contains q.2))).map Prod.snd := by
    conv_lhs => arg 1; rw [hy]
    rw [hmask, boolMask_map, boolMask_map_pred]
  rw [e1, e2]
  have e3 : (((x.zip y).filter (fun q => !(idx.contains q.2))).map Prod.fst).zip
      (((x.zip y).filter (fun q => !(idx.contains q.2))).map Prod.snd) =
      (x.zip y).filter (fun q => !(idx.contains q.2)) := by
    generalize (x.zip y).filter (fun q => !(idx.contains q.2)) = l
    induction l with
    | nil => rfl
    | cons a t ih => simp [ih]
  rw [e3]
  have hmem : ∀ p w, (p, w) ∈ (x.zip y).filter (fun q => !(idx.contains q.2)) ↔
      (p, w) ∈ x.zip y ∧ ¬ ∃ u ∈ y, w < u ∧ u < w + 3 * tol := by
    intro p w
    rw [List.mem_filter]
    refine and_congr_right (fun hpw => ?_)
    rw [← hsel w (List.of_mem_zip hpw).2]
    simp
  refine ⟨by simp, List.filter_sublist, hmem, ?_⟩
  intro v hv w hw hlt
  obtain ⟨⟨p, v'⟩, hpv, rfl⟩ := List.mem_map.1 hv
  obtain ⟨⟨q, w'⟩, hqw, rfl⟩ := List.mem_map.1 hw
  have h1 := (hmem p v').1 hpv
  have h2 := (hmem q w').1 hqw
  by_contra hc
  exact h1.2 ⟨w', (List.of_mem_zip h2.1).2, hlt, by dsimp only at hc hlt ⊢; linarith⟩

/-- Wavelengths 500 and 505 are close for tolerance 2, 520 is not. -/
example : filterClose (2 : ℚ) [10, 20, 30, 40] [500, 505, 520, 500] = ([20, 30], [505, 520]) := by
  decide +kernel

/-! ### C57 -/

/-- C57.  A successful matching uses no peak and no wavelength twice, gives every matched peak its
nearest candidate (the first one in case of a tie) with its error, and of all peaks claiming a
wavelength one with the smallest error gets it; every claimed wavelength is matched. -/
theorem C57_matching (f : K → K) (cand : K → Option (List K)) (peaks : List K)
    (r : List (K × K × K)) (h : matchBijective f cand peaks = .ok r) :
    (r.map (fun e => e.2.1)).Nodup ∧ (r.map (fun e => e.2.2)).Nodup ∧
    (∀ e ∈ r, e.2.1 ∈ peaks ∧ Spec.Claims f cand e.2.1 e.2.2 ∧ e.1 = |f e.2.1 - e.2.2| ∧
      ∀ q ∈ peaks, Spec.Claims f cand q e.2.2 → e.1 ≤ |f q - e.2.2|) ∧
    (∀ q ∈ peaks, ∃ w, Spec.Claims f cand q w ∧ w ∈ r.map (fun e => e.2.2)) := by
  rcases matchBijective_spec f cand peaks with ⟨r', h', h1, h2, h3, h4, h5⟩ | ⟨h', _⟩ | ⟨h', _⟩
  · rw [h] at h'
    have := Except.ok.inj h'
    subst this
    refine ⟨h1, h2, h3, ?_⟩
    intro q hq
    obtain ⟨w, hw⟩ := h5 q hq
    exact ⟨w, hw, h4 q hq w hw⟩
  · rw [h] at h'; simp at h'
  · rw [h] at h'; simp at h'

/-- The hypothesis of `C57_matching` met: peaks 10 and 11 compete for one wavelength. -/
example := C57_matching (fun p : ℚ => 2 * p) (candTable [10, 11, 11, 30] [22, 22, 40, 59]) [10, 11, 30]
  [(0, 11, 22), (1, 30, 59)] (by decide +kernel)

/-- C57, failures: the internal assertion never fires; the call fails only for a peak without
candidates. -/
theorem C57_assertion_never_fires (f : K → K) (cand : K → Option (List K)) (peaks : List K) :
    matchBijective f cand peaks ≠ .error .assertionError ∧
    ((∀ p ∈ peaks, ∃ w ws, cand p = some (w :: ws)) → ∃ r, matchBijective f cand peaks = .ok r) := by
  rcases matchBijective_spec f cand peaks with ⟨r', h', _⟩ | ⟨h', p, hp, hc⟩ | ⟨h', p, hp, hc⟩
  · rw [h']; exact ⟨by simp, fun _ => ⟨r', rfl⟩⟩
  · rw [h']
    refine ⟨by simp, fun hall => ?_⟩
    obtain ⟨w, ws, hw⟩ := hall p hp
    rw [hc] at hw; simp at hw
  · rw [h']
    refine ⟨by simp, fun hall => ?_⟩
    obtain ⟨w, ws, hw⟩ := hall p hp
    rw [hc] at hw; simp at hw

/-- The hypothesis inside `C57_assertion_never_fires` met by three peaks with candidates. -/
example := (C57_assertion_never_fires (fun p : ℚ => 2 * p) (candTable [10, 11, 11, 30] [22, 22, 40, 59])
  [10, 11, 30]).2 (by
    intro p hp
    fin_cases hp
    · exact ⟨22, [], by decide +kernel⟩
    · exact ⟨22, [40], by decide +kernel⟩
    · exact ⟨59, [], by decide +kernel⟩)

/-- C57 for the candidate dictionary that `fit` builds: the matching of all candidate peaks succeeds,
each match is one of the candidate pairs, and no candidate of the same peak is nearer. -/
theorem C57_candidate_pairs (f : K → K) (x y : List K) (h : x.length = y.length) :
    ∃ r, matchBijective f (candTable x y) (npUnique x) = .ok r ∧
      ∀ e ∈ r, (e.2.1, e.2.2) ∈ x.zip y ∧ ∀ w, (e.2.1, w) ∈ x.zip y → e.1 ≤ |f e.2.1 - w| := by
  have hmem : ∀ p w, w ∈ boolMask y (x.map (fun v => decide (v = p))) ↔ (p, w) ∈ x.zip y := by
    intro p w
    rw [mem_boolMask]
    simp only [List.mem_iff_getElem?, List.getElem?_zip_eq_some, List.getElem?_map]
    constructor
    · rintro ⟨i, h1, h2⟩
      refine ⟨i, ?_, h1⟩
      cases hx : x[i]? with
      | none => rw [hx] at h2; simp at h2
      | some a => rw [hx] at h2; simp at h2; rw [h2]
    · rintro ⟨i, h1, h2⟩
      exact ⟨i, h2, by rw [h1]; simp⟩
  have hsome : ∀ p ∈ npUnique x, ∃ w ws, candTable x y p = some (w :: ws) := by
    intro p hp
    have hpx := (mem_npUnique x p).1 hp
    unfold candTable
    rw [if_pos hpx]
    obtain ⟨i, hi, hip⟩ := List.getElem_of_mem hpx
    have : y[i]'(h ▸ hi) ∈ boolMask y (x.map (fun v => decide (v = p))) := by
      rw [hmem, List.mem_iff_getElem?]
      refine ⟨i, ?_⟩
      rw [List.getElem?_zip_eq_some, List.getElem?_eq_getElem hi, hip]
      exact ⟨rfl, List.getElem?_eq_getElem _⟩
    cases hb : boolMask y (x.map (fun v => decide (v = p))) with
    | nil => rw [hb] at this; simp at this
    | cons a t => exact ⟨a, t, rfl⟩
  obtain ⟨r, hr⟩ := (C57_assertion_never_fires f (candTable x y) (npUnique x)).2 hsome
  refine ⟨r, hr, ?_⟩
  intro e he
  obtain ⟨_, ⟨ws, i, h1, h2, h3, _⟩, h4, _⟩ := (C57_matching f _ _ r hr).2.2.1 e he
  unfold candTable at h1
  split_ifs at h1
  have h1 := Option.some.inj h1
  subst h1
  refine ⟨(hmem _ _).1 (List.mem_of_getElem? h2), ?_⟩
  intro w hw
  rw [h4]
  exact h3 w ((hmem _ _).2 hw)

/-- Peaks 10 and 11 compete for one wavelength under `f p = 2 p`: for 21 they tie and the first one
wins, for 22 peak 11 is nearer. -/
example : matchBijective (fun p : ℚ => 2 * p) (candTable [10, 11, 11, 30] [21, 21, 40, 59]) [10, 11, 30] =
    .ok [(1, 10, 21), (1, 30, 59)] := by decide +kernel

example : matchBijective (fun p : ℚ => 2 * p) (candTable [10, 11, 11, 30] [22, 22, 40, 59]) [10, 11, 30] =
    .ok [(0, 11, 22), (1, 30, 59)] := by decide +kernel

/-! ### C69 -/

/-- The documented behaviour: polynomial candidates for any number of peaks and lines. -/
def C69_Statement : Prop :=
  ∀ (weight : ℚ → ℚ → ℚ) (tol : ℚ) (peaks actual : List ℚ) (f : ℚ → ℚ) (deltas : List ℚ),
    ∃ cs, candidatesPoly weight tol true peaks actual f deltas = .ok cs ∧
      ∀ c ∈ cs, ∀ p w, (p, w) ∈ c.peaks.zip c.wls →
        p ∈ peaks ∧ w ∈ actual ∧ ∃ d ∈ deltas, |w - (f p + d)| < tol

/-- C69 is false: with two peaks and three lines the call raises ValueError. -/
theorem C69_refuted : ¬ C69_Statement := by
  intro h
  obtain ⟨cs, h1, _⟩ := h (fun _ _ => 1) 1 [1, 2] [10, 20, 30] (fun p => 10 * p) [0]
  have h2 : candidatesPoly (fun _ _ => (1:ℚ)) 1 true [1, 2] [10, 20, 30] (fun p => 10 * p) [0] =
      .error .valueError := by decide +kernel
  rw [h2] at h1
  simp at h1

theorem polyCandidate_ok {weight : K → K → K} {tol : K} {arr : Bool} {peaks actual predicted : List K}
    {c : Cand K} (hp : peaks.length = predicted.length)
    (h : polyCandidate weight tol arr peaks actual predicted = .ok (some c)) :
    actual.length = predicted.length ∧
    ∀ p w, (p, w) ∈ c.peaks.zip c.wls → ∃ (i : Nat) (v : K), peaks[i]? = some p ∧ actual[i]? = some w ∧
      predicted[i]? = some v ∧ |w - v| < tol := by
  unfold polyCandidate at h
  by_cases hl : actual.length = predicted.length
  · refine ⟨hl, ?_⟩
    simp only [hl, if_true] at h
    generalize hm : (List.zipWith (fun a p => |a - p|) actual predicted).map
      (fun d => decide (d < tol)) = m at h
    by_cases ha : m.any id = true
    · cases arr with
      | false => simp [ha] at h
      | true =>
        simp only [ha, if_true] at h
        have h := Option.some.inj (Except.ok.inj h)
        subst h
        intro p w hpw
        dsimp only at hpw
        rcases boolMask_zip peaks actual m with hz | hz
        · rw [hz, mem_boolMask] at hpw
          obtain ⟨i, h1, h2⟩ := hpw
          rw [List.getElem?_zip_eq_some] at h1
          have hil : i < predicted.length := by
            rw [← hl]; exact (List.getElem?_eq_some_iff.1 h1.2).1
          refine ⟨i, predicted[i], h1.1, h1.2, List.getElem?_eq_getElem hil, ?_⟩
          rw [← hm, List.getElem?_map, List.getElem?_zipWith, h1.2,
            List.getElem?_eq_getElem hil] at h2
          simpa using h2
        · exact absurd (hp.trans hl.symm) hz
    · simp [ha] at h
  · simp only [hl, if_false] at h
    exfalso
    split_ifs at h
    all_goals simp at h

/-- C69, what holds: if the call returns, each candidate pairs the `i`-th peak with the `i`-th atlas
line, within tolerance of the shifted guess, and there are candidates only if there are as many peaks
as lines; with different numbers, both above one, every call with a shift raises ValueError.  What is
missing: other combinations of peaks and lines. -/
theorem C69_poly_candidates_partial (weight : K → K → K) (tol : K) (arr : Bool) (peaks actual : List K)
    (f : K → K) (deltas : List K) :
    (∀ cs, candidatesPoly weight tol arr peaks actual f deltas = .ok cs →
      (cs ≠ [] → actual.length = peaks.length) ∧
      ∀ c ∈ cs, ∀ p w, (p, w) ∈ c.peaks.zip c.wls →
        ∃ (i : Nat) (d : K), d ∈ deltas ∧ peaks[i]? = some p ∧ actual[i]? = some w ∧
          |w - (f p + d)| < tol) ∧
    (actual.length ≠ peaks.length → actual.length ≠ 1 → peaks.length ≠ 1 → deltas ≠ [] →
      candidatesPoly weight tol arr peaks actual f deltas = .error .valueError) := by
  constructor
  · induction deltas with
    | nil =>
      intro cs h
      have h := (Except.ok.inj h).symm
      subst h
      simp
    | cons d ds ih =>
      intro cs h
      unfold candidatesPoly at h
      cases hc : polyCandidate weight tol arr peaks actual (peaks.map (fun p => f p + d)) with
      | error e => rw [hc] at h; simp at h
      | ok c =>
        rw [hc] at h
        dsimp only at h
        cases hr : candidatesPoly weight tol arr peaks actual f ds with
        | error e => rw [hr] at h; simp at h
        | ok cs' =>
          rw [hr] at h
          have h := (Except.ok.inj h).symm
          subst h
          obtain ⟨i1, i2⟩ := ih cs' hr
          constructor
          · intro hne
            cases c with
            | none => exact i1 (by simpa using hne)
            | some c => simpa using (polyCandidate_ok (by simp) hc).1
          · intro c' hc' p w hpw
            rcases List.mem_append.1 hc' with hm | hm
            · have hcc : c = some c' := by
                cases c with
                | none => simp at hm
                | some c => simp at hm; rw [hm]
              subst hcc
              obtain ⟨i, v, h1, h2, h3, h4⟩ := (polyCandidate_ok (by simp) hc).2 p w hpw
              rw [List.getElem?_map, h1] at h3
              simp only [Option.map_some, Option.some.injEq] at h3
              exact ⟨i, d, by simp, h1, h2, by rw [h3]; exact h4⟩
            · obtain ⟨i, d', h0, h1⟩ := i2 c' hm p w hpw
              exact ⟨i, d', by simp [h0], h1⟩
  · intro h1 h2 h3 h4
    cases deltas with
    | nil => exact absurd rfl h4
    | cons d ds =>
      unfold candidatesPoly polyCandidate
      simp [h1, h2, h3]

example : candidatesPoly (fun _ _ => (1:ℚ)) 1 true [1, 2] [10, 25] (fun p => 10 * p) [0, 1] =
    .ok [⟨[1], [10], [1]⟩] := by decide +kernel

/-! ### C85 -/

/-- C85, what holds: every merged row consists of the peak, wavelength and weight of one candidate, in
increasing order; it starts with peak and wavelength if they are in increasing order and not above
the weight, and with weight and peak in the usual case weight < peak < wavelength.  Every candidate
is there.  What is missing: the columns keep their meaning. -/
theorem C85_merge_partial (cs : List (Cand K)) (row : List K) :
    row ∈ mergeCandidates cs ↔ ∃ c ∈ cs, ∃ p w v, (p, w, v) ∈ c.peaks.zip (c.wls.zip c.weights) ∧
      row.Perm [p, w, v] ∧ row.Pairwise (· ≤ ·) ∧ (p ≤ w → w ≤ v → row = [p, w, v]) ∧
      (v ≤ p → p ≤ w → row = [v, p, w]) := by
  have hsorted : ∀ l : List K, (l.mergeSort (fun a b => decide (a ≤ b))).Pairwise (· ≤ ·) := by
    intro l
    have := List.pairwise_mergeSort (le := fun a b : K => decide (a ≤ b))
      (fun a b c h1 h2 => by
        simp only [decide_eq_true_eq] at *; exact le_trans h1 h2)
      (fun a b => by simpa using le_total a b) l
    simpa using this
  have huniq : ∀ l m : List K, l.Perm m → l.Pairwise (· ≤ ·) → m.Pairwise (· ≤ ·) → l = m :=
    fun l m hp h1 h2 => List.Perm.eq_of_pairwise (fun a b _ _ h h' => le_antisymm h h') h1 h2 hp
  unfold mergeCandidates
  simp only [List.mem_map, List.mem_flatMap]
  constructor
  · rintro ⟨r0, ⟨c, hc, ⟨p, w, v⟩, ht, rfl⟩, rfl⟩
    refine ⟨c, hc, p, w, v, ht, List.mergeSort_perm _ _, hsorted _, ?_, ?_⟩
    · intro h1 h2
      refine huniq _ _ (List.mergeSort_perm _ _) (hsorted _) ?_
      simp [h1, h2, le_trans h1 h2]
    · intro h1 h2
      refine huniq _ _ ((List.mergeSort_perm _ _).trans ?_) (hsorted _) ?_
      · exact (List.Perm.trans (List.Perm.cons p (List.Perm.swap v w [])) (List.Perm.swap v p [w]))
      · simp [h1, h2, le_trans h1 h2]
  · rintro ⟨c, hc, p, w, v, ht, hp, hs, _⟩
    refine ⟨[p, w, v], ⟨c, hc, (p, w, v), ht, rfl⟩, ?_⟩
    exact huniq _ _ ((List.mergeSort_perm _ _).trans hp.symm) (hsorted _) hs

/-- A weight below the peak comes first. -/
example : [(1 : ℚ), 10, 500] ∈ mergeCandidates [(⟨[10], [500], [1]⟩ : Cand ℚ)] :=
  (C85_merge_partial _ _).2 ⟨_, List.mem_singleton.2 rfl, 10, 500, 1, by simp,
    by decide +kernel, by decide +kernel, by norm_num, fun _ _ => rfl⟩

/-- The documented behaviour: the first two columns are the peaks and wavelengths. -/
def C85_Statement : Prop :=
  ∀ (cs : List (Cand ℚ)) (row : List ℚ), row ∈ mergeCandidates cs →
    ∃ c ∈ cs, ∃ p w, (p, w) ∈ c.peaks.zip c.wls ∧ row.take 2 = [p, w]

/-- C85 is false: for a peak at pixel 100, wavelength 4000 and weight 1/2 the first two columns are
the weight and the peak. -/
theorem C85_refuted : ¬ C85_Statement := by
  intro h
  obtain ⟨c, hc, p, w, hpw, hr⟩ := h [⟨[100], [4000], [1/2]⟩] [1/2, 100, 4000]
    ((C85_merge_partial _ _).2 ⟨_, List.mem_singleton.2 rfl, 100, 4000, 1/2, by simp,
      by decide +kernel, by decide +kernel, by norm_num, by norm_num⟩)
  simp only [List.mem_singleton] at hc
  subst hc
  simp only [List.zip_cons_cons, List.zip_nil_left, List.mem_singleton, Prod.mk.injEq] at hpw
  rw [hpw.1, hpw.2] at hr
  norm_num at hr

/-- A row in increasing order keeps its columns. -/
example : [(1 : ℚ), 5, 7] ∈ mergeCandidates [(⟨[1, 2], [5, 6], [7, 8]⟩ : Cand ℚ)] :=
  (C85_merge_partial _ _).2 ⟨_, List.mem_singleton.2 rfl, 1, 5, 7, by simp,
    List.Perm.refl _, by decide +kernel, fun _ _ => rfl, by norm_num⟩

end

/-! ### C54 -/

/-- Position-wise description of a candidate set. -/
theorem candidatesLinear_eq {K : Type _} [Field K] [LinearOrder K] (weight : K → K → K) (tol : K)
    (lines pairs : List (K × K)) :
    candidatesLinear weight tol lines pairs = lines.map (fun l =>
      let sel := pairs.filter (fun p => decide (|l.1 * p.1 + l.2 - p.2| ≤ tol))
      ⟨sel.map Prod.fst, sel.map Prod.snd, sel.map (fun p => weight p.2 (l.1 * p.1 + l.2))⟩) := by
  unfold candidatesLinear
  apply List.map_congr_left
  intro l _
  dsimp only
  have hmask : (List.zipWith (fun p a => |p - a|) (pairs.map (fun p => l.1 * p.1 + l.2))
      (pairs.map Prod.snd)).map (fun d => decide (d ≤ tol)) =
      pairs.map (fun p => decide (|l.1 * p.1 + l.2 - p.2| ≤ tol)) := by
    rw [List.zipWith_map, List.zipWith_self, List.map_map]; rfl
  rw [hmask, boolMask_map, boolMask_map, boolMask_map, boolMask_map_pred, List.zipWith_map,
    List.zipWith_self]

/-- C54.  For each Hough line the candidates are exactly the pairs within `tol` of it, in order, and
the weights lie in (0, 1] and strictly decrease with the distance from the line. -/
theorem C54_linear_candidates (rangeTol linTol tol : ℝ) (lines pairs : List (ℝ × ℝ)) :
    (candidatesLinear (linearWeight rangeTol linTol) tol lines pairs).length = lines.length ∧
    ∀ (i : Nat) (g b : ℝ), lines[i]? = some (g, b) →
      ∃ c, (candidatesLinear (linearWeight rangeTol linTol) tol lines pairs)[i]? = some c ∧
        c.peaks.length = c.wls.length ∧ c.weights.length = c.wls.length ∧
        c.peaks.zip c.wls = pairs.filter (fun p => decide (|g * p.1 + b - p.2| ≤ tol)) ∧
        (∀ v ∈ c.weights, 0 < v ∧ v ≤ 1) ∧
        ∀ (j k : Nat) (p q : ℝ × ℝ) (u v : ℝ), (c.peaks.zip c.wls)[j]? = some p →
          (c.peaks.zip c.wls)[k]? = some q → c.weights[j]? = some u → c.weights[k]? = some v →
          |g * p.1 + b - p.2| < |g * q.1 + b - q.2| → v < u := by
  rw [candidatesLinear_eq]
  refine ⟨by simp, ?_⟩
  intro i g b hl
  have hden : (0 : ℝ) < 2 * ((rangeTol + linTol) * 1.1775) ^ 2 + 1e-9 := by positivity
  refine ⟨_, by rw [List.getElem?_map, hl]; rfl, by simp, by simp, ?_, ?_, ?_⟩
  · dsimp only
    generalize pairs.filter (fun p => decide (|g * p.1 + b - p.2| ≤ tol)) = l
    induction l with
    | nil => rfl
    | cons a t ih => simp [ih]
  · intro v hv
    obtain ⟨p, _, rfl⟩ := List.mem_map.1 hv
    unfold linearWeight gaussFn
    rw [one_mul]
    refine ⟨Real.exp_pos _, ?_⟩
    rw [Real.exp_le_one_iff]
    apply div_nonpos_of_nonpos_of_nonneg _ hden.le
    linarith [sq_nonneg (p.2 - (g * p.1 + b))]
  · intro j k p q u v h1 h2 h3 h4 hlt
    dsimp only at h1 h2 h3 h4
    generalize pairs.filter (fun p => decide (|g * p.1 + b - p.2| ≤ tol)) = l at h1 h2 h3 h4
    have hz : (l.map Prod.fst).zip (l.map Prod.snd) = l := by
      clear h1 h2 h3 h4
      induction l with
      | nil => rfl
      | cons a t ih => simp [ih]
    rw [hz] at h1 h2
    rw [List.getElem?_map, h1] at h3
    rw [List.getElem?_map, h2] at h4
    simp only [Option.map_some, Option.some.injEq] at h3 h4
    rw [← h3, ← h4]
    unfold linearWeight gaussFn
    rw [one_mul, one_mul, Real.exp_lt_exp]
    apply div_lt_div_of_pos_right _ hden
    have hsq : (p.2 - (g * p.1 + b)) ^ 2 < (q.2 - (g * q.1 + b)) ^ 2 := by
      rw [sq_lt_sq, abs_sub_comm, abs_sub_comm q.2]
      exact hlt
    linarith

/-- One line, three pairs, two of them near it. -/
example : ((candidatesLinear (fun _ _ => (1:ℚ)) 2 [(5, 100)] [(10, 151), (20, 202), (30, 260)]).map
    (fun c => c.peaks.zip c.wls)) = [[(10, 151), (20, 202)]] := by decide +kernel

end Rascal
