import Verif.Props.NoiseProps

/-! Property theorem C199: removing pairs and raising the degree before `manual_refit`. -/

set_option linter.unusedSectionVars false

namespace Rascal

open Spec

section
variable {K : Type _} [Field K] [LinearOrder K] [IsStrictOrderedRing K]

/-- The mean square of the residuals a refit returns; its root is the rms. -/
def Spec.meanSquare (r : RefitReport K) : K :=
  (((r.residuals.getD []).map (fun v => v ^ 2)).sum) / (r.peaks.length : K)

/-- The refit of the matched pairs is a least-squares fit in powers, whatever the start. -/
def Spec.RefitsSquares (F : FitEnv K) (M : MatchKernels K) : Prop :=
  (∀ b, Powers (F.kern b)) ∧
  ∀ xs ys d x0 co, xs.length = ys.length → M.robust xs ys d x0 = .ok (some co) → BestSquares xs ys d co

/-- What a successful `manual_refit` without nan did. -/
structure RefitFacts (F : FitEnv K) (s s' : Session K) (a : RefitArgs K) (r : RefitReport K) (co : List K) (d : Nat) : Prop where
  lists : r.peaks = (s.refitLists a).1.2 ∧ r.atlas = (s.refitLists a).2.2
  length : r.peaks.length = r.atlas.length
  degree : ∃ x0, s.refitStart a = .ok (x0, (d : Int))
  room : 0 < d ∧ d < r.peaks.length
  best : BestSquares r.peaks r.atlas d co
  mean : meanSquare r = errorSquares co r.peaks r.atlas / (r.peaks.length : K)
  residuals : r.residuals = some (List.zipWith (fun x y => y - evalLow co x) r.peaks r.atlas)
  rms : ∃ b, s.basis = some b ∧ r.rms = (F.kern b).sqrt (meanSquare r)
  stored : s'.world.cal.matchedPeaks = r.peaks ∧ s'.world.cal.matchedAtlas = r.atlas ∧
    s'.world.cal.fitCoeff = some co ∧ s'.coeffKind = .array

theorem refit_facts (F : FitEnv K) (M : MatchKernels K) (hk : RefitsSquares F M) (s s' : Session K) (a : RefitArgs K)
    (r : RefitReport K) (co : List K) (h : s.manualRefit F M a = (s', .ok r)) (hc : r.coeffs = some co) :
    ∃ d, RefitFacts F s s' a r co d := by
  have hcase := manualRefit_cases F M s a
  rw [h] at hcase
  dsimp only at hcase
  generalize ho : (Except.ok r : PyRes (RefitReport K)) = o at hcase
  cases hcase with
  | early e => cases ho
  | stored x0 deg co' g1 g2 g3 g4 g5 g6 =>
    unfold Session.finishRefit at ho
    have hbasis : (s.storeRefit a deg co').basis = s.basis := rfl
    rw [hbasis] at ho
    cases hb : s.basis with
    | none => rw [hb] at ho; cases ho
    | some b =>
      rw [hb] at ho
      dsimp only at ho
      have hr := Except.ok.inj ho
      have e1 : co' = some co := by rw [← hc, hr]
      subst e1
      have hbest := hk.2 _ _ _ _ _ g3 g6
      have e2 : r.peaks = (s.refitLists a).1.2 := by rw [hr]
      have e3 : r.atlas = (s.refitLists a).2.2 := by rw [hr]
      have e5 : r.residuals = some (List.zipWith (fun x y => y - evalLow co x) r.peaks r.atlas) := by
        rw [e2, e3, hr]
        have : ∀ x, (F.kern b).polyval co x = evalLow co x := fun x => hk.1 b co x
        simp only [Option.map_some, this]
      have e6 : meanSquare r = errorSquares co r.peaks r.atlas / (r.peaks.length : K) := by
        unfold meanSquare
        rw [e5]
        change ((List.zipWith (fun x y => y - evalLow co x) r.peaks r.atlas).map (fun v => v ^ 2)).sum / _ = _
        rw [squares_of_residuals]
      refine ⟨deg, ⟨e2, e3⟩, by rw [e2, e3]; exact g3, ⟨_, g1⟩, ⟨g4, by rw [e2]; exact g5⟩, by rw [e2, e3]; exact hbest, e6, e5,
        ⟨b, hb, ?_⟩, ?_⟩
      · have e4 : r.rms = rmsOf (F.kern b) (List.zipWith (fun x y => y - (F.kern b).polyval co x) (s.refitLists a).1.2
          (s.refitLists a).2.2) := by rw [hr]; rfl
        rw [e4]
        unfold rmsOf
        rw [e6, e2, e3, List.length_zipWith, ← g3, min_self]
        congr 2
        rw [← squares_of_residuals]
        congr 2
        congr 1
        funext x y
        rw [hk.1 b]
      · rw [e2, e3]
        unfold Session.finishRefit
        rw [hbasis, hb]
        exact ⟨rfl, rfl, rfl, rfl⟩

theorem errorSquares_erase (q : List K) : ∀ (xs ys : List K) (j : Nat), xs.length = ys.length → j < xs.length →
    errorSquares q (xs.eraseIdx j) (ys.eraseIdx j) + (ys.getD j 0 - evalLow q (xs.getD j 0)) ^ 2 = errorSquares q xs ys
  | [], _, j, _, hj => by simp at hj
  | _ :: _, [], _, hl, _ => by simp at hl
  | x :: xs, y :: ys, 0, _, _ => by
    simp only [errorSquares, List.eraseIdx_cons_zero, List.zipWith_cons_cons, List.sum_cons, List.getD_cons_zero]
    ring
  | x :: xs, y :: ys, j + 1, hl, hj => by
    have ih := errorSquares_erase q xs ys j (by simpa using hl) (by simpa using hj)
    simp only [errorSquares, List.eraseIdx_cons_succ, List.zipWith_cons_cons, List.sum_cons, List.getD_cons_succ] at ih ⊢
    rw [← ih]
    ring

/-- The position `remove_pix_wave_pair` means in a list of `n` pairs. -/
def Spec.position (i : Int) (n : Nat) : Nat := if i < 0 then (i + n).toNat else i.toNat

theorem removePair_lists (s s' : Session K) (i : Int) (h : s.removePair i = (s', .ok ()))
    (hl : s.world.cal.matchedPeaks.length = s.world.cal.matchedAtlas.length) :
    position i s.world.cal.matchedPeaks.length < s.world.cal.matchedPeaks.length ∧
    s'.world.cal.matchedPeaks = s.world.cal.matchedPeaks.eraseIdx (position i s.world.cal.matchedPeaks.length) ∧
    s'.world.cal.matchedAtlas = s.world.cal.matchedAtlas.eraseIdx (position i s.world.cal.matchedPeaks.length) ∧
    s'.world.cal.fitCoeff = s.world.cal.fitCoeff ∧ s'.coeffKind = s.coeffKind := by
  unfold Session.removePair at h
  split at h
  · cases h
  · unfold npDelete at h
    rw [← hl] at h
    by_cases hb : i < -(s.world.cal.matchedPeaks.length : Int) ∨ (s.world.cal.matchedPeaks.length : Int) ≤ i
    · rw [if_pos hb] at h
      cases h
    · rw [if_neg hb, if_neg hb] at h
      have := (Prod.mk.inj h).1
      rw [← this]
      refine ⟨?_, rfl, rfl, rfl, rfl⟩
      unfold position
      push Not at hb
      split <;> omega

/-- A refit, the removal of a pair and a refit without arguments. -/
structure Spec.Pruned (F : FitEnv K) (M : MatchKernels K) (s : Session K) (a : RefitArgs K) (i : Int) (r r' : RefitReport K)
    (co co' : List K) : Prop where
  first : ∃ s1 s2 s3, s.manualRefit F M a = (s1, .ok r) ∧ s1.removePair i = (s2, .ok ()) ∧ s2.manualRefit F M {} = (s3, .ok r')
  coeffs : r.coeffs = some co ∧ r'.coeffs = some co'

/-- After the removal the old solution leaves the squares without that of the pair removed. -/
theorem Spec.Pruned.squares {F : FitEnv K} {M : MatchKernels K} (hk : RefitsSquares F M) {s : Session K} {a : RefitArgs K} {i : Int}
    {r r' : RefitReport K} {co co' : List K} (h : Pruned F M s a i r r' co co') :
    ∃ v, (r.residuals.getD [])[position i r.peaks.length]? = some v ∧ r'.peaks.length + 1 = r.peaks.length ∧
      0 < r'.peaks.length ∧
      errorSquares co' r'.peaks r'.atlas + v ^ 2 ≤ errorSquares co r.peaks r.atlas ∧
      meanSquare r = errorSquares co r.peaks r.atlas / (r.peaks.length : K) ∧
      meanSquare r' = errorSquares co' r'.peaks r'.atlas / (r'.peaks.length : K) := by
  obtain ⟨s1, s2, s3, h1, h2, h3⟩ := h.first
  obtain ⟨d, f1⟩ := refit_facts F M hk s s1 a r co h1 h.coeffs.1
  obtain ⟨d', f2⟩ := refit_facts F M hk s2 s3 {} r' co' h3 h.coeffs.2
  obtain ⟨t1, t2, t3, t4⟩ := f1.stored
  obtain ⟨p1, p2, p3, p4, p5⟩ := removePair_lists s1 s2 i h2 (by rw [t1, t2]; exact f1.length)
  rw [t1] at p1 p2 p3
  rw [t2] at p3
  have hd : d' = d := by
    obtain ⟨x0, hx⟩ := f2.degree
    have : s2.refitStart {} = .ok (some (some co), (co.length : Int) - 1) := by
      unfold Session.refitStart
      dsimp only
      rw [p4, t3, p5, t4]
      rfl
    rw [this, f1.best.1] at hx
    have := (Prod.mk.inj (Except.ok.inj hx)).2
    omega
  subst hd
  have l1 : r'.peaks = r.peaks.eraseIdx (position i r.peaks.length) := by rw [f2.lists.1, ← p2]; rfl
  have l2 : r'.atlas = r.atlas.eraseIdx (position i r.peaks.length) := by rw [f2.lists.2, ← p3]; rfl
  have hlen : r'.peaks.length + 1 = r.peaks.length := by
    rw [l1, List.length_eraseIdx, if_pos p1]
    omega
  have hpa : position i r.peaks.length < r.atlas.length := by rw [← f1.length]; exact p1
  refine ⟨r.atlas.getD (position i r.peaks.length) 0 - evalLow co (r.peaks.getD (position i r.peaks.length) 0), ?_, hlen,
    by have := f2.room; omega, ?_, f1.mean, f2.mean⟩
  · rw [f1.residuals]
    change (List.zipWith (fun x y => y - evalLow co x) r.peaks r.atlas)[_]? = _
    rw [List.getElem?_zipWith, List.getElem?_eq_getElem p1, List.getElem?_eq_getElem hpa]
    simp [List.getD_eq_getElem?_getD, List.getElem?_eq_getElem p1, List.getElem?_eq_getElem hpa]
  · have hb := f2.best.2 co f1.best.1
    have he := errorSquares_erase co r.peaks r.atlas (position i r.peaks.length) f1.length p1
    rw [← l1, ← l2] at he
    linarith

/-- C199 (false).  Removing a pair and calling `manual_refit` again never makes the rms larger. -/
def C199_Statement : Prop :=
  ∀ (F : FitEnv ℚ) (M : MatchKernels ℚ) (s : Session ℚ) (a : RefitArgs ℚ) (i : Int) (r r' : RefitReport ℚ) (co co' : List ℚ),
    RefitsSquares F M → Pruned F M s a i r r' co co' → meanSquare r' ≤ meanSquare r

/-- C199 (part), any pair: the sum of the squared residuals becomes smaller by at least the square of the residual of the
pair that is removed. -/
theorem C199_sum_partial (F : FitEnv K) (M : MatchKernels K) (hk : RefitsSquares F M) (s : Session K) (a : RefitArgs K) (i : Int)
    (r r' : RefitReport K) (co co' : List K) (h : Pruned F M s a i r r' co co') :
    ∃ v, (r.residuals.getD [])[position i r.peaks.length]? = some v ∧
      errorSquares co' r'.peaks r'.atlas + v ^ 2 ≤ errorSquares co r.peaks r.atlas := by
  obtain ⟨v, h1, _, _, h4, _⟩ := h.squares hk
  exact ⟨v, h1, h4⟩

/-- C199 (part), a bad pair: if the residual of the pair that is removed is at least the rms, in particular if it is the
largest one, the rms does not become larger. -/
theorem C199_worst_partial (F : FitEnv K) (M : MatchKernels K) (hk : RefitsSquares F M) (s : Session K) (a : RefitArgs K) (i : Int)
    (r r' : RefitReport K) (co co' : List K) (h : Pruned F M s a i r r' co co')
    (hw : ∀ v, (r.residuals.getD [])[position i r.peaks.length]? = some v → meanSquare r ≤ v ^ 2) :
    meanSquare r' ≤ meanSquare r := by
  obtain ⟨v, h1, h2, h3, h4, h5, h6⟩ := h.squares hk
  have hv := hw v h1
  rw [h5] at hv ⊢
  rw [h6]
  have hn : (r.peaks.length : K) = (r'.peaks.length : K) + 1 := by rw [← h2]; push_cast; ring
  have hpos : (0 : K) < (r'.peaks.length : K) := Nat.cast_pos.2 h3
  rw [hn] at hv ⊢
  rw [div_le_iff₀ (by linarith)] at hv
  rw [div_le_div_iff₀ hpos (by linarith)]
  nlinarith

/-- C199 (part), the degree: on the same pairs a higher degree never makes the rms larger. -/
theorem C199_degree_partial (F : FitEnv K) (M : MatchKernels K) (hk : RefitsSquares F M) (s s1 t t1 : Session K)
    (a b : RefitArgs K) (r r' : RefitReport K) (co co' : List K) (h1 : s.manualRefit F M a = (s1, .ok r))
    (h2 : t.manualRefit F M b = (t1, .ok r')) (hc : r.coeffs = some co) (hc' : r'.coeffs = some co')
    (hp : r'.peaks = r.peaks) (ha : r'.atlas = r.atlas) (hd : co.length ≤ co'.length) : meanSquare r' ≤ meanSquare r := by
  obtain ⟨d, f1⟩ := refit_facts F M hk s s1 a r co h1 hc
  obtain ⟨d', f2⟩ := refit_facts F M hk t t1 b r' co' h2 hc'
  rw [f1.mean, f2.mean, hp, ha]
  refine div_le_div_of_nonneg_right ?_ (Nat.cast_nonneg _)
  have hb := f2.best.2 (co ++ List.replicate (co'.length - co.length) 0) (by
    rw [List.length_append, List.length_replicate, ← f2.best.1]
    omega)
  rw [hp, ha] at hb
  refine le_trans hb (le_of_eq ?_)
  unfold errorSquares
  congr 2
  funext x y
  rw [evalLow_append]
  have : ∀ n : Nat, evalLow (List.replicate n (0 : K)) x = 0 := by
    intro n
    induction n with
    | zero => rfl
    | succ n ih => rw [List.replicate_succ, evalLow, ih]; ring
  rw [this]
  ring

end

open Spec

/-- A refit, a removal and a refit, with what the two refits return. -/
def Toy.prune (s : Session ℚ) (a : RefitArgs ℚ) (i : Int) : Option (RefitReport ℚ × RefitReport ℚ) :=
  let x := s.manualRefit Toy.env Toy.mkern a
  let y := x.1.removePair i
  match x.2, y.2, (y.1.manualRefit Toy.env Toy.mkern {}).2 with
  | .ok r, .ok _, .ok r' => some (r, r')
  | _, _, _ => none

theorem Toy.prune_pruned {s : Session ℚ} {a : RefitArgs ℚ} {i : Int} {r r' : RefitReport ℚ} {co co' : List ℚ}
    (h : Toy.prune s a i = some (r, r')) (hc : r.coeffs = some co) (hc' : r'.coeffs = some co') :
    Pruned Toy.env Toy.mkern s a i r r' co co' := by
  unfold Toy.prune at h
  dsimp only at h
  split at h
  · rename_i h1 h2 h3
    cases h
    exact ⟨⟨_, _, _, Prod.ext rfl h1, Prod.ext rfl h2, Prod.ext rfl h3⟩, hc, hc'⟩
  · cases h

theorem Toy.refits_squares : RefitsSquares Toy.env Toy.mkern := ⟨fun _ => Toy.kern_powers, Toy.mkern_squares⟩

/-- Five pairs on the line 5000 + 10 x up to the residuals 1, -2, 0, 2, -1. -/
def Toy.fivePairs : RefitArgs ℚ :=
  { peaks := some (true, [0, 1, 2, 3, 4]), atlas := some (true, [5001, 5008, 5020, 5032, 5039]), degree := some (true, 1) }

/-- The calibrator whose pairs are given. -/
def Toy.pruneSession : Session ℚ := (Toy.session [10, 20] false [5900, 8700]).toOption.get (by decide +kernel)

/-- The third pair lies on the solution: without it the solution is the same, and the mean square grows from 2 to 5/2. -/
theorem C199_refuted : ¬ C199_Statement := by
  intro h
  have hc : (Toy.prune Toy.pruneSession Toy.fivePairs 2).map (fun p => (p.1.coeffs, p.2.coeffs, meanSquare p.1, meanSquare p.2)) =
      some (some [5000, 10], some [5000, 10], 2, 5 / 2) := by
    decide +kernel
  obtain ⟨p, hp, hv⟩ := Option.map_eq_some_iff.1 hc
  simp only [Prod.mk.injEq] at hv
  obtain ⟨v1, v2, v3, v4⟩ := hv
  have := h Toy.env Toy.mkern _ _ _ p.1 p.2 _ _ Toy.refits_squares (Toy.prune_pruned hp v1 v2)
  rw [v3, v4] at this
  norm_num at this

/-- The hypotheses of `C199_sum_partial` and `C199_worst_partial` met: the second pair has residual -2, the largest; without
it, counted here from the end, the mean square falls from 2 to 15/14. -/
example : ∃ (r r' : RefitReport ℚ) (co' : List ℚ), Pruned Toy.env Toy.mkern Toy.pruneSession Toy.fivePairs (-4) r r' [5000, 10] co' ∧
    (∀ v, (r.residuals.getD [])[position (-4) r.peaks.length]? = some v → meanSquare r ≤ v ^ 2) ∧
    (∃ v, (r.residuals.getD [])[position (-4) r.peaks.length]? = some v ∧
      errorSquares co' r'.peaks r'.atlas + v ^ 2 ≤ errorSquares [5000, 10] r.peaks r.atlas) ∧
    meanSquare r = 2 ∧ meanSquare r' = 15 / 14 ∧ meanSquare r' ≤ meanSquare r := by
  have hc : (Toy.prune Toy.pruneSession Toy.fivePairs (-4)).map (fun p => (p.1.coeffs, p.2.coeffs.isSome, meanSquare p.1,
      meanSquare p.2, (p.1.residuals.getD [])[position (-4) p.1.peaks.length]?)) =
      some (some [5000, 10], true, 2, 15 / 14, some (-2)) := by
    decide +kernel
  obtain ⟨p, hp, hv⟩ := Option.map_eq_some_iff.1 hc
  simp only [Prod.mk.injEq] at hv
  obtain ⟨v1, v2, v3, v4, v5⟩ := hv
  obtain ⟨co', hco'⟩ := Option.isSome_iff_exists.1 v2
  have hpr := Toy.prune_pruned hp v1 hco'
  have hw : ∀ v, (p.1.residuals.getD [])[position (-4) p.1.peaks.length]? = some v → meanSquare p.1 ≤ v ^ 2 := by
    intro v hv
    rw [v5] at hv
    rw [v3, ← Option.some.inj hv]
    norm_num
  exact ⟨p.1, p.2, co', hpr, hw, C199_sum_partial _ _ Toy.refits_squares _ _ _ _ _ _ _ hpr, v3, v4,
    C199_worst_partial _ _ Toy.refits_squares _ _ _ _ _ _ _ hpr hw⟩

/-- Refits that solve the least squares problem of any degree. -/
noncomputable def Toy.lsqRefit : MatchKernels ℚ where
  minimize := Toy.mkern.minimize
  robust := fun xs ys d _ =>
    match lsqFit (xs.zip ys) d with
    | none => .error .linAlg
    | some co => .ok (some co)

theorem lsqFit_best {K : Type _} [Field K] [LinearOrder K] [IsStrictOrderedRing K] (xs ys : List K) (d : Nat) (co : List K)
    (h : lsqFit (xs.zip ys) d = some co) : BestSquares xs ys d co := by
  unfold lsqFit at h
  split at h
  · rename_i hn
    have hco := Option.some.inj h
    have ev : ∀ (v : Fin (d + 1) → K) t, evalLow (List.ofFn v) t = polyAt v t := by
      intro v t
      have hfold : ∀ l : List K, evalLow l t = l.foldr (fun a b => a + t * b) 0 := by
        intro l
        induction l with
        | nil => rfl
        | cons a l ih => rw [evalLow, ih]; rfl
      rw [hfold, foldr_ofFn]
      rfl
    have es : ∀ v : Fin (d + 1) → K, errorSquares (List.ofFn v) xs ys = squares (xs.zip ys) v := by
      intro v
      unfold errorSquares squares
      rw [List.zip, List.map_zipWith]
      congr 2
      funext x y
      rw [ev]
    refine ⟨by rw [← hco, List.length_ofFn], fun q' hq' => ?_⟩
    obtain ⟨v, rfl⟩ : ∃ v : Fin (d + 1) → K, q' = List.ofFn v :=
      ⟨fun i => q'[i]'(by omega), by
        apply List.ext_getElem
        · simp [hq']
        · intro i h1 h2
          rw [List.getElem_ofFn]
          rfl⟩
    rw [← hco, es, es]
    exact lsqVec_optimal _ _ hn _
  · cases h

theorem Toy.lsqRefit_squares : RefitsSquares Toy.env Toy.lsqRefit := by
  refine ⟨fun _ => Toy.kern_powers, fun xs ys d x0 co _ h => ?_⟩
  change (match lsqFit (xs.zip ys) d with
    | none => Except.error PyErr.linAlg
    | some co => Except.ok (some co)) = Except.ok (some co) at h
  cases hf : lsqFit (xs.zip ys) d with
  | none => rw [hf] at h; cases h
  | some c =>
    rw [hf] at h
    have := Option.some.inj (Except.ok.inj h)
    rw [← this]
    exact lsqFit_best xs ys d c hf

/-- A refit of given pairs of either degree succeeds if there are enough pixels. -/
theorem Toy.lsqRefit_runs (d : Nat) (hd : 0 < d) (h5 : d < 5) : ∃ (t : Session ℚ) (r : RefitReport ℚ) (co : List ℚ),
    Toy.pruneSession.manualRefit Toy.env Toy.lsqRefit { Toy.fivePairs with degree := some (true, (d : Int)) } = (t, .ok r) ∧
    r.coeffs = some co ∧ r.peaks = [0, 1, 2, 3, 4] ∧ r.atlas = [5001, 5008, 5020, 5032, 5039] ∧ co.length = d + 1 := by
  have hb : Toy.pruneSession.basis.isSome = true := by decide +kernel
  obtain ⟨b, hb⟩ := Option.isSome_iff_exists.1 hb
  have hf : lsqFit (([0, 1, 2, 3, 4] : List ℚ).zip [5001, 5008, 5020, 5032, 5039]) d =
      some (List.ofFn (lsqVec (([0, 1, 2, 3, 4] : List ℚ).zip [5001, 5008, 5020, 5032, 5039]) d)) := by
    unfold lsqFit
    rw [if_pos]
    rw [List.map_fst_zip (by decide), List.Nodup.dedup (by decide +kernel)]
    exact h5
  unfold Session.manualRefit
  dsimp only [Session.refitStart, Session.refitLists, Toy.fivePairs]
  rw [if_pos rfl]
  dsimp only
  rw [if_neg (by decide), if_pos ⟨rfl, by decide, by exact_mod_cast hd, by
    have : ((([0, 1, 2, 3, 4] : List ℚ).length : Nat) : Int) = 5 := rfl
    rw [this]; omega⟩]
  dsimp only [Toy.lsqRefit, Int.toNat_natCast]
  rw [hf]
  dsimp only
  unfold Session.finishRefit
  dsimp only [Session.storeRefit]
  rw [hb]
  exact ⟨_, _, _, rfl, rfl, rfl, rfl, by rw [List.length_ofFn]⟩

/-- The hypotheses of `C199_degree_partial` met: the five pairs with a straight line and with a cubic. -/
example : ∃ (t t' : Session ℚ) (r r' : RefitReport ℚ),
    Toy.pruneSession.manualRefit Toy.env Toy.lsqRefit { Toy.fivePairs with degree := some (true, 1) } = (t, .ok r) ∧
    Toy.pruneSession.manualRefit Toy.env Toy.lsqRefit { Toy.fivePairs with degree := some (true, 3) } = (t', .ok r') ∧
    meanSquare r' ≤ meanSquare r := by
  obtain ⟨t, r, co, h1, h2, h3, h4, h5⟩ := Toy.lsqRefit_runs 1 (by decide) (by decide)
  obtain ⟨t', r', co', g1, g2, g3, g4, g5⟩ := Toy.lsqRefit_runs 3 (by decide) (by decide)
  exact ⟨t, t', r, r', h1, g1, C199_degree_partial _ _ Toy.lsqRefit_squares _ _ _ _ _ _ _ _ _ _ h1 g1 h2 g2 (by rw [h3, g3])
    (by rw [h4, g4]) (by omega)⟩

end Rascal
