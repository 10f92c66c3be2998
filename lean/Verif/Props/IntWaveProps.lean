import Verif.Model.IntWaves
import Verif.Props.CandidateRankProps
import Verif.Props.UnitProps

/-!
Property theorems C203: wavelengths given as integers.
-/

set_option linter.unusedSectionVars false

namespace Rascal

section
variable {K : Type _} [Field K] [LinearOrder K] [IsStrictOrderedRing K] [FloorRing K]

/-- Every entry is a whole number. -/
def Spec.WholeNumbers (l : List K) : Prop := ∀ v ∈ l, ∃ n : Int, v = (n : K)

theorem intSum_neg (a : K) : intSum (-a) = -intSum a := by
  unfold intSum pyInt
  rcases lt_trichotomy a 0 with h | h | h
  · rw [if_pos (by linarith), if_neg (not_le.2 h), Int.floor_neg]
    push_cast; rfl
  · subst h; simp
  · rw [if_neg (by linarith), if_pos h.le, Int.ceil_neg]
    push_cast; rfl

theorem intSum_natCast (n : Nat) : intSum (n : K) = n := by
  unfold intSum pyInt
  rw [if_pos (Nat.cast_nonneg n), Int.floor_natCast, Int.cast_natCast]

/-- For sums that are not negative the stored value is the floor. -/
theorem intSum_bounds {a : K} (h : 0 ≤ a) : intSum a ≤ a ∧ a < intSum a + 1 := by
  unfold intSum pyInt
  rw [if_pos h]
  exact ⟨Int.floor_le a, Int.lt_floor_add_one a⟩

theorem intSum_small {a : K} (h : 0 ≤ a) (h1 : a < 1) : intSum a = 0 := by
  unfold intSum pyInt
  rw [if_pos h, Int.floor_eq_zero_iff.2 ⟨h, h1⟩, Int.cast_zero]

/-- The integer variant is the ordinary one with sums cut before sorting. -/
theorem mostCommonInt_eq (argsort : List K → List Nat) (cs : List (Cand K)) (topN : Int) (weighted : Bool) :
    mostCommonInt argsort cs topN weighted =
      mostCommon (fun l => argsort (l.map intSum)) cs topN weighted := by
  have : ∀ p m c, mostCommonOfInt argsort topN p m c =
      mostCommonOf (fun l => argsort (l.map intSum)) topN p m c := by
    intro p m c
    unfold mostCommonOfInt mostCommonOf
    simp only [List.map_map, Function.comp_def, intSum_neg]
  unfold mostCommonInt mostCommon
  simp only [this]

/-- The block of a peak in the integer variant: the same list, ranked by the cut sums. -/
theorem peakBlock_int (argsort : List K → List Nat) (topN : Int) (weighted : Bool) (t : List (K × K × K))
    (p : K) : peakBlock (fun l => argsort (l.map intSum)) topN weighted t p =
      scoreBlock argsort topN (Spec.wavelengthsOf t p) (fun w => intSum (candScore weighted t p w)) := by
  unfold peakBlock scoreBlock
  simp only [List.map_map, Function.comp_def, intSum_neg]

/-- Without weights nothing is cut. -/
theorem mostCommonInt_unweighted (argsort : List K → List Nat) (cs : List (Cand K)) (topN : Int) :
    mostCommonInt argsort cs topN false = mostCommon argsort cs topN false := by
  have : ∀ (p : K) (m c : List K), mostCommonOfInt argsort topN p m (c.map (fun _ : K => (1 : K))) =
      mostCommonOf argsort topN p m (c.map (fun _ => 1)) := by
    intro p m c
    unfold mostCommonOfInt mostCommonOf
    have h1 : ∀ mask : List Bool, intSum (boolMask (c.map (fun _ : K => (1 : K))) mask).sum =
        (boolMask (c.map (fun _ => 1)) mask).sum := by
      intro mask
      rw [boolMask_map, List.map_const', List.sum_replicate, nsmul_eq_mul, mul_one, intSum_natCast]
    simp only [h1]
  unfold mostCommonInt mostCommon
  simp only [Bool.false_eq_true, if_false, this]

theorem candidateLists_int (F : FitEnv K) (c : Cal K) (cs : List (Cand K)) :
    c.candidateLists F.intWaves cs =
      (if c.ransac.filterClose then
        filterClose c.ransac.tol (mostCommonInt F.argsortK cs c.ransac.topN c.ransac.weighted).1
          (mostCommonInt F.argsortK cs c.ransac.topN c.ransac.weighted).2
      else mostCommonInt F.argsortK cs c.ransac.topN c.ransac.weighted) := by
  unfold Cal.candidateLists
  rw [mostCommonInt_eq]
  rfl

theorem solve_int (F : FitEnv K) (k : Kernels K) (c : Cal K) (hw : c.ransac.weighted = false)
    (lines : List K) (a : FitArgs K) (d : Nat) (rnd : FitRandom K) :
    c.solve F.intWaves k lines a d rnd = c.solve F k lines a d rnd := by
  have h1 : ∀ cs, c.candidateLists F.intWaves cs = c.candidateLists F cs := by
    intro cs
    rw [candidateLists_int, hw, mostCommonInt_unweighted]
    unfold Cal.candidateLists
    rw [hw]
  unfold Cal.solve
  simp only [h1]
  rfl

theorem ensureHough_ransac_weighted (F : FitEnv K) (c : Cal K) :
    (c.ensureHough F).1.ransac = c.ransac := by
  unfold Cal.ensureHough
  split
  · unfold Cal.doHough
    cases c.pairs with
    | none => rfl
    | some store =>
      dsimp only
      split
      · rfl
      · cases store with
        | noColumns => rfl
        | array xy =>
          dsimp only
          split
          · rfl
          · split
            · rfl
            · rfl
  · rfl

/-- C203, what holds: without `candidate_weighted` a fit on integer wavelengths does exactly what the fit
on the same numbers as floats does.  What is missing: weighted candidates. -/
theorem C203_unweighted_partial (F : FitEnv K) (w : World K) (hw : w.cal.ransac.weighted = false)
    (a : FitArgs K) (rnd : FitRandom K) : w.fit F.intWaves a rnd = w.fit F a rnd := by
  unfold World.fit
  dsimp only
  split
  · rfl
  · cases w.atlasLines with
    | error e => rfl
    | ok lines =>
      dsimp only
      have key : ∀ c : Cal K, c.ransac.weighted = false →
          c.fitWith F.intWaves lines a rnd = c.fitWith F lines a rnd := by
        intro c hc
        unfold Cal.fitWith
        dsimp only
        have he : ∀ c : Cal K, c.ensureHough F.intWaves = c.ensureHough F := fun _ => rfl
        rw [he]
        have hr := ensureHough_ransac_weighted F { c with ransac := { c.ransac with
          sampleSize := adjustSampleSize c.ransac.sampleSize lines.length a.fitDeg } }
        generalize Cal.ensureHough F _ = q at hr ⊢
        obtain ⟨c2, e⟩ := q
        cases e with
        | error e => rfl
        | ok _ =>
          dsimp only at hr ⊢
          unfold Cal.fitSearch
          dsimp only
          rw [show F.intWaves.kern = F.kern from rfl, solve_int F _ _ (by dsimp only; rw [hr]; exact hc)]
      rw [key { w.cal with fitCoeff := a.fitCoeff } hw]

/-- C203, what holds with weights: among the candidates of a peak (in the lists for which the ranking of
C55 is right) a wavelength that is left out has less than one unit of weight more than one that is
returned.  What is missing: the order within that unit. -/
theorem C203_rank_partial (argsort : List K → List Nat) (ha : IsArgsort argsort) (cs : List (Cand K))
    (h : Aligned cs) (topN : Int) (hn : 0 ≤ topN) (p : K)
    (hpos : ∀ w, 0 ≤ Spec.totalWeight (candRows cs) p w)
    (hord : ((Spec.wavelengthsOf (candRows cs) p).take
      (Spec.wavelengthsOf (candRows cs) p).dedup.length).Pairwise (· < ·)) :
    ∀ w ∈ returnedFor (mostCommonInt argsort cs topN true) p,
      ∀ v ∈ Spec.wavelengthsOf (candRows cs) p,
        v ∉ returnedFor (mostCommonInt argsort cs topN true) p →
          Spec.totalWeight (candRows cs) p v < Spec.totalWeight (candRows cs) p w + 1 := by
  rw [mostCommonInt_eq, (mostCommon_returnedFor_of_length cs true h p (fun q => by
    rw [peakBlock_int]; exact (scoreBlock_spec ha hn _ _).1)).2]
  intro w hw v hv hvn
  split at hw
  · next hp =>
    rw [if_pos hp, peakBlock_int] at hvn
    rw [peakBlock_int] at hw
    have h2 := ((scoreBlock_spec ha hn _ _).2.2 hord).2 w hw v hv hvn
    have e : ∀ u, candScore true (candRows cs) p u = Spec.totalWeight (candRows cs) p u := fun _ => rfl
    rw [e, e] at h2
    have := intSum_bounds (hpos v)
    have := intSum_bounds (hpos w)
    linarith
  · cases hw

/-- C203, the failure: while all sums of weights are below one, the weights have no influence at all on
what is returned. -/
theorem C203_blind (argsort : List K → List Nat) (cs cs' : List (Cand K)) (h : Aligned cs)
    (h' : Aligned cs') (hs : (candRows cs).map (fun e => (e.1, e.2.1)) =
      (candRows cs').map (fun e => (e.1, e.2.1))) (topN : Int)
    (h1 : ∀ p w, 0 ≤ Spec.totalWeight (candRows cs) p w ∧ Spec.totalWeight (candRows cs) p w < 1)
    (h2 : ∀ p w, 0 ≤ Spec.totalWeight (candRows cs') p w ∧ Spec.totalWeight (candRows cs') p w < 1) :
    mostCommonInt argsort cs topN true = mostCommonInt argsort cs' topN true := by
  have hp : (candRows cs).map (fun e => e.1) = (candRows cs').map (fun e => e.1) := by
    have := congrArg (List.map Prod.fst) hs
    simpa only [List.map_map, Function.comp_def] using this
  have hwl : ∀ p, Spec.wavelengthsOf (candRows cs) p = Spec.wavelengthsOf (candRows cs') p := by
    intro p
    have := congrArg (fun l => (l.filter (fun e : K × K => decide (e.1 = p))).map Prod.snd) hs
    simp only [List.filter_map, List.map_map] at this
    exact this
  rw [mostCommonInt_eq, mostCommonInt_eq, mostCommon_eq _ cs topN true h, mostCommon_eq _ cs' topN true h',
    hp]
  have e1 : ∀ p w, intSum (candScore true (candRows cs) p w) = 0 :=
    fun p w => intSum_small (h1 p w).1 (h1 p w).2
  have e2 : ∀ p w, intSum (candScore true (candRows cs') p w) = 0 :=
    fun p w => intSum_small (h2 p w).1 (h2 p w).2
  simp only [peakBlock_int, e1, e2, hwl]

end

/-- The expected behaviour: whole numbers given as integers are calibrated like the same numbers given as
floats. -/
def C203_Statement : Prop :=
  ∀ (F : FitEnv ℚ) (w : World ℚ) (lines : List ℚ) (a : FitArgs ℚ) (rnd : FitRandom ℚ),
    IsArgsort F.argsortK → (∀ x m s, 0 < F.gauss x m s ∧ F.gauss x m s ≤ 1) → w.atlasLines = .ok lines →
    Spec.WholeNumbers w.cal.peaks → Spec.WholeNumbers lines →
    (w.fit F.intWaves a rnd).2 = (w.fit F a rnd).2

/-- Weights that fall with the distance. -/
def Toy.bumpEnv : FitEnv ℚ := { Toy.env with gauss := fun x m _ => 1 / (1 + |x - m|) }

/-- Four peaks; each line has a neighbour 100 below it. -/
def Toy.pairedLines : PyRes (World ℚ) :=
  match Cal.new (fun _ => .ok ()) [10, 20, 31, 41] true none with
  | .error e => .error e
  | .ok c => .ok (World.steps Toy.calEnv
      ⟨[⟨[4400, 4500, 5800, 5900, 7340, 7440, 8747, 8847].map (fun v => ⟨v, "Xe", 1, none⟩), none, none, 0⟩], c⟩
      [.setHough { numSlopes := some 5, xbins := some 4, ybins := some 4 },
       .setRansac { sampleSize := some 2, minFitError := some 0, topN := some 1 },
       .setAtlas 0 10 false])

set_option synthInstance.maxSize 2000 in
set_option synthInstance.maxHeartbeats 400000 in
/-- The two fits: intercept 3100 with floats, 3000 with integers. -/
theorem Toy.pairedLines_fits : Toy.pairedLines.toOption.map (fun w =>
    ((Toy.report (w.fit Toy.bumpEnv (Toy.fourArgs 2) Toy.twoPasses)).map (fun r => (r.coeffs, r.matchedAtlas)),
     (Toy.report (w.fit Toy.bumpEnv.intWaves (Toy.fourArgs 2) Toy.twoPasses)).map
        (fun r => (r.coeffs, r.matchedAtlas)),
     w.atlasLines.toOption, w.cal.peaks, w.cal.ransac.weighted)) =
    some (some ([3100, 140], [4500, 5900, 7440]), some ([3000, 140], [4400, 5800, 7340]),
      some [4400, 4500, 5800, 5900, 7340, 7440, 8747, 8847], [10, 20, 31, 41], true) := by decide +kernel

/-- C203 is false: all sums are stored as zero, each peak gets the lower of its two lines, and the solution
is off by 100. -/
theorem C203_refuted : ¬ C203_Statement := by
  intro h
  have hd := Toy.pairedLines_fits
  cases hw : Toy.pairedLines with
  | error e => rw [hw] at hd; cases hd
  | ok w =>
    rw [hw] at hd
    have hd := Option.some.inj hd
    simp only [Prod.mk.injEq] at hd
    obtain ⟨h1, h2, h3, h4, -⟩ := hd
    have hl : w.atlasLines = .ok [4400, 4500, 5800, 5900, 7340, 7440, 8747, 8847] := by
      cases hl : w.atlasLines with
      | error e => rw [hl] at h3; cases h3
      | ok l => rw [hl] at h3; exact congrArg _ (Option.some.inj h3)
    have hwhole : ∀ l : List ℚ, (∀ v ∈ l, v.den = 1) → Spec.WholeNumbers l := by
      intro l hl v hv
      exact ⟨v.num, (Rat.den_eq_one_iff v).1 (hl v hv) |>.symm⟩
    have he := h Toy.bumpEnv w _ (Toy.fourArgs 2) Toy.twoPasses stableArgsort_isArgsort (by
        intro x m _
        have h0 : 0 ≤ |x - m| := abs_nonneg _
        refine ⟨by unfold Toy.bumpEnv; dsimp only; positivity, ?_⟩
        unfold Toy.bumpEnv
        dsimp only
        rw [div_le_one (by positivity)]
        linarith) hl
      (by rw [h4]; exact hwhole _ (by decide +kernel)) (hwhole _ (by decide +kernel))
    unfold Toy.report at h1 h2
    rw [he] at h2
    rw [h2] at h1
    revert h1
    decide +kernel

set_option synthInstance.maxSize 2000 in
set_option synthInstance.maxHeartbeats 400000 in
/-- The same calibrator without weights, as `C203_unweighted_partial` asks: both fits agree. -/
example : Toy.pairedLines.toOption.map (fun w =>
    let w' := { w with cal := { w.cal with ransac := { w.cal.ransac with weighted := false } } }
    (w'.cal.ransac.weighted,
     (Toy.report (w'.fit Toy.bumpEnv.intWaves (Toy.fourArgs 2) Toy.twoPasses)).map (fun r => (r.coeffs, r.matchedAtlas)),
     (Toy.report (w'.fit Toy.bumpEnv (Toy.fourArgs 2) Toy.twoPasses)).map (fun r => (r.coeffs, r.matchedAtlas)))) =
    some (false, some ([2250830 / 751, 210567 / 1502], [4400, 7340, 8747]),
      some ([2250830 / 751, 210567 / 1502], [4400, 7340, 8747])) := by
  decide +kernel

/-- A case for `C203_rank_partial`: one peak, wavelengths 5, 6, 7 with total weights 1/3, 2/5, 3/2; the one
above one unit is returned. -/
example :
    let cs : List (Cand ℚ) := [⟨[1, 1, 1], [5, 6, 7], [1/3, 2/5, 1]⟩, ⟨[1], [7], [1/2]⟩]
    (∀ w, 0 ≤ Spec.totalWeight (candRows cs) 1 w) ∧
    ((Spec.wavelengthsOf (candRows cs) 1).take (Spec.wavelengthsOf (candRows cs) 1).dedup.length).Pairwise (· < ·) ∧
    mostCommonInt stableArgsort cs 2 true = ([1, 1], [7, 5]) ∧ mostCommon stableArgsort cs 2 true = ([1, 1], [7, 6]) := by
  dsimp only
  refine ⟨fun w => ?_, by decide +kernel, by decide +kernel, by decide +kernel⟩
  apply List.sum_nonneg
  intro v hv
  obtain ⟨e, he, rfl⟩ := List.mem_map.1 hv
  have : e ∈ candRows [(⟨[1, 1, 1], [5, 6, 7], [1/3, 2/5, 1]⟩ : Cand ℚ), ⟨[1], [7], [1/2]⟩] :=
    (List.mem_filter.1 he).1
  clear hv he
  revert e
  decide +kernel

/-- A case for `C203_blind`: the weights are exchanged, the choice stays. -/
example : mostCommonInt stableArgsort [(⟨[1, 1], [5, 6], [1/10, 9/10]⟩ : Cand ℚ)] 1 true = ([1], [5]) ∧
    mostCommonInt stableArgsort [(⟨[1, 1], [5, 6], [9/10, 1/10]⟩ : Cand ℚ)] 1 true = ([1], [5]) ∧
    mostCommon stableArgsort [(⟨[1, 1], [5, 6], [1/10, 9/10]⟩ : Cand ℚ)] 1 true = ([1], [6]) := by
  decide +kernel

end Rascal
