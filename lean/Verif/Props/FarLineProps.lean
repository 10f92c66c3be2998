import Verif.Props.SearchProps
import Verif.Props.ReachProps

/-!
Property theorems C177: lines outside the search space.
-/

set_option linter.unusedSectionVars false

namespace Rascal

section
variable {K : Type _} [Field K] [LinearOrder K] [IsStrictOrderedRing K] [FloorRing K]

/-- The line `v` is in the search space of one of the peaks: `P` is the last pixel, the corners are those given in the
documentation of `constrain_poly`. -/
def Spec.InSearchSpace (c : Cal K) (candTol P v : K) : Prop :=
  ∃ p ∈ c.peaks, Spec.InHull (0, c.hough.maxIntercept + candTol) (0, c.hough.minIntercept - candTol)
    (P, c.hough.maxW - c.hough.rangeTol - candTol) (P, c.hough.maxW + c.hough.rangeTol + candTol) (p, v)

/-- The calls that leave the combinations of peaks and lines, and the atlas, as they are. -/
def SetOp.keepsPairs : SetOp K → Prop
  | .setCalibrator _ _ _ | .useMatplotlib | .usePlotly | .setRansac _ | .doHough _ | .loadHough _ _ _
  | .setKnown _ _ => True
  | _ => False

theorem filter_allPairs (peaks lines : List K) (f : K × K → Bool) :
    (allPairs peaks lines).filter f = peaks.flatMap (fun p => (lines.filter (fun v => f (p, v))).map (fun v => (p, v))) := by
  unfold allPairs
  rw [List.filter_flatMap]
  congr 1
  funext p
  rw [List.filter_map]
  rfl

/-- The combinations only depend on the lines that some peak can reach. -/
theorem filter_allPairs_congr (peaks lines lines' : List K) (f : K × K → Bool) (reach : K → Bool)
    (hr : ∀ p ∈ peaks, ∀ v, f (p, v) = true → reach v = true) (h : lines.filter reach = lines'.filter reach) :
    (allPairs peaks lines).filter f = (allPairs peaks lines').filter f := by
  rw [filter_allPairs, filter_allPairs]
  have key : ∀ p ∈ peaks, ∀ l : List K, l.filter (fun v => f (p, v)) = (l.filter reach).filter (fun v => f (p, v)) := by
    intro p hp l
    rw [List.filter_filter]
    apply List.filter_congr
    intro v _
    cases hf : f (p, v) with
    | false => simp
    | true => simp [hr p hp v hf]
  simp only [List.flatMap]
  congr 1
  apply List.map_congr_left
  intro p hp
  rw [key p hp lines, key p hp lines', h]

open Classical in
/-- C177, the combinations: two atlases that differ only by lines outside the search space lead to the same
calibrator. -/
theorem C177_same_pairs (w : World K) (atlases' : List (Atlas K)) (i : Nat) (t P : K) (at_ at' : Atlas K)
    (hi : w.atlases[i]? = some at_) (hi' : atlases'[i]? = some at') (hn : at_.getLines ≠ []) (hn' : at'.getLines ≠ [])
    (hP : IsGreatest {p | p ∈ w.cal.props.pixelList} P)
    (h : at_.getLines.filter (fun v => decide (Spec.InSearchSpace w.cal t P v)) =
      at'.getLines.filter (fun v => decide (Spec.InSearchSpace w.cal t P v))) :
    (World.setAtlas ⟨atlases', w.cal⟩ i t true).1.cal = (w.setAtlas i t true).1.cal ∧
    (World.setAtlas ⟨atlases', w.cal⟩ i t true).2 = (w.setAtlas i t true).2 := by
  unfold World.setAtlas World.generatePairs World.atlasLines
  simp only [hi, hi']
  unfold Cal.generatePairs
  simp only [if_true]
  cases hx : w.cal.props.pixelList with
  | nil => exact ⟨rfl, rfl⟩
  | cons a l =>
    have hPe : listMax a l = P := by
      rw [hx] at hP
      refine le_antisymm (hP.2 (listMax_mem a l)) ?_
      rcases List.mem_cons.1 hP.1 with h1 | h1
      · rw [h1]; exact (le_listMax a l).1
      · exact (le_listMax a l).2 _ h1
    simp only [hPe]
    unfold Rascal.generatePairs
    simp only
    by_cases hf : Polygon.flat (Cal.polygon { w.cal with atlas := some i, candTol := some t, constrainPoly := true } t P) = true
    · simp only [hf, if_true, and_self]
    · have hP0 : P ≠ 0 := by
        intro h0
        apply hf
        unfold Polygon.flat Cal.polygon
        simp [h0]
      simp only [hf]
      by_cases hpk : w.cal.peaks = []
      · simp [hpk, allPairs]
      · have hne : ∀ ls : List K, ls ≠ [] → allPairs w.cal.peaks ls ≠ [] := by
          intro ls hls
          obtain ⟨a, t, ht⟩ := List.exists_cons_of_ne_nil hpk
          obtain ⟨b, s, hb⟩ := List.exists_cons_of_ne_nil hls
          rw [ht, hb]
          simp [allPairs]
        simp only [hne _ hn, hne _ hn', if_false]
        have heq := filter_allPairs_congr w.cal.peaks at'.getLines at_.getLines
          (Polygon.inside (Cal.polygon { w.cal with atlas := some i, candTol := some t, constrainPoly := true } t P))
          (fun v => decide (Spec.InSearchSpace w.cal t P v)) (by
            intro p hp v hv
            rw [decide_eq_true_eq]
            exact ⟨p, hp, (inside_iff_hull _ hP0 _).1 hv⟩) h.symm
        rw [boolMask_map_pred, boolMask_map_pred, heq]
        exact ⟨rfl, rfl⟩

/-- Equal calibrators stay equal. -/
theorem keepsPairs_step (E : CalEnv K) (w w' : World K) (h : w'.cal = w.cal) (op : SetOp K) (ho : op.keepsPairs) :
    (w'.step E op).1.cal = (w.step E op).1.cal ∧ (w'.step E op).1.atlases = w'.atlases ∧
    (w.step E op).1.atlases = w.atlases ∧ (w.step E op).1.cal.atlas = w.cal.atlas := by
  cases op <;> simp only [SetOp.keepsPairs] at ho <;> unfold World.step <;>
    simp only [World.setCalibrator, World.setRansac, h, and_self, true_and]
  · obtain ⟨_, _, _, hf⟩ := Cal.doHough_frame E.argsortK E.argsortN w.cal (by assumption)
    rw [hf]
  · rfl
  · rename_i p v
    obtain ⟨_, hf⟩ := Cal.setKnown_frame w.cal p v
    rw [hf]

theorem keepsPairs_steps (E : CalEnv K) (ops : List (SetOp K)) (ho : ∀ op ∈ ops, op.keepsPairs) (w w' : World K)
    (h : w'.cal = w.cal) :
    (w'.steps E ops).cal = (w.steps E ops).cal ∧ (w'.steps E ops).atlases = w'.atlases ∧
    (w.steps E ops).atlases = w.atlases ∧ (w.steps E ops).cal.atlas = w.cal.atlas := by
  induction ops generalizing w w' with
  | nil => exact ⟨h, rfl, rfl, rfl⟩
  | cons op ops ih =>
    obtain ⟨h1, h2, h3, h4⟩ := keepsPairs_step E w w' h op (ho op (by simp))
    obtain ⟨g1, g2, g3, g4⟩ := ih (fun o hm => ho o (List.mem_cons_of_mem _ hm)) _ _ h1
    refine ⟨g1, g2.trans h2, g3.trans h3, g4.trans h4⟩

/-- The same outcome but for the atlas utilisation, which is counted in `n` lines. -/
def Spec.SameButUtil (n : Nat) (x x' : CallRes (FitReport K)) : Prop :=
  match x with
  | .running => x' = .running
  | .done (.error e) => x' = .done (.error e)
  | .done (.ok r) => x' = .done (.ok { r with atlasUtil := .fin ((r.matchedPeaks.length : K) / (n : K)) })

/-- The end of `fit` with another number of lines. -/
theorem finishFit_lines (c : Cal K) (n n' : Nat) (hn : n ≠ 0) (hn' : n' ≠ 0) (out : SolveOut K)
    (hm : out.inliers = c.matchedPeaks.length) :
    Spec.SameButUtil n' (.done (c.finishFit n out).2) (.done (c.finishFit n' out).2) := by
  unfold Cal.finishFit
  cases (utilisation out.inliers c.peaks.length : PyRes (PyFloat K)) with
  | error e => rfl
  | ok u =>
    simp only [utilisation, if_neg hn, if_neg hn']
    cases out.coeffs with
    | none => rfl
    | some co =>
      dsimp only [Spec.SameButUtil]
      rw [hm]

theorem solve_inliers (F : FitEnv K) (k : Kernels K) (c : Cal K) (lines : List K) (a : FitArgs K) (deg : Nat)
    (rnd : FitRandom K) (out : SolveOut K) :
    (c.solve F k lines a deg rnd).2 = .done (.ok out) →
      out.inliers = (c.solve F k lines a deg rnd).1.matchedPeaks.length ∨ out.coeffs = none := by
  unfold Cal.solve
  split
  · intro h; cases h
  · dsimp only
    split
    · intro h; cases h; exact Or.inr rfl
    · unfold Cal.solveLists
      dsimp only
      split
      · intro h; cases h
      · split
        · intro h; cases h
        · split
          · intro h; cases h
          · intro h; cases h
          · dsimp only
            intro h
            simp only [CallRes.done.injEq] at h
            unfold finishSolve at h
            split at h
            · rename_i hh
              cases h
              exact Or.inl hh.1
            · cases h

theorem fitSearch_lines (F : FitEnv K) (c : Cal K) (lines lines' : List K) (a : FitArgs K) (rnd : FitRandom K)
    (hlin : c.ransac.linear = true) (hn : lines ≠ []) (hn' : lines' ≠ [])
    (hm : c.ransac.minMatches ≤ (lines.length : Int)) (hm' : c.ransac.minMatches ≤ (lines'.length : Int)) :
    Spec.SameButUtil lines'.length (c.fitSearch F lines a rnd).2 (c.fitSearch F lines' a rnd).2 := by
  have h1 : adjustMinMatches c.ransac.minMatches lines'.length c.peaks.length =
      adjustMinMatches c.ransac.minMatches lines.length c.peaks.length := by
    unfold adjustMinMatches
    dsimp only
    split_ifs <;> omega
  unfold Cal.fitSearch
  dsimp only
  rw [h1]
  generalize adjustMinMatches c.ransac.minMatches lines.length c.peaks.length = m0
  generalize hc1 : ({ c with ransac := { c.ransac with minMatches := m0 } } : Cal K) = c1
  have hl1 : c1.ransac.linear = true := by rw [← hc1]; exact hlin
  have hcand : c1.candidates F (F.kern a.fitType) lines' a.candTol rnd.uniform =
      c1.candidates F (F.kern a.fitType) lines a.candTol rnd.uniform := by
    unfold Cal.candidates
    rw [hl1]
    rfl
  have hsol : c1.solve F (F.kern a.fitType) lines' a a.degree rnd = c1.solve F (F.kern a.fitType) lines a a.degree rnd := by
    unfold Cal.solve
    rw [hcand]
  rw [hsol]
  cases hr : (c1.solve F (F.kern a.fitType) lines a a.degree rnd).2 with
  | running => rfl
  | done res =>
    cases res with
    | error e => rfl
    | ok out =>
      dsimp only
      have key : ∀ x : Cal K, out.inliers = x.matchedPeaks.length ∨ out.coeffs = none →
          Spec.SameButUtil lines'.length (.done (x.finishFit lines.length out).2)
            (.done (x.finishFit lines'.length out).2) := by
        intro x hx
        rcases hx with hx | hx
        · exact finishFit_lines _ _ _ (by simpa using hn) (by simpa using hn') _ hx
        · unfold Cal.finishFit
          cases (utilisation out.inliers x.peaks.length : PyRes (PyFloat K)) with
          | error e => rfl
          | ok u =>
            simp only [utilisation, List.length_eq_zero_iff, if_neg hn, if_neg hn', hx]
            rfl
      apply key
      exact solve_inliers F (F.kern a.fitType) c1 lines a a.degree rnd out hr

/-- C177, what holds: with `linear` candidates two calibrators that are the same but for the atlas give the same
results if `sample_size` and `minimum_matches` are at most the number of lines of both; only the atlas utilisation is
counted in the lines of the own atlas.  What is missing: `sample_size` and `minimum_matches` are reduced to the number
of lines. -/
theorem C177_fit_partial (F : FitEnv K) (w w' : World K) (hc : w'.cal = w.cal) (hlin : w.cal.ransac.linear = true)
    (lines lines' : List K) (hl : w.atlasLines = .ok lines) (hl' : w'.atlasLines = .ok lines')
    (hn : lines ≠ []) (hn' : lines' ≠ [])
    (hs : w.cal.ransac.sampleSize ≤ (lines.length : Int)) (hs' : w.cal.ransac.sampleSize ≤ (lines'.length : Int))
    (hm : w.cal.ransac.minMatches ≤ (lines.length : Int)) (hm' : w.cal.ransac.minMatches ≤ (lines'.length : Int))
    (a : FitArgs K) (rnd : FitRandom K) :
    Spec.SameButUtil lines'.length (w.fit F a rnd).2 (w'.fit F a rnd).2 := by
  unfold World.fit
  rw [hl, hl', hc]
  dsimp only
  by_cases hf : a.fitType = .other
  · rw [if_pos hf, if_pos hf]; rfl
  rw [if_neg hf, if_neg hf]
  dsimp only
  unfold Cal.fitWith
  dsimp only
  have h1 : adjustSampleSize w.cal.ransac.sampleSize lines'.length a.fitDeg =
      adjustSampleSize w.cal.ransac.sampleSize lines.length a.fitDeg := by
    unfold adjustSampleSize
    dsimp only
    split_ifs <;> omega
  rw [h1]
  generalize adjustSampleSize w.cal.ransac.sampleSize lines.length a.fitDeg = n0
  generalize hc1 : ({ w.cal with fitCoeff := a.fitCoeff, ransac := { w.cal.ransac with sampleSize := n0 } } : Cal K) = c1
  obtain ⟨h, l, p, hfr⟩ := ensureHough_frame F c1
  cases he : (c1.ensureHough F).2 with
  | error e => rfl
  | ok u =>
    dsimp only
    rw [hfr]
    apply fitSearch_lines F _ lines lines' a rnd _ hn hn' _ _
    · rw [← hc1]; exact hlin
    · rw [← hc1]; exact hm
    · rw [← hc1]; exact hm'

open Classical in
/-- C177, what holds: two calibrators are given atlases that differ only by lines outside the search space, with
`constrain_poly`, and then the same further calls.  If `sample_size` and `minimum_matches` are at most the number of
lines, `fit` with linear candidates does the same in both, apart from the atlas utilisation.  What is missing: as
above. -/
theorem C177_far_lines_partial (F : FitEnv K) (E : CalEnv K) (w : World K) (atlases' : List (Atlas K)) (i : Nat) (t P : K)
    (at_ at' : Atlas K) (hi : w.atlases[i]? = some at_) (hi' : atlases'[i]? = some at') (hn : at_.getLines ≠ [])
    (hn' : at'.getLines ≠ []) (hP : IsGreatest {p | p ∈ w.cal.props.pixelList} P)
    (h : at_.getLines.filter (fun v => decide (Spec.InSearchSpace w.cal t P v)) =
      at'.getLines.filter (fun v => decide (Spec.InSearchSpace w.cal t P v)))
    (ops : List (SetOp K)) (ho : ∀ op ∈ ops, op.keepsPairs) :
    let w1 := World.steps E (w.setAtlas i t true).1 ops
    let w1' := World.steps E (World.setAtlas ⟨atlases', w.cal⟩ i t true).1 ops
    w1'.cal = w1.cal ∧
    (w1.cal.ransac.linear = true → w1.cal.ransac.sampleSize ≤ (at_.getLines.length : Int) →
      w1.cal.ransac.sampleSize ≤ (at'.getLines.length : Int) →
      w1.cal.ransac.minMatches ≤ (at_.getLines.length : Int) →
      w1.cal.ransac.minMatches ≤ (at'.getLines.length : Int) → ∀ (a : FitArgs K) (rnd : FitRandom K),
        Spec.SameButUtil at'.getLines.length (w1.fit F a rnd).2 (w1'.fit F a rnd).2) := by
  intro w1 w1'
  have hp := (C177_same_pairs w atlases' i t P at_ at' hi hi' hn hn' hP h).1
  obtain ⟨h1, h2, h3, h4⟩ := keepsPairs_steps E ops ho _ _ hp
  obtain ⟨p, hset⟩ := World.setAtlas_frame w i t true
  obtain ⟨p', hset'⟩ := World.setAtlas_frame (⟨atlases', w.cal⟩ : World K) i t true
  have hl : w1.atlasLines = .ok at_.getLines := by
    unfold World.atlasLines
    rw [show w1.cal.atlas = some i from h4.trans (by rw [hset]), show w1.atlases = w.atlases from h3.trans (by rw [hset])]
    dsimp only
    rw [hi]
  have hl' : w1'.atlasLines = .ok at'.getLines := by
    unfold World.atlasLines
    rw [show w1'.cal.atlas = some i by rw [show w1'.cal = w1.cal from h1]; exact h4.trans (by rw [hset]),
      show w1'.atlases = atlases' from h2.trans (by rw [hset'])]
    dsimp only
    rw [hi']
  exact ⟨h1, fun hlin g1 g2 g3 g4 a rnd =>
    C177_fit_partial F w1 w1' h1 hlin _ _ hl hl' hn hn' g1 g2 g3 g4 a rnd⟩

end

/-! ### refutation and concrete cases -/

open Classical in
/-- The expected behaviour: lines outside the search space have no influence on `fit` but for the atlas utilisation. -/
def C177_Statement : Prop :=
  ∀ (F : FitEnv ℚ) (E : CalEnv ℚ) (w : World ℚ) (atlases' : List (Atlas ℚ)) (i : Nat) (t P : ℚ) (at_ at' : Atlas ℚ),
    w.atlases[i]? = some at_ → atlases'[i]? = some at' → at_.getLines ≠ [] → at'.getLines ≠ [] →
    IsGreatest {p | p ∈ w.cal.props.pixelList} P →
    at_.getLines.filter (fun v => decide (Spec.InSearchSpace w.cal t P v)) =
      at'.getLines.filter (fun v => decide (Spec.InSearchSpace w.cal t P v)) →
    ∀ ops : List (SetOp ℚ), (∀ op ∈ ops, op.keepsPairs) →
    (World.steps E (w.setAtlas i t true).1 ops).cal.ransac.linear = true → ∀ (a : FitArgs ℚ) (rnd : FitRandom ℚ),
      Spec.SameButUtil at'.getLines.length ((World.steps E (w.setAtlas i t true).1 ops).fit F a rnd).2
        ((World.steps E (World.setAtlas ⟨atlases', w.cal⟩ i t true).1 ops).fit F a rnd).2

/-- Four matches are required. -/
def Toy.fourMatches : List (SetOp ℚ) := [.setRansac { minMatches := some 4 }]

/-- One try. -/
def Toy.farRnd : FitRandom ℚ := ⟨fun _ => 0, [⟨[0, 0], [0, 0]⟩]⟩

set_option synthInstance.maxHeartbeats 400000 in
set_option synthInstance.maxSize 2000 in
/-- What the theorems need for four peaks, the given lines, and a further one at 20000. -/
theorem Toy.far_line (ls : List ℚ) (hls : ls = [4500, 5900, 7440] ∨ ls = [4500, 5900, 7440, 8840]) :
    ∃ w, Toy.fourPeaks ls = .ok w ∧ (w.atlases[0]?) = some (Toy.atlasOf ls) ∧
      IsGreatest {p | p ∈ w.cal.props.pixelList} (45 : ℚ) ∧ ¬ Spec.InSearchSpace w.cal 10 45 20000 ∧
      (World.steps Toy.calEnv (w.setAtlas 0 10 true).1 Toy.fourMatches).cal.ransac.linear = true ∧
      (World.steps Toy.calEnv (w.setAtlas 0 10 true).1 Toy.fourMatches).cal.ransac.sampleSize = 2 ∧
      (World.steps Toy.calEnv (w.setAtlas 0 10 true).1 Toy.fourMatches).cal.ransac.minMatches = 4 ∧
      (∃ r, ((World.steps Toy.calEnv (w.setAtlas 0 10 true).1 Toy.fourMatches).fit Toy.env (Toy.fourArgs 1)
        Toy.farRnd).2 = .done (.ok r) ∧ r.coeffs = [3100, 140]) ∧
      (ls.length = 3 → ∀ r, ((World.steps Toy.calEnv (World.setAtlas ⟨[Toy.atlasOf (ls ++ [20000])], w.cal⟩ 0 10
        true).1 Toy.fourMatches).fit Toy.env (Toy.fourArgs 1) Toy.farRnd).2 ≠ .done (.ok r)) := by
  have hc : (Toy.fourPeaks ls).toOption.bind (fun w =>
      (Toy.report ((World.steps Toy.calEnv (w.setAtlas 0 10 true).1 Toy.fourMatches).fit Toy.env (Toy.fourArgs 1)
        Toy.farRnd)).map (fun r => ((r.coeffs, decide (w.atlases[0]? = some (Toy.atlasOf ls)),
        w.cal.props.pixelList.all (fun p => decide (p ≤ 45)), decide ((45 : ℚ) ∈ w.cal.props.pixelList)),
        (decide (w.cal.hough.maxIntercept ≤ 5000), decide (w.cal.hough.minIntercept ≤ 5000),
          decide (w.cal.hough.maxW ≤ 9000), w.cal.hough.rangeTol),
        ((World.steps Toy.calEnv (w.setAtlas 0 10 true).1 Toy.fourMatches).cal.ransac.linear,
        (World.steps Toy.calEnv (w.setAtlas 0 10 true).1 Toy.fourMatches).cal.ransac.sampleSize,
        (World.steps Toy.calEnv (w.setAtlas 0 10 true).1 Toy.fourMatches).cal.ransac.minMatches,
        decide (ls.length = 3 → Toy.report ((World.steps Toy.calEnv (World.setAtlas
          ⟨[Toy.atlasOf (ls ++ [20000])], w.cal⟩ 0 10 true).1 Toy.fourMatches).fit Toy.env (Toy.fourArgs 1)
          Toy.farRnd) = none))))) =
      some (([3100, 140], true, true, true), (true, true, true, 500), (true, 2, 4, true)) := by
    rcases hls with rfl | rfl <;> decide +kernel
  cases hw : Toy.fourPeaks ls with
  | error e => rw [hw] at hc; simp [Except.toOption] at hc
  | ok w =>
    rw [hw] at hc
    simp only [Except.toOption, Option.bind_some, Option.map_eq_some_iff, Prod.mk.injEq, decide_eq_true_eq,
      List.all_eq_true] at hc
    obtain ⟨r, hr, ⟨c1, c2, c3, c4⟩, ⟨c5, c6, c7, c8⟩, c9, c10, c11, c12⟩ := hc
    refine ⟨w, rfl, c2, ⟨c4, fun p hp => c3 p hp⟩, ?_, c9, c10, c11, ⟨r, Toy.report_some _ _ hr, c1⟩, ?_⟩
    · rintro ⟨p, _, wa, wb, wc, wd, h1, h2, h3, h4, h5, _, h7⟩
      dsimp only at h7
      rw [c8] at h7
      nlinarith
    · intro h3 r' hr'
      have := c12 h3
      unfold Toy.report at this
      rw [hr'] at this
      cases this

open Classical in
theorem Toy.far_filter (w : World ℚ) (ls : List ℚ) (h : ¬ Spec.InSearchSpace w.cal 10 45 20000) :
    (Toy.atlasOf ls).getLines.filter (fun v => decide (Spec.InSearchSpace w.cal 10 45 v)) =
      (Toy.atlasOf (ls ++ [20000])).getLines.filter (fun v => decide (Spec.InSearchSpace w.cal 10 45 v)) := by
  have hg : ∀ l : List ℚ, (Toy.atlasOf l).getLines = l := by
    intro l
    unfold Toy.atlasOf Atlas.getLines
    rw [List.map_map]
    exact List.map_id' l
  rw [hg, hg, List.filter_append]
  simp [h]

theorem Toy.keeps_fourMatches : ∀ op ∈ Toy.fourMatches, op.keepsPairs := by
  intro op hop
  rw [List.mem_singleton.1 hop]
  trivial

/-- C177 is false: three lines and four peaks with `minimum_matches` 4, which `fit` reduces to the three lines.  With a
fourth line far outside the search space it stays 4, and nothing is accepted. -/
theorem C177_refuted : ¬ C177_Statement := by
  intro h
  obtain ⟨w, _, hi, hP, hf, h1, h2, h3, ⟨r, hr, _⟩, h4⟩ := Toy.far_line [4500, 5900, 7440] (Or.inl rfl)
  have := h Toy.env Toy.calEnv w [Toy.atlasOf ([4500, 5900, 7440] ++ [20000])] 0 10 45 _ _ hi rfl (by decide) (by decide)
    hP (Toy.far_filter w _ hf) Toy.fourMatches Toy.keeps_fourMatches h1 (Toy.fourArgs 1) Toy.farRnd
  rw [hr] at this
  exact h4 rfl _ this

/-- A case for `C177_far_lines_partial`, `C177_fit_partial` and `C177_same_pairs`: with four lines the result is the
same. -/
example : ∃ w, Toy.fourPeaks [4500, 5900, 7440, 8840] = .ok w ∧ ∃ r,
    ((World.steps Toy.calEnv (w.setAtlas 0 10 true).1 Toy.fourMatches).fit Toy.env (Toy.fourArgs 1)
      Toy.farRnd).2 = .done (.ok r) ∧ r.coeffs = [3100, 140] ∧
    ((World.steps Toy.calEnv (World.setAtlas ⟨[Toy.atlasOf ([4500, 5900, 7440, 8840] ++ [20000])], w.cal⟩ 0 10 true).1
      Toy.fourMatches).fit Toy.env (Toy.fourArgs 1) Toy.farRnd).2 =
        .done (.ok { r with atlasUtil := .fin ((r.matchedPeaks.length : ℚ) / 5) }) := by
  obtain ⟨w, h0, hi, hP, hf, h1, h2, h3, ⟨r, hr, hco⟩, _⟩ := Toy.far_line [4500, 5900, 7440, 8840] (Or.inr rfl)
  have := (C177_far_lines_partial Toy.env Toy.calEnv w [Toy.atlasOf ([4500, 5900, 7440, 8840] ++ [20000])] 0 10 45 _ _ hi
    rfl (by decide) (by decide) hP (Toy.far_filter w _ hf) Toy.fourMatches Toy.keeps_fourMatches).2 h1
    (by rw [h2]; decide) (by rw [h2]; decide) (by rw [h3]; decide) (by rw [h3]; decide) (Toy.fourArgs 1) Toy.farRnd
  rw [hr] at this
  exact ⟨w, h0, r, hr, hco, this⟩

end Rascal
