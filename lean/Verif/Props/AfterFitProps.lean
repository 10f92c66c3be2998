import Verif.Props.RefitProps
import Mathlib.Algebra.Order.BigOperators.Group.List

/-! Property theorems C102, C103 and C104: working on with the result of a fit. -/

set_option linter.unusedSectionVars false

namespace Rascal

open Spec

section
variable {K : Type _} [Field K] [LinearOrder K] [IsStrictOrderedRing K] [FloorRing K]

/-! ### C102 -/

/-- C102, what happens: after a successful fit an ordinary float can never be added. -/
theorem C102_float_refused_partial (F : FitEnv K) (ha : IsArgsort F.argsortK) (s : Session K) (a : FitArgs K)
    (arr : Bool) (rnd : FitRandom K) (r : FitReport K) (h : (s.fit F a arr rnd).2 = .done (.ok r))
    (pix wave : K) :
    (s.fit F a arr rnd).1.addPair false pix wave = ((s.fit F a arr rnd).1, .error .typeError) := by
  have ht := (fit_types F ha s a arr rnd r h).1
  unfold Session.addPair
  rw [ht]
  rfl

theorem fit_pairs (F : FitEnv K) (ha : IsArgsort F.argsortK) (s : Session K) (a : FitArgs K)
    (arr : Bool) (rnd : FitRandom K) (r : FitReport K) (h : (s.fit F a arr rnd).2 = .done (.ok r)) :
    (s.fit F a arr rnd).1.world.cal.matchedPeaks = r.matchedPeaks ∧
    (s.fit F a arr rnd).1.world.cal.matchedAtlas = r.matchedAtlas ∧
    (s.fit F a arr rnd).1.world.cal.fitCoeff = some r.coeffs ∧
    r.matchedPeaks.length = r.matchedAtlas.length ∧ a.degree < r.matchedPeaks.length := by
  have hw : (s.world.fit F a rnd).2 = .done (.ok r) := h
  obtain ⟨lines, L, b, co, data, prev, S⟩ := fit_success F ha s.world a rnd r hw
  have hs : (s.fit F a arr rnd).1.world = (s.world.fit F a rnd).1 := rfl
  have hl := S.accepted.lengths
  have he := S.accepted.enough.1
  rw [(enter_spec _ _ _ _ _ _ S.enter).fitDeg] at he
  have hp : r.matchedPeaks = b.matchedPeaks := by rw [S.report]
  have hq : r.matchedAtlas = b.matchedAtlas := by rw [S.report]
  have hc : r.coeffs = co := by rw [S.report]
  rw [hs, S.state, hp, hq, hc]
  exact ⟨rfl, rfl, rfl, by rw [hl.1, hl.2], by rw [hl.1]; exact he⟩

/-- C102, what holds: after a successful fit a numpy float can be added exactly if some matched peak is
smaller; the wavelength is stored as given, the pixel too unless the peaks are integers and the polynomial
mode is used. -/
theorem C102_numpy_partial (F : FitEnv K) (ha : IsArgsort F.argsortK) (s : Session K) (a : FitArgs K)
    (arr : Bool) (rnd : FitRandom K) (r : FitReport K) (h : (s.fit F a arr rnd).2 = .done (.ok r))
    (pix wave : K) :
    (((s.fit F a arr rnd).1.addPair true pix wave).2 = .ok () ↔ ∃ p ∈ r.matchedPeaks, p < pix) ∧
    (((s.fit F a arr rnd).1.addPair true pix wave).2 = .ok () →
      ∃ v, Inserted (v, wave) (r.matchedPeaks.zip r.matchedAtlas)
          ((s.fit F a arr rnd).1.addPair true pix wave).1.pairs ∧
        (s.intPeaks = false ∨ s.world.cal.ransac.linear = true → v = pix) ∧
        (s.intPeaks = true → s.world.cal.ransac.linear = false → ∃ z : Int, v = z)) := by
  obtain ⟨t1, t2, _, _, t5⟩ := fit_types F ha s a arr rnd r h
  obtain ⟨p1, p2, _, p4, _⟩ := fit_pairs F ha s a arr rnd r h
  have hl : (s.fit F a arr rnd).1.world.cal.matchedPeaks.length =
      (s.fit F a arr rnd).1.world.cal.matchedAtlas.length := by rw [p1, p2, p4]
  have hk : (s.fit F a arr rnd).1.atlasKind ≠ .absent := by rw [t2]; decide
  have hpairs : (s.fit F a arr rnd).1.pairs = r.matchedPeaks.zip r.matchedAtlas := by
    unfold Session.pairs; rw [p1, p2]
  constructor
  · rw [(C75_add _ hk hl true pix wave).1, p1]
    simp
  · intro hok
    obtain ⟨v, h1, h2, h3⟩ := C97_stored_pixel_partial _ hk hl true pix wave hok
    rw [hpairs] at h1
    refine ⟨v, h1, fun hi => h2 ?_, fun hi hlin => (h3 ?_).1⟩
    · rw [t5]
      rcases hi with hi | hi <;> simp [hi]
    · rw [t5, hi, hlin]; rfl

/-! ### C103 -/

/-- C103: `manual_refit()` straight after a successful fit passes all its checks: it raises only what the
robust fit raises, changing nothing, and otherwise returns the refit of the matches of the fit at the same
degree, started from the coefficients found. -/
theorem C103_refit_after_fit (F : FitEnv K) (M : MatchKernels K) (ha : IsArgsort F.argsortK) (s : Session K)
    (a : FitArgs K) (arr : Bool) (rnd : FitRandom K) (r : FitReport K)
    (h : (s.fit F a arr rnd).2 = .done (.ok r)) (hd : 0 < a.degree)
    (hco : ∀ xs ys co, (F.kern a.fitType).robust xs ys a.degree = .ok co → co.length = a.degree + 1) :
    (∀ e, M.robust r.matchedPeaks r.matchedAtlas a.degree (some r.coeffs) = .error e →
      (s.fit F a arr rnd).1.manualRefit F M {} = ((s.fit F a arr rnd).1, .error e)) ∧
    (∀ co, M.robust r.matchedPeaks r.matchedAtlas a.degree (some r.coeffs) = .ok (some co) →
      ∃ res rms, ((s.fit F a arr rnd).1.manualRefit F M {}).2 =
          .ok ⟨some co, r.matchedPeaks, r.matchedAtlas, rms, some res⟩ ∧
        res = List.zipWith (fun p l => l - (F.kern a.fitType).polyval co p) r.matchedPeaks r.matchedAtlas ∧
        rms = (F.kern a.fitType).sqrt ((res.map (fun v => v ^ 2)).sum / (res.length : K))) := by
  obtain ⟨t1, t2, t3, t4, _⟩ := fit_types F ha s a arr rnd r h
  obtain ⟨p1, p2, p3, p4, p5⟩ := fit_pairs F ha s a arr rnd r h
  have hw : (s.world.fit F a rnd).2 = .done (.ok r) := h
  obtain ⟨lines, L, b, co, data, prev, S⟩ := fit_success F ha s.world a rnd r hw
  have hlen : r.coeffs.length = a.degree + 1 := by
    have : r.coeffs = co := by rw [S.report]
    rw [this]
    exact hco _ _ _ S.robust
  generalize hs' : (s.fit F a arr rnd).1 = s' at t1 t2 t3 t4 p1 p2 p3 ⊢
  have hst : s'.refitStart {} = .ok (some (some r.coeffs), (a.degree : Int)) := by
    unfold Session.refitStart
    simp only [p3, t3]
    rw [hlen]
    simp
  have hli : s'.refitLists {} = ((false, r.matchedPeaks), (.list, r.matchedAtlas)) := by
    unfold Session.refitLists
    simp only [t1, t2, p1, p2]
  have hcond : (r.matchedPeaks.length = r.matchedAtlas.length ∧ 0 < r.matchedPeaks.length ∧
      (0 : Int) < a.degree ∧ (a.degree : Int) ≤ (r.matchedPeaks.length : Int) - 1) :=
    ⟨p4, by omega, by omega, by omega⟩
  constructor
  · intro e he
    unfold Session.manualRefit
    rw [hst]
    dsimp only
    rw [hli]
    simp only [reduceCtorEq, if_false, if_pos hcond, Int.toNat_natCast, he]
  · intro co' he
    unfold Session.manualRefit
    rw [hst]
    dsimp only
    rw [hli]
    simp only [reduceCtorEq, if_false, if_pos hcond, Int.toNat_natCast, he]
    unfold Session.finishRefit
    have hb : (s'.storeRefit {} a.degree (some co')).basis = some a.fitType := t4
    rw [hb]
    exact ⟨_, _, rfl, rfl, rfl⟩

/-! ### C104 -/

theorem fit_residual (F : FitEnv K) (ha : IsArgsort F.argsortK) (w : World K) (a : FitArgs K)
    (rnd : FitRandom K) (r : FitReport K) (h : (w.fit F a rnd).2 = .done (.ok r)) :
    r.residual = some (fitResidual (F.kern a.fitType) w.cal.ransac.tol r.coeffs r.matchedPeaks r.matchedAtlas) ∧
    r.rms = rmsOf (F.kern a.fitType)
      (fitResidual (F.kern a.fitType) w.cal.ransac.tol r.coeffs r.matchedPeaks r.matchedAtlas) := by
  obtain ⟨lines, L, b, co, data, prev, S⟩ := fit_success F ha w a rnd r h
  obtain ⟨co', _, c2, c3, c4, _⟩ := S.accepted.fit
  rw [S.coeffs, Option.some.injEq] at c2
  subst c2
  rw [(enter_spec _ _ _ _ _ _ S.enter).tol] at c3 c4
  have hp : r.matchedPeaks = b.matchedPeaks := by rw [S.report]
  have hq : r.matchedAtlas = b.matchedAtlas := by rw [S.report]
  have hc : r.coeffs = co := by rw [S.report]
  have h1 : r.residual = b.residual := by rw [S.report]
  have h2 : r.rms = b.err := by rw [S.report]
  rw [h1, h2, hp, hq, hc]
  exact ⟨c3, c4⟩

/-- C104, what holds: if the solution passes every match within the tolerance, the residuals returned are
its distances from the matches.  What is missing: matches that the robust fit has moved away from, whose
residual is replaced by the tolerance. -/
theorem C104_residual_partial (F : FitEnv K) (ha : IsArgsort F.argsortK) (w : World K) (a : FitArgs K)
    (rnd : FitRandom K) (r : FitReport K) (h : (w.fit F a rnd).2 = .done (.ok r))
    (hin : ∀ e ∈ r.matchedPeaks.zip r.matchedAtlas,
      |(F.kern a.fitType).polyval r.coeffs e.1 - e.2| ≤ w.cal.ransac.tol) :
    r.residual = some (List.zipWith (fun p l => (F.kern a.fitType).polyval r.coeffs p - l)
      r.matchedPeaks r.matchedAtlas) := by
  rw [(fit_residual F ha w a rnd r h).1]
  unfold fitResidual
  rw [Option.some.injEq, List.map_zipWith]
  have key : ∀ (xs ys : List K), (∀ e ∈ xs.zip ys,
        |(F.kern a.fitType).polyval r.coeffs e.1 - e.2| ≤ w.cal.ransac.tol) →
      List.zipWith (fun p l => if |(F.kern a.fitType).polyval r.coeffs p - l| > w.cal.ransac.tol
        then w.cal.ransac.tol else (F.kern a.fitType).polyval r.coeffs p - l) xs ys =
      List.zipWith (fun p l => (F.kern a.fitType).polyval r.coeffs p - l) xs ys := by
    intro xs
    induction xs with
    | nil => intros; rfl
    | cons x xs ih =>
      intro ys hys
      cases ys with
      | nil => rfl
      | cons y ys =>
        simp only [List.zipWith_cons_cons]
        rw [if_neg (not_lt.2 (hys (x, y) (by simp))), ih ys (fun e he => hys e (by simp [he]))]
  exact key _ _ hin

/-- The hypotheses of `C104_residual_partial` met by the toy fit. -/
example := C104_residual_partial Toy.env Toy.env_argsort Toy.ready Toy.args Toy.rnd Toy.found Toy.ready_fit
  (by decide +kernel)

/-- C104, the rms: whatever the robust fit does, the mean square behind the rms returned is at most the
mean square distance of the solution from its matches. -/
theorem C104_rms_partial (F : FitEnv K) (ha : IsArgsort F.argsortK) (w : World K) (a : FitArgs K)
    (rnd : FitRandom K) (r : FitReport K) (h : (w.fit F a rnd).2 = .done (.ok r)) :
    ∃ ms, r.rms = (F.kern a.fitType).sqrt ms ∧
      ms ≤ ((List.zipWith (fun p l => (F.kern a.fitType).polyval r.coeffs p - l)
        r.matchedPeaks r.matchedAtlas).map (fun v => v ^ 2)).sum / (r.matchedPeaks.length : K) := by
  obtain ⟨_, _, _, p4, _⟩ := fit_pairs F ha (Session.new w false) a false rnd r h
  have ht : 0 ≤ w.cal.ransac.tol := by
    obtain ⟨lines, L, b, co, data, prev, S⟩ := fit_success F ha w a rnd r h
    obtain ⟨trial, _, _, _, _, _, hin⟩ := S.accepted.trial
    rw [(enter_spec _ _ _ _ _ _ S.enter).tol] at hin
    have hl := S.accepted.lengths
    have he := S.accepted.enough.1
    have hm : (b.matchedPeaks[0]'(by omega), b.matchedAtlas[0]'(by omega)) ∈
        b.matchedPeaks.zip b.matchedAtlas := List.mem_iff_getElem.2 ⟨0, by simp; omega, by simp⟩
    exact (abs_nonneg _).trans (hin _ hm).le
  refine ⟨_, (fit_residual F ha w a rnd r h).2, ?_⟩
  unfold fitResidual
  simp only [List.length_map, List.length_zipWith, ← p4, min_self, List.map_map]
  refine div_le_div_of_nonneg_right ?_ (Nat.cast_nonneg _)
  refine List.sum_le_sum ?_
  intro v _
  simp only [Function.comp_apply]
  split
  · rename_i hv
    rw [← sq_abs v]
    exact pow_le_pow_left₀ ht hv.le 2
  · exact le_rfl

/-- The hypotheses of `C104_rms_partial` met by the toy fit. -/
example := C104_rms_partial Toy.env Toy.env_argsort Toy.ready Toy.args Toy.rnd Toy.found Toy.ready_fit

end

/-! ### refutations and examples -/

set_option synthInstance.maxSize 2000
set_option synthInstance.maxHeartbeats 400000

/-- The expected behaviour: after a successful fit a pixel beyond a matched peak can be added. -/
def C102_Statement : Prop :=
  ∀ (F : FitEnv ℚ) (s : Session ℚ) (a : FitArgs ℚ) (arr : Bool) (rnd : FitRandom ℚ) (r : FitReport ℚ),
    IsArgsort F.argsortK → (s.fit F a arr rnd).2 = .done (.ok r) → ∀ pix wave : ℚ,
    (∃ p ∈ r.matchedPeaks, p < pix) → ((s.fit F a arr rnd).1.addPair false pix wave).2 = .ok ()

/-- The session of the small calibrator of `Toy`, before its fit. -/
def Toy.twoSession (int : Bool) : Option (Session ℚ) := (Toy.world 2 0).toOption.map (fun w => Session.new w int)

/-- The report of a fit in a session. -/
def Toy.sessionReport (r : Session ℚ × CallRes (FitReport ℚ)) : Option (FitReport ℚ) :=
  match r.2 with
  | .done (.ok r) => some r
  | _ => none

theorem Toy.sessionReport_some {r : Session ℚ × CallRes (FitReport ℚ)} {x : FitReport ℚ}
    (h : Toy.sessionReport r = some x) : r.2 = .done (.ok x) := by
  unfold Toy.sessionReport at h
  split at h
  · rename_i y hy; rw [hy]; cases h; rfl
  · cases h

/-- The fit of the small calibrator succeeds, then a float raises TypeError. -/
theorem C102_refuted : ¬ C102_Statement := by
  intro h
  have hc : (Toy.twoSession false).map (fun s => Toy.sessionReport (s.fit Toy.env Toy.args false Toy.rnd)) =
      some (some ⟨[3100, 280], [10, 20], [5900, 8700], 0, some [0, 0], 1, .fin (2 / 5)⟩) := by decide +kernel
  cases hs : Toy.twoSession false with
  | none => rw [hs] at hc; simp at hc
  | some s =>
    rw [hs] at hc
    simp only [Option.map_some, Option.some.injEq] at hc
    have hf := Toy.sessionReport_some hc
    have h1 := h _ s _ _ _ _ stableArgsort_isArgsort hf 15 7300 ⟨10, by simp, by norm_num⟩
    rw [C102_float_refused_partial Toy.env stableArgsort_isArgsort s _ _ _ _ hf 15 7300] at h1
    cases h1

/-- A case meeting the hypotheses of the C102 and C103 theorems: a successful fit of degree 1, a float
refused, a numpy float added, and a refit without arguments. -/
example : (Toy.twoSession true).map (fun s =>
    let t := (s.fit Toy.env Toy.args false Toy.rnd).1
    (Toy.args.degree, Toy.raised (t.addPair false 15 7300),
      (t.addPair true (31 / 2) 7440).1.world.cal.matchedPeaks,
      (t.manualRefit Toy.env Toy.mkern {}).2.toOption)) =
    some (1, some .typeError, [31 / 2, 10, 20],
      some ⟨some [3100, 280], [10, 20], [5900, 8700], 0, some [0, 0]⟩) := by
  decide +kernel

/-- The fitting routine of `Toy` returns degree plus one coefficients, as C103 requires. -/
example : ∀ xs ys co, (Toy.env.kern .poly).robust xs ys 1 = .ok co → co.length = 1 + 1 := by
  intro xs ys co h
  have h' : Toy.line xs ys = .ok co := h
  unfold Toy.line at h'
  dsimp only at h'
  split at h'
  · cases h'
  · cases h'; rfl

/-- The expected behaviour: the residuals returned are the distances of the solution from its matches. -/
def C104_Statement : Prop :=
  ∀ (F : FitEnv ℚ) (w : World ℚ) (a : FitArgs ℚ) (rnd : FitRandom ℚ) (r : FitReport ℚ),
    IsArgsort F.argsortK → (w.fit F a rnd).2 = .done (.ok r) →
    r.residual = some (List.zipWith (fun p l => (F.kern a.fitType).polyval r.coeffs p - l)
      r.matchedPeaks r.matchedAtlas)

/-- Six peaks and six lines close to a straight line. -/
def Toy.sixPeaks : PyRes (World ℚ) :=
  match Cal.new (fun _ => .ok ()) [10, 21, 32, 41, 52, 60] true none with
  | .error e => .error e
  | .ok c => .ok (World.steps Toy.calEnv
      ⟨[Toy.atlasOf [39951 / 10, 51049 / 10, 6200, 7100, 81951 / 10, 90049 / 10]], c⟩
      [.setHough { numSlopes := some 3, xbins := some 4, ybins := some 4 },
       .setRansac { sampleSize := some 2, minFitError := some 0 },
       .setAtlas 0 10 false])

/-- The arguments of the fit of the six peaks. -/
def Toy.sixArgs : FitArgs ℚ := { fitDeg := 1, candTol := 600, maxTries := 1 }

/-- One pass that draws the peaks 32 and 41 with their lines. -/
def Toy.sixRnd : FitRandom ℚ := ⟨fun _ => 0, [⟨[2, 2], [1, 1]⟩]⟩

/-- With least-squares lines the sample predicts all six lines within 5, the tolerance, but the final fit
misses two of them by more: their residuals -100891/17740 and 50911/8870 are both returned as 5. -/
theorem C104_refuted : ¬ C104_Statement := by
  intro h
  have hc : Toy.sixPeaks.toOption.map (fun w =>
      (Toy.report (w.fit Toy.env Toy.sixArgs Toy.sixRnd)).map (fun r =>
        (r.residual, List.zipWith (fun p l => Toy.kern.polyval r.coeffs p - l) r.matchedPeaks r.matchedAtlas))) =
      some (some (some [3136 / 887, 5, -931 / 4435, 931 / 3548, 5, -32291 / 8870],
        [3136 / 887, -100891 / 17740, -931 / 4435, 931 / 3548, 50911 / 8870, -32291 / 8870])) := by
    decide +kernel
  cases hs : Toy.sixPeaks with
  | error e => rw [hs] at hc; simp [Except.toOption] at hc
  | ok w =>
    rw [hs] at hc
    simp only [Except.toOption, Option.map_some, Option.some.injEq, Option.map_eq_some_iff,
      Prod.mk.injEq] at hc
    obtain ⟨r, hr, h1, h2⟩ := hc
    have hf : (w.fit Toy.env Toy.sixArgs Toy.sixRnd).2 = .done (.ok r) := by
      unfold Toy.report at hr
      split at hr
      · rename_i y hy; rw [hy]; cases hr; rfl
      · cases hr
    have h3 := h _ w _ _ r stableArgsort_isArgsort hf
    have h4 : List.zipWith (fun p l => (Toy.env.kern Toy.sixArgs.fitType).polyval r.coeffs p - l)
        r.matchedPeaks r.matchedAtlas =
      [3136 / 887, -100891 / 17740, -931 / 4435, 931 / 3548, 50911 / 8870, -32291 / 8870] := h2
    rw [h4, h1] at h3
    exact absurd h3 (by decide +kernel)

end Rascal
