import Verif.Props.SearchProps
import Verif.Props.MatchRepeatProps

/-!
Property theorems C181: the degree of the solutions returned.
-/

set_option linter.unusedSectionVars false

namespace Rascal

open Spec

section
variable {K : Type _} [Field K] [LinearOrder K] [IsStrictOrderedRing K]

/-- The robust fit of degree `d` returns `d + 1` coefficients (C21). -/
structure Spec.KeepsDegree (F : FitEnv K) (M : MatchKernels K) : Prop where
  inFit : ∀ b xs ys d co, (F.kern b).robust xs ys d = .ok co → co.length = d + 1
  later : ∀ xs ys d x0 co, M.robust xs ys d x0 = .ok (some co) → co.length = d + 1

/-- C181, what holds for `fit`: it returns and stores one coefficient more than the degree, which is `fit_deg` without
`fit_coeff`, else that of `fit_coeff`.  What is missing: `fit_deg` is ignored if there is a `fit_coeff`. -/
theorem C181_fit_partial [FloorRing K] (F : FitEnv K) (M : MatchKernels K) (hd : KeepsDegree F M)
    (ha : IsArgsort F.argsortK) (w : World K) (a : FitArgs K) (rnd : FitRandom K) (r : FitReport K)
    (h : (w.fit F a rnd).2 = .done (.ok r)) :
    (a.fitCoeff = none → r.coeffs.length = a.fitDeg + 1) ∧
    (∀ co, a.fitCoeff = some co → co ≠ [] → r.coeffs.length = co.length) ∧
    (w.fit F a rnd).1.cal.fitCoeff = some r.coeffs := by
  obtain ⟨lines, L, s, co, data, prev, S⟩ := fit_success F ha w a rnd r h
  have hl := hd.inFit _ _ _ _ _ S.robust
  have hr : r.coeffs = co := by rw [S.report]
  refine ⟨fun hn => ?_, fun c hc hne => ?_, ?_⟩
  · rw [hr, hl, FitArgs.degree, hn]
  · rw [hr, hl, FitArgs.degree, hc]
    have := List.length_pos_iff.2 hne
    dsimp only
    omega
  · rw [S.state, hr]

/-- C181, `match_peaks`: with `robust_refit` the solution has the degree asked for, or that of the coefficients it
started from. -/
theorem C181_match_partial (F : FitEnv K) (M : MatchKernels K) (hd : KeepsDegree F M) (s s' : Session K) (a : MatchArgs K)
    (r : MatchReport K) (hrob : a.robust = true) (hnan : ∀ xs ys d, M.robust xs ys d none ≠ .ok none)
    (h : s.matchPeaks F M a = (s', .ok (.report r))) :
    ∃ co, StartsFrom s a co ∧ r.coeffs.length = a.deg.getD (co.length - 1) + 1 ∧
      s'.world.cal.fitCoeff = some r.coeffs := by
  obtain ⟨b, co, lines, fitted, res, new, R⟩ := matchPeaks_report F M s a s' r h
  refine ⟨co, R.start, ?_⟩
  have hend := R.ending
  generalize ho : (Except.ok (MatchOut.report r) : PyRes (MatchOut K)) = o at hend
  cases hend with
  | failed e _ _ => cases ho
  | nan s' h1 h2 h3 => exact absurd h2 (hnan _ _ _)
  | robust co s' h1 h2 h3 =>
    have e : r.coeffs = co := by
      have := MatchOut.report.inj (Except.ok.inj ho)
      rw [this]
    subst h3
    rw [e]
    exact ⟨hd.later _ _ _ _ _ h2, rfl⟩
  | refined co s' h1 h2 h3 => rw [hrob] at h1; cases h1
  | unbound _ _ => cases ho

theorem matchFit_keepsCount (F : FitEnv K) (M : MatchKernels K) (s : Session K) (n deg : Nat) (new : Refined K)
    (xs ys : List K) (s' : Session K) (r : MatchReport K)
    (hs : s.matchFit F M n false deg new xs ys = (s', .ok (.report r))) :
    new = .coeffs r.coeffs ∧ s'.world.cal.fitCoeff = some r.coeffs := by
  unfold Session.matchFit at hs
  dsimp only at hs
  split at hs
  · cases hs
  · split at hs
    · cases hs
    · split at hs
      · unfold Session.matchRefit at hs
        simp only [Bool.false_eq_true, if_false] at hs
        cases new with
        | nan => cases hs
        | skipped => cases hs
        | coeffs l =>
          dsimp only at hs
          obtain ⟨h1, h2⟩ := Prod.mk.inj hs
          have := MatchOut.report.inj (Except.ok.inj h2)
          rw [← h1, ← this]
          exact ⟨rfl, rfl⟩
      · cases hs

/-- C181, `match_peaks(robust_refit=False)`: whatever `fit_deg` is, the solution has as many coefficients as the one it
started from; those after the ones the minimiser was given are unchanged. -/
theorem C181_refined_partial (F : FitEnv K) (M : MatchKernels K) (s s' : Session K) (a : MatchArgs K)
    (r : MatchReport K) (hrob : a.robust = false) (h : s.matchPeaks F M a = (s', .ok (.report r))) :
    ∃ co d, StartsFrom s a co ∧ M.minimize (s.objective F a co)
        ((pyTake co (a.nDelta.getD ((co.length : Int) - 1))).map (fun c => c * (1 / 1000))) = .ok (some d) ∧
      r.coeffs.length = co.length ∧ (∀ i : Nat, d.length ≤ i → r.coeffs[i]? = co[i]?) ∧
      s'.world.cal.fitCoeff = some r.coeffs := by
  unfold Session.matchPeaks at h
  cases hi : s.inputCoeff a with
  | error e => rw [hi] at h; cases h
  | ok kc =>
    obtain ⟨kind, co⟩ := kc
    rw [hi] at h
    dsimp only at h
    have hstart : StartsFrom s a co := by
      unfold Session.inputCoeff at hi
      cases hc : a.coeff with
      | some q =>
        rw [hc] at hi
        have := (Prod.mk.inj (Except.ok.inj hi)).2
        subst this
        exact .inl ⟨q.1, hc⟩
      | none =>
        rw [hc] at hi
        dsimp only at hi
        cases hf : s.world.cal.fitCoeff with
        | none => rw [hf] at hi; cases hi
        | some l =>
          rw [hf] at hi
          have := (Prod.mk.inj (Except.ok.inj hi)).2
          subst this
          exact .inr ⟨hc, hf⟩
    cases hst : s.refineStep F M a kind co with
    | error e => rw [hst] at h; cases h
    | ok new =>
      rw [hst] at h
      have hs : s.matchSearch F M a kind co new = (s', .ok (.report r)) := by
        cases new with
        | nan => cases h
        | skipped => exact h
        | coeffs l => exact h
      have hend : new = .coeffs r.coeffs ∧ s'.world.cal.fitCoeff = some r.coeffs := by
        clear h hst hstart hi
        unfold Session.matchSearch at hs
        split at hs
        · cases hs
        · split at hs
          · cases hs
          · split at hs
            · cases hs
            · dsimp only at hs
              split at hs
              · cases hs
              · rw [hrob] at hs
                exact matchFit_keepsCount F M s _ _ new _ _ s' r hs
      obtain ⟨hnew, hfc⟩ := hend
      subst hnew
      unfold Session.refineStep at hst
      split at hst
      · cases hst
      · split at hst
        · cases hst
        · cases hst
        · split at hst
          · cases hst
          · cases hst
          · rename_i d hd
            unfold addDelta at hst
            by_cases hlt : co.length < d.length
            · rw [if_pos hlt] at hst; cases hst
            · rw [if_neg hlt] at hst
              have e : co.mapIdx (fun i c => c + d.getD i 0) = r.coeffs := by
                have := Except.ok.inj hst
                exact Refined.coeffs.inj this
              refine ⟨co, d, hstart, hd, ?_, fun i hle => ?_, hfc⟩
              · rw [← e, List.length_mapIdx]
              · rw [← e, List.getElem?_mapIdx, List.getD_eq_getElem?_getD, List.getElem?_eq_none hle]
                simp

/-- C181, `manual_refit`: the solution has the degree asked for. -/
theorem C181_refit_partial (F : FitEnv K) (M : MatchKernels K) (hd : KeepsDegree F M) (s : Session K) (a : RefitArgs K)
    (r : RefitReport K) (co : List K) (hb : s.basis ≠ none) (h : (s.manualRefit F M a).2 = .ok r)
    (hco : r.coeffs = some co) :
    (∀ f d, a.degree = some (f, d) → (co.length : Int) = d + 1) ∧
    (∀ f l, a.x0 = some (f, l) → co.length = l.length) ∧
    (a.degree = none → a.x0 = none → ∃ old, s.world.cal.fitCoeff = some old ∧ co.length = old.length) ∧
    (s.manualRefit F M a).1.world.cal.fitCoeff = some co := by
  rcases C77_manual_refit_partial F M s a hb with ⟨_, e, g2⟩ | ⟨r', g1, g2⟩
  · rw [g2] at h
    cases h
  · rw [g1] at h
    cases Except.ok.inj h
    obtain ⟨x0, deg, hu, _, _, hrob⟩ := g2.fit
    rw [hco] at hrob
    have hl := hd.later _ _ _ _ _ hrob
    refine ⟨fun f d h' => ?_, fun f l h' => ?_, fun h1 h2 => ?_, (g2.storedCoeff co hco).1⟩
    · have := (hu.degree f d h').2
      rw [hl, this]
      push_cast
      rfl
    · rw [hl, (hu.start f l h').2.2]
    · obtain ⟨_, e1, l, e2, e3⟩ := hu.stored h2 h1
      exact ⟨l, by rw [← e1, e2], by rw [hl, e3]⟩

end

/-! ### refutation and concrete cases -/

theorem Toy.line_two_coeffs (xs ys co : List ℚ) (h : Toy.line xs ys = .ok co) : co.length = 2 := by
  unfold Toy.line at h
  dsimp only at h
  split at h
  · cases h
  · cases h
    rfl

theorem Toy.keepsDegree : KeepsDegree Toy.env Toy.mkern where
  inFit := by
    intro b xs ys d co h
    change (if d = 1 then Toy.line xs ys else .error .valueError) = .ok co at h
    split at h
    · rename_i hd
      rw [hd, Toy.line_two_coeffs xs ys co h]
    · cases h
  later := by
    intro xs ys d x0 co h
    unfold Toy.mkern at h
    dsimp only at h
    split at h
    · rename_i hd
      split at h
      · cases h
      · split at h
        · cases h
        · rename_i c hc
          cases h
          rw [hd, Toy.line_two_coeffs xs ys _ hc]
    · cases h

/-- The expected behaviour: `fit` returns a polynomial of degree `fit_deg`. -/
def C181_Statement : Prop :=
  ∀ (F : FitEnv ℚ) (M : MatchKernels ℚ), KeepsDegree F M → IsArgsort F.argsortK → ∀ (w : World ℚ) (a : FitArgs ℚ)
    (rnd : FitRandom ℚ) (r : FitReport ℚ), (w.fit F a rnd).2 = .done (.ok r) → r.coeffs.length = a.fitDeg + 1

/-- A parabola is asked for, with a straight line as `fit_coeff`. -/
def Toy.degreeTwo : FitArgs ℚ := { Toy.fourArgs 1 with fitDeg := 2, fitCoeff := some [3100, 140] }

theorem Toy.degreeTwo_fit : ∃ w r, (World.fit Toy.env w Toy.degreeTwo ⟨fun _ => 0, [⟨[0, 0, 0], [0, 0, 0]⟩]⟩).2 =
    .done (.ok r) ∧ r.coeffs = [3100, 140] := by
  have hc : (Toy.fourPeaks [4500, 5900, 7440, 8840]).toOption.bind (fun w => (Toy.report (w.fit Toy.env Toy.degreeTwo
      ⟨fun _ => 0, [⟨[0, 0, 0], [0, 0, 0]⟩]⟩)).map (fun r => r.coeffs)) = some [3100, 140] := by decide +kernel
  cases hw : Toy.fourPeaks [4500, 5900, 7440, 8840] with
  | error e => rw [hw] at hc; simp [Except.toOption] at hc
  | ok w =>
    rw [hw] at hc
    simp only [Except.toOption, Option.bind_some, Option.map_eq_some_iff] at hc
    obtain ⟨r, hr, hco⟩ := hc
    exact ⟨w, r, Toy.report_some _ _ hr, hco⟩

/-- C181 is false: the straight line given as `fit_coeff` decides, a straight line is returned.  (Also the case of a
`fit_coeff` for `C181_fit_partial`.) -/
theorem C181_refuted : ¬ C181_Statement := by
  intro h
  obtain ⟨w, r, hr, hco⟩ := Toy.degreeTwo_fit
  have := h Toy.env Toy.mkern Toy.keepsDegree Toy.env_argsort w Toy.degreeTwo _ r hr
  rw [hco] at this
  cases this

/-- A case without `fit_coeff` for `C181_fit_partial`. -/
example : Toy.found.coeffs.length = Toy.args.fitDeg + 1 :=
  (C181_fit_partial Toy.env Toy.mkern Toy.keepsDegree Toy.env_argsort Toy.ready Toy.args Toy.rnd Toy.found
    Toy.ready_fit).1 rfl

/-- A case for `C181_match_partial`. -/
example := C181_match_partial Toy.env Toy.mkern Toy.keepsDegree Toy.pair _ Toy.matchArgs Toy.matchFound rfl (by
    intro xs ys d h
    unfold Toy.mkern at h
    dsimp only at h
    split at h
    · split at h
      · cases h
      · split at h <;> cases h
    · cases h) Toy.pair_match

/-- A case for `C181_refit_partial`: after matching two peaks. -/
example : ∃ r, ((Toy.pair.matchPeaks Toy.env Toy.mkern Toy.matchArgs).1.manualRefit Toy.env Toy.mkern {}).2 = .ok r ∧
    ∃ co, r.coeffs = some co ∧ co.length = 2 := by
  have hc : (((Toy.pair.matchPeaks Toy.env Toy.mkern Toy.matchArgs).1.manualRefit Toy.env Toy.mkern {}).2.toOption.bind
      (fun r => r.coeffs)) = some [3100, 280] := by decide +kernel
  cases hr : ((Toy.pair.matchPeaks Toy.env Toy.mkern Toy.matchArgs).1.manualRefit Toy.env Toy.mkern {}).2 with
  | error e => rw [hr] at hc; cases hc
  | ok r =>
    rw [hr] at hc
    have hco : r.coeffs = some [3100, 280] := hc
    obtain ⟨old, h1, h2⟩ := (C181_refit_partial Toy.env Toy.mkern Toy.keepsDegree _ {} r _ (by decide +kernel) hr
      hco).2.2.1 rfl rfl
    exact ⟨r, rfl, _, hco, rfl⟩

/-- A case for `C181_refined_partial`: a straight line is refined. -/
example := C181_refined_partial Toy.env Toy.mkern Toy.pair _
  { coeff := some (true, [3100, 280]), tol := 10, minFrac := 1 / 2, refine := true, robust := false, deg := some 1 }
  ⟨[3101, 280], [10, 20], [5900, 8700], 0, [0, 0], 1, 1⟩ rfl (Toy.matchReport_some (by decide +kernel))

end Rascal
