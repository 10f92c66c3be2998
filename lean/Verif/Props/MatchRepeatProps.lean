import Verif.Props.MatchQualityProps
import Verif.Props.RefitProps
import Verif.Props.EditProps

/-!
Property theorems C144 to C147: repeating `match_peaks` and `manual_refit`, and undoing edits.
-/

set_option linter.unusedSectionVars false

namespace Rascal

open Spec

section
variable {K : Type _} [Field K] [LinearOrder K] [IsStrictOrderedRing K]

/-! ### C144 -/

theorem matchRefit_congr (F : FitEnv K) (M : MatchKernels K) (s s' : Session K) (b : FitType)
    (robust : Bool) (deg : Nat) (new : Refined K) (fitted xs ys res : List K) (rms pu au : K) :
    (s'.matchRefit F M b robust deg new fitted xs ys res rms pu au).2 =
      (s.matchRefit F M b robust deg new fitted xs ys res rms pu au).2 := by
  unfold Session.matchRefit
  split
  · cases M.robust xs ys deg none with
    | error e => rfl
    | ok o => cases o <;> rfl
  · cases new <;> rfl

theorem matchFit_congr (F : FitEnv K) (M : MatchKernels K) (s s' : Session K) (nLines : Nat)
    (robust : Bool) (deg : Nat) (new : Refined K) (xs ys : List K)
    (hp : s'.world.cal.peaks = s.world.cal.peaks) (hb : s'.basis = s.basis) :
    (s'.matchFit F M nLines robust deg new xs ys).2 = (s.matchFit F M nLines robust deg new xs ys).2 := by
  unfold Session.matchFit
  dsimp only
  rw [hb, hp]
  cases s.basis with
  | none => rfl
  | some b =>
    dsimp only
    cases polyfitChecked (F.kern b) xs ys deg with
    | error e => rfl
    | ok fitted =>
      dsimp only
      split
      · exact matchRefit_congr ..
      · rfl

theorem matchPeaks_congr (F : FitEnv K) (M : MatchKernels K) (s s' : Session K) (a : MatchArgs K)
    (hp : s'.world.cal.peaks = s.world.cal.peaks) (hl : s'.world.atlasLines = s.world.atlasLines)
    (hx : s'.world.cal.props.pixelList = s.world.cal.props.pixelList) (hb : s'.basis = s.basis)
    (hi : s'.inputCoeff a = s.inputCoeff a) : (s'.matchPeaks F M a).2 = (s.matchPeaks F M a).2 := by
  have ho : ∀ co, s'.objective F a co = s.objective F a co := by
    intro co
    funext d
    unfold Session.objective
    rw [hp, hl, hx, hb]
  have hr : ∀ kind co, s'.refineStep F M a kind co = s.refineStep F M a kind co := by
    intro kind co
    unfold Session.refineStep
    rw [ho]
  have hs : ∀ kind co new, (s'.matchSearch F M a kind co new).2 = (s.matchSearch F M a kind co new).2 := by
    intro kind co new
    unfold Session.matchSearch
    rw [hp, hl, hb]
    cases s.world.atlasLines with
    | error e => rfl
    | ok lines =>
      dsimp only
      split
      · rfl
      · split
        · rfl
        · split
          · rfl
          · exact matchFit_congr F M s s' _ _ _ _ _ _ hp hb
  unfold Session.matchPeaks
  rw [hi]
  cases s.inputCoeff a with
  | error e => rfl
  | ok p =>
    obtain ⟨kind, co⟩ := p
    dsimp only
    rw [hr]
    cases s.refineStep F M a kind co with
    | error e => rfl
    | ok r =>
      cases r with
      | skipped => exact hs ..
      | nan => rfl
      | coeffs l => exact hs ..

/-- The result of `match_peaks` with given coefficients only depends on the peaks, the pixel list, the atlas
lines and the basis, not on earlier solutions, matches or settings. -/
theorem C144_given (F : FitEnv K) (M : MatchKernels K) (s s' : Session K) (a : MatchArgs K)
    (hp : s'.world.cal.peaks = s.world.cal.peaks) (hl : s'.world.atlasLines = s.world.atlasLines)
    (hx : s'.world.cal.props.pixelList = s.world.cal.props.pixelList) (hb : s'.basis = s.basis)
    (hc : a.coeff ≠ none) : (s'.matchPeaks F M a).2 = (s.matchPeaks F M a).2 := by
  refine matchPeaks_congr F M s s' a hp hl hx hb ?_
  unfold Session.inputCoeff
  cases h : a.coeff with
  | none => exact absurd h hc
  | some p => rfl

theorem SameSetup.atlasLines {s s' : Session K} (h : SameSetup s s') :
    s'.world.atlasLines = s.world.atlasLines := by
  unfold World.atlasLines
  rw [h.atlas, h.atlases]

/-- The claim: the same call of `match_peaks` gives the same result again. -/
def C144_Statement : Prop :=
  ∀ (F : FitEnv ℚ) (M : MatchKernels ℚ) (s : Session ℚ) (a : MatchArgs ℚ) (r : MatchReport ℚ),
    (s.matchPeaks F M a).2 = .ok (.report r) → ((s.matchPeaks F M a).1.matchPeaks F M a).2 = .ok (.report r)

/-- C144, what holds: with given coefficients a call of `match_peaks` can be repeated any number of times
with the same result, exceptions included.  What is missing: calls that start from the stored solution,
which they replace. -/
theorem C144_repeat_partial (F : FitEnv K) (M : MatchKernels K) (s : Session K) (a : MatchArgs K)
    (hc : a.coeff ≠ none) (n : Nat) :
    ((((fun t : Session K => (t.matchPeaks F M a).1)^[n]) s).matchPeaks F M a).2 = (s.matchPeaks F M a).2 := by
  induction n generalizing s with
  | zero => rfl
  | succ n ih =>
    rw [Function.iterate_succ_apply, ih]
    have h := (C96_failed_match_partial F M s a).1
    exact C144_given F M s _ a h.peaks h.atlasLines (by rw [h.props]) h.basis hc

theorem RefitEnd.stored {F : FitEnv K} {M : MatchKernels K} {s : Session K} {b : FitType} {robust : Bool}
    {deg : Nat} {new : Refined K} {fitted xs ys res : List K} {rms pu au : K} {s' : Session K}
    {r : MatchReport K}
    (h : RefitEnd F M s b robust deg new fitted xs ys res rms pu au s' (.ok (.report r)))
    (hn : robust = true → M.robust xs ys deg none ≠ .ok none) :
    s'.world.cal.fitCoeff = some r.coeffs ∧ s'.coeffKind = .array := by
  cases h with
  | nan s' h1 h2 h3 => exact absurd h2 (hn h1)
  | robust co s' h1 h2 h3 => subst h3; exact ⟨rfl, rfl⟩
  | refined co s' h1 h2 h3 => subst h3; exact ⟨rfl, rfl⟩

/-- C144, what holds without given coefficients: once two calls in a row have given the same result, all
further ones do. -/
theorem C144_settles_partial (F : FitEnv K) (M : MatchKernels K) (s : Session K) (a : MatchArgs K)
    (r : MatchReport K) (hc : a.coeff = none) (hn : ∀ xs ys deg, M.robust xs ys deg none ≠ .ok none)
    (h1 : (s.matchPeaks F M a).2 = .ok (.report r))
    (h2 : ((s.matchPeaks F M a).1.matchPeaks F M a).2 = .ok (.report r)) (n : Nat) :
    ((((fun t : Session K => (t.matchPeaks F M a).1)^[n]) s).matchPeaks F M a).2 = .ok (.report r) := by
  -- after a report the next result is determined by the report
  have next : ∀ t : Session K, SameSetup s t → (t.matchPeaks F M a).2 = .ok (.report r) →
      SameSetup s (t.matchPeaks F M a).1 ∧ ((t.matchPeaks F M a).1.matchPeaks F M a).2 = .ok (.report r) := by
    intro t ht h
    have hin : ∀ u : Session K, (u.matchPeaks F M a).2 = .ok (.report r) →
        (u.matchPeaks F M a).1.inputCoeff a = .ok (.array, r.coeffs) := by
      intro u hu
      obtain ⟨b, co, lines, fitted, res, new, m⟩ := matchPeaks_report F M u a (u.matchPeaks F M a).1 r
        (Prod.ext rfl hu)
      obtain ⟨e1, e2⟩ := m.ending.stored (fun _ => hn _ _ _)
      unfold Session.inputCoeff
      rw [hc, e1, e2]
    have f1 := (C96_failed_match_partial F M s a).1
    have f2 := (C96_failed_match_partial F M t a).1
    refine ⟨?_, ?_⟩
    · constructor <;> first
        | rw [f2.atlases, ht.atlases]
        | rw [f2.peaks, ht.peaks]
        | rw [f2.peaksAreArray, ht.peaksAreArray]
        | rw [f2.props, ht.props]
        | rw [f2.hough, ht.hough]
        | rw [f2.ransac, ht.ransac]
        | rw [f2.atlas, ht.atlas]
        | rw [f2.candTol, ht.candTol]
        | rw [f2.constrainPoly, ht.constrainPoly]
        | rw [f2.pairs, ht.pairs]
        | rw [f2.ht, ht.ht]
        | rw [f2.houghLines, ht.houghLines]
        | rw [f2.houghPoints, ht.houghPoints]
        | rw [f2.known, ht.known]
        | rw [f2.residual, ht.residual]
        | rw [f2.basis, ht.basis]
        | rw [f2.intPeaks, ht.intPeaks]
    · rw [← h2]
      refine matchPeaks_congr F M _ _ a (by rw [f2.peaks, ht.peaks, f1.peaks])
        (by rw [f2.atlasLines, ht.atlasLines, f1.atlasLines]) (by rw [f2.props, ht.props, f1.props])
        (by rw [f2.basis, ht.basis, f1.basis]) ?_
      rw [hin t h, hin s h1]
  suffices ∀ (n : Nat) (t : Session K), SameSetup s t → (t.matchPeaks F M a).2 = .ok (.report r) →
      ((((fun t : Session K => (t.matchPeaks F M a).1)^[n]) t).matchPeaks F M a).2 = .ok (.report r) from
    this n s (.refl s) h1
  intro n
  induction n with
  | zero => exact fun t _ h => h
  | succ n ih =>
    intro t ht h
    rw [Function.iterate_succ_apply]
    obtain ⟨g1, g2⟩ := next t ht h
    exact ih _ g1 g2

end

/-! ### Concrete cases for C144 -/

namespace Toy

/-- A session with a solution given to a fit that found no atlas, then an atlas of three lines. -/
def resumed : PyRes (Session ℚ) :=
  match Cal.new (fun _ => .ok ()) [10, 20, 30] true none with
  | .error e => .error e
  | .ok c => .ok (Session.calls calEnv env mkern (Session.new ⟨[atlasOf [5900, 8700, 11510]], c⟩ false)
      [.fit { args with fitCoeff := some [3080, 280] } true rnd, .set (.setAtlas 0 10 false)])

/-- What matching returns in the end. -/
def settled : MatchReport ℚ :=
  ⟨[9280 / 3, 561 / 2], [10, 20, 30], [5900, 8700, 11510], 7 / 3, [5 / 3, -10 / 3, 5 / 3], 1, 1⟩

/-- Arguments without coefficients. -/
def repeated : MatchArgs ℚ := { tol := 25, minFrac := 1 / 2 }

end Toy

/-- C144 is false: `match_peaks` stores the solution it finds, and the same call then finds a peak more. -/
theorem C144_refuted : ¬ C144_Statement := by
  intro h
  have hc : (Toy.resumed).toOption.map (fun s =>
      ((Toy.matchReport (s.matchPeaks Toy.env Toy.mkern Toy.repeated)).map (fun r => r.peaks),
       (Toy.matchReport ((s.matchPeaks Toy.env Toy.mkern Toy.repeated).1.matchPeaks Toy.env Toy.mkern Toy.repeated)).map
        (fun r => r.peaks))) = some (some [10, 20], some [10, 20, 30]) := by decide +kernel
  cases hs : Toy.resumed with
  | error e => rw [hs] at hc; simp [Except.toOption] at hc
  | ok s =>
    rw [hs] at hc
    simp only [Except.toOption, Option.map_some, Option.some.injEq, Prod.mk.injEq] at hc
    obtain ⟨h1, h2⟩ := hc
    cases hr : Toy.matchReport (s.matchPeaks Toy.env Toy.mkern Toy.repeated) with
    | none => rw [hr] at h1; cases h1
    | some r =>
      have e := Toy.matchReport_some hr
      have := h Toy.env Toy.mkern s Toy.repeated r (by rw [e])
      unfold Toy.matchReport at h2
      rw [this] at h2
      rw [hr] at h1
      simp only [Option.map_some, Option.some.injEq] at h1 h2
      rw [h1] at h2
      exact absurd h2 (by decide +kernel)

/-- A case for `C144_given`: a session with other matches and another solution. -/
example := C144_given Toy.env Toy.mkern Toy.pair (Toy.pair.matchPeaks Toy.env Toy.mkern Toy.matchArgs).1 Toy.matchArgs
  (by decide +kernel) (C96_failed_match_partial Toy.env Toy.mkern Toy.pair Toy.matchArgs).1.atlasLines
  (by decide +kernel) (by decide +kernel) (by simp [Toy.matchArgs])

/-- A case for `C144_repeat_partial`. -/
example : ((((fun t : Session ℚ => (t.matchPeaks Toy.env Toy.mkern Toy.matchArgs).1)^[5]) Toy.pair).matchPeaks
    Toy.env Toy.mkern Toy.matchArgs).2 = .ok (.report Toy.matchFound) := by
  rw [C144_repeat_partial Toy.env Toy.mkern Toy.pair Toy.matchArgs (by simp [Toy.matchArgs]) 5, Toy.pair_match]

/-- A case for `C144_settles_partial`: after the first call, the second and the third find the same. -/
example := C144_settles_partial Toy.env Toy.mkern
  ((Toy.resumed.toOption.get (by decide +kernel)).matchPeaks Toy.env Toy.mkern Toy.repeated).1 Toy.repeated
  Toy.settled rfl (by
    intro xs ys d h
    simp only [Toy.mkern] at h
    split at h
    · split at h
      · cases h
      · split at h <;> cases h
    · cases h)
  (by rw [Toy.matchReport_some (x := Session.matchPeaks ..) (r := Toy.settled) (by decide +kernel)])
  (by rw [Toy.matchReport_some (x := Session.matchPeaks ..) (r := Toy.settled) (by decide +kernel)])

/-! ### C145 -/

section
variable {K : Type _} [Field K] [LinearOrder K] [IsStrictOrderedRing K]

theorem refitStart_given (s s' : Session K) (a : RefitArgs K) (hd : a.degree ≠ none ∨ a.x0 ≠ none) :
    s'.refitStart a = s.refitStart a := by
  unfold Session.refitStart
  cases h1 : a.x0 with
  | none =>
    cases h2 : a.degree with
    | none => rcases hd with h | h <;> contradiction
    | some d => rfl
  | some x => cases h2 : a.degree <;> rfl

/-- The result of `manual_refit` with a given degree or starting point only depends on the pairs and the
basis, not on earlier solutions. -/
theorem C145_given (F : FitEnv K) (M : MatchKernels K) (s s' : Session K) (a : RefitArgs K)
    (hd : a.degree ≠ none ∨ a.x0 ≠ none) (hp : s'.world.cal.matchedPeaks = s.world.cal.matchedPeaks)
    (hl : s'.world.cal.matchedAtlas = s.world.cal.matchedAtlas) (hk : s'.atlasKind = s.atlasKind)
    (hb : s'.basis = s.basis) : (s'.manualRefit F M a).2 = (s.manualRefit F M a).2 := by
  have l1 : (s'.refitLists a).1.2 = (s.refitLists a).1.2 := by
    unfold Session.refitLists; rw [hp]; cases a.peaks <;> rfl
  have l2 : (s'.refitLists a).2 = (s.refitLists a).2 := by
    unfold Session.refitLists; rw [hl, hk]
  have hf : ∀ (d : Nat) (co : Option (List K)) (xs ys : List K),
      (Session.finishRefit F (s'.storeRefit a d co) co xs ys).2 =
        (Session.finishRefit F (s.storeRefit a d co) co xs ys).2 := by
    intro d co xs ys
    unfold Session.finishRefit
    rw [show (s'.storeRefit a d co).basis = s'.basis from rfl, show (s.storeRefit a d co).basis = s.basis from rfl, hb]
    cases s.basis <;> rfl
  unfold Session.manualRefit
  rw [refitStart_given s s' a hd]
  cases s.refitStart a with
  | error e => rfl
  | ok p =>
    obtain ⟨x0, deg⟩ := p
    dsimp only
    rw [l1, l2]
    split
    · rfl
    · split
      · cases x0 with
        | none =>
          dsimp only
          cases M.robust (s.refitLists a).1.2 (s.refitLists a).2.2 deg.toNat none with
          | error e => rfl
          | ok co => exact hf ..
        | some o =>
          cases o with
          | none => rfl
          | some p =>
            dsimp only
            cases M.robust (s.refitLists a).1.2 (s.refitLists a).2.2 deg.toNat (some p) with
            | error e => rfl
            | ok co => exact hf ..
      · rfl

theorem finishRefit_some (F : FitEnv K) (s : Session K) (b : FitType) (hb : s.basis = some b)
    (co : Option (List K)) (xs ys : List K) :
    Session.finishRefit F s co xs ys = ({ s with
        residuals := co.map (fun c => List.zipWith (fun x y => y - (F.kern b).polyval c x) xs ys),
        world := { s.world with cal := { s.world.cal with
          rms := some (rmsOf (F.kern b) ((co.map (fun c => List.zipWith (fun x y => y - (F.kern b).polyval c x) xs ys)).getD
            (xs.map (fun _ => 0)))) } } },
      .ok ⟨co, xs, ys, rmsOf (F.kern b) ((co.map (fun c => List.zipWith (fun x y => y - (F.kern b).polyval c x) xs ys)).getD
            (xs.map (fun _ => 0))), co.map (fun c => List.zipWith (fun x y => y - (F.kern b).polyval c x) xs ys)⟩) := by
  unfold Session.finishRefit
  split
  · rename_i h
    rw [hb] at h
    cases h
  · rename_i b' h
    rw [hb] at h
    cases h
    rfl

/-- Storing a refit twice is storing it once. -/
theorem storeRefit_twice (F : FitEnv K) (s : Session K) (a : RefitArgs K) (d : Nat) (co : Option (List K))
    (xs ys : List K) :
    ((Session.finishRefit F (s.storeRefit a d co) co xs ys).1).refitLists a = s.refitLists a ∧
    Session.finishRefit F (((Session.finishRefit F (s.storeRefit a d co) co xs ys).1).storeRefit a d co) co xs ys =
      Session.finishRefit F (s.storeRefit a d co) co xs ys := by
  have hk : ∀ (t : Session K), t.peaksArr = (s.refitLists a).1.1 → t.atlasKind = (s.refitLists a).2.1 →
      t.world.cal.matchedPeaks = (s.refitLists a).1.2 → t.world.cal.matchedAtlas = (s.refitLists a).2.2 →
      t.refitLists a = s.refitLists a := by
    intro t h1 h2 h3 h4
    unfold Session.refitLists at h1 h2 h3 h4 ⊢
    cases hp : a.peaks with
    | none =>
      cases hq : a.atlas with
      | none => simp only [hp, hq] at h1 h2 h3 h4 ⊢; rw [h1, h2, h3, h4]
      | some q => simp only [hp, hq] at h1 h2 h3 h4 ⊢; rw [h1, h3]
    | some p =>
      cases hq : a.atlas with
      | none => simp only [hp, hq] at h1 h2 h3 h4 ⊢; rw [h2, h4]
      | some q => rfl
  have key : ((Session.finishRefit F (s.storeRefit a d co) co xs ys).1).refitLists a = s.refitLists a := by
    apply hk <;> unfold Session.finishRefit <;> cases (s.storeRefit a d co).basis <;> rfl
  refine ⟨key, ?_⟩
  generalize hu : (Session.finishRefit F (s.storeRefit a d co) co xs ys).1 = u at key
  have hm : (if a.peaks.isSome then a.intPeaks else u.matchedInt) =
      (if a.peaks.isSome then a.intPeaks else s.matchedInt) := by
    rw [← hu]
    unfold Session.finishRefit
    cases (s.storeRefit a d co).basis <;>
      (simp only [Session.storeRefit]; split <;> rfl)
  cases hb : s.basis with
  | none =>
    have e : u = s.storeRefit a d co := by
      rw [← hu]; unfold Session.finishRefit
      rw [show (s.storeRefit a d co).basis = s.basis from rfl, hb]
    have : u.storeRefit a d co = s.storeRefit a d co := by
      conv_lhs => unfold Session.storeRefit
      rw [key, hm, e]
      rfl
    rw [this]
  | some b =>
    have e : u = { s.storeRefit a d co with
        residuals := co.map (fun c => List.zipWith (fun x y => y - (F.kern b).polyval c x) xs ys),
        world := { (s.storeRefit a d co).world with cal := { (s.storeRefit a d co).world.cal with
          rms := some (rmsOf (F.kern b) ((co.map (fun c => List.zipWith (fun x y => y - (F.kern b).polyval c x) xs ys)).getD
            (xs.map (fun _ => 0)))) } } } := by
      rw [← hu, finishRefit_some F (s.storeRefit a d co) b hb]
    have h2 : u.storeRefit a d co = { s.storeRefit a d co with
        residuals := u.residuals,
        world := { (s.storeRefit a d co).world with cal := { (s.storeRefit a d co).world.cal with
          rms := u.world.cal.rms } } } := by
      conv_lhs => unfold Session.storeRefit
      rw [key, hm, e]
      rfl
    rw [h2, finishRefit_some F (s.storeRefit a d co) b hb, finishRefit_some F _ b (by exact hb)]

/-- C145: a call of `manual_refit` with a given degree or starting point can be repeated: the second call
returns the same and leaves the calibrator as the first one left it. -/
theorem C145_repeat (F : FitEnv K) (M : MatchKernels K) (s : Session K) (a : RefitArgs K)
    (hd : a.degree ≠ none ∨ a.x0 ≠ none) :
    (s.manualRefit F M a).1.manualRefit F M a = s.manualRefit F M a := by
  have hrun : ∀ (t : Session K) (deg : Nat) (co : Option (List K)),
      t.refitLists a = s.refitLists a → t.refitStart a = s.refitStart a → t.manualRefit F M a =
      (match s.refitStart a with
        | .error e => (t, .error e)
        | .ok (x0, deg) =>
          if (s.refitLists a).2.1 = .absent then (t, .error .typeError)
          else if (s.refitLists a).1.2.length = (s.refitLists a).2.2.length ∧ 0 < (s.refitLists a).1.2.length ∧ 0 < deg ∧
              deg ≤ ((s.refitLists a).1.2.length : Int) - 1 then
            match x0 with
            | some none => (t, .error .valueError)
            | none =>
              match M.robust (s.refitLists a).1.2 (s.refitLists a).2.2 deg.toNat none with
              | .error e => (t, .error e)
              | .ok co => Session.finishRefit F (t.storeRefit a deg.toNat co) co (s.refitLists a).1.2 (s.refitLists a).2.2
            | some (some p) =>
              match M.robust (s.refitLists a).1.2 (s.refitLists a).2.2 deg.toNat (some p) with
              | .error e => (t, .error e)
              | .ok co => Session.finishRefit F (t.storeRefit a deg.toNat co) co (s.refitLists a).1.2 (s.refitLists a).2.2
          else (t, .error .assertionError)) := by
    intro t deg co h1 h2
    unfold Session.manualRefit
    rw [h2, h1]
    rfl
  have hlist : (s.manualRefit F M a).1.refitLists a = s.refitLists a := by
    have hc := manualRefit_cases F M s a
    generalize (s.manualRefit F M a).1 = s' at hc ⊢
    generalize (s.manualRefit F M a).2 = o at hc
    cases hc with
    | early e => rfl
    | stored x0 deg co hst habs hlen h3 h4 hco => exact (storeRefit_twice F s a deg co _ _).1
  rw [hrun (s.manualRefit F M a).1 0 none hlist (refitStart_given s _ a hd)]
  conv_rhs => rw [hrun s 0 none rfl rfl]
  rw [hrun s 0 none rfl rfl]
  cases s.refitStart a with
  | error e => rfl
  | ok p =>
    obtain ⟨x0, deg⟩ := p
    dsimp only
    split
    · rfl
    · split
      · cases x0 with
        | none =>
          dsimp only
          cases M.robust (s.refitLists a).1.2 (s.refitLists a).2.2 deg.toNat none with
          | error e => rfl
          | ok co => exact (storeRefit_twice F s a deg.toNat co _ _).2
        | some o =>
          cases o with
          | none => rfl
          | some p =>
            dsimp only
            cases M.robust (s.refitLists a).1.2 (s.refitLists a).2.2 deg.toNat (some p) with
            | error e => rfl
            | ok co => exact (storeRefit_twice F s a deg.toNat co _ _).2
      · rfl

/-- C145: `manual_refit` of the degree of a robust `match_peaks` that just returned gives back the solution,
the pairs, the residuals and the rms of `match_peaks`. -/
theorem C145_after_match (F : FitEnv K) (M : MatchKernels K) (s : Session K) (a : MatchArgs K) (r : MatchReport K)
    (d : Nat) (hr : a.robust = true) (hd : a.deg = some d) (h : (s.matchPeaks F M a).2 = .ok (.report r))
    (hn : M.robust r.peaks r.atlas d none ≠ .ok none) (hd0 : 0 < d) (hd1 : d < r.peaks.length) :
    ((s.matchPeaks F M a).1.manualRefit F M { degree := some (true, (d : Int)) }).2 =
      .ok ⟨some r.coeffs, r.peaks, r.atlas, r.rms, some r.residuals⟩ := by
  obtain ⟨b, co, lines, fitted, res, new, m⟩ := matchPeaks_report F M s a (s.matchPeaks F M a).1 r
    (Prod.ext rfl h)
  have hend := m.ending
  have hb := m.basis
  have hlen := m.length
  have hsame := (C96_failed_match_partial F M s a).1
  rw [hd, Option.getD_some, hr] at hend
  generalize (s.matchPeaks F M a).1 = s' at hend hsame ⊢
  generalize hq : (Except.ok (MatchOut.report r) : PyRes (MatchOut K)) = q at hend
  cases hend with
  | failed e h1 h2 => cases hq
  | nan s' h1 h2 h3 => exact absurd h2 hn
  | refined co s' h1 h2 h3 => cases h1
  | unbound h1 h2 => cases h1
  | robust co2 s' h1 h2 h3 =>
    subst h3
    have e := hq
    simp only [Except.ok.injEq, MatchOut.report.injEq] at e
    have c1 : r.coeffs = co2 := by rw [e]
    have c2 : r.rms = rmsOf (F.kern b) (List.zipWith (fun x y => y - (F.kern b).polyval co2 x) r.peaks r.atlas) := by
      conv_lhs => rw [e]
    have c3 : r.residuals = List.zipWith (fun x y => y - (F.kern b).polyval co2 x) r.peaks r.atlas := by
      conv_lhs => rw [e]
    rw [c1, c2, c3]
    unfold Session.manualRefit Session.refitStart Session.refitLists
    dsimp only [Session.withMatches, Session.clearMatches]
    rw [if_pos rfl]
    dsimp only
    rw [if_neg (by decide), if_pos (by omega), Int.toNat_natCast, h2]
    dsimp only
    unfold Session.finishRefit Session.storeRefit
    dsimp only
    rw [hb]
    rfl

end

/-- A case for `C145_given`. -/
example := C145_given Toy.env Toy.mkern Toy.pair
  { Toy.pair with world := { Toy.pair.world with cal := { Toy.pair.world.cal with fitCoeff := some [1, 2] } } }
  Toy.refit (.inl (by simp [Toy.refit])) rfl rfl rfl rfl

/-- A case for `C145_repeat`. -/
example := C145_repeat Toy.env Toy.mkern Toy.pair Toy.refit (.inl (by simp [Toy.refit]))

/-- A case for `C145_after_match`. -/
example := C145_after_match Toy.env Toy.mkern Toy.pair { Toy.matchArgs with deg := some 1 } Toy.matchFound 1 rfl rfl
  (by rw [Toy.matchReport_some (x := Session.matchPeaks ..) (r := Toy.matchFound) (by decide +kernel)])
  (by
    intro h
    have := congrArg (fun r => r.toOption.map Option.isSome) h
    revert this
    decide +kernel)
  (by decide) (by decide)

/-! ### C146 and C147 -/

set_option synthInstance.maxSize 2000
set_option synthInstance.maxHeartbeats 400000

section
variable {K : Type _} [Field K] [LinearOrder K] [IsStrictOrderedRing K]

/-- C146: an added pair can be removed again.  There is a position at which `get_pix_wave_pairs` lists it,
and removing that position brings back the pairs as they were before. -/
theorem C146_undo [FloorRing K] (s : Session K) (hk : s.atlasKind ≠ .absent)
    (hl : s.world.cal.matchedPeaks.length = s.world.cal.matchedAtlas.length) (n : Bool) (pix wave : K)
    (hok : (s.addPair n pix wave).2 = .ok ()) :
    ∃ (i : Nat) (v : K), (s.addPair n pix wave).1.pairs[i]? = some (v, wave) ∧
      ((s.addPair n pix wave).1.removePair i).2 = .ok () ∧
      ((s.addPair n pix wave).1.removePair i).1.pairs = s.pairs ∧
      OnlyPairsChange s ((s.addPair n pix wave).1.removePair i).1 := by
  obtain ⟨_, _, h3⟩ := C75_add s hk hl n pix wave
  obtain ⟨o1, len, l₁, e, l₂, g1, _, _, g4⟩ := h3 hok
  generalize (s.addPair n pix wave).1 = t at o1 len g4 ⊢
  obtain ⟨p, w, ht⟩ := o1
  obtain rfl : t = s.setPairs p w := ht
  obtain ⟨r1, _, r3⟩ := C75_remove (s.setPairs p w) (by simp [Session.setPairs]) len
    (l₁.length : Int)
  have hr := r1.2 (by rw [g4]; simp only [List.length_append, List.length_cons]; omega)
  obtain ⟨o2, _, m₁, f, m₂, k1, k2, k3⟩ := r3 hr
  refine ⟨l₁.length, s.storedPix pix, ?_, hr, ?_, ?_⟩
  · rw [g4, List.getElem?_append_right (le_refl _), Nat.sub_self]
    rfl
  · rw [k2, g1]
    rw [g4] at k1 k3
    have hm : l₁.length = m₁.length := by
      simp only [List.length_append, List.length_cons] at k3
      rcases k3 with k3 | k3
      · exact_mod_cast k3
      · have := congrArg List.length k1
        simp only [List.length_append, List.length_cons] at this
        omega
    obtain ⟨q1, q2⟩ := List.append_inj k1 hm
    rw [← q1, (List.cons.inj q2).2]
  · obtain ⟨p2, w2, hq⟩ := o2
    exact ⟨p2, w2, hq⟩

/-- The claim: a removed pair can be put back, which restores the list. -/
def C147_Statement : Prop :=
  ∀ (s : Session ℚ) (i : Nat) (pix wave : ℚ), s.atlasKind ≠ .absent → s.peaksArr = true → s.matchedInt = false →
    s.world.cal.matchedPeaks.length = s.world.cal.matchedAtlas.length →
    s.pairs[i]? = some (pix, wave) →
      ((s.removePair i).1.addPair false pix wave).1.pairs = s.pairs

/-- C147, what holds: if the pixels are listed in strictly descending order, a pair that was removed, other
than the last one, is put back where it was.  What is missing: lists in ascending order, in
which `match_peaks` leaves them, and the last pair, for which the call raises. -/
theorem C147_put_back_partial [FloorRing K] (s : Session K) (hk : s.atlasKind ≠ .absent)
    (hl : s.world.cal.matchedPeaks.length = s.world.cal.matchedAtlas.length) (hint : s.matchedInt = false)
    (hd : (s.pairs.map Prod.fst).Pairwise (fun a b => b < a)) (i : Nat) (pix wave : K)
    (hi : s.pairs[i]? = some (pix, wave)) (hlast : i + 1 < s.pairs.length) :
    (s.removePair i).2 = .ok () ∧ ((s.removePair i).1.addPair false pix wave).2 = .ok () ∧
      ((s.removePair i).1.addPair false pix wave).1.pairs = s.pairs := by
  obtain ⟨r1, _, r3⟩ := C75_remove s hk hl (i : Int)
  have hr := r1.2 (by omega)
  obtain ⟨o1, len, m₁, f, m₂, k1, k2, k3⟩ := r3 hr
  have him : i = m₁.length := by
    have := congrArg List.length k1
    simp only [List.length_append, List.length_cons] at this
    omega
  have hf : f = (pix, wave) := by
    rw [k1, him, List.getElem?_append_right (le_refl _), Nat.sub_self] at hi
    exact Option.some.inj hi
  subst hf
  refine ⟨hr, ?_⟩
  generalize (s.removePair i).1 = t at o1 len k2 ⊢
  obtain ⟨p, w, ht⟩ := o1
  obtain rfl : t = s.setPairs p w := ht
  obtain ⟨a1, _, a3⟩ := C75_add (s.setPairs p w) (by simp [Session.setPairs]) len
    false pix wave
  rw [k1, List.map_append, List.map_cons, List.pairwise_append, List.pairwise_cons] at hd
  obtain ⟨d0, ⟨d2, _⟩, d3⟩ := hd
  have d1 : ∀ x ∈ m₁, pix < x.1 := fun x hx => d3 x.1 (List.mem_map_of_mem hx) pix (by simp)
  have d2' : ∀ x ∈ m₂, x.1 < pix := fun x hx => d2 x.1 (List.mem_map_of_mem hx)
  have hm2 : m₂ ≠ [] := by
    rintro rfl
    rw [k1] at hlast
    simp only [List.length_append, List.length_cons, List.length_nil] at hlast
    omega
  obtain ⟨x, hx⟩ := List.exists_mem_of_ne_nil _ hm2
  have hok := a1.2 ⟨.inl rfl, x.1, by
    have : x ∈ p.zip w := by
      have : x ∈ m₁ ++ m₂ := List.mem_append_right _ hx
      rw [← k2] at this
      exact this
    exact (List.of_mem_zip (a := x.1) (b := x.2) this).1, d2' x hx⟩
  refine ⟨hok, ?_⟩
  obtain ⟨_, _, l₁, e, l₂, g1, g2, g3, g4⟩ := a3 hok
  rw [g4, k1, show Session.storedPix _ pix = pix from by unfold Session.storedPix; rw [if_neg (by simp [Session.setPairs, hint])]]
  -- both lists split at the first smaller pixel
  rw [k2] at g1
  have hsplit : m₁ = l₁ ∧ m₂ = e :: l₂ := by
    clear g4 a1 a3 hok k1 k2 k3 hr r1 r3 len him hi d0 d2 d3
    induction m₁ generalizing l₁ with
    | nil =>
      cases l₁ with
      | nil => exact ⟨rfl, g1⟩
      | cons y l₁ =>
        exfalso
        rw [List.nil_append] at g1
        have h1 := d2' y (by rw [g1]; simp)
        have h2 := g2 y (by simp)
        exact absurd h1 (not_lt.2 h2)
    | cons z m₁ ih =>
      cases l₁ with
      | nil =>
        exfalso
        have : z = e := (List.cons.inj g1).1
        subst this
        exact absurd (d1 z (by simp)) (not_lt.2 g3.le)
      | cons y l₁ =>
        obtain ⟨q1, q2⟩ := ih (fun x hx => d1 x (List.mem_cons_of_mem _ hx)) l₁ (List.cons.inj g1).2
          (fun x hx => g2 x (List.mem_cons_of_mem _ hx))
        exact ⟨by rw [(List.cons.inj g1).1, q1], q2⟩
  rw [hsplit.1, hsplit.2]

end

/-- C147 is false: the second of two pairs in ascending order is put back in front of the first. -/
theorem C147_refuted : ¬ C147_Statement := by
  intro h
  have hc : (Toy.matched false).map (fun s => (s.atlasKind, s.peaksArr, s.matchedInt,
      s.world.cal.matchedPeaks, s.world.cal.matchedAtlas,
      ((s.removePair 1).1.addPair false 20 8700).1.pairs)) =
      some (.array, true, false, [10, 20], [5900, 8700], [(20, 8700), (10, 5900)]) := by decide +kernel
  cases hs : Toy.matched false with
  | none => rw [hs] at hc; simp at hc
  | some s =>
    rw [hs] at hc
    simp only [Option.map_some, Option.some.injEq, Prod.mk.injEq] at hc
    obtain ⟨h1, h2, h3, h4, h5, h6⟩ := hc
    have hp : s.pairs = [(10, 5900), (20, 8700)] := by unfold Session.pairs; rw [h4, h5]; rfl
    have := h s 1 20 8700 (by rw [h1]; decide) h2 h3 (by rw [h4, h5]; rfl) (by rw [hp]; rfl)
    rw [hp, show ((1 : Nat) : Int) = 1 from rfl, h6] at this
    revert this
    decide +kernel

-- A case for `C146_undo`: 15 is put in front of 10 and 20, and removing the first pair brings the list back.
example : (Toy.matched false).map (fun s => (decide (s.atlasKind ≠ .absent),
    decide (s.world.cal.matchedPeaks.length = s.world.cal.matchedAtlas.length), s.pairs,
    (s.addPair false 15 7300).2.toOption, (s.addPair false 15 7300).1.pairs,
    ((s.addPair false 15 7300).1.removePair 0).1.pairs)) =
    some (true, true, [(10, 5900), (20, 8700)], some (), [(15, 7300), (10, 5900), (20, 8700)],
      [(10, 5900), (20, 8700)]) := by
  decide +kernel

/-- A session whose pairs are listed from the highest pixel down. -/
def Toy.downwards : Option (Session ℚ) :=
  (Toy.matched false).map (fun s => ((s.addPair false 30 11510).1.removePair 2).1)

-- A case for `C147_put_back_partial`: the first of two descending pairs is removed and put back.
example : Toy.downwards.map (fun s => (decide (s.atlasKind ≠ .absent), s.matchedInt,
    decide ((s.pairs.map Prod.fst).Pairwise (fun a b => b < a)), s.pairs, (s.removePair 0).1.pairs,
    ((s.removePair 0).1.addPair false 30 11510).1.pairs)) =
    some (true, false, true, [(30, 11510), (10, 5900)], [(10, 5900)], [(30, 11510), (10, 5900)]) := by
  decide +kernel

end Rascal
