import Verif.Props.SharingProps

/-!
More of property C190: the lists of a calibrator whose `match_peaks` has raised an exception.
-/

set_option linter.unusedSectionVars false

namespace Rascal

open Spec

section
variable {K : Type _} [Field K] [LinearOrder K] [IsStrictOrderedRing K] [FloorRing K]

/-- A call that raises before it assigns anything leaves the calibrator. -/
theorem matchPeaks_early (F : FitEnv K) (M : MatchKernels K) (s : Session K) (a : MatchArgs K)
    (h : s.storesMatches F M a = false) : (s.matchPeaks F M a).1 = s := by
  unfold Session.storesMatches at h
  unfold Session.matchPeaks
  cases h1 : s.inputCoeff a with
  | error e => rfl
  | ok v =>
    obtain ⟨kind, co⟩ := v
    rw [h1] at h
    dsimp only at h ⊢
    cases h2 : s.refineStep F M a kind co with
    | error e => rfl
    | ok new =>
      rw [h2] at h
      have hsearch : new ≠ .nan → (s.matchSearch F M a kind co new).1 = s := by
        intro hn
        have h' : (match s.world.atlasLines with
            | .error _ => false
            | .ok lines =>
              if s.world.cal.peaks ≠ [] ∧ (s.basis = none ∨ co = []) then false
              else
                let m := if kind = .nan then []
                  else matchLoop ((F.kern (s.basis.getD .poly)).polyval co) lines a.tol s.world.cal.peaks
                match expandMatches (m.map Prod.snd) [] with
                | .error _ => false
                | .ok _ => true) = false := by
          cases new with
          | nan => exact absurd rfl hn
          | _ => exact h
        unfold Session.matchSearch
        cases h3 : s.world.atlasLines with
        | error e => rfl
        | ok lines =>
          rw [h3] at h'
          dsimp only at h' ⊢
          by_cases c1 : s.world.cal.peaks ≠ [] ∧ s.basis = none
          · rw [if_pos c1]
          by_cases c2 : s.world.cal.peaks ≠ [] ∧ co = []
          · rw [if_neg c1, if_pos c2]
          rw [if_neg c1, if_neg c2]
          rw [if_neg (by tauto)] at h'
          generalize (if kind = CoeffKind.nan then []
            else matchLoop ((F.kern (s.basis.getD .poly)).polyval co) lines a.tol s.world.cal.peaks) = m at h' ⊢
          cases hx : expandMatches (m.map Prod.snd) [] with
          | error e => rfl
          | ok ys => rw [hx] at h'; cases h'
      cases new with
      | nan => rfl
      | _ => exact hsearch (by simp)

/-- What the user does alone leaves lists of matches that the user does not have. -/
theorem user_matches (E : CalEnv K) (F : FitEnv K) (M : MatchKernels K) (s : Shared K) (hs : Sound s)
    (h : List (SharedOp K)) (hu : ∀ o ∈ h, UserOnly o) (hw : s.mPeaks ∉ s.reach ∧ s.mAtlas ∉ s.reach) :
    (s.ops E F M h).view.world.cal.matchedPeaks = s.view.world.cal.matchedPeaks ∧
    (s.ops E F M h).view.world.cal.matchedAtlas = s.view.world.cal.matchedAtlas := by
  induction h generalizing s with
  | nil => exact ⟨rfl, rfl⟩
  | cons o h ih =>
    have huo := hu o List.mem_cons_self
    have hcall : o.asCall s = none := by
      cases o with
      | make l => rfl
      | makeKnown l => rfl
      | write a l => rfl
      | writeKnown a l => rfl
      | call c => exact huo.elim
      | setPixels a n lib => exact huo.elim
      | setKnown p w pa wa => exact huo.elim
      | fitFrom co a arr rnd => exact huo.elim
    obtain ⟨g0, g1, g2, g3, g4, g5, g6, g7, g8, g9, g10, _⟩ := op_alone E F M s o hs hcall
    have b3 := hs.held _ (.inr (.inr (.inl rfl)))
    have b4 := hs.held _ (.inr (.inr (.inr (.inl rfl))))
    obtain ⟨n1, n2⟩ := ih (s.op E F M o) g0 (fun o ho => hu o (List.mem_cons_of_mem _ ho)) (by
      rw [g4, g5]
      constructor
      · intro hr
        rcases g10 _ hr with hr | hr
        · exact hw.1 hr
        · omega
      · intro hr
        rcases g10 _ hr with hr | hr
        · exact hw.2 hr
        · omega)
    have e3 : (s.op E F M o).obj s.mPeaks = s.obj s.mPeaks := g8 _ b3 (fun _ _ => hw.1)
    have e4 : (s.op E F M o).obj s.mAtlas = s.obj s.mAtlas := g8 _ b4 (fun _ _ => hw.2)
    constructor
    · refine n1.trans ?_
      change (s.op E F M o).obj (s.op E F M o).mPeaks = s.obj s.mPeaks
      rw [g4, e3]
    · refine n2.trans ?_
      change (s.op E F M o).obj (s.op E F M o).mAtlas = s.obj s.mAtlas
      rw [g5, e4]

/-- C190, after a failure: if `match_peaks` raises an exception after it has changed anything, the lists of matches are the
calibrator's own, even if they hold the same numbers as those returned before; whatever the user does with the latter, the
matches stay. -/
theorem C190_failed_match_partial (E : CalEnv K) (F : FitEnv K) (M : MatchKernels K) (s : Shared K) (hs : Sound s)
    (a : MatchArgs K) (e : PyErr) (he : (s.view.matchPeaks F M a).2 = .error e) (hch : (s.view.matchPeaks F M a).1 ≠ s.view)
    (h : List (SharedOp K)) (hu : ∀ o ∈ h, UserOnly o) :
    ((s.op E F M (.call (.matchPeaks a))).ops E F M h).view.world.cal.matchedPeaks =
      (s.view.matchPeaks F M a).1.world.cal.matchedPeaks ∧
    ((s.op E F M (.call (.matchPeaks a))).ops E F M h).view.world.cal.matchedAtlas =
      (s.view.matchPeaks F M a).1.world.cal.matchedAtlas := by
  obtain ⟨h1, hv, _⟩ := op_call E F M s (.call (.matchPeaks a)) (.matchPeaks a) hs rfl
  have hv' : (s.op E F M (.call (.matchPeaks a))).view = (s.view.matchPeaks F M a).1 := hv
  rw [← hv']
  refine user_matches E F M _ h1 h hu ?_
  have hst : s.view.storesMatches F M a = true := by
    by_contra hc
    exact hch (matchPeaks_early F M s.view a (by simpa using hc))
  have hren : ((SessionCall.matchPeaks a).renews E F M s.view).matched = true := by
    unfold SessionCall.renews
    dsimp only
    rw [show s.view.matchPeaks F M a = ((s.view.matchPeaks F M a).1, .error e) from Prod.ext rfl he]
    exact hst
  have hret : (SessionCall.matchPeaks a).returns F M s.view = false := by
    unfold SessionCall.returns
    dsimp only
    rw [he]
  have hrun : s.op E F M (.call (.matchPeaks a)) =
      s.absorb (s.view.call E F M (.matchPeaks a)) ((SessionCall.matchPeaks a).renews E F M s.view) :=
    if_neg (by rw [hret]; simp)
  obtain ⟨e1, e2⟩ := absorb_matched s (s.view.call E F M (.matchPeaks a)) ((SessionCall.matchPeaks a).renews E F M s.view) hren
  rw [hrun, e1, e2]
  constructor
  · intro hr
    have := hs.reach _ hr
    omega
  · intro hr
    have := hs.reach _ hr
    omega

/-- `manual_refit` raises after it has changed something only where `polyval` is missing. -/
theorem manualRefit_late (F : FitEnv K) (M : MatchKernels K) (s : Session K) (a : RefitArgs K) (e : PyErr)
    (he : (s.manualRefit F M a).2 = .error e) (hch : (s.manualRefit F M a).1 ≠ s) : e = .attributeError ∧ s.basis = none := by
  have hfin : ∀ d co xs ys, (Session.finishRefit F (s.storeRefit a d co) co xs ys).2 = .error e →
      e = .attributeError ∧ s.basis = none := by
    intro d co xs ys h
    unfold Session.finishRefit at h
    rw [show (s.storeRefit a d co).basis = s.basis from rfl] at h
    cases hb : s.basis with
    | none =>
      rw [hb] at h
      exact ⟨(Except.error.inj h).symm, rfl⟩
    | some b => rw [hb] at h; cases h
  unfold Session.manualRefit at he hch
  cases h1 : s.refitStart a with
  | error e' => rw [h1] at hch; exact absurd rfl hch
  | ok v =>
    obtain ⟨x0, deg⟩ := v
    rw [h1] at he hch
    dsimp only at he hch
    by_cases c1 : (s.refitLists a).2.1 = .absent
    · rw [if_pos c1] at hch; exact absurd rfl hch
    rw [if_neg c1] at he hch
    by_cases c2 : (s.refitLists a).1.2.length = (s.refitLists a).2.2.length ∧ 0 < (s.refitLists a).1.2.length ∧ 0 < deg ∧
        deg ≤ ((s.refitLists a).1.2.length : Int) - 1
    swap
    · rw [if_neg c2] at hch; exact absurd rfl hch
    rw [if_pos c2] at he hch
    match x0, he, hch with
    | some none, he, hch => exact absurd rfl hch
    | none, he, hch =>
      dsimp only at he hch
      cases hx : M.robust (s.refitLists a).1.2 (s.refitLists a).2.2 deg.toNat none with
      | error e' => rw [hx] at hch; exact absurd rfl hch
      | ok co => rw [hx] at he; exact hfin _ _ _ _ he
    | some (some p), he, hch =>
      dsimp only at he hch
      cases hx : M.robust (s.refitLists a).1.2 (s.refitLists a).2.2 deg.toNat (some p) with
      | error e' => rw [hx] at hch; exact absurd rfl hch
      | ok co => rw [hx] at he; exact hfin _ _ _ _ he

/-- C190, after a failure of `manual_refit`, which raises AttributeError before the first fit but has stored its lists by
then: they are copies, and nothing the user does with the lists given to it or returned before changes them. -/
theorem C190_failed_refit_partial (E : CalEnv K) (F : FitEnv K) (M : MatchKernels K) (s : Shared K) (hs : Sound s)
    (a : RefitArgs K) (e : PyErr) (he : (s.view.manualRefit F M a).2 = .error e)
    (hch : (s.view.manualRefit F M a).1 ≠ s.view) (h : List (SharedOp K)) (hu : ∀ o ∈ h, UserOnly o) :
    ((s.op E F M (.call (.manualRefit a))).ops E F M h).view.world.cal.matchedPeaks =
      (s.view.manualRefit F M a).1.world.cal.matchedPeaks ∧
    ((s.op E F M (.call (.manualRefit a))).ops E F M h).view.world.cal.matchedAtlas =
      (s.view.manualRefit F M a).1.world.cal.matchedAtlas := by
  obtain ⟨h1, hv, _⟩ := op_call E F M s (.call (.manualRefit a)) (.manualRefit a) hs rfl
  have hv' : (s.op E F M (.call (.manualRefit a))).view = (s.view.manualRefit F M a).1 := hv
  rw [← hv']
  refine user_matches E F M _ h1 h hu ?_
  have hren : ((SessionCall.manualRefit a).renews E F M s.view).matched = true := by
    unfold SessionCall.renews
    dsimp only
    rw [he]
    exact decide_eq_true (manualRefit_late F M s.view a e he hch)
  have hret : (SessionCall.manualRefit a).returns F M s.view = false := by
    unfold SessionCall.returns
    dsimp only
    rw [he]
  have hrun : s.op E F M (.call (.manualRefit a)) =
      s.absorb (s.view.call E F M (.manualRefit a)) ((SessionCall.manualRefit a).renews E F M s.view) :=
    if_neg (by rw [hret]; simp)
  obtain ⟨e1, e2⟩ := absorb_matched s (s.view.call E F M (.manualRefit a)) ((SessionCall.manualRefit a).renews E F M s.view) hren
  rw [hrun, e1, e2]
  constructor
  · intro hr
    have := hs.reach _ hr
    omega
  · intro hr
    have := hs.reach _ hr
    omega

end

/-- Case of `C190_failed_refit_partial`: a refit before any fit. -/
example : ∃ e, (Toy.shop.view.manualRefit Toy.env Toy.mkern
      { peaks := some (false, [10, 20]), atlas := some (false, [5900, 8700]), degree := some (true, 1) }).2 = .error e ∧
    (Toy.shop.view.manualRefit Toy.env Toy.mkern
      { peaks := some (false, [10, 20]), atlas := some (false, [5900, 8700]), degree := some (true, 1) }).1 ≠ Toy.shop.view ∧
    Toy.pairsOfShop (Toy.shop.ops Toy.calEnv Toy.env Toy.mkern [.call (.manualRefit
      { peaks := some (false, [10, 20]), atlas := some (false, [5900, 8700]), degree := some (true, 1) }),
      .write 0 [1], .write 7 [99, 20]]) = some [(0, 10, 5900), (1, 20, 8700)] := by
  have hc : (match (Toy.shop.view.manualRefit Toy.env Toy.mkern
      { peaks := some (false, [10, 20]), atlas := some (false, [5900, 8700]), degree := some (true, 1) }).2 with
      | .error .attributeError => true
      | _ => false) = true := by decide +kernel
  split at hc
  · rename_i hr
    refine ⟨_, hr, ?_, by decide +kernel⟩
    intro h
    have h1 := congrArg (fun s : Session ℚ => s.world.cal.matchedPeaks) h
    exact absurd h1 (by decide +kernel)
  · cases hc

/-- Case of `C190_failed_match_partial`: without the robust refit `match_peaks` raises UnboundLocalError at its end, with the
same pairs as the fit; the list 7, returned by the fit, is not the calibrator's any more. -/
example : ∃ e, ((Toy.shop.ops Toy.calEnv Toy.env Toy.mkern [Toy.shopFit]).view.matchPeaks Toy.env Toy.mkern
      { Toy.matchArgs with robust := false }).2 = .error e ∧
    ((Toy.shop.ops Toy.calEnv Toy.env Toy.mkern [Toy.shopFit]).view.matchPeaks Toy.env Toy.mkern
      { Toy.matchArgs with robust := false }).1 ≠ (Toy.shop.ops Toy.calEnv Toy.env Toy.mkern [Toy.shopFit]).view ∧
    Toy.pairsOfShop (Toy.shop.ops Toy.calEnv Toy.env Toy.mkern [Toy.shopFit,
      .call (.matchPeaks { Toy.matchArgs with robust := false })]) = some [(0, 10, 5900), (1, 20, 8700)] ∧
    Toy.pairsOfShop (Toy.shop.ops Toy.calEnv Toy.env Toy.mkern [Toy.shopFit,
      .call (.matchPeaks { Toy.matchArgs with robust := false }), .write 7 [99, 20]]) =
        some [(0, 10, 5900), (1, 20, 8700)] := by
  have hc : (match ((Toy.shop.ops Toy.calEnv Toy.env Toy.mkern [Toy.shopFit]).view.matchPeaks Toy.env Toy.mkern
      { Toy.matchArgs with robust := false }).2 with
      | .error .unboundLocal => true
      | _ => false) = true := by decide +kernel
  split at hc
  · rename_i hr
    refine ⟨_, hr, ?_, by decide +kernel, by decide +kernel⟩
    intro h
    have h1 := congrArg (fun s : Session ℚ => s.peaksArr) h
    exact absurd h1 (by decide +kernel)
  · cases hc

end Rascal
