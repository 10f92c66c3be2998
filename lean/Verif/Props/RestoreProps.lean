import Verif.Props.RecoverProps
import Verif.Props.MatchRepeatProps

/-!
Property theorems C178 and C179: data without noise after the fit.  C178: `match_peaks` turns an approximate solution
into the true one.  C179: editing true pairs keeps the true solution.
-/

set_option linter.unusedSectionVars false

namespace Rascal

open Spec

section
variable {K : Type _} [Field K] [LinearOrder K] [IsStrictOrderedRing K]

/-- The robust fit finds the polynomial `t` again from data on it. -/
def Spec.RefitsExact (k : Kernels K) (M : MatchKernels K) (t : List K) (deg : Nat) : Prop :=
  ∀ (xs : List K) (x0 : Option (List K)), deg < xs.dedup.length →
    M.robust xs (xs.map (k.polyval t)) deg x0 = .ok (some t)

/-! ### C178 -/

theorem rmsOf_zero (k : Kernels K) (h : k.sqrt 0 = 0) (r : List K) (hr : ∀ e ∈ r, e = 0) : rmsOf k r = 0 := by
  have : (r.map (fun v => v ^ 2)).sum = 0 := by
    apply List.sum_eq_zero
    intro v hv
    obtain ⟨e, he, rfl⟩ := List.mem_map.1 hv
    rw [hr e he]
    simp
  unfold rmsOf
  rw [this, zero_div, h]

theorem zipWith_exact (f : K → K) (g : K → K) (hg : g 0 = 0) (xs : List K) :
    ∀ e ∈ List.zipWith (fun x y => g (y - f x)) xs (xs.map f), e = 0 := by
  intro e he
  rw [List.zipWith_map_right] at he
  simp only [sub_self, List.zipWith_self, List.mem_map] at he
  obtain ⟨_, _, rfl⟩ := he
  exact hg

theorem onlyNear_linesNear (lines : List K) (tol x a : K) (h : OnlyNear lines tol x a) :
    linesNear lines tol x = [a] := by
  obtain ⟨l₁, l₂, rfl, h1, h2⟩ := h
  have e1 : l₁.filter (fun a => decide (|a - x| < tol)) = [] := by
    rw [List.filter_eq_nil_iff]
    intro b hb
    simpa using h2 b (by simp [hb])
  have e2 : l₂.filter (fun a => decide (|a - x| < tol)) = [] := by
    rw [List.filter_eq_nil_iff]
    intro b hb
    simpa using h2 b (by simp [hb])
  unfold linesNear
  rw [List.filter_append, List.filter_cons, e1, e2, if_pos (by simpa using h1)]
  rfl

/-- C178: let `t` be the true calibration.  If of every peak with a line within the tolerance of its predicted
wavelength only the true line is that close, and more than `fit_deg` such peaks are distinct, then `match_peaks` returns
and stores the true calibration, with exactly these peaks and their true lines, residuals 0 and rms 0, however wrong the
coefficients it started from. -/
theorem C178_restored (F : FitEnv K) (M : MatchKernels K) (s : Session K) (a : MatchArgs K) (b : FitType)
    (co lines t : List K) (hb : s.basis = some b) (hco : StartsFrom s a co) (hne : co ≠ [])
    (hnan : a.coeff = none → s.coeffKind ≠ .nan) (hr : a.refine = false) (hrob : a.robust = true)
    (hl : s.world.atlasLines = .ok lines) (hE : FindsExact (F.kern b) t (a.deg.getD (co.length - 1)))
    (hM : RefitsExact (F.kern b) M t (a.deg.getD (co.length - 1)))
    (honly : ∀ p ∈ s.world.cal.peaks, Near lines a.tol ((F.kern b).polyval co p) →
      OnlyNear lines a.tol ((F.kern b).polyval co p) ((F.kern b).polyval t p))
    (henough : a.deg.getD (co.length - 1) <
      (s.world.cal.peaks.filter (fun p => decide (Near lines a.tol ((F.kern b).polyval co p)))).dedup.length) :
    ∃ s' r, s.matchPeaks F M a = (s', .ok (.report r)) ∧ r.coeffs = t ∧ s'.world.cal.fitCoeff = some t ∧
      r.peaks = s.world.cal.peaks.filter (fun p => decide (Near lines a.tol ((F.kern b).polyval co p))) ∧
      r.atlas = r.peaks.map ((F.kern b).polyval t) ∧ r.rms = 0 ∧ ∀ e ∈ r.residuals, e = 0 := by
  generalize hd : a.deg.getD (co.length - 1) = d at hE hM henough
  generalize hxs : s.world.cal.peaks.filter (fun p => decide (Near lines a.tol ((F.kern b).polyval co p))) = xs at henough
  have hin : ∃ kind, s.inputCoeff a = .ok (kind, co) ∧ kind ≠ .nan := by
    unfold Session.inputCoeff
    rcases hco with ⟨arr, h⟩ | ⟨h1, h2⟩
    · rw [h]
      refine ⟨_, rfl, ?_⟩
      cases arr <;> simp
    · rw [h1, h2]
      exact ⟨_, rfl, hnan h1⟩
  obtain ⟨kind, hin, hkind⟩ := hin
  have hfst : (matchLoop ((F.kern b).polyval co) lines a.tol s.world.cal.peaks).map Prod.fst = xs := by
    rw [matchLoop_fst, hxs]
  have hsnd : List.Forall₂ (fun m v => m = [v])
      ((matchLoop ((F.kern b).polyval co) lines a.tol s.world.cal.peaks).map Prod.snd)
      (xs.map ((F.kern b).polyval t)) := by
    rw [← hfst, List.map_map, List.forall₂_map_left_iff, List.forall₂_map_right_iff, List.forall₂_same]
    intro e he
    obtain ⟨h1, h2⟩ := matchLoop_snd _ _ _ _ e he
    have hmem : e.1 ∈ s.world.cal.peaks ∧ Near lines a.tol ((F.kern b).polyval co e.1) := by
      have := List.mem_map_of_mem (f := Prod.fst) he
      rw [matchLoop_fst] at this
      simpa using this
    rw [h1]
    exact onlyNear_linesNear _ _ _ _ (honly e.1 hmem.1 hmem.2)
  have hx : expandMatches ((matchLoop ((F.kern b).polyval co) lines a.tol s.world.cal.peaks).map Prod.snd) [] =
      .ok (xs.map ((F.kern b).polyval t)) := by
    rw [expandMatches_singles _ [] _ hsnd]
    rfl
  have hpoly : polyfitChecked (F.kern b) xs (xs.map ((F.kern b).polyval t)) d = .ok t := by
    unfold polyfitChecked
    rw [if_neg, List.map_map]
    · exact hE.polyfit xs henough
    · rintro (h | h)
      · rw [h] at henough
        simp at henough
      · simp at h
  have habs := zipWith_exact ((F.kern b).polyval t) (fun v => |v|) abs_zero xs
  have hres := zipWith_exact ((F.kern b).polyval t) (fun v => v) rfl xs
  have hsum : (List.zipWith (fun x y => |y - (F.kern b).polyval t x|) xs (xs.map ((F.kern b).polyval t))).sum <
      10 ^ 9 := by
    rw [List.sum_eq_zero habs]
    positivity
  have hE' : s.matchPeaks F M a = s.matchFit F M lines.length true d .skipped xs (xs.map ((F.kern b).polyval t)) := by
    simp only [Session.matchPeaks, hin, Session.refineStep, hr, Bool.not_false, if_true, Session.matchSearch, hl, hb,
      hne, and_false, if_false, hkind, Option.getD_some, reduceCtorEq, hx, hfst, hrob, hd]
  rw [hE']
  unfold Session.matchFit
  dsimp only
  rw [hb]
  dsimp only
  rw [hpoly]
  dsimp only
  rw [if_pos hsum]
  unfold Session.matchRefit
  rw [if_pos rfl, hM xs none henough]
  refine ⟨_, _, rfl, rfl, rfl, rfl, rfl, ?_, hres⟩
  exact rmsOf_zero _ hE.sqrt _ hres

/-- Lines at least twice the tolerance apart: only one of them is near. -/
theorem onlyNear_separated (lines : List K) (tol x a : K) (hs : lines.Pairwise (fun u v => 2 * tol ≤ |u - v|))
    (ha : a ∈ lines) (h : |a - x| < tol) : OnlyNear lines tol x a := by
  obtain ⟨l₁, l₂, rfl⟩ := List.append_of_mem ha
  refine ⟨l₁, l₂, rfl, h, ?_⟩
  rw [List.pairwise_append, List.pairwise_cons] at hs
  have hfar : ∀ c, 2 * tol ≤ |c - a| → ¬ |c - x| < tol := by
    intro c hc hcx
    have := abs_sub_le c x a
    rw [abs_sub_comm x a] at this
    linarith
  intro c hc
  rcases List.mem_append.1 hc with hc | hc
  · exact hfar c (hs.2.2 c hc a (by simp))
  · refine hfar c ?_
    rw [abs_sub_comm]
    exact hs.2.1.1 c hc

/-- C178 for well separated lines: if the lines are at least twice the tolerance apart, the true wavelength of every
peak is a line, and the solution to start from is nowhere off by the tolerance or more, then the true calibration is
returned with all peaks. -/
theorem C178_separated (F : FitEnv K) (M : MatchKernels K) (s : Session K) (a : MatchArgs K) (b : FitType)
    (co lines t : List K) (hb : s.basis = some b) (hco : StartsFrom s a co) (hne : co ≠ [])
    (hnan : a.coeff = none → s.coeffKind ≠ .nan) (hr : a.refine = false) (hrob : a.robust = true)
    (hl : s.world.atlasLines = .ok lines) (hE : FindsExact (F.kern b) t (a.deg.getD (co.length - 1)))
    (hM : RefitsExact (F.kern b) M t (a.deg.getD (co.length - 1)))
    (hsep : lines.Pairwise (fun u v => 2 * a.tol ≤ |u - v|))
    (htrue : ∀ p ∈ s.world.cal.peaks, (F.kern b).polyval t p ∈ lines)
    (hclose : ∀ p ∈ s.world.cal.peaks, |(F.kern b).polyval t p - (F.kern b).polyval co p| < a.tol)
    (henough : a.deg.getD (co.length - 1) < s.world.cal.peaks.dedup.length) :
    ∃ s' r, s.matchPeaks F M a = (s', .ok (.report r)) ∧ r.coeffs = t ∧ s'.world.cal.fitCoeff = some t ∧
      r.peaks = s.world.cal.peaks ∧ r.atlas = s.world.cal.peaks.map ((F.kern b).polyval t) ∧ r.peakUtil = 1 ∧
      r.rms = 0 ∧ ∀ e ∈ r.residuals, e = 0 := by
  have hall : s.world.cal.peaks.filter (fun p => decide (Near lines a.tol ((F.kern b).polyval co p))) =
      s.world.cal.peaks := by
    rw [List.filter_eq_self]
    intro p hp
    exact decide_eq_true ⟨_, htrue p hp, hclose p hp⟩
  obtain ⟨s', r, h1, h2, h3, h4, h5, h6, h7⟩ := C178_restored F M s a b co lines t hb hco hne hnan hr hrob hl hE hM
    (fun p hp _ => onlyNear_separated lines a.tol _ _ hsep (htrue p hp) (hclose p hp)) (by rw [hall]; exact henough)
  rw [hall] at h4
  refine ⟨s', r, h1, h2, h3, h4, by rw [h5, h4], ?_, h6, h7⟩
  obtain ⟨_, _, _, _, _, _, _, _, _, hu, _⟩ := C70_matched_peaks F M s s' a r h1
  rw [hu, h4]
  refine div_self ?_
  have : s.world.cal.peaks.dedup.length ≤ s.world.cal.peaks.length := (List.dedup_sublist _).length_le
  exact_mod_cast (by omega : s.world.cal.peaks.length ≠ 0)

/-! ### C179 -/

/-- The stored pairs lie on the polynomial `t`, which is the stored solution. -/
structure Spec.OnTruth (k : FitType → Kernels K) (b : FitType) (t : List K) (s : Session K) : Prop where
  basis : s.basis = some b
  solution : s.world.cal.fitCoeff = some t
  number : s.coeffKind ≠ .nan
  present : s.atlasKind ≠ .absent
  peaks : s.world.cal.matchedPeaks.Nodup
  lines : s.world.cal.matchedAtlas = s.world.cal.matchedPeaks.map ((k b).polyval t)

/-- A call that keeps the pairs true: settings, removing a pair, adding a pair on `t` whose pixel is new and stored
exactly, and refitting the stored pairs with the degree of `t`. -/
def Spec.TrueCall [FloorRing K] (k : FitType → Kernels K) (b : FitType) (t : List K) (s : Session K) :
    SessionCall K → Prop
  | .set _ => True
  | .removePair _ => True
  | .addPair _ p w => w = (k b).polyval t p ∧ p ∉ s.world.cal.matchedPeaks ∧ (s.matchedInt = true → ∃ n : Int, p = n)
  | .manualRefit a => a.peaks = none ∧ a.atlas = none ∧ (∀ f d, a.degree = some (f, d) → (d : Int) + 1 = t.length) ∧
      (∀ f l, a.x0 = some (f, l) → l.length = t.length)
  | _ => False

/-- A history of such calls. -/
def Spec.TrueCalls [FloorRing K] (E : CalEnv K) (F : FitEnv K) (M : MatchKernels K) (b : FitType) (t : List K) :
    Session K → List (SessionCall K) → Prop
  | _, [] => True
  | s, c :: cs => TrueCall F.kern b t s c ∧ TrueCalls E F M b t (s.call E F M c) cs

theorem storedPix_exact [FloorRing K] (s : Session K) (p : K) (h : s.matchedInt = true → ∃ n : Int, p = n) :
    s.storedPix p = p := by
  unfold Session.storedPix
  split
  · rename_i hi
    obtain ⟨n, rfl⟩ := h hi
    split <;> simp
  · rfl

/-- Refitting true pairs: the call raises and changes nothing, or it returns the truth. -/
theorem refit_true (F : FitEnv K) (M : MatchKernels K) (b : FitType) (t : List K) (s : Session K)
    (h : OnTruth F.kern b t s) (hM : RefitsExact (F.kern b) M t (t.length - 1)) (a : RefitArgs K)
    (h1 : a.peaks = none) (h2 : a.atlas = none) (hdeg : ∀ f d, a.degree = some (f, d) → (d : Int) + 1 = t.length)
    (hx : ∀ f l, a.x0 = some (f, l) → l.length = t.length) :
    (∃ e, s.manualRefit F M a = (s, .error e)) ∨
    ∃ r, (s.manualRefit F M a).2 = .ok r ∧ RefitDone F M s a (s.manualRefit F M a).1 r ∧ r.coeffs = some t ∧
      r.peaks = s.world.cal.matchedPeaks ∧ r.atlas = s.world.cal.matchedAtlas := by
  rcases C77_manual_refit_partial F M s a (by rw [h.basis]; simp) with ⟨g1, e, g2⟩ | ⟨r, g1, g2⟩
  · exact .inl ⟨e, Prod.ext g1 g2⟩
  · right
    have hp : r.peaks = s.world.cal.matchedPeaks := by rw [g2.peaks, h1]; rfl
    have hw : r.atlas = s.world.cal.matchedAtlas := by rw [g2.atlas, h2]; rfl
    refine ⟨r, g1, g2, ?_, hp, hw⟩
    obtain ⟨x0, deg, hu, hd0, hd1, hrob⟩ := g2.fit
    have hlen : t.length = deg + 1 := by
      cases hx' : a.x0 with
      | some q =>
        obtain ⟨f, l⟩ := q
        rw [← hx f l hx']
        exact (hu.start f l hx').2.2
      | none =>
        cases hd' : a.degree with
        | some q =>
          obtain ⟨f, d⟩ := q
          have e1 := hdeg f d hd'
          have e2 := (hu.degree f d hd').2
          omega
        | none =>
          obtain ⟨_, e1, l, e2, e3⟩ := hu.stored hx' hd'
          rw [e2, h.solution] at e1
          cases e1
          exact e3
    have hM' := hM s.world.cal.matchedPeaks x0 (by
      rw [List.Nodup.dedup h.peaks, ← hp]
      omega)
    rw [hp, hw, h.lines, show deg = t.length - 1 by omega, hM'] at hrob
    exact (Except.ok.inj hrob).symm

theorem trueCall_step [FloorRing K] (E : CalEnv K) (F : FitEnv K) (M : MatchKernels K) (b : FitType) (t : List K)
    (s : Session K) (h : OnTruth F.kern b t s) (hM : RefitsExact (F.kern b) M t (t.length - 1)) (c : SessionCall K)
    (hc : TrueCall F.kern b t s c) : OnTruth F.kern b t (s.call E F M c) := by
  have hlen : s.world.cal.matchedAtlas.length = s.world.cal.matchedPeaks.length := by rw [h.lines, List.length_map]
  cases c with
  | set op =>
    obtain ⟨_, k⟩ := C100_solution_kept E F M s [op]
    have e : s.calls E F M ([op].map .set) = s.call E F M (.set op) := rfl
    rw [e] at k
    exact ⟨k.types.1.trans h.basis, k.coeffs.trans h.solution, by rw [k.types.2.1]; exact h.number,
      by rw [k.types.2.2.2.1]; exact h.present, by rw [k.matchedPeaks]; exact h.peaks,
      by rw [k.matchedPeaks, k.matchedAtlas]; exact h.lines⟩
  | fit a arr rnd => exact hc.elim
  | matchPeaks a => exact hc.elim
  | addPair n p w =>
    obtain ⟨rfl, hnew, hint⟩ := hc
    show OnTruth F.kern b t (s.addPair n p _).1
    by_cases hcond : (!s.peaksArr && !n) = true
    · obtain ⟨e, he⟩ := addPair_fail s n p ((F.kern b).polyval t p) (.inl hcond)
      rw [he]
      exact h
    cases hf : s.world.cal.matchedPeaks.findIdx? (fun q => decide (p > q)) with
    | none =>
      obtain ⟨e, he⟩ := addPair_fail s n p ((F.kern b).polyval t p) (.inr hf)
      rw [he]
      exact h
    | some i =>
      have hi : i < s.world.cal.matchedPeaks.length := (List.findIdx?_eq_some_iff_getElem.1 hf).1
      rw [addPair_insert s h.present n p _ hcond i hf (by omega), storedPix_exact s p hint]
      refine ⟨h.basis, h.solution, h.number, by simp [Session.setPairs], ?_, ?_⟩
      · show (s.world.cal.matchedPeaks.insertIdx i p).Nodup
        rw [(List.perm_insertIdx p s.world.cal.matchedPeaks hi.le).nodup_iff, List.nodup_cons]
        exact ⟨hnew, h.peaks⟩
      · show s.world.cal.matchedAtlas.insertIdx i _ = (s.world.cal.matchedPeaks.insertIdx i p).map _
        rw [h.lines, List.map_insertIdx]
  | removePair i =>
    show OnTruth F.kern b t (s.removePair i).1
    have hdel : ∀ l, npDelete s.world.cal.matchedPeaks i = .ok l → l.Nodup ∧
        npDelete s.world.cal.matchedAtlas i = .ok (l.map ((F.kern b).polyval t)) := by
      intro l hl
      unfold npDelete at hl ⊢
      rw [hlen]
      split at hl
      · cases hl
      · rename_i hn
        cases hl
        rw [if_neg hn]
        refine ⟨h.peaks.sublist (List.eraseIdx_sublist _ _), ?_⟩
        rw [h.lines, List.eraseIdx_map]
    unfold Session.removePair
    split
    · exact h
    · cases hl : npDelete s.world.cal.matchedPeaks i with
      | error e => exact h
      | ok l =>
        obtain ⟨g1, g2⟩ := hdel l hl
        dsimp only
        rw [g2]
        exact ⟨h.basis, h.solution, h.number, by simp [Session.setPairs], g1, rfl⟩
  | manualRefit a =>
    obtain ⟨h1, h2, h3, h4⟩ := hc
    show OnTruth F.kern b t (s.manualRefit F M a).1
    rcases refit_true F M b t s h hM a h1 h2 h3 h4 with ⟨e, he⟩ | ⟨r, g1, g2, g3, g4, g5⟩
    · rw [he]
      exact h
    · have hst := g2.storedCoeff t g3
      refine ⟨g2.basis.trans h.basis, hst.1, by rw [hst.2]; simp, ?_, ?_, ?_⟩
      · have hc := manualRefit_cases F M s a
        generalize (s.manualRefit F M a).1 = s' at hc ⊢
        generalize (s.manualRefit F M a).2 = o at hc
        cases hc with
        | early e => exact h.present
        | stored x0 deg co hst habs hlen h3 h4 hco =>
          have : (Session.finishRefit F (s.storeRefit a deg co) co (s.refitLists a).1.2 (s.refitLists a).2.2).1.atlasKind =
              (s.refitLists a).2.1 := by
            unfold Session.finishRefit
            split <;> rfl
          rw [this]
          exact habs
      · rw [g2.storedPeaks, g4]
        exact h.peaks
      · rw [g2.storedPeaks, g2.storedAtlas, g4, g5]
        exact h.lines

/-- C179, what holds: from a calibrator that holds the true solution and true pairs, any sequence of settings, removals,
additions of true pairs with new pixels that are stored exactly, and refits of the degree of the solution keeps the true
solution and true pairs.  What is missing: pixels that are stored already, fractions added to integer pixels, other
degrees. -/
theorem C179_kept_partial [FloorRing K] (E : CalEnv K) (F : FitEnv K) (M : MatchKernels K) (b : FitType) (t : List K)
    (hM : RefitsExact (F.kern b) M t (t.length - 1)) (cs : List (SessionCall K)) (s : Session K)
    (h : OnTruth F.kern b t s) (hcs : TrueCalls E F M b t s cs) : OnTruth F.kern b t (s.calls E F M cs) := by
  induction cs generalizing s with
  | nil => exact h
  | cons c cs ih => exact ih _ (trueCall_step E F M b t s h hM c hcs.1) hcs.2

/-- C179, the refits: with more true pairs than the degree, `manual_refit()` returns the truth, with residuals and
rms 0. -/
theorem C179_refit_partial (F : FitEnv K) (M : MatchKernels K) (b : FitType) (t : List K)
    (hM : RefitsExact (F.kern b) M t (t.length - 1)) (h0 : (F.kern b).sqrt 0 = 0) (s : Session K)
    (h : OnTruth F.kern b t s) (hd : 2 ≤ t.length) (hmany : t.length ≤ s.world.cal.matchedPeaks.length) :
    ∃ r, (s.manualRefit F M {}).2 = .ok r ∧ r.coeffs = some t ∧ r.peaks = s.world.cal.matchedPeaks ∧
      r.atlas = s.world.cal.matchedAtlas ∧ r.rms = 0 ∧ ∃ v, r.residuals = some v ∧ ∀ e ∈ v, e = 0 := by
  rcases refit_true F M b t s h hM {} rfl rfl (by simp) (by simp) with ⟨e, he⟩ | ⟨r, g1, g2, g3, g4, g5⟩
  · exfalso
    have hlen : s.world.cal.matchedPeaks.length = s.world.cal.matchedAtlas.length := by rw [h.lines, List.length_map]
    have hM' := hM s.world.cal.matchedPeaks (some t) (by rw [List.Nodup.dedup h.peaks]; omega)
    rw [← h.lines] at hM'
    have hst : s.refitStart {} = .ok (some (some t), (t.length : Int) - 1) := by
      simp only [Session.refitStart, h.solution, if_neg h.number]
    have hn : ((t.length : Int) - 1).toNat = t.length - 1 := by omega
    have hl : s.refitLists {} = ((s.peaksArr, s.world.cal.matchedPeaks), (s.atlasKind, s.world.cal.matchedAtlas)) := rfl
    unfold Session.manualRefit at he
    rw [hst] at he
    dsimp only at he
    rw [hl] at he
    dsimp only at he
    rw [if_neg h.present, if_pos ⟨hlen, by omega, by omega, by omega⟩, hn, hM'] at he
    dsimp only at he
    unfold Session.finishRefit at he
    rw [show (s.storeRefit {} (t.length - 1) (some t)).basis = some b from h.basis] at he
    have := congrArg Prod.snd he
    cases this
  · obtain ⟨b', hb', hres⟩ := g2.residuals
    rw [h.basis] at hb'
    cases hb'
    obtain ⟨hv, hr⟩ := hres t g3
    have hz := zipWith_exact ((F.kern b).polyval t) (fun v => v) rfl s.world.cal.matchedPeaks
    refine ⟨r, g1, g3, g4, g5, ?_, _, hv, ?_⟩
    · rw [hr _ hv, g4, g5, h.lines]
      exact rmsOf_zero _ h0 _ hz
    · rw [g4, g5, h.lines]
      exact hz

end

/-! ### refutation and concrete cases -/

/-- The robust fit of the toy finds every rising or falling straight line. -/
theorem Toy.refitsExact (b c : ℚ) (hc : c ≠ 0) : RefitsExact Toy.kern Toy.mkern [b, c] 1 := by
  intro xs x0 h
  have hv : Toy.kern.polyval [b, c] = fun x => b + x * c := funext (Toy.polyval_two b c)
  rw [hv]
  unfold Toy.mkern
  dsimp only
  rw [if_pos rfl, if_neg, Toy.line_exact b c xs h]
  intro hall
  have hsame : ∀ x ∈ xs, ∀ y ∈ xs, x = y := by
    intro x hx y hy
    rw [List.all_eq_true] at hall
    have e1 := of_decide_eq_true (hall _ (List.mem_map_of_mem (f := fun x => b + x * c) hx))
    have e2 := of_decide_eq_true (hall _ (List.mem_map_of_mem (f := fun x => b + x * c) hy))
    have e3 : b + x * c = b + y * c := e1.trans e2.symm
    exact mul_right_cancel₀ hc (by linarith)
  cases hxs : xs.dedup with
  | nil => rw [hxs] at h; simp at h
  | cons x l =>
    cases l with
    | nil => rw [hxs] at h; simp at h
    | cons y l =>
      have hn := xs.nodup_dedup
      rw [hxs, List.nodup_cons] at hn
      have hx : x ∈ xs := List.mem_dedup.1 (by rw [hxs]; simp)
      have hy : y ∈ xs := List.mem_dedup.1 (by rw [hxs]; simp)
      exact hn.1 (by rw [hsame x hx y hy]; simp)

/-- Four peaks, the last of which has no line; the true calibration is 3100 + 280 p. -/
def Toy.restore : Session ℚ := (Toy.session [10, 20, 31, 50] false [5900, 8700, 11780, 20000]).toOption.get (by decide +kernel)

/-- A case for `C178_restored`: the solution to start from is off by 4 to 7. -/
example : ∃ s' r, Toy.restore.matchPeaks Toy.env Toy.mkern
      { coeff := some (true, [3103, 2801 / 10]), tol := 10, minFrac := 1 / 2 } = (s', .ok (.report r)) ∧
    r.coeffs = [3100, 280] ∧ r.peaks = [10, 20, 31] ∧ r.atlas = [5900, 8700, 11780] := by
  obtain ⟨s', r, h1, h2, _, h4, h5, _⟩ := C178_restored Toy.env Toy.mkern Toy.restore
    { coeff := some (true, [3103, 2801 / 10]), tol := 10, minFrac := 1 / 2 } .poly [3103, 2801 / 10]
    [5900, 8700, 11780, 20000] [3100, 280] (by decide +kernel) (.inl ⟨true, rfl⟩) (by simp) (by simp) rfl rfl
    (by decide +kernel) (Toy.findsExact 3100 280) (Toy.refitsExact 3100 280 (by norm_num))
    (by
      have hp : Toy.restore.world.cal.peaks = [10, 20, 31, 50] := by decide +kernel
      rw [hp]
      intro p hp hn
      simp only [List.mem_cons, List.not_mem_nil, or_false] at hp
      rcases hp with rfl | rfl | rfl | rfl
      · exact ⟨[], [8700, 11780, 20000], by decide +kernel, by decide +kernel, by decide +kernel⟩
      · exact ⟨[5900], [11780, 20000], by decide +kernel, by decide +kernel, by decide +kernel⟩
      · exact ⟨[5900, 8700], [20000], by decide +kernel, by decide +kernel, by decide +kernel⟩
      · exact absurd hn (by decide +kernel))
    (by decide +kernel)
  have h4' : r.peaks = [10, 20, 31] := h4.trans (by decide +kernel)
  exact ⟨s', r, h1, h2, h4', by rw [h5, h4']; decide +kernel⟩

/-- Three peaks, all with a line. -/
def Toy.restoreAll : Session ℚ := (Toy.session [10, 20, 31] false [5900, 8700, 11780, 20000]).toOption.get (by decide +kernel)

/-- A case for `C178_separated`. -/
example : ∃ s' r, Toy.restoreAll.matchPeaks Toy.env Toy.mkern
      { coeff := some (true, [3103, 2801 / 10]), tol := 10, minFrac := 1 / 2 } = (s', .ok (.report r)) ∧
    r.coeffs = [3100, 280] ∧ r.peakUtil = 1 := by
  obtain ⟨s', r, h1, h2, _, _, _, h6, _⟩ := C178_separated Toy.env Toy.mkern Toy.restoreAll
    { coeff := some (true, [3103, 2801 / 10]), tol := 10, minFrac := 1 / 2 } .poly [3103, 2801 / 10]
    [5900, 8700, 11780, 20000] [3100, 280] (by decide +kernel) (.inl ⟨true, rfl⟩) (by simp) (by simp) rfl rfl
    (by decide +kernel) (Toy.findsExact 3100 280) (Toy.refitsExact 3100 280 (by norm_num)) (by decide +kernel)
    (by decide +kernel) (by decide +kernel) (by decide +kernel)
  exact ⟨s', r, h1, h2, h6⟩

/-- The expected behaviour: adding and removing true pairs and refitting with the default arguments keeps the true
solution. -/
def C179_Statement : Prop :=
  ∀ (E : CalEnv ℚ) (F : FitEnv ℚ) (M : MatchKernels ℚ) (b : FitType) (t : List ℚ), 2 ≤ t.length →
    RefitsExact (F.kern b) M t (t.length - 1) → ∀ (cs : List (SessionCall ℚ)) (s : Session ℚ), OnTruth F.kern b t s →
    (∀ c ∈ cs, (∃ n p, c = .addPair n p ((F.kern b).polyval t p)) ∨ (∃ i, c = .removePair i) ∨ c = .manualRefit {}) →
    (s.calls E F M cs).world.cal.fitCoeff = some t

/-- A calibrator that has matched its two peaks, given as integers or not. -/
def Toy.restored (int : Bool) : Option (Session ℚ) :=
  (Toy.session [10, 20, 31] int [5900, 8700, 11780, 20000]).toOption.map (fun s => (s.matchPeaks Toy.env Toy.mkern
    { coeff := some (true, [3103, 2801 / 10]), tol := 10, minFrac := 1 / 2 }).1)

set_option synthInstance.maxHeartbeats 400000 in
set_option synthInstance.maxSize 2000 in
theorem Toy.restored_true (int : Bool) (s : Session ℚ) (h : Toy.restored int = some s) :
    OnTruth Toy.env.kern .poly [3100, 280] s ∧ s.matchedInt = int ∧ s.world.cal.matchedPeaks = [10, 20, 31] := by
  have hc : (Toy.restored int).map (fun s => ((s.basis, s.world.cal.fitCoeff, s.coeffKind), (s.atlasKind,
      s.world.cal.matchedPeaks, s.world.cal.matchedAtlas, s.matchedInt))) =
      some ((some .poly, some [3100, 280], .array), (.array, [10, 20, 31], [5900, 8700, 11780], int)) := by
    cases int <;> decide +kernel
  rw [h] at hc
  simp only [Option.map_some, Option.some.injEq, Prod.mk.injEq] at hc
  obtain ⟨⟨h1, h2, h3⟩, h4, h5, h6, h7⟩ := hc
  refine ⟨⟨h1, h2, by rw [h3]; simp, by rw [h4]; simp, by rw [h5]; decide +kernel, ?_⟩, h7, h5⟩
  rw [h5, h6]
  decide +kernel

/-- C179 is false: the peaks are integers, and the pixel 15.5 is stored as 15. -/
theorem C179_refuted : ¬ C179_Statement := by
  intro h
  have hc : (Toy.restored true).map (fun s => (s.calls Toy.calEnv Toy.env Toy.mkern
      [.addPair true (31 / 2) 7440, .manualRefit {}]).world.cal.fitCoeff == some [3100, 280]) = some false := by
    decide +kernel
  cases hs : Toy.restored true with
  | none => rw [hs] at hc; cases hc
  | some s =>
    rw [hs] at hc
    have := h Toy.calEnv Toy.env Toy.mkern .poly [3100, 280] (by simp) (Toy.refitsExact 3100 280 (by norm_num))
      [.addPair true (31 / 2) 7440, .manualRefit {}] s (Toy.restored_true true s hs).1 (by
        intro c hc
        simp only [List.mem_cons, List.not_mem_nil, or_false] at hc
        rcases hc with rfl | rfl
        · exact .inl ⟨true, 31 / 2, by rw [show (7440 : ℚ) = (Toy.env.kern .poly).polyval [3100, 280] (31 / 2) by decide +kernel]⟩
        · exact .inr (.inr rfl))
    rw [Option.map_some, this] at hc
    simp at hc

/-- A case for `C179_kept_partial` and `C179_refit_partial`: with peaks that are not integers the pair at 15.5 is added,
the first one removed, and the refit returns the truth. -/
example : ∃ s, Toy.restored false = some s ∧ ∃ r,
    ((s.calls Toy.calEnv Toy.env Toy.mkern [.addPair true (31 / 2) 7440, .removePair 1]).manualRefit Toy.env Toy.mkern
      {}).2 = .ok r ∧ r.coeffs = some [3100, 280] := by
  cases hs : Toy.restored false with
  | none =>
    have : (Toy.restored false).isSome = true := by decide +kernel
    rw [hs] at this
    cases this
  | some s =>
    obtain ⟨h1, h2, h3⟩ := Toy.restored_true false s hs
    have hM := Toy.refitsExact 3100 280 (by norm_num)
    have h4 := C179_kept_partial Toy.calEnv Toy.env Toy.mkern .poly [3100, 280] hM
      [.addPair true (31 / 2) 7440, .removePair 1] s h1
      ⟨⟨by decide +kernel, by rw [h3]; decide +kernel, by rw [h2]; simp⟩, trivial, trivial⟩
    have hl : (Toy.restored false).map (fun s => (s.calls Toy.calEnv Toy.env Toy.mkern
        [.addPair true (31 / 2) 7440, .removePair 1]).world.cal.matchedPeaks.length) = some 3 := by decide +kernel
    rw [hs] at hl
    have hl' := Option.some.inj hl
    obtain ⟨r, g1, g2, _⟩ := C179_refit_partial Toy.env Toy.mkern .poly [3100, 280] hM (by decide +kernel) _ h4
      (by simp) (by dsimp only at hl'; rw [hl']; simp)
    exact ⟨s, rfl, r, g1, g2⟩

end Rascal
