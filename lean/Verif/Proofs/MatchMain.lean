import Verif.Proofs.MatchLemmas

/-! What `match_peaks` does in each case. -/

namespace Rascal

open Spec

set_option linter.unusedSectionVars false

variable {K : Type _} [Field K] [LinearOrder K] [IsStrictOrderedRing K]

/-- The coefficients `match_peaks` starts from: the argument or the current solution. -/
def StartsFrom (s : Session K) (a : MatchArgs K) (co : List K) : Prop :=
  (∃ arr, a.coeff = some (arr, co)) ∨ (a.coeff = none ∧ s.world.cal.fitCoeff = some co)

/-- Everything but the results of the matching is as before. -/
structure SameSetup (s s' : Session K) : Prop where
  atlases : s'.world.atlases = s.world.atlases
  peaks : s'.world.cal.peaks = s.world.cal.peaks
  peaksAreArray : s'.world.cal.peaksAreArray = s.world.cal.peaksAreArray
  props : s'.world.cal.props = s.world.cal.props
  hough : s'.world.cal.hough = s.world.cal.hough
  ransac : s'.world.cal.ransac = s.world.cal.ransac
  atlas : s'.world.cal.atlas = s.world.cal.atlas
  candTol : s'.world.cal.candTol = s.world.cal.candTol
  constrainPoly : s'.world.cal.constrainPoly = s.world.cal.constrainPoly
  pairs : s'.world.cal.pairs = s.world.cal.pairs
  ht : s'.world.cal.ht = s.world.cal.ht
  houghLines : s'.world.cal.houghLines = s.world.cal.houghLines
  houghPoints : s'.world.cal.houghPoints = s.world.cal.houghPoints
  known : s'.world.cal.known = s.world.cal.known
  residual : s'.world.cal.residual = s.world.cal.residual
  basis : s'.basis = s.basis
  intPeaks : s'.intPeaks = s.intPeaks

theorem SameSetup.refl (s : Session K) : SameSetup s s := by constructor <;> rfl

/-- How the last step of `match_peaks` can end, from a session with the matches stored. -/
inductive RefitEnd (F : FitEnv K) (M : MatchKernels K) (s : Session K) (b : FitType) (robust : Bool)
    (deg : Nat) (new : Refined K) (fitted xs ys res : List K) (rms pu au : K) :
    Session K → PyRes (MatchOut K) → Prop
  | failed (e : PyErr) : robust = true → M.robust xs ys deg none = .error e →
      RefitEnd F M s b robust deg new fitted xs ys res rms pu au s (.error e)
  | nan (s' : Session K) : robust = true → M.robust xs ys deg none = .ok none →
      s' = { s with coeffKind := .nan,
                    world := { s.world with cal := { s.world.cal with
                      fitCoeff := some (List.replicate (deg + 1) 0) } } } →
      RefitEnd F M s b robust deg new fitted xs ys res rms pu au s'
        (.ok (.report ⟨fitted, xs, ys, rms, res, pu, au⟩))
  | robust (co : List K) (s' : Session K) : robust = true → M.robust xs ys deg none = .ok (some co) →
      s' = { s with coeffKind := .array,
                    residuals := some (List.zipWith (fun x y => y - (F.kern b).polyval co x) xs ys),
                    world := { s.world with cal := { s.world.cal with
                      fitCoeff := some co,
                      rms := some (rmsOf (F.kern b)
                        (List.zipWith (fun x y => y - (F.kern b).polyval co x) xs ys)) } } } →
      RefitEnd F M s b robust deg new fitted xs ys res rms pu au s'
        (.ok (.report ⟨co, xs, ys,
          rmsOf (F.kern b) (List.zipWith (fun x y => y - (F.kern b).polyval co x) xs ys),
          List.zipWith (fun x y => y - (F.kern b).polyval co x) xs ys, pu, au⟩))
  | refined (co : List K) (s' : Session K) : robust = false → new = .coeffs co →
      s' = { s with coeffKind := .array,
                    world := { s.world with cal := { s.world.cal with fitCoeff := some co } } } →
      RefitEnd F M s b robust deg new fitted xs ys res rms pu au s'
        (.ok (.report ⟨co, xs, ys, rms, res, pu, au⟩))
  | unbound : robust = false → (∀ co, new ≠ .coeffs co) →
      RefitEnd F M s b robust deg new fitted xs ys res rms pu au s (.error .unboundLocal)

theorem matchRefit_cases (F : FitEnv K) (M : MatchKernels K) (s : Session K) (b : FitType)
    (robust : Bool) (deg : Nat) (new : Refined K) (fitted xs ys res : List K) (rms pu au : K) :
    RefitEnd F M s b robust deg new fitted xs ys res rms pu au
      (s.matchRefit F M b robust deg new fitted xs ys res rms pu au).1
      (s.matchRefit F M b robust deg new fitted xs ys res rms pu au).2 := by
  unfold Session.matchRefit
  cases robust with
  | true =>
    rw [if_pos rfl]
    split
    · rename_i e he; exact .failed e rfl he
    · rename_i he; exact .nan _ rfl he rfl
    · rename_i co he; exact .robust co _ rfl he rfl
  | false =>
    rw [if_neg (by simp)]
    split
    · rename_i co; exact .refined co _ rfl rfl rfl
    · rename_i hne; exact .unbound rfl hne

/-- The session with the matches of the single candidate stored. -/
def Session.withMatches (s : Session K) (xs ys res : List K) (rms pu au : K) : Session K :=
  { s.clearMatches xs with
    atlasKind := .array, residuals := some res,
    world := { (s.clearMatches xs).world with cal := { (s.clearMatches xs).world.cal with
      matchedAtlas := ys, rms := some rms, peakUtil := some pu, atlasUtil := some (.fin au) } } }

/-- How the check of the single candidate can end. -/
inductive FitEnd (F : FitEnv K) (M : MatchKernels K) (s : Session K) (nLines : Nat) (robust : Bool)
    (deg : Nat) (new : Refined K) (xs ys : List K) : Session K → PyRes (MatchOut K) → Prop
  | noBasis : s.basis = none →
      FitEnd F M s nLines robust deg new xs ys (s.clearMatches xs) (.error .attributeError)
  | noFit (b : FitType) (e : PyErr) : s.basis = some b → polyfitChecked (F.kern b) xs ys deg = .error e →
      FitEnd F M s nLines robust deg new xs ys (s.clearMatches xs) (.error e)
  | bad (b : FitType) (fitted : List K) : s.basis = some b →
      polyfitChecked (F.kern b) xs ys deg = .ok fitted →
      10 ^ 9 ≤ (List.zipWith (fun x y => |y - (F.kern b).polyval fitted x|) xs ys).sum →
      FitEnd F M s nLines robust deg new xs ys (s.clearMatches xs) (.error .assertionError)
  | done (b : FitType) (fitted res : List K) (s' : Session K) (o : PyRes (MatchOut K)) :
      s.basis = some b → polyfitChecked (F.kern b) xs ys deg = .ok fitted →
      res = List.zipWith (fun x y => |y - (F.kern b).polyval fitted x|) xs ys → res.sum < 10 ^ 9 →
      RefitEnd F M (s.withMatches xs ys res (rmsOf (F.kern b) res)
          ((xs.length : K) / (s.world.cal.peaks.length : K)) ((ys.length : K) / (nLines : K)))
        b robust deg new fitted xs ys res (rmsOf (F.kern b) res)
        ((xs.length : K) / (s.world.cal.peaks.length : K)) ((ys.length : K) / (nLines : K)) s' o →
      FitEnd F M s nLines robust deg new xs ys s' o

theorem matchFit_cases (F : FitEnv K) (M : MatchKernels K) (s : Session K) (nLines : Nat)
    (robust : Bool) (deg : Nat) (new : Refined K) (xs ys : List K) :
    FitEnd F M s nLines robust deg new xs ys (s.matchFit F M nLines robust deg new xs ys).1
      (s.matchFit F M nLines robust deg new xs ys).2 := by
  unfold Session.matchFit
  dsimp only
  split
  · rename_i h; exact .noBasis h
  · rename_i b hb
    split
    · rename_i e he; exact .noFit b e hb he
    · rename_i fitted hf
      split
      · rename_i hlt
        exact .done b fitted _ _ _ hb hf rfl hlt (matchRefit_cases ..)
      · rename_i hlt; exact .bad b fitted hb hf (not_lt.1 hlt)

/-- How `match_peaks` can end. -/
inductive MatchEnd (F : FitEnv K) (M : MatchKernels K) (s : Session K) (a : MatchArgs K) :
    Session K → PyRes (MatchOut K) → Prop
  | early (e : PyErr) : MatchEnd F M s a s (.error e)
  | input (co : List K) : StartsFrom s a co → a.refine = true → MatchEnd F M s a s (.ok (.input co))
  | ambiguous (kind : CoeffKind) (co lines : List K) (e : PyErr) :
      StartsFrom s a co → s.world.atlasLines = .ok lines → kind ≠ .nan →
      expandMatches ((matchLoop ((F.kern (s.basis.getD .poly)).polyval co) lines a.tol
        s.world.cal.peaks).map Prod.snd) [] = .error e →
      MatchEnd F M s a s (.error e)
  | fit (co lines : List K) (new : Refined K) (m : List (K × List K)) (ys : List K) (s' : Session K)
      (o : PyRes (MatchOut K)) :
      StartsFrom s a co → s.world.atlasLines = .ok lines →
      (m = [] ∨ m = matchLoop ((F.kern (s.basis.getD .poly)).polyval co) lines a.tol
        s.world.cal.peaks) →
      expandMatches (m.map Prod.snd) [] = .ok ys →
      (a.refine = false → new = .skipped) → (a.refine = true → ∃ l, new = .coeffs l) →
      FitEnd F M s lines.length a.robust (a.deg.getD (co.length - 1)) new (m.map Prod.fst) ys s' o →
      MatchEnd F M s a s' o

theorem inputCoeff_startsFrom (s : Session K) (a : MatchArgs K) (kind : CoeffKind) (co : List K)
    (h : s.inputCoeff a = .ok (kind, co)) : StartsFrom s a co := by
  unfold Session.inputCoeff at h
  split at h
  · rename_i arr l hc
    cases h; exact .inl ⟨arr, hc⟩
  · rename_i hc
    split at h
    · cases h
    · rename_i l hl
      cases h; exact .inr ⟨hc, hl⟩

theorem refineStep_spec (F : FitEnv K) (M : MatchKernels K) (s : Session K) (a : MatchArgs K)
    (kind : CoeffKind) (co : List K) (r : Refined K) (h : s.refineStep F M a kind co = .ok r) :
    (a.refine = false → r = .skipped) ∧ (a.refine = true → r = .nan ∨ ∃ l, r = .coeffs l) := by
  unfold Session.refineStep at h
  cases hr : a.refine with
  | false =>
    rw [hr] at h
    simp only [Bool.not_false, if_true, Except.ok.injEq] at h
    exact ⟨fun _ => h.symm, fun h' => by cases h'⟩
  | true =>
    rw [hr] at h
    refine ⟨fun h' => by simp at h', fun _ => ?_⟩
    simp only [Bool.not_true, Bool.false_eq_true, if_false] at h
    split at h
    · cases h
    · cases h; exact .inl rfl
    · split at h
      · cases h
      · cases h; exact .inl rfl
      · split at h
        · cases h
        · cases h; exact .inr ⟨_, rfl⟩

theorem matchPeaks_cases (F : FitEnv K) (M : MatchKernels K) (s : Session K) (a : MatchArgs K) :
    MatchEnd F M s a (s.matchPeaks F M a).1 (s.matchPeaks F M a).2 := by
  have search : ∀ (kind : CoeffKind) (co : List K) (new : Refined K), StartsFrom s a co →
      (a.refine = false → new = .skipped) → (a.refine = true → ∃ l, new = .coeffs l) →
      MatchEnd F M s a (s.matchSearch F M a kind co new).1 (s.matchSearch F M a kind co new).2 := by
    intro kind co new hc h1 h2
    unfold Session.matchSearch
    split
    · exact .early _
    · rename_i lines hlines
      split
      · exact .early _
      · split
        · exact .early _
        · dsimp only
          split
          · rename_i e he
            by_cases hk : kind = .nan
            · exact .early _
            · rw [if_neg hk] at he
              exact .ambiguous kind co lines e hc hlines hk he
          · rename_i ys hys
            refine .fit co lines new _ ys _ _ hc hlines ?_ hys h1 h2 (matchFit_cases ..)
            by_cases hk : kind = .nan
            · exact .inl (if_pos hk)
            · exact .inr (if_neg hk)
  unfold Session.matchPeaks
  split
  · exact .early _
  · rename_i kind co hin
    have hc := inputCoeff_startsFrom s a kind co hin
    split
    · exact .early _
    · rename_i hr
      refine .input co hc ?_
      cases h : a.refine with
      | true => rfl
      | false => have := (refineStep_spec F M s a kind co _ hr).1 h; cases this
    · rename_i new hnan hr
      obtain ⟨h1, h2⟩ := refineStep_spec F M s a kind co _ hr
      refine search kind co new hc h1 ?_
      intro h
      rcases h2 h with h2 | h2
      · exact absurd h2 (fun hh => by subst hh; exact hnan rfl)
      · exact h2

theorem polyfitChecked_ok (k : Kernels K) (xs ys fitted : List K) (deg : Nat)
    (h : polyfitChecked k xs ys deg = .ok fitted) :
    xs ≠ [] ∧ xs.length = ys.length ∧ k.polyfit (xs.map .fin) (ys.map .fin) deg = .ok fitted := by
  unfold polyfitChecked at h
  split at h
  · cases h
  · rename_i hne
    rw [not_or, not_not] at hne
    exact ⟨hne.1, hne.2, h⟩

/-- If the lists of a matching loop are expanded to as many lines as there are peaks, no peak is
ambiguous. -/
theorem expand_matchLoop (f : K → K) (lines : List K) (tol : K) (peaks ys : List K)
    (h : expandMatches ((matchLoop f lines tol peaks).map Prod.snd) [] = .ok ys)
    (hlen : ((matchLoop f lines tol peaks).map Prod.fst).length = ys.length) :
    List.Forall₂ (fun p l => OnlyNear lines tol (f p) l)
      ((matchLoop f lines tol peaks).map Prod.fst) ys := by
  obtain ⟨t, rfl, _, hf⟩ := expandMatches_ok _ _ _ h
  have hf' := hf (by simpa using hlen.symm)
  rw [List.forall₂_iff_get] at hf' ⊢
  refine ⟨by simpa using hf'.1, ?_⟩
  intro i h1 h2
  have hi : i < (matchLoop f lines tol peaks).length := by simpa using h1
  have := hf'.2 i (by simpa using h1) h2
  simp only [List.get_eq_getElem, List.getElem_map] at this ⊢
  obtain ⟨h3, _⟩ := matchLoop_snd f lines tol peaks _ (List.getElem_mem hi)
  exact linesNear_singleton _ _ _ _ (by rw [← h3, this])

/-- Everything there is to know about a full result of `match_peaks`. -/
structure MatchReported (F : FitEnv K) (M : MatchKernels K) (s : Session K) (a : MatchArgs K)
    (s' : Session K) (r : MatchReport K) (b : FitType) (co lines fitted res : List K)
    (new : Refined K) : Prop where
  start : StartsFrom s a co
  basis : s.basis = some b
  hasLines : s.world.atlasLines = .ok lines
  peaks : r.peaks = s.world.cal.peaks.filter (fun p => decide (Near lines a.tol ((F.kern b).polyval co p)))
  nonempty : r.peaks ≠ []
  length : r.peaks.length = r.atlas.length
  only : List.Forall₂ (fun p l => OnlyNear lines a.tol ((F.kern b).polyval co p) l) r.peaks r.atlas
  polyfit : (F.kern b).polyfit (r.peaks.map .fin) (r.atlas.map .fin) (a.deg.getD (co.length - 1)) =
    .ok fitted
  resEq : res = List.zipWith (fun x y => |y - (F.kern b).polyval fitted x|) r.peaks r.atlas
  skipped : a.refine = false → new = .skipped
  refined : a.refine = true → ∃ l, new = .coeffs l
  ending : RefitEnd F M (s.withMatches r.peaks r.atlas res (rmsOf (F.kern b) res)
      ((r.peaks.length : K) / (s.world.cal.peaks.length : K)) ((r.atlas.length : K) / (lines.length : K)))
    b a.robust (a.deg.getD (co.length - 1)) new fitted r.peaks r.atlas res (rmsOf (F.kern b) res)
    ((r.peaks.length : K) / (s.world.cal.peaks.length : K)) ((r.atlas.length : K) / (lines.length : K))
    s' (.ok (.report r))

theorem RefitEnd.lists {F : FitEnv K} {M : MatchKernels K} {s : Session K} {b : FitType} {robust : Bool}
    {deg : Nat} {new : Refined K} {fitted xs ys res : List K} {rms pu au : K} {s' : Session K}
    {r : MatchReport K}
    (h : RefitEnd F M s b robust deg new fitted xs ys res rms pu au s' (.ok (.report r))) :
    r.peaks = xs ∧ r.atlas = ys ∧ r.peakUtil = pu ∧ r.atlasUtil = au := by
  cases h <;> exact ⟨rfl, rfl, rfl, rfl⟩

theorem matchPeaks_report (F : FitEnv K) (M : MatchKernels K) (s : Session K) (a : MatchArgs K)
    (s' : Session K) (r : MatchReport K) (h : s.matchPeaks F M a = (s', .ok (.report r))) :
    ∃ b co lines fitted res new, MatchReported F M s a s' r b co lines fitted res new := by
  have hc := matchPeaks_cases F M s a
  rw [h] at hc
  dsimp only at hc
  generalize ho : (Except.ok (MatchOut.report r) : PyRes (MatchOut K)) = o at hc
  cases hc with
  | early e => cases ho
  | input co h1 h2 => cases ho
  | ambiguous kind co lines e h1 h2 h3 h4 => cases ho
  | fit co lines new m ys s' o hs hl hm he h1 h2 hf =>
    subst ho
    generalize ho : (Except.ok (MatchOut.report r) : PyRes (MatchOut K)) = o at hf
    cases hf with
    | noBasis hb => cases ho
    | noFit b e hb hp => cases ho
    | bad b fitted hb hp hs => cases ho
    | done b fitted res s' o hb hp hres hlt hend =>
      subst ho
      obtain ⟨e1, e2, e3, e4⟩ := hend.lists
      obtain ⟨p1, p2, p3⟩ := polyfitChecked_ok _ _ _ _ _ hp
      have hbb : s.basis.getD .poly = b := by rw [hb]; rfl
      rw [hbb] at hm
      have hm : m = matchLoop ((F.kern b).polyval co) lines a.tol s.world.cal.peaks := by
        rcases hm with rfl | hm
        · exact absurd rfl p1
        · exact hm
      subst hm
      refine ⟨b, co, lines, fitted, res, new, hs, hb, hl, ?_, ?_, ?_, ?_, ?_, ?_, h1, h2, ?_⟩
      · rw [e1, matchLoop_fst]
      · rw [e1]; exact p1
      · rw [e1, e2]; exact p2
      · rw [e1, e2]; exact expand_matchLoop _ _ _ _ _ he p2
      · rw [e1, e2]; exact p3
      · rw [e1, e2]; exact hres
      · rw [e1, e2]; exact hend

end Rascal
