import Verif.Props.TwiceProps
import Verif.Props.BrightDistanceProps

/-! Property theorems C205: when `match_peaks` returns a result. -/

set_option linter.unusedSectionVars false

namespace Rascal

open Spec

section
variable {K : Type _} [Field K] [LinearOrder K] [IsStrictOrderedRing K]

/-- The peaks whose predicted wavelength has a line within the tolerance. -/
def Spec.nearPeaks (f : K → K) (lines : List K) (tol : K) (peaks : List K) : List K :=
  peaks.filter (fun p => decide (Near lines tol (f p)))

/-- The call without refinement when every near peak has one line. -/
theorem matchPeaks_singles (F : FitEnv K) (M : MatchKernels K) (s : Session K) (a : MatchArgs K) (b : FitType)
    (co lines ys fitted : List K) (arr : Bool) (hc : a.coeff = some (arr, co)) (hne : co ≠ [])
    (h1 : a.refine = false) (h2 : a.robust = true) (hb : s.basis = some b) (hl : s.world.atlasLines = .ok lines)
    (hy : List.Forall₂ (fun p l => OnlyNear lines a.tol ((F.kern b).polyval co p) l)
      (nearPeaks ((F.kern b).polyval co) lines a.tol s.world.cal.peaks) ys)
    (hn : nearPeaks ((F.kern b).polyval co) lines a.tol s.world.cal.peaks ≠ [])
    (hf : (F.kern b).polyfit ((nearPeaks ((F.kern b).polyval co) lines a.tol s.world.cal.peaks).map .fin)
      (ys.map .fin) (a.deg.getD (co.length - 1)) = .ok fitted) :
    ((List.zipWith (fun x y => |y - (F.kern b).polyval fitted x|)
        (nearPeaks ((F.kern b).polyval co) lines a.tol s.world.cal.peaks) ys).sum < 10 ^ 9 →
      ∀ c, M.robust (nearPeaks ((F.kern b).polyval co) lines a.tol s.world.cal.peaks) ys
        (a.deg.getD (co.length - 1)) none = .ok c → ∃ s' r, s.matchPeaks F M a = (s', .ok (.report r))) ∧
    (¬ (List.zipWith (fun x y => |y - (F.kern b).polyval fitted x|)
        (nearPeaks ((F.kern b).polyval co) lines a.tol s.world.cal.peaks) ys).sum < 10 ^ 9 →
      (s.matchPeaks F M a).2 = .error .assertionError) ∧
    ((List.zipWith (fun x y => |y - (F.kern b).polyval fitted x|)
        (nearPeaks ((F.kern b).polyval co) lines a.tol s.world.cal.peaks) ys).sum < 10 ^ 9 →
      ∀ e, M.robust (nearPeaks ((F.kern b).polyval co) lines a.tol s.world.cal.peaks) ys
        (a.deg.getD (co.length - 1)) none = .error e → (s.matchPeaks F M a).2 = .error e) := by
  have hin : s.inputCoeff a = .ok (if arr then .array else .list, co) := by
    rw [Session.inputCoeff, hc]
  have hkind : (if arr then CoeffKind.array else CoeffKind.list) ≠ .nan := by
    cases arr <;> simp
  have hx : (matchLoop ((F.kern b).polyval co) lines a.tol s.world.cal.peaks).map Prod.fst =
      nearPeaks ((F.kern b).polyval co) lines a.tol s.world.cal.peaks :=
    matchLoop_fst ((F.kern b).polyval co) lines a.tol s.world.cal.peaks
  have hexp : expandMatches ((matchLoop ((F.kern b).polyval co) lines a.tol s.world.cal.peaks).map
      Prod.snd) [] = .ok ys := by
    have hy' := hy
    rw [← hx] at hy'
    refine expandMatches_singles _ [] ys ?_
    rw [List.forall₂_iff_get] at hy' ⊢
    refine ⟨by simpa using hy'.1, ?_⟩
    intro i h1 h2
    have hi : i < (matchLoop ((F.kern b).polyval co) lines a.tol s.world.cal.peaks).length := by
      simpa using h1
    have := hy'.2 i (by simpa using h1) h2
    simp only [List.get_eq_getElem, List.getElem_map] at this ⊢
    rw [(matchLoop_snd _ _ _ _ _ (List.getElem_mem hi)).1]
    exact linesNear_of_onlyNear _ _ _ _ this
  have hpf : polyfitChecked (F.kern b) (nearPeaks ((F.kern b).polyval co) lines a.tol s.world.cal.peaks) ys
      (a.deg.getD (co.length - 1)) = .ok fitted := by
    unfold polyfitChecked
    rw [if_neg (by
      rintro (h | h)
      · exact hn h
      · exact h hy.length_eq), hf]
  refine ⟨fun hlt c hr => ?_, fun hlt => ?_, fun hlt e hr => ?_⟩
  · cases c with
    | none =>
      simp only [Session.matchPeaks, hin, Session.refineStep, h1, Bool.not_false, if_true,
        Session.matchSearch, hl, hb, hne, and_false, if_false, hkind, Option.getD_some, reduceCtorEq, hexp,
        Session.matchFit, hx, hpf, hlt, h2, Session.matchRefit, Session.clearMatches, hr]
      exact ⟨_, _, rfl⟩
    | some c =>
      simp only [Session.matchPeaks, hin, Session.refineStep, h1, Bool.not_false, if_true,
        Session.matchSearch, hl, hb, hne, and_false, if_false, hkind, Option.getD_some, reduceCtorEq, hexp,
        Session.matchFit, hx, hpf, hlt, h2, Session.matchRefit, Session.clearMatches, hr]
      exact ⟨_, _, rfl⟩
  · simp only [Session.matchPeaks, hin, Session.refineStep, h1, Bool.not_false, if_true,
      Session.matchSearch, hl, hb, hne, and_false, if_false, hkind, Option.getD_some, reduceCtorEq, hexp,
      Session.matchFit, hx, hpf, hlt]
  · simp only [Session.matchPeaks, hin, Session.refineStep, h1, Bool.not_false, if_true,
      Session.matchSearch, hl, hb, hne, and_false, if_false, hkind, Option.getD_some, reduceCtorEq, hexp,
      Session.matchFit, hx, hpf, hlt, h2, Session.matchRefit, Session.clearMatches, hr]

/-- C205, what holds: exactly when `match_peaks` with given coefficients and the robust fit returns a result.  What is
missing: peaks with several lines, which make it raise. -/
theorem C205_returns_partial (F : FitEnv K) (M : MatchKernels K) (s : Session K) (a : MatchArgs K) (b : FitType)
    (co lines : List K) (arr : Bool) (hc : a.coeff = some (arr, co)) (hne : co ≠ []) (h1 : a.refine = false)
    (h2 : a.robust = true) (hb : s.basis = some b) (hl : s.world.atlasLines = .ok lines) :
    (∃ s' r, s.matchPeaks F M a = (s', .ok (.report r))) ↔
      ∃ ps ys fitted c, ps = s.world.cal.peaks.filter (fun p => decide (Near lines a.tol ((F.kern b).polyval co p))) ∧
        ps ≠ [] ∧ List.Forall₂ (fun p l => OnlyNear lines a.tol ((F.kern b).polyval co p) l) ps ys ∧
        (F.kern b).polyfit (ps.map .fin) (ys.map .fin) (a.deg.getD (co.length - 1)) = .ok fitted ∧
        (List.zipWith (fun x y => |y - (F.kern b).polyval fitted x|) ps ys).sum < 10 ^ 9 ∧
        M.robust ps ys (a.deg.getD (co.length - 1)) none = .ok c := by
  constructor
  · rintro ⟨s', r, h⟩
    obtain ⟨b', co', lines', fitted, res, new, R⟩ := matchPeaks_report F M s a s' r h
    have eb : b' = b := Option.some.inj (R.basis.symm.trans hb)
    have el : lines' = lines := Except.ok.inj (R.hasLines.symm.trans hl)
    have eco : co' = co := by
      rcases R.start with ⟨arr', f1⟩ | ⟨f1, f2⟩
      · rw [hc] at f1; exact (Prod.mk.inj (Option.some.inj f1)).2.symm
      · rw [hc] at f1; cases f1
    subst eb el eco
    have ho := R.only
    have hn := R.nonempty
    have hp := R.polyfit
    rw [R.peaks] at ho hn hp
    obtain ⟨-, g2, g3⟩ := matchPeaks_singles F M s a b' co' lines' r.atlas fitted arr hc hne h1 h2 hb hl ho hn hp
    by_cases hlt : (List.zipWith (fun x y => |y - (F.kern b').polyval fitted x|)
        (nearPeaks ((F.kern b').polyval co') lines' a.tol s.world.cal.peaks) r.atlas).sum < 10 ^ 9
    · cases hr : M.robust (nearPeaks ((F.kern b').polyval co') lines' a.tol s.world.cal.peaks) r.atlas
          (a.deg.getD (co'.length - 1)) none with
      | error e =>
        have := g3 hlt e hr
        rw [h] at this
        cases this
      | ok c => exact ⟨_, r.atlas, fitted, c, rfl, hn, ho, hp, hlt, hr⟩
    · have := g2 hlt
      rw [h] at this
      cases this
  · rintro ⟨ps, ys, fitted, c, rfl, hn, ho, hp, hlt, hr⟩
    exact (matchPeaks_singles F M s a b co lines ys fitted arr hc hne h1 h2 hb hl ho hn hp).1 hlt c hr

/-- Lines at least twice the tolerance apart leave one line for every peak that has one. -/
theorem onlyNear_of_apart (lines : List K) (tol : K) (h : lines.Pairwise (fun x y => 2 * tol ≤ |y - x|)) (x : K)
    (hn : Near lines tol x) : ∃ l, OnlyNear lines tol x l := by
  obtain ⟨l, hl, hd⟩ := hn
  obtain ⟨l₁, l₂, rfl⟩ := List.append_of_mem hl
  refine ⟨l, l₁, l₂, rfl, hd, fun v hv hv' => ?_⟩
  have far : 2 * tol ≤ |l - v| := by
    rw [List.pairwise_append] at h
    rcases List.mem_append.1 hv with hv | hv
    · exact h.2.2 v hv l List.mem_cons_self
    · rw [abs_sub_comm]
      exact (List.pairwise_cons.1 h.2.1).1 v hv
  have : |l - v| ≤ |l - x| + |v - x| := by
    rw [abs_sub_comm v x]
    exact abs_sub_le l x v
  linarith

/-- C205, what holds: if all lines are at least twice the tolerance apart, `match_peaks` returns a result when the two
fits of the matched pairs return, and the first is not off by 10⁹.  What is missing: lines closer together. -/
theorem C205_apart_partial (F : FitEnv K) (M : MatchKernels K) (s : Session K) (a : MatchArgs K) (b : FitType)
    (co lines : List K) (arr : Bool) (hc : a.coeff = some (arr, co)) (hne : co ≠ []) (h1 : a.refine = false)
    (h2 : a.robust = true) (hb : s.basis = some b) (hl : s.world.atlasLines = .ok lines)
    (hap : lines.Pairwise (fun x y => 2 * a.tol ≤ |y - x|))
    (hn : ∃ p ∈ s.world.cal.peaks, Near lines a.tol ((F.kern b).polyval co p))
    (ps : List K) (hps : ps = s.world.cal.peaks.filter (fun p => decide (Near lines a.tol ((F.kern b).polyval co p))))
    (hfit : ∀ ys, List.Forall₂ (fun p y => y ∈ lines ∧ |y - (F.kern b).polyval co p| < a.tol) ps ys →
      ∃ fitted c, (F.kern b).polyfit (ps.map .fin) (ys.map .fin) (a.deg.getD (co.length - 1)) = .ok fitted ∧
        (List.zipWith (fun x y => |y - (F.kern b).polyval fitted x|) ps ys).sum < 10 ^ 9 ∧
        M.robust ps ys (a.deg.getD (co.length - 1)) none = .ok c) :
    ∃ s' r, s.matchPeaks F M a = (s', .ok (.report r)) := by
  rw [C205_returns_partial F M s a b co lines arr hc hne h1 h2 hb hl]
  have hch : ∀ ps : List K, (∀ p ∈ ps, Near lines a.tol ((F.kern b).polyval co p)) →
      ∃ ys, List.Forall₂ (fun p l => OnlyNear lines a.tol ((F.kern b).polyval co p) l) ps ys := by
    intro ps
    induction ps with
    | nil => exact fun _ => ⟨[], .nil⟩
    | cons p ps ih =>
      intro h
      obtain ⟨ys, hys⟩ := ih (fun q hq => h q (List.mem_cons_of_mem _ hq))
      obtain ⟨l, hl⟩ := onlyNear_of_apart lines a.tol hap _ (h p List.mem_cons_self)
      exact ⟨l :: ys, .cons hl hys⟩
  obtain ⟨ys, hys⟩ := hch (s.world.cal.peaks.filter (fun p => decide (Near lines a.tol ((F.kern b).polyval co p))))
    (fun p hp => by simpa using (List.mem_filter.1 hp).2)
  have hpn : s.world.cal.peaks.filter (fun p => decide (Near lines a.tol ((F.kern b).polyval co p))) ≠ [] := by
    obtain ⟨p, hp, hp'⟩ := hn
    exact List.ne_nil_of_mem (List.mem_filter.2 ⟨hp, decide_eq_true hp'⟩)
  obtain ⟨fitted, c, f1, f2, f3⟩ := hfit ys (hps ▸ hys.imp (fun p y ⟨l₁, l₂, e1, e2, _⟩ => ⟨by rw [e1]; simp, e2⟩))
  subst hps
  exact ⟨_, ys, fitted, c, rfl, hpn, hys, f1, f2, f3⟩

/-- C205, what holds: the lines `Atlas.add` takes for one element from the packaged list, in vacuum and without a limit
on their number, are at least `min_distance` apart, so that a tolerance of half of it leaves no ambiguous peak.  What is
missing: several elements, and `brightest_n_lines`, which `add_atlas` always uses. -/
theorem C205_min_distance_partial (env : Env K) (at_ at' : Atlas K) (a : AddArgs K) (e : String) (tol : K)
    (h0 : at_.lines = []) (he : a.elements = .str e) (hl : a.linelist = .nist) (hv : a.vacuum = true)
    (hbr : a.brightest = none) (ht : ThresholdsFit [e] a.minIntensity) (hd : 0 < a.minDistance)
    (htol : 2 * tol ≤ a.minDistance) (h : at_.add env a = (at', .ok ())) (x : K) :
    at'.getLines.Pairwise (fun v w => a.minDistance ≤ |w - v|) ∧
      (Near at'.getLines tol x → ∃ l, OnlyNear at'.getLines tol x l) := by
  obtain ⟨lo, hi, rs, -, -, hs, hat⟩ := (C44_add env at_ a at').1 h
  have key : at'.getLines.Pairwise (fun v w => a.minDistance ≤ |w - v|) := by
    rw [he] at hs
    change List.Forall₂ (Selects env a lo hi) [e] rs at hs
    cases hs with
    | cons h1 h2 =>
      rename_i r rs
      cases h2
      have hlines : at'.getLines = (nistOf r).map AtlasLine.wl := by
        rw [hat]
        simp [Atlas.getLines, h0]
      rw [hlines]
      have h1' : loadCalibrationLines env.argsort a.airToVac a.vacToAir env.nistRows [e] lo hi a.minIntensity
          a.minDistance true none = .ok r := by
        have := h1
        unfold Selects loadFromFile at this
        rw [hl, hv, hbr] at this
        exact this
      obtain ⟨sel, -, -, g0, g1, g2⟩ := C07_min_distance_partial env.argsort a.airToVac a.vacToAir env.nistRows [e] lo hi
        a.minIntensity a.minDistance hd ht
      rcases Nat.lt_or_ge sel.length 2 with hlt | hge
      · rcases Nat.lt_or_ge sel.length 1 with hlt1 | hge1
        · rw [g0 (by omega)] at h1'
          cases h1'
        · rw [g1 (by omega)] at h1'
          cases h1'
          simp [nistOf]
      · obtain ⟨out, o1, -, -, o4⟩ := g2 hge
        rw [o1] at h1'
        cases h1'
        have : (nistOf (⟨out.map Row.elem, out.map Row.wl, out.map Row.inten⟩ : LineArrays K)).map AtlasLine.wl =
            out.map Row.wl := by
          clear o1 o4 hat hlines h1
          induction out with
          | nil => simp [nistOf]
          | cons q out ih => simp only [nistOf, List.map_cons, List.zip_cons_cons] at ih ⊢; rw [ih]
        rw [this]
        exact o4
  exact ⟨key, onlyNear_of_apart _ _ (key.imp (fun hvw => htol.trans hvw)) x⟩

/-- C205, what holds: with `refine=True` and the robust fit, a call with an array of coefficients returns a result exactly
when the minimiser returns numbers, not more of them than there are coefficients, and the call without refinement returns
a result.  What is missing: a list of coefficients, which makes the call raise, and `robust_refit=False`. -/
theorem C205_refined_partial (F : FitEnv K) (M : MatchKernels K) (s : Session K) (a : MatchArgs K) (co : List K)
    (hc : a.coeff = some (true, co)) (h1 : a.refine = true) (h2 : a.robust = true) :
    (∃ s' r, s.matchPeaks F M a = (s', .ok (.report r))) ↔
      (∃ d, M.minimize (s.objective F a co)
          ((pyTake co (a.nDelta.getD ((co.length : Int) - 1))).map (fun c => c * (1 / 1000))) = .ok (some d) ∧
        d.length ≤ co.length) ∧
      ∃ s' r, s.matchPeaks F M { a with refine := false } = (s', .ok (.report r)) := by
  have hi : s.inputCoeff a = .ok (.array, co) := by
    unfold Session.inputCoeff
    rw [hc]
    rfl
  constructor
  · rintro ⟨s', r, h⟩
    refine ⟨?_, s', r, C98_refine_without_effect_partial F M s s' a r h2 h⟩
    unfold Session.matchPeaks at h
    rw [hi] at h
    dsimp only at h
    unfold Session.refineStep at h
    rw [h1] at h
    simp only [Bool.not_true, Bool.false_eq_true, if_false] at h
    cases hm : M.minimize (s.objective F a co)
        ((pyTake co (a.nDelta.getD ((co.length : Int) - 1))).map (fun c => c * (1 / 1000))) with
    | error e => rw [hm] at h; cases h
    | ok o =>
      cases o with
      | none => rw [hm] at h; cases h
      | some d =>
        refine ⟨d, rfl, ?_⟩
        by_contra hlt
        rw [hm] at h
        dsimp only at h
        unfold addDelta at h
        rw [if_pos (not_le.1 hlt)] at h
        cases h
  · rintro ⟨⟨d, hm, hd⟩, s', r, h⟩
    refine ⟨s', r, ?_⟩
    have hrefit : ∀ (s : Session K) (b : FitType) (deg : Nat) (new new' : Refined K)
        (fitted xs ys res : List K) (rms pu au : K),
        s.matchRefit F M b true deg new fitted xs ys res rms pu au =
          s.matchRefit F M b true deg new' fitted xs ys res rms pu au := by
      intros; rfl
    have hsearch : ∀ (kind : CoeffKind) (co : List K) (new : Refined K),
        s.matchSearch F M a kind co new = s.matchSearch F M { a with refine := false } kind co .skipped := by
      intro kind co new
      unfold Session.matchSearch Session.matchFit
      dsimp only
      rw [h2]
      simp only [hrefit _ _ _ new .skipped]
    have hst : s.refineStep F M a .array co =
        .ok (.coeffs (co.mapIdx (fun i c => c + d.getD i 0))) := by
      unfold Session.refineStep
      rw [h1]
      simp only [Bool.not_true, Bool.false_eq_true, if_false]
      rw [hm]
      dsimp only
      unfold addDelta
      rw [if_neg (not_lt.2 hd)]
    have hi' : s.inputCoeff { a with refine := false } = .ok (.array, co) := hi
    unfold Session.matchPeaks at h ⊢
    rw [hi'] at h
    rw [hi]
    dsimp only at h ⊢
    rw [hst]
    dsimp only
    rw [hsearch]
    exact h

/-- C205, what holds: a list of coefficients with `refine=True` raises TypeError and changes nothing, whatever else is
given. -/
theorem C205_refined_list (F : FitEnv K) (M : MatchKernels K) (s : Session K) (a : MatchArgs K) (co : List K)
    (hc : a.coeff = some (false, co)) (h1 : a.refine = true) : s.matchPeaks F M a = (s, .error .typeError) := by
  unfold Session.matchPeaks Session.inputCoeff
  rw [hc]
  dsimp only
  unfold Session.refineStep
  rw [h1]
  rfl

/-- C205: the stored coefficients of a solution are used like the same coefficients given as an array. -/
theorem C205_stored (F : FitEnv K) (M : MatchKernels K) (s : Session K) (a : MatchArgs K) (co : List K)
    (hs : s.world.cal.fitCoeff = some co) (hk : s.coeffKind = .array) :
    s.matchPeaks F M { a with coeff := none } = s.matchPeaks F M { a with coeff := some (true, co) } := by
  have hi : s.inputCoeff { a with coeff := none } = .ok (.array, co) := by
    unfold Session.inputCoeff
    dsimp only
    rw [hs]
    dsimp only
    rw [hk]
  have hi' : s.inputCoeff { a with coeff := some (true, co) } = .ok (.array, co) := rfl
  unfold Session.matchPeaks
  rw [hi, hi']
  rfl

end

/-! ### refutation and concrete cases -/

/-- The expected behaviour: with `min_distance` at least twice the tolerance, no peak has two lines, so that `match_peaks`
does not raise TypeError unless one of the fits does. -/
def C205_Statement : Prop :=
  ∀ (env : Env ℚ) (F : FitEnv ℚ) (M : MatchKernels ℚ) (s : Session ℚ) (c : AddArgs ℚ) (candTol : ℚ) (constrain : Bool)
    (a : MatchArgs ℚ) (b : FitType) (co lines : List ℚ) (arr : Bool), IsArgsort env.argsort → s.world.cal.atlas = none →
    (s.world.addAtlas env c candTol constrain).2 = .ok () → c.vacuum = true → 2 * a.tol ≤ c.minDistance →
    a.coeff = some (arr, co) → co ≠ [] → a.refine = false → a.robust = true → s.basis = some b →
    (s.world.addAtlas env c candTol constrain).1.atlasLines = .ok lines →
    (∃ p ∈ s.world.cal.peaks, Near lines a.tol ((F.kern b).polyval co p)) →
    (∀ xs ys n, (F.kern b).polyfit xs ys n ≠ .error .typeError) → (∀ xs ys n x0, M.robust xs ys n x0 ≠ .error .typeError) →
    (Session.matchPeaks F M { s with world := (s.world.addAtlas env c candTol constrain).1 } a).2 ≠ .error .typeError

/-- Three xenon lines, two of them close together and of different brightness. -/
def Toy.closeList : Env ℚ := ⟨stableArgsort, [⟨"Xe", 5900, 90⟩, ⟨"Xe", 5905, 70⟩, ⟨"Xe", 8700, 80⟩], fun _ => none⟩

/-- `add_atlas("Xe", vacuum=True, min_distance=20)`. -/
def Toy.farArgs : AddArgs ℚ := ⟨.str "Xe", none, none, .scalar 10, 20, true, id, id, .nist, none⟩

theorem Toy.line_no_type (xs ys : List ℚ) : Toy.line xs ys ≠ .error .typeError := by
  unfold Toy.line
  dsimp only
  split <;> simp

theorem Toy.raised_some {α : Type _} {r : Session ℚ × PyRes α} {e : PyErr} (h : Toy.raised r = some e) :
    r.2 = .error e := by
  unfold Toy.raised at h
  split at h
  · rename_i e' he; rw [he]; cases h; rfl
  · cases h

set_option synthInstance.maxSize 2000 in
set_option synthInstance.maxHeartbeats 400000 in
/-- C205 is false: of the three lines none is removed, because they are compared in the order of their brightness. -/
theorem C205_refuted : ¬ C205_Statement := by
  intro h
  have hc : Toy.bare.toOption.map (fun s =>
      (s.world.cal.atlas, (s.world.addAtlas Toy.closeList Toy.farArgs 10 false).2.toOption, s.basis,
        (s.world.addAtlas Toy.closeList Toy.farArgs 10 false).1.atlasLines.toOption, s.world.cal.peaks,
        Toy.raised (Session.matchPeaks Toy.env Toy.mkern
          { s with world := (s.world.addAtlas Toy.closeList Toy.farArgs 10 false).1 } Toy.matchArgs))) =
      some (none, some (), some .poly, some [5900, 8700, 5905], [10, 20], some .typeError) := by decide +kernel
  cases hs : Toy.bare with
  | error e => rw [hs] at hc; simp [Except.toOption] at hc
  | ok s =>
    rw [hs] at hc
    simp only [Except.toOption, Option.map_some, Option.some.injEq, Prod.mk.injEq] at hc
    obtain ⟨h1, h2, h3, h4, h5, h6⟩ := hc
    have h2' : (s.world.addAtlas Toy.closeList Toy.farArgs 10 false).2 = .ok () := by
      cases hr : (s.world.addAtlas Toy.closeList Toy.farArgs 10 false).2 with
      | error e => rw [hr] at h2; cases h2
      | ok u => rfl
    have h4' : (s.world.addAtlas Toy.closeList Toy.farArgs 10 false).1.atlasLines = .ok [5900, 8700, 5905] := by
      cases hr : (s.world.addAtlas Toy.closeList Toy.farArgs 10 false).1.atlasLines with
      | error e => rw [hr] at h4; cases h4
      | ok u => rw [hr] at h4; cases h4; rfl
    refine h Toy.closeList Toy.env Toy.mkern s Toy.farArgs 10 false Toy.matchArgs .poly [3101, 280] [5900, 8700, 5905] true
      stableArgsort_isArgsort h1 h2' rfl (by decide +kernel) rfl (by simp) rfl rfl h3 h4'
      ⟨10, by rw [h5]; simp, by decide +kernel⟩ ?_ ?_ ?_
    · intro xs ys n
      show (if n = 1 then Toy.line (Toy.finites xs) (Toy.finites ys) else .error .valueError) ≠ _
      split
      · exact Toy.line_no_type _ _
      · simp
    · intro xs ys n x0
      show (if n = 1 then
        if ys.all (fun y => decide (y = ys.headD 0)) then .error .valueError
        else match Toy.line xs ys with
          | .error e => .error e
          | .ok co => .ok (some co)
        else .error .valueError : PyRes (Option (List ℚ))) ≠ _
      split
      · split
        · simp
        · have := Toy.line_no_type xs ys
          revert this
          cases Toy.line xs ys <;> simp
      · simp
    · exact Toy.raised_some h6

theorem Toy.pair_lines : Toy.pair.world.atlasLines = .ok [5900, 8700] := by
  have h : Toy.pair.world.atlasLines.toOption = some [5900, 8700] := by decide +kernel
  cases hl : Toy.pair.world.atlasLines with
  | error e => rw [hl] at h; cases h
  | ok l => rw [hl] at h; cases h; rfl

/-- A case for `C205_returns_partial` in which the call returns. -/
example := (C205_returns_partial Toy.env Toy.mkern Toy.pair Toy.matchArgs .poly [3101, 280] [5900, 8700] true rfl
  (by decide) rfl rfl (by decide +kernel) Toy.pair_lines).1 ⟨_, _, Toy.pair_match⟩

/-- A case for `C205_apart_partial`: two peaks and two lines, tolerance 10. -/
example : ∃ s' r, Toy.pair.matchPeaks Toy.env Toy.mkern Toy.matchArgs = (s', .ok (.report r)) := by
  refine C205_apart_partial Toy.env Toy.mkern Toy.pair Toy.matchArgs .poly [3101, 280] [5900, 8700] true rfl
    (by decide) rfl rfl (by decide +kernel) Toy.pair_lines (by decide +kernel) (by decide +kernel) [10, 20]
    (by decide +kernel) ?_
  intro ys hys
  cases hys with
  | cons h1 h2 =>
    cases h2 with
    | cons h2 h3 =>
      cases h3
      rename_i y z
      have hy : y = 5900 := by
        rcases List.mem_cons.1 h1.1 with h | h
        · exact h
        · rw [List.mem_singleton] at h
          subst h
          exact absurd h1.2 (by decide +kernel)
      have hz : z = 8700 := by
        rcases List.mem_cons.1 h2.1 with h | h
        · subst h
          exact absurd h2.2 (by decide +kernel)
        · exact List.mem_singleton.1 h
      subst hy hz
      exact ⟨[3100, 280], some [3100, 280], by decide +kernel, by decide +kernel, by decide +kernel⟩

/-- A case for `C205_min_distance_partial`: of the three lines of `closeList` only 8700 is left. -/
example : ∃ at' : Atlas ℚ, (Atlas.add Toy.closeList ⟨[], some (.fin 5000), some (.fin 9000), 0⟩ Toy.farArgs) = (at', .ok ()) ∧
    at'.getLines = [8700] ∧ Near at'.getLines 10 8705 ∧ ∃ l, OnlyNear at'.getLines 10 8705 l := by
  have h : Atlas.add Toy.closeList ⟨[], some (.fin 5000), some (.fin 9000), 0⟩ Toy.farArgs =
      (⟨[⟨8700, "Xe", 80, some "NIST"⟩], some (.fin 5000), some (.fin 9000), 0⟩, .ok ()) := by decide +kernel
  have hn : Near [8700] (10 : ℚ) 8705 := by decide +kernel
  exact ⟨_, h, rfl, hn, (C205_min_distance_partial Toy.closeList _ _ Toy.farArgs "Xe" 10 rfl rfl rfl rfl rfl
    (by intro vs hvs; cases hvs) (by decide +kernel) (by decide +kernel) h 8705).2 hn⟩

/-- A case for `C205_refined_partial` in which the call returns. -/
example := (C205_refined_partial Toy.env Toy.mkern Toy.pair { Toy.matchArgs with refine := true } [3101, 280] rfl rfl
  rfl).1 ⟨_, _, Toy.matchReport_some (by decide +kernel : Toy.matchReport _ = some Toy.matchFound)⟩

/-- A case for `C205_refined_list`. -/
example := C205_refined_list Toy.env Toy.mkern Toy.pair
  { Toy.matchArgs with refine := true, coeff := some (false, [3101, 280]) } [3101, 280] rfl rfl

/-- A case for `C205_stored`: the state after a match with given coefficients. -/
example := C205_stored Toy.env Toy.mkern (Toy.pair.matchPeaks Toy.env Toy.mkern Toy.matchArgs).1 Toy.matchArgs [3100, 280] (by decide +kernel) (by decide +kernel)

end Rascal
