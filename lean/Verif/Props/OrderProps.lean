import Verif.Props.SearchProps
import Verif.Props.RecoverProps

/-! Property theorems C189: matched wavelengths increase with the pixels. -/

set_option linter.unusedSectionVars false

namespace Rascal

section
variable {K : Type _} [Field K] [LinearOrder K] [IsStrictOrderedRing K] [FloorRing K]

/-- Fits of degree 1 are straight lines, as for powers, Legendre and Chebyshev polynomials. -/
structure Spec.StraightLines (k : Kernels K) : Prop where
  fit : ∀ x y t, k.polyfit x y 1 = .ok t → ∃ c0 c1, t = [c0, c1]
  value : ∀ c0 c1 p, k.polyval [c0, c1] p = c0 + c1 * p

open Spec

/-- The straight line behind the matches of a fit. -/
theorem trial_line (F : FitEnv K) (ha : IsArgsort F.argsortK) (w : World K) (a : FitArgs K) (rnd : FitRandom K)
    (r : FitReport K) (h : (w.fit F a rnd).2 = .done (.ok r)) (hdeg : a.degree = 1)
    (hk : StraightLines (F.kern a.fitType)) :
    ∃ lines L c0 c1, w.atlasLines = .ok lines ∧ (w.given a).enter F lines a rnd.uniform = some L ∧
      (∀ e ∈ r.matchedPeaks.zip r.matchedAtlas, e ∈ L.cfg.x.zip L.cfg.y ∧ |c0 + c1 * e.1 - e.2| < w.cal.ransac.tol ∧
        ∀ v, (e.1, v) ∈ L.cfg.x.zip L.cfg.y → |c0 + c1 * e.1 - e.2| ≤ |c0 + c1 * e.1 - v|) ∧
      ∀ p ∈ L.cfg.x, ∀ q ∈ L.cfg.x, p + 1 ≤ q → 0 < c1 := by
  obtain ⟨lines, L, s, co, data, prev, S⟩ := fit_success F ha w a rnd r h
  have hs := enter_spec F _ _ _ _ _ S.enter
  have hr := S.report
  obtain ⟨trial, t1, _, _, _, t5, t6⟩ := S.accepted.trial
  obtain ⟨trial', m, wt, f1, f2, _, f4, _⟩ := S.accepted.formula
  have heq : trial = trial' := by rw [t1] at f1; exact Except.ok.inj f1
  subst heq
  have h1 : L.cfg.fitDeg = 1 := hs.fitDeg.trans hdeg
  rw [h1] at t1
  obtain ⟨c0, c1, rfl⟩ := hk.fit _ _ _ t1
  rw [hs.tol] at t6
  refine ⟨lines, L, c0, c1, S.atlas, S.enter, ?_, ?_⟩
  · intro e he
    rw [hr] at he
    have hc := S.accepted.candidates e he
    have ht := t6 e he
    rw [hk.value] at ht
    refine ⟨hc, ht, ?_⟩
    intro v hv
    dsimp only at he
    rw [f4, List.mem_map] at he
    obtain ⟨z, hz, rfl⟩ := he
    have hz := (List.mem_filter.1 hz).1
    obtain ⟨_, _, n3, _⟩ := C57_matching _ _ _ _ f2
    obtain ⟨_, hcl, _, _⟩ := n3 z hz
    obtain ⟨ws, i, w1, w2, w3, _⟩ := hcl
    have := w3 v ((candTable_mem L.cfg.x L.cfg.y _ ws w1 v).2 hv)
    rw [hk.value] at this
    exact this
  · intro p hp q hq hpq
    cases hx : L.cfg.x with
    | nil => rw [hx] at hp; cases hp
    | cons b l =>
      have hmin := listMin_le b l
      have hmax := le_listMax b l
      have m1 : ∀ z ∈ L.cfg.x, listMin b l ≤ z ∧ z ≤ listMax b l := by
        rw [hx]
        intro z hz
        rcases List.mem_cons.1 hz with rfl | hz
        · exact ⟨hmin.1, hmax.1⟩
        · exact ⟨hmin.2 z hz, hmax.2 z hz⟩
      have hlo : listMin b l ∈ L.cfg.x := by rw [hx]; exact listMin_mem b l
      have hhi : listMax b l ∈ L.cfg.x := by rw [hx]; exact listMax_mem b l
      have hp' := m1 p hp
      have hq' := m1 q hq
      have := t5 _ hlo _ hhi m1 0 (by push_cast; linarith)
      rw [hk.value, hk.value] at this
      push_cast at this
      linarith

/-- C189, what holds of fits with a straight line: two matched peaks at least a pixel apart, whose lines are candidates
for both of them, have increasing wavelengths. -/
theorem C189_shared_partial (F : FitEnv K) (ha : IsArgsort F.argsortK) (w : World K) (a : FitArgs K) (rnd : FitRandom K)
    (r : FitReport K) (h : (w.fit F a rnd).2 = .done (.ok r)) (hdeg : a.degree = 1)
    (hk : StraightLines (F.kern a.fitType)) :
    ∃ lines L, w.atlasLines = .ok lines ∧ (w.given a).enter F lines a rnd.uniform = some L ∧
      ∀ e ∈ r.matchedPeaks.zip r.matchedAtlas, ∀ f ∈ r.matchedPeaks.zip r.matchedAtlas, e.1 + 1 ≤ f.1 →
        (e.1, f.2) ∈ L.cfg.x.zip L.cfg.y → (f.1, e.2) ∈ L.cfg.x.zip L.cfg.y → e.2 < f.2 := by
  have hdist : ∀ e ∈ r.matchedPeaks.zip r.matchedAtlas, ∀ f ∈ r.matchedPeaks.zip r.matchedAtlas, e.2 = f.2 → e = f := by
    obtain ⟨lines, L, s, co, data, prev, S⟩ := fit_success F ha w a rnd r h
    rw [S.report]
    have hn : ((s.matchedPeaks.zip s.matchedAtlas).map Prod.snd).Nodup := by
      rw [List.map_snd_zip (by rw [S.accepted.lengths.1, S.accepted.lengths.2])]
      exact S.accepted.distinct.2
    intro e he f hf hef
    exact List.inj_on_of_nodup_map hn he hf hef
  obtain ⟨lines, L, c0, c1, h1, h2, h3, h4⟩ := trial_line F ha w a rnd r h hdeg hk
  refine ⟨lines, L, h1, h2, ?_⟩
  intro e he f hf hlt hef hfe
  obtain ⟨e1, _, e3⟩ := h3 e he
  obtain ⟨f1, _, f3⟩ := h3 f hf
  have hc := h4 e.1 (List.of_mem_zip (a := e.1) (b := e.2) e1).1 f.1 (List.of_mem_zip (a := f.1) (b := f.2) f1).1 hlt
  have g1 := e3 f.2 hef
  have g2 := f3 e.2 hfe
  by_contra hge
  rw [not_lt] at hge
  have hne : f.2 < e.2 := by
    refine lt_of_le_of_ne hge (fun heq => ?_)
    have := hdist f hf e he heq
    rw [this] at hlt
    linarith
  have hpos : c0 + c1 * e.1 < c0 + c1 * f.1 := by nlinarith
  have q1 := sq_le_sq.2 g1
  have q2 := sq_le_sq.2 g2
  nlinarith

/-- C189, how far apart crossing matches can be: if two matched peaks, at least a pixel apart, have decreasing
wavelengths, then between any two matches the wavelength grows by less than 2 tolerances, plus 2 tolerances for every
distance of the crossing peaks. -/
theorem C189_crossing_partial (F : FitEnv K) (ha : IsArgsort F.argsortK) (w : World K) (a : FitArgs K) (rnd : FitRandom K)
    (r : FitReport K) (h : (w.fit F a rnd).2 = .done (.ok r)) (hdeg : a.degree = 1)
    (hk : StraightLines (F.kern a.fitType)) (e f : K × K) (he : e ∈ r.matchedPeaks.zip r.matchedAtlas)
    (hf : f ∈ r.matchedPeaks.zip r.matchedAtlas) (hlt : e.1 + 1 ≤ f.1) (hcross : f.2 ≤ e.2) :
    ∀ g ∈ r.matchedPeaks.zip r.matchedAtlas, ∀ q ∈ r.matchedPeaks.zip r.matchedAtlas, g.1 ≤ q.1 →
      q.2 - g.2 < 2 * w.cal.ransac.tol * (1 + (q.1 - g.1) / (f.1 - e.1)) := by
  obtain ⟨lines, L, c0, c1, _, _, h3, _⟩ := trial_line F ha w a rnd r h hdeg hk
  intro g hg q hq hgq
  have hd : 0 < f.1 - e.1 := by linarith
  have t1 := abs_lt.1 (h3 e he).2.1
  have t2 := abs_lt.1 (h3 f hf).2.1
  have t3 := abs_lt.1 (h3 g hg).2.1
  have t4 := abs_lt.1 (h3 q hq).2.1
  have hs : c1 * (f.1 - e.1) ≤ 2 * w.cal.ransac.tol := by
    have : c1 * (f.1 - e.1) = c1 * f.1 - c1 * e.1 := by ring
    rw [this]
    linarith [t1.1, t1.2, t2.1, t2.2]
  have hs' : c1 ≤ 2 * w.cal.ransac.tol / (f.1 - e.1) := by rwa [le_div_iff₀ hd]
  have hs2 : c1 * (q.1 - g.1) ≤ 2 * w.cal.ransac.tol / (f.1 - e.1) * (q.1 - g.1) :=
    mul_le_mul_of_nonneg_right hs' (by linarith)
  have e1 : 2 * w.cal.ransac.tol * (1 + (q.1 - g.1) / (f.1 - e.1)) =
      2 * w.cal.ransac.tol + 2 * w.cal.ransac.tol / (f.1 - e.1) * (q.1 - g.1) := by
    field_simp
  rw [e1]
  have e2 : c1 * (q.1 - g.1) = c1 * q.1 - c1 * g.1 := by ring
  linarith [t3.1, t3.2, t4.1, t4.2]

end

/-- C189, as expected of a calibration: a matched peak at a larger pixel has a larger wavelength. -/
def C189_Statement : Prop :=
  ∀ (F : FitEnv ℚ) (w : World ℚ) (a : FitArgs ℚ) (rnd : FitRandom ℚ) (r : FitReport ℚ), IsArgsort F.argsortK →
    (w.fit F a rnd).2 = .done (.ok r) →
    ∀ e ∈ r.matchedPeaks.zip r.matchedAtlas, ∀ f ∈ r.matchedPeaks.zip r.matchedAtlas, e.1 < f.1 → e.2 < f.2

/-- Peaks at 10, 11, 31 and 41, a wide tolerance and narrow candidates. -/
def Toy.crossing (lines : List ℚ) : PyRes (World ℚ) :=
  match Cal.new (fun _ => .ok ()) [10, 11, 31, 41] true none with
  | .error e => .error e
  | .ok c => .ok (World.steps Toy.calEnv
      ⟨[⟨lines.map (fun v => ⟨v, "Xe", 1, none⟩), none, none, 0⟩], c⟩
      [.setHough { numSlopes := some 4, xbins := some 7, ybins := some 7, linTol := some 10 },
       .setRansac { sampleSize := some 2, minFitError := some 0, tol := some 400 },
       .setAtlas 0 10 false])

/-- One try, candidates within `t`. -/
def Toy.narrowArgs (t : ℚ) : FitArgs ℚ := { fitDeg := 1, candTol := t, maxTries := 1 }

/-- The candidate pairs of a fit. -/
def Toy.candidates (w : World ℚ) (a : FitArgs ℚ) (u : Nat → ℚ) : List (ℚ × ℚ) :=
  match w.atlasLines with
  | .error _ => []
  | .ok lines => match (w.given a).enter Toy.env lines a u with
    | none => []
    | some L => L.cfg.x.zip L.cfg.y

/-- C189 is false: 11 is matched with 4590 and 10 with 4680, since 4590 is a candidate for 11 only. -/
theorem C189_refuted : ¬ C189_Statement := by
  intro h
  have hc : (Toy.crossing [4590, 4680, 7465, 8840]).toOption.bind (fun w =>
      (Toy.report (w.fit Toy.env (Toy.narrowArgs 60) ⟨fun _ => 0, [⟨[1, 1], [0, 0]⟩]⟩)).map (fun r =>
        r.matchedPeaks.zip r.matchedAtlas)) = some [(11, 4590), (10, 4680), (31, 7465), (41, 8840)] := by
    decide +kernel
  cases hw : Toy.crossing [4590, 4680, 7465, 8840] with
  | error e => rw [hw] at hc; simp [Except.toOption] at hc
  | ok w =>
    rw [hw] at hc
    simp only [Except.toOption, Option.bind_some, Option.map_eq_some_iff] at hc
    obtain ⟨r, hr, h1⟩ := hc
    have := h Toy.env w _ _ r stableArgsort_isArgsort (Toy.report_some _ _ hr) (10, 4680) (by rw [h1]; simp)
      (11, 4590) (by rw [h1]; simp) (by norm_num)
    norm_num at this

/-- The toy kernels fit straight lines. -/
theorem Toy.kern_lines : Spec.StraightLines Toy.kern where
  fit := by
    intro x y t ht
    have h1 : Toy.kern.polyfit x y 1 = Toy.line (Toy.finites x) (Toy.finites y) := rfl
    rw [h1] at ht
    unfold Toy.line at ht
    dsimp only at ht
    split at ht
    · cases ht
    · exact ⟨_, _, (Except.ok.inj ht).symm⟩
  value := by
    intro c0 c1 p
    have h1 : Toy.kern.polyval [c0, c1] p = c0 + p * (c1 + p * 0) := rfl
    rw [h1]
    ring

/-- Case of `C189_shared_partial`: with wider candidates 10 and 11 share 4500 and 4640, which are then in order. -/
example : (Toy.crossing [4500, 4640, 7440, 8840]).toOption.bind (fun w =>
      (Toy.report (w.fit Toy.env (Toy.narrowArgs 100) ⟨fun _ => 0, [⟨[1, 1], [0, 0]⟩]⟩)).map (fun r =>
        (r.matchedPeaks.zip r.matchedAtlas, Toy.candidates w (Toy.narrowArgs 100) (fun _ => 0)))) =
      some ([(10, 4500), (11, 4640), (31, 7440), (41, 8840)],
        [(10, 4640), (10, 4500), (11, 4640), (11, 4500), (31, 7440), (41, 8840)]) ∧
    (Toy.narrowArgs 100).degree = 1 ∧ Spec.StraightLines (Toy.env.kern (Toy.narrowArgs 100).fitType) ∧
    IsArgsort Toy.env.argsortK := by
  refine ⟨by decide +kernel, by decide +kernel, Toy.kern_lines, stableArgsort_isArgsort⟩

/-- Case of `C189_crossing_partial`: the crossing of `C189_refuted` has tolerance 400; from 31 to 41 the wavelength grows
by 1375, less than 800 * 11. -/
example : (Toy.crossing [4590, 4680, 7465, 8840]).toOption.bind (fun w =>
      (Toy.report (w.fit Toy.env (Toy.narrowArgs 60) ⟨fun _ => 0, [⟨[1, 1], [0, 0]⟩]⟩)).map (fun r =>
        (r.matchedPeaks.zip r.matchedAtlas, w.cal.ransac.tol))) =
      some ([(11, 4590), (10, 4680), (31, 7465), (41, 8840)], 400) ∧
    (8840 : ℚ) - 7465 < 2 * 400 * (1 + (41 - 31) / (11 - 10)) ∧ (Toy.narrowArgs 60).degree = 1 ∧
    Spec.StraightLines (Toy.env.kern (Toy.narrowArgs 60).fitType) := by
  refine ⟨by decide +kernel, by norm_num, by decide +kernel, Toy.kern_lines⟩

end Rascal
