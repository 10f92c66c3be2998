import Verif.Proofs.AffineMatch

/-! Effect of a change of the wavelength scale on the sampling loop. -/

set_option linter.unusedSectionVars false

namespace Rascal

open Spec

variable {K : Type _} [Field K] [LinearOrder K] [IsStrictOrderedRing K]

/-- The constants of the loop on the new scale (src/rascal/calibrator.py:382-523), with the density given. -/
def Spec.affCfg (s t : K) (c : RansacCfg K) (d : Density K) : RansacCfg K :=
  { c with
    y := c.y.map (aff s t), tol := s * c.tol, minIntercept := aff s t c.minIntercept,
    maxIntercept := aff s t c.maxIntercept,
    known := c.known.map (fun k => (k.1, k.2.map (mapFin (aff s t)))), density := d,
    minFitError := s * c.minFitError }

/-- The best solutions on both scales (src/rascal/calibrator.py:444-450).  `P` are the costs that can occur;
the error only matters once a solution is accepted. -/
structure BestRel (s t : K) (P : PyFloat K → Prop) (b b' : Best K) : Prop where
  cost : ∀ q, P q → (mapFin (fun v => s * v) q).le b'.cost = q.le b.cost
  coeffs : b'.coeffs = b.coeffs.map (affCoeffs s t)
  err : b.coeffs ≠ none → b'.err = s * b.err
  residual : b'.residual = b.residual.map (fun l => l.map (fun v => s * v))
  inliers : b'.inliers = b.inliers
  peaks : b'.matchedPeaks = b.matchedPeaks
  atlas : b'.matchedAtlas = b.matchedAtlas.map (aff s t)

/-- Passes through the loop on both scales (src/rascal/calibrator.py:529-735). -/
def AttemptRel (s t : K) (P : PyFloat K → Prop) : Attempt K → Attempt K → Prop
  | .retry, .retry => True
  | .next b, .next b' => BestRel s t P b b'
  | .raised e b, .raised e' b' => e = e' ∧ BestRel s t P b b'
  | _, _ => False

/-- Loops on both scales (src/rascal/calibrator.py:525-735). -/
def RunRel (s t : K) (P : PyFloat K → Prop) : RunState K → RunState K → Prop
  | .finished b, .finished b' => BestRel s t P b b'
  | .running b, .running b' => BestRel s t P b b'
  | .raised e b, .raised e' b' => e = e' ∧ BestRel s t P b b'
  | _, _ => False

section
variable {s t : K} (hs : 0 < s)
include hs

theorem pickWaves_aff (cand cand' : K → Option (List K)) (hc : ∀ p, cand' p = (cand p).map (List.map (aff s t)))
    (ps : List K) : ∀ (used : List K) (seeds : List Nat),
    pickWaves cand' ps (used.map (aff s t)) seeds =
      (pickWaves cand ps used seeds).map (Option.map (List.map (aff s t))) := by
  induction ps with
  | nil => intro used seeds; rfl
  | cons p ps ih =>
    intro used seeds
    unfold pickWaves
    rw [hc p]
    cases cand p with
    | none => rfl
    | some ws =>
      have hf : (ws.map (aff s t)).filter (fun w => decide (w ∉ used.map (aff s t))) =
          (ws.filter (fun w => decide (w ∉ used))).map (aff s t) := by
        rw [List.filter_map]
        congr 1
        apply List.filter_congr
        intro w _
        simp only [Function.comp, List.mem_map_of_injective (aff_injective hs)]
      simp only [Option.map_some, hf]
      cases ws.filter (fun w => decide (w ∉ used)) with
      | nil => rfl
      | cons a l =>
        have := ih (used ++ [(a :: l).getD (seeds.headD 0 % (l.length + 1)) a]) seeds.tail
        rw [← this]
        simp only [List.map_cons, List.length_map]
        rw [List.map_append, List.map_cons, List.map_nil, ← List.map_cons]
        congr 3
        generalize seeds.headD 0 % (l.length + 1) = i
        simp only [List.getD_eq_getElem?_getD, List.getElem?_map]
        cases (a :: l)[i]? <;> rfl

theorem addKnown_aff (known : Option (List (PyFloat K) × List (PyFloat K))) (xs ys : List K) :
    addKnown (known.map (fun k => (k.1, k.2.map (mapFin (aff s t))))) xs (ys.map (aff s t)) =
      ((addKnown known xs ys).1, (addKnown known xs ys).2.map (mapFin (aff s t))) := by
  cases known with
  | none => simp [addKnown, Function.comp_def, mapFin]
  | some k => simp [addKnown, Function.comp_def, mapFin]

theorem sample_aff (c : RansacCfg K) (dn : Density K) (d : Draw) (tr : Trial) :
    (affCfg s t c dn).sample d tr =
      (c.sample d tr).map (Option.map (fun p => (p.1, p.2.map (mapFin (aff s t))))) := by
  cases tr with
  | brute idx =>
    simp only [RansacCfg.sample, affCfg, takeIdx_map, addKnown_aff hs]
    split
    · rfl
    · have : (c.known.map (fun k => (k.1, k.2.map (mapFin (aff s t))))).isSome = c.known.isSome :=
        Option.isSome_map
      simp only [this]
      rfl
  | random =>
    simp only [RansacCfg.sample, affCfg]
    cases sampleProb (npUnique c.x) with
    | error e => rfl
    | ok _ =>
      dsimp only
      have := pickWaves_aff hs (candTable c.x c.y) (candTable c.x (c.y.map (aff s t))) (candTable_aff hs c.x c.y)
        (pickDistinct (npUnique c.x) c.sampleSize d.peaks) [] d.waves
      rw [List.map_nil] at this
      rw [this]
      cases pickWaves (candTable c.x c.y) (pickDistinct (npUnique c.x) c.sampleSize d.peaks) [] d.waves with
      | error e => rfl
      | ok o =>
        cases o with
        | none => rfl
        | some yh => simp [Except.map, addKnown_aff hs]

theorem interceptOk_aff (c : RansacCfg K) (dn : Density K) (co : List K) (hco : co ≠ []) :
    (affCfg s t c dn).interceptOk (affCoeffs s t co) = c.interceptOk co := by
  cases co with
  | nil => exact absurd rfl hco
  | cons a l =>
    simp only [RansacCfg.interceptOk, affCfg, affCoeffs, List.getD_cons_zero, gt_iff_lt, aff_lt hs]

theorem increasing_aff (v : List K) : increasing (v.map (aff s t)) = increasing v := by
  unfold increasing
  rw [← List.map_tail, List.zipWith_map]
  congr 2
  funext a b
  have : aff s t a - aff s t b = s * (a - b) := aff_sub hs _ _
  simp only [this, gt_iff_lt, mul_pos_iff_of_pos_left hs]

theorem monotoneOk_aff [FloorRing K] (k : Kernels K) (hk : AffineKernels k s t) (c : RansacCfg K) (dn : Density K)
    (co : List K) (hco : co ≠ []) :
    (affCfg s t c dn).monotoneOk k (affCoeffs s t co) = c.monotoneOk k co := by
  unfold RansacCfg.monotoneOk
  have : (monotoneGrid (npUnique (affCfg s t c dn).x)).map (k.polyval (affCoeffs s t co)) =
      ((monotoneGrid (npUnique c.x)).map (k.polyval co)).map (aff s t) := by
    rw [List.map_map]
    apply List.map_congr_left
    intro x _
    exact hk.polyval co x hco
  rw [this, increasing_aff hs]

theorem clipErr_scale (tol e : K) : clipErr (s * tol) (s * e) = s * clipErr tol e := by
  unfold clipErr
  simp only [gt_iff_lt, scale_lt hs]
  split <;> rfl

theorem inlierList_aff (tol : K) (m : List (K × K × K)) :
    inlierList (s * tol) (m.map (affMatch s t)) = (inlierList tol m).map (affMatch s t) := by
  unfold inlierList
  rw [List.filter_map]
  congr 1
  apply List.filter_congr
  intro e _
  simp only [Function.comp, affMatch, clipErr_scale hs, scale_lt hs]

theorem sum_scale (l : List K) : (l.map (fun v => s * v)).sum = s * l.sum := by
  induction l with
  | nil => simp
  | cons a l ih => simp only [List.map_cons, List.sum_cons, ih]; ring

theorem div_scale_fin (a b : K) :
    PyFloat.div (.fin (s * a)) (.fin b) = mapFin (fun v => s * v) (PyFloat.div (.fin a) (.fin b)) := by
  simp only [PyFloat.div]
  have h0 : s * a = 0 ↔ a = 0 := by simp [hs.ne']
  have h1 : 0 < s * a ↔ 0 < a := mul_pos_iff_of_pos_left hs
  by_cases hb : b = 0
  · simp only [hb, if_true, h0, h1]
    split
    · rfl
    · split <;> rfl
  · simp only [hb, if_false, mapFin, mul_div_assoc]

theorem div_scale (q : PyFloat K) (b : K) :
    PyFloat.div (mapFin (fun v => s * v) q) (.fin b) = mapFin (fun v => s * v) (PyFloat.div q (.fin b)) := by
  cases q with
  | fin a => exact div_scale_fin hs a b
  | posInf => simp only [mapFin, PyFloat.div]; split <;> rfl
  | negInf => simp only [mapFin, PyFloat.div]; split <;> rfl
  | nan => rfl

theorem trialCost_scale (errs : List K) (n : Nat) (w : K) :
    trialCost (errs.map (fun v => s * v)) n w = mapFin (fun v => s * v) (trialCost errs n w) := by
  unfold trialCost
  rw [sum_scale hs, List.length_map, div_scale_fin hs, div_scale hs]

theorem le_scale (a b : PyFloat K) :
    (mapFin (fun v => s * v) a).le (mapFin (fun v => s * v) b) = a.le b := by
  cases a <;> cases b <;> simp only [mapFin, PyFloat.le, scale_le hs]

theorem fitResidual_aff (k : Kernels K) (hk : AffineKernels k s t) (tol : K) (co mp ma : List K) (hco : co ≠ []) :
    fitResidual k (s * tol) (affCoeffs s t co) mp (ma.map (aff s t)) =
      (fitResidual k tol co mp ma).map (fun v => s * v) := by
  unfold fitResidual
  rw [List.map_map, List.zipWith_map_right, List.map_zipWith, List.map_zipWith]
  congr 1
  funext p a
  simp only [hk.polyval co p hco, Function.comp, gt_iff_lt]
  rw [aff_sub hs, abs_mul, abs_of_pos hs]
  simp only [scale_lt hs]
  split <;> rfl

theorem rmsOf_scale (k : Kernels K) (hk : AffineKernels k s t) (r : List K) :
    rmsOf k (r.map (fun v => s * v)) = s * rmsOf k r := by
  unfold rmsOf
  have : ((r.map (fun v => s * v)).map (fun v => v ^ 2)).sum = s ^ 2 * (r.map (fun v => v ^ 2)).sum := by
    induction r with
    | nil => simp
    | cons a l ih => simp only [List.map_cons, List.sum_cons, ih]; ring
  rw [this, List.length_map, mul_div_assoc, hk.sqrt]

theorem oneToOne_aff (mp ma : List K) : oneToOne mp (ma.map (aff s t)) = oneToOne mp ma := by
  unfold oneToOne
  simp only [npUnique_aff hs, List.length_map]

theorem judge_aff (k : Kernels K) (hk : AffineKernels k s t) (P : PyFloat K → Prop) (c : RansacCfg K)
    (dn : Density K) (cost : PyFloat K) (mp ma co : List K) (hco : co ≠ []) :
    AttemptRel s t P (c.judge k cost mp ma co)
      ((affCfg s t c dn).judge k (mapFin (fun v => s * v) cost) mp (ma.map (aff s t)) (affCoeffs s t co)) := by
  unfold RansacCfg.judge
  simp only [show (affCfg s t c dn).tol = s * c.tol from rfl,
    show (affCfg s t c dn).minFitError = s * c.minFitError from rfl,
    show (affCfg s t c dn).minMatches = c.minMatches from rfl,
    show (affCfg s t c dn).minUtil = c.minUtil from rfl,
    show (affCfg s t c dn).nPeaks = c.nPeaks from rfl,
    fitResidual_aff hs k hk c.tol co mp ma hco, rmsOf_scale hs k hk, scale_lt hs, oneToOne_aff hs]
  have hb : BestRel s t P
      ⟨cost, rmsOf k (fitResidual k c.tol co mp ma), some co, some (fitResidual k c.tol co mp ma), mp.length, mp, ma⟩
      ⟨mapFin (fun v => s * v) cost, s * rmsOf k (fitResidual k c.tol co mp ma), some (affCoeffs s t co),
        some ((fitResidual k c.tol co mp ma).map (fun v => s * v)), mp.length, mp, ma.map (aff s t)⟩ :=
    ⟨fun q _ => le_scale hs q cost, rfl, fun _ => rfl, rfl, rfl, rfl, rfl⟩
  split
  · trivial
  · split
    · trivial
    · split
      · trivial
      · split
        · exact hb
        · exact ⟨rfl, hb⟩

theorem consider_aff (k : Kernels K) (hk : AffineKernels k s t) (P : PyFloat K → Prop) (c : RansacCfg K)
    (dn : Density K) (cost : PyFloat K) (m : List (K × K × K)) (b b' : Best K) (hb : BestRel s t P b b') :
    AttemptRel s t P (c.consider k cost m b)
      ((affCfg s t c dn).consider k (mapFin (fun v => s * v) cost) (m.map (affMatch s t)) b') := by
  unfold RansacCfg.consider
  have h1 : ((inlierList c.tol m).map (affMatch s t)).map (fun e => e.2.1) =
      (inlierList c.tol m).map (fun e => e.2.1) := by rw [List.map_map]; rfl
  have h2 : ((inlierList c.tol m).map (affMatch s t)).map (fun e => e.2.2) =
      ((inlierList c.tol m).map (fun e => e.2.2)).map (aff s t) := by rw [List.map_map, List.map_map]; rfl
  simp only [show (affCfg s t c dn).tol = s * c.tol from rfl, show (affCfg s t c dn).fitDeg = c.fitDeg from rfl,
    inlierList_aff hs, h1, h2, hk.robust]
  split
  · trivial
  · cases hr : k.robust ((inlierList c.tol m).map (fun e => e.2.1)) ((inlierList c.tol m).map (fun e => e.2.2))
        c.fitDeg with
    | error e => cases e <;> first | exact ⟨rfl, hb⟩ | trivial
    | ok co =>
      exact judge_aff hs k hk P c dn cost _ _ co (hk.robust_ne _ _ _ _ hr)

theorem affCoeffs_length (co : List K) : (affCoeffs s t co).length = co.length := by
  cases co <;> simp [affCoeffs]

theorem compare_aff (k : Kernels K) (hk : AffineKernels k s t) (P : PyFloat K → Prop) (c : RansacCfg K)
    (dn : Density K) (co : List K)
    (hw : (affCfg s t c dn).weight k (affCoeffs s t co) = c.weight k co)
    (m : List (K × K × K))
    (hP : ∀ w, c.weight k co = .ok w → P (trialCost (m.map (fun e => clipErr c.tol e.1)) co.length w))
    (b b' : Best K) (hb : BestRel s t P b b') :
    AttemptRel s t P (c.compare k co m b)
      ((affCfg s t c dn).compare k (affCoeffs s t co) (m.map (affMatch s t)) b') := by
  unfold RansacCfg.compare
  rw [hw]
  cases hcw : c.weight k co with
  | error e => exact ⟨rfl, hb⟩
  | ok w =>
    have he : (m.map (affMatch s t)).map (fun e => clipErr (affCfg s t c dn).tol e.1) =
        (m.map (fun e => clipErr c.tol e.1)).map (fun v => s * v) := by
      rw [List.map_map, List.map_map]
      apply List.map_congr_left
      intro e _
      exact clipErr_scale hs _ _
    simp only [he, affCoeffs_length hs, trialCost_scale hs, hb.cost _ (hP w hcw)]
    split
    · exact consider_aff hs k hk P c dn _ m b b' hb
    · exact hb

/-- The costs of the trials of this configuration (src/rascal/calibrator.py:611-633). -/
def TrialCosts (k : Kernels K) (c : RansacCfg K) (P : PyFloat K → Prop) : Prop :=
  ∀ co m w, co ≠ [] → matchBijective (k.polyval co) (candTable c.x c.y) (npUnique c.x) = .ok m →
    c.weight k co = .ok w → P (trialCost (m.map (fun e => clipErr c.tol e.1)) co.length w)

theorem evaluate_aff [FloorRing K] (k : Kernels K) (hk : AffineKernels k s t) (P : PyFloat K → Prop) (c : RansacCfg K)
    (dn : Density K) (hw : ∀ co, co ≠ [] → (affCfg s t c dn).weight k (affCoeffs s t co) = c.weight k co)
    (hP : TrialCosts k c P) (data : List (PyFloat K) × List (PyFloat K))
    (hdet : t = 0 ∨ Determined data.1 c.fitDeg) (b b' : Best K) (hb : BestRel s t P b b') :
    AttemptRel s t P (c.evaluate k data b)
      ((affCfg s t c dn).evaluate k (data.1, data.2.map (mapFin (aff s t))) b') := by
  unfold RansacCfg.evaluate
  simp only [show (affCfg s t c dn).fitDeg = c.fitDeg from rfl, hk.polyfit _ _ _ hdet]
  cases hp : k.polyfit data.1 data.2 c.fitDeg with
  | error e => exact ⟨rfl, hb⟩
  | ok co =>
    have hco := hk.polyfit_ne _ _ _ _ hp
    simp only [Except.map, interceptOk_aff hs c dn co hco, monotoneOk_aff hs k hk c dn co hco]
    split
    · trivial
    · split
      · trivial
      · rw [show matchBijective (k.polyval (affCoeffs s t co)) (candTable (affCfg s t c dn).x (affCfg s t c dn).y)
            (npUnique (affCfg s t c dn).x) = _ from
          matchBijective_aff hs (k.polyval co) (k.polyval (affCoeffs s t co)) (fun x => hk.polyval co x hco)
            (candTable c.x c.y) (candTable c.x (c.y.map (aff s t))) (candTable_aff hs c.x c.y) (npUnique c.x)]
        cases hm : matchBijective (k.polyval co) (candTable c.x c.y) (npUnique c.x) with
        | error e => exact ⟨rfl, hb⟩
        | ok m =>
          cases m with
          | nil => trivial
          | cons a l =>
            exact compare_aff hs k hk P c dn co (hw co hco) (a :: l)
              (fun w h => hP co _ w hco hm h) b b' hb

theorem attempt_aff [FloorRing K] (k : Kernels K) (hk : AffineKernels k s t) (P : PyFloat K → Prop) (c : RansacCfg K)
    (dn : Density K) (hw : ∀ co, co ≠ [] → (affCfg s t c dn).weight k (affCoeffs s t co) = c.weight k co)
    (hP : TrialCosts k c P) (d : Draw) (tr : Trial)
    (hdet : t = 0 ∨ ∀ data, c.sample d tr = .ok (some data) → Determined data.1 c.fitDeg) (b b' : Best K) (hb : BestRel s t P b b') :
    AttemptRel s t P (c.attempt k d tr b) ((affCfg s t c dn).attempt k d tr b') := by
  unfold RansacCfg.attempt
  rw [sample_aff hs]
  cases hsm : c.sample d tr with
  | error e => exact ⟨rfl, hb⟩
  | ok o =>
    cases o with
    | none => exact hb
    | some data => exact evaluate_aff hs k hk P c dn hw hP data (hdet.imp id (fun h => h data hsm)) b b' hb

theorem run_aff [FloorRing K] (k : Kernels K) (hk : AffineKernels k s t) (P : PyFloat K → Prop) (c : RansacCfg K)
    (dn : Density K) (hw : ∀ co, co ≠ [] → (affCfg s t c dn).weight k (affCoeffs s t co) = c.weight k co)
    (hP : TrialCosts k c P) (ds : List Draw) : ∀ (ts : List Trial) (b b' : Best K),
    (t = 0 ∨ ∀ tr ∈ ts, ∀ d data, c.sample d tr = .ok (some data) → Determined data.1 c.fitDeg) →
    BestRel s t P b b' →
    RunRel s t P (c.run k ds ts b) ((affCfg s t c dn).run k ds ts b') := by
  induction ds with
  | nil =>
    intro ts b b' _ hb
    cases ts with
    | nil => simpa [RansacCfg.run, RunRel] using hb
    | cons _ _ => simpa [RansacCfg.run, RunRel] using hb
  | cons d ds ih =>
    intro ts b b' hdet hb
    cases ts with
    | nil => simpa [RansacCfg.run, RunRel] using hb
    | cons tr ts =>
      have h := attempt_aff hs k hk P c dn hw hP d tr (hdet.imp id (fun h => h tr (by simp) d)) b b' hb
      unfold RansacCfg.run
      revert h
      cases c.attempt k d tr b <;> cases (affCfg s t c dn).attempt k d tr b' <;> intro h <;>
        first | exact h.elim | skip
      · exact ih (tr :: ts) b b' hdet hb
      · exact ih ts _ _ (hdet.imp id (fun g q hq => g q (by simp [hq]))) h
      · exact h

end

end Rascal
