import Verif.Proofs.PixelMatch

/-! Effect of a change of the pixel scale on the sampling loop. -/

set_option linter.unusedSectionVars false

namespace Rascal

open Spec

variable {K : Type _} [Field K] [LinearOrder K] [IsStrictOrderedRing K]

/-- The monotonicity check, which looks at the solution in steps of one pixel, decides alike on both pixel scales
for the polynomials fitted to samples of the given pixels (src/rascal/calibrator.py:585-600). -/
def Spec.SameMonotone [FloorRing K] (k : Kernels K) (s : K) (deg : Nat) (pixels : List K) : Prop :=
  ∀ l : List K, l.Pairwise (· < ·) → deg < l.length → (∀ p ∈ l, p ∈ pixels) →
    ∀ xs ys co, k.polyfit xs ys deg = .ok co →
      increasing ((monotoneGrid (l.map (fun v => s * v))).map (k.polyval (pixCoeffs s co))) =
        increasing ((monotoneGrid l).map (k.polyval co))

/-- The constants of the loop on the new pixel scale (src/rascal/calibrator.py:382-523), with the density given. -/
def Spec.pixCfg (s : K) (c : RansacCfg K) (d : Density K) : RansacCfg K :=
  { c with
    x := c.x.map (fun v => s * v), pixelList := c.pixelList.map (fun v => s * v),
    known := c.known.map (fun k => (k.1.map (mapFin (fun v => s * v)), k.2)), density := d }

/-- The best solution on the new pixel scale (src/rascal/calibrator.py:444-450). -/
def Spec.pixBest (s : K) (b : Best K) : Best K :=
  { b with coeffs := b.coeffs.map (pixCoeffs s), matchedPeaks := b.matchedPeaks.map (fun v => s * v) }

/-- A pass through the loop on the new pixel scale (src/rascal/calibrator.py:529-735). -/
def Spec.pixAttempt (s : K) : Attempt K → Attempt K
  | .retry => .retry
  | .next b => .next (pixBest s b)
  | .raised e b => .raised e (pixBest s b)

/-- The loop on the new pixel scale (src/rascal/calibrator.py:525-735). -/
def Spec.pixRun (s : K) : RunState K → RunState K
  | .finished b => .finished (pixBest s b)
  | .running b => .running (pixBest s b)
  | .raised e b => .raised e (pixBest s b)

section
variable {s : K} (hs : 0 < s)
include hs

theorem pixCoeffs_length (co : List K) : (pixCoeffs s co).length = co.length := by
  induction co with
  | nil => rfl
  | cons c co ih => simp [pixCoeffs, ih]

theorem addKnown_pix (known : Option (List (PyFloat K) × List (PyFloat K))) (xs ys : List K) :
    addKnown (known.map (fun k => (k.1.map (mapFin (fun v => s * v)), k.2))) (xs.map (fun v => s * v)) ys =
      ((addKnown known xs ys).1.map (mapFin (fun v => s * v)), (addKnown known xs ys).2) := by
  cases known with
  | none => simp [addKnown, Function.comp_def, mapFin]
  | some k => simp [addKnown, Function.comp_def, mapFin]

theorem sample_pix (c : RansacCfg K) (h2 : 2 ≤ (npUnique c.x).length) (dn : Density K) (d : Draw) (tr : Trial) :
    (pixCfg s c dn).sample d tr =
      (c.sample d tr).map (Option.map (fun p => (p.1.map (mapFin (fun v => s * v)), p.2))) := by
  cases tr with
  | brute idx =>
    simp only [RansacCfg.sample, pixCfg, takeIdx_map, addKnown_pix hs]
    split
    · rfl
    · have : (c.known.map (fun k => (k.1.map (mapFin (fun v => s * v)), k.2))).isSome = c.known.isSome :=
        Option.isSome_map
      simp only [this]
      rfl
  | random =>
    simp only [RansacCfg.sample, pixCfg]
    rw [npUnique_pix hs, sampleProb_pix hs _ (two_distinct c.x h2)]
    cases sampleProb (npUnique c.x) with
    | error e => rfl
    | ok _ =>
      dsimp only
      rw [pickDistinct_pix hs, pickWaves_pix hs (candTable c.x c.y) _ (candTable_pix hs c.x c.y)]
      cases pickWaves (candTable c.x c.y) (pickDistinct (npUnique c.x) c.sampleSize d.peaks) [] d.waves with
      | error e => rfl
      | ok o =>
        cases o with
        | none => rfl
        | some yh => simp [Except.map, addKnown_pix hs]

theorem interceptOk_pix (c : RansacCfg K) (dn : Density K) (co : List K) :
    (pixCfg s c dn).interceptOk (pixCoeffs s co) = c.interceptOk co := by
  cases co with
  | nil => rfl
  | cons a l => rfl

theorem inlierList_pix (tol : K) (m : List (K × K × K)) :
    inlierList tol (m.map (pixMatch s)) = (inlierList tol m).map (pixMatch s) := by
  unfold inlierList
  rw [List.filter_map]
  rfl

theorem fitResidual_pix (k : Kernels K) (hk : PixelKernels k s) (tol : K) (co mp ma : List K) :
    fitResidual k tol (pixCoeffs s co) (mp.map (fun v => s * v)) ma = fitResidual k tol co mp ma := by
  unfold fitResidual
  rw [List.zipWith_map_left]
  simp only [hk.polyval]

theorem oneToOne_pix (mp ma : List K) : oneToOne (mp.map (fun v => s * v)) ma = oneToOne mp ma := by
  unfold oneToOne
  simp only [npUnique_pix hs, List.length_map]

theorem judge_pix (k : Kernels K) (hk : PixelKernels k s) (c : RansacCfg K)
    (dn : Density K) (cost : PyFloat K) (mp ma co : List K) :
    (pixCfg s c dn).judge k cost (mp.map (fun v => s * v)) ma (pixCoeffs s co) =
      pixAttempt s (c.judge k cost mp ma co) := by
  unfold RansacCfg.judge
  simp only [show (pixCfg s c dn).tol = c.tol from rfl,
    show (pixCfg s c dn).minFitError = c.minFitError from rfl,
    show (pixCfg s c dn).minMatches = c.minMatches from rfl,
    show (pixCfg s c dn).minUtil = c.minUtil from rfl,
    show (pixCfg s c dn).nPeaks = c.nPeaks from rfl,
    fitResidual_pix hs k hk c.tol co mp ma, oneToOne_pix hs, List.length_map]
  split
  · rfl
  · split
    · rfl
    · split
      · rfl
      · split <;> rfl

theorem consider_pix (k : Kernels K) (hk : PixelKernels k s) (c : RansacCfg K)
    (dn : Density K) (cost : PyFloat K) (m : List (K × K × K)) (hm : (m.map (fun e => e.2.1)).Nodup) (b : Best K) :
    (pixCfg s c dn).consider k cost (m.map (pixMatch s)) (pixBest s b) =
      pixAttempt s (c.consider k cost m b) := by
  unfold RansacCfg.consider
  have h1 : ((inlierList c.tol m).map (pixMatch s)).map (fun e => e.2.1) =
      ((inlierList c.tol m).map (fun e => e.2.1)).map (fun v => s * v) := by rw [List.map_map, List.map_map]; rfl
  have h2 : ((inlierList c.tol m).map (pixMatch s)).map (fun e => e.2.2) =
      (inlierList c.tol m).map (fun e => e.2.2) := by rw [List.map_map]; rfl
  have hnd : ((inlierList c.tol m).map (fun e => e.2.1)).Nodup :=
    hm.sublist (List.Sublist.map _ List.filter_sublist)
  simp only [show (pixCfg s c dn).tol = c.tol from rfl, show (pixCfg s c dn).fitDeg = c.fitDeg from rfl,
    inlierList_pix hs, h1, h2]
  generalize (inlierList c.tol m).map (fun e => e.2.1) = mp at hnd ⊢
  generalize (inlierList c.tol m).map (fun e => e.2.2) = ma
  rw [List.length_map]
  split
  · rfl
  · rename_i hlen
    rw [hk.robust _ _ _ hnd (Nat.lt_of_not_le hlen)]
    cases k.robust mp ma c.fitDeg with
    | error e => cases e <;> rfl
    | ok co => exact judge_pix hs k hk c dn cost _ _ co

theorem compare_pix (k : Kernels K) (hk : PixelKernels k s) (c : RansacCfg K)
    (dn : Density K) (co : List K) (hw : (pixCfg s c dn).weight k (pixCoeffs s co) = c.weight k co)
    (m : List (K × K × K)) (hm : (m.map (fun e => e.2.1)).Nodup) (b : Best K) :
    (pixCfg s c dn).compare k (pixCoeffs s co) (m.map (pixMatch s)) (pixBest s b) =
      pixAttempt s (c.compare k co m b) := by
  unfold RansacCfg.compare
  rw [hw]
  cases c.weight k co with
  | error e => rfl
  | ok w =>
    have he : (m.map (pixMatch s)).map (fun e => clipErr (pixCfg s c dn).tol e.1) =
        m.map (fun e => clipErr c.tol e.1) := by
      rw [List.map_map]
      rfl
    simp only [he, pixCoeffs_length hs, show (pixBest s b).cost = b.cost from rfl]
    split
    · exact consider_pix hs k hk c dn _ m hm b
    · rfl

theorem evaluate_pix [FloorRing K] (k : Kernels K) (hk : PixelKernels k s) (c : RansacCfg K)
    (dn : Density K) (hw : ∀ co, (pixCfg s c dn).weight k (pixCoeffs s co) = c.weight k co)
    (hmon : ∀ xs ys co, k.polyfit xs ys c.fitDeg = .ok co →
      (pixCfg s c dn).monotoneOk k (pixCoeffs s co) = c.monotoneOk k co)
    (data : List (PyFloat K) × List (PyFloat K)) (hdet : Determined data.1 c.fitDeg) (b : Best K) :
    (pixCfg s c dn).evaluate k (data.1.map (mapFin (fun v => s * v)), data.2) (pixBest s b) =
      pixAttempt s (c.evaluate k data b) := by
  unfold RansacCfg.evaluate
  simp only [show (pixCfg s c dn).fitDeg = c.fitDeg from rfl, hk.polyfit _ _ _ hdet]
  cases hp : k.polyfit data.1 data.2 c.fitDeg with
  | error e => rfl
  | ok co =>
    simp only [Except.map, interceptOk_pix hs c dn co, hmon _ _ _ hp]
    split
    · rfl
    · split
      · rfl
      · rw [show npUnique (pixCfg s c dn).x = (npUnique c.x).map (fun v => s * v) from npUnique_pix hs c.x,
          show matchBijective (k.polyval (pixCoeffs s co)) (candTable (pixCfg s c dn).x (pixCfg s c dn).y)
            ((npUnique c.x).map (fun v => s * v)) = _ from
          matchBijective_pix hs (k.polyval co) (k.polyval (pixCoeffs s co)) (hk.polyval co)
            (candTable c.x c.y) (candTable (c.x.map (fun v => s * v)) c.y) (candTable_pix hs c.x c.y) (npUnique c.x)]
        rcases matchBijective_spec (k.polyval co) (candTable c.x c.y) (npUnique c.x) with
          ⟨m, hm, hnd, _⟩ | ⟨he, _⟩ | ⟨he, _⟩
        · rw [hm]
          cases m with
          | nil => rfl
          | cons a l => exact compare_pix hs k hk c dn co (hw co) (a :: l) hnd b
        · rw [he]; rfl
        · rw [he]; rfl

theorem attempt_pix [FloorRing K] (k : Kernels K) (hk : PixelKernels k s) (c : RansacCfg K)
    (h2 : 2 ≤ (npUnique c.x).length)
    (dn : Density K) (hw : ∀ co, (pixCfg s c dn).weight k (pixCoeffs s co) = c.weight k co)
    (hmon : ∀ xs ys co, k.polyfit xs ys c.fitDeg = .ok co →
      (pixCfg s c dn).monotoneOk k (pixCoeffs s co) = c.monotoneOk k co) (d : Draw) (tr : Trial)
    (hdet : ∀ data, c.sample d tr = .ok (some data) → Determined data.1 c.fitDeg) (b : Best K) :
    (pixCfg s c dn).attempt k d tr (pixBest s b) = pixAttempt s (c.attempt k d tr b) := by
  unfold RansacCfg.attempt
  rw [sample_pix hs c h2]
  cases hsm : c.sample d tr with
  | error e => rfl
  | ok o =>
    cases o with
    | none => rfl
    | some data => exact evaluate_pix hs k hk c dn hw hmon data (hdet data hsm) b

theorem run_pix [FloorRing K] (k : Kernels K) (hk : PixelKernels k s) (c : RansacCfg K)
    (h2 : 2 ≤ (npUnique c.x).length)
    (dn : Density K) (hw : ∀ co, (pixCfg s c dn).weight k (pixCoeffs s co) = c.weight k co)
    (hmon : ∀ xs ys co, k.polyfit xs ys c.fitDeg = .ok co →
      (pixCfg s c dn).monotoneOk k (pixCoeffs s co) = c.monotoneOk k co) (ds : List Draw) :
    ∀ (ts : List Trial) (b : Best K),
    (∀ tr ∈ ts, ∀ d data, c.sample d tr = .ok (some data) → Determined data.1 c.fitDeg) →
    (pixCfg s c dn).run k ds ts (pixBest s b) = pixRun s (c.run k ds ts b) := by
  induction ds with
  | nil =>
    intro ts b _
    cases ts <;> rfl
  | cons d ds ih =>
    intro ts b hdet
    cases ts with
    | nil => rfl
    | cons tr ts =>
      unfold RansacCfg.run
      rw [attempt_pix hs k hk c h2 dn hw hmon d tr (hdet tr (by simp) d) b]
      cases c.attempt k d tr b with
      | retry => exact ih (tr :: ts) b hdet
      | next b' => exact ih ts b' (fun q hq => hdet q (by simp [hq]))
      | raised e b' => rfl

end

end Rascal
