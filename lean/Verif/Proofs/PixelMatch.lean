import Verif.Proofs.PixelHough

/-! Effect of a change of the pixel scale on candidates and matching. -/

set_option linter.unusedSectionVars false

namespace Rascal

open Spec

variable {K : Type _} [Field K] [LinearOrder K] [IsStrictOrderedRing K]

/-- A candidate set on the new pixel scale (src/rascal/calibrator.py:259-261). -/
def Spec.pixCand (s : K) (c : Cand K) : Cand K := { c with peaks := c.peaks.map (fun v => s * v) }

/-- A match (error, peak, wavelength) on the new pixel scale (src/rascal/calibrator.py:345-376). -/
def Spec.pixMatch (s : K) (e : K × K × K) : K × K × K := (e.1, s * e.2.1, e.2.2)

section
variable {s : K} (hs : 0 < s)
include hs

theorem scale_strictMono : StrictMono (fun v : K => s * v) := fun _ _ h => (scale_lt hs _ _).2 h

theorem npUnique_pix (l : List K) : npUnique (l.map (fun v => s * v)) = (npUnique l).map (fun v => s * v) :=
  npUnique_map hs (scale_strictMono hs) l

theorem candidatesLinear_pix (wt : K → K → K) (tol : K) (lines pairs : List (K × K)) :
    candidatesLinear wt tol (lines.map (pixLine s)) (pairs.map (pixPair s)) =
      (candidatesLinear wt tol lines pairs).map (pixCand s) := by
  rw [candidatesLinear_eq, candidatesLinear_eq, List.map_map, List.map_map]
  apply List.map_congr_left
  intro l _
  have e : ∀ p : K × K, (pixLine s l).1 * (pixPair s p).1 + (pixLine s l).2 = l.1 * p.1 + l.2 := by
    intro p
    show l.1 / s * (s * p.1) + l.2 = _
    rw [div_mul_scale hs]
  have hf : (pairs.map (pixPair s)).filter (fun p => decide (|(pixLine s l).1 * p.1 + (pixLine s l).2 - p.2| ≤ tol)) =
      (pairs.filter (fun p => decide (|l.1 * p.1 + l.2 - p.2| ≤ tol))).map (pixPair s) := by
    rw [List.filter_map]
    congr 1
    apply List.filter_congr
    intro p _
    simp only [Function.comp, e]
    rfl
  simp only [Function.comp, hf, pixCand, List.map_map, Cand.mk.injEq]
  refine ⟨?_, ?_, ?_⟩
  · rfl
  · rfl
  · apply List.map_congr_left
    intro p _
    simp only [Function.comp, e]
    rfl

theorem polyCandidate_pix (wt : K → K → K) (tol : K) (arr : Bool) (peaks actual predicted : List K) :
    polyCandidate wt tol arr (peaks.map (fun v => s * v)) actual predicted =
      (polyCandidate wt tol arr peaks actual predicted).map (Option.map (pixCand s)) := by
  unfold polyCandidate
  dsimp only
  split
  · split
    · split
      · simp only [Except.map, Option.map_some, pixCand, boolMask_map]
      · rfl
    · rfl
  · split
    · split <;> rfl
    · rfl

theorem candidatesPoly_pix (wt : K → K → K) (tol : K) (arr : Bool) (peaks actual : List K) (f f' : K → K)
    (hf : ∀ x, f' (s * x) = f x) (ds : List K) :
    candidatesPoly wt tol arr (peaks.map (fun v => s * v)) actual f' ds =
      (candidatesPoly wt tol arr peaks actual f ds).map (List.map (pixCand s)) := by
  induction ds with
  | nil => rfl
  | cons d ds ih =>
    unfold candidatesPoly
    have hp : (peaks.map (fun v => s * v)).map (fun p => f' p + d) = peaks.map (fun p => f p + d) := by
      rw [List.map_map]
      apply List.map_congr_left
      intro p _
      simp only [Function.comp, hf]
    rw [hp, polyCandidate_pix hs, ih]
    cases polyCandidate wt tol arr peaks actual (peaks.map (fun p => f p + d)) with
    | error e => rfl
    | ok c =>
      cases candidatesPoly wt tol arr peaks actual f ds with
      | error e => rfl
      | ok cs => cases c <;> simp [Except.map]

theorem mostCommonOf_pix (argsort : List K → List Nat) (n : Int) (peak : K) (matched counts : List K) :
    mostCommonOf argsort n (s * peak) matched counts =
      ((mostCommonOf argsort n peak matched counts).1.map (fun v => s * v), (mostCommonOf argsort n peak matched counts).2) := by
  unfold mostCommonOf
  simp only [List.map_replicate]

theorem mask_pix (l : List K) (p : K) :
    (l.map (fun v => s * v)).map (fun v => decide (v = s * p)) = l.map (fun v => decide (v = p)) := by
  rw [List.map_map]
  apply List.map_congr_left
  intro v _
  simp only [Function.comp, scale_inj hs]

theorem mostCommon_pix (argsort : List K → List Nat) (cs : List (Cand K)) (n : Int) (wt : Bool) :
    mostCommon argsort (cs.map (pixCand s)) n wt =
      ((mostCommon argsort cs n wt).1.map (fun v => s * v), (mostCommon argsort cs n wt).2) := by
  unfold mostCommon
  have h1 : (cs.map (pixCand s)).flatMap Cand.peaks = (cs.flatMap Cand.peaks).map (fun v => s * v) := by
    rw [List.flatMap_map, List.map_flatMap]; rfl
  have h2 : (cs.map (pixCand s)).flatMap Cand.wls = cs.flatMap Cand.wls := by rw [List.flatMap_map]; rfl
  have h3 : (cs.map (pixCand s)).flatMap Cand.weights = cs.flatMap Cand.weights := by rw [List.flatMap_map]; rfl
  rw [h1, h2, h3]
  generalize cs.flatMap Cand.peaks = P
  generalize cs.flatMap Cand.wls = W
  generalize cs.flatMap Cand.weights = G
  dsimp only
  rw [npUnique_pix hs, List.map_map, List.flatMap_map, List.flatMap_map, List.flatMap_map, List.flatMap_map,
    List.map_flatMap]
  simp only [Function.comp_def, mask_pix hs, mostCommonOf_pix hs]

theorem filterClose_pix (tol : K) (x y : List K) :
    filterClose tol (x.map (fun v => s * v)) y = ((filterClose tol x y).1.map (fun v => s * v), (filterClose tol x y).2) := by
  unfold filterClose
  dsimp only
  rw [boolMask_map]

theorem mem_pix (l : List K) (p : K) : s * p ∈ l.map (fun v => s * v) ↔ p ∈ l :=
  List.mem_map_of_injective (scale_strictMono hs).injective

theorem candTable_pix (x y : List K) (p : K) : candTable (x.map (fun v => s * v)) y (s * p) = candTable x y p := by
  unfold candTable
  simp only [mem_pix hs, mask_pix hs]

theorem nearestCandidates_pix (f f' : K → K) (hf : ∀ x, f' (s * x) = f x) (cand cand' : K → Option (List K))
    (hc : ∀ p, cand' (s * p) = cand p) (peaks : List K) :
    nearestCandidates f' cand' (peaks.map (fun v => s * v)) =
      (nearestCandidates f cand peaks).map (List.map (pixMatch s)) := by
  induction peaks with
  | nil => rfl
  | cons p ps ih =>
    rw [List.map_cons]
    unfold nearestCandidates
    rw [hc p]
    cases cand p with
    | none => rfl
    | some ws =>
      simp only [hf]
      rw [ih]
      cases argmin (ws.map (fun w => |f p - w|)) with
      | error e => rfl
      | ok i =>
        dsimp only
        cases nearestCandidates f cand ps with
        | error e => rfl
        | ok r => rfl

theorem resolveWavelength_pix (l : List (K × K × K)) (w : K) :
    resolveWavelength (l.map (pixMatch s)) w = (resolveWavelength l w).map (pixMatch s) := by
  unfold resolveWavelength
  have hm : boolMask (l.map (pixMatch s)) ((l.map (pixMatch s)).map (fun e => decide (e.2.2 = w))) =
      (boolMask l (l.map (fun e => decide (e.2.2 = w)))).map (pixMatch s) := by
    rw [boolMask_map, List.map_map]
    rfl
  simp only [hm]
  generalize boolMask l (l.map (fun e => decide (e.2.2 = w))) = m
  have h1 : (m.map (pixMatch s)).map (fun e => e.1) = m.map (fun e => e.1) := by rw [List.map_map]; rfl
  have h2 : (m.map (pixMatch s)).map (fun e => e.2.1) = (m.map (fun e => e.2.1)).map (fun v => s * v) := by
    rw [List.map_map, List.map_map]; rfl
  rw [h1, h2]
  cases ha : argmin (m.map (fun e => e.1)) with
  | error e => rfl
  | ok i =>
    obtain ⟨_, hm, _⟩ := argmin_spec ha
    have hi := (List.getElem?_eq_some_iff.mp hm).1
    rw [List.length_map] at hi
    simp [Except.map, pixMatch, List.getD_eq_getElem?_getD, hi]

theorem resolveAll_pix (l : List (K × K × K)) (ws : List K) :
    resolveAll (l.map (pixMatch s)) ws = (resolveAll l ws).map (List.map (pixMatch s)) := by
  induction ws with
  | nil => rfl
  | cons w ws ih =>
    unfold resolveAll
    rw [resolveWavelength_pix hs, ih]
    cases resolveWavelength l w with
    | error e => rfl
    | ok a => cases resolveAll l ws <;> rfl

theorem matchBijective_pix (f f' : K → K) (hf : ∀ x, f' (s * x) = f x) (cand cand' : K → Option (List K))
    (hc : ∀ p, cand' (s * p) = cand p) (peaks : List K) :
    matchBijective f' cand' (peaks.map (fun v => s * v)) = (matchBijective f cand peaks).map (List.map (pixMatch s)) := by
  unfold matchBijective
  rw [nearestCandidates_pix hs f f' hf cand cand' hc]
  cases nearestCandidates f cand peaks with
  | error e => rfl
  | ok l =>
    have hm : ∀ m : List (K × K × K), (m.map (pixMatch s)).map (fun e => e.2.2) = m.map (fun e => e.2.2) := by
      intro m; rw [List.map_map]; rfl
    have hm1 : ∀ m : List (K × K × K), (m.map (pixMatch s)).map (fun e => e.2.1) =
        (m.map (fun e => e.2.1)).map (fun v => s * v) := by
      intro m; rw [List.map_map, List.map_map]; rfl
    simp only [Except.map]
    rw [hm, resolveAll_pix hs]
    cases resolveAll l (npUnique (l.map (fun e => e.2.2))) with
    | error e => rfl
    | ok r =>
      simp only [Except.map]
      rw [hm, hm1, npUnique_pix hs, List.length_map]
      split <;> rfl

/-! ### Sampling -/

theorem pickDistinct_pix (l : List K) (n : Nat) : ∀ (seeds : List Nat),
    pickDistinct (l.map (fun v => s * v)) n seeds = (pickDistinct l n seeds).map (fun v => s * v) := by
  induction n generalizing l with
  | zero => intro seeds; cases l <;> rfl
  | succ n ih =>
    intro seeds
    cases l with
    | nil => rfl
    | cons a l =>
      rw [List.map_cons]
      unfold pickDistinct
      dsimp only
      rw [List.length_map, ← List.map_cons]
      have e : ((a :: l).map (fun v => s * v)).getD (seeds.headD 0 % (l.length + 1)) (s * a) =
          s * (a :: l).getD (seeds.headD 0 % (l.length + 1)) a := by
        generalize seeds.headD 0 % (l.length + 1) = i
        simp only [List.getD_eq_getElem?_getD, List.getElem?_map]
        cases (a :: l)[i]? <;> rfl
      rw [e]
      generalize (a :: l).getD (seeds.headD 0 % (l.length + 1)) a = v
      rw [← List.map_erase (scale_strictMono hs).injective (f := fun v => s * v), ih, List.map_cons]

theorem pickWaves_pix (cand cand' : K → Option (List K)) (hc : ∀ p, cand' (s * p) = cand p)
    (ps : List K) : ∀ (used : List K) (seeds : List Nat),
    pickWaves cand' (ps.map (fun v => s * v)) used seeds = pickWaves cand ps used seeds := by
  induction ps with
  | nil => intro used seeds; rfl
  | cons p ps ih =>
    intro used seeds
    rw [List.map_cons]
    unfold pickWaves
    rw [hc p]
    cases cand p with
    | none => rfl
    | some ws =>
      dsimp only
      cases ws.filter (fun w => decide (w ∉ used)) with
      | nil => rfl
      | cons a l => exact ih _ _

theorem binEdges_pix (l : List K) (n : Nat) (h : ∃ a ∈ l, ∃ b ∈ l, a ≠ b) :
    binEdges (l.map (fun v => s * v)) n = (binEdges l n).map (fun v => s * v) := by
  rw [scale_eq_aff hs]
  apply binEdges_aff hs
  · rintro rfl
    obtain ⟨a, ha, _⟩ := h
    cases ha
  · exact Or.inr h

theorem peakCount_pix (l : List K) (h : ∃ a ∈ l, ∃ b ∈ l, a ≠ b) (p : K) :
    peakCount (l.map (fun v => s * v)) (s * p) = peakCount l p := by
  have h1 : digitizeRight (binEdges (l.map (fun v => s * v)) 10) (s * p) = digitizeRight (binEdges l 10) p := by
    unfold digitizeRight
    rw [binEdges_pix hs l 10 h, List.filter_map, List.length_map]
    congr 2
    funext e
    simp only [Function.comp, scale_lt hs]
  have h2 : histogram10 (l.map (fun v => s * v)) = histogram10 l := by
    unfold histogram10
    rw [binEdges_pix hs l 10 h]
    apply List.map_congr_left
    intro i _
    rw [List.countP_map]
    congr 1
    funext v
    have := binNumber_aff (s := s) (t := 0) hs (binEdges l 10) v
    rw [← scale_eq_aff hs] at this
    simp only at this
    simp only [Function.comp, this]
  unfold peakCount
  rw [h1, h2]

theorem sampleProb_pix (l : List K) (h : ∃ a ∈ l, ∃ b ∈ l, a ≠ b) :
    sampleProb (l.map (fun v => s * v)) = sampleProb l := by
  unfold sampleProb
  have : (l.map (fun v => s * v)).map (peakCount (l.map (fun v => s * v))) = l.map (peakCount l) := by
    rw [List.map_map]
    apply List.map_congr_left
    intro p _
    exact peakCount_pix hs l h p
  rw [this]

omit hs in
theorem two_distinct (l : List K) (h : 2 ≤ (npUnique l).length) :
    ∃ a ∈ npUnique l, ∃ b ∈ npUnique l, a ≠ b := by
  have hsrt := npUnique_sorted l
  match hl : npUnique l, h with
  | a :: b :: r, _ =>
    rw [hl] at hsrt
    refine ⟨a, by simp, b, by simp, ?_⟩
    have := (List.pairwise_cons.1 hsrt).1 b (by simp)
    exact this.ne

end

end Rascal
