import Verif.Proofs.AffineLemmas

/-! Effect of a change of the wavelength scale on candidates and matching. -/

set_option linter.unusedSectionVars false

namespace Rascal

open Spec

variable {K : Type _} [Field K] [LinearOrder K] [IsStrictOrderedRing K]

/-- A candidate set on the new scale (src/rascal/calibrator.py:259-261). -/
def Spec.affCand (s t : K) (c : Cand K) : Cand K := { c with wls := c.wls.map (aff s t) }

/-- A match (error, peak, wavelength) on the new scale (src/rascal/calibrator.py:345-376). -/
def Spec.affMatch (s t : K) (e : K × K × K) : K × K × K := (s * e.1, e.2.1, aff s t e.2.2)

section
variable {s t : K} (hs : 0 < s)
include hs

theorem candidatesLinear_aff (wt wt' : K → K → K) (hw : ∀ a p, wt' (aff s t a) (aff s t p) = wt a p) (tol : K)
    (lines pairs : List (K × K)) :
    candidatesLinear wt' (s * tol) (lines.map (affLine s t)) (pairs.map (affPair s t)) =
      (candidatesLinear wt tol lines pairs).map (affCand s t) := by
  rw [candidatesLinear_eq, candidatesLinear_eq, List.map_map, List.map_map]
  apply List.map_congr_left
  intro l _
  have e : ∀ p : K × K, (affLine s t l).1 * (affPair s t p).1 + (affLine s t l).2 = aff s t (l.1 * p.1 + l.2) :=
    fun p => affLine_at hs l p.1
  have hf : (pairs.map (affPair s t)).filter (fun p => decide (|(affLine s t l).1 * p.1 + (affLine s t l).2 - p.2| ≤ s * tol)) =
      (pairs.filter (fun p => decide (|l.1 * p.1 + l.2 - p.2| ≤ tol))).map (affPair s t) := by
    rw [List.filter_map]
    congr 1
    apply List.filter_congr
    intro p _
    simp only [Function.comp, e]
    rw [show (affPair s t p).2 = aff s t p.2 from rfl, aff_dist hs]
    simp only [scale_le hs]
  simp only [Function.comp, hf, affCand, List.map_map, Cand.mk.injEq]
  refine ⟨?_, ?_, ?_⟩
  · rfl
  · rfl
  · apply List.map_congr_left
    intro p _
    simp only [Function.comp, e]
    exact hw _ _

theorem polyCandidate_aff (wt wt' : K → K → K) (hw : ∀ a p, wt' (aff s t a) (aff s t p) = wt a p) (tol : K)
    (arr : Bool) (peaks actual predicted : List K) :
    polyCandidate wt' (s * tol) arr peaks (actual.map (aff s t)) (predicted.map (aff s t)) =
      (polyCandidate wt tol arr peaks actual predicted).map (Option.map (affCand s t)) := by
  unfold polyCandidate
  simp only [List.length_map]
  have hm : (List.zipWith (fun a p => |a - p|) (actual.map (aff s t)) (predicted.map (aff s t))).map
      (fun d => decide (d < s * tol)) =
      (List.zipWith (fun a p => |a - p|) actual predicted).map (fun d => decide (d < tol)) := by
    rw [List.zipWith_map, List.map_zipWith, List.map_zipWith]
    congr 1
    funext a p
    rw [aff_dist hs]
    simp only [scale_lt hs]
  rw [hm]
  split
  · split
    · split
      · simp only [Except.map, Option.map_some, affCand, boolMask_map, List.zipWith_map]
        simp only [hw]
      · rfl
    · rfl
  · split
    · have hd : ((actual.map (aff s t)).flatMap (fun a => (predicted.map (aff s t)).map (fun p => |a - p|))).map
          (fun d => decide (d < s * tol)) =
          (actual.flatMap (fun a => predicted.map (fun p => |a - p|))).map (fun d => decide (d < tol)) := by
        rw [List.flatMap_map, List.map_flatMap, List.map_flatMap]
        congr 1
        funext a
        rw [List.map_map, List.map_map, List.map_map]
        apply List.map_congr_left
        intro p _
        simp only [Function.comp, aff_dist hs, scale_lt hs]
      rw [hd]
      split <;> rfl
    · rfl

theorem candidatesPoly_aff (wt wt' : K → K → K) (hw : ∀ a p, wt' (aff s t a) (aff s t p) = wt a p) (tol : K)
    (arr : Bool) (peaks actual : List K) (f f' : K → K) (hf : ∀ x, f' x = aff s t (f x)) (ds : List K) :
    candidatesPoly wt' (s * tol) arr peaks (actual.map (aff s t)) f' (ds.map (fun d => s * d)) =
      (candidatesPoly wt tol arr peaks actual f ds).map (List.map (affCand s t)) := by
  induction ds with
  | nil => rfl
  | cons d ds ih =>
    rw [List.map_cons]
    unfold candidatesPoly
    have hp : peaks.map (fun p => f' p + s * d) = (peaks.map (fun p => f p + d)).map (aff s t) := by
      rw [List.map_map]
      apply List.map_congr_left
      intro p _
      simp only [Function.comp, hf, aff]
      ring
    rw [hp, polyCandidate_aff hs wt wt' hw, ih]
    cases polyCandidate wt tol arr peaks actual (peaks.map (fun p => f p + d)) with
    | error e => rfl
    | ok c =>
      cases candidatesPoly wt tol arr peaks actual f ds with
      | error e => rfl
      | ok cs => cases c <;> simp [Except.map]

theorem mostCommonOf_aff (argsort : List K → List Nat) (n : Int) (peak : K) (matched counts : List K) :
    mostCommonOf argsort n peak (matched.map (aff s t)) counts =
      ((mostCommonOf argsort n peak matched counts).1, (mostCommonOf argsort n peak matched counts).2.map (aff s t)) := by
  unfold mostCommonOf
  simp only [npUnique_aff hs, List.length_map, List.map_map, Function.comp_def, aff_inj hs, takeIdx_map]

theorem mostCommon_aff (argsort : List K → List Nat) (cs : List (Cand K)) (n : Int) (wt : Bool) :
    mostCommon argsort (cs.map (affCand s t)) n wt =
      ((mostCommon argsort cs n wt).1, (mostCommon argsort cs n wt).2.map (aff s t)) := by
  unfold mostCommon
  have h1 : (cs.map (affCand s t)).flatMap Cand.peaks = cs.flatMap Cand.peaks := by rw [List.flatMap_map]; rfl
  have h2 : (cs.map (affCand s t)).flatMap Cand.wls = (cs.flatMap Cand.wls).map (aff s t) := by
    rw [List.flatMap_map, List.map_flatMap]; rfl
  have h3 : (cs.map (affCand s t)).flatMap Cand.weights = cs.flatMap Cand.weights := by rw [List.flatMap_map]; rfl
  rw [h1, h2, h3]
  generalize cs.flatMap Cand.peaks = P
  generalize cs.flatMap Cand.wls = W
  generalize cs.flatMap Cand.weights = G
  simp only [boolMask_map, mostCommonOf_aff hs, List.flatMap_map, List.map_flatMap]

theorem filterClose_aff (tol : K) (x y : List K) :
    filterClose (s * tol) x (y.map (aff s t)) = ((filterClose tol x y).1, (filterClose tol x y).2.map (aff s t)) := by
  unfold filterClose
  have h1 : (List.zipWith (fun b a => b - a) ((npUnique y).map (aff s t)).tail ((npUnique y).map (aff s t)).dropLast).map
      (fun d => decide (d < 3 * (s * tol))) =
      (List.zipWith (fun b a => b - a) (npUnique y).tail (npUnique y).dropLast).map (fun d => decide (d < 3 * tol)) := by
    rw [← List.map_tail, ← List.map_dropLast, List.zipWith_map, List.map_zipWith, List.map_zipWith]
    congr 1
    funext a b
    rw [aff_sub hs, show 3 * (s * tol) = s * (3 * tol) by ring]
    simp only [scale_lt hs]
  have h2 : ∀ (l : List K) (v : K), (l.map (aff s t)).contains (aff s t v) = l.contains v := by
    intro l v
    rw [Bool.eq_iff_iff, List.contains_iff_mem, List.contains_iff_mem,
      List.mem_map_of_injective (aff_injective hs)]
  simp only [npUnique_aff hs, h1]
  simp only [← List.map_dropLast, boolMask_map, List.map_map, Function.comp_def, h2]

theorem candTable_aff (x y : List K) (p : K) :
    candTable x (y.map (aff s t)) p = (candTable x y p).map (List.map (aff s t)) := by
  unfold candTable
  split
  · simp [boolMask_map]
  · rfl

theorem argminFrom_scale (l : List K) : ∀ (m : K) (b i : Nat),
    argminFrom (s * m) b i (l.map (fun v => s * v)) = argminFrom m b i l := by
  induction l with
  | nil => intro m b i; rfl
  | cons a l ih =>
    intro m b i
    rw [List.map_cons]
    unfold argminFrom
    simp only [scale_lt hs, ih]

theorem argmin_scale (l : List K) : argmin (l.map (fun v => s * v)) = argmin l := by
  cases l with
  | nil => rfl
  | cons a l => 
    rw [List.map_cons]
    unfold argmin
    dsimp only
    rw [argminFrom_scale hs]

theorem nearestCandidates_aff (f f' : K → K) (hf : ∀ x, f' x = aff s t (f x)) (cand cand' : K → Option (List K))
    (hc : ∀ p, cand' p = (cand p).map (List.map (aff s t))) (peaks : List K) :
    nearestCandidates f' cand' peaks = (nearestCandidates f cand peaks).map (List.map (affMatch s t)) := by
  induction peaks with
  | nil => rfl
  | cons p ps ih =>
    unfold nearestCandidates
    rw [hc p]
    cases cand p with
    | none => rfl
    | some ws =>
      have he : (ws.map (aff s t)).map (fun w => |f' p - w|) = (ws.map (fun w => |f p - w|)).map (fun v => s * v) := by
        rw [List.map_map, List.map_map]
        apply List.map_congr_left
        intro w _
        simp only [Function.comp, hf]
        exact aff_dist hs _ _
      simp only [Option.map_some]
      rw [he, argmin_scale hs, ih]
      cases ha : argmin (ws.map (fun w => |f p - w|)) with
      | error e => rfl
      | ok i =>
        dsimp only
        cases nearestCandidates f cand ps with
        | error e => rfl
        | ok r =>
          obtain ⟨_, hm, _⟩ := argmin_spec ha
          have hi := (List.getElem?_eq_some_iff.mp hm).1
          rw [List.length_map] at hi
          simp [Except.map, affMatch, List.getD_eq_getElem?_getD, hi]

theorem resolveWavelength_aff (l : List (K × K × K)) (w : K) :
    resolveWavelength (l.map (affMatch s t)) (aff s t w) = (resolveWavelength l w).map (affMatch s t) := by
  unfold resolveWavelength
  have hm : boolMask (l.map (affMatch s t)) ((l.map (affMatch s t)).map (fun e => decide (e.2.2 = aff s t w))) =
      (boolMask l (l.map (fun e => decide (e.2.2 = w)))).map (affMatch s t) := by
    rw [boolMask_map, List.map_map]
    congr 2
    apply List.map_congr_left
    intro e _
    simp only [Function.comp, affMatch, aff_inj hs]
  simp only [hm]
  generalize boolMask l (l.map (fun e => decide (e.2.2 = w))) = m
  have h1 : (m.map (affMatch s t)).map (fun e => e.1) = (m.map (fun e => e.1)).map (fun v => s * v) := by
    rw [List.map_map, List.map_map]; rfl
  have h2 : (m.map (affMatch s t)).map (fun e => e.2.1) = m.map (fun e => e.2.1) := by
    rw [List.map_map]; rfl
  rw [h1, h2, argmin_scale hs]
  cases ha : argmin (m.map (fun e => e.1)) with
  | error e => rfl
  | ok i =>
    obtain ⟨_, hm, _⟩ := argmin_spec ha
    have hi := (List.getElem?_eq_some_iff.mp hm).1
    rw [List.length_map] at hi
    simp [Except.map, affMatch, List.getD_eq_getElem?_getD, hi]

theorem resolveAll_aff (l : List (K × K × K)) (ws : List K) :
    resolveAll (l.map (affMatch s t)) (ws.map (aff s t)) = (resolveAll l ws).map (List.map (affMatch s t)) := by
  induction ws with
  | nil => rfl
  | cons w ws ih =>
    rw [List.map_cons]
    unfold resolveAll
    rw [resolveWavelength_aff hs, ih]
    cases resolveWavelength l w with
    | error e => rfl
    | ok a => cases resolveAll l ws <;> rfl

theorem matchBijective_aff (f f' : K → K) (hf : ∀ x, f' x = aff s t (f x)) (cand cand' : K → Option (List K))
    (hc : ∀ p, cand' p = (cand p).map (List.map (aff s t))) (peaks : List K) :
    matchBijective f' cand' peaks = (matchBijective f cand peaks).map (List.map (affMatch s t)) := by
  unfold matchBijective
  rw [nearestCandidates_aff hs f f' hf cand cand' hc]
  cases nearestCandidates f cand peaks with
  | error e => rfl
  | ok l =>
    have hm : ∀ m : List (K × K × K), (m.map (affMatch s t)).map (fun e => e.2.2) = (m.map (fun e => e.2.2)).map (aff s t) := by
      intro m; rw [List.map_map, List.map_map]; rfl
    have hm1 : ∀ m : List (K × K × K), (m.map (affMatch s t)).map (fun e => e.2.1) = m.map (fun e => e.2.1) := by
      intro m; rw [List.map_map]; rfl
    simp only [Except.map]
    rw [hm, npUnique_aff hs, resolveAll_aff hs]
    cases resolveAll l (npUnique (l.map (fun e => e.2.2))) with
    | error e => rfl
    | ok r =>
      simp only [Except.map]
      rw [hm, hm1, npUnique_aff hs, List.length_map]
      split <;> rfl

end

end Rascal
