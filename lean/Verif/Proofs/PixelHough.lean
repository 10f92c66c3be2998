import Verif.Spec.Pixels
import Verif.Proofs.AffineSteps

/-! Effect of a change of the pixel scale on the Hough transform. -/

set_option linter.unusedSectionVars false

namespace Rascal

open Spec

variable {K : Type _} [Field K] [LinearOrder K] [IsStrictOrderedRing K]

section
variable {s : K} (hs : 0 < s)
include hs

theorem div_eq_aff : (fun v : K => v / s) = aff s⁻¹ 0 := by
  funext v; unfold aff; rw [div_eq_inv_mul, add_zero]

theorem div_scale_lt (a b : K) : a / s < b / s ↔ a < b := div_lt_div_iff_of_pos_right hs

theorem div_mul_scale (g p : K) : g / s * (s * p) = g * p := by
  have := hs.ne'
  field_simp

theorem houghGrid_pix (a b c d : K) (xy : List (K × K)) (n : Nat) :
    houghGrid (a / s) (b / s) c d (xy.map (pixPair s)) n = (houghGrid a b c d xy n).map (pixLine s) := by
  rw [houghGrid_eq, houghGrid_eq]
  have h1 : linspace (a / s) (b / s) n = (linspace a b n).map (fun v => v / s) := by
    have := linspace_aff (s := s⁻¹) (t := 0) (inv_pos.2 hs) a b n
    rw [← div_eq_aff hs] at this
    exact this
  rw [h1, List.flatMap_map, List.map_flatMap]
  congr 1
  funext g
  rw [List.map_map, List.filter_map, List.filter_map, List.map_map]
  have e : ∀ p : K × K, (pixPair s p).2 - g / s * (pixPair s p).1 = p.2 - g * p.1 := by
    intro p
    show p.2 - g / s * (s * p.1) = _
    rw [div_mul_scale hs]
  congr 1
  · funext p
    simp only [Function.comp, e, pixLine]
  · congr 1
    funext p
    simp only [Function.comp, e]

theorem lineThrough_pix (p q : K × K) :
    lineThrough (pixPair s p) (pixPair s q) = (lineThrough p q).map (pixLine s) := by
  unfold lineThrough pixPair
  simp only [scale_inj hs]
  split
  · rfl
  · rename_i hne
    have h1 : q.1 - p.1 ≠ 0 := sub_ne_zero.2 hne
    have h2 := hs.ne'
    simp only [Option.map_some, Option.some.injEq, pixLine, Prod.mk.injEq]
    have h3 : s * q.1 - s * p.1 ≠ 0 := by rw [← mul_sub]; exact mul_ne_zero h2 h1
    constructor
    · rw [← mul_sub, mul_comm, div_div]
    · rw [← mul_sub]
      field_simp

theorem pairLines_pix (l : List (K × K)) :
    pairLines (l.map (pixPair s)) = (pairLines l).map (pixLine s) := by
  induction l with
  | nil => rfl
  | cons p l ih =>
    rw [List.map_cons]
    unfold pairLines
    rw [ih, List.map_append, List.filterMap_map, List.map_filterMap]
    congr 1
    apply List.filterMap_congr
    intro q _
    exact lineThrough_pix hs p q

theorem bruteLines_pix (argsort : List K → List Nat) (ha : ScaleFreeSort s argsort) (a b c d : K) (xy : List (K × K)) :
    bruteLines argsort (a / s) (b / s) c d (xy.map (pixPair s)) = (bruteLines argsort a b c d xy).map (pixLine s) := by
  unfold bruteLines
  dsimp only
  have : (xy.map (pixPair s)).map Prod.fst = (xy.map Prod.fst).map (fun v => s * v) := by
    rw [List.map_map, List.map_map]; rfl
  rw [this, ha, takeIdx_map, pairLines_pix hs, List.filter_map]
  congr 1
  apply List.filter_congr
  intro l _
  rw [Bool.eq_iff_iff]
  simp only [Function.comp, pixLine, div_scale_lt hs, Bool.and_eq_true, decide_eq_true_iff]
  exact and_congr (and_congr Iff.rfl decide_eq_true_iff) decide_eq_true_iff

theorem fst_pixLine (pts : List (K × K)) : (pts.map (pixLine s)).map Prod.fst = (pts.map Prod.fst).map (aff s⁻¹ 0) := by
  rw [List.map_map, List.map_map, ← div_eq_aff hs]
  rfl

theorem snd_pixLine (pts : List (K × K)) : (pts.map (pixLine s)).map Prod.snd = pts.map Prod.snd := by
  rw [List.map_map]
  rfl

theorem xedges_pix (pts : List (K × K)) (hp : SpreadSlopes pts) (n : Nat) :
    binEdges ((pts.map (pixLine s)).map Prod.fst) n = (binEdges (pts.map Prod.fst) n).map (fun v => v / s) := by
  rw [fst_pixLine hs, div_eq_aff hs]
  obtain ⟨p, h1, q, h2, h3⟩ := hp
  apply binEdges_aff (inv_pos.2 hs)
  · intro h
    rw [List.map_eq_nil_iff] at h
    rw [h] at h1
    simp at h1
  · exact Or.inr ⟨_, List.mem_map_of_mem h1, _, List.mem_map_of_mem h2, h3⟩

theorem histogram2d_pix (pts : List (K × K)) (hp : SpreadSlopes pts) (m n : Nat) :
    histogram2d (pts.map (pixLine s)) m n = histogram2d pts m n := by
  unfold histogram2d
  dsimp only
  rw [xedges_pix hs pts hp, snd_pixLine hs]
  apply List.map_congr_left
  intro i _
  apply List.map_congr_left
  intro j _
  rw [List.countP_map]
  congr 1
  funext p
  simp only [Function.comp]
  have h1 := binNumber_aff (s := s⁻¹) (t := 0) (inv_pos.2 hs) (binEdges (pts.map Prod.fst) m) p.1
  rw [← div_eq_aff hs] at h1
  rw [show (pixLine s p).1 = p.1 / s from rfl, show (pixLine s p).2 = p.2 from rfl]
  simp only at h1
  rw [h1]

theorem houghLines_pix (xe ye : List K) (args : List (Nat × Nat)) :
    houghLines (xe.map (fun v => v / s)) ye args = (houghLines xe ye args).map (pixLine s) := by
  unfold houghLines
  dsimp only
  rw [List.map_map]
  apply List.map_congr_left
  intro b hb
  have hx : ∀ i, (xe.map (fun v => v / s)).getD i 0 = xe.getD i 0 / s := by
    intro i
    simp only [List.getD_eq_getElem?_getD, List.getElem?_map]
    cases xe[i]? <;> simp
  simp only [Function.comp, pixLine, hx, Prod.mk.injEq]
  constructor
  · ring
  · trivial

theorem bin_pix (argsort : List Nat → List Nat) (h : Hough K) (m n : Nat)
    (hp : ∀ pts, h.points = some (.array pts) → SpreadSlopes pts) :
    (pixHough s h).bin argsort m n = (pixHough s (h.bin argsort m n).1, (h.bin argsort m n).2) := by
  unfold Hough.bin
  cases hpt : h.points with
  | none => simp [pixHough, hpt]
  | some st =>
    cases st with
    | pyList l => simp [pixHough, hpt, pixPointStore]
    | malformed => simp [pixHough, hpt, pixPointStore]
    | array pts =>
      have hsp := hp pts hpt
      simp only [pixHough, hpt, pixPointStore, Option.map_some]
      split
      · simp [hpt, pixPointStore]
      · dsimp only
        rw [histogram2d_pix hs pts hsp, xedges_pix hs pts hsp, snd_pixLine hs, houghLines_pix hs]
        simp [pixPointStore]

theorem setConstraints_pix (h : Hough K) (a b c d : PyFloat K) :
    (pixHough s h).setConstraints (mapFin (fun v => v / s) a) (mapFin (fun v => v / s) b) c d =
      (pixHough s (h.setConstraints a b c d).1, (h.setConstraints a b c d).2) := by
  cases a <;> cases b <;> cases c <;> cases d <;> rfl

theorem generate_pix (h : Hough K) (xy : List (K × K)) (n : Nat) :
    (pixHough s h).generate (xy.map (pixPair s)) n = (pixHough s (h.generate xy n).1, (h.generate xy n).2) := by
  obtain ⟨pts, hist, xe, ye, ls, a, b, c, d⟩ := h
  cases a <;> cases b <;> cases c <;> cases d <;> try rfl
  unfold Hough.generate
  simp only [pixHough, Option.map_some, List.map_eq_nil_iff]
  split
  · rfl
  · simp only [houghGrid_pix hs, pixPointStore, Option.map_some]

theorem generateBrute_pix (ak : List K → List Nat) (ha : ScaleFreeSort s ak) (h : Hough K) (xy : List (K × K)) :
    (pixHough s h).generateBrute ak (xy.map (pixPair s)) =
      (pixHough s (h.generateBrute ak xy).1, (h.generateBrute ak xy).2) := by
  obtain ⟨pts, hist, xe, ye, ls, a, b, c, d⟩ := h
  unfold Hough.generateBrute
  rw [List.length_map]
  split
  · rfl
  cases a <;> cases b <;> cases c <;> cases d <;> try rfl
  simp only [pixHough, Option.map_some, bruteLines_pix hs ak ha, pixPointStore]

theorem doHough_pix (c : Cal K) (ak : List K → List Nat) (ha : ScaleFreeSort s ak) (an : List Nat → List Nat) (b : Bool)
    (hp : ∀ pts, (c.doHough ak an b).1.ht.points = some (.array pts) → SpreadSlopes pts) :
    (pixCal s c).doHough ak an b = (pixCal s (c.doHough ak an b).1, (c.doHough ak an b).2) := by
  unfold Cal.doHough at hp ⊢
  cases hpairs : c.pairs with
  | none => simp [pixCal, hpairs]
  | some store =>
    rw [hpairs] at hp
    have h1 : (pixHough s c.ht).setConstraints (mapFin (fun v => v / s) c.hough.minSlope)
        (mapFin (fun v => v / s) c.hough.maxSlope) (.fin c.hough.minIntercept)
        (.fin c.hough.maxIntercept) = _ :=
      setConstraints_pix hs c.ht c.hough.minSlope c.hough.maxSlope (.fin c.hough.minIntercept)
        (.fin c.hough.maxIntercept)
    simp only [show (pixCal s c).pairs = some (pixPairStore s store) by simp [pixCal, hpairs],
      show (pixCal s c).ht = pixHough s c.ht from rfl,
      show (pixCal s c).hough.minSlope = mapFin (fun v => v / s) c.hough.minSlope from rfl,
      show (pixCal s c).hough.maxSlope = mapFin (fun v => v / s) c.hough.maxSlope from rfl,
      show (pixCal s c).hough.minIntercept = c.hough.minIntercept from rfl,
      show (pixCal s c).hough.maxIntercept = c.hough.maxIntercept from rfl,
      show (pixCal s c).hough.numSlopes = c.hough.numSlopes from rfl,
      show (pixCal s c).hough.xbins = c.hough.xbins from rfl,
      show (pixCal s c).hough.ybins = c.hough.ybins from rfl, h1]
    generalize c.ht.setConstraints c.hough.minSlope c.hough.maxSlope (.fin c.hough.minIntercept)
      (.fin c.hough.maxIntercept) = r1 at hp ⊢
    obtain ⟨ht1, e1⟩ := r1
    cases e1 with
    | error e => rfl
    | ok u =>
      cases store with
      | noColumns => rfl
      | array xy =>
        simp only [pixPairStore] at hp ⊢
        have h2 : (if b = true then (pixHough s ht1).generateBrute ak (xy.map (pixPair s))
            else (pixHough s ht1).generate (xy.map (pixPair s)) c.hough.numSlopes.toNat) =
            (pixHough s (if b = true then ht1.generateBrute ak xy
              else ht1.generate xy c.hough.numSlopes.toNat).1,
              (if b = true then ht1.generateBrute ak xy else ht1.generate xy c.hough.numSlopes.toNat).2) := by
          split
          · exact generateBrute_pix hs ak ha ht1 xy
          · exact generate_pix hs ht1 xy _
        rw [h2]
        generalize (if b = true then ht1.generateBrute ak xy else ht1.generate xy c.hough.numSlopes.toNat) = r2
          at hp ⊢
        obtain ⟨ht2, e2⟩ := r2
        cases e2 with
        | error e => rfl
        | ok u =>
          dsimp only at hp ⊢
          have hp' : ∀ pts, ht2.points = some (.array pts) → SpreadSlopes pts := by
            intro pts hpt
            apply hp
            have := bin_points hs an ht2 c.hough.xbins.toNat c.hough.ybins.toNat
            split
            · dsimp only; rw [this, hpt]
            · dsimp only; rw [this, hpt]
          rw [bin_pix hs an ht2 _ _ hp']
          generalize ht2.bin an c.hough.xbins.toNat c.hough.ybins.toNat = r3
          obtain ⟨ht3, e3⟩ := r3
          cases e3 <;> rfl

end

end Rascal
