import Verif.Spec.Affine
import Verif.Props.PeakOrderProps

/-! Effect of a change of the wavelength scale on the parts of the model. -/

set_option linter.unusedSectionVars false

namespace Rascal

open Spec

variable {K : Type _} [Field K] [LinearOrder K] [IsStrictOrderedRing K]

section
variable {s t : K} (hs : 0 < s)
include hs

theorem aff_strictMono : StrictMono (aff s t) := by
  intro a b h
  unfold aff
  have := mul_lt_mul_of_pos_left h hs
  linarith

theorem aff_injective : Function.Injective (aff s t) := (aff_strictMono hs).injective

theorem aff_inj (a b : K) : aff s t a = aff s t b ↔ a = b := (aff_injective hs).eq_iff

theorem aff_lt (a b : K) : aff s t a < aff s t b ↔ a < b := (aff_strictMono hs).lt_iff_lt

theorem aff_le (a b : K) : aff s t a ≤ aff s t b ↔ a ≤ b := (aff_strictMono hs).le_iff_le

theorem scale_lt (a b : K) : s * a < s * b ↔ a < b := mul_lt_mul_iff_right₀ hs

theorem scale_le (a b : K) : s * a ≤ s * b ↔ a ≤ b := mul_le_mul_iff_right₀ hs

theorem scale_inj (a b : K) : s * a = s * b ↔ a = b := mul_right_inj' hs.ne'

theorem scale_eq_aff : (fun v : K => s * v) = aff s 0 := by
  funext v; unfold aff; ring

theorem aff_sub (a b : K) : aff s t a - aff s t b = s * (a - b) := by unfold aff; ring

theorem aff_dist (a b : K) : |aff s t a - aff s t b| = s * |a - b| := by
  rw [aff_sub hs, abs_mul, abs_of_pos hs]

theorem affLine_at (l : K × K) (p : K) : (affLine s t l).1 * p + (affLine s t l).2 = aff s t (l.1 * p + l.2) := by
  unfold affLine aff; ring

/-! ### Lists -/

theorem npUnique_map {f : K → K} (hf : StrictMono f) (l : List K) :
    npUnique (l.map f) = (npUnique l).map f := by
  have h1 := npUnique_sorted (l.map f)
  have h2 : ((npUnique l).map f).Pairwise (· < ·) := by
    rw [List.pairwise_map]
    exact (npUnique_sorted l).imp (fun h => hf h)
  have hp : (npUnique (l.map f)).Perm ((npUnique l).map f) := by
    rw [List.perm_ext_iff_of_nodup (npUnique_nodup _) (h2.imp (fun h => h.ne))]
    intro x
    rw [mem_npUnique, List.mem_map, List.mem_map]
    simp only [mem_npUnique]
  exact hp.eq_of_pairwise (fun a b _ _ h1 h2 => absurd (h1.trans h2) (lt_irrefl _)) h1 h2

theorem npUnique_aff (l : List K) : npUnique (l.map (aff s t)) = (npUnique l).map (aff s t) :=
  npUnique_map hs (aff_strictMono hs) l

theorem listMin_map {f : K → K} (hf : Monotone f) (a : K) (l : List K) :
    listMin (f a) (l.map f) = f (listMin a l) := by
  unfold listMin
  induction l generalizing a with
  | nil => rfl
  | cons b l ih => rw [List.map_cons, List.foldl_cons, List.foldl_cons, ← hf.map_min, ih]

theorem listMax_map {f : K → K} (hf : Monotone f) (a : K) (l : List K) :
    listMax (f a) (l.map f) = f (listMax a l) := by
  unfold listMax
  induction l generalizing a with
  | nil => rfl
  | cons b l ih => rw [List.map_cons, List.foldl_cons, List.foldl_cons, ← hf.map_max, ih]

theorem linspace_aff (lo hi : K) (n : Nat) :
    linspace (aff s t lo) (aff s t hi) n = (linspace lo hi n).map (aff s t) := by
  unfold linspace
  split
  · rfl
  · rw [List.map_map]
    apply List.map_congr_left
    intro i _
    simp only [Function.comp]
    rw [aff_sub hs]
    unfold aff
    ring

/-- The range of a sample that is neither empty nor, unless only the zero point moves, constant. -/
theorem binEdges_aff (l : List K) (n : Nat) (hl : l ≠ []) (h : s = 1 ∨ ∃ a ∈ l, ∃ b ∈ l, a ≠ b) :
    binEdges (l.map (aff s t)) n = (binEdges l n).map (aff s t) := by
  unfold binEdges
  rw [← linspace_aff hs]
  cases l with
  | nil => exact absurd rfl hl
  | cons a l =>
    have e : outerEdges ((a :: l).map (aff s t)) =
        (aff s t (outerEdges (a :: l)).1, aff s t (outerEdges (a :: l)).2) := by
      unfold outerEdges
      simp only [List.map_cons]
      rw [listMin_map hs (aff_strictMono hs).monotone, listMax_map hs (aff_strictMono hs).monotone]
      simp only [aff_inj hs]
      split
      · rename_i hc
        rcases h with rfl | ⟨x, hx, y, hy, hxy⟩
        · simp only [aff, Prod.mk.injEq]; constructor <;> ring
        · exfalso
          apply hxy
          have hmin : ∀ z ∈ a :: l, z = listMin a l := by
            intro z hz
            have h1 : listMin a l ≤ z := by
              rcases List.mem_cons.1 hz with rfl | hz
              · exact (listMin_le _ _).1
              · exact (listMin_le _ _).2 z hz
            have h2 : z ≤ listMax a l := by
              rcases List.mem_cons.1 hz with rfl | hz
              · exact (le_listMax _ _).1
              · exact (le_listMax _ _).2 z hz
            exact le_antisymm (hc ▸ h2) h1
          rw [hmin x hx, hmin y hy]
      · rfl
    rw [e]

theorem searchRight_aff (e : List K) (v : K) :
    searchRight (e.map (aff s t)) (aff s t v) = searchRight e v := by
  unfold searchRight
  rw [List.filter_map, List.length_map]
  congr 2
  funext x
  simp only [Function.comp, aff_le hs]

theorem binNumber_aff (e : List K) (v : K) : binNumber (e.map (aff s t)) (aff s t v) = binNumber e v := by
  unfold binNumber
  rw [searchRight_aff hs, List.getLast?_map]
  have : (Option.map (aff s t) e.getLast? = some (aff s t v)) ↔ e.getLast? = some v := by
    cases e.getLast? with
    | none => simp
    | some x => simp [aff_inj hs]
  simp only [this]

/-! ### Hough transform -/

theorem houghGrid_aff (a b c d : K) (xy : List (K × K)) (n : Nat) :
    houghGrid (s * a) (s * b) (aff s t c) (aff s t d) (xy.map (affPair s t)) n =
      (houghGrid a b c d xy n).map (affLine s t) := by
  rw [houghGrid_eq, houghGrid_eq]
  have h1 : linspace (s * a) (s * b) n = (linspace a b n).map (fun v => s * v) := by
    have := linspace_aff (s := s) (t := 0) hs a b n
    rw [← scale_eq_aff hs] at this
    simpa [aff] using this
  rw [h1, List.flatMap_map, List.map_flatMap]
  congr 1
  funext g
  rw [List.map_map, List.filter_map, List.filter_map, List.map_map]
  have e : ∀ p : K × K, (affPair s t p).2 - s * g * (affPair s t p).1 = aff s t (p.2 - g * p.1) := by
    intro p; unfold affPair aff; ring
  congr 1
  · funext p
    simp only [Function.comp, e, affLine]
  · congr 1
    funext p
    simp only [Function.comp, e, aff_le hs]

theorem lineThrough_aff (p q : K × K) :
    lineThrough (affPair s t p) (affPair s t q) = (lineThrough p q).map (affLine s t) := by
  unfold lineThrough
  have h1 : (affPair s t q).1 = q.1 := rfl
  have h2 : (affPair s t p).1 = p.1 := rfl
  rw [h1, h2]
  split
  · rfl
  · rename_i hne
    have : q.1 - p.1 ≠ 0 := sub_ne_zero.2 hne
    simp only [Option.map_some, Option.some.injEq, affLine, affPair, aff, Prod.mk.injEq]
    constructor
    · field_simp; ring
    · field_simp; ring

theorem pairLines_aff (l : List (K × K)) :
    pairLines (l.map (affPair s t)) = (pairLines l).map (affLine s t) := by
  induction l with
  | nil => rfl
  | cons p l ih =>
    rw [List.map_cons]
    unfold pairLines
    rw [ih, List.map_append, List.filterMap_map, List.map_filterMap]
    congr 1
    apply List.filterMap_congr
    intro q _
    exact lineThrough_aff hs p q

theorem bruteLines_aff (argsort : List K → List Nat) (a b c d : K) (xy : List (K × K)) :
    bruteLines argsort (s * a) (s * b) (aff s t c) (aff s t d) (xy.map (affPair s t)) =
      (bruteLines argsort a b c d xy).map (affLine s t) := by
  unfold bruteLines
  dsimp only
  rw [List.map_map]
  have : (Prod.fst ∘ affPair s t : K × K → K) = Prod.fst := rfl
  rw [this, takeIdx_map, pairLines_aff hs, List.filter_map]
  congr 1
  apply List.filter_congr
  intro l _
  simp only [Function.comp, affLine, scale_lt hs, aff_lt hs]

theorem fst_affLine (pts : List (K × K)) : (pts.map (affLine s t)).map Prod.fst = (pts.map Prod.fst).map (aff s 0) := by
  rw [List.map_map, List.map_map]
  apply List.map_congr_left
  intro p _
  simp [affLine, aff]

theorem snd_affLine (pts : List (K × K)) : (pts.map (affLine s t)).map Prod.snd = (pts.map Prod.snd).map (aff s t) := by
  rw [List.map_map, List.map_map]
  rfl

theorem xedges_aff (pts : List (K × K)) (hp : SpreadPoints s pts) (n : Nat) :
    binEdges ((pts.map (affLine s t)).map Prod.fst) n = (binEdges (pts.map Prod.fst) n).map (fun v => s * v) := by
  rw [fst_affLine hs, scale_eq_aff hs]
  apply binEdges_aff hs
  · simpa using hp.1
  · rcases hp.2 with h | ⟨⟨p, h1, q, h2, h3⟩, -⟩
    · exact Or.inl h
    · exact Or.inr ⟨_, List.mem_map_of_mem h1, _, List.mem_map_of_mem h2, h3⟩

theorem yedges_aff (pts : List (K × K)) (hp : SpreadPoints s pts) (n : Nat) :
    binEdges ((pts.map (affLine s t)).map Prod.snd) n = (binEdges (pts.map Prod.snd) n).map (aff s t) := by
  rw [snd_affLine hs]
  apply binEdges_aff hs
  · simpa using hp.1
  · rcases hp.2 with h | ⟨-, ⟨p, h1, q, h2, h3⟩⟩
    · exact Or.inl h
    · exact Or.inr ⟨_, List.mem_map_of_mem h1, _, List.mem_map_of_mem h2, h3⟩

theorem histogram2d_aff (pts : List (K × K)) (hp : SpreadPoints s pts) (m n : Nat) :
    histogram2d (pts.map (affLine s t)) m n = histogram2d pts m n := by
  unfold histogram2d
  dsimp only
  rw [xedges_aff hs pts hp, yedges_aff hs pts hp]
  apply List.map_congr_left
  intro i _
  apply List.map_congr_left
  intro j _
  rw [List.countP_map]
  congr 1
  funext p
  simp only [Function.comp]
  have h1 := binNumber_aff (s := s) (t := 0) hs (binEdges (pts.map Prod.fst) m) p.1
  rw [← scale_eq_aff hs] at h1
  have h2 := binNumber_aff (s := s) (t := t) hs (binEdges (pts.map Prod.snd) n) p.2
  rw [show (affLine s t p).1 = s * p.1 from rfl, show (affLine s t p).2 = aff s t p.2 from rfl, h2]
  simp only at h1
  rw [h1]

theorem houghLines_aff (xe ye : List K) (args : List (Nat × Nat)) (hy : ∀ b ∈ args, b.2 + 1 < ye.length) :
    houghLines (xe.map (fun v => s * v)) (ye.map (aff s t)) args = (houghLines xe ye args).map (affLine s t) := by
  unfold houghLines
  dsimp only
  rw [List.map_map]
  apply List.map_congr_left
  intro b hb
  have hx : ∀ i, (xe.map (fun v => s * v)).getD i 0 = s * xe.getD i 0 := by
    intro i
    simp only [List.getD_eq_getElem?_getD, List.getElem?_map]
    cases xe[i]? <;> simp
  have hyl : ∀ i < ye.length, (ye.map (aff s t)).getD i 0 = aff s t (ye.getD i 0) := by
    intro i hi
    simp [List.getD_eq_getElem?_getD, hi]
  have := hy b hb
  simp only [Function.comp, affLine, hx, hyl b.2 (by omega), hyl 1 (by omega), hyl 0 (by omega), aff, Prod.mk.injEq]
  constructor <;> ring

theorem bin_aff (argsort : List Nat → List Nat) (h : Hough K) (m n : Nat)
    (hp : ∀ pts, h.points = some (.array pts) → SpreadPoints s pts) :
    (affHough s t h).bin argsort m n = (affHough s t (h.bin argsort m n).1, (h.bin argsort m n).2) := by
  unfold Hough.bin
  cases hpt : h.points with
  | none => simp [affHough, hpt]
  | some st =>
    cases st with
    | pyList l => simp [affHough, hpt, affPointStore]
    | malformed => simp [affHough, hpt, affPointStore]
    | array pts =>
      have hsp := hp pts hpt
      simp only [affHough, hpt, affPointStore, Option.map_some]
      split
      · simp [hpt, affPointStore]
      · rename_i hmn
        push Not at hmn
        dsimp only
        rw [histogram2d_aff hs pts hsp, xedges_aff hs pts hsp, yedges_aff hs pts hsp, houghLines_aff hs]
        · simp [affPointStore, hpt]
        · intro b hb
          unfold histSortedArg at hb
          obtain ⟨k, -, rfl⟩ := List.mem_map.1 hb
          rw [binEdges_length]
          have := Nat.mod_lt k (Nat.pos_of_ne_zero hmn.2)
          dsimp only
          omega

theorem toFinite_mapFin (f : K → K) (v : PyFloat K) : (mapFin f v).toFinite = v.toFinite.map f := by
  cases v <;> rfl

theorem setConstraints_aff (h : Hough K) (a b c d : PyFloat K) :
    (affHough s t h).setConstraints (mapFin (fun v => s * v) a) (mapFin (fun v => s * v) b) (mapFin (aff s t) c)
      (mapFin (aff s t) d) = (affHough s t (h.setConstraints a b c d).1, (h.setConstraints a b c d).2) := by
  cases a <;> cases b <;> cases c <;> cases d <;> rfl

theorem generate_aff (h : Hough K) (xy : List (K × K)) (n : Nat) :
    (affHough s t h).generate (xy.map (affPair s t)) n =
      (affHough s t (h.generate xy n).1, (h.generate xy n).2) := by
  obtain ⟨pts, hist, xe, ye, ls, a, b, c, d⟩ := h
  cases a <;> cases b <;> cases c <;> cases d <;> try rfl
  unfold Hough.generate
  simp only [affHough, Option.map_some, List.map_eq_nil_iff]
  split
  · rfl
  · simp only [houghGrid_aff hs, affPointStore, Option.map_some]

theorem generateBrute_aff (ak : List K → List Nat) (h : Hough K) (xy : List (K × K)) :
    (affHough s t h).generateBrute ak (xy.map (affPair s t)) =
      (affHough s t (h.generateBrute ak xy).1, (h.generateBrute ak xy).2) := by
  obtain ⟨pts, hist, xe, ye, ls, a, b, c, d⟩ := h
  unfold Hough.generateBrute
  rw [List.length_map]
  split
  · rfl
  cases a <;> cases b <;> cases c <;> cases d <;> try rfl
  simp only [affHough, Option.map_some, bruteLines_aff hs, affPointStore]

theorem bin_points (an : List Nat → List Nat) (h : Hough K) (m n : Nat) : (h.bin an m n).1.points = h.points := by
  unfold Hough.bin
  split <;> try rfl
  split <;> rfl

theorem doHough_aff (c : Cal K) (ak : List K → List Nat) (an : List Nat → List Nat) (b : Bool)
    (hp : ∀ pts, (c.doHough ak an b).1.ht.points = some (.array pts) → SpreadPoints s pts) :
    (affCal s t c).doHough ak an b = (affCal s t (c.doHough ak an b).1, (c.doHough ak an b).2) := by
  unfold Cal.doHough at hp ⊢
  cases hpairs : c.pairs with
  | none => simp [affCal, hpairs]
  | some store =>
    rw [hpairs] at hp
    have h1 : (affHough s t c.ht).setConstraints (mapFin (fun v => s * v) c.hough.minSlope)
        (mapFin (fun v => s * v) c.hough.maxSlope) (.fin (aff s t c.hough.minIntercept))
        (.fin (aff s t c.hough.maxIntercept)) = _ :=
      setConstraints_aff (t := t) hs c.ht c.hough.minSlope c.hough.maxSlope (.fin c.hough.minIntercept)
        (.fin c.hough.maxIntercept)
    simp only [show (affCal s t c).pairs = some (affPairStore s t store) by simp [affCal, hpairs],
      show (affCal s t c).ht = affHough s t c.ht from rfl,
      show (affCal s t c).hough.minSlope = mapFin (fun v => s * v) c.hough.minSlope from rfl,
      show (affCal s t c).hough.maxSlope = mapFin (fun v => s * v) c.hough.maxSlope from rfl,
      show (affCal s t c).hough.minIntercept = aff s t c.hough.minIntercept from rfl,
      show (affCal s t c).hough.maxIntercept = aff s t c.hough.maxIntercept from rfl,
      show (affCal s t c).hough.numSlopes = c.hough.numSlopes from rfl,
      show (affCal s t c).hough.xbins = c.hough.xbins from rfl,
      show (affCal s t c).hough.ybins = c.hough.ybins from rfl, h1]
    generalize c.ht.setConstraints c.hough.minSlope c.hough.maxSlope (.fin c.hough.minIntercept)
      (.fin c.hough.maxIntercept) = r1 at hp ⊢
    obtain ⟨ht1, e1⟩ := r1
    cases e1 with
    | error e => rfl
    | ok u =>
      cases store with
      | noColumns => rfl
      | array xy =>
        simp only [affPairStore] at hp ⊢
        have h2 : (if b = true then (affHough s t ht1).generateBrute ak (xy.map (affPair s t))
            else (affHough s t ht1).generate (xy.map (affPair s t)) c.hough.numSlopes.toNat) =
            (affHough s t (if b = true then ht1.generateBrute ak xy
              else ht1.generate xy c.hough.numSlopes.toNat).1,
              (if b = true then ht1.generateBrute ak xy else ht1.generate xy c.hough.numSlopes.toNat).2) := by
          split
          · exact generateBrute_aff hs ak ht1 xy
          · exact generate_aff hs ht1 xy _
        rw [h2]
        generalize (if b = true then ht1.generateBrute ak xy else ht1.generate xy c.hough.numSlopes.toNat) = r2
          at hp ⊢
        obtain ⟨ht2, e2⟩ := r2
        cases e2 with
        | error e => rfl
        | ok u =>
          dsimp only at hp ⊢
          have hp' : ∀ pts, ht2.points = some (.array pts) → SpreadPoints s pts := by
            intro pts hpt
            apply hp
            have := bin_points hs an ht2 c.hough.xbins.toNat c.hough.ybins.toNat
            split
            · dsimp only; rw [this, hpt]
            · dsimp only; rw [this, hpt]
          rw [bin_aff hs an ht2 _ _ hp']
          generalize ht2.bin an c.hough.xbins.toNat c.hough.ybins.toNat = r3
          obtain ⟨ht3, e3⟩ := r3
          cases e3 <;> rfl

end

end Rascal
