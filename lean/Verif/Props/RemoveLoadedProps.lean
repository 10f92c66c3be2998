import Verif.Props.RemoveOrderProps
import Verif.Props.MatchReturnsProps

/-!
More of properties C41 and C219: ranges removed from the lines of one element.
-/

set_option linter.unusedSectionVars false

namespace Rascal

open Spec

section
variable {K : Type _} [Field K] [LinearOrder K] [IsStrictOrderedRing K]

/-- C41, lines far enough apart: if the lines are at least twice the tolerance apart, one call of
`remove_atlas_lines_range` removes exactly the lines in range (there is at most one), whatever order the lines are in. -/
theorem C41_apart_partial (at_ : Atlas K) (w tol : K) (h : at_.getLines.Pairwise (fun u v => 2 * tol ≤ |v - u|)) :
    (at_.removeRange w tol).lines = at_.lines.filter (fun l => !InRange w tol l) ∧
      (at_.lines.filter (InRange w tol)).length ≤ 1 := by
  unfold Atlas.getLines at h
  rw [List.pairwise_map] at h
  have two : ∀ a b : AtlasLine K, InRange w tol a = true → InRange w tol b = true → ¬ 2 * tol ≤ |b.wl - a.wl| := by
    intro a b ha hb hle
    have h1 := abs_lt.1 (of_decide_eq_true ha)
    have h2 := abs_lt.1 (of_decide_eq_true hb)
    have h3 : |b.wl - a.wl| < 2 * tol := by
      rw [abs_lt]
      constructor <;> linarith [h1.1, h1.2, h2.1, h2.2]
    exact absurd hle (not_le.2 h3)
  constructor
  · rw [removeRange_lines]
    dsimp only
    refine survivors_eq_filter _ _ ?_
    rintro i a b ha hb ⟨h1, h2⟩
    obtain ⟨hi, rfl⟩ := List.getElem?_eq_some_iff.1 ha
    obtain ⟨hj, rfl⟩ := List.getElem?_eq_some_iff.1 hb
    exact two _ _ h1 h2 (List.pairwise_iff_getElem.1 h i (i + 1) hi hj (by omega))
  · have h' := h.sublist (List.filter_sublist (p := InRange w tol) (l := at_.lines))
    generalize hm : at_.lines.filter (InRange w tol) = m at h'
    match m, hm, h' with
    | [], _, _ => simp
    | [_], _, _ => simp
    | a :: b :: t, hm, h' =>
      exfalso
      have ha : a ∈ at_.lines.filter (InRange w tol) := by rw [hm]; simp
      have hb : b ∈ at_.lines.filter (InRange w tol) := by rw [hm]; simp
      exact two a b (List.mem_filter.1 ha).2 (List.mem_filter.1 hb).2 ((List.pairwise_cons.1 h').1 b (by simp))

/-- C219, lines far enough apart: if the lines are at least twice every tolerance apart, exactly the lines outside all ranges
stay, in whatever order the calls are made and the lines are, and also if the ranges meet. -/
theorem C219_apart_partial (at_ : Atlas K) (rs : List (K × K))
    (h : ∀ r ∈ rs, at_.getLines.Pairwise (fun u v => 2 * r.2 ≤ |v - u|)) :
    removeAll at_ rs = { at_ with lines := at_.lines.filter (fun l => decide (∀ r ∈ rs, ¬ |l.wl - r.1| < r.2)) } := by
  induction rs generalizing at_ with
  | nil => simp [removeAll]
  | cons x rs ih =>
    have hx := (C41_apart_partial at_ x.1 x.2 (h x (by simp))).1
    have hat : at_.removeRange x.1 x.2 = { at_ with lines := at_.lines.filter (fun l => !InRange x.1 x.2 l) } := by
      rw [← hx, removeRange_lines]
    have hrec : removeAll at_ (x :: rs) = removeAll (at_.removeRange x.1 x.2) rs := rfl
    rw [hrec, ih (at_.removeRange x.1 x.2) (fun r hr => ?_), hat]
    · dsimp only
      rw [List.filter_filter]
      congr 1
      refine List.filter_congr (fun l _ => ?_)
      rw [Bool.eq_iff_iff]
      simp [InRange, and_comm]
    · refine (h r (List.mem_cons_of_mem _ hr)).sublist ?_
      rw [hat]
      exact List.filter_sublist.map _

/-- What one element is given: lines in strictly increasing order. -/
theorem loaded_increasing (argsort : List K → List Nat) (airToVac vacToAir : K → K) (rows : List (Row K))
    (els : List String) (lo hi : K) (mi : MinIntensity K) (d : K) (ht : ThresholdsFit els mi) (r : LineArrays K)
    (h : loadCalibrationLines argsort airToVac vacToAir rows els lo hi mi d true none = .ok r) :
    ∃ out : List (Row K), r = ⟨out.map Row.elem, out.map Row.wl, out.map Row.inten⟩ ∧ (out.map Row.wl).Pairwise (· < ·) := by
  by_cases hd : 0 < d
  · obtain ⟨sel, -, hs, g0, g1, g2⟩ := C07_min_distance_partial argsort airToVac vacToAir rows els lo hi mi d hd ht
    rcases Nat.lt_or_ge sel.length 2 with hlt | hge
    · rcases Nat.lt_or_ge sel.length 1 with hlt1 | hge1
      · rw [g0 (by omega)] at h
        cases h
      · rw [g1 (by omega)] at h
        exact ⟨[], (Except.ok.inj h).symm, List.Pairwise.nil⟩
    · obtain ⟨out, o1, o2, -, -⟩ := g2 hge
      rw [o1] at h
      exact ⟨out, (Except.ok.inj h).symm, hs.sublist (o2.map _)⟩
  · obtain ⟨out, o1, o2, -⟩ := (C05_load_exact argsort airToVac vacToAir rows els lo hi mi d hd).1 ht
    rw [o1] at h
    exact ⟨out, (Except.ok.inj h).symm, o2⟩

theorem nistOf_wls (out : List (Row K)) :
    (nistOf (⟨out.map Row.elem, out.map Row.wl, out.map Row.inten⟩ : LineArrays K)).map AtlasLine.wl = out.map Row.wl := by
  induction out with
  | nil => simp [nistOf]
  | cons q out ih => simp only [nistOf, List.map_cons, List.zip_cons_cons] at ih ⊢; rw [ih]

/-- C219, one element: the lines `Atlas.add` takes for one element from the packaged list, in vacuum and without a limit
on their number, are in order of wavelength, so ranges of them that do not meet may be removed in any order.  What is
missing: several elements, `brightest_n_lines`, and ranges that meet. -/
theorem C219_one_element_partial (env : Env K) (at_ at' : Atlas K) (a : AddArgs K) (e : String)
    (h0 : at_.lines = []) (he : a.elements = .str e) (hl : a.linelist = .nist) (hv : a.vacuum = true)
    (hbr : a.brightest = none) (ht : ThresholdsFit [e] a.minIntensity) (h : at_.add env a = (at', .ok ()))
    (rs rs' : List (K × K)) (hp : rs.Perm rs') (hap : ∀ r ∈ rs, ∀ r' ∈ rs, r ≠ r' → RangesApart r r') :
    at'.getLines.Pairwise (· < ·) ∧ removeAll at' rs = removeAll at' rs' := by
  obtain ⟨lo, hi, rows, -, -, hs, hat⟩ := (C44_add env at_ a at').1 h
  have key : at'.getLines.Pairwise (· < ·) := by
    rw [he] at hs
    change List.Forall₂ (Selects env a lo hi) [e] rows at hs
    cases hs with
    | cons h1 h2 =>
      rename_i r rows
      cases h2
      have hlines : at'.getLines = (nistOf r).map AtlasLine.wl := by
        rw [hat]
        simp [Atlas.getLines, h0]
      have h1' : loadCalibrationLines env.argsort a.airToVac a.vacToAir env.nistRows [e] lo hi a.minIntensity
          a.minDistance true none = .ok r := by
        have := h1
        unfold Selects loadFromFile at this
        rw [hl, hv, hbr] at this
        exact this
      obtain ⟨out, rfl, ho⟩ := loaded_increasing _ _ _ _ _ _ _ _ _ ht _ h1'
      rw [hlines, nistOf_wls]
      exact ho
  refine ⟨key, C219_order_partial at' ?_ rs rs' hp hap⟩
  unfold Atlas.getLines at key
  rw [List.pairwise_map] at key
  exact key.imp (fun hlt => hlt.le)

end

/-- A case for `C41_apart_partial`: lines 1000 apart, not in order. -/
example : ((⟨[⟨7000, "Ar", 1, none⟩, ⟨5000, "Xe", 1, none⟩, ⟨6000, "Ar", 1, none⟩], none, none, 500⟩ : Atlas ℚ).removeRange
    5005 10).getLines = [7000, 6000] := by
  have h := (C41_apart_partial (⟨[⟨7000, "Ar", 1, none⟩, ⟨5000, "Xe", 1, none⟩, ⟨6000, "Ar", 1, none⟩], none, none, 500⟩ :
    Atlas ℚ) 5005 10 (by decide +kernel)).1
  unfold Atlas.getLines
  rw [h]
  decide +kernel

/-- A case for `C219_apart_partial`: ranges that meet. -/
example : (removeAll (⟨[⟨7000, "Ar", 1, none⟩, ⟨5000, "Xe", 1, none⟩, ⟨6000, "Ar", 1, none⟩], none, none, 500⟩ : Atlas ℚ)
    [(5005, 10), (5010, 20), (6400, 500)]).getLines = [7000] := by
  rw [C219_apart_partial _ _ (by decide +kernel)]
  decide +kernel

/-- Four lines of xenon, in no order. -/
def Toy.fourXenon : Env ℚ :=
  { Toy.closeList with nistRows := [⟨"Xe", 5900, 90⟩, ⟨"Xe", 8702, 85⟩, ⟨"Xe", 7000, 70⟩, ⟨"Xe", 8700, 80⟩] }

/-- A case for `C219_one_element_partial`: the lines around 8700 and 7000 removed in either order; one line stays for each
two neighbours. -/
example : ∃ at' : Atlas ℚ, Atlas.add Toy.fourXenon ⟨[], some (.fin 5000), some (.fin 9000), 0⟩
      { Toy.farArgs with minDistance := 0 } = (at', .ok ()) ∧ at'.getLines = [5900, 7000, 8700, 8702] ∧
    removeAll at' [(8700, 10), (7000, 10)] = removeAll at' [(7000, 10), (8700, 10)] ∧
    (removeAll at' [(7000, 10), (8700, 10)]).getLines = [5900, 8702] := by
  have h : Atlas.add Toy.fourXenon ⟨[], some (.fin 5000), some (.fin 9000), 0⟩ { Toy.farArgs with minDistance := 0 } =
      (⟨[⟨5900, "Xe", 90, some "NIST"⟩, ⟨7000, "Xe", 70, some "NIST"⟩, ⟨8700, "Xe", 80, some "NIST"⟩,
        ⟨8702, "Xe", 85, some "NIST"⟩], some (.fin 5000), some (.fin 9000), 0⟩, .ok ()) := by decide +kernel
  refine ⟨_, h, by decide +kernel, (C219_one_element_partial Toy.fourXenon _ _ _ "Xe" rfl rfl rfl rfl rfl
    (by intro vs hvs; cases hvs) h _ _ (List.Perm.swap _ _ _) ?_).2, by decide +kernel⟩
  unfold RangesApart
  decide +kernel

end Rascal
