import Verif.Props.LineFilters
import Verif.Props.AtlasProps

/-!
Property theorems C124-C129: how the selection of lines depends on the arguments of `load_calibration_lines`
and of the `Atlas` methods.
-/

set_option linter.unusedSectionVars false

namespace Rascal

variable {K : Type _} [AddCommGroup K] [LinearOrder K]

/-- The returned lines: element, wavelength and intensity, position by position. -/
def Spec.returned (a : LineArrays K) : List (String × K × K) := a.elems.zip (a.wls.zip a.intens)

/-- `mi'` is nowhere stricter than `mi`: both are numbers, or both lists, entry by entry, or `mi'` is no
threshold. -/
inductive Spec.NoStricter : MinIntensity K → MinIntensity K → Prop
  | scalar {v' v : K} : v' ≤ v → NoStricter (.scalar v') (.scalar v)
  | perElement {vs' vs : List K} : List.Forall₂ (· ≤ ·) vs' vs → NoStricter (.perElement vs') (.perElement vs)
  | none (mi) : NoStricter .none mi

theorem lastEntry_le {elements : List String} {vs' vs : List K} (h : List.Forall₂ (· ≤ ·) vs' vs) {e : String}
    {t : K} (ht : Spec.LastEntry elements vs e t) : ∃ t', t' ≤ t ∧ Spec.LastEntry elements vs' e t' := by
  obtain ⟨i, h1, h2, h3⟩ := ht
  have hl := h.length_eq
  have hi : i < vs.length := by
    by_contra hc
    rw [List.getElem?_eq_none (by omega)] at h2
    cases h2
  refine ⟨vs'[i], ?_, i, h1, List.getElem?_eq_getElem _, h3⟩
  have := h.get (by omega) hi
  rw [List.getElem?_eq_getElem hi, Option.some.injEq] at h2
  rw [← h2]
  exact this

theorem brightEnough_mono {elements : List String} {mi' mi : MinIntensity K} (h : Spec.NoStricter mi' mi)
    (r : Row K) (hr : Spec.BrightEnough elements mi r) : Spec.BrightEnough elements mi' r := by
  cases h with
  | scalar h => exact h.trans hr
  | perElement h =>
    obtain ⟨t, h1, h2⟩ := hr
    obtain ⟨t', h3, h4⟩ := lastEntry_le h h1
    exact ⟨t', h4, h3.trans h2⟩
  | none _ => trivial

/-- The line as it is returned: in vacuum or converted to air. -/
def Spec.asReturned (vacToAir : K → K) (vacuum : Bool) (r : Row K) : String × K × K :=
  (r.elem, if vacuum then r.wl else vacToAir r.wl, r.inten)

theorem returned_arrays (vacToAir : K → K) (vacuum : Bool) (out : List (Row K)) :
    Spec.returned (⟨out.map Row.elem, if vacuum then out.map Row.wl else (out.map Row.wl).map vacToAir,
      out.map Row.inten⟩ : LineArrays K) = out.map (Spec.asReturned vacToAir vacuum) := by
  unfold Spec.returned Spec.asReturned
  induction out with
  | nil => cases vacuum <;> rfl
  | cons r t ih =>
    cases vacuum
    · simpa using ih
    · simpa using ih

/-- Without the separation filter the outcome is what the brightness limit leaves of the selection. -/
theorem load_noDistance (argsort : List K → List Nat) (airToVac vacToAir : K → K) (lines : List (Row K))
    (elements : List String) (lo hi : K) (mi : MinIntensity K) (d : K) (hd : ¬ 0 < d) (vacuum : Bool)
    (b : Option Int) (hv : Spec.ThresholdsFit elements mi) :
    ∃ sel : List (Row K), (sel.map Row.wl).Pairwise (· < ·) ∧
      (∀ r, r ∈ sel ↔ Spec.Requested lines elements (if vacuum then lo else airToVac lo)
        (if vacuum then hi else airToVac hi) mi r) ∧
      ∃ a, loadCalibrationLines argsort airToVac vacToAir lines elements lo hi mi d vacuum b = .ok a ∧
        Spec.returned a = (brightRows argsort b sel).map (Spec.asReturned vacToAir vacuum) := by
  obtain ⟨sel, h1, h2, h3⟩ := load_eq argsort airToVac vacToAir lines elements lo hi mi d vacuum b hv
  refine ⟨sel, h1, h2, _, ?_, returned_arrays vacToAir vacuum _⟩
  rw [h3]
  simp only [loadDistanceMask, if_neg hd, List.map_map]
  rw [show ((fun _ => true) ∘ Row.wl : Row K → Bool) = (fun _ => true) from rfl, boolMask_map_pred]
  simp

theorem thresholdsFit_of_ok {argsort : List K → List Nat} {airToVac vacToAir : K → K} {lines : List (Row K)}
    {elements : List String} {lo hi : K} {mi : MinIntensity K} {d : K} {vacuum : Bool} {b : Option Int}
    {a : LineArrays K}
    (h : loadCalibrationLines argsort airToVac vacToAir lines elements lo hi mi d vacuum b = .ok a) :
    Spec.ThresholdsFit elements mi := by
  by_contra hv
  rw [load_badThresholds _ _ _ _ _ _ _ _ _ _ _ hv] at h
  cases h

theorem nodup_of_sorted {l : List (Row K)} (h : l.Pairwise (fun x y => x.wl < y.wl)) : l.Nodup :=
  h.imp (fun {x y} hxy hc => by subst hc; exact lt_irrefl _ hxy)

theorem eq_of_sorted {l l' : List (Row K)} (h : l.Pairwise (fun x y => x.wl < y.wl))
    (h' : l'.Pairwise (fun x y => x.wl < y.wl)) (hm : ∀ r, r ∈ l ↔ r ∈ l') : l = l' :=
  List.Perm.eq_of_pairwise (fun _ _ _ _ h1 h2 => absurd h1 (lt_asymm h2)) h h'
    ((List.perm_ext_iff_of_nodup (nodup_of_sorted h) (nodup_of_sorted h')).2 hm)

open Classical in
theorem sublist_of_sorted {l l' : List (Row K)} (h : l.Pairwise (fun x y => x.wl < y.wl))
    (h' : l'.Pairwise (fun x y => x.wl < y.wl)) (hm : ∀ r ∈ l, r ∈ l') : l.Sublist l' := by
  have e : l = l'.filter (fun r => decide (r ∈ l)) := by
    refine eq_of_sorted h (h'.filter _) (fun r => ?_)
    simp only [List.mem_filter, decide_eq_true_eq]
    exact ⟨fun hr => ⟨hm r hr, hr⟩, fun hr => hr.2⟩
  rw [e]
  exact List.filter_sublist

/-- The outcome depends only on which lines are requested. -/
theorem load_congr (argsort : List K → List Nat) (airToVac vacToAir : K → K) (lines lines' : List (Row K))
    (elements elements' : List String) (lo hi : K) (mi mi' : MinIntensity K) (d : K) (vacuum : Bool)
    (b : Option Int) (hv : Spec.ThresholdsFit elements mi) (hv' : Spec.ThresholdsFit elements' mi')
    (h : ∀ lo hi : K, ∀ r, Spec.Requested lines elements lo hi mi r ↔ Spec.Requested lines' elements' lo hi mi' r) :
    loadCalibrationLines argsort airToVac vacToAir lines' elements' lo hi mi' d vacuum b =
      loadCalibrationLines argsort airToVac vacToAir lines elements lo hi mi d vacuum b := by
  obtain ⟨sel, s1, s2, s3⟩ := load_eq argsort airToVac vacToAir lines elements lo hi mi d vacuum b hv
  obtain ⟨sel', t1, t2, t3⟩ := load_eq argsort airToVac vacToAir lines' elements' lo hi mi' d vacuum b hv'
  rw [List.pairwise_map] at s1 t1
  have e : sel' = sel := eq_of_sorted t1 s1 (fun r => by rw [s2, t2, h])
  rw [s3, t3, e]

/-! ### C124 -/

/-- The full property: a wider range, lower thresholds and a smaller distance never lose a line. -/
def C124_Statement (K : Type _) [AddCommGroup K] [LinearOrder K] : Prop :=
  ∀ (argsort : List K → List Nat) (lines : List (Row K)) (elements : List String) (lo lo' hi hi' : K)
    (mi mi' : MinIntensity K) (d d' : K) (a a' : LineArrays K), IsArgsort argsort →
    lo' ≤ lo → hi ≤ hi' → Spec.NoStricter mi' mi → d' ≤ d →
    loadCalibrationLines argsort id id lines elements lo hi mi d true none = .ok a →
    loadCalibrationLines argsort id id lines elements lo' hi' mi' d' true none = .ok a' →
    ∀ x ∈ Spec.returned a, x ∈ Spec.returned a'

/-- C124 (refutation).  With `min_distance` a fainter line removes its bright neighbour: lowering the threshold
from 50 to 0 loses the line at 400. -/
theorem C124_refuted : ¬ C124_Statement ℤ := by
  intro h
  have := h stableArgsort [⟨"Ar", 400, 90⟩, ⟨"Ar", 405, 20⟩, ⟨"Ar", 500, 80⟩] ["Ar"] 300 300 600 600
    (.scalar 50) (.scalar 0) 10 10 ⟨["Ar", "Ar"], [400, 500], [90, 80]⟩ ⟨["Ar"], [500], [80]⟩
    stableArgsort_isArgsort le_rfl le_rfl (.scalar (by decide)) le_rfl (by decide) (by decide)
    ("Ar", 400, 90) (by decide)
  exact absurd this (by decide)

/-- C124 (partial).  Without the separation filter and the brightness limit: a wider range and lower thresholds
keep every line.  Missing: `min_distance > 0`, for which it is false. -/
theorem C124_selection_partial (argsort : List K → List Nat) (airToVac vacToAir : K → K)
    (lines : List (Row K)) (elements : List String) (lo lo' hi hi' : K) (mi mi' : MinIntensity K) (d d' : K)
    (vacuum : Bool) (hd : ¬ 0 < d) (hd' : ¬ 0 < d')
    (hlo : lo' ≤ lo ∧ (vacuum = false → airToVac lo' ≤ airToVac lo))
    (hhi : hi ≤ hi' ∧ (vacuum = false → airToVac hi ≤ airToVac hi')) (hmi : Spec.NoStricter mi' mi) (a : LineArrays K)
    (h : loadCalibrationLines argsort airToVac vacToAir lines elements lo hi mi d vacuum none = .ok a) :
    ∃ a', loadCalibrationLines argsort airToVac vacToAir lines elements lo' hi' mi' d' vacuum none = .ok a' ∧
      (Spec.returned a).Sublist (Spec.returned a') := by
  have hv := thresholdsFit_of_ok h
  have hv' : Spec.ThresholdsFit elements mi' := by
    intro vs hvs
    cases hmi with
    | scalar _ => cases hvs
    | perElement h1 => cases hvs; rw [h1.length_eq]; exact hv _ rfl
    | none _ => cases hvs
  obtain ⟨sel, s1, s2, b, s3, s4⟩ := load_noDistance argsort airToVac vacToAir lines elements lo hi mi d hd vacuum
    none hv
  obtain ⟨sel', t1, t2, b', t3, t4⟩ := load_noDistance argsort airToVac vacToAir lines elements lo' hi' mi' d' hd'
    vacuum none hv'
  rw [h] at s3
  cases s3
  refine ⟨b', t3, ?_⟩
  rw [s4, t4]
  refine List.Sublist.map _ ?_
  have hsub : ∀ r ∈ sel, r ∈ sel' := by
    intro r hr
    obtain ⟨f, h1, h2, h3⟩ := (s2 r).1 hr
    refine (t2 r).2 ⟨f, le_trans ?_ h1, h2.trans ?_, brightEnough_mono hmi r h3⟩
    · cases hvac : vacuum with
      | true => exact hlo.1
      | false => exact hlo.2 hvac
    · cases hvac : vacuum with
      | true => exact hhi.1
      | false => exact hhi.2 hvac
  rw [List.pairwise_map] at s1 t1
  exact sublist_of_sorted s1 t1 hsub

/-- C124 (partial).  A larger brightness limit keeps every line: the result for `n` lines starts the result for
more.  Without the separation filter. -/
theorem C124_brightest_partial (argsort : List K → List Nat) (ha : IsArgsort argsort) (airToVac vacToAir : K → K)
    (lines : List (Row K)) (elements : List String) (lo hi : K) (mi : MinIntensity K) (d : K) (vacuum : Bool)
    (hd : ¬ 0 < d) (n n' : Nat) (hn : n ≤ n') (a : LineArrays K)
    (h : loadCalibrationLines argsort airToVac vacToAir lines elements lo hi mi d vacuum (some n) = .ok a) :
    ∃ a', loadCalibrationLines argsort airToVac vacToAir lines elements lo hi mi d vacuum (some n') = .ok a' ∧
      Spec.returned a = (Spec.returned a').take n := by
  have hv := thresholdsFit_of_ok h
  obtain ⟨sel, s1, s2, b, s3, s4⟩ := load_noDistance argsort airToVac vacToAir lines elements lo hi mi d hd vacuum
    (some n) hv
  obtain ⟨sel', t1, t2, b', t3, t4⟩ := load_noDistance argsort airToVac vacToAir lines elements lo hi mi d hd
    vacuum (some n') hv
  have hsel : sel' = sel := by
    rw [List.pairwise_map] at s1 t1
    have hnd : ∀ l : List (Row K), l.Pairwise (fun x y => x.wl < y.wl) → l.Nodup := fun l hl =>
      hl.imp (fun {x y} hxy hc => by subst hc; exact lt_irrefl _ hxy)
    refine List.Perm.eq_of_pairwise (fun x y _ _ h1 h2 => absurd h1 (lt_asymm h2)) t1 s1 ?_
    exact (List.perm_ext_iff_of_nodup (hnd _ t1) (hnd _ s1)).2 (fun r => by rw [s2, t2])
  subst hsel
  rw [h] at s3
  cases s3
  refine ⟨b', t3, ?_⟩
  rw [s4, t4, ← List.map_take]
  congr 1
  simp only [brightRows]
  have hlt' : ∀ i ∈ (argsort (sel'.map Row.inten)).reverse, i < sel'.length := by
    intro i hi
    have := ha.lt (sel'.map Row.inten) i (List.mem_reverse.1 hi)
    simpa using this
  unfold pyTake
  rw [takeIdx_take_of_lt hlt', takeIdx_take_of_lt hlt', List.take_take, pyBound_eq_keepCount, pyBound_eq_keepCount]
  unfold Spec.keepCount
  simp only [Int.natCast_nonneg, if_true, Int.toNat_natCast]
  have hl : (takeIdx sel' (argsort (sel'.map Row.inten)).reverse).length =
      (argsort (sel'.map Row.inten)).reverse.length := takeIdx_length_of_lt hlt'
  rw [← hl]
  generalize takeIdx sel' (argsort (sel'.map Row.inten)).reverse = l
  rcases le_total n l.length with h1 | h1
  · congr 1; omega
  · rw [List.take_of_length_le (by omega), List.take_of_length_le (by omega)]

/-- The hypotheses of `C124_brightest_partial` met: one and two of three lines. -/
example : IsArgsort (stableArgsort (K := ℤ)) ∧ loadCalibrationLines (K := ℤ) stableArgsort id id
    [⟨"Ar", 400, 90⟩, ⟨"Ar", 405, 70⟩, ⟨"Ar", 500, 80⟩] ["Ar"] 300 600 (.scalar 10) 0 true (some 1)
      = .ok ⟨["Ar"], [400], [90]⟩ ∧
    loadCalibrationLines (K := ℤ) stableArgsort id id
    [⟨"Ar", 400, 90⟩, ⟨"Ar", 405, 70⟩, ⟨"Ar", 500, 80⟩] ["Ar"] 300 600 (.scalar 10) 0 true (some 2)
      = .ok ⟨["Ar", "Ar"], [400, 500], [90, 80]⟩ := ⟨stableArgsort_isArgsort, by decide, by decide⟩

theorem boolMask_mono {α β : Type _} (p q : α → Bool) (ds : List α) (hpq : ∀ x, p x = true → q x = true)
    (xs : List β) : (boolMask xs (ds.map p)).Sublist (boolMask xs (ds.map q)) := by
  induction ds generalizing xs with
  | nil => simp [boolMask_nil_right]
  | cons x t ih =>
    cases xs with
    | nil => simp [boolMask_nil]
    | cons y ys =>
      simp only [List.map_cons, boolMask_cons]
      cases hp : p x with
      | true => rw [hpq x hp]; simpa using ih ys
      | false =>
        cases hq : q x with
        | true => simpa using (ih ys).cons y
        | false => simpa using ih ys

/-- C124.  A smaller `min_distance` keeps every line, whatever the other arguments. -/
theorem C124_distance (argsort : List K → List Nat) (airToVac vacToAir : K → K)
    (lines : List (Row K)) (elements : List String) (lo hi : K) (mi : MinIntensity K) (d d' : K) (hd : d' ≤ d)
    (vacuum : Bool) (b : Option Int) (a : LineArrays K)
    (h : loadCalibrationLines argsort airToVac vacToAir lines elements lo hi mi d vacuum b = .ok a) :
    ∃ a', loadCalibrationLines argsort airToVac vacToAir lines elements lo hi mi d' vacuum b = .ok a' ∧
      (Spec.returned a).Sublist (Spec.returned a') := by
  have hv := thresholdsFit_of_ok h
  obtain ⟨sel, s1, s2, s3⟩ := load_eq argsort airToVac vacToAir lines elements lo hi mi d vacuum b hv
  obtain ⟨sel', t1, t2, t3⟩ := load_eq argsort airToVac vacToAir lines elements lo hi mi d' vacuum b hv
  rw [List.pairwise_map] at s1 t1
  have e : sel' = sel := eq_of_sorted t1 s1 (fun r => by rw [s2, t2])
  subst e
  rw [s3] at h
  rw [t3]
  dsimp only at h ⊢
  generalize brightRows argsort b sel' = rows at h ⊢
  obtain ⟨m, m', h1, h2, h3⟩ : ∃ m m', loadDistanceMask (rows.map Row.wl) d = .ok m ∧
      loadDistanceMask (rows.map Row.wl) d' = .ok m' ∧ (boolMask rows m).Sublist (boolMask rows m') := by
    unfold loadDistanceMask
    by_cases hd1 : 0 < d
    · rw [if_pos hd1]
      unfold loadDistanceMask at h
      rw [if_pos hd1] at h
      unfold filterSeparation at h ⊢
      cases hw : rows.map Row.wl with
      | nil => rw [hw] at h; cases h
      | cons w t =>
        dsimp only
        by_cases hd2 : 0 < d'
        · rw [if_pos hd2]
          refine ⟨_, _, rfl, rfl, boolMask_mono _ _ _ ?_ _⟩
          intro x hx
          simp only [decide_eq_true_eq] at hx ⊢
          exact hd.trans hx
        · rw [if_neg hd2]
          refine ⟨_, _, rfl, rfl, ?_⟩
          rw [← hw, List.map_map, show ((fun _ => true) ∘ Row.wl : Row K → Bool) = (fun _ => true) from rfl,
            boolMask_true]
          exact boolMask_sublist _ _
    · rw [if_neg hd1, if_neg (fun hc => hd1 (lt_of_lt_of_le hc hd))]
      exact ⟨_, _, rfl, rfl, List.Sublist.refl _⟩
  rw [h1] at h
  rw [h2]
  cases h
  refine ⟨_, rfl, ?_⟩
  rw [returned_arrays, returned_arrays]
  exact h3.map _

/-- Distance 10 keeps two lines, distance 5 all four. -/
example : loadCalibrationLines (K := ℤ) stableArgsort id id
    [⟨"Ar", 400, 90⟩, ⟨"Ar", 405, 70⟩, ⟨"Ar", 500, 80⟩, ⟨"Ar", 550, 80⟩] ["Ar"] 300 600 (.scalar 10) 10 true none
      = .ok ⟨["Ar", "Ar"], [500, 550], [80, 80]⟩ ∧
    loadCalibrationLines (K := ℤ) stableArgsort id id
    [⟨"Ar", 400, 90⟩, ⟨"Ar", 405, 70⟩, ⟨"Ar", 500, 80⟩, ⟨"Ar", 550, 80⟩] ["Ar"] 300 600 (.scalar 10) 5 true none
      = .ok ⟨["Ar", "Ar", "Ar", "Ar"], [400, 405, 500, 550], [90, 70, 80, 80]⟩ := by decide

/-- A case for `C124_selection_partial`: a lower threshold for one element and a wider range, per-element
thresholds. -/
example : loadCalibrationLines (K := ℤ) stableArgsort (· + 1) (· - 1)
    [⟨"Xe", 500, 90⟩, ⟨"Ar", 400, 50⟩, ⟨"Ar", 420, 5⟩] ["Ar", "Xe"] 450 600 (.perElement [10, 10]) 0 false none
      = .ok ⟨["Xe"], [499], [90]⟩ ∧
    loadCalibrationLines (K := ℤ) stableArgsort (· + 1) (· - 1)
    [⟨"Xe", 500, 90⟩, ⟨"Ar", 400, 50⟩, ⟨"Ar", 420, 5⟩] ["Ar", "Xe"] 300 600 (.perElement [0, 10]) 0 false none
      = .ok ⟨["Ar", "Ar", "Xe"], [399, 419, 499], [50, 5, 90]⟩ := by decide

/-! ### C125 -/

/-- The full property: a range can be loaded in two pieces. -/
def C125_Statement (K : Type _) [AddCommGroup K] [LinearOrder K] : Prop :=
  ∀ (argsort : List K → List Nat) (lines : List (Row K)) (elements : List String) (lo mid hi : K)
    (mi : MinIntensity K) (d : K) (a a1 a2 : LineArrays K), IsArgsort argsort → lo ≤ mid → mid ≤ hi →
    loadCalibrationLines argsort id id lines elements lo hi mi d true none = .ok a →
    loadCalibrationLines argsort id id lines elements lo mid mi d true none = .ok a1 →
    loadCalibrationLines argsort id id lines elements mid hi mi d true none = .ok a2 →
    ∀ x, x ∈ Spec.returned a ↔ x ∈ Spec.returned a1 ∨ x ∈ Spec.returned a2

/-- C125 (refutation).  Two lines closer than `min_distance` on the two sides of the cut are both kept in the
pieces and both dropped from the whole. -/
theorem C125_refuted : ¬ C125_Statement ℤ := by
  intro h
  have := h stableArgsort [⟨"Ar", 300, 90⟩, ⟨"Ar", 398, 90⟩, ⟨"Ar", 402, 80⟩, ⟨"Ar", 500, 80⟩] ["Ar"] 200 400 600
    (.scalar 50) 10 ⟨["Ar", "Ar"], [300, 500], [90, 80]⟩ ⟨["Ar", "Ar"], [300, 398], [90, 90]⟩
    ⟨["Ar", "Ar"], [402, 500], [80, 80]⟩ stableArgsort_isArgsort (by decide) (by decide) (by decide) (by decide)
    (by decide) ("Ar", 398, 90)
  exact absurd this (by decide)

/-- C125 (partial).  Without the separation filter and the brightness limit the whole range gives exactly the
lines of the two pieces.  Missing: `min_distance > 0`, for which it is false. -/
theorem C125_pieces_partial (argsort : List K → List Nat) (airToVac vacToAir : K → K) (lines : List (Row K))
    (elements : List String) (lo mid hi : K) (mi : MinIntensity K) (d : K) (hd : ¬ 0 < d) (vacuum : Bool)
    (hlo : lo ≤ mid ∧ (vacuum = false → airToVac lo ≤ airToVac mid))
    (hhi : mid ≤ hi ∧ (vacuum = false → airToVac mid ≤ airToVac hi)) (a : LineArrays K)
    (h : loadCalibrationLines argsort airToVac vacToAir lines elements lo hi mi d vacuum none = .ok a) :
    ∃ a1 a2, loadCalibrationLines argsort airToVac vacToAir lines elements lo mid mi d vacuum none = .ok a1 ∧
      loadCalibrationLines argsort airToVac vacToAir lines elements mid hi mi d vacuum none = .ok a2 ∧
      ∀ x, x ∈ Spec.returned a ↔ x ∈ Spec.returned a1 ∨ x ∈ Spec.returned a2 := by
  have hv := thresholdsFit_of_ok h
  obtain ⟨s, _, s2, b, s3, s4⟩ := load_noDistance argsort airToVac vacToAir lines elements lo hi mi d hd vacuum
    none hv
  obtain ⟨t, _, t2, b1, t3, t4⟩ := load_noDistance argsort airToVac vacToAir lines elements lo mid mi d hd vacuum
    none hv
  obtain ⟨u, _, u2, b2, u3, u4⟩ := load_noDistance argsort airToVac vacToAir lines elements mid hi mi d hd vacuum
    none hv
  rw [h] at s3
  cases s3
  refine ⟨b1, b2, t3, u3, fun x => ?_⟩
  rw [s4, t4, u4]
  have h1 : (if vacuum then lo else airToVac lo) ≤ (if vacuum then mid else airToVac mid) := by
    cases hvac : vacuum with
    | true => exact hlo.1
    | false => exact hlo.2 hvac
  have h2 : (if vacuum then mid else airToVac mid) ≤ (if vacuum then hi else airToVac hi) := by
    cases hvac : vacuum with
    | true => exact hhi.1
    | false => exact hhi.2 hvac
  have key : ∀ r, r ∈ s ↔ r ∈ t ∨ r ∈ u := by
    intro r
    rw [s2, t2, u2]
    unfold Spec.Requested
    constructor
    · rintro ⟨f, g1, g2, g3⟩
      rcases le_total r.wl (if vacuum then mid else airToVac mid) with hc | hc
      · exact .inl ⟨f, g1, hc, g3⟩
      · exact .inr ⟨f, hc, g2, g3⟩
    · rintro (⟨f, g1, g2, g3⟩ | ⟨f, g1, g2, g3⟩)
      · exact ⟨f, g1, g2.trans h2, g3⟩
      · exact ⟨f, h1.trans g1, g2, g3⟩
  simp only [brightRows, List.mem_map]
  constructor
  · rintro ⟨r, hr, rfl⟩
    exact ((key r).1 hr).imp (fun hc => ⟨r, hc, rfl⟩) (fun hc => ⟨r, hc, rfl⟩)
  · rintro (⟨r, hr, rfl⟩ | ⟨r, hr, rfl⟩)
    · exact ⟨r, (key r).2 (.inl hr), rfl⟩
    · exact ⟨r, (key r).2 (.inr hr), rfl⟩

/-- A range of three lines in two pieces, in air. -/
example : (loadCalibrationLines (K := ℤ) stableArgsort (· + 1) (· - 1)
    [⟨"Xe", 500, 90⟩, ⟨"Ar", 400, 50⟩, ⟨"Ar", 420, 50⟩] ["Ar", "Xe"] 300 600 (.scalar 10) 0 false none
      = .ok ⟨["Ar", "Ar", "Xe"], [399, 419, 499], [50, 50, 90]⟩) ∧
    loadCalibrationLines (K := ℤ) stableArgsort (· + 1) (· - 1)
    [⟨"Xe", 500, 90⟩, ⟨"Ar", 400, 50⟩, ⟨"Ar", 420, 50⟩] ["Ar", "Xe"] 300 410 (.scalar 10) 0 false none
      = .ok ⟨["Ar"], [399], [50]⟩ := by decide

/-! ### C126 -/

/-- C126.  `load_calibration_lines`: with one threshold for all elements only the set of elements counts, not
their order or repetitions. -/
theorem C126_load (argsort : List K → List Nat) (airToVac vacToAir : K → K) (lines : List (Row K))
    (elements elements' : List String) (lo hi : K) (mi : MinIntensity K) (hmi : ∀ vs, mi ≠ .perElement vs) (d : K)
    (vacuum : Bool) (b : Option Int) (h : ∀ e, e ∈ elements' ↔ e ∈ elements) :
    loadCalibrationLines argsort airToVac vacToAir lines elements' lo hi mi d vacuum b =
      loadCalibrationLines argsort airToVac vacToAir lines elements lo hi mi d vacuum b := by
  refine load_congr argsort airToVac vacToAir lines lines elements elements' lo hi mi mi d vacuum b
    (fun vs hc => absurd hc (hmi vs)) (fun vs hc => absurd hc (hmi vs)) ?_
  intro lo hi r
  have hc : ∀ e : String, elements'.contains e = elements.contains e := by
    intro e
    rw [Bool.eq_iff_iff, List.contains_iff_mem, List.contains_iff_mem]
    exact h e
  unfold Spec.Requested
  simp only [hc]
  refine and_congr_right fun _ => and_congr_right fun _ => and_congr_right fun _ => ?_
  cases mi with
  | perElement vs => exact absurd rfl (hmi vs)
  | none => rfl
  | scalar v => rfl
  | other => rfl

/-- The hypotheses of `C126_load` met. -/
example := C126_load (K := ℤ) stableArgsort id id [⟨"Ar", 4000, 90⟩, ⟨"Xe", 4100, 70⟩] ["Ar", "Xe"]
  ["Xe", "Ar", "Xe"] 3000 5000 (.scalar 10) (by simp) 5 true none (by simp [or_comm])

/-- C126.  With a threshold per element, elements and thresholds may be given in any order (each element
once). -/
theorem C126_thresholds (argsort : List K → List Nat) (airToVac vacToAir : K → K) (lines : List (Row K))
    (ets ets' : List (String × K)) (lo hi : K) (d : K) (vacuum : Bool) (b : Option Int) (h : ets'.Perm ets)
    (hnd : (ets.map Prod.fst).Nodup) :
    loadCalibrationLines argsort airToVac vacToAir lines (ets'.map Prod.fst) lo hi
        (.perElement (ets'.map Prod.snd)) d vacuum b =
      loadCalibrationLines argsort airToVac vacToAir lines (ets.map Prod.fst) lo hi
        (.perElement (ets.map Prod.snd)) d vacuum b := by
  have hfit : ∀ l : List (String × K), Spec.ThresholdsFit (l.map Prod.fst) (.perElement (l.map Prod.snd)) := by
    intro l vs hvs
    cases hvs
    simp
  refine load_congr argsort airToVac vacToAir lines lines _ _ lo hi _ _ d vacuum b (hfit _) (hfit _) ?_
  intro lo hi r
  have hc : ∀ e : String, (ets'.map Prod.fst).contains e = (ets.map Prod.fst).contains e := by
    intro e
    rw [Bool.eq_iff_iff, List.contains_iff_mem, List.contains_iff_mem]
    exact (h.map Prod.fst).mem_iff
  have hle : ∀ l : List (String × K), (l.map Prod.fst).Nodup → ∀ e t,
      Spec.LastEntry (l.map Prod.fst) (l.map Prod.snd) e t ↔ (e, t) ∈ l := by
    intro l hl e t
    unfold Spec.LastEntry
    constructor
    · rintro ⟨i, h1, h2, _⟩
      rw [List.getElem?_map, Option.map_eq_some_iff] at h1 h2
      obtain ⟨x, hx, rfl⟩ := h1
      obtain ⟨y, hy, rfl⟩ := h2
      rw [hx] at hy
      cases hy
      exact List.mem_of_getElem? hx
    · intro hm
      obtain ⟨i, hi, he⟩ := List.mem_iff_getElem.1 hm
      have hi' : i < (l.map Prod.fst).length := by simpa using hi
      refine ⟨i, by simp [List.getElem?_eq_getElem hi, he], by simp [List.getElem?_eq_getElem hi, he], ?_⟩
      intro j hj hcj
      have hj' : j < (l.map Prod.fst).length := by
        by_contra hcon
        rw [List.getElem?_eq_none (by omega)] at hcj
        cases hcj
      rw [List.getElem?_eq_getElem hj', Option.some.injEq] at hcj
      have h2 : (l.map Prod.fst)[i] = e := by simp [he]
      have := (hl.getElem_inj_iff (hi := hi') (hj := hj')).1 (h2.trans hcj.symm)
      omega
  unfold Spec.Requested Spec.BrightEnough
  simp only [hc]
  refine and_congr_right fun _ => and_congr_right fun _ => and_congr_right fun _ => ?_
  refine exists_congr fun t => and_congr_left fun _ => ?_
  rw [hle _ hnd, hle _ ((h.map Prod.fst).nodup_iff.2 hnd)]
  exact h.mem_iff.symm

/-- The hypotheses of `C126_thresholds` met. -/
example := C126_thresholds (K := ℤ) stableArgsort id id [⟨"Ar", 4000, 90⟩, ⟨"Xe", 4100, 70⟩] [("Ar", 50), ("Xe", 80)]
  [("Xe", 80), ("Ar", 50)] 3000 5000 0 true none (.swap _ _ []) (by decide)

theorem forall2_perm {α β : Type _} {R : α → β → Prop} {l l' : List α} {rs : List β} (h : l'.Perm l)
    (hr : List.Forall₂ R l rs) : ∃ rs', List.Forall₂ R l' rs' ∧ rs'.Perm rs := by
  induction h generalizing rs with
  | nil => exact ⟨rs, hr, .refl _⟩
  | cons x _ ih =>
    cases hr with
    | cons hx ht =>
      obtain ⟨rs', h1, h2⟩ := ih ht
      exact ⟨_, .cons hx h1, h2.cons _⟩
  | swap x y l =>
    cases hr with
    | cons hx ht =>
      cases ht with
      | cons hy ht => exact ⟨_, .cons hy (.cons hx ht), .swap _ _ _⟩
  | trans _ _ ih1 ih2 =>
    obtain ⟨r2, h1, h2⟩ := ih2 hr
    obtain ⟨r1, h3, h4⟩ := ih1 h1
    exact ⟨r1, h3, h4.trans h2⟩

/-- C126.  `Atlas.add` with the elements in another order succeeds as well and adds the same lines, in another
order. -/
theorem C126_add (env : Env K) (at_ : Atlas K) (a : AddArgs K) (l l' : List String) (h : l'.Perm l)
    (at1 : Atlas K) (h1 : at_.add env { a with elements := .list l } = (at1, .ok ())) :
    ∃ at2, at_.add env { a with elements := .list l' } = (at2, .ok ()) ∧ at2.lines.Perm at1.lines ∧
      at2.minW = at1.minW ∧ at2.maxW = at1.maxW ∧ at2.rangeTol = at1.rangeTol := by
  obtain ⟨lo, hi, rs, g1, g2, g3, rfl⟩ := (C44_add env at_ { a with elements := .list l } at1).1 h1
  obtain ⟨rs', g4, g5⟩ := forall2_perm h g3
  refine ⟨_, (C44_add env at_ { a with elements := .list l' } _).2 ⟨lo, hi, rs', g1, g2, g4, rfl⟩, ?_, rfl, rfl, rfl⟩
  exact List.Perm.append_left _ (g5.flatMap_right _)

/-- Two elements in both orders. -/
example : ((⟨[], some (.fin 3000), some (.fin 5000), 500⟩ : Atlas ℤ).add
      ⟨stableArgsort, [⟨"Ar", 4000, 90⟩, ⟨"Xe", 4100, 70⟩], fun _ => none⟩
      ⟨.list ["Ar", "Xe"], none, none, .scalar 10, 0, true, id, id, .nist, some 1000⟩).1.getLines = [4000, 4100] ∧
    ((⟨[], some (.fin 3000), some (.fin 5000), 500⟩ : Atlas ℤ).add
      ⟨stableArgsort, [⟨"Ar", 4000, 90⟩, ⟨"Xe", 4100, 70⟩], fun _ => none⟩
      ⟨.list ["Xe", "Ar"], none, none, .scalar 10, 0, true, id, id, .nist, some 1000⟩).1.getLines = [4100, 4000] := by
  decide

example : loadCalibrationLines (K := ℤ) stableArgsort id id [⟨"Ar", 4000, 90⟩, ⟨"Xe", 4100, 70⟩]
    (([("Xe", 80), ("Ar", 50)] : List (String × ℤ)).map Prod.fst) 3000 5000 (.perElement [80, 50]) 0 true none =
      .ok ⟨["Ar"], [4000], [90]⟩ := by decide

/-! ### C127 -/

/-- The same letters, in upper or lower case. -/
def Spec.SameLetters (e e' : String) : Prop := e.toList.map Char.toLower = e'.toList.map Char.toLower

/-- The documented property: element names are case insensitive. -/
def C127_Statement (K : Type _) [AddCommGroup K] [LinearOrder K] : Prop :=
  ∀ (argsort : List K → List Nat) (lines : List (Row K)) (elements elements' : List String) (lo hi : K)
    (mi : MinIntensity K) (d : K), IsArgsort argsort → List.Forall₂ Spec.SameLetters elements elements' →
    loadCalibrationLines argsort id id lines elements' lo hi mi d true none =
      loadCalibrationLines argsort id id lines elements lo hi mi d true none

/-- C127 (refutation).  "ar" selects nothing, and with `min_distance` the call then raises IndexError. -/
theorem C127_refuted : ¬ C127_Statement ℤ := by
  intro h
  have := h stableArgsort [⟨"Ar", 4000, 90⟩, ⟨"Ar", 4100, 70⟩] ["Ar"] ["ar"] 3000 5000 (.scalar 50) 10
    stableArgsort_isArgsort (.cons (by unfold Spec.SameLetters; decide) .nil)
  exact absurd this (by decide)

/-- C127 (partial).  Names are compared exactly: names that do not occur in the line list in this spelling have
no effect (one threshold for all elements).  Missing: other spellings of names that do occur. -/
theorem C127_exact_partial (argsort : List K → List Nat) (airToVac vacToAir : K → K) (lines : List (Row K))
    (elements extra : List String) (lo hi : K) (mi : MinIntensity K) (hmi : ∀ vs, mi ≠ .perElement vs) (d : K)
    (vacuum : Bool) (b : Option Int) (h : ∀ r ∈ lines, r.elem ∉ extra) :
    loadCalibrationLines argsort airToVac vacToAir lines (elements ++ extra) lo hi mi d vacuum b =
      loadCalibrationLines argsort airToVac vacToAir lines elements lo hi mi d vacuum b := by
  refine load_congr argsort airToVac vacToAir lines lines elements _ lo hi mi mi d vacuum b
    (fun vs hc => absurd hc (hmi vs)) (fun vs hc => absurd hc (hmi vs)) ?_
  intro lo hi r
  have hf : lines.filter (fun q => (elements ++ extra).contains q.elem) =
      lines.filter (fun q => elements.contains q.elem) := by
    refine List.filter_congr fun q hq => ?_
    rw [Bool.eq_iff_iff, List.contains_iff_mem, List.contains_iff_mem, List.mem_append]
    exact or_iff_left (h q hq)
  unfold Spec.Requested
  rw [hf]
  refine and_congr_right fun _ => and_congr_right fun _ => and_congr_right fun _ => ?_
  cases mi with
  | perElement vs => exact absurd rfl (hmi vs)
  | none => rfl
  | scalar v => rfl
  | other => rfl

example : loadCalibrationLines (K := ℤ) stableArgsort id id [⟨"Ar", 4000, 90⟩, ⟨"Xe", 4100, 70⟩] (["Ar"] ++ ["xe"])
    3000 5000 (.scalar 10) 0 true none = .ok ⟨["Ar"], [4000], [90]⟩ := by decide

/-! ### C128 -/

theorem firstWith_filter {α : Type _} (key : α → K) (p : α → Bool) (l : List α) (r : α) (hr : p r = true)
    (hsep : ∀ q ∈ l, p q = false → key q ≠ key r) :
    Spec.FirstWith key (l.filter p) r ↔ Spec.FirstWith key l r := by
  constructor
  · rintro ⟨pre, post, h, hk⟩
    obtain ⟨l1, l2, rfl, h1, h2⟩ := List.filter_eq_append_iff.1 h
    obtain ⟨m1, m2, rfl, h3, h4, h5⟩ := List.filter_eq_cons_iff.1 h2
    refine ⟨l1 ++ m1, m2, by simp, ?_⟩
    intro q hq
    cases hp : p q with
    | false =>
      refine hsep q ?_ hp
      rcases List.mem_append.1 hq with hq | hq <;> simp [hq]
    | true =>
      rcases List.mem_append.1 hq with hq | hq
      · exact hk q (by rw [← h1]; exact List.mem_filter.2 ⟨hq, hp⟩)
      · exact absurd hp (h3 q hq)
  · rintro ⟨pre, post, rfl, hk⟩
    refine ⟨pre.filter p, post.filter p, ?_, fun q hq => hk q (List.mem_filter.1 hq).1⟩
    rw [List.filter_append, List.filter_cons_of_pos hr]

/-- The documented property: lines below the threshold have no influence (the lines are filtered by intensity
before anything else compares them). -/
def C128_Statement : Prop :=
  ∀ (argsort : List ℤ → List Nat) (lines : List (Row ℤ)) (elements : List String) (lo hi t d : ℤ)
    (b : Option Int), IsArgsort argsort →
    loadCalibrationLines argsort id id (lines.filter (fun r => decide (t ≤ r.inten))) elements lo hi (.scalar t) d
        true b = loadCalibrationLines argsort id id lines elements lo hi (.scalar t) d true b

/-- C128 (refutation).  Of two lines with the same wavelength only the first is looked at: a faint one hides the
bright one behind it. -/
theorem C128_refuted : ¬ C128_Statement := by
  intro h
  have := h stableArgsort [⟨"Ar", 4000, 5⟩, ⟨"Xe", 4000, 900⟩] ["Ar", "Xe"] 3000 5000 50 0 none
    stableArgsort_isArgsort
  exact absurd this (by decide)

open Classical in
/-- C128 (partial).  If no faint line has exactly the wavelength of a bright one, lines below the threshold have
no influence on the outcome, in particular not through `min_distance` or the brightness limit. -/
theorem C128_faint_partial (argsort : List K → List Nat) (airToVac vacToAir : K → K) (lines : List (Row K))
    (elements : List String) (lo hi : K) (mi : MinIntensity K) (d : K) (vacuum : Bool) (b : Option Int)
    (hsep : ∀ q ∈ lines, ∀ r ∈ lines, ¬ Spec.BrightEnough elements mi q → Spec.BrightEnough elements mi r →
      q.wl ≠ r.wl) :
    loadCalibrationLines argsort airToVac vacToAir (lines.filter (fun r => decide (Spec.BrightEnough elements mi r)))
        elements lo hi mi d vacuum b =
      loadCalibrationLines argsort airToVac vacToAir lines elements lo hi mi d vacuum b := by
  by_cases hv : Spec.ThresholdsFit elements mi
  · refine load_congr argsort airToVac vacToAir lines _ elements elements lo hi mi mi d vacuum b hv hv ?_
    intro lo hi r
    unfold Spec.Requested
    rw [List.filter_comm]
    by_cases hb : Spec.BrightEnough elements mi r
    · by_cases hrl : r ∈ lines
      · rw [firstWith_filter Row.wl (fun r => decide (Spec.BrightEnough elements mi r))
          (lines.filter fun q => elements.contains q.elem) r (by simpa using hb)]
        intro q hq hp
        exact hsep q (List.mem_filter.1 hq).1 r hrl (by simpa using hp) hb
      · have hno : ∀ l : List (Row K), (∀ x ∈ l, x ∈ lines) → ¬ Spec.FirstWith Row.wl l r := by
          rintro l hl ⟨pre, post, rfl, _⟩
          exact hrl (hl r (by simp))
        constructor
        · rintro ⟨hc, _⟩
          exact absurd hc (hno _ (fun x hx => (List.mem_filter.1 hx).1))
        · rintro ⟨hc, _⟩
          exact absurd hc (hno _ (fun x hx => (List.mem_filter.1 (List.mem_filter.1 hx).1).1))
    · exact ⟨fun hc => absurd hc.2.2.2 hb, fun hc => absurd hc.2.2.2 hb⟩
  · rw [load_badThresholds _ _ _ _ _ _ _ _ _ _ _ hv, load_badThresholds _ _ _ _ _ _ _ _ _ _ _ hv]

/-- A faint line next to a bright one, with `min_distance`. -/
example : loadCalibrationLines (K := ℤ) stableArgsort id id [⟨"Ar", 4000, 90⟩, ⟨"Ar", 4003, 7⟩, ⟨"Ar", 4100, 70⟩]
    ["Ar"] 3000 5000 (.scalar 10) 10 true none = .ok ⟨["Ar", "Ar"], [4000, 4100], [90, 70]⟩ := by decide

/-! ### C129 -/

theorem addLoop_of_ok {load : String → PyRes (LineArrays K)} {es : List String} {rs : List (LineArrays K)}
    (h : List.Forall₂ (fun e r => load e = .ok r) es rs) (lines : List (AtlasLine K)) :
    addLoop load es lines = (lines ++ rs.flatMap nistOf, .ok ()) := by
  induction h generalizing lines with
  | nil => simp [addLoop]
  | cons hx _ ih =>
    rw [addLoop, hx]
    dsimp only
    rw [ih]
    simp [nistOf, LineArrays.nistLines]

theorem addLoop_of_error {load : String → PyRes (LineArrays K)} {pre post : List String} {e : String}
    {rs : List (LineArrays K)} {err : PyErr} (h : List.Forall₂ (fun e r => load e = .ok r) pre rs)
    (he : load e = .error err) (lines : List (AtlasLine K)) :
    addLoop load (pre ++ e :: post) lines = (lines ++ rs.flatMap nistOf, .error err) := by
  induction h generalizing lines with
  | nil => simp [addLoop, he]
  | cons hx _ ih =>
    rw [List.cons_append, addLoop, hx]
    dsimp only
    rw [ih]
    simp [nistOf, LineArrays.nistLines]

/-- The full property: adding lines by hand does not change what a later `add` selects. -/
def C129_Statement (K : Type _) [AddCommGroup K] [LinearOrder K] : Prop :=
  ∀ (env : Env K) (at_ at1 at2 at3 : Atlas K) (es : List String) (ws : List K) (a : AddArgs K),
    at_.addUser (.list es) (.seq ws) none false id = (at1, .ok ()) →
    at_.add env a = (at2, .ok ()) → at1.add env a = (at3, .ok ()) →
    ∃ new, at2.lines = at_.lines ++ new ∧ at3.lines = at1.lines ++ new

/-- C129 (refutation).  `add_user_atlas` replaces the limits of the atlas by the extremes of the user's lines. -/
theorem C129_refuted : ¬ C129_Statement ℤ := by
  intro h
  obtain ⟨new, h1, h2⟩ := h ⟨stableArgsort, [⟨"Ar", 3500, 90⟩, ⟨"Ar", 4400, 70⟩], fun _ => none⟩
    ⟨[], some (.fin 3000), some (.fin 5000), 100⟩
    ⟨[⟨4350, "Hg", 0, none⟩], some (.fin 4350), some (.fin 4350), 100⟩
    ⟨[⟨3500, "Ar", 90, some "NIST"⟩, ⟨4400, "Ar", 70, some "NIST"⟩], some (.fin 3000), some (.fin 5000), 100⟩
    ⟨[⟨4350, "Hg", 0, none⟩, ⟨4400, "Ar", 70, some "NIST"⟩], some (.fin 4350), some (.fin 4350), 100⟩
    ["Hg"] [4350] ⟨.str "Ar", none, none, .scalar 10, 0, true, id, id, .nist, some 1000⟩ (by decide) (by decide)
    (by decide)
  simp only [List.nil_append] at h1
  subst h1
  exact absurd h2 (by decide)

/-- C129 (partial).  If both limits are given to `add`, it appends the same lines to any atlas, whatever was done
to it before.  Missing: limits left to the atlas. -/
theorem C129_limits_partial (env : Env K) (at_ at1 : Atlas K) (a : AddArgs K) (l u : PyFloat K)
    (hl : a.minW = some l) (hu : a.maxW = some u) :
    (∃ new, at_.add env a = ({ at_ with lines := at_.lines ++ new }, .ok ()) ∧
      at1.add env a = ({ at1 with lines := at1.lines ++ new }, .ok ())) ∨
    (∃ new e, at_.add env a = ({ at_ with lines := at_.lines ++ new }, .error e) ∧
      at1.add env a = ({ at1 with lines := at1.lines ++ new }, .error e)) := by
  unfold Atlas.add
  rw [hl, hu]
  simp only [addLimit]
  cases l.toFinite with
  | none => exact .inr ⟨[], .valueError, by simp, by simp⟩
  | some lo =>
    cases u.toFinite with
    | none => exact .inr ⟨[], .valueError, by simp, by simp⟩
    | some hi =>
      dsimp only
      rcases addLoop_ok (a.load env lo hi) a.elements.toList at_.lines with
        ⟨rs, h1, h2⟩ | ⟨pre, e, post, rs, err, h1, h2, h3, h4⟩
      · refine .inl ⟨_, by rw [h2], ?_⟩
        rw [addLoop_of_ok h1]
      · refine .inr ⟨_, err, by rw [h4], ?_⟩
        rw [h1, addLoop_of_error h2 h3]

example : ((⟨[⟨4350, "Hg", 0, none⟩], some (.fin 4350), some (.fin 4350), 100⟩ : Atlas ℤ).add
      ⟨stableArgsort, [⟨"Ar", 3500, 90⟩, ⟨"Ar", 4400, 70⟩], fun _ => none⟩
      ⟨.str "Ar", some (.fin 3000), some (.fin 5000), .scalar 10, 0, true, id, id, .nist, some 1000⟩).1.getLines =
    [4350, 3500, 4400] := by decide

end Rascal
