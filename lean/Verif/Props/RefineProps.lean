import Verif.Model.RefinePeaks
import Verif.Proofs.PyLemmas
import Mathlib.Algebra.Field.Rat
import Mathlib.Algebra.Order.Ring.Rat
import Mathlib.Algebra.Order.Floor.Semiring
import Mathlib.Data.Rat.Floor
import Mathlib.Order.WithBot
import Mathlib.Tactic.Linarith
import Mathlib.Tactic.NormNum
import Mathlib.Tactic.Ring
import Mathlib.Tactic.LinearCombination
import Mathlib.Tactic.Positivity

/-!
Property theorems C15-C18 and C89: `refine_peaks`.
-/

set_option linter.unusedSectionVars false

namespace Rascal

variable {K : Type _} [Field K] [LinearOrder K] [IsStrictOrderedRing K] [FloorRing K]

/-- The copy of the spectrum as it is when a peak is reached: all windows of the earlier peaks have
been divided by their maxima. -/
def workingCopy (sp : List (PyFloat K)) (ww : Int) (earlier : List K) : List (PyFloat K) :=
  earlier.foldl (fun s p => divideWindow s ww p) sp

/-- `x` is the position reported for peak `p` when its window is cut from `sp`: the fit of the
normalised window succeeded with a height that is not negative and a centre `c` between 0 and the
length of the spectrum, and `x = p - ww + c`. -/
def Reported (fit : List (PyFloat K) → FitOut K) (sp : List (PyFloat K)) (ww : Int) (p x : K) : Prop :=
  ∃ h c, fit (normaliseWindow (peakWindow sp ww p)) = .ok h (.fin c) ∧
    (h ≠ .negInf ∧ ∀ a, h = .fin a → 0 ≤ a) ∧ 0 ≤ c ∧ c ≤ (sp.length : K) ∧ x = p - (ww : K) + c

theorem divideWindow_length (sp : List (PyFloat K)) (ww : Int) (p : K)
    (h : peakWindow sp ww p ≠ []) : (divideWindow sp ww p).length = sp.length := by
  unfold divideWindow normaliseWindow
  have h1 : 0 < (peakWindow sp ww p).length := List.length_pos_iff.2 h
  unfold peakWindow at h1 ⊢
  simp only [List.length_append, List.length_map, List.length_drop, List.length_take] at h1 ⊢
  omega

/-- What the loop computes, peak by peak: `none` when the peak contributes nothing. -/
def contribution (fit : List (PyFloat K) → FitOut K) (sp : List (PyFloat K)) (ww : Int) (p : K) :
    PyRes (Option (PyFloat K)) :=
  if peakWindow sp ww p = [] then .error .valueError
  else if (normaliseWindow (peakWindow sp ww p)).all (fun v => !v.isFinite) then .ok none
  else match fit (normaliseWindow (peakWindow sp ww p)) with
    | .runtimeError => .ok none
    | .raises e => .error e
    | .ok height centre =>
      if PyFloat.lt height (.fin 0) then .ok none
      else if PyFloat.lt (.fin (sp.length : K)) centre || PyFloat.lt centre (.fin 0) then .ok none
      else .ok (some (match centre with
                | .fin c => .fin (p - (ww : K) + c)
                | other => other))

theorem refineLoop_cons (fit : List (PyFloat K) → FitOut K) (ww : Int) (sp : List (PyFloat K)) (p : K)
    (rest : List K) : refineLoop fit ww sp (p :: rest) =
      match contribution fit sp ww p with
      | .error e => .error e
      | .ok none => refineLoop fit ww (divideWindow sp ww p) rest
      | .ok (some v) =>
        match refineLoop fit ww (divideWindow sp ww p) rest with
        | .error e => .error e
        | .ok r => .ok (v :: r) := by
  rw [refineLoop]
  unfold contribution
  by_cases h1 : peakWindow sp ww p = []
  · simp [h1]
  · simp only [h1, if_false]
    by_cases h2 : (normaliseWindow (peakWindow sp ww p)).all (fun v => !v.isFinite) = true
    · simp only [h2, if_true]
    · simp only [h2]
      cases hf : fit (normaliseWindow (peakWindow sp ww p)) with
      | runtimeError => rfl
      | raises e => rfl
      | ok h c =>
        simp only [Bool.false_eq_true, if_false]
        by_cases h3 : PyFloat.lt h (.fin 0) = true
        · simp only [h3, if_true]
        · simp only [h3]
          simp only [Bool.false_eq_true, if_false]
          by_cases h4 : (PyFloat.lt (.fin (sp.length : K)) c || PyFloat.lt c (.fin 0)) = true
          · simp only [h4, if_true]
          · simp only [h4]
            rfl

theorem contribution_fin {fit : List (PyFloat K) → FitOut K} {sp : List (PyFloat K)} {ww : Int}
    {p x : K} (h : contribution fit sp ww p = .ok (some (.fin x))) : Reported fit sp ww p x := by
  unfold contribution at h
  split_ifs at h with h1 h2
  · simp at h
  cases hf : fit (normaliseWindow (peakWindow sp ww p)) with
  | runtimeError => rw [hf] at h; simp at h
  | raises e => rw [hf] at h; simp at h
  | ok ht c =>
    rw [hf] at h
    dsimp only at h
    split_ifs at h with h3 h4
    · simp at h
    · simp at h
    cases c with
    | fin c =>
      simp only [Except.ok.injEq, Option.some.injEq, PyFloat.fin.injEq] at h
      simp only [PyFloat.lt, Bool.or_eq_true, decide_eq_true_eq, not_or, not_lt] at h4
      refine ⟨ht, c, hf, ⟨?_, ?_⟩, h4.2, h4.1, h.symm⟩
      · rintro rfl
        exact h3 rfl
      · rintro a rfl
        exact not_lt.1 (fun hlt => h3 (decide_eq_true hlt))
    | posInf => simp at h
    | negInf => simp at h
    | nan => simp at h

theorem contribution_isFin {fit : List (PyFloat K) → FitOut K} {sp : List (PyFloat K)} {ww : Int}
    {p : K} {v : PyFloat K} (hno : ∀ y ht c, fit y = .ok ht c → ∃ v, c = .fin v)
    (h : contribution fit sp ww p = .ok (some v)) : ∃ x, v = .fin x := by
  unfold contribution at h
  split_ifs at h with h1 h2
  · simp at h
  cases hf : fit (normaliseWindow (peakWindow sp ww p)) with
  | runtimeError => rw [hf] at h; simp at h
  | raises e => rw [hf] at h; simp at h
  | ok ht c =>
    rw [hf] at h
    dsimp only at h
    split_ifs at h with h3 h4
    · simp at h
    · simp at h
    obtain ⟨c, rfl⟩ := hno _ _ _ hf
    exact ⟨_, (Option.some.inj (Except.ok.inj h)).symm⟩

/-- The loop, element by element. -/
theorem refineLoop_spec (fit : List (PyFloat K) → FitOut K) (ww : Int) (sp : List (PyFloat K))
    (peaks : List K) (raw : List (PyFloat K)) (h : refineLoop fit ww sp peaks = .ok raw) :
    ∃ cs : List (Option (PyFloat K)), raw = cs.filterMap id ∧ cs.length = peaks.length ∧
      ∀ (i : Nat) (p : K), peaks[i]? = some p →
        ∃ c, cs[i]? = some c ∧ contribution fit (workingCopy sp ww (peaks.take i)) ww p = .ok c ∧
          (workingCopy sp ww (peaks.take i)).length = sp.length := by
  induction peaks generalizing sp raw with
  | nil =>
    refine ⟨[], ?_, rfl, by simp⟩
    simp only [refineLoop] at h
    rw [← Except.ok.inj h]; rfl
  | cons p rest ih =>
    rw [refineLoop_cons] at h
    cases hc : contribution fit sp ww p with
    | error e => rw [hc] at h; simp at h
    | ok o =>
      have hne : peakWindow sp ww p ≠ [] := by
        intro he
        unfold contribution at hc
        simp [he] at hc
      have hlen := divideWindow_length sp ww p hne
      rw [hc] at h
      have key : ∃ r, refineLoop fit ww (divideWindow sp ww p) rest = .ok r ∧
          raw = (o :: []).filterMap id ++ r := by
        cases o with
        | none => exact ⟨raw, h, by simp⟩
        | some v =>
          cases hr : refineLoop fit ww (divideWindow sp ww p) rest with
          | error e => rw [hr] at h; simp at h
          | ok r =>
            rw [hr] at h
            refine ⟨r, rfl, ?_⟩
            rw [← Except.ok.inj h]; simp
      obtain ⟨r, hr, hraw⟩ := key
      obtain ⟨cs, h1, h2, h3⟩ := ih _ _ hr
      refine ⟨o :: cs, ?_, by simp [h2], ?_⟩
      · rw [hraw, h1]
        cases o <;> simp
      · intro i q hq
        cases i with
        | zero =>
          simp only [List.getElem?_cons_zero, Option.some.injEq] at hq
          subst hq
          exact ⟨o, rfl, by simpa [workingCopy] using hc, by simp [workingCopy]⟩
        | succ i =>
          simp only [List.getElem?_cons_succ] at hq
          obtain ⟨c, hc1, hc2, hc3⟩ := h3 i q hq
          refine ⟨c, by simpa using hc1, ?_, ?_⟩
          · simpa [workingCopy] using hc2
          · rw [← hlen]
            simpa [workingCopy] using hc3

theorem refineSelect_sublist (len : Nat) (raw : List (PyFloat K)) :
    (refineSelect len raw).Sublist raw := boolMask_sublist _ _

theorem mem_refineSelect {len : Nat} {raw : List (PyFloat K)} {v : PyFloat K}
    (h : v ∈ refineSelect len raw) :
    ∃ i : Nat, raw[i]? = some v ∧ PyFloat.lt (.fin 0) v = true ∧ PyFloat.lt v (.fin (len : K)) = true ∧
      ∀ j : Nat, j + 1 = i → ∀ u, raw[j]? = some u → isClose u v = false := by
  unfold refineSelect at h
  obtain ⟨i, h1, h2⟩ := (mem_boolMask _ _ _).1 h
  rw [List.getElem?_zipWith] at h2
  rw [List.getElem?_map, h1] at h2
  refine ⟨i, h1, ?_⟩
  cases hc : (false :: List.zipWith isClose raw raw.tail)[i]? with
  | none => rw [hc] at h2; simp at h2
  | some b =>
    rw [hc] at h2
    simp only [Option.map_some, Option.some.injEq, Bool.and_eq_true, Bool.not_eq_true'] at h2
    refine ⟨h2.1.1, h2.1.2, ?_⟩
    intro j hj u hu
    subst hj
    rw [List.getElem?_cons_succ, List.getElem?_zipWith, hu, List.getElem?_tail, h1] at hc
    simp only [Option.some.injEq] at hc
    rw [hc]; exact h2.2

/-! ### C15 -/

/-- C15.  Every returned position is strictly inside the spectrum and is reported for one of the given
peaks (with the spectrum copy as it is when the loop reaches that peak); there are at most as many
positions as peaks, in the order of the peaks. -/
theorem C15_positions (fit : List (PyFloat K) → FitOut K) (sp : List (PyFloat K)) (peaks : List K)
    (ww : Int) (out : List (PyFloat K)) (h : refinePeaks fit true sp peaks ww = .ok out) :
    out.length ≤ peaks.length ∧
    (∀ v ∈ out, ∃ x : K, v = .fin x ∧ 0 < x ∧ x < (sp.length : K) ∧
      ∃ (i : Nat) (p : K), peaks[i]? = some p ∧
        Reported fit (workingCopy sp ww (peaks.take i)) ww p x) ∧
    (∃ idx : List Nat, idx.Pairwise (· < ·) ∧ idx.length = out.length ∧
      ∀ (k i : Nat), idx[k]? = some i → ∃ p x, peaks[i]? = some p ∧ out[k]? = some (.fin x) ∧
        Reported fit (workingCopy sp ww (peaks.take i)) ww p x) := by
  unfold refinePeaks at h
  dsimp only at h
  cases hr : refineLoop fit ww sp peaks with
  | error e => rw [hr] at h; simp at h
  | ok raw =>
    rw [hr] at h
    have h := Except.ok.inj h
    subst h
    obtain ⟨cs, h1, h2, h3⟩ := refineLoop_spec fit ww sp peaks raw hr
    have hfin : ∀ v ∈ refineSelect sp.length raw, ∃ x : K, v = .fin x ∧ 0 < x ∧ x < (sp.length : K) := by
      intro v hv
      obtain ⟨i, hi, hp, hl, _⟩ := mem_refineSelect hv
      cases v with
      | fin x => exact ⟨x, rfl, by simpa [PyFloat.lt] using hp, by simpa [PyFloat.lt] using hl⟩
      | posInf => simp [PyFloat.lt] at hl
      | negInf => simp [PyFloat.lt] at hp
      | nan => simp [PyFloat.lt] at hp
    have hsub := refineSelect_sublist sp.length raw
    -- positions of the sublist inside `cs`
    have hidx : ∃ idx : List Nat, idx.Pairwise (· < ·) ∧
        idx.map (fun i => cs[i]?) = (refineSelect sp.length raw).map (fun v => some (some v)) := by
      generalize refineSelect sp.length raw = out at hsub
      rw [h1] at hsub
      clear hfin h3 h2 h1 hr
      induction cs generalizing out with
      | nil =>
        have : out = [] := by simpa using hsub
        exact ⟨[], by simp, by simp [this]⟩
      | cons c cs ih =>
        have shift : ∀ out : List (PyFloat K), (∃ idx : List Nat, idx.Pairwise (· < ·) ∧
            idx.map (fun i => cs[i]?) = out.map (fun v => some (some v))) →
            ∃ idx : List Nat, idx.Pairwise (· < ·) ∧ (∀ i ∈ idx, 0 < i) ∧
            idx.map (fun i => (c :: cs)[i]?) = out.map (fun v => some (some v)) := by
          rintro out ⟨idx, ha, hb⟩
          refine ⟨idx.map (· + 1), ?_, ?_, ?_⟩
          · rw [List.pairwise_map]
            exact ha.imp (fun h => by omega)
          · intro i hi
            obtain ⟨j, _, rfl⟩ := List.mem_map.1 hi
            omega
          · rw [List.map_map, ← hb]
            rfl
        cases c with
        | none =>
          obtain ⟨idx, ha, _, hb⟩ := shift out (ih out (by simpa using hsub))
          exact ⟨idx, ha, hb⟩
        | some w =>
          simp only [List.filterMap_cons, id] at hsub
          cases hsub with
          | cons _ hs =>
            obtain ⟨idx, ha, _, hb⟩ := shift out (ih out hs)
            exact ⟨idx, ha, hb⟩
          | cons_cons _ hs =>
            obtain ⟨idx, ha, hp, hb⟩ := shift _ (ih _ hs)
            refine ⟨0 :: idx, List.pairwise_cons.2 ⟨hp, ha⟩, ?_⟩
            rw [List.map_cons, hb]
            rfl
    obtain ⟨idx, hmono, hmap⟩ := hidx
    have hlen : idx.length = (refineSelect sp.length raw).length := by
      have := congrArg List.length hmap
      simpa using this
    have hthird : ∀ (k i : Nat), idx[k]? = some i → ∃ p x, peaks[i]? = some p ∧
        (refineSelect sp.length raw)[k]? = some (.fin x) ∧
        Reported fit (workingCopy sp ww (peaks.take i)) ww p x := by
      intro k i hk
      have hk2 := congrArg (fun l => l[k]?) hmap
      simp only [List.getElem?_map, hk, Option.map_some] at hk2
      cases ho : (refineSelect sp.length raw)[k]? with
      | none => rw [ho] at hk2; simp at hk2
      | some v =>
        rw [ho] at hk2
        simp only [Option.map_some, Option.some.injEq] at hk2
        obtain ⟨x, rfl, _⟩ := hfin v (List.mem_of_getElem? ho)
        have hil : i < peaks.length := by
          rw [← h2]
          exact (List.getElem?_eq_some_iff.1 hk2).1
        obtain ⟨c, hc1, hc2, hc3⟩ := h3 i peaks[i] (List.getElem?_eq_getElem hil)
        rw [hk2] at hc1
        have hc1 := Option.some.inj hc1
        subst hc1
        exact ⟨peaks[i], x, List.getElem?_eq_getElem hil, rfl, contribution_fin hc2⟩
    refine ⟨?_, ?_, idx, hmono, hlen, hthird⟩
    · calc (refineSelect sp.length raw).length ≤ raw.length := hsub.length_le
        _ ≤ cs.length := by rw [h1]; exact List.length_filterMap_le _ _
        _ = peaks.length := h2
    · intro v hv
      obtain ⟨x, rfl, hx0, hx1⟩ := hfin v hv
      refine ⟨x, rfl, hx0, hx1, ?_⟩
      obtain ⟨k, hk⟩ := List.mem_iff_getElem?.1 hv
      have hkl : k < idx.length := by
        rw [hlen]; exact (List.getElem?_eq_some_iff.1 hk).1
      obtain ⟨p, x', hp, hx', hrep⟩ := hthird k idx[k] (List.getElem?_eq_getElem hkl)
      rw [hk] at hx'
      have : x = x' := by simpa using hx'
      subst this
      exact ⟨idx[k], p, hp, hrep⟩

/-- C15, exceptions: a call fails only with ValueError (an empty window) or with an exception of the
fit other than RuntimeError. -/
theorem C15_errors (fit : List (PyFloat K) → FitOut K) (sp : List (PyFloat K)) (peaks : List K)
    (ww : Int) (e : PyErr) (h : refinePeaks fit true sp peaks ww = .error e) :
    (e = .valueError ∧ ∃ (i : Nat) (p : K), peaks[i]? = some p ∧
      peakWindow (workingCopy sp ww (peaks.take i)) ww p = []) ∨
    ∃ y, fit y = .raises e := by
  unfold refinePeaks at h
  dsimp only at h
  have hl : refineLoop fit ww sp peaks = .error e := by
    cases hr : refineLoop fit ww sp peaks with
    | error e' => rw [hr] at h; exact h
    | ok raw => rw [hr] at h; simp at h
  clear h
  induction peaks generalizing sp with
  | nil => simp [refineLoop] at hl
  | cons p rest ih =>
    rw [refineLoop_cons] at hl
    have lift : (∃ (i : Nat) (q : K), rest[i]? = some q ∧
        peakWindow (workingCopy (divideWindow sp ww p) ww (rest.take i)) ww q = []) →
        ∃ (i : Nat) (q : K), (p :: rest)[i]? = some q ∧
          peakWindow (workingCopy sp ww ((p :: rest).take i)) ww q = [] := by
      rintro ⟨i, q, hq, hw⟩
      exact ⟨i + 1, q, by simpa using hq, by simpa [workingCopy] using hw⟩
    cases hc : contribution fit sp ww p with
    | error e' =>
      rw [hc] at hl
      have : e' = e := by simpa using hl
      subst this
      unfold contribution at hc
      by_cases h1 : peakWindow sp ww p = []
      · simp only [h1, if_true] at hc
        left
        exact ⟨by simpa using hc.symm, 0, p, rfl, by simpa [workingCopy] using h1⟩
      · simp only [h1, if_false] at hc
        right
        split_ifs at hc
        cases hf : fit (normaliseWindow (peakWindow sp ww p)) with
        | runtimeError => rw [hf] at hc; simp at hc
        | raises e'' =>
          rw [hf] at hc
          exact ⟨_, by rw [hf]; simpa using hc⟩
        | ok h c =>
          rw [hf] at hc
          dsimp only at hc
          split_ifs at hc
    | ok o =>
      rw [hc] at hl
      have hrest : refineLoop fit ww (divideWindow sp ww p) rest = .error e := by
        cases o with
        | none => exact hl
        | some v =>
          cases hr : refineLoop fit ww (divideWindow sp ww p) rest with
          | error e' => rw [hr] at hl; exact hl
          | ok r => rw [hr] at hl; simp at hl
      rcases ih _ hrest with ⟨h1, h2⟩ | h1
      · exact Or.inl ⟨h1, lift h2⟩
      · exact Or.inr h1

/-- A fit that reports the position of the (first) largest value, with height one. -/
def argmaxFit (y : List (PyFloat ℚ)) : FitOut ℚ :=
  .ok (.fin 1) (.fin ((y.findIdx (fun v => !(y.any (fun u => PyFloat.lt v u))) : Nat) : ℚ))

/-- A case for `C15_positions`: a spectrum with two well separated peaks, and what is returned for them. -/
example : refinePeaks argmaxFit true
    ([0, 1, 8, 2, 0, 1, 0, 3, 9, 1, 0, 0].map (fun v : ℚ => PyFloat.fin v)) [2, 8] 2 =
    .ok [.fin 2, .fin 8] := by decide +kernel

/-! ### C16 -/

/-- The documented behaviour: no two returned positions are the same up to rounding. -/
def C16_Statement : Prop :=
  ∀ (fit : List (PyFloat ℚ) → FitOut ℚ) (sp : List (PyFloat ℚ)) (peaks : List ℚ) (ww : Int)
    (out : List (PyFloat ℚ)), refinePeaks fit true sp peaks ww = .ok out →
    out.Pairwise (fun a b => isClose a b = false)

/-- C16 is false: only neighbours are compared, so a position found for the first and the third peak
is returned twice. -/
theorem C16_refuted : ¬ C16_Statement := by
  intro h
  have := h argmaxFit ([0, 1, 8, 2, 0, 1, 0, 3, 9, 1, 0, 0].map (fun v : ℚ => PyFloat.fin v)) [2, 8, 2]
    2 [.fin 2, .fin 8, .fin 2] (by decide +kernel)
  revert this
  decide +kernel

theorem pairwise_of_sorted_raw (len : Nat) (raw : List (PyFloat K))
    (hs : raw.Pairwise (fun a b => ∃ x y, a = .fin x ∧ b = .fin y ∧ x ≤ y)) :
    (refineSelect len raw).Pairwise (fun a b =>
      isClose a b = false ∧ isClose b a = false ∧ ∃ x y, a = .fin x ∧ b = .fin y ∧ x < y) := by
  -- a kept entry is not close to its predecessor, hence to nothing before it
  have hlow : ∀ (i j : Nat) (x y : K), i < j → raw[i]? = some (.fin x) → raw[j]? = some (.fin y) →
      0 < x → (∀ k : Nat, k + 1 = j → ∀ u, raw[k]? = some u → isClose u (.fin y) = false) →
      isClose (K := K) (.fin x) (.fin y) = false ∧ isClose (K := K) (.fin y) (.fin x) = false ∧
        x < y := by
    intro i j x y hij hx hy hx0 hprev
    obtain ⟨k, rfl⟩ : ∃ k, j = k + 1 := ⟨j - 1, by omega⟩
    have hjl : k + 1 < raw.length := (List.getElem?_eq_some_iff.1 hy).1
    have hkl : k < raw.length := by omega
    have hu := List.getElem?_eq_getElem hkl
    have hrel := List.pairwise_iff_getElem.1 hs
    obtain ⟨z, y', hz, hy', hzy⟩ := hrel k (k+1) hkl hjl (by omega)
    have hy2 : y' = y := by
      have := List.getElem?_eq_getElem hjl
      rw [hy, hy'] at this
      simpa using this.symm
    subst hy2
    have hnot := hprev k rfl _ hu
    rw [hz] at hnot
    have hxz : x ≤ z := by
      rcases Nat.lt_or_ge i k with hik | hik
      · have hil : i < raw.length := by omega
        obtain ⟨x', z', hx', hz', hle⟩ := hrel i k hil hkl hik
        have e1 : x' = x := by
          have := List.getElem?_eq_getElem hil
          rw [hx, hx'] at this
          simpa using this.symm
        have e2 : z' = z := by
          rw [hz] at hz'
          simpa using hz'.symm
        rw [← e1, ← e2]; exact hle
      · have : i = k := by omega
        subst this
        rw [hu, hz] at hx
        simp only [Option.some.injEq, PyFloat.fin.injEq] at hx
        exact hx.ge
    simp only [isClose, decide_eq_false_iff_not, not_le] at hnot ⊢
    have hy0 : 0 < y' := by linarith
    rw [abs_of_pos hy0, abs_of_nonpos (by linarith : z - y' ≤ 0)] at hnot
    have hpos : (0:K) < 1 / 100000000 := by positivity
    have hp2 : (0:K) < 1 / 100000 := by positivity
    have hp3 : (0:K) < 1 / 100000 * y' := by positivity
    have hlt : x < y' := by linarith
    refine ⟨?_, ?_, hlt⟩
    · rw [abs_of_pos hy0, abs_of_nonpos (by linarith : x - y' ≤ 0)]; linarith
    · rw [abs_of_pos hx0, abs_of_nonneg (by linarith : 0 ≤ y' - x)]
      have := mul_lt_mul_of_pos_left hlt hp2
      linarith
  -- lift along the mask
  unfold refineSelect boolMask
  rw [List.pairwise_map]
  refine List.Pairwise.imp_of_mem (R := fun a b => ∃ i j : Nat, i < j ∧
    raw[i]? = some a.1 ∧ raw[j]? = some b.1 ∧
    (List.zipWith (fun m c => m && !c) (raw.map (fun v => PyFloat.lt (.fin 0) v &&
        PyFloat.lt v (.fin (len : K)))) (false :: List.zipWith isClose raw raw.tail))[i]? = some a.2 ∧
    (List.zipWith (fun m c => m && !c) (raw.map (fun v => PyFloat.lt (.fin 0) v &&
        PyFloat.lt v (.fin (len : K)))) (false :: List.zipWith isClose raw raw.tail))[j]? = some b.2)
    ?_ ?_
  · rintro ⟨a, ba⟩ ⟨b, bb⟩ ha hb ⟨i, j, hij, h1, h2, h3, h4⟩
    have hba : ba = true := by simpa using (List.mem_filter.1 ha).2
    have hbb : bb = true := by simpa using (List.mem_filter.1 hb).2
    subst hba hbb
    have hjl : j < raw.length := (List.getElem?_eq_some_iff.1 h2).1
    have hil : i < raw.length := by omega
    obtain ⟨x, y, hx, hy, hxy⟩ := List.pairwise_iff_getElem.1 hs i j hil hjl hij
    dsimp only at h1 h2 ⊢
    have hax : a = .fin x := by
      have := List.getElem?_eq_getElem hil
      rw [h1, hx] at this; simpa using this
    have hby : b = .fin y := by
      have := List.getElem?_eq_getElem hjl
      rw [h2, hy] at this; simpa using this
    subst hax hby
    have hx0 : 0 < x := by
      rw [List.getElem?_zipWith, List.getElem?_map, h1] at h3
      cases hc : (false :: List.zipWith isClose raw raw.tail)[i]? with
      | none => rw [hc] at h3; simp at h3
      | some c =>
        rw [hc] at h3
        simp only [Option.map_some, Option.some.injEq, Bool.and_eq_true] at h3
        simpa [PyFloat.lt] using h3.1.1
    have hprev : ∀ k : Nat, k + 1 = j → ∀ u, raw[k]? = some u → isClose u (.fin y) = false := by
      intro k hk u hu
      subst hk
      rw [List.getElem?_zipWith, List.getElem?_map, h2, List.getElem?_cons_succ,
        List.getElem?_zipWith, hu, List.getElem?_tail, h2] at h4
      simp only [Option.map_some, Option.some.injEq, Bool.and_eq_true, Bool.not_eq_true'] at h4
      exact h4.2
    obtain ⟨r1, r2, r3⟩ := hlow i j x y hij h1 h2 hx0 hprev
    exact ⟨r1, r2, x, y, rfl, rfl, r3⟩
  · apply List.Pairwise.filter
    rw [List.pairwise_iff_getElem]
    intro i j hi hj hij
    refine ⟨i, j, hij, ?_⟩
    rw [List.length_zip] at hi hj
    simp only [List.getElem_zip]
    exact ⟨List.getElem?_eq_getElem (by omega), List.getElem?_eq_getElem (by omega),
      List.getElem?_eq_getElem (by omega), List.getElem?_eq_getElem (by omega)⟩

/-- C16, what holds: if the positions found for the peaks come in increasing order (peaks are normally
given in order and far apart), the returned positions are strictly increasing and pairwise
distinguishable.  What is missing: fits that leave the order of the peaks. -/
theorem C16_unique_partial (fit : List (PyFloat K) → FitOut K) (sp : List (PyFloat K)) (peaks : List K)
    (ww : Int) (out : List (PyFloat K)) (h : refinePeaks fit true sp peaks ww = .ok out)
    (hno : ∀ y ht c, fit y = .ok ht c → ∃ v, c = .fin v)
    (hs : ∀ (i j : Nat) (p q x y : K), i < j → peaks[i]? = some p → peaks[j]? = some q →
      Reported fit (workingCopy sp ww (peaks.take i)) ww p x →
      Reported fit (workingCopy sp ww (peaks.take j)) ww q y → x ≤ y) :
    out.Pairwise (fun a b => isClose a b = false ∧ isClose b a = false ∧
      ∃ x y, a = .fin x ∧ b = .fin y ∧ x < y) := by
  unfold refinePeaks at h
  dsimp only at h
  cases hr : refineLoop fit ww sp peaks with
  | error e => rw [hr] at h; simp at h
  | ok raw =>
    rw [hr] at h
    have h := Except.ok.inj h
    subst h
    apply pairwise_of_sorted_raw
    obtain ⟨cs, h1, h2, h3⟩ := refineLoop_spec fit ww sp peaks raw hr
    rw [h1, List.pairwise_filterMap, List.pairwise_iff_getElem]
    intro i j hi hj hij a ha b hb
    have hip : i < peaks.length := by omega
    have hjp : j < peaks.length := by omega
    have get : ∀ (k : Nat) (hk : k < cs.length) (v : PyFloat K), id cs[k] = some v →
        ∃ x, v = .fin x ∧ Reported fit (workingCopy sp ww (peaks.take k)) ww (peaks[k]'(by omega)) x := by
      intro k hk v hv
      obtain ⟨c, hc1, hc2, _⟩ := h3 k (peaks[k]'(by omega)) (List.getElem?_eq_getElem (by omega))
      rw [List.getElem?_eq_getElem hk] at hc1
      have hcv : c = some v := by
        rw [← Option.some.inj hc1]; exact hv
      subst hcv
      obtain ⟨x, rfl⟩ := contribution_isFin hno hc2
      exact ⟨x, rfl, contribution_fin hc2⟩
    obtain ⟨x, rfl, hx⟩ := get i hi a ha
    obtain ⟨y, rfl, hy⟩ := get j hj b hb
    exact ⟨x, y, rfl, rfl, hs i j _ _ x y hij (List.getElem?_eq_getElem hip)
      (List.getElem?_eq_getElem hjp) hx hy⟩

/-- The hypotheses of `C16_unique_partial` met: a fit that always reports the middle of the window, and two
peaks in increasing order. -/
example := C16_unique_partial (K := ℚ) (fun _ => .ok (.fin 1) (.fin 2))
  ([0, 1, 8, 2, 0, 1, 0, 3, 9, 1, 0, 0].map (fun v : ℚ => PyFloat.fin v)) [2, 8] 2 [.fin 2, .fin 8]
  (by decide +kernel) (fun y ht c h => by cases h; exact ⟨_, rfl⟩) (by
    rintro i j p q x y hij hp hq ⟨_, _, h1, _, _, _, rfl⟩ ⟨_, _, h2, _, _, _, rfl⟩
    cases h1; cases h2
    rcases i with _ | _ | i <;> rcases j with _ | _ | j <;> simp at hp hq hij
    subst hp; subst hq; norm_num)

/-! ### C17 -/

/-- Column of the spectrum at which the window of a peak inside the spectrum begins. -/
def Spec.firstPixel (ww : Nat) (p : K) : Nat := (⌊p⌋ - (ww : Int)).toNat

/-- The window consists of the pixels `⌊p⌋ - ww, ..., ⌊p⌋ + ww - 1` that exist. -/
theorem C17_window (sp : List (PyFloat K)) (ww : Nat) (p : K) (hp : 0 ≤ p)
    (hp1 : p < (sp.length : K)) (j : Nat) (v : PyFloat K) :
    (peakWindow sp ww p)[j]? = some v ↔
      ((Spec.firstPixel ww p + j : Nat) : Int) < ⌊p⌋ + ww ∧ sp[Spec.firstPixel ww p + j]? = some v := by
  have hf0 : 0 ≤ ⌊p⌋ := Int.floor_nonneg.2 hp
  have hf1 : ⌊p⌋ < (sp.length : Int) := by
    rw [Int.floor_lt]; exact_mod_cast hp1
  have hstart : windowStart sp.length ww p = Spec.firstPixel ww p := by
    unfold windowStart Spec.firstPixel pyBound pyInt
    rw [if_pos hp, if_neg (by omega)]
    omega
  have hstop : windowStop sp.length ww p = (min (⌊p⌋ + ww) sp.length).toNat := by
    unfold windowStop pyBound pyInt
    rw [if_pos hp, if_neg (by omega)]
    omega
  unfold peakWindow
  rw [hstart, hstop, List.getElem?_drop, List.getElem?_take]
  split_ifs with h
  · constructor
    · intro hv
      exact ⟨by omega, hv⟩
    · exact fun hv => hv.2
  · simp only [false_iff, not_and]
    intro hlt hv
    have := (List.getElem?_eq_some_iff.1 hv).1
    omega

/-- A case for `C17_window`: a window cut off at the lower end of the spectrum. -/
example : peakWindow ([0, 1, 8, 2, 0, 1].map (fun v : ℚ => PyFloat.fin v)) (3 : Nat) 2 =
    [0, 1, 8, 2, 0].map (fun v : ℚ => PyFloat.fin v) := by decide +kernel

/-- The documented behaviour. -/
def C17_Statement : Prop :=
  ∀ (fit : List (PyFloat ℚ) → FitOut ℚ) (sp : List (PyFloat ℚ)) (p : ℚ) (ww : Nat) (x : ℚ)
    (h : PyFloat ℚ) (c : ℚ), 0 ≤ p → p < (sp.length : ℚ) →
    refinePeaks fit true sp [p] ww = .ok [.fin x] →
    fit (normaliseWindow (peakWindow sp ww p)) = .ok h (.fin c) →
    x = (Spec.firstPixel ww p : ℚ) + c

/-- C17 is false: for a peak at pixel 8 of a spectrum with window width 10 the window begins at pixel
0, its largest value is at 8, and position 6 is returned. -/
theorem C17_refuted : ¬ C17_Statement := by
  intro h
  have := h argmaxFit ([0, 0, 1, 0, 0, 1, 0, 3, 9, 1, 0, 0].map (fun v : ℚ => PyFloat.fin v)) 8 10 6
    (.fin 1) 8 (by decide +kernel) (by decide +kernel) (by decide +kernel) (by decide +kernel)
  revert this
  decide +kernel

theorem single_reported {fit : List (PyFloat K) → FitOut K} {sp : List (PyFloat K)} {p : K} {ww : Int}
    {x : K} (h : refinePeaks fit true sp [p] ww = .ok [.fin x]) : Reported fit sp ww p x := by
  obtain ⟨_, h2, _⟩ := C15_positions fit sp [p] ww _ h
  obtain ⟨x', hx, _, _, i, q, hq, hrep⟩ := h2 (.fin x) (by simp)
  simp only [PyFloat.fin.injEq] at hx
  subst hx
  cases i with
  | zero =>
    simp only [List.getElem?_cons_zero, Option.some.injEq] at hq
    subst hq
    simpa [workingCopy] using hrep
  | succ i => simp at hq

/-- C17, what holds: the returned position is the first pixel of the window plus the fitted centre,
plus the fractional part of the peak, minus the number of pixels by which the window is cut off at
the left edge.  So it is correct for integer peaks at least `ww` pixels from the left edge.  What is
missing: the other peaks. -/
theorem C17_centre_partial (fit : List (PyFloat K) → FitOut K) (sp : List (PyFloat K)) (p : K)
    (ww : Nat) (x : K) (h : refinePeaks fit true sp [p] ww = .ok [.fin x]) :
    ∃ ht c, fit (normaliseWindow (peakWindow sp ww p)) = .ok ht (.fin c) ∧
      x = (Spec.firstPixel ww p : K) + c + (p - (⌊p⌋ : K)) - ((((ww : Int) - ⌊p⌋).toNat : Nat) : K) ∧
      (((ww : Int) ≤ ⌊p⌋) → p = (⌊p⌋ : K) → x = (Spec.firstPixel ww p : K) + c) := by
  obtain ⟨ht, c, hf, _, _, _, hx⟩ := single_reported h
  have key : x = (Spec.firstPixel ww p : K) + c + (p - (⌊p⌋ : K)) -
      ((((ww : Int) - ⌊p⌋).toNat : Nat) : K) := by
    unfold Spec.firstPixel
    have e : ((⌊p⌋ - (ww : Int)).toNat : Int) - (((ww : Int) - ⌊p⌋).toNat : Int) = ⌊p⌋ - ww := by omega
    have e' : (((⌊p⌋ - (ww : Int)).toNat : Nat) : K) - ((((ww : Int) - ⌊p⌋).toNat : Nat) : K) =
        (⌊p⌋ : K) - (ww : K) := by exact_mod_cast congrArg (Int.cast (R := K)) e
    rw [hx, Int.cast_natCast]
    linear_combination -e'
  refine ⟨ht, c, hf, key, ?_⟩
  intro hw hi
  rw [key]
  have : ((ww : Int) - ⌊p⌋).toNat = 0 := by omega
  rw [this, ← hi]
  simp

example : refinePeaks argmaxFit true
    ([0, 0, 1, 0, 0, 1, 0, 3, 9, 1, 0, 0].map (fun v : ℚ => PyFloat.fin v)) [7] 3 = .ok [.fin 8] := by
  decide +kernel

/-- The place of a float among the extended numbers, none for nan. -/
def Spec.extended : PyFloat K → Option (WithBot (WithTop K))
  | .fin x => some ((x : WithTop K) : WithBot (WithTop K))
  | .posInf => some ((⊤ : WithTop K) : WithBot (WithTop K))
  | .negInf => some ⊥
  | .nan => none

theorem extended_inj {a b : PyFloat K} {x : WithBot (WithTop K)} (ha : Spec.extended a = some x)
    (hb : Spec.extended b = some x) : a = b := by
  cases a <;> cases b <;> simp_all [Spec.extended] <;> subst_vars <;> simp_all

theorem fmax_extended (a b : PyFloat K) : Spec.extended (PyFloat.fmax a b) =
    match Spec.extended a, Spec.extended b with
    | none, y => y
    | x, none => x
    | some x, some y => some (max x y) := by
  cases a <;> cases b <;> simp [PyFloat.fmax, Spec.extended, PyFloat.lt]
  rename_i x y
  by_cases h : x < y
  · rw [if_pos h]
    simp [Spec.extended]
    exact le_of_lt h
  · rw [if_neg h]
    simp
    exact not_lt.1 h

theorem foldl_fmax_extended (y : List (PyFloat K)) (a : PyFloat K) (e : WithBot (WithTop K))
    (ha : ∀ x, Spec.extended a = some x → x ≤ e) (hy : ∀ v ∈ y, ∀ x, Spec.extended v = some x → x ≤ e)
    (hm : Spec.extended a = some e ∨ ∃ v ∈ y, Spec.extended v = some e) :
    Spec.extended (y.foldl PyFloat.fmax a) = some e := by
  induction y generalizing a with
  | nil =>
    rcases hm with h | ⟨v, hv, _⟩
    · exact h
    · cases hv
  | cons b y ih =>
    rw [List.foldl_cons]
    have hf := fmax_extended a b
    have hb := hy b List.mem_cons_self
    refine ih _ ?_ (fun v hv => hy v (List.mem_cons_of_mem _ hv)) ?_
    · intro x hx
      rw [hf] at hx
      cases h1 : Spec.extended a with
      | none => rw [h1] at hx; exact hb x hx
      | some p =>
        cases h2 : Spec.extended b with
        | none => rw [h1, h2] at hx; exact ha x (h1.trans hx)
        | some q =>
          rw [h1, h2] at hx
          cases hx
          exact max_le (ha p h1) (hb q h2)
    · rcases hm with h | ⟨v, hv, h⟩
      · left
        rw [hf, h]
        cases h2 : Spec.extended b with
        | none => rfl
        | some q => exact congrArg some (max_eq_left (hb q h2))
      · rcases List.mem_cons.1 hv with rfl | hv
        · left
          rw [hf, h]
          cases h1 : Spec.extended a with
          | none => rfl
          | some p => exact congrArg some (max_eq_right (ha p h1))
        · exact .inr ⟨v, hv, h⟩

/-- C17, what is fitted: the samples of the window, each divided by the largest of them.  Samples that are nan do not count;
an infinite one does, and leaves nothing but zeros and nan. -/
theorem C17_normalised (y : List (PyFloat K)) (m : PyFloat K) (e : WithBot (WithTop K)) (hm : m ∈ y)
    (he : Spec.extended m = some e) (hmax : ∀ v ∈ y, ∀ x, Spec.extended v = some x → x ≤ e) :
    normaliseWindow y = y.map (fun v => v.div m) := by
  unfold normaliseWindow nanMax
  rw [extended_inj (foldl_fmax_extended y .nan e (by intro x hx; cases hx) hmax (.inr ⟨m, hm, he⟩)) he]

/-- Case for `C17_normalised`: a saturated sample. -/
example : normaliseWindow ([.fin 3, .nan, .posInf, .negInf, .fin 8] : List (PyFloat ℚ)) =
    [.fin 0, .nan, .nan, .nan, .fin 0] := by
  rw [C17_normalised _ .posInf _ (by simp) rfl (by
    intro v hv x hx
    simp only [List.mem_cons, List.not_mem_nil, or_false] at hv
    rcases hv with rfl | rfl | rfl | rfl | rfl <;> cases hx <;> simp)]
  decide +kernel

/-- Case for `C17_normalised`: a window without light and a sample of minus infinity, which changes its sign. -/
example : normaliseWindow ([.fin (-2), .negInf, .fin (-4)] : List (PyFloat ℚ)) = [.fin 1, .posInf, .fin 2] := by
  rw [C17_normalised _ (.fin (-2)) _ (by simp) rfl (by
    intro v hv x hx
    simp only [List.mem_cons, List.not_mem_nil, or_false] at hv
    rcases hv with rfl | rfl | rfl <;> cases hx
    · exact le_refl _
    · exact bot_le
    · exact WithBot.coe_le_coe.2 (WithTop.coe_le_coe.2 (by norm_num)))]
  decide +kernel

/-! ### C18 -/

/-- The documented behaviour: what is found for a peak does not depend on the peaks before it. -/
def C18_Statement : Prop :=
  ∀ (fit : List (PyFloat ℚ) → FitOut ℚ) (sp : List (PyFloat ℚ)) (peaks : List ℚ) (ww : Int)
    (out : List (PyFloat ℚ)), refinePeaks fit true sp peaks ww = .ok out →
    ∀ x, PyFloat.fin x ∈ out → ∃ p ∈ peaks, Reported fit sp ww p x

/-- C18 is false: the window of the first peak is divided by its maximum in place, which changes the
shape of the overlapping window of the second peak. -/
theorem C18_refuted : ¬ C18_Statement := by
  intro h
  obtain ⟨p, hp, ht, c, hf, _, _, _, hx⟩ := h argmaxFit
    ([10, 100, 50, 2, 3, 2, 0, 0].map (fun v : ℚ => PyFloat.fin v)) [2, 4] 2 [.fin 1, .fin 4]
    (by decide +kernel) 4 (by simp)
  simp only [List.mem_cons, List.not_mem_nil, or_false] at hp
  rcases hp with rfl | rfl
  · have h1 : argmaxFit (normaliseWindow (peakWindow
        ([10, 100, 50, 2, 3, 2, 0, 0].map (fun v : ℚ => PyFloat.fin v)) 2 2)) =
        .ok (.fin 1) (.fin 1) := by decide +kernel
    rw [h1] at hf
    simp only [FitOut.ok.injEq, PyFloat.fin.injEq] at hf
    rw [← hf.2] at hx
    norm_num at hx
  · have h1 : argmaxFit (normaliseWindow (peakWindow
        ([10, 100, 50, 2, 3, 2, 0, 0].map (fun v : ℚ => PyFloat.fin v)) 2 4)) =
        .ok (.fin 1) (.fin 0) := by decide +kernel
    rw [h1] at hf
    simp only [FitOut.ok.injEq, PyFloat.fin.injEq] at hf
    rw [← hf.2] at hx
    norm_num at hx

/-! What holds of C18. -/

theorem window_bounds (len ww : Nat) (p : K) (hp : 0 ≤ p) (hp1 : p < (len : K)) :
    windowStart len ww p = (⌊p⌋ - (ww : Int)).toNat ∧
    windowStop len ww p = (min (⌊p⌋ + ww) len).toNat ∧ 0 ≤ ⌊p⌋ ∧ ⌊p⌋ < (len : Int) := by
  have hf0 : 0 ≤ ⌊p⌋ := Int.floor_nonneg.2 hp
  have hf1 : ⌊p⌋ < (len : Int) := by
    rw [Int.floor_lt]; exact_mod_cast hp1
  refine ⟨?_, ?_, hf0, hf1⟩
  · unfold windowStart pyBound pyInt
    rw [if_pos hp, if_neg (by omega)]
    omega
  · unfold windowStop pyBound pyInt
    rw [if_pos hp, if_neg (by omega)]
    omega

/-- The window of a peak inside the spectrum is not empty. -/
theorem peakWindow_ne_nil (sp : List (PyFloat K)) (ww : Nat) (p : K) (hw : 0 < ww) (hp : 0 ≤ p)
    (hp1 : p < (sp.length : K)) : peakWindow sp ww p ≠ [] := by
  obtain ⟨h1, h2, h3, h4⟩ := window_bounds sp.length ww p hp hp1
  have : 0 < (peakWindow sp ww p).length := by
    unfold peakWindow
    rw [List.length_drop, List.length_take, h1, h2]
    omega
  exact List.length_pos_iff.1 this

theorem divideWindow_getElem? (sp : List (PyFloat K)) (ww : Nat) (q : K)
    (hq : 0 ≤ q) (hq1 : q < (sp.length : K)) (i : Nat)
    (h : i < windowStart sp.length ww q ∨ windowStop sp.length ww q ≤ i) :
    (divideWindow sp ww q)[i]? = sp[i]? := by
  obtain ⟨h1, h2, h3, h4⟩ := window_bounds sp.length ww q hq hq1
  have hlen : (normaliseWindow (peakWindow sp ww q)).length =
      windowStop sp.length ww q - windowStart sp.length ww q := by
    unfold normaliseWindow peakWindow
    rw [List.length_map, List.length_drop, List.length_take]
    omega
  unfold divideWindow
  rcases h with h | h
  · rw [List.append_assoc, List.getElem?_append_left (by rw [List.length_take]; omega),
      List.getElem?_take, if_pos h]
  · rw [List.getElem?_append_right (by
      rw [List.length_append, hlen, List.length_take]; omega), List.getElem?_drop]
    congr 1
    rw [List.length_append, hlen, List.length_take]
    omega

theorem peakWindow_divide (sp : List (PyFloat K)) (ww : Nat) (q p : K) (hw : 0 < ww)
    (hq : 0 ≤ q) (hq1 : q < (sp.length : K)) (hp : 0 ≤ p) (hp1 : p < (sp.length : K))
    (hsep : 2 * (ww : K) + 1 ≤ |p - q|) :
    peakWindow (divideWindow sp ww q) ww p = peakWindow sp ww p := by
  have hl := divideWindow_length sp ww q (peakWindow_ne_nil sp ww q hw hq hq1)
  obtain ⟨a1, a2, a3, a4⟩ := window_bounds sp.length ww q hq hq1
  obtain ⟨b1, b2, b3, b4⟩ := window_bounds sp.length ww p hp hp1
  have hfl : ⌊p⌋ + 2 * ww ≤ ⌊q⌋ ∨ ⌊q⌋ + 2 * ww ≤ ⌊p⌋ := by
    have f1 := Int.floor_le p
    have f2 := Int.lt_floor_add_one p
    have g1 := Int.floor_le q
    have g2 := Int.lt_floor_add_one q
    rcases le_abs.1 hsep with h | h
    · right
      have : ((⌊q⌋ + 2 * ww : Int) : K) < ((⌊p⌋ + 1 : Int) : K) := by push_cast; linarith
      have := Int.cast_lt.1 this
      omega
    · left
      have : ((⌊p⌋ + 2 * ww : Int) : K) < ((⌊q⌋ + 1 : Int) : K) := by push_cast; linarith
      have := Int.cast_lt.1 this
      omega
  apply List.ext_getElem?
  intro i
  unfold peakWindow
  rw [hl, List.getElem?_drop, List.getElem?_drop, List.getElem?_take, List.getElem?_take]
  split_ifs with h
  · apply divideWindow_getElem? sp ww q hq hq1
    rw [a1, a2]
    rw [b1, b2] at h
    rw [b1]
    omega
  · rfl

theorem workingCopy_separated (sp : List (PyFloat K)) (ww : Nat) (earlier : List K) (hw : 0 < ww)
    (hr : ∀ q ∈ earlier, 0 ≤ q ∧ q < (sp.length : K)) :
    (workingCopy sp ww earlier).length = sp.length ∧
    ∀ p, 0 ≤ p → p < (sp.length : K) → (∀ q ∈ earlier, 2 * (ww : K) + 1 ≤ |p - q|) →
      peakWindow (workingCopy sp ww earlier) ww p = peakWindow sp ww p := by
  induction earlier generalizing sp with
  | nil => exact ⟨rfl, fun p _ _ _ => rfl⟩
  | cons q rest ih =>
    have hq := hr q (by simp)
    have hl := divideWindow_length sp ww q (peakWindow_ne_nil sp ww q hw hq.1 hq.2)
    obtain ⟨i1, i2⟩ := ih (divideWindow sp ww q) (by
      rw [hl]; exact fun r hr' => hr r (by simp [hr']))
    refine ⟨by rw [← hl]; exact i1, ?_⟩
    intro p hp hp1 hs
    have := i2 p hp (by rw [hl]; exact hp1) (fun r hr' => hs r (by simp [hr']))
    rw [peakWindow_divide sp ww q p hw hq.1 hq.2 hp hp1 (hs q (by simp))] at this
    exact this

/-- C18, what holds: if the peaks are inside the spectrum and at least `2 ww + 1` pixels apart, every
returned position is the one reported for its peak from the original spectrum, and what is returned
for a peak alone is also returned for the list, unless it coincides with the position of another
peak.  What is missing: peaks whose windows overlap. -/
theorem C18_independent_partial (fit : List (PyFloat K) → FitOut K) (sp : List (PyFloat K))
    (peaks : List K) (ww : Nat) (out : List (PyFloat K)) (hw : 0 < ww)
    (hr : ∀ p ∈ peaks, 0 ≤ p ∧ p < (sp.length : K))
    (hsep : peaks.Pairwise (fun p q => 2 * (ww : K) + 1 ≤ |p - q|))
    (h : refinePeaks fit true sp peaks ww = .ok out) :
    (∀ x, PyFloat.fin x ∈ out → ∃ p ∈ peaks, Reported fit sp ww p x) ∧
    (∀ p ∈ peaks, ∀ x, refinePeaks fit true sp [p] ww = .ok [.fin x] → PyFloat.fin x ∈ out ∨
      ∃ q ∈ peaks, q ≠ p ∧ ∃ y, isClose (.fin y) (.fin x) = true ∧ Reported fit sp ww q y) := by
  have hcopy : ∀ (i : Nat) (p : K), peaks[i]? = some p →
      (workingCopy sp ww (peaks.take i)).length = sp.length ∧
      peakWindow (workingCopy sp ww (peaks.take i)) ww p = peakWindow sp ww p := by
    intro i p hp
    obtain ⟨c1, c2⟩ := workingCopy_separated sp ww (peaks.take i) hw
      (fun q hq => hr q (List.mem_of_mem_take hq))
    have hpm := List.mem_of_getElem? hp
    refine ⟨c1, c2 p (hr p hpm).1 (hr p hpm).2 ?_⟩
    intro q hq
    obtain ⟨k, hk⟩ := List.mem_iff_getElem?.1 hq
    rw [List.getElem?_take] at hk
    split_ifs at hk with hki
    have hil := (List.getElem?_eq_some_iff.1 hp)
    have hkl := (List.getElem?_eq_some_iff.1 hk)
    have := List.pairwise_iff_getElem.1 hsep k i hkl.1 hil.1 hki
    rw [hkl.2, hil.2] at this
    rw [abs_sub_comm]; exact this
  have hcontr : ∀ (i : Nat) (p : K), peaks[i]? = some p →
      contribution fit (workingCopy sp ww (peaks.take i)) ww p = contribution fit sp ww p := by
    intro i p hp
    obtain ⟨c1, c2⟩ := hcopy i p hp
    unfold contribution
    rw [c1, c2]
  constructor
  · intro x hx
    obtain ⟨_, h2, _⟩ := C15_positions fit sp peaks ww out h
    obtain ⟨x', hxx, _, _, i, p, hp, ht, c, hf, r1, r2, r3, r4⟩ := h2 _ hx
    simp only [PyFloat.fin.injEq] at hxx
    subst hxx
    obtain ⟨c1, c2⟩ := hcopy i p hp
    rw [c1] at r3
    rw [c2] at hf
    exact ⟨p, List.mem_of_getElem? hp, ht, c, hf, r1, r2, r3, r4⟩
  · intro p hp x hx
    obtain ⟨i, hi⟩ := List.mem_iff_getElem?.1 hp
    -- the contribution of p alone
    have hcx : contribution fit sp ww p = .ok (some (.fin x)) ∧ 0 < x ∧ x < (sp.length : K) := by
      have hb := (C15_positions fit sp [p] ww _ hx).2.1 (.fin x) (by simp)
      obtain ⟨x', hxx, hx0, hx1, _⟩ := hb
      simp only [PyFloat.fin.injEq] at hxx
      subst hxx
      refine ⟨?_, hx0, hx1⟩
      unfold refinePeaks at hx
      dsimp only at hx
      rw [refineLoop_cons] at hx
      cases hc : contribution fit sp ww p with
      | error e => rw [hc] at hx; simp at hx
      | ok o =>
        rw [hc] at hx
        cases o with
        | none => simp [refineLoop, refineSelect, boolMask] at hx
        | some v =>
          simp only [refineLoop] at hx
          have hx := Except.ok.inj hx
          have hm : PyFloat.fin x ∈ refineSelect sp.length [v] := by rw [hx]; simp
          have := (refineSelect_sublist sp.length [v]).subset hm
          simp only [List.mem_singleton] at this
          rw [this]
    obtain ⟨hc, hx0, hx1⟩ := hcx
    unfold refinePeaks at h
    dsimp only at h
    cases hrl : refineLoop fit ww sp peaks with
    | error e => rw [hrl] at h; simp at h
    | ok raw =>
      rw [hrl] at h
      have h := Except.ok.inj h
      subst h
      obtain ⟨cs, h1, h2, h3⟩ := refineLoop_spec fit ww sp peaks raw hrl
      have hci : cs[i]? = some (some (.fin x)) := by
        obtain ⟨c, hc1, hc2, _⟩ := h3 i p hi
        rw [hcontr i p hi, hc] at hc2
        have := Except.ok.inj hc2
        subst this
        exact hc1
      have hsplit : raw = (cs.take i).filterMap id ++ PyFloat.fin x :: (cs.drop (i+1)).filterMap id := by
        obtain ⟨hil, hix⟩ := List.getElem?_eq_some_iff.1 hci
        have e : cs = cs.take i ++ cs[i] :: cs.drop (i+1) := by
          rw [List.cons_getElem_drop_succ, List.take_append_drop]
        rw [h1]
        conv_lhs => rw [e]
        rw [List.filterMap_append, hix]
        simp
      have hfrom : ∀ y ∈ (cs.take i).filterMap id, ∃ q ∈ peaks, q ≠ p ∧
          contribution fit sp ww q = .ok (some y) := by
        intro y hy
        rw [List.mem_filterMap] at hy
        obtain ⟨c, hcm, hcy⟩ := hy
        obtain ⟨k, hk⟩ := List.mem_iff_getElem?.1 hcm
        rw [List.getElem?_take] at hk
        split_ifs at hk with hki
        have hkl : k < peaks.length := by
          rw [← h2]; exact (List.getElem?_eq_some_iff.1 hk).1
        obtain ⟨c', hc1, hc2, _⟩ := h3 k peaks[k] (List.getElem?_eq_getElem hkl)
        rw [hk] at hc1
        have := Option.some.inj hc1
        subst this
        rw [hcontr k _ (List.getElem?_eq_getElem hkl)] at hc2
        refine ⟨peaks[k], List.getElem_mem _, ?_, ?_⟩
        · intro he
          have hil := (List.getElem?_eq_some_iff.1 hi)
          have := List.pairwise_iff_getElem.1 hsep k i hkl hil.1 hki
          rw [he, hil.2, sub_self, abs_zero] at this
          have hw0 : (0 : K) ≤ ww := Nat.cast_nonneg ww
          linarith
        · rw [hc2]
          simp only [id] at hcy
          rw [hcy]
      generalize hk0 : ((cs.take i).filterMap id).length = k at *
      have hk : raw[k]? = some (.fin x) := by
        rw [hsplit, List.getElem?_append_right (by omega), hk0]
        simp
      have hkl := (List.getElem?_eq_some_iff.1 hk).1
      have hmask : ∀ b : Bool, (false :: List.zipWith isClose raw raw.tail)[k]? = some b →
          b = false → PyFloat.fin x ∈ refineSelect sp.length raw := by
        intro b hb hbf
        unfold refineSelect
        refine (mem_boolMask _ _ _).2 ⟨k, hk, ?_⟩
        rw [List.getElem?_zipWith, List.getElem?_map, hk, hb]
        simp [hbf, PyFloat.lt, hx0, hx1]
      cases k with
      | zero => exact Or.inl (hmask false rfl rfl)
      | succ k =>
        have hu := List.getElem?_eq_getElem (show k < raw.length by omega)
        have hz : (false :: List.zipWith isClose raw raw.tail)[k+1]? =
            some (isClose raw[k] (.fin x)) := by
          rw [List.getElem?_cons_succ, List.getElem?_zipWith, hu, List.getElem?_tail, hk]
        cases hb : isClose raw[k] (.fin x) with
        | false => exact Or.inl (hmask _ hz hb)
        | true =>
          right
          have hmem : raw[k] ∈ (cs.take i).filterMap id := by
            have : raw[k]? = ((cs.take i).filterMap id)[k]? := by
              rw [hsplit, List.getElem?_append_left (by omega)]
            rw [hu] at this
            exact List.mem_of_getElem? this.symm
          obtain ⟨q, hq, hqp, hqc⟩ := hfrom raw[k] hmem
          generalize raw[k] = y at hqc hb
          cases y with
          | fin y => exact ⟨q, hq, hqp, y, hb, contribution_fin hqc⟩
          | posInf => simp [isClose] at hb
          | negInf => simp [isClose] at hb
          | nan => simp [isClose] at hb

/-- The hypotheses of `C18_independent_partial` met: two peaks five pixels apart, half width two. -/
example := C18_independent_partial argmaxFit
  ([0, 1, 8, 2, 0, 1, 0, 3, 9, 1, 0, 0].map (fun v : ℚ => PyFloat.fin v)) [2, 8] 2 [.fin 2, .fin 8] (by decide)
  (by decide +kernel) (by decide +kernel) (by decide +kernel)

/-- With peaks inside the spectrum and a positive window width, the only exceptions are those of the
fit. -/
theorem C15_inside (fit : List (PyFloat K) → FitOut K) (sp : List (PyFloat K)) (peaks : List K)
    (ww : Nat) (hw : 0 < ww) (hr : ∀ p ∈ peaks, 0 ≤ p ∧ p < (sp.length : K))
    (hf : ∀ y e, fit y ≠ .raises e) : ∃ out, refinePeaks fit true sp peaks ww = .ok out := by
  cases h : refinePeaks fit true sp peaks ww with
  | ok out => exact ⟨out, rfl⟩
  | error e =>
    exfalso
    rcases C15_errors fit sp peaks ww e h with ⟨_, i, p, hp, hn⟩ | ⟨y, hy⟩
    · obtain ⟨c1, _⟩ := workingCopy_separated sp ww (peaks.take i) hw
        (fun q hq => hr q (List.mem_of_mem_take hq))
      have hpr := hr p (List.mem_of_getElem? hp)
      exact peakWindow_ne_nil _ ww p hw hpr.1 (by rw [c1]; exact hpr.2) hn
    · exact hf y e hy

example : ∀ p ∈ [(2 : ℚ), 8], 0 ≤ p ∧
    p < (([0, 1, 8, 2, 0, 1, 0, 3, 9, 1, 0, 0].map (fun v : ℚ => PyFloat.fin v)).length : ℚ) := by
  decide +kernel

example : [(2 : ℚ), 8].Pairwise (fun p q => 2 * ((2 : Nat) : ℚ) + 1 ≤ |p - q|) := by decide +kernel

/-! ### C89 -/

/-- The documented behaviour: the spectrum may hold any numbers. -/
def C89_Statement : Prop :=
  ∀ (fit : List (PyFloat ℚ) → FitOut ℚ) (isFloat : Bool) (sp : List (PyFloat ℚ)) (peaks : List ℚ)
    (ww : Nat), 0 < ww → (∀ p ∈ peaks, 0 ≤ p ∧ p < (sp.length : ℚ)) → (∀ y e, fit y ≠ .raises e) →
    ∃ out, refinePeaks fit isFloat sp peaks ww = .ok out

/-- C89 is false for a spectrum of integers (detector counts): the in-place division raises TypeError. -/
theorem C89_refuted : ¬ C89_Statement := by
  intro h
  obtain ⟨out, ho⟩ := h argmaxFit false
    ([0, 1, 8, 2, 0].map (fun v : ℚ => PyFloat.fin v)) [2] 2 (by decide) (by decide +kernel)
    (fun y e he => by simp [argmaxFit] at he)
  have hn : refinePeaks argmaxFit false ([0, 1, 8, 2, 0].map (fun v : ℚ => PyFloat.fin v)) [2] 2 =
      .error .typeError := by decide +kernel
  rw [Nat.cast_ofNat, hn] at ho
  simp at ho

/-- C89, what holds: a floating point spectrum is accepted; an integer spectrum is rejected exactly when
a peak is given.  What is missing: integer spectra. -/
theorem C89_numbers_partial (fit : List (PyFloat K) → FitOut K) (sp : List (PyFloat K))
    (peaks : List K) (ww : Nat) (hw : 0 < ww) (hr : ∀ p ∈ peaks, 0 ≤ p ∧ p < (sp.length : K))
    (hf : ∀ y e, fit y ≠ .raises e) :
    (∃ out, refinePeaks fit true sp peaks ww = .ok out) ∧
    (peaks ≠ [] → refinePeaks fit false sp peaks ww = .error .typeError) ∧
    refinePeaks fit false sp [] ww = .ok [] := by
  refine ⟨C15_inside fit sp peaks ww hw hr hf, ?_, ?_⟩
  · intro hne
    cases peaks with
    | nil => exact absurd rfl hne
    | cons p rest =>
      have := hr p (by simp)
      have hn := peakWindow_ne_nil sp ww p hw this.1 this.2
      simp [refinePeaks, hn]
  · simp [refinePeaks, refineLoop, refineSelect, boolMask]

/-- The hypotheses of `C89_numbers_partial` met. -/
example := C89_numbers_partial argmaxFit
  ([0, 1, 8, 2, 0, 1, 0, 3, 9, 1, 0, 0].map (fun v : ℚ => PyFloat.fin v)) [2, 8] 2 (by decide)
  (by decide +kernel) (fun _ _ h => by cases h)

/-- C89, a first peak beyond the end of the spectrum by the window width or more: ValueError, for spectra of
numbers of either kind. -/
theorem C89_far_peak (fit : List (PyFloat K) → FitOut K) (isFloat : Bool) (sp : List (PyFloat K)) (p : K)
    (rest : List K) (ww : Nat) (hp : (sp.length : K) + (ww : K) ≤ p) :
    refinePeaks fit isFloat sp (p :: rest) ww = .error .valueError := by
  have hp0 : (0 : K) ≤ p := le_trans (by positivity) hp
  have hfl : ((sp.length + ww : Nat) : Int) ≤ ⌊p⌋ := by
    rw [Int.le_floor]
    push_cast
    exact hp
  have hs : sp.length ≤ windowStart sp.length (ww : Int) p := by
    unfold windowStart pyInt pyBound
    rw [if_pos hp0]
    push_cast at hfl
    split_ifs <;> omega
  have hw : peakWindow sp (ww : Int) p = [] := by
    unfold peakWindow
    apply List.drop_eq_nil_of_le
    rw [List.length_take]
    omega
  cases isFloat
  · unfold refinePeaks
    dsimp only
    rw [if_pos hw]
  · unfold refinePeaks
    dsimp only
    unfold refineLoop
    rw [if_pos hw]

/-- A peak at 7 with a window of 2 beside five integers. -/
example : refinePeaks argmaxFit false ([0, 1, 8, 2, 0].map (fun v : ℚ => PyFloat.fin v)) [7, 2] (2 : Nat) =
    .error .valueError := C89_far_peak argmaxFit false _ 7 [2] 2 (by norm_num)

end Rascal
