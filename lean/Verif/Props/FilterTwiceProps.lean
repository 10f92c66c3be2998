import Verif.Props.BrightDistanceProps

/-!
Property theorem C215: the line filters applied to what they kept.
-/

set_option linter.unusedSectionVars false

namespace Rascal

section
variable {K : Type _} [AddCommGroup K] [LinearOrder K]

/-- C215, ranges.  Narrowing the wavelength range in two steps gives the rows, in the order, that one step with
the common part of the two ranges gives. -/
theorem C215_ranges (lines : List (Row K)) (lo hi lo' hi' : K) :
    filterWavelengths (filterWavelengths lines lo hi) lo' hi' =
      filterWavelengths lines (max lo lo') (min hi hi') := by
  obtain ⟨hs, hm⟩ := C01_filter_wavelengths lines lo hi
  obtain ⟨hs1, hm1⟩ := C01_filter_wavelengths (filterWavelengths lines lo hi) lo' hi'
  obtain ⟨hs2, hm2⟩ := C01_filter_wavelengths lines (max lo lo') (min hi hi')
  refine rows_ext _ _ hs1 hs2 (fun r => ?_)
  rw [hm1, hm2]
  have hfirst : Spec.FirstWith Row.wl (filterWavelengths lines lo hi) r ↔ r ∈ filterWavelengths lines lo hi := by
    constructor
    · rintro ⟨pre, post, h, -⟩
      rw [h]; simp
    · intro h
      obtain ⟨pre, post, hpp⟩ := List.append_of_mem h
      refine ⟨pre, post, hpp, fun q hq => ?_⟩
      rw [hpp, List.pairwise_map, List.pairwise_append] at hs
      exact ne_of_lt (hs.2.2 q hq r (by simp))
  rw [hfirst, hm, max_le_iff, le_min_iff]
  exact ⟨fun ⟨⟨h1, h2, h3⟩, h4, h5⟩ => ⟨h1, ⟨h2, h4⟩, h3, h5⟩,
    fun ⟨h1, ⟨h2, h4⟩, h3, h5⟩ => ⟨⟨h1, h2, h3⟩, h4, h5⟩⟩

/-- Rows outside the first range, outside the second, with a repeated wavelength. -/
example : filterWavelengths (filterWavelengths
      [⟨"Ar", 7, 1⟩, ⟨"Xe", 5, 2⟩, ⟨"Kr", 7, 3⟩, ⟨"Xe", 12, 4⟩, ⟨"He", 9, 5⟩] 5 (10 : ℤ)) 6 20 =
    [⟨"Ar", 7, 1⟩, ⟨"He", 9, 5⟩] := by decide

theorem thresholdFor_unique (elements : List String) (mi : MinIntensity K) (lines : List (Row K))
    (mask : List Bool) (h : filterIntensity elements lines mi = .ok mask) (e : String) (t t' : K)
    (ht : Spec.ThresholdFor elements mi e t) (ht' : Spec.ThresholdFor elements mi e t') : t = t' := by
  unfold filterIntensity at h
  cases hd : intensityDict elements mi with
  | error e => rw [hd] at h; cases h
  | ok d =>
    have h1 := (thresholdFor_iff elements mi d hd e t).2 ht
    rw [(thresholdFor_iff elements mi d hd e t').2 ht'] at h1
    exact (Option.some.inj h1).symm

/-- C215, thresholds.  What `filter_intensity` kept it keeps again under the same thresholds. -/
theorem C215_thresholds (elements : List String) (lines : List (Row K)) (mi : MinIntensity K) (mask : List Bool)
    (h : filterIntensity elements lines mi = .ok mask) :
    filterIntensity elements (boolMask lines mask) mi = .ok ((boolMask lines mask).map (fun _ => true)) := by
  obtain ⟨hlen, hm⟩ := C04_mask elements lines mi mask h
  cases h2 : filterIntensity elements (boolMask lines mask) mi with
  | error e =>
    exfalso
    rcases (C04_error _ _ _ _).1 h2 with ⟨ho, he⟩ | ⟨vs, h1, h3, he⟩ | ⟨h1, h3, ⟨r, hr, hre⟩, he⟩
    · rw [(C04_error elements lines mi .valueError).2 (.inl ⟨ho, rfl⟩)] at h; cases h
    · rw [(C04_error elements lines mi .assertionError).2 (.inr (.inl ⟨vs, h1, h3, rfl⟩))] at h; cases h
    · rw [(C04_error elements lines mi .keyError).2 (.inr (.inr ⟨h1, h3,
        ⟨r, (boolMask_sublist _ _).subset hr, hre⟩, rfl⟩))] at h
      cases h
  | ok m =>
    obtain ⟨hlen2, hm2⟩ := C04_mask elements _ mi m h2
    congr 1
    apply List.ext_getElem?
    intro i
    rw [List.getElem?_map]
    cases hi : (boolMask lines mask)[i]? with
    | none =>
      rw [List.getElem?_eq_none_iff] at hi
      rw [Option.map_none, List.getElem?_eq_none_iff, hlen2]
      exact hi
    | some r =>
      rw [Option.map_some]
      obtain ⟨t, ht, h1, -⟩ := hm2 i r hi
      rw [h1]
      obtain ⟨j, hj1, hj2⟩ := (mem_boolMask lines mask r).1 (List.mem_of_getElem? hi)
      obtain ⟨t', ht', h1', -⟩ := hm j r hj1
      have : t = t' := thresholdFor_unique elements mi lines mask h _ _ _ ht ht'
      rw [this]
      exact h1'.1 hj2

/-- Three lines of two elements with a threshold each, one of them too faint. -/
example : filterIntensity ["He", "Xe"] [⟨"He", 1, 5⟩, ⟨"Xe", 2, 5⟩, ⟨"Xe", 3, (9 : ℤ)⟩] (.perElement [3, 7]) =
      .ok [true, false, true] ∧
    filterIntensity ["He", "Xe"] [⟨"He", 1, 5⟩, ⟨"Xe", 3, (9 : ℤ)⟩] (.perElement [3, 7]) = .ok [true, true] := by
  decide

end

section
variable {K : Type _} [AddCommGroup K] [LinearOrder K] [IsOrderedAddMonoid K]

theorem boolMask_related {α : Type _} (R : α → α → Prop) (l : List α) (m : List Bool)
    (h : ∀ (i j : Nat) (x y : α), i < j → m[i]? = some true → m[j]? = some true → l[i]? = some x →
      l[j]? = some y → R x y) : (boolMask l m).Pairwise R := by
  induction l generalizing m with
  | nil => rw [boolMask_nil]; exact List.Pairwise.nil
  | cons a l ih =>
    cases m with
    | nil => rw [boolMask_nil_right]; exact List.Pairwise.nil
    | cons b m =>
      have ih' := ih m (fun i j x y hij h1 h2 h3 h4 => h (i + 1) (j + 1) x y (by omega) (by simpa using h1)
        (by simpa using h2) (by simpa using h3) (by simpa using h4))
      rw [boolMask_cons]
      cases b
      · exact ih'
      · refine List.pairwise_cons.2 ⟨fun y hy => ?_, ih'⟩
        obtain ⟨j, h1, h2⟩ := (mem_boolMask l m y).1 hy
        exact h 0 (j + 1) a y (by omega) rfl (by simpa using h2) rfl (by simpa using h1)

theorem isolated_of_apart (ws : List K) (d : K) (h : ws.Pairwise (fun a b => d ≤ |b - a|)) (i : Nat) :
    Spec.Isolated ws d i := by
  intro hi j hj hne
  rw [List.pairwise_iff_getElem] at h
  rcases lt_or_gt_of_ne hne with hlt | hgt
  · rw [abs_sub_comm]
    exact h j i hj hi hlt
  · exact h i j hi hj hgt

/-- The expected behaviour: the lines that were kept are far enough from each other, so filtering them again with
the same distance keeps all of them. -/
def C215_Statement : Prop :=
  ∀ (ws : List ℚ) (d : ℚ) (mask : List Bool), ws.Pairwise (· < ·) → filterSeparation ws d = .ok mask →
    boolMask ws mask ≠ [] →
    filterSeparation (boolMask ws mask) d = .ok ((boolMask ws mask).map (fun _ => true))

/-- When one line alone is kept the second filtering removes it. -/
theorem C215_refuted : ¬ C215_Statement := by
  intro h
  have := h [0, 1, 50] 10 [false, false, true] (by decide +kernel) (by decide +kernel) (by decide +kernel)
  exact absurd this (by decide +kernel)

/-- C215, distances.  When at least two lines are kept, filtering them again with the same or a smaller distance
keeps all of them.  Missing: a single line that is kept, which the second filtering removes. -/
theorem C215_distance_again_partial (ws : List K) (d d' : K) (hs : ws.Pairwise (· < ·)) (mask : List Bool)
    (h : filterSeparation ws d = .ok mask) (h2 : 2 ≤ (boolMask ws mask).length) (hd : d' ≤ d) :
    filterSeparation (boolMask ws mask) d' = .ok ((boolMask ws mask).map (fun _ => true)) := by
  have hle : ws.Pairwise (· ≤ ·) := hs.imp (fun h => h.le)
  have hl : 2 ≤ ws.length := h2.trans (boolMask_sublist ws mask).length_le
  obtain ⟨m, hm, hlen, hiff⟩ := C02_filter_separation ws d hle hl
  rw [h] at hm
  cases hm
  have hap : (boolMask ws mask).Pairwise (fun a b => d ≤ |b - a|) := by
    apply boolMask_related
    intro i j x y hij h1 _ h3 h4
    obtain ⟨hi, rfl⟩ := List.getElem?_eq_some_iff.1 h3
    obtain ⟨hj, rfl⟩ := List.getElem?_eq_some_iff.1 h4
    exact (hiff i hi).1 h1 hi j hj (by omega)
  obtain ⟨m', hm', hlen', hiff'⟩ := C02_filter_separation (boolMask ws mask) d'
    (hle.sublist (boolMask_sublist ws mask)) h2
  rw [hm']
  congr 1
  apply List.ext_getElem?
  intro i
  by_cases hi : i < (boolMask ws mask).length
  · rw [(hiff' i hi).2 (isolated_of_apart _ _ (hap.imp (fun h => hd.trans h)) i), List.getElem?_map,
      List.getElem?_eq_getElem hi]
    rfl
  · rw [List.getElem?_eq_none (by omega), List.getElem?_eq_none (by rw [List.length_map]; omega)]

/-- Two close lines go, the two others stay. -/
example : filterSeparation [0, 1, 50, (70 : ℤ)] 10 = .ok [false, false, true, true] ∧
    filterSeparation [50, (70 : ℤ)] 10 = .ok [true, true] := by decide

/-- C215, growing distances.  A line kept by one filtering with the larger distance is also kept when a filtering
with a smaller distance comes first, provided that one keeps at least two lines. -/
theorem C215_growing_distance (ws : List K) (d d' : K) (hs : ws.Pairwise (· < ·)) (hd : d ≤ d')
    (mask once twice : List Bool) (h : filterSeparation ws d = .ok mask) (h2 : 2 ≤ (boolMask ws mask).length)
    (h1 : filterSeparation ws d' = .ok once) (ht : filterSeparation (boolMask ws mask) d' = .ok twice) (w : K)
    (hw : w ∈ boolMask ws once) : w ∈ boolMask (boolMask ws mask) twice := by
  have hle : ws.Pairwise (· ≤ ·) := hs.imp (fun h => h.le)
  have hl : 2 ≤ ws.length := h2.trans (boolMask_sublist ws mask).length_le
  obtain ⟨m, hm, hlen, hiff⟩ := C02_filter_separation ws d hle hl
  rw [h] at hm
  cases hm
  obtain ⟨m, hm, hlen1, hiff1⟩ := C02_filter_separation ws d' hle hl
  rw [h1] at hm
  cases hm
  obtain ⟨m, hm, hlen2, hiff2⟩ := C02_filter_separation (boolMask ws mask) d'
    (hle.sublist (boolMask_sublist ws mask)) h2
  rw [ht] at hm
  cases hm
  obtain ⟨i, hi1, hi2⟩ := (mem_boolMask ws once w).1 hw
  obtain ⟨hi, hiw⟩ := List.getElem?_eq_some_iff.1 hi1
  have hiso := (hiff1 i hi).1 hi2
  have hk : w ∈ boolMask ws mask := by
    rw [mem_boolMask]
    exact ⟨i, hi1, (hiff i hi).2 (fun hi' j hj hne => hd.trans (hiso hi' j hj hne))⟩
  obtain ⟨k, hk', hkw⟩ := List.mem_iff_getElem.1 hk
  rw [mem_boolMask]
  refine ⟨k, by rw [List.getElem?_eq_getElem hk', hkw], (hiff2 k hk').2 ?_⟩
  intro _ j hj hne
  have hsk := hs.sublist (boolMask_sublist ws mask)
  have hjk : (boolMask ws mask)[j] ≠ w := by
    rw [← hkw]
    rw [List.pairwise_iff_getElem] at hsk
    rcases lt_or_gt_of_ne hne with hlt | hgt
    · exact ne_of_lt (hsk j k hj hk' hlt)
    · exact ne_of_gt (hsk k j hk' hj hgt)
  obtain ⟨j', hj', hjw⟩ := List.mem_iff_getElem.1 ((boolMask_sublist ws mask).subset (List.getElem_mem hj))
  rw [hkw, ← hjw, ← hiw]
  refine hiso hi j' hj' ?_
  rintro rfl
  exact hjk (hjw ▸ hiw)

/-- The other direction fails: without the first filtering the line at 10 is too close to the line at 1. -/
theorem C215_growing_keeps_more :
    filterSeparation [0, 1, 10, (30 : ℤ)] 5 = .ok [false, false, true, true] ∧
    filterSeparation [10, (30 : ℤ)] 15 = .ok [true, true] ∧
    filterSeparation [0, 1, 10, (30 : ℤ)] 15 = .ok [false, false, false, true] := by decide

end

end Rascal
