import Verif.Props.RemoveRangeProps

/-!
Property theorems C219: lines of several ranges removed one range after the other.
-/

set_option linter.unusedSectionVars false

namespace Rascal

variable {K α : Type _}

/-- Sets of wavelengths within `tol` of `w` for two pairs `(w, tol)` do not meet. -/
def Spec.RangesApart [AddCommGroup K] [LinearOrder K] (r r' : K × K) : Prop := r.2 + r'.2 ≤ |r.1 - r'.1|

/-- The atlas after removing one range after the other. -/
def Spec.removeAll [AddCommGroup K] [LinearOrder K] (at_ : Atlas K) (rs : List (K × K)) : Atlas K :=
  rs.foldl (fun a r => a.removeRange r.1 r.2) at_

theorem survivors_keep (p : α → Bool) (a : α) (l : List α) (h : p a = false) :
    Spec.survivors p (a :: l) = a :: Spec.survivors p l := by
  cases l with
  | nil => simp [Spec.survivors, h]
  | cons b t => rw [Spec.survivors, if_neg (by rw [h]; simp)]

theorem survivors_none (p : α → Bool) (l : List α) (h : ∀ a ∈ l, p a = false) : Spec.survivors p l = l := by
  induction l with
  | nil => rfl
  | cons a t ih =>
    rw [survivors_keep p a t (h a (by simp)), ih (fun b hb => h b (List.mem_cons_of_mem _ hb))]

theorem survivors_append_right (p : α → Bool) (A B : List α) (hA : ∀ a ∈ A, p a = false) :
    Spec.survivors p (A ++ B) = A ++ Spec.survivors p B := by
  induction A with
  | nil => rfl
  | cons a t ih =>
    rw [List.cons_append, survivors_keep p a _ (hA a (by simp)), ih (fun b hb => hA b (List.mem_cons_of_mem _ hb))]
    rfl

theorem survivors_append_left (p : α → Bool) (A B : List α) (hB : ∀ b ∈ B, p b = false) :
    Spec.survivors p (A ++ B) = Spec.survivors p A ++ B := by
  induction A using Spec.survivors.induct p with
  | case1 => exact survivors_none p B hB
  | case2 a h =>
    cases B with
    | nil => simp
    | cons b t =>
      have ht := survivors_none p t (fun c hc => hB c (List.mem_cons_of_mem _ hc))
      simp [Spec.survivors, h, ht]
  | case3 a h =>
    have h' : p a = false := by simpa using h
    rw [survivors_keep p a [] h', List.cons_append, survivors_keep p a _ h', List.nil_append, survivors_none p B hB]
    rfl
  | case4 a b t h ih =>
    rw [List.cons_append, List.cons_append, Spec.survivors, if_pos h, ih, Spec.survivors, if_pos h]
    rfl
  | case5 a b t h ih =>
    have h' : p a = false := by simpa using h
    rw [List.cons_append, survivors_keep p a _ h', ih, survivors_keep p a _ h']
    rfl

section
variable [Field K] [LinearOrder K] [IsStrictOrderedRing K]

/-- Sorted lines split at a wavelength. -/
theorem sorted_split (l : List (AtlasLine K)) (h : l.Pairwise (fun u v => u.wl ≤ v.wl)) (m : K) :
    ∃ A B, l = A ++ B ∧ (∀ a ∈ A, a.wl < m) ∧ ∀ b ∈ B, m ≤ b.wl := by
  induction l with
  | nil => exact ⟨[], [], rfl, by simp, by simp⟩
  | cons c t ih =>
    rw [List.pairwise_cons] at h
    rcases lt_or_ge c.wl m with hc | hc
    · obtain ⟨A, B, rfl, h1, h2⟩ := ih h.2
      refine ⟨c :: A, B, rfl, ?_, h2⟩
      intro a ha
      rcases List.mem_cons.1 ha with rfl | ha
      · exact hc
      · exact h1 a ha
    · refine ⟨[], c :: t, rfl, by simp, ?_⟩
      intro b hb
      rcases List.mem_cons.1 hb with rfl | hb
      · exact hc
      · exact hc.trans (h.1 b hb)

theorem removeRange_sorted (at_ : Atlas K) (w tol : K) (h : at_.lines.Pairwise (fun u v => u.wl ≤ v.wl)) :
    (at_.removeRange w tol).lines.Pairwise (fun u v => u.wl ≤ v.wl) := by
  rw [removeRange_lines]
  exact h.sublist (survivors_sublist _ _)

/-- Two ranges, the first below the second. -/
theorem removeRange_comm_below (at_ : Atlas K) (w t w' t' : K) (hs : at_.lines.Pairwise (fun u v => u.wl ≤ v.wl))
    (h : w + t ≤ w' - t') : (at_.removeRange w t).removeRange w' t' = (at_.removeRange w' t').removeRange w t := by
  obtain ⟨A, B, hl, hA, hB⟩ := sorted_split at_.lines hs (w + t)
  have hpB : ∀ b ∈ B, InRange w t b = false := by
    intro b hb
    have := hB b hb
    refine decide_eq_false (fun hlt => ?_)
    have := (abs_lt.1 hlt).2
    linarith
  have hqA : ∀ a ∈ A, InRange w' t' a = false := by
    intro a ha
    have := hA a ha
    refine decide_eq_false (fun hlt => ?_)
    have := (abs_lt.1 hlt).1
    linarith
  rw [removeRange_lines, removeRange_lines, removeRange_lines, removeRange_lines]
  dsimp only
  rw [hl, survivors_append_left _ A B hpB, survivors_append_right _ A B hqA,
    survivors_append_right _ _ B (fun a ha => hqA a ((survivors_sublist _ _).subset ha)),
    survivors_append_left _ A _ (fun b hb => hpB b ((survivors_sublist _ _).subset hb))]

/-- C219, what holds, for two ranges: if the lines are in order of wavelength and the ranges do not meet, it does not
matter which range is removed first. -/
theorem C219_two_partial (at_ : Atlas K) (hs : at_.lines.Pairwise (fun u v => u.wl ≤ v.wl)) (r r' : K × K)
    (h : Spec.RangesApart r r') : Spec.removeAll at_ [r, r'] = Spec.removeAll at_ [r', r] := by
  unfold Spec.RangesApart at h
  show (at_.removeRange r.1 r.2).removeRange r'.1 r'.2 = (at_.removeRange r'.1 r'.2).removeRange r.1 r.2
  rcases le_total r.1 r'.1 with hle | hle
  · rw [abs_of_nonpos (by linarith)] at h
    exact removeRange_comm_below at_ _ _ _ _ hs (by linarith)
  · rw [abs_of_nonneg (by linarith)] at h
    exact (removeRange_comm_below at_ _ _ _ _ hs (by linarith)).symm

/-- C219, what holds: if the lines are in order of wavelength and any two different ranges do not meet, the calls of
`remove_atlas_lines_range` may be made in any order, also when ranges are removed several times.  What is missing: lines
in another order, and ranges that meet. -/
theorem C219_order_partial (at_ : Atlas K) (hs : at_.lines.Pairwise (fun u v => u.wl ≤ v.wl)) (rs rs' : List (K × K))
    (hp : rs.Perm rs') (h : ∀ r ∈ rs, ∀ r' ∈ rs, r ≠ r' → Spec.RangesApart r r') :
    Spec.removeAll at_ rs = Spec.removeAll at_ rs' := by
  induction hp generalizing at_ with
  | nil => rfl
  | cons x _ ih =>
    exact ih (at_.removeRange x.1 x.2) (removeRange_sorted _ _ _ hs)
      (fun r hr r' hr' => h r (List.mem_cons_of_mem _ hr) r' (List.mem_cons_of_mem _ hr'))
  | swap x y l =>
    by_cases hxy : y = x
    · rw [hxy]
    · have := C219_two_partial at_ hs y x (h y (by simp) x (by simp) hxy)
      exact congrArg (fun a => Spec.removeAll a l) this
  | trans h1 _ ih1 ih2 =>
    rw [ih1 at_ hs h]
    exact ih2 at_ hs (fun r hr r' hr' => h r (h1.mem_iff.2 hr) r' (h1.mem_iff.2 hr'))

/-- C219, in whatever order the lines and calls are: the lines outside all ranges are kept, in order, and nothing is
added. -/
theorem C219_kept (at_ : Atlas K) (rs : List (K × K)) :
    (Spec.removeAll at_ rs).lines.Sublist at_.lines ∧
    (Spec.removeAll at_ rs).lines.filter (fun l => decide (∀ r ∈ rs, r.2 ≤ |l.wl - r.1|)) =
      at_.lines.filter (fun l => decide (∀ r ∈ rs, r.2 ≤ |l.wl - r.1|)) := by
  induction rs generalizing at_ with
  | nil => exact ⟨List.Sublist.refl _, rfl⟩
  | cons x rs ih =>
    obtain ⟨h1, h2⟩ := ih (at_.removeRange x.1 x.2)
    have e := removeRange_lines at_ x.1 x.2
    have hsub : (at_.removeRange x.1 x.2).lines.Sublist at_.lines := by
      rw [e]
      exact survivors_sublist _ _
    refine ⟨h1.trans hsub, ?_⟩
    have split : ∀ l : List (AtlasLine K), l.filter (fun l => decide (∀ r ∈ x :: rs, r.2 ≤ |l.wl - r.1|)) =
        (l.filter (fun l => decide (∀ r ∈ rs, r.2 ≤ |l.wl - r.1|))).filter (fun l => !InRange x.1 x.2 l) := by
      intro l
      rw [List.filter_filter]
      refine List.filter_congr (fun a _ => ?_)
      rw [Bool.eq_iff_iff]
      simp [InRange]
    have split' : ∀ l : List (AtlasLine K), l.filter (fun l => decide (∀ r ∈ x :: rs, r.2 ≤ |l.wl - r.1|)) =
        (l.filter (fun l => !InRange x.1 x.2 l)).filter (fun l => decide (∀ r ∈ rs, r.2 ≤ |l.wl - r.1|)) := by
      intro l
      rw [split, List.filter_filter, List.filter_filter]
      exact List.filter_congr (fun a _ => Bool.and_comm _ _)
    have hrec : Spec.removeAll at_ (x :: rs) = Spec.removeAll (at_.removeRange x.1 x.2) rs := rfl
    rw [hrec, split, h2, ← split, split', split', e]
    dsimp only
    rw [filter_survivors]

end

/-- The expected behaviour: the order of removing two ranges that do not meet does not matter. -/
def C219_Statement : Prop :=
  ∀ (at_ : Atlas ℚ) (r r' : ℚ × ℚ), Spec.RangesApart r r' → Spec.removeAll at_ [r, r'] = Spec.removeAll at_ [r', r]

/-- Lines of two elements, in order of wavelength for each. -/
def twoElements : Atlas ℚ :=
  ⟨[⟨5000, "Ar", 1, none⟩, ⟨7000, "Ar", 1, none⟩, ⟨5001, "Xe", 1, none⟩, ⟨8000, "Xe", 1, none⟩], none, none, 500⟩

/-- C219 is false: with the lines around 7000 removed first, 5000 and 5001 are neighbours and one of them stays. -/
theorem C219_refuted : ¬ C219_Statement := by
  intro h
  have h1 := congrArg Atlas.getLines (h twoElements (5000, 10) (7000, 10) (by unfold Spec.RangesApart; decide +kernel))
  have h2 : (Spec.removeAll twoElements [(5000, 10), (7000, 10)]).getLines = [8000] ∧
      (Spec.removeAll twoElements [(7000, 10), (5000, 10)]).getLines = [5001, 8000] := by decide +kernel
  rw [h2.1, h2.2] at h1
  exact absurd h1 (by decide +kernel)

/-- Five lines in order of wavelength. -/
def inOrder : Atlas ℚ :=
  ⟨[⟨5000, "Ar", 1, none⟩, ⟨5001, "Xe", 1, none⟩, ⟨5002, "Ar", 1, none⟩, ⟨7000, "Ar", 1, none⟩, ⟨8000, "Xe", 1, none⟩],
    none, none, 500⟩

/-- A case for the theorems: two calls around 5000 with one around 7000 between them, or after them. -/
example : Spec.removeAll inOrder [(5000, 10), (7000, 10), (5000, 10)] =
      Spec.removeAll inOrder [(5000, 10), (5000, 10), (7000, 10)] ∧
    (Spec.removeAll inOrder [(5000, 10), (7000, 10), (5000, 10)]).getLines = [8000] ∧
    (Spec.removeAll inOrder [(7000, 10), (5000, 10)]).getLines = [5001, 8000] := by
  refine ⟨C219_order_partial inOrder (by decide +kernel) _ _ (List.Perm.cons _ (List.Perm.swap _ _ _)) ?_,
    by decide +kernel, by decide +kernel⟩
  unfold Spec.RangesApart
  decide +kernel

end Rascal
