import Verif.Props.HoughVoteProps

/-!
Property theorem C216: how the Hough points change with the number of slopes, the bounds and the data.
-/

set_option linter.unusedSectionVars false

namespace Rascal

variable {K : Type _} [Field K] [LinearOrder K] [IsStrictOrderedRing K]

/-- The array of Hough points a transform holds. -/
def Spec.Holds (h : Hough K) (pts : List (K × K)) : Prop := h.points = some (.array pts)

/-- The expected behaviour: with more slopes no Hough point gets lost. -/
def C216_Statement : Prop :=
  ∀ (h : Hough ℚ) (xy : List (ℚ × ℚ)) (n n' : Nat) (pts pts' : List (ℚ × ℚ)), n ≤ n' →
    Spec.Holds (h.generate xy n).1 pts → Spec.Holds (h.generate xy n').1 pts' → ∀ q ∈ pts, q ∈ pts'

/-- Three slopes from 0 to 2 include 1, four do not. -/
theorem C216_refuted : ¬ C216_Statement := by
  intro h
  have := h ⟨none, none, none, none, none, some 0, some 2, some 0, some 9⟩ [(1, 5)] 3 4
    [(0, 5), (1, 4), (2, 3)] [(0, 5), (2 / 3, 13 / 3), (4 / 3, 11 / 3), (2, 3)] (by decide)
    (by unfold Spec.Holds; decide +kernel) (by unfold Spec.Holds; decide +kernel) (1, 4) (by decide)
  exact absurd this (by decide +kernel)

theorem generate_holds (h : Hough K) (a b c d : K) (hc : h.Constrained a b c d) (xy : List (K × K)) (n : Nat)
    (hn : 0 < n) (hxy : xy ≠ []) (pts : List (K × K)) (hp : Spec.Holds (h.generate xy n).1 pts) :
    pts = houghGrid a b c d xy n := by
  obtain ⟨h1, h2, h3, h4⟩ := hc
  unfold Spec.Holds Hough.generate at hp
  simp only [h1, h2, h3, h4] at hp
  rw [if_neg (by rintro (h | h); exacts [hn.ne' h, hxy h])] at hp
  simp only [Option.some.injEq, PointStore.array.injEq] at hp
  exact hp.symm

/-- C216, slopes.  When the steps between the slopes are divided evenly, that is when `num_slopes - 1` is
multiplied by a whole number, every Hough point stays.  Missing: other numbers of slopes. -/
theorem C216_finer_partial (h : Hough K) (a b c d : K) (hc : h.Constrained a b c d) (xy : List (K × K))
    (hxy : xy ≠ []) (n k : Nat) (hn : 2 ≤ n) (hk : 0 < k) (pts pts' : List (K × K))
    (hp : Spec.Holds (h.generate xy n).1 pts) (hp' : Spec.Holds (h.generate xy (k * (n - 1) + 1)).1 pts') :
    ∀ q ∈ pts, q ∈ pts' := by
  rw [generate_holds h a b c d hc xy n (by omega) hxy pts hp,
    generate_holds h a b c d hc xy _ (by omega) hxy pts' hp']
  intro q hq
  rw [mem_houghGrid] at hq ⊢
  obtain ⟨p, hpm, i, hi, rfl, h1, h2⟩ := hq
  have hs : a + (((k * i : Nat)) : K) * ((b - a) / (((k * (n - 1) + 1 : Nat) : K) - 1)) =
      a + (i : K) * ((b - a) / ((n : K) - 1)) := by
    have hkK : (k : K) ≠ 0 := Nat.cast_ne_zero.2 hk.ne'
    have hnK : ((n : K) - 1) ≠ 0 := (cast_pred_pos n hn).ne'
    push_cast [Nat.cast_sub (show 1 ≤ n by omega)]
    field_simp
    ring
  refine ⟨p, hpm, k * i, ?_, ?_, h1, h2⟩
  · have : i ≤ n - 1 := by omega
    exact Nat.lt_succ_of_le (Nat.mul_le_mul_left k this)
  · rw [hs]

/-- Three slopes and five slopes from 0 to 2. -/
example : Spec.Holds ((⟨none, none, none, none, none, some 0, some 2, some 0, some 9⟩ : Hough ℚ).generate
      [(1, 5)] 3).1 [(0, 5), (1, 4), (2, 3)] ∧
    Spec.Holds ((⟨none, none, none, none, none, some 0, some 2, some 0, some 9⟩ : Hough ℚ).generate
      [(1, 5)] (2 * (3 - 1) + 1)).1 [(0, 5), (1 / 2, 9 / 2), (1, 4), (3 / 2, 7 / 2), (2, 3)] := by
  constructor <;> unfold Spec.Holds <;> decide +kernel

theorem flatMap_sublist {α β : Type _} (f g : α → List β) (h : ∀ x, (f x).Sublist (g x)) (l : List α) :
    (l.flatMap f).Sublist (l.flatMap g) := by
  induction l with
  | nil => simp
  | cons x l ih => rw [List.flatMap_cons, List.flatMap_cons]; exact (h x).append ih

/-- C216, bounds and data.  With a wider range of intercepts and further data points, the slopes being the same, the
points found before are all found, each at least as often and in the same order. -/
theorem C216_wider (h h' : Hough K) (a b c d c' d' : K) (hc : h.Constrained a b c d)
    (hc' : h'.Constrained a b c' d') (hcc : c' ≤ c) (hdd : d ≤ d') (xy xy' : List (K × K)) (hxy : xy ≠ [])
    (hsub : xy.Sublist xy') (n : Nat) (hn : 0 < n) (pts pts' : List (K × K))
    (hp : Spec.Holds (h.generate xy n).1 pts) (hp' : Spec.Holds (h'.generate xy' n).1 pts') :
    pts.Sublist pts' := by
  have hxy' : xy' ≠ [] := by rintro rfl; exact hxy (List.sublist_nil.1 hsub)
  rw [generate_holds h a b c d hc xy n hn hxy pts hp, generate_holds h' a b c' d' hc' xy' n hn hxy' pts' hp',
    houghGrid_eq, houghGrid_eq]
  refine flatMap_sublist _ _ (fun s => ?_) _
  refine List.Sublist.trans ?_ ((hsub.map _).filter _)
  refine List.monotone_filter_right _ (fun l hl => ?_)
  simp only [Bool.and_eq_true, decide_eq_true_eq] at hl ⊢
  exact ⟨hcc.trans hl.1, hl.2.trans hdd⟩

/-- A point that the wider range adds, and a further data point. -/
example : Spec.Holds ((⟨none, none, none, none, none, some 0, some 2, some 4, some 9⟩ : Hough ℚ).generate
      [(1, 5)] 3).1 [(0, 5), (1, 4)] ∧
    Spec.Holds ((⟨none, none, none, none, none, some 0, some 2, some 3, some 9⟩ : Hough ℚ).generate
      [(1, 5), (2, 8)] 3).1 [(0, 5), (0, 8), (1, 4), (1, 6), (2, 3), (2, 4)] := by
  constructor <;> unfold Spec.Holds <;> decide +kernel

/-- C216, a wider range of slopes may lose points: one more on each side moves the slopes between. -/
theorem C216_wider_slopes_lose :
    Spec.Holds ((⟨none, none, none, none, none, some 1, some 2, some 0, some 9⟩ : Hough ℚ).generate
      [(1, 5)] 2).1 [(1, 4), (2, 3)] ∧
    Spec.Holds ((⟨none, none, none, none, none, some 0, some 3, some 0, some 9⟩ : Hough ℚ).generate
      [(1, 5)] 2).1 [(0, 5), (3, 2)] := by
  constructor <;> unfold Spec.Holds <;> decide +kernel

/-- C216, data.  The order of the data does not matter for the points and how often each occurs. -/
theorem C216_order (h : Hough K) (a b c d : K) (hc : h.Constrained a b c d) (xy xy' : List (K × K))
    (hxy : xy ≠ []) (hperm : xy.Perm xy') (n : Nat) (hn : 0 < n) (pts pts' : List (K × K))
    (hp : Spec.Holds (h.generate xy n).1 pts) (hp' : Spec.Holds (h.generate xy' n).1 pts') :
    pts.Perm pts' ∧ pts.length ≤ n * xy.length := by
  have hxy' : xy' ≠ [] := by rintro rfl; exact hxy hperm.eq_nil
  rw [generate_holds h a b c d hc xy n hn hxy pts hp, generate_holds h a b c d hc xy' n hn hxy' pts' hp',
    houghGrid_eq, houghGrid_eq]
  constructor
  · generalize linspace a b n = l
    induction l with
    | nil => simp
    | cons s l ih =>
      rw [List.flatMap_cons, List.flatMap_cons]
      exact ((hperm.map _).filter _).append ih
  · have hl : (linspace a b n).length = n := linspace_length _ _ _
    suffices hall : ∀ l : List K, (l.flatMap (fun s => (xy.map (fun p => (s, p.2 - s * p.1))).filter
        (fun l => decide (c ≤ l.2) && decide (l.2 ≤ d)))).length ≤ l.length * xy.length by
      have := hall (linspace a b n)
      rwa [hl] at this
    intro l
    induction l with
    | nil => simp
    | cons s l ih =>
      rw [List.flatMap_cons, List.length_append, List.length_cons, Nat.succ_mul]
      have := List.length_filter_le (fun l : K × K => decide (c ≤ l.2) && decide (l.2 ≤ d))
        (xy.map (fun p => (s, p.2 - s * p.1)))
      rw [List.length_map] at this
      omega

/-- Two data points in both orders. -/
example : Spec.Holds ((⟨none, none, none, none, none, some 0, some 2, some 0, some 9⟩ : Hough ℚ).generate
      [(1, 5), (2, 8)] 2).1 [(0, 5), (0, 8), (2, 3), (2, 4)] ∧
    Spec.Holds ((⟨none, none, none, none, none, some 0, some 2, some 0, some 9⟩ : Hough ℚ).generate
      [(2, 8), (1, 5)] 2).1 [(0, 8), (0, 5), (2, 4), (2, 3)] := by
  constructor <;> unfold Spec.Holds <;> decide +kernel

end Rascal
