import Verif.Model.PlotLines
import Verif.Proofs.LoadMain
import Verif.Proofs.HoughLemmas
import Mathlib.Algebra.Order.Floor.Ring
import Mathlib.Algebra.BigOperators.Group.Finset.Basic
import Mathlib.Algebra.BigOperators.Ring.Finset
import Mathlib.Data.List.Dedup
import Mathlib.Tactic.Linarith
import Mathlib.Tactic.Ring

/-! Lemmas about rounding, the wavelength grid and the simulated spectrum of `plot_calibration_lines`. -/

set_option linter.unusedSectionVars false

namespace Rascal

variable {K : Type _} [Field K] [LinearOrder K] [IsStrictOrderedRing K] [FloorRing K]

theorem rint_near (x : K) : |x - (rint x : K)| ≤ 1 / 2 := by
  have h1 := Int.floor_le x
  have h2 := Int.lt_floor_add_one x
  unfold rint
  rw [abs_le]
  split_ifs <;> push_cast <;> constructor <;> linarith

theorem rint_eq_of_lt (x : K) (z : Int) (h : |x - (z : K)| < 1 / 2) : rint x = z := by
  have h1 := rint_near x
  rw [abs_le] at h1
  rw [abs_lt] at h
  have h2 : ((rint x : Int) : K) - z < 1 := by linarith
  have h3 : -1 < ((rint x : Int) : K) - z := by linarith
  have h4 : rint x - z < 1 := by exact_mod_cast h2
  have h5 : -1 < rint x - z := by exact_mod_cast h3
  omega

theorem rint_mono {x y : K} (h : x ≤ y) : rint x ≤ rint y := by
  have hx1 := Int.floor_le x
  have hx2 := Int.lt_floor_add_one x
  have hy1 := Int.floor_le y
  have hy2 := Int.lt_floor_add_one y
  have hf : ⌊x⌋ ≤ ⌊y⌋ := Int.floor_le_floor h
  rcases lt_or_eq_of_le hf with hlt | heq
  · have a1 : rint x ≤ ⌊x⌋ + 1 := by unfold rint; split_ifs <;> omega
    have a2 : ⌊y⌋ ≤ rint y := by unfold rint; split_ifs <;> omega
    omega
  · unfold rint
    rw [heq] at hx1 hx2 ⊢
    split_ifs <;> first | omega | (exfalso; linarith)

/-- Shifting by a whole number commutes with rounding unless the number is half way. -/
theorem rint_add_nat (x : K) (hx : ∀ z : Int, x ≠ (z : K) + 1 / 2) (k : Nat) :
    rint (x + (k : K)) = rint x + k := by
  apply rint_eq_of_lt
  have h1 := rint_near x
  have h2 : |x - (rint x : K)| ≠ 1 / 2 := by
    intro h
    rcases (abs_eq (by norm_num : (0 : K) ≤ 1 / 2)).1 h with h | h
    · exact hx (rint x) (by linarith)
    · exact hx (rint x - 1) (by push_cast; linarith)
  have h3 := lt_of_le_of_ne h1 h2
  push_cast
  rw [show x + (k : K) - ((rint x : K) + (k : K)) = x - (rint x : K) by ring]
  exact h3

theorem milli_mono {x y : K} (h : x ≤ y) : milli x ≤ milli y :=
  rint_mono (mul_le_mul_of_nonneg_right h (by norm_num))

/-- The number of grid points. -/
theorem arcGrid_length (lo hi : K) : (arcGrid lo hi).length = ⌈(hi - lo) * 1000⌉.toNat + 1 ∨
    (hi - lo) * 1000 ≤ -1 ∧ arcGrid lo hi = [] := by
  have he : (hi + 1 / 1000 - lo) / (1 / 1000) = (hi - lo) * 1000 + 1 := by
    field_simp
    ring
  unfold arcGrid
  rw [he, Int.ceil_add_one]
  rcases le_or_gt ((hi - lo) * 1000) (-1) with h | h
  · right
    refine ⟨h, ?_⟩
    have : ⌈(hi - lo) * 1000⌉ ≤ -1 := Int.ceil_le.2 (by push_cast; exact h)
    rw [show (⌈(hi - lo) * 1000⌉ + 1).toNat = 0 by omega]
    rfl
  · left
    have : -1 < ⌈(hi - lo) * 1000⌉ := Int.lt_ceil.2 (by push_cast; exact h)
    rw [List.length_map, List.length_range]
    omega

/-- The lower limit is not half way between two grid values. -/
def OffHalf (lo : K) : Prop := ∀ z : Int, lo * 1000 ≠ (z : K) + 1 / 2

/-- The grid counts up in steps of 0.001. -/
theorem arcGrid_eq (lo hi : K) (hlo : OffHalf lo) :
    arcGrid lo hi = (List.range (arcGrid lo hi).length).map (fun k : Nat => milli lo + (k : Int)) := by
  conv_lhs => unfold arcGrid
  rw [show (arcGrid lo hi).length = ⌈(hi + 1 / 1000 - lo) / (1 / 1000)⌉.toNat by
    unfold arcGrid; rw [List.length_map, List.length_range]]
  apply List.map_congr_left
  intro k _
  unfold milli
  rw [show (lo + (k : K) * (1 / 1000)) * 1000 = lo * 1000 + (k : K) by ring]
  exact rint_add_nat _ hlo k

/-- Every wavelength in the range is rounded to a grid value. -/
theorem milli_mem_arcGrid (lo hi : K) (hlo : OffHalf lo) (w : K) (h1 : lo ≤ w) (h2 : w ≤ hi) :
    milli w ∈ arcGrid lo hi := by
  have a1 := milli_mono h1
  have hn : 0 ≤ (hi - lo) * 1000 := by
    have : 0 ≤ hi - lo := by linarith
    positivity
  have hlen : (arcGrid lo hi).length = ⌈(hi - lo) * 1000⌉.toNat + 1 := by
    rcases arcGrid_length lo hi with h | h
    · exact h
    · linarith [h.1]
  have a2 : milli w ≤ milli lo + (⌈(hi - lo) * 1000⌉.toNat : Int) := by
    have := rint_add_nat (lo * 1000) hlo ⌈(hi - lo) * 1000⌉.toNat
    unfold milli
    rw [← this]
    apply rint_mono
    have hc : (hi - lo) * 1000 ≤ (⌈(hi - lo) * 1000⌉.toNat : K) := by
      have := Int.le_ceil ((hi - lo) * 1000)
      refine le_trans this ?_
      have h0 : (⌈(hi - lo) * 1000⌉ : Int) ≤ ((⌈(hi - lo) * 1000⌉.toNat : Nat) : Int) := Int.self_le_toNat _
      exact_mod_cast h0
    nlinarith
  rw [arcGrid_eq lo hi hlo, hlen]
  rw [List.mem_map]
  refine ⟨(milli w - milli lo).toNat, List.mem_range.2 (by omega), by omega⟩

theorem arcGrid_sorted (lo hi : K) (hlo : OffHalf lo) : (arcGrid lo hi).Pairwise (· < ·) := by
  rw [arcGrid_eq lo hi hlo, List.pairwise_map]
  exact List.pairwise_lt_range.imp (fun h => by omega)

/-! ### the masked addition -/

theorem addMasked_length (i : List K) (m : List Bool) (v : List K) : (addMasked i m v).length = i.length := by
  induction i generalizing m v with
  | nil => simp [addMasked]
  | cons x i ih =>
    cases m with
    | nil => simp [addMasked]
    | cons b m =>
      cases b <;> cases v <;> simp [addMasked, ih]

/-- Values in the order of their places land where they belong. -/
theorem addMasked_sorted {α : Type _} (key : α → Int) (val : α → K) (grid : List Int)
    (hg : grid.Pairwise (· < ·)) (rows : List α) (hr : (rows.map key).Pairwise (· < ·))
    (hin : ∀ r ∈ rows, key r ∈ grid) (f : Int → K) :
    addMasked (grid.map f) (grid.map (fun w => decide (w ∈ rows.map key))) (rows.map val) =
      grid.map (fun w => f w + ((rows.filter (fun r => decide (key r = w))).map val).sum) := by
  induction grid generalizing rows with
  | nil => rfl
  | cons x g ih =>
    rw [List.pairwise_cons] at hg
    cases rows with
    | nil =>
      have := ih hg.2 [] (by simp) (by simp)
      simp only [List.map_cons, List.map_nil, List.not_mem_nil, decide_false, List.filter_nil,
        List.sum_nil, add_zero, addMasked] at this ⊢
      rw [this]
    | cons r rs =>
      rw [List.map_cons, List.pairwise_cons] at hr
      by_cases hx : key r = x
      · have hrs : ∀ q ∈ rs, key q ∈ g := by
          intro q hq
          have h1 := hin q (by simp [hq])
          have h2 := hr.1 _ (List.mem_map_of_mem (f := key) hq)
          rcases List.mem_cons.1 h1 with h | h
          · omega
          · exact h
        have ihr := ih hg.2 rs hr.2 hrs
        have hm : g.map (fun w => decide (w ∈ (r :: rs).map key)) =
            g.map (fun w => decide (w ∈ rs.map key)) := by
          apply List.map_congr_left
          intro w hw
          have := hg.1 w hw
          rw [List.map_cons]
          congr 1
          rw [List.mem_cons]
          simp only [eq_iff_iff, or_iff_right_iff_imp]
          intro h; omega
        rw [List.map_cons (f := fun w => decide (w ∈ (r :: rs).map key)), hm,
          show decide (x ∈ (r :: rs).map key) = true by simp [hx]]
        simp only [List.map_cons, addMasked]
        rw [ihr]
        congr 1
        · congr 1
          have : rs.filter (fun q => decide (key q = x)) = [] := by
            rw [List.filter_eq_nil_iff]
            intro q hq
            have := hr.1 _ (List.mem_map_of_mem (f := key) hq)
            simp only [decide_eq_true_eq]
            omega
          simp [hx, this]
        · apply List.map_congr_left
          intro w hw
          have := hg.1 w hw
          congr 3
          rw [List.filter_cons, if_neg]
          simp only [decide_eq_true_eq]
          omega
      · have hall : ∀ q ∈ r :: rs, x < key q := by
          have h0 : x < key r := by
            rcases List.mem_cons.1 (hin r (by simp)) with h | h
            · exact absurd h hx
            · exact hg.1 _ h
          intro q hq
          rcases List.mem_cons.1 hq with rfl | hq
          · exact h0
          · have := hr.1 _ (List.mem_map_of_mem (f := key) hq)
            omega
        have hrs : ∀ q ∈ r :: rs, key q ∈ g := by
          intro q hq
          rcases List.mem_cons.1 (hin q hq) with h | h
          · have := hall q hq; omega
          · exact h
        have ihr := ih hg.2 (r :: rs) (by rw [List.map_cons, List.pairwise_cons]; exact hr) hrs
        have hxm : decide (x ∈ (r :: rs).map key) = false := by
          rw [decide_eq_false_iff_not, List.mem_map]
          rintro ⟨q, hq, hqx⟩
          have := hall q hq
          omega
        rw [List.map_cons (f := fun w => decide (w ∈ (r :: rs).map key)), hxm,
          List.map_cons (f := f), List.map_cons (l := g)]
        rw [show addMasked (f x :: g.map f) (false :: g.map (fun w => decide (w ∈ (r :: rs).map key)))
          ((r :: rs).map val) = f x :: addMasked (g.map f)
            (g.map (fun w => decide (w ∈ (r :: rs).map key))) ((r :: rs).map val) from by
            simp only [List.map_cons, addMasked]]
        rw [ihr]
        congr 1
        have : (r :: rs).filter (fun q => decide (key q = x)) = [] := by
          rw [List.filter_eq_nil_iff]
          intro q hq
          have := hall q hq
          simp only [decide_eq_true_eq]
          omega
        rw [this]
        simp

/-- The number of places equals the number of keys iff the keys are distinct and all on the grid. -/
theorem count_mask (grid : List Int) (hg : grid.Nodup) (ks : List Int) :
    (grid.map (fun w => decide (w ∈ ks))).count true = ks.length ↔ ks.Nodup ∧ ∀ k ∈ ks, k ∈ grid := by
  have h1 : (grid.map (fun w => decide (w ∈ ks))).count true =
      (grid.filter (fun w => decide (w ∈ ks))).length := by
    rw [List.count, List.countP_map, List.countP_eq_length_filter]
    congr 1
    apply List.filter_congr
    intro w _
    simp
  rw [h1]
  have hn : (grid.filter (fun w => decide (w ∈ ks))).Nodup := hg.filter _
  have hsub : (grid.filter (fun w => decide (w ∈ ks))) ⊆ ks.dedup := by
    intro w hw
    rw [List.mem_filter] at hw
    rw [List.mem_dedup]
    simpa using hw.2
  have hsp := hn.subperm hsub
  constructor
  · intro h
    have h2 := hsp.length_le
    have h3 : ks.dedup.length ≤ ks.length := (List.dedup_sublist ks).length_le
    have h4 : ks.dedup = ks := (List.dedup_sublist ks).eq_of_length (by omega)
    have hp := hsp.perm_of_length_le (by omega)
    refine ⟨by rw [← h4]; exact List.nodup_dedup ks, fun k hk => ?_⟩
    have : k ∈ grid.filter (fun w => decide (w ∈ ks)) := by
      rw [hp.mem_iff, List.mem_dedup]; exact hk
    exact (List.mem_filter.1 this).1
  · rintro ⟨h2, h3⟩
    apply List.Perm.length_eq
    rw [List.perm_ext_iff_of_nodup hn h2]
    intro k
    rw [List.mem_filter]
    simp only [decide_eq_true_eq, and_iff_right_iff_imp]
    exact h3 k

/-! ### the convolution -/

theorem sum_range_list (n : Nat) (f : Nat → K) :
    ((List.range n).map f).sum = ∑ k ∈ Finset.range n, f k := rfl

/-- The convolution of lines placed on the grid is the sum of the kernels centred on the lines. -/
theorem convolve_lines {α : Type _} (key : α → Int) (val : α → K) (c : Int) (N : Nat) (rows : List α)
    (hin : ∀ r ∈ rows, ∃ k : Nat, k < N ∧ key r = c + (k : Int)) (g : Int → K) :
    convolveSame ((List.range N).map (fun k : Nat =>
        ((rows.filter (fun r => decide (key r = c + (k : Int)))).map val).sum)) g =
      (List.range N).map (fun n : Nat => (rows.map (fun r => val r * g (c + (n : Int) - key r))).sum) := by
  unfold convolveSame
  rw [List.length_map, List.length_range]
  apply List.map_congr_left
  intro n _
  rw [sum_range_list]
  have hget : ∀ k ∈ Finset.range N, ((List.range N).map (fun k : Nat =>
        ((rows.filter (fun r => decide (key r = c + (k : Int)))).map val).sum)).getD k 0 *
          g ((n : Int) - (k : Int)) =
      ((rows.filter (fun r => decide (key r = c + (k : Int)))).map val).sum * g ((n : Int) - (k : Int)) := by
    intro k hk
    rw [Finset.mem_range] at hk
    simp [List.getD, hk]
  rw [Finset.sum_congr rfl hget]
  clear hget
  induction rows with
  | nil => simp
  | cons r rs ih =>
    rw [List.map_cons, List.sum_cons, ← ih (fun q hq => hin q (by simp [hq]))]
    obtain ⟨k0, hk0, hkey⟩ := hin r (by simp)
    have hstep : ∀ k ∈ Finset.range N,
        (((r :: rs).filter (fun r => decide (key r = c + (k : Int)))).map val).sum * g ((n : Int) - (k : Int)) =
        (if k = k0 then val r * g (c + (n : Int) - key r) else 0) +
          ((rs.filter (fun r => decide (key r = c + (k : Int)))).map val).sum * g ((n : Int) - (k : Int)) := by
      intro k _
      rw [List.filter_cons]
      by_cases hk : k = k0
      · subst hk
        rw [if_pos (by simpa using hkey), if_pos rfl, List.map_cons, List.sum_cons, add_mul, hkey]
        congr 3
        omega
      · rw [if_neg (by simp only [decide_eq_true_eq]; omega), if_neg hk, zero_add]
    rw [Finset.sum_congr rfl hstep, Finset.sum_add_distrib, Finset.sum_ite_eq' (Finset.range N) k0,
      if_pos (Finset.mem_range.2 hk0)]

end Rascal
