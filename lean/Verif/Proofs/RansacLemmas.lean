import Verif.Model.Ransac
import Verif.Proofs.CandLemmas
import Verif.Proofs.HoughLemmas
import Mathlib.Tactic.Linarith
import Mathlib.Algebra.Order.Floor.Ring

/-! Lemmas about the model of the sampling loop. -/

set_option linter.unusedSectionVars false

namespace Rascal

variable {K : Type _} [Field K] [LinearOrder K] [IsStrictOrderedRing K]

/-! ### comparison of costs -/

theorem PyFloat.le_trans (a b c : PyFloat K) (h1 : a.le b = true) (h2 : b.le c = true) :
    a.le c = true := by
  cases a <;> cases b <;> cases c <;> simp_all [PyFloat.le]
  exact _root_.le_trans h1 h2

theorem PyFloat.le_refl (a : PyFloat K) (h : a ≠ .nan) : a.le a = true := by
  cases a <;> simp_all [PyFloat.le]

theorem PyFloat.not_nan_of_le (a b : PyFloat K) (h : a.le b = true) : a ≠ .nan ∧ b ≠ .nan := by
  cases a <;> cases b <;> simp_all [PyFloat.le]

theorem PyFloat.le_total (a b : PyFloat K) (ha : a ≠ .nan) (hb : b ≠ .nan) :
    a.le b = true ∨ b.le a = true := by
  cases a <;> cases b <;> simp_all [PyFloat.le]
  exact _root_.le_total _ _

/-! ### the sample -/

theorem getD_mem_cons {α : Type _} (a : α) (l : List α) (n : Nat) :
    (a :: l).getD (n % (l.length + 1)) a ∈ a :: l := by
  have h : n % (l.length + 1) < (a :: l).length := by
    simpa using Nat.mod_lt n (Nat.succ_pos l.length)
  rw [List.getD_eq_getElem?_getD, List.getElem?_eq_getElem h, Option.getD_some]
  exact List.getElem_mem h

theorem pickDistinct_spec {α : Type _} [DecidableEq α] (pool : List α) (hp : pool.Nodup) (n : Nat)
    (seeds : List Nat) : (pickDistinct pool n seeds).Nodup ∧ pickDistinct pool n seeds ⊆ pool ∧
      (pickDistinct pool n seeds).length = min n pool.length := by
  induction n generalizing pool seeds with
  | zero => simp [pickDistinct]
  | succ n ih =>
    cases pool with
    | nil => simp [pickDistinct]
    | cons a l =>
      simp only [pickDistinct]
      have hv := getD_mem_cons a l (seeds.headD 0)
      generalize (a :: l).getD (seeds.headD 0 % (l.length + 1)) a = v at hv
      obtain ⟨h1, h2, h3⟩ := ih ((a :: l).erase v) (hp.erase v) seeds.tail
      refine ⟨List.nodup_cons.2 ⟨fun hc => ?_, h1⟩, ?_, ?_⟩
      · exact (List.Nodup.mem_erase_iff hp).1 (h2 hc) |>.1 rfl
      · intro x hx
        rcases List.mem_cons.1 hx with rfl | hx
        · exact hv
        · exact List.mem_of_mem_erase (h2 hx)
      · rw [List.length_cons, h3, List.length_erase_of_mem hv]
        simp only [List.length_cons, Nat.add_sub_cancel]
        omega

/-- Every selection of distinct entries can be drawn. -/
theorem pickDistinct_complete {α : Type _} [DecidableEq α] (pool sel : List α)
    (hs : sel.Nodup) (hsub : sel ⊆ pool) :
    ∃ seeds, pickDistinct pool sel.length seeds = sel := by
  induction sel generalizing pool with
  | nil => exact ⟨[], by simp [pickDistinct]⟩
  | cons v sel ih =>
    rw [List.nodup_cons] at hs
    cases pool with
    | nil => exact absurd (hsub List.mem_cons_self) (by simp)
    | cons a l =>
      have hv : v ∈ a :: l := hsub List.mem_cons_self
      obtain ⟨i, hi, hiv⟩ := List.getElem_of_mem hv
      obtain ⟨seeds, hseeds⟩ := ih ((a :: l).erase v) hs.2 (by
        intro x hx
        have hne : x ≠ v := fun hc => hs.1 (hc ▸ hx)
        exact (List.mem_erase_of_ne hne).2 (hsub (List.mem_cons_of_mem _ hx)))
      refine ⟨i :: seeds, ?_⟩
      have hmod : i % (l.length + 1) = i := Nat.mod_eq_of_lt (by simpa using hi)
      have hget : (a :: l).getD ((i :: seeds).headD 0 % (l.length + 1)) a = v := by
        simp only [List.headD_cons]
        rw [hmod, List.getD_eq_getElem?_getD, List.getElem?_eq_getElem hi, Option.getD_some, hiv]
      rw [List.length_cons, pickDistinct]
      rw [hget, List.tail_cons, hseeds]

theorem pickWaves_spec {α : Type _} [DecidableEq α] (cand : α → Option (List α)) (ps used : List α)
    (seeds : List Nat) (out : List α) (hu : used.Nodup) (h : pickWaves cand ps used seeds = .ok (some out)) :
    ∃ new, out = used ++ new ∧ out.Nodup ∧ new.length = ps.length ∧
      ∀ e ∈ ps.zip new, ∃ ws, cand e.1 = some ws ∧ e.2 ∈ ws := by
  induction ps generalizing used seeds with
  | nil =>
    simp only [pickWaves, Except.ok.injEq, Option.some.injEq] at h
    subst h
    exact ⟨[], by simp, hu, rfl, by simp⟩
  | cons p ps ih =>
    unfold pickWaves at h
    cases hc : cand p with
    | none => rw [hc] at h; simp at h
    | some ws =>
      rw [hc] at h
      simp only at h
      cases hf : ws.filter (fun w => decide (w ∉ used)) with
      | nil => rw [hf] at h; simp at h
      | cons a l =>
        rw [hf] at h
        simp only at h
        have hv := getD_mem_cons a l (seeds.headD 0)
        generalize (a :: l).getD (seeds.headD 0 % (l.length + 1)) a = v at hv h
        rw [← hf, List.mem_filter] at hv
        have hvu : v ∉ used := by simpa using hv.2
        obtain ⟨new, h1, h2, h3, h4⟩ := ih (used ++ [v]) seeds.tail (by
          rw [List.nodup_append]
          exact ⟨hu, by simp, by rintro x hx y hy; simp at hy; rintro rfl; exact hvu (hy ▸ hx)⟩) h
        refine ⟨v :: new, by simp [h1], h2, by simp [h3], ?_⟩
        intro e he
        rw [List.zip_cons_cons, List.mem_cons] at he
        rcases he with rfl | he
        · exact ⟨ws, hc, hv.1⟩
        · exact h4 e he

/-- Every assignment of distinct candidate wavelengths can be drawn. -/
theorem pickWaves_complete {α : Type _} [DecidableEq α] (cand : α → Option (List α)) (ps new used : List α)
    (hl : new.length = ps.length) (hn : (used ++ new).Nodup)
    (hc : ∀ e ∈ ps.zip new, ∃ ws, cand e.1 = some ws ∧ e.2 ∈ ws) :
    ∃ seeds, pickWaves cand ps used seeds = .ok (some (used ++ new)) := by
  induction ps generalizing new used with
  | nil =>
    have : new = [] := by simpa using hl
    subst this
    exact ⟨[], by simp [pickWaves]⟩
  | cons p ps ih =>
    cases new with
    | nil => simp at hl
    | cons v new =>
      obtain ⟨ws, hw1, hw2⟩ := hc (p, v) (by simp)
      simp only at hw1 hw2
      have hvu : v ∉ used := by
        intro hcon
        rw [List.nodup_append] at hn
        exact hn.2.2 v hcon v (by simp) rfl
      have hvf : v ∈ ws.filter (fun w => decide (w ∉ used)) := by
        rw [List.mem_filter]; exact ⟨hw2, by simpa using hvu⟩
      obtain ⟨seeds, hseeds⟩ := ih new (used ++ [v]) (by simpa using hl) (by simpa using hn)
        (fun e he => hc e (by rw [List.zip_cons_cons]; exact List.mem_cons_of_mem _ he))
      cases hf : ws.filter (fun w => decide (w ∉ used)) with
      | nil => rw [hf] at hvf; simp at hvf
      | cons a l =>
        rw [hf] at hvf
        obtain ⟨i, hi, hiv⟩ := List.getElem_of_mem hvf
        refine ⟨i :: seeds, ?_⟩
        have hmod : i % (l.length + 1) = i := Nat.mod_eq_of_lt (by simpa using hi)
        have hget : (a :: l).getD ((i :: seeds).headD 0 % (l.length + 1)) a = v := by
          simp only [List.headD_cons]
          rw [hmod, List.getD_eq_getElem?_getD, List.getElem?_eq_getElem hi, Option.getD_some, hiv]
        unfold pickWaves
        rw [hw1]
        simp only
        rw [hf]
        simp only
        rw [hget, List.tail_cons, hseeds]
        simp

/-! ### the monotonicity check -/

theorem increasing_iff (v : List K) :
    increasing v = true ↔ ∀ (i : Nat) (h : i + 1 < v.length), v[i] < v[i + 1] := by
  unfold increasing
  rw [List.all_eq_true]
  constructor
  · intro h i hi
    have := h (decide (v[i + 1] - v[i] > 0)) (by
      rw [List.mem_iff_getElem]
      refine ⟨i, by simp; omega, ?_⟩
      simp [List.getElem_zipWith])
    simpa using this
  · intro h x hx
    rw [List.mem_iff_getElem] at hx
    obtain ⟨i, hi, rfl⟩ := hx
    simp only [List.length_zipWith, List.length_tail] at hi
    have := h i (by omega)
    simp [List.getElem_zipWith, this]

theorem mem_range_arange [FloorRing K] (a b : K) (i : Nat) :
    i < (arangeFrom a b).length ↔ a + (i : K) < b := by
  unfold arangeFrom
  rw [List.length_map, List.length_range]
  have : i < ⌈b - a⌉.toNat ↔ (i : Int) < ⌈b - a⌉ := by omega
  rw [this, Int.lt_ceil]
  push_cast
  constructor <;> intro h <;> linarith

theorem arangeFrom_getElem [FloorRing K] (a b : K) (i : Nat) (h : i < (arangeFrom a b).length) :
    (arangeFrom a b)[i] = a + (i : K) := by
  simp [arangeFrom]

/-! ### inliers -/

theorem clipErr_lt (tol e : K) : clipErr tol e < tol ↔ e < tol := by
  unfold clipErr
  split_ifs with h
  · simp [h.not_gt]
  · exact Iff.rfl

theorem clipErr_eq_min (tol e : K) : clipErr tol e = min e tol := by
  unfold clipErr
  split_ifs with h
  · exact (min_eq_right h.le).symm
  · exact (min_eq_left (not_lt.1 h)).symm

theorem mem_inlierList (tol : K) (m : List (K × K × K)) (e : K × K × K) :
    e ∈ inlierList tol m ↔ e ∈ m ∧ e.1 < tol := by
  unfold inlierList
  rw [List.mem_filter, decide_eq_true_eq, clipErr_lt]

theorem oneToOne_of_nodup (p a : List K) (hp : p.Nodup) (ha : a.Nodup) (hl : p.length = a.length) :
    oneToOne p a = true := by
  unfold oneToOne
  rw [npUnique_length_of_nodup p hp, npUnique_length_of_nodup a ha, hl]
  simp

end Rascal
