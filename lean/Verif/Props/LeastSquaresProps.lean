import Verif.Props.UnitProps
import Verif.Props.KnownOrderProps
import Mathlib.LinearAlgebra.Matrix.Nondegenerate
import Mathlib.LinearAlgebra.Matrix.ToLinearEquiv
import Mathlib.LinearAlgebra.Matrix.NonsingularInverse
import Mathlib.Algebra.Polynomial.Roots
import Mathlib.Analysis.Real.Sqrt
import Mathlib.Data.Fin.VecNotation

/-!
Least squares of any degree meets the contracts of the fitting routines that C138, C139, C156 and C162 assume.
-/

set_option linter.unusedSectionVars false

namespace Rascal

open Spec

section
variable {K : Type _} [Field K] [LinearOrder K] [IsStrictOrderedRing K]

/-! ### The normal equations -/

/-- The matrix of the normal equations. -/
def Spec.gram (xs : List K) (n : Nat) : Matrix (Fin (n + 1)) (Fin (n + 1)) K :=
  fun i j => (xs.map (fun x => x ^ ((i : Nat) + (j : Nat)))).sum

/-- The right hand side of the normal equations. -/
def Spec.moment (ps : List (K × K)) (n : Nat) : Fin (n + 1) → K :=
  fun i => (ps.map (fun p => p.1 ^ (i : Nat) * p.2)).sum

/-- The solution of the normal equations. -/
noncomputable def Spec.lsqVec (ps : List (K × K)) (n : Nat) : Fin (n + 1) → K :=
  Matrix.mulVec (gram (ps.map Prod.fst) n)⁻¹ (moment ps n)

/-- The value of a polynomial. -/
def Spec.polyAt {n : Nat} (v : Fin (n + 1) → K) (x : K) : K := ∑ i, v i * x ^ (i : Nat)

/-- Sum of the squared errors. -/
def Spec.squares {n : Nat} (ps : List (K × K)) (v : Fin (n + 1) → K) : K :=
  (ps.map (fun p => (p.2 - polyAt v p.1) ^ 2)).sum

theorem listSum_finSum {n : Nat} {α : Type _} (l : List α) (f : α → Fin n → K) :
    (l.map (fun x => ∑ i, f x i)).sum = ∑ i, (l.map (fun x => f x i)).sum := by
  induction l with
  | nil => simp
  | cons a l ih => simp only [List.map_cons, List.sum_cons, ih, Finset.sum_add_distrib]

theorem listSum_mul {α : Type _} (l : List α) (f : α → K) (c : K) :
    (l.map (fun x => f x * c)).sum = (l.map f).sum * c := by
  induction l with
  | nil => simp
  | cons a l ih => simp only [List.map_cons, List.sum_cons, ih, add_mul]

theorem listSum_add {α : Type _} (l : List α) (f g : α → K) :
    (l.map (fun x => f x + g x)).sum = (l.map f).sum + (l.map g).sum := by
  induction l with
  | nil => simp
  | cons a l ih => simp only [List.map_cons, List.sum_cons, ih]; ring

theorem gram_mulVec (xs : List K) (n : Nat) (v : Fin (n + 1) → K) (i : Fin (n + 1)) :
    Matrix.mulVec (gram xs n) v i = (xs.map (fun x => x ^ (i : Nat) * polyAt v x)).sum := by
  unfold Matrix.mulVec dotProduct gram polyAt
  have : ∀ x : K, x ^ (i : Nat) * ∑ j : Fin (n + 1), v j * x ^ (j : Nat) = ∑ j : Fin (n + 1), x ^ ((i : Nat) + (j : Nat)) * v j := by
    intro x
    rw [Finset.mul_sum]
    apply Finset.sum_congr rfl
    intro j _
    rw [pow_add]
    ring
  simp only [this, listSum_finSum, listSum_mul]

theorem listSum_sq_zero {α : Type _} (l : List α) (f : α → K) (h : (l.map (fun x => f x ^ 2)).sum = 0) :
    ∀ x ∈ l, f x = 0 := by
  induction l with
  | nil => simp
  | cons a l ih =>
    have hn : ∀ l : List α, 0 ≤ (l.map (fun x => f x ^ 2)).sum := by
      intro l
      induction l with
      | nil => simp
      | cons a l ih => simp only [List.map_cons, List.sum_cons]; nlinarith [sq_nonneg (f a)]
    simp only [List.map_cons, List.sum_cons] at h
    have h1 := hn l
    have h2 := sq_nonneg (f a)
    have h3 : f a ^ 2 = 0 := by linarith
    have h4 : (l.map (fun x => f x ^ 2)).sum = 0 := by linarith
    intro x hx
    rcases List.mem_cons.1 hx with rfl | hx
    · exact pow_eq_zero_iff (by norm_num) |>.1 h3
    · exact ih h4 x hx

/-- A polynomial of degree at most `n` with more than `n` zeros is zero. -/
theorem polyAt_zeros {n : Nat} (v : Fin (n + 1) → K) (xs : List K) (hn : n < xs.dedup.length)
    (h : ∀ x ∈ xs, polyAt v x = 0) : v = 0 := by
  classical
  let p : Polynomial K := ∑ i : Fin (n + 1), Polynomial.C (v i) * Polynomial.X ^ (i : Nat)
  have hev : ∀ x, p.eval x = polyAt v x := by
    intro x
    simp [p, Polynomial.eval_finsetSum, polyAt]
  have hdeg : p.natDegree ≤ n := by
    apply Polynomial.natDegree_sum_le_of_forall_le
    intro i _
    exact (Polynomial.natDegree_C_mul_X_pow_le _ _).trans (by omega)
  have hp : p = 0 := by
    by_contra hne
    have h1 : xs.dedup.toFinset ⊆ p.roots.toFinset := by
      intro x hx
      rw [List.mem_toFinset, List.mem_dedup] at hx
      rw [Multiset.mem_toFinset, Polynomial.mem_roots hne, Polynomial.IsRoot, hev]
      exact h x hx
    have h2 := Finset.card_le_card h1
    rw [List.toFinset_card_of_nodup (List.nodup_dedup xs)] at h2
    have h3 := (Multiset.toFinset_card_le p.roots).trans (Polynomial.card_roots' p)
    omega
  funext i
  have hc : p.coeff (i : Nat) = v i := by
    simp only [p, Polynomial.finsetSum_coeff, Polynomial.coeff_C_mul, Polynomial.coeff_X_pow]
    rw [Finset.sum_eq_single i]
    · simp
    · intro j _ hj
      rw [if_neg, mul_zero]
      exact fun hh => hj (Fin.ext hh.symm)
    · simp
  rw [← hc, hp]
  simp

theorem gram_det (xs : List K) (n : Nat) (hn : n < xs.dedup.length) : (gram xs n).det ≠ 0 := by
  intro h0
  obtain ⟨v, hv, h⟩ := Matrix.exists_mulVec_eq_zero_iff.2 h0
  apply hv
  apply polyAt_zeros v xs hn
  have hs : (xs.map (fun x => polyAt v x ^ 2)).sum = 0 := by
    have e : ∀ x : K, polyAt v x ^ 2 = ∑ i : Fin (n + 1), (x ^ (i : Nat) * polyAt v x) * v i := by
      intro x
      rw [sq, show polyAt v x * polyAt v x = (∑ i : Fin (n + 1), v i * x ^ (i : Nat)) * polyAt v x from rfl, Finset.sum_mul]
      apply Finset.sum_congr rfl
      intro i _
      ring
    simp only [e, listSum_finSum, listSum_mul]
    apply Finset.sum_eq_zero
    intro i _
    rw [← gram_mulVec, h]
    simp
  exact listSum_sq_zero xs (polyAt v) hs

/-- A vector solves the normal equations exactly if it is the solution. -/
theorem lsqVec_unique (ps : List (K × K)) (n : Nat) (hn : n < (ps.map Prod.fst).dedup.length)
    (v : Fin (n + 1) → K) :
    Matrix.mulVec (gram (ps.map Prod.fst) n) v = moment ps n ↔ v = lsqVec ps n := by
  have hu : IsUnit (gram (ps.map Prod.fst) n).det := isUnit_iff_ne_zero.2 (gram_det _ _ hn)
  unfold lsqVec
  constructor
  · intro h
    rw [← h, Matrix.mulVec_mulVec, Matrix.nonsing_inv_mul _ hu, Matrix.one_mulVec]
  · rintro rfl
    rw [Matrix.mulVec_mulVec, Matrix.mul_nonsing_inv _ hu, Matrix.one_mulVec]

/-- The solution of the normal equations has the smallest sum of squared errors. -/
theorem lsqVec_optimal (ps : List (K × K)) (n : Nat) (hn : n < (ps.map Prod.fst).dedup.length)
    (v : Fin (n + 1) → K) : squares ps (lsqVec ps n) ≤ squares ps v := by
  have hN := (lsqVec_unique ps n hn (lsqVec ps n)).2 rfl
  set u := lsqVec ps n
  have horth : (ps.map (fun p => (p.2 - polyAt u p.1) * polyAt (fun i => u i - v i) p.1)).sum = 0 := by
    have e : ∀ p : K × K, (p.2 - polyAt u p.1) * polyAt (fun i => u i - v i) p.1 =
        ∑ i : Fin (n + 1), (p.1 ^ (i : Nat) * p.2 + (p.1 ^ (i : Nat) * polyAt u p.1) * (-1)) * (u i - v i) := by
      intro p
      rw [show polyAt (fun i => u i - v i) p.1 = ∑ i : Fin (n + 1), (u i - v i) * p.1 ^ (i : Nat) from rfl, Finset.mul_sum]
      apply Finset.sum_congr rfl
      intro i _
      ring
    simp only [e, listSum_finSum, listSum_mul, listSum_add]
    apply Finset.sum_eq_zero
    intro i _
    have h := congrFun hN i
    rw [gram_mulVec, List.map_map] at h
    have h' : (ps.map (fun p => p.1 ^ (i : Nat) * polyAt u p.1)).sum = (ps.map (fun p => p.1 ^ (i : Nat) * p.2)).sum := h
    rw [h']
    ring
  have hs : squares ps v = squares ps u +
      (ps.map (fun p => (p.2 - polyAt u p.1) * polyAt (fun i => u i - v i) p.1)).sum * 2 +
      (ps.map (fun p => polyAt (fun i => u i - v i) p.1 ^ 2)).sum := by
    unfold squares
    rw [← listSum_mul, ← listSum_add, ← listSum_add]
    congr 1
    apply List.map_congr_left
    intro p _
    have : polyAt (fun i => u i - v i) p.1 = polyAt u p.1 - polyAt v p.1 := by
      unfold polyAt
      rw [← Finset.sum_sub_distrib]
      apply Finset.sum_congr rfl
      intro i _
      ring
    rw [this]
    ring
  have h0 : 0 ≤ (ps.map (fun p => polyAt (fun i => u i - v i) p.1 ^ 2)).sum := by
    apply List.sum_nonneg
    intro a ha
    obtain ⟨p, _, rfl⟩ := List.mem_map.1 ha
    exact sq_nonneg _
  rw [hs, horth]
  linarith

/-- On the new scale. -/
theorem lsqVec_aff (ps : List (K × K)) (n : Nat) (hn : n < (ps.map Prod.fst).dedup.length) (s t : K) :
    lsqVec (ps.map (affPair s t)) n = fun i => s * lsqVec ps n i + if i = 0 then t else 0 := by
  have hf : (ps.map (affPair s t)).map Prod.fst = ps.map Prod.fst := by rw [List.map_map]; rfl
  symm
  rw [← lsqVec_unique _ n (by rw [hf]; exact hn), hf]
  have hN := (lsqVec_unique ps n hn (lsqVec ps n)).2 rfl
  set u := lsqVec ps n
  funext i
  have h := congrFun hN i
  rw [gram_mulVec, List.map_map] at h ⊢
  have hp : ∀ x : K, polyAt (fun i => s * u i + if i = 0 then t else 0) x = s * polyAt u x + t := by
    intro x
    unfold polyAt
    simp only [add_mul, Finset.sum_add_distrib, ite_mul, zero_mul]
    rw [Finset.mul_sum]
    congr 1
    · apply Finset.sum_congr rfl
      intro i _
      ring
    · simp
  have e1 : moment (ps.map (affPair s t)) n i = moment ps n i * s + (ps.map (fun p => p.1 ^ (i : Nat))).sum * t := by
    unfold moment
    rw [List.map_map, ← listSum_mul, ← listSum_mul, ← listSum_add]
    congr 1
    apply List.map_congr_left
    intro p _
    simp only [Function.comp, affPair, aff]
    ring
  rw [e1, ← h, ← listSum_mul, ← listSum_mul, ← listSum_add]
  congr 1
  apply List.map_congr_left
  intro p _
  simp only [Function.comp, hp]
  ring

/-- The order of the points does not matter. -/
theorem lsqVec_perm (ps qs : List (K × K)) (h : ps.Perm qs) (n : Nat) : lsqVec ps n = lsqVec qs n := by
  have h1 : gram (ps.map Prod.fst) n = gram (qs.map Prod.fst) n := by
    funext i j
    exact (((h.map _).map _).sum_eq)
  have h2 : moment ps n = moment qs n := by
    funext i
    exact (h.map _).sum_eq
  unfold lsqVec
  rw [h1, h2]

/-- Points on a polynomial. -/
theorem lsqVec_exact (xs : List K) (n : Nat) (hn : n < xs.dedup.length) (v : Fin (n + 1) → K) :
    lsqVec (xs.map (fun x => (x, polyAt v x))) n = v := by
  have hf : (xs.map (fun x => (x, polyAt v x))).map Prod.fst = xs := by
    rw [List.map_map]
    exact List.map_id _
  symm
  rw [← lsqVec_unique _ n (by rw [hf]; exact hn), hf]
  funext i
  rw [gram_mulVec]
  unfold moment
  rw [List.map_map]
  rfl

/-! ### The fitting routines -/

/-- Least squares of finite data with enough different abscissae; `none` otherwise. -/
noncomputable def Spec.lsqFit (ps : List (K × K)) (n : Nat) : Option (List K) :=
  if n < (ps.map Prod.fst).dedup.length then some (List.ofFn (lsqVec ps n)) else none

/-- The finite points of two lists of one length, if all are finite. -/
def Spec.finPoints : List (PyFloat K) → List (PyFloat K) → Option (List (K × K))
  | [], [] => some []
  | .fin x :: xs, .fin y :: ys => (finPoints xs ys).map (List.cons (x, y))
  | _, _ => none

/-- Fitting routines that solve the least squares problem exactly in the power basis, raise LinAlgError if there is
no unique solution or a value is not finite, and use `root` and `spl` for the rest. -/
noncomputable def Spec.lsqKern (root : K → K) (spl : List K → List K → List (List Nat) → PyRes (K → K → K)) :
    Kernels K where
  polyfit := fun xs ys n =>
    match finPoints xs ys with
    | none => .error .linAlg
    | some ps => match lsqFit ps n with
      | none => .error .linAlg
      | some co => .ok co
  polyval := fun co x => co.foldr (fun a b => a + x * b) 0
  robust := fun xs ys n =>
    match finPoints (xs.map .fin) (ys.map .fin) with
    | none => .error .linAlg
    | some ps => match lsqFit ps n with
      | none => .error .linAlg
      | some co => .ok co
  sqrt := root
  spline := spl

theorem foldr_ofFn (n : Nat) (v : Fin n → K) (x : K) :
    (List.ofFn v).foldr (fun a b => a + x * b) 0 = ∑ i, v i * x ^ (i : Nat) := by
  induction n with
  | zero => simp
  | succ n ih =>
    rw [List.ofFn_succ, List.foldr_cons, ih, Fin.sum_univ_succ, Finset.mul_sum]
    simp only [Fin.val_zero, pow_zero, mul_one]
    congr 1
    apply Finset.sum_congr rfl
    intro i _
    rw [Fin.val_succ, pow_succ]
    ring

theorem finPoints_aff (s t : K) (xs ys : List (PyFloat K)) :
    finPoints xs (ys.map (mapFin (aff s t))) = (finPoints xs ys).map (List.map (affPair s t)) := by
  induction xs generalizing ys with
  | nil => cases ys <;> rfl
  | cons x xs ih =>
    cases ys with
    | nil => cases x <;> rfl
    | cons y ys =>
      cases x <;> cases y <;> try rfl
      simp only [List.map_cons, mapFin, finPoints, ih, Option.map_map]
      rfl

theorem lsqFit_aff (ps : List (K × K)) (n : Nat) (s t : K) :
    lsqFit (ps.map (affPair s t)) n = (lsqFit ps n).map (affCoeffs s t) := by
  have hf : (ps.map (affPair s t)).map Prod.fst = ps.map Prod.fst := by rw [List.map_map]; rfl
  unfold lsqFit
  rw [hf]
  split
  · rename_i hn
    simp only [Option.map_some, Option.some.injEq, List.ofFn_succ, affCoeffs, lsqVec_aff ps n hn, if_true]
    rw [List.cons.injEq]
    refine ⟨rfl, ?_⟩
    rw [List.map_ofFn]
    congr 1
    funext i
    simp [Function.comp, Fin.succ_ne_zero]
  · rfl

/-- Least squares meets the contract of C138 and C139. -/
theorem lsqKern_affine (root : K → K) (spl : List K → List K → List (List Nat) → PyRes (K → K → K)) (s t : K)
    (hr : ∀ v, root (s ^ 2 * v) = s * root v)
    (hd : ∀ bx bY h, spl (bx.map (fun v => s * v)) (bY.map (aff s t)) h =
      (spl bx bY h).map (fun f x y => f (x / s) ((y - t) / s))) :
    AffineKernels (lsqKern root spl) s t where
  polyfit := by
    intro xs ys n _
    unfold lsqKern
    dsimp only
    rw [finPoints_aff]
    cases finPoints xs ys with
    | none => rfl
    | some ps =>
      simp only [Option.map_some, lsqFit_aff]
      cases lsqFit ps n <;> rfl
  robust := by
    intro xs ys n
    unfold lsqKern
    dsimp only
    have : (ys.map (aff s t)).map PyFloat.fin = (ys.map PyFloat.fin).map (mapFin (aff s t)) := by
      rw [List.map_map, List.map_map]; rfl
    rw [this, finPoints_aff]
    cases finPoints (xs.map .fin) (ys.map .fin) with
    | none => rfl
    | some ps =>
      simp only [Option.map_some, lsqFit_aff]
      cases lsqFit ps n <;> rfl
  polyfit_ne := by
    rintro xs ys n co h rfl
    unfold lsqKern lsqFit at h
    dsimp only at h
    cases hp : finPoints xs ys with
    | none => rw [hp] at h; cases h
    | some ps =>
      rw [hp] at h
      dsimp only at h
      by_cases hn : n < (ps.map Prod.fst).dedup.length
      · rw [if_pos hn] at h; simp [List.ofFn_succ] at h
      · rw [if_neg hn] at h; cases h
  robust_ne := by
    rintro xs ys n co h rfl
    unfold lsqKern lsqFit at h
    dsimp only at h
    cases hp : finPoints (xs.map .fin) (ys.map .fin) with
    | none => rw [hp] at h; cases h
    | some ps =>
      rw [hp] at h
      dsimp only at h
      by_cases hn : n < (ps.map Prod.fst).dedup.length
      · rw [if_pos hn] at h; simp [List.ofFn_succ] at h
      · rw [if_neg hn] at h; cases h
  polyval := by
    intro co x h
    cases co with
    | nil => exact absurd rfl h
    | cons c co =>
      have : ∀ l : List K, List.foldr (fun a b => a + x * b) 0 (l.map (fun v => s * v)) =
          s * List.foldr (fun a b => a + x * b) 0 l := by
        intro l
        induction l with
        | nil => simp
        | cons a l ih => simp only [List.map_cons, List.foldr_cons, ih]; ring
      show List.foldr _ _ _ = aff s t (List.foldr _ _ _)
      simp only [affCoeffs, List.foldr_cons, this, aff]
      ring
  sqrt := hr
  spline := hd

theorem finPoints_zip (xs ys : List (PyFloat K)) (h : xs.length = ys.length) :
    finPoints xs ys = (xs.zip ys).mapM (fun p => match p with
      | (.fin x, .fin y) => some (x, y)
      | _ => none) := by
  induction xs generalizing ys with
  | nil =>
    cases ys with
    | nil => rfl
    | cons y ys => simp at h
  | cons x xs ih =>
    cases ys with
    | nil => simp at h
    | cons y ys =>
      have := ih ys (by simpa using h)
      cases x <;> cases y <;> try rfl
      simp only [finPoints, this, List.zip_cons_cons, List.mapM_cons]
      cases (xs.zip ys).mapM (m := Option) (fun p : PyFloat K × PyFloat K => match p with
        | (.fin x, .fin y) => some (x, y)
        | _ => none) <;> rfl

theorem mapM_perm {α β : Type _} (f : α → Option β) {l l' : List α} (h : l.Perm l') :
    (∃ m m', l.mapM f = some m ∧ l'.mapM f = some m' ∧ m.Perm m') ∨ (l.mapM f = none ∧ l'.mapM f = none) := by
  induction h with
  | nil => exact Or.inl ⟨[], [], rfl, rfl, .refl _⟩
  | cons a _ ih =>
    simp only [List.mapM_cons]
    cases f a with
    | none => exact Or.inr ⟨rfl, rfl⟩
    | some b =>
      rcases ih with ⟨m, m', h1, h2, h3⟩ | ⟨h1, h2⟩
      · rw [h1, h2]; exact Or.inl ⟨_, _, rfl, rfl, h3.cons b⟩
      · rw [h1, h2]; exact Or.inr ⟨rfl, rfl⟩
  | swap a b l =>
    simp only [List.mapM_cons]
    cases f a <;> cases f b <;> cases l.mapM f <;>
      first | exact Or.inr ⟨rfl, rfl⟩ | exact Or.inl ⟨_, _, rfl, rfl, .swap _ _ _⟩
  | trans _ _ ih1 ih2 =>
    rcases ih1 with ⟨m, m', h1, h2, h3⟩ | ⟨h1, h2⟩
    · rcases ih2 with ⟨n, n', g1, g2, g3⟩ | ⟨g1, g2⟩
      · rw [h2] at g1
        cases g1
        exact Or.inl ⟨m, n', h1, g2, h3.trans g3⟩
      · rw [h2] at g1; cases g1
    · rcases ih2 with ⟨n, n', g1, g2, g3⟩ | ⟨g1, g2⟩
      · rw [h2] at g1; cases g1
      · exact Or.inr ⟨h1, g2⟩

theorem lsqFit_perm (ps qs : List (K × K)) (h : ps.Perm qs) (n : Nat) : lsqFit ps n = lsqFit qs n := by
  unfold lsqFit
  rw [lsqVec_perm ps qs h, ((h.map Prod.fst).dedup).length_eq]

theorem finPoints_length (xs ys : List (PyFloat K)) (h : xs.length ≠ ys.length) : finPoints xs ys = none := by
  induction xs generalizing ys with
  | nil =>
    cases ys with
    | nil => exact absurd rfl h
    | cons y ys => rfl
  | cons x xs ih =>
    cases ys with
    | nil => cases x <;> rfl
    | cons y ys =>
      have := ih ys (by simpa using h)
      cases x <;> cases y <;> try rfl
      simp [finPoints, this]

/-- Least squares meets the contract of C162. -/
theorem lsqKern_orderFree (root : K → K) (spl : List K → List K → List (List Nat) → PyRes (K → K → K)) :
    Spec.OrderFree (lsqKern root spl) := by
  intro xs ys p v p' v' n hp hp' hperm
  have hl : p.length = p'.length := by
    have := hperm.length_eq
    simp only [List.length_zip, hp, hp', min_self] at this
    omega
  unfold lsqKern
  dsimp only
  by_cases hxy : xs.length = ys.length
  · rw [finPoints_zip _ _ (by simp; omega), finPoints_zip _ _ (by simp; omega), List.zip_append hxy,
      List.zip_append hxy]
    rcases mapM_perm (fun p : PyFloat K × PyFloat K => match p with
      | (.fin x, .fin y) => some (x, y)
      | _ => none) (hperm.append_left (xs.zip ys)) with ⟨m, m', h1, h2, h3⟩ | ⟨h1, h2⟩
    · rw [h1, h2]
      dsimp only
      rw [lsqFit_perm m m' h3]
    · rw [h1, h2]
  · rw [finPoints_length _ _ (by simp; omega), finPoints_length _ _ (by simp; omega)]

theorem finPoints_fin (xs ys : List K) (h : xs.length = ys.length) :
    finPoints (xs.map .fin) (ys.map .fin) = some (xs.zip ys) := by
  induction xs generalizing ys with
  | nil =>
    cases ys with
    | nil => rfl
    | cons y ys => simp at h
  | cons x xs ih =>
    cases ys with
    | nil => simp at h
    | cons y ys => simp [finPoints, ih ys (by simpa using h)]

/-- Least squares meets the contract of C156: it finds every polynomial from points on it. -/
theorem lsqKern_findsExact (root : K → K) (spl : List K → List K → List (List Nat) → PyRes (K → K → K))
    (h0 : root 0 = 0) (t : List K) (deg : Nat) (ht : t.length = deg + 1) :
    Spec.FindsExact (lsqKern root spl) t deg := by
  have key : ∀ xs : List K, deg < xs.dedup.length →
      lsqFit (xs.zip (xs.map (fun x => t.foldr (fun a b => a + x * b) 0))) deg = some t := by
    intro xs hn
    obtain ⟨v, rfl⟩ : ∃ v : Fin (deg + 1) → K, t = List.ofFn v :=
      ⟨fun i => t[i]'(by omega), by
        apply List.ext_getElem
        · simp [ht]
        · intro i h1 h2
          rw [List.getElem_ofFn]
          rfl⟩
    have hz : xs.zip (xs.map (fun x => (List.ofFn v).foldr (fun a b => a + x * b) 0)) =
        xs.map (fun x => (x, polyAt v x)) := by
      simp only [foldr_ofFn]
      clear hn
      induction xs with
      | nil => rfl
      | cons x xs ih =>
        simp only [List.map_cons, List.zip_cons_cons, ih]
        rfl
    rw [hz]
    unfold lsqFit
    rw [lsqVec_exact xs deg hn, List.map_map, if_pos]
    · show deg < (List.map id xs).dedup.length
      rw [List.map_id]
      exact hn
  refine ⟨?_, ?_, h0⟩
  · intro xs hn
    unfold lsqKern
    dsimp only
    rw [show (xs.map (fun p => PyFloat.fin (t.foldr (fun a b => a + p * b) 0))) =
      (xs.map (fun p => t.foldr (fun a b => a + p * b) 0)).map .fin by rw [List.map_map]; rfl,
      finPoints_fin _ _ (by simp)]
    dsimp only
    rw [key xs hn]
  · intro xs hn
    unfold lsqKern
    dsimp only
    rw [show (xs.map (fun p => t.foldr (fun a b => a + p * b) 0)) = xs.map (fun p => t.foldr (fun a b => a + p * b) 0)
      from rfl, finPoints_fin _ _ (by simp)]
    dsimp only
    rw [key xs hn]

end

/-! ### Cases -/

/-- Real least squares of every degree, with the real square root and no density, moved by any amount. -/
example (t : ℝ) : AffineKernels (lsqKern Real.sqrt (fun _ _ _ => .ok (fun _ _ => 0))) 1 t :=
  lsqKern_affine _ _ 1 t (by simp) (fun _ _ _ => rfl)

/-- The same in another unit. -/
example (s : ℝ) (hs : 0 < s) : AffineKernels (lsqKern Real.sqrt (fun _ _ _ => .ok (fun _ _ => 0))) s 0 :=
  lsqKern_affine _ _ s 0 (by
    intro v
    rw [Real.sqrt_mul (sq_nonneg s), Real.sqrt_sq hs.le]) (fun _ _ _ => rfl)

/-- A cubic is found from any four different points on it. -/
example (a b c d : ℝ) : Spec.FindsExact (lsqKern Real.sqrt (fun _ _ _ => .ok (fun _ _ => 0))) [a, b, c, d] 3 :=
  lsqKern_findsExact _ _ Real.sqrt_zero _ 3 rfl

/-- Three points not on one line: the least squares line of (0, 0), (1, 1), (2, 5) has no larger error than the
line -1/2 + 5/2 x. -/
example : squares [((0 : ℚ), (0 : ℚ)), (1, 1), (2, 5)] (lsqVec [((0 : ℚ), (0 : ℚ)), (1, 1), (2, 5)] 1) ≤
    squares [((0 : ℚ), (0 : ℚ)), (1, 1), (2, 5)] (n := 1) ![-1 / 2, 5 / 2] :=
  lsqVec_optimal _ 1 (by decide +kernel) _

end Rascal
