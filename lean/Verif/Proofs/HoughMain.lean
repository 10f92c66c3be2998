import Verif.Proofs.HoughLemmas
import Verif.Spec.Hough

/-! Main lemmas for the Hough transform properties. -/

set_option linter.unusedSectionVars false

namespace Rascal

variable {K α β : Type _}

theorem twoOf_map_perm (f : α → α → List β) (hf : ∀ a b, (f a b).Perm (f b a)) {l l' : List α}
    (h : l.Perm l') :
    ((Spec.twoOf l).flatMap (fun p => f p.1 p.2)).Perm
      ((Spec.twoOf l').flatMap (fun p => f p.1 p.2)) := by
  induction h with
  | nil => exact List.Perm.refl _
  | cons a h ih =>
    simp only [Spec.twoOf, List.flatMap_append]
    exact List.Perm.append ((h.map _).flatMap_right _) ih
  | swap a b t =>
    simp only [Spec.twoOf, List.flatMap_append, List.map_cons, List.flatMap_cons]
    have h1 := hf b a
    rw [List.append_assoc, List.append_assoc]
    refine List.Perm.append h1 ?_
    rw [← List.append_assoc, ← List.append_assoc]
    exact List.Perm.append_right _ List.perm_append_comm
  | trans _ _ ih1 ih2 => exact ih1.trans ih2

section
variable [Field K] [LinearOrder K]

theorem pairLines_eq (l : List (K × K)) :
    pairLines l = (Spec.twoOf l).flatMap (fun p => (lineThrough p.1 p.2).toList) := by
  induction l with
  | nil => rfl
  | cons p t ih =>
    rw [pairLines, ih, Spec.twoOf, List.flatMap_append]
    congr 1
    rw [List.flatMap_map]
    clear ih
    induction t with
    | nil => rfl
    | cons q t ih =>
      rw [List.filterMap_cons, List.flatMap_cons, ← ih]
      cases lineThrough p q <;> simp

theorem takeIdx_argsort_perm (argsort : List K → List Nat) (hs : IsArgsort argsort)
    (xy : List (K × K)) : (takeIdx xy (argsort (xy.map Prod.fst))).Perm xy := by
  have h := hs.perm (xy.map Prod.fst)
  rw [List.length_map] at h
  exact takeIdx_perm_range h

theorem houghGrid_eq (minS maxS minI maxI : K) (xy : List (K × K)) (n : Nat) :
    houghGrid minS maxS minI maxI xy n =
      (linspace minS maxS n).flatMap (fun s =>
        (xy.map (fun p => (s, p.2 - s * p.1))).filter
          (fun l => decide (minI ≤ l.2) && decide (l.2 ≤ maxI))) := by
  unfold houghGrid
  dsimp only
  generalize linspace minS maxS n = slopes
  induction slopes with
  | nil => simp [boolMask_nil]
  | cons s t ih =>
    simp only [List.map_cons, List.flatten_cons, List.map_append, List.flatMap_cons]
    rw [← ih]
    generalize (t.map (fun s => xy.map (fun p => p.2 - s * p.1))).flatten = I
    generalize (t.map (fun s => List.replicate xy.length s)).flatten = G
    clear ih
    induction xy with
    | nil => simp
    | cons p u ih =>
      simp only [List.length_cons, List.replicate_succ, List.map_cons, List.cons_append,
        boolMask_cons, List.filter_cons]
      by_cases h : (decide (minI ≤ p.2 - s * p.1) && decide (p.2 - s * p.1 ≤ maxI)) = true
      · simp only [h, if_true, List.zip_cons_cons, ih, List.cons_append]
      · simp only [h, if_false, ih, Bool.false_eq_true]

end

end Rascal
