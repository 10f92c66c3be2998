import Verif.Base.Py
import Mathlib.Order.Basic
import Mathlib.Data.List.Induction
import Mathlib.Data.Nat.Find
import Mathlib.Data.List.Sort

/-! Helper lemmas about the primitives of `Verif.Base.Py`. -/

namespace Rascal

variable {α β K : Type _}

theorem boolMask_nil (m : List Bool) : boolMask ([] : List α) m = [] := by simp [boolMask]

theorem boolMask_cons (a : α) (l : List α) (b : Bool) (m : List Bool) :
    boolMask (a :: l) (b :: m) = if b then a :: boolMask l m else boolMask l m := by
  cases b <;> simp [boolMask]

theorem boolMask_nil_right (l : List α) : boolMask l [] = [] := by simp [boolMask]

theorem boolMask_map_pred (l : List α) (p : α → Bool) : boolMask l (l.map p) = l.filter p := by
  induction l with
  | nil => rfl
  | cons a t ih => simp [boolMask_cons, List.filter_cons, ih]

theorem boolMask_map (l : List α) (f : α → β) (m : List Bool) :
    boolMask (l.map f) m = (boolMask l m).map f := by
  induction l generalizing m with
  | nil => simp [boolMask_nil]
  | cons a t ih =>
    cases m with
    | nil => simp [boolMask_nil_right]
    | cons b m => cases b <;> simp [boolMask_cons, ih]

theorem boolMask_sublist (l : List α) (m : List Bool) : (boolMask l m).Sublist l := by
  induction l generalizing m with
  | nil => simp [boolMask_nil]
  | cons a t ih =>
    cases m with
    | nil => simp [boolMask_nil_right]
    | cons b m =>
      cases b
      · simpa [boolMask_cons] using (ih m).cons a
      · simpa [boolMask_cons] using (ih m)

theorem boolMask_true (l : List α) : boolMask l (l.map (fun _ => true)) = l := by
  rw [boolMask_map_pred]; simp

theorem mem_boolMask (l : List α) (m : List Bool) (x : α) :
    x ∈ boolMask l m ↔ ∃ i : Nat, l[i]? = some x ∧ m[i]? = some true := by
  induction l generalizing m with
  | nil => simp [boolMask_nil]
  | cons a t ih =>
    cases m with
    | nil => simp [boolMask_nil_right]
    | cons b m =>
      constructor
      · intro h
        cases b
        · simp only [boolMask_cons] at h
          obtain ⟨i, h1, h2⟩ := (ih m).1 h
          exact ⟨i+1, by simpa using h1, by simpa using h2⟩
        · simp only [boolMask_cons, if_true, List.mem_cons] at h
          rcases h with h | h
          · exact ⟨0, by simp [h], by simp⟩
          · obtain ⟨i, h1, h2⟩ := (ih m).1 h
            exact ⟨i+1, by simpa using h1, by simpa using h2⟩
      · rintro ⟨i, h1, h2⟩
        cases i with
        | zero =>
          simp at h1 h2; subst h1; subst h2; simp [boolMask_cons]
        | succ i =>
          have := (ih m).2 ⟨i, by simpa using h1, by simpa using h2⟩
          cases b <;> simp [boolMask_cons, this]

theorem takeIdx_map (l : List α) (f : α → β) (idx : List Nat) :
    takeIdx (l.map f) idx = (takeIdx l idx).map f := by
  simp only [takeIdx, List.map_filterMap]
  congr 1; funext i; simp

theorem mem_takeIdx (l : List α) (idx : List Nat) (x : α) :
    x ∈ takeIdx l idx ↔ ∃ i ∈ idx, l[i]? = some x := by
  simp [takeIdx, List.mem_filterMap]

theorem takeIdx_append (l : List α) (i j : List Nat) :
    takeIdx l (i ++ j) = takeIdx l i ++ takeIdx l j := by simp [takeIdx]

theorem takeIdx_reverse (l : List α) (i : List Nat) :
    takeIdx l i.reverse = (takeIdx l i).reverse := by simp [takeIdx, List.filterMap_reverse]

theorem takeIdx_range (l : List α) : takeIdx l (List.range l.length) = l := by
  induction l using List.reverseRecOn with
  | nil => rfl
  | append_singleton l a ih =>
    rw [List.length_append, List.length_singleton, List.range_succ, takeIdx_append]
    have h1 : takeIdx (l ++ [a]) (List.range l.length) = takeIdx l (List.range l.length) := by
      unfold takeIdx
      apply List.filterMap_congr
      intro i hi
      have : i < l.length := List.mem_range.1 hi
      simp [List.getElem?_append_left this]
    rw [h1, ih]
    simp [takeIdx]

theorem takeIdx_perm_range {l : List α} {idx : List Nat} (h : idx.Perm (List.range l.length)) :
    (takeIdx l idx).Perm l := by
  have : (takeIdx l idx).Perm (takeIdx l (List.range l.length)) := h.filterMap _
  rwa [takeIdx_range] at this

theorem takeIdx_length_of_lt {l : List α} {idx : List Nat} (h : ∀ i ∈ idx, i < l.length) :
    (takeIdx l idx).length = idx.length := by
  induction idx with
  | nil => rfl
  | cons i t ih =>
    have hi := h i (by simp)
    have := ih (fun j hj => h j (by simp [hj]))
    simp only [takeIdx, List.filterMap_cons, List.getElem?_eq_getElem hi, List.length_cons] at *
    omega

theorem takeIdx_take_of_lt {l : List α} {idx : List Nat} (h : ∀ i ∈ idx, i < l.length) (n : Nat) :
    takeIdx l (idx.take n) = (takeIdx l idx).take n := by
  induction idx generalizing n with
  | nil => simp [takeIdx]
  | cons i t ih =>
    cases n with
    | zero => simp [takeIdx]
    | succ n =>
      have hi := h i (by simp)
      have := ih (fun j hj => h j (by simp [hj])) n
      simp only [takeIdx, List.take_succ_cons, List.filterMap_cons, List.getElem?_eq_getElem hi] at *
      rw [this]

theorem getElem?_takeIdx_of_lt {l : List α} {idx : List Nat} (h : ∀ i ∈ idx, i < l.length) (k : Nat) :
    (takeIdx l idx)[k]? = idx[k]?.bind (fun i => l[i]?) := by
  induction idx generalizing k with
  | nil => simp [takeIdx]
  | cons i t ih =>
    have hi := h i (by simp)
    have ih' := ih (fun j hj => h j (by simp [hj]))
    cases k with
    | zero => simp [takeIdx, List.getElem?_eq_getElem hi]
    | succ k =>
      have := ih' k
      simp only [takeIdx, List.filterMap_cons, List.getElem?_eq_getElem hi,
        List.getElem?_cons_succ] at *
      exact this

section Unique
variable [LinearOrder K]

theorem mem_uniqIns {acc : List (K × Nat)} (hs : acc.Pairwise (fun a b => a.1 < b.1))
    (a x : K × Nat) :
    x ∈ uniqIns a acc ↔ x ∈ acc ∨ (x = a ∧ ∀ b ∈ acc, b.1 ≠ a.1) := by
  induction acc with
  | nil => simp [uniqIns]
  | cons b t ih =>
    rw [List.pairwise_cons] at hs
    have ih := ih hs.2
    unfold uniqIns
    split
    · rename_i h
      have : ∀ c ∈ b :: t, c.1 ≠ a.1 := by
        intro c hc
        rcases List.mem_cons.1 hc with rfl | hc
        · exact h.ne'
        · exact (h.trans (hs.1 c hc)).ne'
      simp only [List.mem_cons] at *
      tauto
    · split
      · rename_i h1 h2
        simp only [List.mem_cons, ih, forall_eq_or_imp]
        have := h2.ne
        tauto
      · rename_i h1 h2
        have : b.1 = a.1 := le_antisymm (not_lt.1 h1) (not_lt.1 h2)
        simp only [List.mem_cons, forall_eq_or_imp]
        tauto

theorem uniqIns_sorted {acc : List (K × Nat)} (hs : acc.Pairwise (fun a b => a.1 < b.1))
    (a : K × Nat) : (uniqIns a acc).Pairwise (fun a b => a.1 < b.1) := by
  induction acc with
  | nil => simp [uniqIns]
  | cons b t ih =>
    have hs' := hs
    rw [List.pairwise_cons] at hs
    unfold uniqIns
    split
    · rename_i h
      rw [List.pairwise_cons]
      refine ⟨?_, hs'⟩
      intro c hc
      rcases List.mem_cons.1 hc with rfl | hc
      · exact h
      · exact h.trans (hs.1 c hc)
    · split
      · rename_i h1 h2
        rw [List.pairwise_cons]
        refine ⟨?_, ih hs.2⟩
        intro c hc
        rcases (mem_uniqIns hs.2 a c).1 hc with hc | ⟨rfl, _⟩
        · exact hs.1 c hc
        · exact h2
      · exact hs'

/-- The accumulator of `npUniqueIndex` after the whole list. -/
theorem uniq_fold_spec (l : List K) :
    let acc := l.zipIdx.foldl (fun acc a => uniqIns a acc) ([] : List (K × Nat))
    acc.Pairwise (fun a b => a.1 < b.1) ∧
    ∀ k i, (k, i) ∈ acc ↔ l[i]? = some k ∧ ∀ j < i, l[j]? ≠ some k := by
  induction l using List.reverseRecOn with
  | nil => simp
  | append_singleton l a ih =>
    obtain ⟨hs, hm⟩ := ih
    simp only [List.zipIdx_append, List.foldl_append, List.zipIdx_singleton, List.foldl_cons,
      List.foldl_nil, Nat.zero_add]
    refine ⟨uniqIns_sorted hs _, ?_⟩
    intro k i
    rw [mem_uniqIns hs, hm]
    constructor
    · rintro (⟨h1, h2⟩ | ⟨h1, h2⟩)
      · have hi : i < l.length := (List.getElem?_eq_some_iff.1 h1).1
        refine ⟨by rwa [List.getElem?_append_left hi], ?_⟩
        intro j hj
        rw [List.getElem?_append_left (by omega)]
        exact h2 j hj
      · simp only [Prod.mk.injEq] at h1
        obtain ⟨rfl, rfl⟩ := h1
        refine ⟨by simp, ?_⟩
        intro j hj hc
        rw [List.getElem?_append_left hj] at hc
        -- the first occurrence of `k` in `l` is in the accumulator
        have hex : ∃ j, l[j]? = some k := ⟨j, hc⟩
        classical
        let j0 := Nat.find hex
        have := (hm k j0).2 ⟨Nat.find_spec hex, fun j' hj' => Nat.find_min hex hj'⟩
        exact h2 _ this rfl
    · rintro ⟨h1, h2⟩
      by_cases hi : i < l.length
      · left
        rw [List.getElem?_append_left hi] at h1
        refine ⟨h1, fun j hj => ?_⟩
        have := h2 j hj
        rwa [List.getElem?_append_left (by omega)] at this
      · right
        have : i < (l ++ [a]).length := (List.getElem?_eq_some_iff.1 h1).1
        have hil : i = l.length := by simp at this; omega
        subst hil
        simp at h1
        subst h1
        refine ⟨rfl, ?_⟩
        rintro ⟨k', j⟩ hb heq
        simp only at heq
        subst heq
        have := ((hm _ _).1 hb).1
        have hj : j < l.length := (List.getElem?_eq_some_iff.1 this).1
        have h3 := h2 j hj
        rw [List.getElem?_append_left hj] at h3
        exact h3 this

theorem mem_npUniqueIndex (l : List K) (i : Nat) :
    i ∈ npUniqueIndex l ↔ ∃ k, l[i]? = some k ∧ ∀ j < i, l[j]? ≠ some k := by
  unfold npUniqueIndex
  have h := (uniq_fold_spec l).2
  simp only [List.mem_map, Prod.exists, exists_eq_right]
  exact exists_congr (fun k => h k i)

theorem npUniqueIndex_lt (l : List K) : ∀ i ∈ npUniqueIndex l, i < l.length := by
  intro i hi
  obtain ⟨k, h, _⟩ := (mem_npUniqueIndex l i).1 hi
  exact (List.getElem?_eq_some_iff.1 h).1

theorem takeIdx_npUniqueIndex (l : List K) :
    takeIdx l (npUniqueIndex l) =
      (l.zipIdx.foldl (fun acc a => uniqIns a acc) ([] : List (K × Nat))).map Prod.fst := by
  unfold npUniqueIndex takeIdx
  rw [List.filterMap_map]
  have h := (uniq_fold_spec l).2
  rw [← List.filterMap_eq_map]
  apply List.filterMap_congr
  rintro ⟨k, i⟩ hk
  exact ((h k i).1 hk).1

theorem npUnique_sorted (l : List K) : (npUnique l).Pairwise (· < ·) := by
  unfold npUnique
  rw [takeIdx_npUniqueIndex, List.pairwise_map]
  exact (uniq_fold_spec l).1

theorem mem_npUnique (l : List K) (x : K) : x ∈ npUnique l ↔ x ∈ l := by
  unfold npUnique
  rw [mem_takeIdx]
  constructor
  · rintro ⟨i, _, h⟩
    exact List.mem_of_getElem? h
  · intro h
    have hex : ∃ j : Nat, l[j]? = some x := List.mem_iff_getElem?.1 h
    classical
    exact ⟨Nat.find hex, (mem_npUniqueIndex _ _).2 ⟨x, Nat.find_spec hex,
      fun j hj => Nat.find_min hex hj⟩, Nat.find_spec hex⟩

theorem npUnique_nodup (l : List K) : (npUnique l).Nodup :=
  (npUnique_sorted l).imp (fun h => ne_of_lt h)

/-- Rows selected by `np.unique(..., return_index=True)` on a key column. -/
theorem mem_takeIdx_unique (key : α → K) (l : List α) (r : α) :
    r ∈ takeIdx l (npUniqueIndex (l.map key)) ↔
      ∃ pre post, l = pre ++ r :: post ∧ ∀ q ∈ pre, key q ≠ key r := by
  rw [mem_takeIdx]
  constructor
  · rintro ⟨i, hi, hr⟩
    obtain ⟨k, hk, hmin⟩ := (mem_npUniqueIndex _ _).1 hi
    have hk' : key r = k := by
      rw [List.getElem?_map, hr] at hk
      simpa using hk
    obtain ⟨hlt, hget⟩ := List.getElem?_eq_some_iff.1 hr
    refine ⟨l.take i, l.drop (i+1), ?_, ?_⟩
    · rw [← hget, List.getElem_cons_drop, List.take_append_drop]
    · intro q hq heq
      obtain ⟨j, hj, hjq⟩ := List.mem_take_iff_getElem.1 hq
      have hj' : j < i := by omega
      apply hmin j hj'
      rw [List.getElem?_map, List.getElem?_eq_getElem (by omega), hjq]
      simp [heq, hk']
  · rintro ⟨pre, post, rfl, hpre⟩
    refine ⟨pre.length, (mem_npUniqueIndex _ _).2 ⟨key r, by simp, ?_⟩, by simp⟩
    intro j hj hc
    rw [List.getElem?_map, List.getElem?_append_left hj] at hc
    rw [List.getElem?_eq_getElem hj] at hc
    simp only [Option.map_some, Option.some.injEq] at hc
    exact hpre _ (List.getElem_mem hj) hc

theorem takeIdx_unique_sorted (key : α → K) (l : List α) :
    ((takeIdx l (npUniqueIndex (l.map key))).map key).Pairwise (· < ·) := by
  rw [← takeIdx_map]
  exact npUnique_sorted (l.map key)

end Unique

section Argsort
variable [LinearOrder K] {argsort : List K → List Nat}

theorem IsArgsort.perm (h : IsArgsort argsort) (l : List K) :
    (argsort l).Perm (List.range l.length) := (h l).1

theorem IsArgsort.sorted (h : IsArgsort argsort) (l : List K) :
    (takeIdx l (argsort l)).Pairwise (· ≤ ·) := (h l).2

theorem IsArgsort.lt (h : IsArgsort argsort) (l : List K) : ∀ i ∈ argsort l, i < l.length :=
  fun _ hi => List.mem_range.1 ((h.perm l).mem_iff.1 hi)

theorem IsArgsort.length (h : IsArgsort argsort) (l : List K) :
    (argsort l).length = l.length := by
  simpa using (h.perm l).length_eq

/-- A stable sort satisfies the contract, so the contract is not vacuous (src/rascal/util.py:400,
numpy `argsort(kind="stable")`). -/
def stableArgsort (l : List K) : List Nat :=
  (l.zipIdx.insertionSort (fun a b => a.1 ≤ b.1)).map Prod.snd

theorem stableArgsort_isArgsort : IsArgsort (stableArgsort (K := K)) := by
  intro l
  have hp : (l.zipIdx.insertionSort (fun a b => a.1 ≤ b.1)).Perm l.zipIdx :=
    List.perm_insertionSort _ _
  constructor
  · have := hp.map Prod.snd
    unfold stableArgsort
    refine this.trans ?_
    rw [List.zipIdx_map_snd]
    simp [List.range_eq_range']
  · have h1 : takeIdx l (stableArgsort l) =
        (l.zipIdx.insertionSort (fun a b => a.1 ≤ b.1)).map Prod.fst := by
      unfold stableArgsort takeIdx
      rw [List.filterMap_map, ← List.filterMap_eq_map]
      apply List.filterMap_congr
      rintro ⟨k, i⟩ hk
      have := hp.mem_iff.1 hk
      rw [List.mem_zipIdx_iff_getElem?] at this
      simpa using this
    rw [h1, List.pairwise_map]
    have : Std.Total (fun a b : K × Nat => a.1 ≤ b.1) := ⟨fun a b => le_total a.1 b.1⟩
    have : IsTrans (K × Nat) (fun a b => a.1 ≤ b.1) := ⟨fun a b c h1 h2 => h1.trans h2⟩
    exact List.pairwise_insertionSort _ _

end Argsort

end Rascal
