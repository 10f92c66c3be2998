import Verif.Model.Candidates
import Verif.Spec.Candidates
import Verif.Proofs.PyLemmas
import Verif.Proofs.HoughLemmas
import Mathlib.Tactic.Linarith
import Mathlib.Tactic.Ring
import Mathlib.Tactic.FieldSimp
import Mathlib.Tactic.LinearCombination
import Mathlib.Tactic.Positivity

/-! Lemmas on the candidate handling. -/

set_option linter.unusedSectionVars false

namespace Rascal

variable {K : Type _}

section
variable [Field K] [LinearOrder K] [IsStrictOrderedRing K]

theorem count_allPairs (peaks lines : List K) (p w : K) :
    (allPairs peaks lines).count (p, w) = peaks.count p * lines.count w := by
  unfold allPairs
  induction peaks with
  | nil => simp
  | cons a t ih =>
    rw [List.flatMap_cons, List.count_append, ih, List.count_cons]
    have h : (lines.map (fun v => (a, v))).count (p, w) = if a = p then lines.count w else 0 := by
      clear ih
      induction lines with
      | nil => simp
      | cons b l ihl =>
        rw [List.map_cons, List.count_cons, ihl, List.count_cons]
        by_cases h1 : a = p <;> by_cases h2 : b = w <;> simp [h1, h2]
    rw [h]
    by_cases h1 : a = p
    · simp [h1]; ring
    · simp [h1]

/-- Inside the trapezoid is inside the convex hull of the corners. -/
theorem inside_iff_hull (g : Polygon K) (hP : g.lastPix ≠ 0) (pt : K × K) :
    g.inside pt = true ↔
      Spec.InHull (0, g.hi0) (0, g.lo0) (g.lastPix, g.loP) (g.lastPix, g.hiP) pt := by
  obtain ⟨x, y⟩ := pt
  unfold Polygon.inside Spec.InHull
  simp only [Bool.and_eq_true, decide_eq_true_eq]
  generalize ht : x / g.lastPix = t
  have hx : x = t * g.lastPix := by rw [← ht]; field_simp
  -- a point between min and max of two numbers is a mean of them
  have mean : ∀ (m a b : K), min a b ≤ m → m ≤ max a b → ∃ s : K, 0 ≤ s ∧ s ≤ 1 ∧
      m = (1 - s) * a + s * b := by
    intro m a b h1 h2
    by_cases hab : a = b
    · subst hab
      rw [min_self] at h1; rw [max_self] at h2
      exact ⟨0, le_refl _, zero_le_one, by rw [le_antisymm h2 h1]; ring⟩
    · rcases lt_or_gt_of_ne hab with h | h
      · rw [min_eq_left h.le] at h1; rw [max_eq_right h.le] at h2
        refine ⟨(m - a) / (b - a), div_nonneg (by linarith) (by linarith), ?_, ?_⟩
        · rw [div_le_one (by linarith)]; linarith
        · have : b - a ≠ 0 := by linarith
          field_simp; ring
      · rw [min_eq_right h.le] at h1; rw [max_eq_left h.le] at h2
        refine ⟨(a - m) / (a - b), div_nonneg (by linarith) (by linarith), ?_, ?_⟩
        · rw [div_le_one (by linarith)]; linarith
        · have : a - b ≠ 0 := by linarith
          field_simp; ring
  constructor
  · rintro ⟨⟨⟨h0, h1⟩, hlo⟩, hhi⟩
    -- split the height proportionally
    set A := (1 - t) * min g.lo0 g.hi0 + t * min g.loP g.hiP with hA
    set B := (1 - t) * max g.lo0 g.hi0 + t * max g.loP g.hiP with hB
    have hu : ∃ u : K, 0 ≤ u ∧ u ≤ 1 ∧ y = (1 - u) * A + u * B :=
      mean y A B (by rw [min_eq_left (le_trans hlo hhi)]; exact hlo)
        (by rw [max_eq_right (le_trans hlo hhi)]; exact hhi)
    obtain ⟨u, hu0, hu1, hy⟩ := hu
    have hm : ∀ a b : K, min a b ≤ (1 - u) * min a b + u * max a b ∧
        (1 - u) * min a b + u * max a b ≤ max a b := by
      intro a b
      have hmm : min a b ≤ max a b := min_le_max
      constructor
      · have := mul_nonneg hu0 (sub_nonneg.2 hmm); linarith
      · have := mul_nonneg (sub_nonneg.2 hu1) (sub_nonneg.2 hmm); linarith
    obtain ⟨s0, hs0, hs1, he0⟩ := mean ((1 - u) * min g.lo0 g.hi0 + u * max g.lo0 g.hi0)
      g.hi0 g.lo0 (by rw [min_comm g.hi0]; exact (hm g.lo0 g.hi0).1) (by rw [max_comm g.hi0]; exact (hm g.lo0 g.hi0).2)
    obtain ⟨sP, hsP, hsP1, heP⟩ := mean _ g.loP g.hiP (hm g.loP g.hiP).1 (hm g.loP g.hiP).2
    refine ⟨(1 - t) * (1 - s0), (1 - t) * s0, t * (1 - sP), t * sP,
      mul_nonneg (by linarith) (by linarith), mul_nonneg (by linarith) hs0,
      mul_nonneg h0 (by linarith), mul_nonneg h0 hsP, by ring, ?_, ?_⟩
    · rw [hx]; ring
    · rw [hy, hA, hB]
      linear_combination (1 - t) * he0 + t * heP
  · rintro ⟨wa, wb, wc, wd, ha, hb, hc, hd, hsum, h1, h2⟩
    simp only [mul_zero, zero_add] at h1
    have htt : t = wc + wd := by
      have : t * g.lastPix = (wc + wd) * g.lastPix := by rw [← hx, h1]; ring
      exact mul_right_cancel₀ hP this
    have htt' : 1 - t = wa + wb := by rw [htt]; linear_combination -hsum
    rw [htt', htt, h2]
    have e1 := mul_le_mul_of_nonneg_left (min_le_right g.lo0 g.hi0) ha
    have e2 := mul_le_mul_of_nonneg_left (min_le_left g.lo0 g.hi0) hb
    have e3 := mul_le_mul_of_nonneg_left (min_le_left g.loP g.hiP) hc
    have e4 := mul_le_mul_of_nonneg_left (min_le_right g.loP g.hiP) hd
    have f1 := mul_le_mul_of_nonneg_left (le_max_right g.lo0 g.hi0) ha
    have f2 := mul_le_mul_of_nonneg_left (le_max_left g.lo0 g.hi0) hb
    have f3 := mul_le_mul_of_nonneg_left (le_max_left g.loP g.hiP) hc
    have f4 := mul_le_mul_of_nonneg_left (le_max_right g.loP g.hiP) hd
    refine ⟨⟨⟨by linarith, by linarith⟩, ?_⟩, ?_⟩
    · linarith
    · linarith

/-! ### argmin -/

theorem argminFrom_spec (l : List K) : ∀ (pre : List K) (m : K) (b : Nat),
    pre[b]? = some m → (∀ v ∈ pre, m ≤ v) → (∀ (j : Nat) (v : K), j < b → pre[j]? = some v → m < v) →
    ∃ m', (pre ++ l)[argminFrom m b pre.length l]? = some m' ∧ (∀ v ∈ pre ++ l, m' ≤ v) ∧
      ∀ (j : Nat) (v : K), j < argminFrom m b pre.length l → (pre ++ l)[j]? = some v → m' < v := by
  induction l with
  | nil =>
    intro pre m b h1 h2 h3
    exact ⟨m, by simpa [argminFrom] using h1, by simpa using h2, by simpa [argminFrom] using h3⟩
  | cons a t ih =>
    intro pre m b h1 h2 h3
    have e : pre ++ a :: t = (pre ++ [a]) ++ t := by simp
    have hl : (pre ++ [a]).length = pre.length + 1 := by simp
    have hb : b < pre.length := (List.getElem?_eq_some_iff.1 h1).1
    unfold argminFrom
    split_ifs with h
    · rw [e, ← hl]
      refine ih (pre ++ [a]) a pre.length (by simp) ?_ ?_
      · intro v hv
        rcases List.mem_append.1 hv with hv | hv
        · exact (lt_of_lt_of_le h (h2 v hv)).le
        · rw [List.mem_singleton.1 hv]
      · intro j v hj hv
        rw [List.getElem?_append_left hj] at hv
        exact lt_of_lt_of_le h (h2 v (List.mem_of_getElem? hv))
    · rw [e, ← hl]
      refine ih (pre ++ [a]) m b (by rw [List.getElem?_append_left hb]; exact h1) ?_ ?_
      · intro v hv
        rcases List.mem_append.1 hv with hv | hv
        · exact h2 v hv
        · rw [List.mem_singleton.1 hv]; exact not_lt.1 h
      · intro j v hj hv
        rw [List.getElem?_append_left (by omega)] at hv
        exact h3 j v hj hv

theorem argmin_spec {l : List K} {i : Nat} (h : argmin l = .ok i) :
    ∃ m, l[i]? = some m ∧ (∀ v ∈ l, m ≤ v) ∧
      ∀ (j : Nat) (v : K), j < i → l[j]? = some v → m < v := by
  cases l with
  | nil => simp [argmin] at h
  | cons a t =>
    have h := (Except.ok.inj h).symm
    subst h
    have := argminFrom_spec t [a] a 0 (by simp) (by simp) (by simp)
    simpa using this

theorem argmin_error {l : List K} {e : PyErr} (h : argmin l = .error e) :
    l = [] ∧ e = .valueError := by
  cases l with
  | nil => exact ⟨rfl, by simpa [argmin] using h.symm⟩
  | cons a t => simp [argmin] at h

/-! ### matching -/

theorem nearestCandidates_ok {f : K → K} {cand : K → Option (List K)} {peaks : List K}
    {t : List (K × K × K)} (h : nearestCandidates f cand peaks = .ok t) :
    t.map (fun e => e.2.1) = peaks ∧
    ∀ e ∈ t, Spec.Claims f cand e.2.1 e.2.2 ∧ e.1 = |f e.2.1 - e.2.2| := by
  induction peaks generalizing t with
  | nil =>
    have h := (Except.ok.inj h).symm
    subst h
    simp
  | cons p ps ih =>
    unfold nearestCandidates at h
    cases hc : cand p with
    | none => rw [hc] at h; simp at h
    | some ws =>
      rw [hc] at h
      dsimp only at h
      cases ha : argmin (ws.map (fun w => |f p - w|)) with
      | error e => rw [ha] at h; simp at h
      | ok i =>
        rw [ha] at h
        dsimp only at h
        cases hr : nearestCandidates f cand ps with
        | error e => rw [hr] at h; simp at h
        | ok r =>
          rw [hr] at h
          have h := (Except.ok.inj h).symm
          subst h
          obtain ⟨i1, i2⟩ := ih hr
          obtain ⟨m, hm, hmin, hfirst⟩ := argmin_spec ha
          rw [List.getElem?_map] at hm
          cases hw : ws[i]? with
          | none => rw [hw] at hm; simp at hm
          | some w =>
            rw [hw] at hm
            simp only [Option.map_some, Option.some.injEq] at hm
            have hg : ws.getD i 0 = w := by rw [List.getD_eq_getElem?_getD, hw]; rfl
            have hge : (ws.map (fun w => |f p - w|)).getD i 0 = |f p - w| := by
              rw [List.getD_eq_getElem?_getD, List.getElem?_map, hw]; rfl
            refine ⟨by simp [i1], ?_⟩
            intro e he
            rcases List.mem_cons.1 he with rfl | he
            · dsimp only
              rw [hg, hge]
              refine ⟨⟨ws, i, hc, hw, ?_, ?_⟩, rfl⟩
              · intro v hv
                rw [hm]
                exact hmin _ (List.mem_map_of_mem hv)
              · intro j v hj hv
                rw [hm]
                exact hfirst j _ hj (by rw [List.getElem?_map, hv]; rfl)
            · exact i2 e he

theorem nearestCandidates_error {f : K → K} {cand : K → Option (List K)} {peaks : List K}
    {e : PyErr} (h : nearestCandidates f cand peaks = .error e) :
    (e = .keyError ∧ ∃ p ∈ peaks, cand p = none) ∨ (e = .valueError ∧ ∃ p ∈ peaks, cand p = some []) := by
  induction peaks with
  | nil => simp [nearestCandidates] at h
  | cons p ps ih =>
    unfold nearestCandidates at h
    cases hc : cand p with
    | none =>
      rw [hc] at h
      left
      exact ⟨by simpa using h.symm, p, by simp, hc⟩
    | some ws =>
      rw [hc] at h
      dsimp only at h
      cases ha : argmin (ws.map (fun w => |f p - w|)) with
      | error e' =>
        rw [ha] at h
        obtain ⟨h1, h2⟩ := argmin_error ha
        right
        refine ⟨?_, p, by simp, ?_⟩
        · have : e' = e := by simpa using h
          rw [← this, h2]
        · rw [hc, List.map_eq_nil_iff.1 h1]
      | ok i =>
        rw [ha] at h
        dsimp only at h
        cases hr : nearestCandidates f cand ps with
        | error e' =>
          rw [hr] at h
          have : e' = e := by simpa using h
          subst this
          rcases ih hr with ⟨h1, q, hq, h2⟩ | ⟨h1, q, hq, h2⟩
          · exact Or.inl ⟨h1, q, by simp [hq], h2⟩
          · exact Or.inr ⟨h1, q, by simp [hq], h2⟩
        | ok r => rw [hr] at h; simp at h

theorem claims_unique {f : K → K} {cand : K → Option (List K)} {q w v : K}
    (h1 : Spec.Claims f cand q w) (h2 : Spec.Claims f cand q v) : w = v := by
  obtain ⟨ws, i, c1, a1, a2, a3⟩ := h1
  obtain ⟨ws', j, c2, b1, b2, b3⟩ := h2
  rw [c1] at c2
  have := Option.some.inj c2
  subst this
  rcases lt_trichotomy i j with h | h | h
  · exact absurd (b3 i w h a1) (not_lt.2 (a2 v (List.mem_of_getElem? b1)))
  · subst h
    rw [a1] at b1
    exact Option.some.inj b1
  · exact absurd (a3 j v h b1) (not_lt.2 (b2 w (List.mem_of_getElem? a1)))

theorem resolveWavelength_ok {t : List (K × K × K)} {w : K} {a : K × K × K}
    (h : resolveWavelength t w = .ok a) : a ∈ t ∧ a.2.2 = w ∧ ∀ e ∈ t, e.2.2 = w → a.1 ≤ e.1 := by
  unfold resolveWavelength at h
  rw [boolMask_map_pred] at h
  dsimp only at h
  generalize hm : t.filter (fun e => decide (e.2.2 = w)) = m at h
  cases ha : argmin (m.map (fun e => e.1)) with
  | error e => rw [ha] at h; simp at h
  | ok i =>
    rw [ha] at h
    have h := (Except.ok.inj h).symm
    subst h
    obtain ⟨v, hv, hmin, _⟩ := argmin_spec ha
    rw [List.getElem?_map] at hv
    cases hi : m[i]? with
    | none => rw [hi] at hv; simp at hv
    | some x =>
      have hx : x ∈ m := List.mem_of_getElem? hi
      have hx' := hx
      rw [← hm, List.mem_filter] at hx'
      have hw : x.2.2 = w := by simpa using hx'.2
      have e1 : (m.map (fun e => e.1)).getD i 0 = x.1 := by
        rw [List.getD_eq_getElem?_getD, List.getElem?_map, hi]; rfl
      have e2 : (m.map (fun e => e.2.1)).getD i 0 = x.2.1 := by
        rw [List.getD_eq_getElem?_getD, List.getElem?_map, hi]; rfl
      rw [e1, e2]
      refine ⟨?_, rfl, ?_⟩
      · have : (x.1, x.2.1, w) = x := by rw [← hw]
        rw [this]; exact hx'.1
      · intro e he hew
        rw [hi] at hv
        simp only [Option.map_some, Option.some.injEq] at hv
        dsimp only
        rw [hv]
        apply hmin
        apply List.mem_map_of_mem
        rw [← hm, List.mem_filter]
        exact ⟨he, by simpa using hew⟩

theorem resolveWavelength_error {t : List (K × K × K)} {w : K} {e : PyErr}
    (h : resolveWavelength t w = .error e) : w ∉ t.map (fun e => e.2.2) := by
  unfold resolveWavelength at h
  rw [boolMask_map_pred] at h
  dsimp only at h
  generalize hm : t.filter (fun e => decide (e.2.2 = w)) = m at h
  cases ha : argmin (m.map (fun e => e.1)) with
  | ok i => rw [ha] at h; simp at h
  | error e' =>
    have h1 := List.map_eq_nil_iff.1 (argmin_error ha).1
    intro hw
    obtain ⟨x, hx, hxw⟩ := List.mem_map.1 hw
    have : x ∈ t.filter (fun e => decide (e.2.2 = w)) := by
      rw [List.mem_filter]; exact ⟨hx, by simpa using hxw⟩
    rw [hm, h1] at this
    simp at this

theorem resolveAll_ok {t : List (K × K × K)} {ws : List K} {r : List (K × K × K)}
    (h : resolveAll t ws = .ok r) : r.map (fun e => e.2.2) = ws ∧
      ∀ a ∈ r, a ∈ t ∧ ∀ e ∈ t, e.2.2 = a.2.2 → a.1 ≤ e.1 := by
  induction ws generalizing r with
  | nil =>
    have h := (Except.ok.inj h).symm
    subst h
    simp
  | cons w ws ih =>
    unfold resolveAll at h
    cases hw : resolveWavelength t w with
    | error e => rw [hw] at h; simp at h
    | ok a =>
      rw [hw] at h
      dsimp only at h
      cases hr : resolveAll t ws with
      | error e => rw [hr] at h; simp at h
      | ok r' =>
        rw [hr] at h
        have h := (Except.ok.inj h).symm
        subst h
        obtain ⟨i1, i2⟩ := ih hr
        obtain ⟨a1, a2, a3⟩ := resolveWavelength_ok hw
        refine ⟨by simp [i1, a2], ?_⟩
        intro b hb
        rcases List.mem_cons.1 hb with rfl | hb
        · exact ⟨a1, fun e he hew => a3 e he (hew.trans a2)⟩
        · exact i2 b hb

theorem resolveAll_error {t : List (K × K × K)} {ws : List K} {e : PyErr}
    (h : resolveAll t ws = .error e) : ∃ w ∈ ws, w ∉ t.map (fun e => e.2.2) := by
  induction ws with
  | nil => simp [resolveAll] at h
  | cons w ws ih =>
    unfold resolveAll at h
    cases hw : resolveWavelength t w with
    | error e' => exact ⟨w, by simp, resolveWavelength_error hw⟩
    | ok a =>
      rw [hw] at h
      dsimp only at h
      cases hr : resolveAll t ws with
      | error e' =>
        rw [hr] at h
        have : e' = e := by simpa using h
        subst this
        obtain ⟨v, hv, hv'⟩ := ih hr
        exact ⟨v, by simp [hv], hv'⟩
      | ok r' => rw [hr] at h; simp at h

theorem npUnique_length_of_nodup (l : List K) (h : l.Nodup) : (npUnique l).length = l.length := by
  have : (npUnique l).Perm l :=
    (List.perm_ext_iff_of_nodup (npUnique_nodup l) h).2 (fun x => mem_npUnique l x)
  exact this.length_eq

/-- Everything about `_match_bijective` at once. -/
theorem matchBijective_spec (f : K → K) (cand : K → Option (List K)) (peaks : List K) :
    (∃ r, matchBijective f cand peaks = .ok r ∧
      (r.map (fun e => e.2.1)).Nodup ∧ (r.map (fun e => e.2.2)).Nodup ∧
      (∀ e ∈ r, e.2.1 ∈ peaks ∧ Spec.Claims f cand e.2.1 e.2.2 ∧ e.1 = |f e.2.1 - e.2.2| ∧
        ∀ q ∈ peaks, Spec.Claims f cand q e.2.2 → e.1 ≤ |f q - e.2.2|) ∧
      (∀ q ∈ peaks, ∀ w, Spec.Claims f cand q w → w ∈ r.map (fun e => e.2.2)) ∧
      (∀ q ∈ peaks, ∃ w, Spec.Claims f cand q w)) ∨
    (matchBijective f cand peaks = .error .keyError ∧ ∃ p ∈ peaks, cand p = none) ∨
    (matchBijective f cand peaks = .error .valueError ∧ ∃ p ∈ peaks, cand p = some []) := by
  unfold matchBijective
  cases hn : nearestCandidates f cand peaks with
  | error e =>
    right
    rcases nearestCandidates_error hn with ⟨rfl, h⟩ | ⟨rfl, h⟩
    · exact Or.inl ⟨rfl, h⟩
    · exact Or.inr ⟨rfl, h⟩
  | ok t =>
    left
    obtain ⟨n1, n2⟩ := nearestCandidates_ok hn
    dsimp only
    cases hr : resolveAll t (npUnique (t.map (fun e => e.2.2))) with
    | error e =>
      exfalso
      obtain ⟨w, hw, hw'⟩ := resolveAll_error hr
      exact hw' ((mem_npUnique _ _).1 hw)
    | ok r =>
      obtain ⟨r1, r2⟩ := resolveAll_ok hr
      have hnod : (r.map (fun e => e.2.2)).Nodup := by rw [r1]; exact npUnique_nodup _
      have hclaim : ∀ e ∈ r, Spec.Claims f cand e.2.1 e.2.2 := fun e he => (n2 e (r2 e he).1).1
      have hnod' : (r.map (fun e => e.2.1)).Nodup := by
        rw [List.Nodup, List.pairwise_map] at hnod ⊢
        refine List.Pairwise.imp_of_mem ?_ hnod
        intro a b ha hb hne heq
        apply hne
        have hb' := hclaim b hb
        rw [← heq] at hb'
        exact claims_unique (hclaim a ha) hb'
      have hlen : (npUnique (r.map (fun e => e.2.1))).length =
          (npUnique (r.map (fun e => e.2.2))).length := by
        rw [npUnique_length_of_nodup _ hnod, npUnique_length_of_nodup _ hnod']
        simp
      simp only [hlen, if_true]
      have hpk : ∀ q ∈ peaks, ∃ e ∈ t, e.2.1 = q := by
        intro q hq
        rw [← n1] at hq
        exact List.mem_map.1 hq
      refine ⟨r, rfl, hnod', hnod, ?_, ?_, ?_⟩
      · intro e he
        have het := (r2 e he).1
        refine ⟨?_, (n2 e het).1, (n2 e het).2, ?_⟩
        · rw [← n1]; exact List.mem_map_of_mem het
        · intro q hq hcl
          obtain ⟨e', he', rfl⟩ := hpk q hq
          have hw := claims_unique (n2 e' he').1 hcl
          rw [← hw, ← (n2 e' he').2]
          exact (r2 e he).2 e' he' hw
      · intro q hq w hcl
        obtain ⟨e', he', rfl⟩ := hpk q hq
        have hw := claims_unique (n2 e' he').1 hcl
        rw [r1, mem_npUnique, ← hw]
        exact List.mem_map_of_mem he'
      · intro q hq
        obtain ⟨e', he', rfl⟩ := hpk q hq
        exact ⟨_, (n2 e' he').1⟩

end

end Rascal
