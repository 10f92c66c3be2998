import Verif.Proofs.HoughMain

/-!
Property theorems C24-C31: the Hough transform object.
-/

set_option linter.unusedSectionVars false

namespace Rascal

variable {K : Type _}

/-- `h` has the constraints `a ≤ slope ≤ b`, `c ≤ intercept ≤ d` set. -/
def Hough.Constrained (h : Hough K) (a b c d : K) : Prop :=
  h.minSlope = some a ∧ h.maxSlope = some b ∧ h.minIntercept = some c ∧ h.maxIntercept = some d

section Gen
variable [Field K] [LinearOrder K] [IsStrictOrderedRing K]

/-! ### C24 -/

/-- C24.  The Hough points are, slope by slope and data point by data point, exactly the
`(slope, y - slope * x)` whose intercept is in the (inclusive) range; nothing else in the object
changes. -/
theorem C24_points (h : Hough K) (a b c d : K) (hc : h.Constrained a b c d) (xy : List (K × K))
    (n : Nat) (hn : 0 < n) (hxy : xy ≠ []) :
    ∃ slopes : List K, slopes.length = n ∧
      (∀ i : Nat, i < n → slopes[i]? = some (a + (i : K) * ((b - a) / ((n : K) - 1)))) ∧
      h.generate xy n = ({ h with points := some (.array (slopes.flatMap fun s =>
          xy.filterMap fun p => if c ≤ p.2 - s * p.1 ∧ p.2 - s * p.1 ≤ d
            then some (s, p.2 - s * p.1) else none)) }, .ok ()) := by
  obtain ⟨h1, h2, h3, h4⟩ := hc
  refine ⟨linspace a b n, linspace_length _ _ _, fun i hi => linspace_getElem? a b n i hi, ?_⟩
  unfold Hough.generate
  simp only [h1, h2, h3, h4]
  rw [if_neg (by rintro (h | h); exacts [hn.ne' h, hxy h]), houghGrid_eq]
  congr 6
  funext s
  rw [List.filter_map, ← List.filterMap_eq_map, List.filterMap_filter]
  apply List.filterMap_congr
  intro p _
  simp only [Function.comp, Bool.and_eq_true, decide_eq_true_eq]

/-- The hypotheses of `C24_points` met: two data points, two slopes. -/
example := C24_points (⟨none, none, none, none, none, some 1, some 2, some 0, some 4⟩ : Hough ℚ) 1 2 0 4
  ⟨rfl, rfl, rfl, rfl⟩ [(1, 5), (3, 6)] 2 (by decide) (by decide)

/-- C24, failures: without constraints, without data or with an empty grid the call raises and
changes nothing. -/
theorem C24_points_failure (h : Hough K) (xy : List (K × K)) (n : Nat) :
    (∃ a b c d, h.Constrained a b c d ∧ 0 < n ∧ xy ≠ []) ∨
      ∃ e, h.generate xy n = (h, .error e) := by
  unfold Hough.generate Hough.Constrained
  split
  · rename_i a b c d h1 h2 h3 h4
    split
    · exact Or.inr ⟨_, rfl⟩
    · rename_i hh
      push Not at hh
      exact Or.inl ⟨a, b, c, d, ⟨h1, h2, h3, h4⟩, Nat.pos_of_ne_zero hh.1, hh.2⟩
  · exact Or.inr ⟨_, rfl⟩

example : ((⟨none, none, none, none, none, some 1, some 2, some 0, some 4⟩ : Hough ℚ).generate
    [(1, 5), (3, 6)] 2).1.points = some (.array [(1, 4), (1, 3), (2, 3), (2, 0)]) := by
  decide +kernel

/-! ### C26 -/

/-- The lines through two data points with distinct abscissae, strictly inside the constraints. -/
def bruteSpec (a b c d : K) (xy : List (K × K)) : List (K × K) :=
  (Spec.twoOf xy).filterMap fun (p, q) =>
    let g := (p.2 - q.2) / (p.1 - q.1)
    let k := p.2 - g * p.1
    if p.1 ≠ q.1 ∧ a < g ∧ g < b ∧ c < k ∧ k < d then some (g, k) else none

theorem bruteLines_eq (argsort : List K → List Nat) (a b c d : K) (xy : List (K × K)) :
    bruteLines argsort a b c d xy =
      bruteSpec a b c d (takeIdx xy (argsort (xy.map Prod.fst))) := by
  unfold bruteLines bruteSpec
  dsimp only
  rw [pairLines_eq]
  generalize Spec.twoOf (takeIdx xy (argsort (xy.map Prod.fst))) = l
  induction l with
  | nil => rfl
  | cons pq t ih =>
    obtain ⟨p, q⟩ := pq
    rw [List.flatMap_cons, List.filter_append, ih, List.filterMap_cons]
    by_cases h : p.1 = q.1
    · simp [lineThrough, h]
    · have h2 : ¬ q.1 = p.1 := fun h' => h h'.symm
      rw [lineThrough_comm, lineThrough, if_neg h]
      simp only [Option.toList, List.filter_cons, List.filter_nil]
      by_cases hh : a < (p.2 - q.2) / (p.1 - q.1) ∧ (p.2 - q.2) / (p.1 - q.1) < b ∧
          c < p.2 - (p.2 - q.2) / (p.1 - q.1) * p.1 ∧ p.2 - (p.2 - q.2) / (p.1 - q.1) * p.1 < d
      · simp [h, hh]
      · have : ¬ ((((decide (a < (p.2 - q.2) / (p.1 - q.1)) &&
            decide ((p.2 - q.2) / (p.1 - q.1) < b)) &&
            decide (c < p.2 - (p.2 - q.2) / (p.1 - q.1) * p.1)) &&
            decide (p.2 - (p.2 - q.2) / (p.1 - q.1) * p.1 < d)) = true) := by
          simpa [and_assoc] using hh
        rw [if_neg this, if_neg (fun hc => hh hc.2)]
        simp

theorem bruteSpec_perm (a b c d : K) {l l' : List (K × K)} (h : l.Perm l') :
    (bruteSpec a b c d l).Perm (bruteSpec a b c d l') := by
  have key : ∀ l : List (K × K), bruteSpec a b c d l =
      (Spec.twoOf l).flatMap (fun pq => ((fun p q : K × K =>
        let g := (p.2 - q.2) / (p.1 - q.1)
        let k := p.2 - g * p.1
        if p.1 ≠ q.1 ∧ a < g ∧ g < b ∧ c < k ∧ k < d then [(g, k)] else []) pq.1 pq.2)) := by
    intro l
    unfold bruteSpec
    induction Spec.twoOf l with
    | nil => rfl
    | cons pq t ih =>
      rw [List.filterMap_cons, List.flatMap_cons, ← ih]
      dsimp only
      split <;> simp_all
  rw [key, key]
  refine twoOf_map_perm (fun p q : K × K =>
        let g := (p.2 - q.2) / (p.1 - q.1)
        let k := p.2 - g * p.1
        if p.1 ≠ q.1 ∧ a < g ∧ g < b ∧ c < k ∧ k < d then [(g, k)] else []) ?_ h
  intro p q
  apply List.Perm.of_eq
  by_cases hpq : p.1 = q.1
  · simp [hpq]
  · have hs := lineThrough_comm p q
    unfold lineThrough at hs
    rw [if_neg (fun h => hpq h.symm), if_neg hpq] at hs
    simp only [Option.some.injEq, Prod.mk.injEq] at hs
    obtain ⟨hs1, hs2⟩ := hs
    dsimp only
    rw [← hs2, ← hs1]
    simp [hpq, Ne.symm hpq]

/-- C26.  With at least two data points the brute-force points are, as a multiset, the lines through
each unordered pair of data points with distinct abscissae and strictly inside the constraints; the
multiset does not depend on the order of the data or on how ties are sorted. -/
theorem C26_brute_force (argsort : List K → List Nat) (hs : IsArgsort argsort) (h : Hough K)
    (a b c d : K) (hc : h.Constrained a b c d) (xy : List (K × K)) (hxy : 2 ≤ xy.length) :
    ∃ pts, h.generateBrute argsort xy = ({ h with points := some (.array pts) }, .ok ()) ∧
      pts.Perm (bruteSpec a b c d xy) ∧
      ∀ xy' : List (K × K), xy'.Perm xy → ∀ argsort', IsArgsort argsort' →
        ∃ pts', h.generateBrute argsort' xy' =
          ({ h with points := some (.array pts') }, .ok ()) ∧ pts'.Perm pts := by
  obtain ⟨h1, h2, h3, h4⟩ := hc
  have gen : ∀ argsort', IsArgsort argsort' → ∀ xy' : List (K × K), 2 ≤ xy'.length →
      h.generateBrute argsort' xy' =
        ({ h with points := some (.array (bruteLines argsort' a b c d xy')) }, .ok ()) := by
    intro argsort' _ xy' hl
    unfold Hough.generateBrute
    rw [if_neg (by omega)]
    simp only [h1, h2, h3, h4]
  have perm : ∀ argsort', IsArgsort argsort' → ∀ xy' : List (K × K),
      (bruteLines argsort' a b c d xy').Perm (bruteSpec a b c d xy') := by
    intro argsort' ha xy'
    rw [bruteLines_eq]
    exact bruteSpec_perm a b c d (takeIdx_argsort_perm argsort' ha xy')
  refine ⟨_, gen argsort hs xy hxy, perm argsort hs xy, ?_⟩
  intro xy' hp argsort' ha
  refine ⟨_, gen argsort' ha xy' (by rw [hp.length_eq]; exact hxy), ?_⟩
  exact ((perm argsort' ha xy').trans (bruteSpec_perm a b c d hp)).trans (perm argsort hs xy).symm

/-- The hypotheses of `C26_brute_force` met by three data points, two of them at the same pixel. -/
example := C26_brute_force stableArgsort stableArgsort_isArgsort
  (⟨none, none, none, none, none, some 0, some 10, some (-10), some 10⟩ : Hough ℚ) 0 10 (-10) 10
  ⟨rfl, rfl, rfl, rfl⟩ [(3, 7), (1, 3), (1, 4)] (by decide)

/-- C26, geometry: a line is produced only if it passes through two data points with distinct
abscissae and is strictly inside the constraints, and every such line is produced. -/
theorem C26_lines_through_points (argsort : List K → List Nat) (hs : IsArgsort argsort)
    (a b c d : K) (xy : List (K × K)) (l : K × K) :
    l ∈ bruteLines argsort a b c d xy ↔
      (a < l.1 ∧ l.1 < b ∧ c < l.2 ∧ l.2 < d) ∧
        ∃ p ∈ xy, ∃ q ∈ xy, p.1 ≠ q.1 ∧ Spec.OnLine l p ∧ Spec.OnLine l q := by
  have hm : l ∈ bruteLines argsort a b c d xy ↔ l ∈ bruteSpec a b c d xy := by
    rw [bruteLines_eq]
    exact (bruteSpec_perm a b c d (takeIdx_argsort_perm argsort hs xy)).mem_iff
  rw [hm]
  have two : ∀ p q : K × K, (p, q) ∈ Spec.twoOf xy → p ∈ xy ∧ q ∈ xy := by
    clear hm
    induction xy with
    | nil => simp [Spec.twoOf]
    | cons x t ih =>
      intro p q h
      rw [Spec.twoOf, List.mem_append, List.mem_map] at h
      rcases h with ⟨y, hy, he⟩ | h
      · cases he; simp [hy]
      · have := ih p q h; simp [this]
  have two' : ∀ p ∈ xy, ∀ q ∈ xy, p ≠ q → (p, q) ∈ Spec.twoOf xy ∨ (q, p) ∈ Spec.twoOf xy := by
    clear hm two
    induction xy with
    | nil => simp
    | cons x t ih =>
      intro p hp q hq hne
      simp only [Spec.twoOf, List.mem_append, List.mem_map]
      rcases List.mem_cons.1 hp with hpx | hp' <;> rcases List.mem_cons.1 hq with hqx | hq'
      · exact absurd (hpx.trans hqx.symm) hne
      · exact Or.inl (Or.inl ⟨q, hq', by rw [hpx]⟩)
      · exact Or.inr (Or.inl ⟨p, hp', by rw [hqx]⟩)
      · have hp := hp'
        have hq := hq'
        rcases ih p hp q hq hne with h | h
        · exact Or.inl (Or.inr h)
        · exact Or.inr (Or.inr h)
  have on : ∀ p q : K × K, p.1 ≠ q.1 → Spec.OnLine l p → Spec.OnLine l q →
      l = ((p.2 - q.2) / (p.1 - q.1), p.2 - (p.2 - q.2) / (p.1 - q.1) * p.1) := by
    intro p q hne hp hq
    unfold Spec.OnLine at hp hq
    have hd : p.1 - q.1 ≠ 0 := sub_ne_zero.2 hne
    have hg : l.1 = (p.2 - q.2) / (p.1 - q.1) := by
      rw [eq_div_iff hd, hp, hq]; ring
    ext
    · exact hg
    · show l.2 = _
      rw [← hg, hp]; ring
  unfold bruteSpec
  rw [List.mem_filterMap]
  constructor
  · rintro ⟨⟨p, q⟩, hmem, he⟩
    dsimp only at he
    split at he
    · rename_i hh
      have he := (Option.some.inj he)
      obtain ⟨hne, hrest⟩ := hh
      subst he
      refine ⟨hrest, p, (two p q hmem).1, q, (two p q hmem).2, hne, ?_, ?_⟩
      · unfold Spec.OnLine; ring
      · have hd : p.1 - q.1 ≠ 0 := sub_ne_zero.2 hne
        unfold Spec.OnLine
        have h3 : (p.2 - q.2) / (p.1 - q.1) * (p.1 - q.1) = p.2 - q.2 := div_mul_cancel₀ _ hd
        simp only
        linear_combination h3
    · exact absurd he (by simp)
  · rintro ⟨hr, p, hp, q, hq, hne, hlp, hlq⟩
    have hpq : p ≠ q := fun h => hne (by rw [h])
    rcases two' p hp q hq hpq with h | h
    · refine ⟨(p, q), h, ?_⟩
      have hl := on p q hne hlp hlq
      dsimp only
      rw [if_pos, ← hl]
      rw [hl] at hr
      exact ⟨hne, hr⟩
    · refine ⟨(q, p), h, ?_⟩
      have hl := on q p hne.symm hlq hlp
      dsimp only
      rw [if_pos, ← hl]
      rw [hl] at hr
      exact ⟨hne.symm, hr⟩

example : bruteLines stableArgsort 0 10 (-10) 10 [(3, 7), (1, 3), ((1 : ℚ), 4)] =
    [(2, 1), (3/2, 5/2)] := by decide +kernel

end Gen

/-! ### C25 -/

section Grid
variable [Field K] [LinearOrder K] [IsStrictOrderedRing K]

/-- C25.  The slopes tried are `n ≥ 2` equally spaced values from the minimum to the maximum slope,
both included, all inside the range, and every gradient of a Hough point is one of them. -/
theorem C25_slope_grid (h : Hough K) (a b c d : K) (hc : h.Constrained a b c d) (hab : a ≤ b)
    (xy : List (K × K)) (hxy : xy ≠ []) (n : Nat) (hn : 2 ≤ n) :
    ∃ slopes : List K, slopes.length = n ∧ slopes.head? = some a ∧ slopes.getLast? = some b ∧
      (∃ step, ∀ i : Nat, i + 1 < n → ∃ s t, slopes[i]? = some s ∧ slopes[i+1]? = some t ∧
        t - s = step) ∧
      (∀ s ∈ slopes, a ≤ s ∧ s ≤ b) ∧
      ∃ pts, (h.generate xy n).1.points = some (.array pts) ∧
        (∀ p ∈ pts, p.1 ∈ slopes) ∧
        ∀ s ∈ slopes, ∀ p ∈ xy, c ≤ p.2 - s * p.1 → p.2 - s * p.1 ≤ d →
          (s, p.2 - s * p.1) ∈ pts := by
  obtain ⟨slopes, hl, hg, he⟩ := C24_points h a b c d hc xy n (by omega) hxy
  have hpos : (0 : K) < (n : K) - 1 := cast_pred_pos n hn
  have hstep : 0 ≤ (b - a) / ((n : K) - 1) := div_nonneg (sub_nonneg.2 hab) hpos.le
  refine ⟨slopes, hl, ?_, ?_, ⟨(b - a) / ((n : K) - 1), ?_⟩, ?_, ?_⟩
  · rw [List.head?_eq_getElem?, hg 0 (by omega)]; simp
  · rw [List.getLast?_eq_getElem?, hl, hg (n - 1) (by omega), Nat.cast_sub (by omega)]
    rw [Nat.cast_one, mul_div_cancel₀ _ hpos.ne']
    simp
  · intro i hi
    refine ⟨_, _, hg i (by omega), hg (i+1) hi, ?_⟩
    push_cast; ring
  · intro s hs
    obtain ⟨i, hi⟩ := List.getElem?_of_mem hs
    have hin : i < n := by
      rw [← hl]
      exact (List.getElem?_eq_some_iff.1 hi).1
    rw [hg i hin] at hi
    have hi := Option.some.inj hi
    subst hi
    constructor
    · have : 0 ≤ (i : K) * ((b - a) / ((n : K) - 1)) := mul_nonneg (Nat.cast_nonneg _) hstep
      linarith
    · have h1 : (i : K) ≤ (n : K) - 1 := by
        have : ((i + 1 : ℕ) : K) ≤ n := by exact_mod_cast hin
        push_cast at this; linarith
      have h2 := mul_le_mul_of_nonneg_right h1 hstep
      rw [mul_div_cancel₀ _ hpos.ne'] at h2
      linarith
  · refine ⟨_, by rw [he], ?_, ?_⟩
    · intro p hp
      obtain ⟨s, hs, hp⟩ := List.mem_flatMap.1 hp
      obtain ⟨q, _, hq⟩ := List.mem_filterMap.1 hp
      split at hq
      · have hq := Option.some.inj hq
        subst hq; exact hs
      · exact absurd hq (by simp)
    · intro s hs p hp h1 h2
      refine List.mem_flatMap.2 ⟨s, hs, List.mem_filterMap.2 ⟨p, hp, ?_⟩⟩
      rw [if_pos ⟨h1, h2⟩]

example : linspace (0 : ℚ) 3 4 = [0, 1, 2, 3] := by decide +kernel

end Grid

/-! ### C27 -/

/-- The points an argument of `add_hough_points` supplies (`none`: not usable). -/
def HoughArg.supplies : HoughArg K → Option (List (K × K))
  | .array p => some p
  | .row p => some [p]
  | .hough (some (.array p)) => some p
  | .hough (some (.pyList p)) => if p = [] then none else some p
  | _ => none

/-- A history of extensions; the errors do not stop the user from going on. -/
def addAll (h : Hough K) (ops : List (HoughArg K)) : Hough K :=
  ops.foldl (fun h op => (h.add op).1) h

/-- C27, one step. -/
theorem C27_add (h : Hough K) (p : List (K × K)) (hp : h.points = some (.array p))
    (arg : HoughArg K) :
    (∀ q, arg.supplies = some q →
      h.add arg = ({ h with points := some (.array (p ++ q)) }, .ok ())) ∧
    (arg.supplies = none → ∃ e, h.add arg = (h, .error e)) := by
  constructor
  · intro q hq
    rcases arg with (_ | (_ | r | _)) | r | r | _ | _ <;>
      simp only [HoughArg.supplies, Option.some.injEq, reduceCtorEq] at hq
    · subst hq; simp [Hough.add, hp, vstackPoints]
    · split at hq
      · simp at hq
      · rename_i hr
        have hq := Option.some.inj hq
        subst hq
        simp [Hough.add, hp, vstackPoints, hr]
    · subst hq; simp [Hough.add, hp, vstackPoints]
    · subst hq; simp [Hough.add, hp, vstackPoints]
  · intro hq
    rcases arg with (_ | (_ | r | _)) | r | r | _ | _ <;>
      simp only [HoughArg.supplies, reduceCtorEq] at hq
    · exact ⟨.valueError, by simp [Hough.add, hp, vstackPoints]⟩
    · split at hq
      · rename_i hr
        exact ⟨.valueError, by simp [Hough.add, hp, vstackPoints, hr]⟩
      · simp at hq
    · exact ⟨.valueError, by simp [Hough.add, hp, vstackPoints]⟩
    · exact ⟨.valueError, by simp [Hough.add]⟩
    · exact ⟨.typeError, by simp [Hough.add]⟩

/-- The hypothesis of `C27_add` met by a transform with one point. -/
example := C27_add { (Hough.init : Hough ℤ) with points := some (.array [(1, 2)]) } [(1, 2)] rfl (.row (3, 4))

/-- C27.  Any history of extensions of an object holding an array yields the concatenation of the
supplied points in order; everything else is untouched. -/
theorem C27_history (h : Hough K) (p : List (K × K)) (hp : h.points = some (.array p))
    (ops : List (HoughArg K)) :
    addAll h ops =
      { h with points := some (.array (p ++ (ops.filterMap HoughArg.supplies).flatten)) } := by
  induction ops generalizing h p with
  | nil => simp [addAll, ← hp]
  | cons o t ih =>
    have hs := C27_add h p hp o
    unfold addAll at ih ⊢
    rw [List.foldl_cons, List.filterMap_cons]
    cases ho : o.supplies with
    | none =>
      obtain ⟨e, he⟩ := hs.2 ho
      rw [he]
      exact ih h p hp
    | some q =>
      rw [hs.1 q ho, ih _ (p ++ q) rfl]
      simp

/-- The hypothesis of `C27_history` met by a history with an unusable argument in between. -/
example := C27_history { (Hough.init : Hough ℤ) with points := some (.array [(1, 2)]) } [(1, 2)] rfl
  [.row (3, 4), .other, .hough (some (.array [(5, 6)]))]

/-- C27, any error leaves the object as it was, whatever it held. -/
theorem C27_error_unchanged (h : Hough K) (arg : HoughArg K) (e : PyErr)
    (he : (h.add arg).2 = .error e) : (h.add arg).1 = h := by
  unfold Hough.add at he ⊢
  cases arg <;> dsimp only at he ⊢ <;> split at he <;> simp_all

/-- A case for `C27_error_unchanged`: an argument of an unsupported type. -/
example : ((Hough.init : Hough ℤ).add .other) = (Hough.init, .error .typeError) := by decide

example : (addAll { (Hough.init : Hough ℤ) with points := some (.array [(1, 2)]) }
    [.row (3, 4), .other, .hough (some (.array [(5, 6)]))]).points =
    some (.array [(1, 2), (3, 4), (5, 6)]) := by decide

/-! ### C28 - C30 -/

section Bin
variable [Field K] [LinearOrder K] [IsStrictOrderedRing K]

theorem sampleRange_outer (s : List K) :
    Spec.SampleRange s (outerEdges s).1 (outerEdges s).2 := by
  refine ⟨outerEdges_lt s, fun x hx => mem_outerEdges s x hx, ?_⟩
  intro hne
  cases s with
  | nil => exact absurd rfl hne
  | cons a l =>
    unfold outerEdges
    dsimp only
    split
    · rename_i heq
      right
      refine ⟨listMin a l, ?_, rfl, by rw [heq]⟩
      intro x hx
      have h1 : listMin a l ≤ x := by
        rcases List.mem_cons.1 hx with rfl | h
        · exact (listMin_le _ _).1
        · exact (listMin_le _ _).2 x h
      have h2 : x ≤ listMax a l := by
        rcases List.mem_cons.1 hx with rfl | h
        · exact (le_listMax _ _).1
        · exact (le_listMax _ _).2 x h
      exact le_antisymm (by rw [heq]; exact h2) h1
    · left
      exact ⟨listMin_mem a l, listMax_mem a l⟩

theorem binNumber_inBin (s : List K) (n i : Nat) (hi : i < n) (x : K) :
    binNumber (binEdges s n) x = i + 1 ↔
      Spec.InBin (outerEdges s).1 (outerEdges s).2 n i x := by
  have hl := binEdges_length s n
  rw [binNumber_iff _ (binEdges_sorted s n) n hl x i hi]
  have e : ∀ j (hj : j ≤ n), (binEdges s n)[j]'(by omega) = (outerEdges s).1 + j * binWidth s n := by
    intro j hj
    rw [← binEdges_getD s n j hj]
    simp [List.getD, hl, Nat.lt_succ_of_le hj]
  have el : (binEdges s n)[n]'(by omega) = (outerEdges s).2 := by
    rw [← binEdges_last s n (by omega)]
    simp [List.getD, hl]
  rw [el, e i hi.le, e (i+1) hi]
  unfold Spec.InBin binWidth
  push_cast
  rfl

theorem binNumber_total (s : List K) (n : Nat) (hn : 0 < n) (x : K) (hx : x ∈ s) :
    ∃ i < n, binNumber (binEdges s n) x = i + 1 := by
  have hl := binEdges_length s n
  have hm := mem_outerEdges s x hx
  refine binNumber_exists _ (binEdges_sorted s n) n hn hl x ?_ ?_
  · have : (binEdges s n)[0]'(by omega) = (outerEdges s).1 := by
      have := binEdges_getD s n 0 (by omega)
      simp only [Nat.cast_zero, zero_mul, add_zero] at this
      rw [← this]; simp [List.getD, hl]
    rw [this]; exact hm.1
  · have : (binEdges s n)[n]'(by omega) = (outerEdges s).2 := by
      rw [← binEdges_last s n hn]
      simp [List.getD, hl]
    rw [this]; exact hm.2

/-- C28.  After a successful `bin_hough_points` the histogram is an `xbins × ybins` table; entry
`(i, j)` is the number of Hough points in bin `i` of the gradients' range and bin `j` of the
intercepts' range; the entries sum to the number of points; a point is in exactly one bin. -/
theorem C28_bin_counts (argsort : List Nat → List Nat) (h : Hough K) (pts : List (K × K))
    (hp : h.points = some (.array pts)) (xbins ybins : Nat) (hx : 0 < xbins) (hy : 0 < ybins) :
    ∃ hist xlo xhi ylo yhi, (h.bin argsort xbins ybins).2 = .ok () ∧
      (h.bin argsort xbins ybins).1.hist = some hist ∧
      (h.bin argsort xbins ybins).1.points = h.points ∧
      Spec.SampleRange (pts.map Prod.fst) xlo xhi ∧ Spec.SampleRange (pts.map Prod.snd) ylo yhi ∧
      hist.length = xbins ∧ (∀ row ∈ hist, row.length = ybins) ∧
      (∀ i < xbins, ∀ j < ybins, ∃ row c, hist[i]? = some row ∧ row[j]? = some c ∧
        ∀ [DecidablePred fun p : K × K =>
            Spec.InBin xlo xhi xbins i p.1 ∧ Spec.InBin ylo yhi ybins j p.2],
          c = pts.countP fun p =>
            decide (Spec.InBin xlo xhi xbins i p.1 ∧ Spec.InBin ylo yhi ybins j p.2)) ∧
      (hist.map List.sum).sum = pts.length ∧
      ∀ p ∈ pts, ∃! b : Nat × Nat, b.1 < xbins ∧ b.2 < ybins ∧
        Spec.InBin xlo xhi xbins b.1 p.1 ∧ Spec.InBin ylo yhi ybins b.2 p.2 := by
  have hb : h.bin argsort xbins ybins = ({ h with
      hist := some (histogram2d pts xbins ybins),
      xedges := some (binEdges (pts.map Prod.fst) xbins),
      yedges := some (binEdges (pts.map Prod.snd) ybins),
      lines := some (houghLines (binEdges (pts.map Prod.fst) xbins)
        (binEdges (pts.map Prod.snd) ybins)
        (histSortedArg argsort (histogram2d pts xbins ybins) ybins)) }, .ok ()) := by
    unfold Hough.bin
    simp only [hp]
    rw [if_neg (by omega)]
  have tot : ∀ p ∈ pts, (∃ i < xbins, binNumber (binEdges (pts.map Prod.fst) xbins) p.1 = i + 1) ∧
      ∃ j < ybins, binNumber (binEdges (pts.map Prod.snd) ybins) p.2 = j + 1 := fun p hpp =>
    ⟨binNumber_total _ _ hx _ (List.mem_map_of_mem hpp),
      binNumber_total _ _ hy _ (List.mem_map_of_mem hpp)⟩
  refine ⟨histogram2d pts xbins ybins, _, _, _, _, by rw [hb], by rw [hb], by rw [hb],
    sampleRange_outer _, sampleRange_outer _, by simp [histogram2d], ?_, ?_, ?_, ?_⟩
  · intro row hrow
    unfold histogram2d at hrow
    obtain ⟨i, _, rfl⟩ := List.mem_map.1 hrow
    simp
  · intro i hi j hj
    refine ⟨_, _, by simp only [histogram2d, List.getElem?_map, List.getElem?_range hi]; rfl,
      by simp only [List.getElem?_map, List.getElem?_range hj]; rfl, ?_⟩
    intro _
    apply List.countP_congr
    intro p _
    simp only [Bool.and_eq_true, beq_iff_eq, decide_eq_true_eq]
    rw [binNumber_inBin _ _ _ hi, binNumber_inBin _ _ _ hj]
  · rw [← sum_countP_labels pts (fun p => binNumber (binEdges (pts.map Prod.fst) xbins) p.1)
      (fun p => binNumber (binEdges (pts.map Prod.snd) ybins) p.2) xbins ybins tot]
    unfold histogram2d
    rw [List.map_map, ← sum_map_range]
    simp only [sum_map_range, Function.comp_def]
  · intro p hpp
    obtain ⟨⟨i, hi, hi'⟩, j, hj, hj'⟩ := tot p hpp
    refine ⟨(i, j), ⟨hi, hj, (binNumber_inBin _ _ _ hi _).1 hi', (binNumber_inBin _ _ _ hj _).1 hj'⟩,
      ?_⟩
    rintro ⟨i2, j2⟩ ⟨h1, h2, h3, h4⟩
    have a := (binNumber_inBin _ _ _ h1 _).2 h3
    have b := (binNumber_inBin _ _ _ h2 _).2 h4
    simp only at a b
    ext <;> simp only <;> omega

/-- The hypotheses of `C28_bin_counts` met by three points and four bins. -/
example := C28_bin_counts (K := ℚ) stableArgsort
  { (Hough.init : Hough ℚ) with points := some (.array [(0, 0), (3, 4), (4, 4)]) } [(0, 0), (3, 4), (4, 4)] rfl 2 2
  (by decide) (by decide)

/-- What a ranking of the bins of a histogram is: all bins, once each, by non-increasing count. -/
def IsRanking (hist : List (List Nat)) (xbins ybins : Nat) (args : List (Nat × Nat)) : Prop :=
  args.Nodup ∧ (∀ b : Nat × Nat, b ∈ args ↔ b.1 < xbins ∧ b.2 < ybins) ∧
  args.Pairwise fun b b' => (hist.getD b'.1 []).getD b'.2 0 ≤ (hist.getD b.1 []).getD b.2 0

theorem histSortedArg_ranking (argsort : List Nat → List Nat) (hs : IsArgsort argsort)
    (pts : List (K × K)) (xbins ybins : Nat) (hy : 0 < ybins) :
    IsRanking (histogram2d pts xbins ybins) xbins ybins
      (histSortedArg argsort (histogram2d pts xbins ybins) ybins) := by
  generalize hf : (fun i j => pts.countP (fun p =>
      binNumber (binEdges (pts.map Prod.fst) xbins) p.1 == i + 1 &&
      binNumber (binEdges (pts.map Prod.snd) ybins) p.2 == j + 1)) = f
  have hh : histogram2d pts xbins ybins =
      (List.range xbins).map (fun i => (List.range ybins).map (f i)) := by rw [← hf]; rfl
  have hflat : (histogram2d pts xbins ybins).flatten =
      (List.range (xbins * ybins)).map (fun k => f (k / ybins) (k % ybins)) := by
    rw [hh, flatten_table]
  have hlen : (histogram2d pts xbins ybins).flatten.length = xbins * ybins := by
    rw [hflat]; simp
  have hperm := hs.perm (histogram2d pts xbins ybins).flatten
  rw [hlen] at hperm
  have hget : ∀ i j, i < xbins → j < ybins →
      ((histogram2d pts xbins ybins).getD i []).getD j 0 = f i j := by
    intro i j hi hj
    rw [hh]
    simp [List.getD, hi, hj]
  have hkd : ∀ k, k < xbins * ybins → k / ybins < xbins := fun k hk =>
    Nat.div_lt_of_lt_mul (by rwa [Nat.mul_comm] at hk)
  unfold histSortedArg
  refine ⟨?_, ?_, ?_⟩
  · apply List.Nodup.map_on
    · intro k _ k' _ he
      simp only [Prod.mk.injEq] at he
      rw [← Nat.div_add_mod k ybins, ← Nat.div_add_mod k' ybins, he.1, he.2]
    · rw [List.nodup_reverse]
      exact hperm.nodup_iff.2 List.nodup_range
  · rintro ⟨i, j⟩
    rw [List.mem_map]
    constructor
    · rintro ⟨k, hk, he⟩
      have hk : k < xbins * ybins := by
        simpa using hperm.mem_iff.1 (List.mem_reverse.1 hk)
      simp only [Prod.mk.injEq] at he
      refine ⟨?_, ?_⟩
      · rw [← he.1]; exact hkd k hk
      · rw [← he.2]; exact Nat.mod_lt _ hy
    · rintro ⟨hi, hj⟩
      simp only at hi hj
      refine ⟨ybins * i + j, ?_, ?_⟩
      · rw [List.mem_reverse, hperm.mem_iff, List.mem_range]
        calc ybins * i + j < ybins * i + ybins := by omega
          _ = ybins * (i + 1) := by ring
          _ ≤ ybins * xbins := Nat.mul_le_mul_left _ hi
          _ = xbins * ybins := Nat.mul_comm _ _
      · rw [Nat.mul_add_div hy, Nat.div_eq_of_lt hj, Nat.mul_add_mod, Nat.mod_eq_of_lt hj]; simp
  · rw [List.pairwise_map, List.pairwise_reverse]
    have hsort := hs.sorted (histogram2d pts xbins ybins).flatten
    have hmem : ∀ k ∈ argsort (histogram2d pts xbins ybins).flatten, k < xbins * ybins :=
      fun k hk => List.mem_range.1 (hperm.mem_iff.1 hk)
    have htake : takeIdx (histogram2d pts xbins ybins).flatten
        (argsort (histogram2d pts xbins ybins).flatten) =
        (argsort (histogram2d pts xbins ybins).flatten).map (fun k => f (k / ybins) (k % ybins)) := by
      unfold takeIdx
      rw [← List.filterMap_eq_map]
      apply List.filterMap_congr
      intro k hk
      rw [hflat, List.getElem?_map, List.getElem?_range (hmem k hk)]
      rfl
    rw [htake, List.pairwise_map] at hsort
    refine List.Pairwise.imp_of_mem ?_ hsort
    intro k k' hk hk' hle
    rw [hget _ _ (hkd k (hmem k hk)) (Nat.mod_lt _ hy),
      hget _ _ (hkd k' (hmem k' hk')) (Nat.mod_lt _ hy)]
    exact hle

theorem centre_eq (s : List K) (n i : Nat) (hi : i < n) :
    (binEdges s n).getD i 0 + ((binEdges s n).getD 1 0 - (binEdges s n).getD 0 0) / 2 =
      Spec.binCentre (outerEdges s).1 (outerEdges s).2 n i := by
  rw [binEdges_getD s n i hi.le, binEdges_getD s n 1 (by omega), binEdges_getD s n 0 (by omega)]
  unfold Spec.binCentre binWidth
  push_cast
  ring

/-- C29.  `hough_lines` lists the centre of every bin exactly once, in an order in which the counts
never increase. -/
theorem C29_lines_ranked (argsort : List Nat → List Nat) (hs : IsArgsort argsort) (h : Hough K)
    (pts : List (K × K)) (hp : h.points = some (.array pts)) (xbins ybins : Nat) (hx : 0 < xbins)
    (hy : 0 < ybins) :
    ∃ hist lines args xlo xhi ylo yhi,
      (h.bin argsort xbins ybins).1.hist = some hist ∧
      (h.bin argsort xbins ybins).1.lines = some lines ∧
      Spec.SampleRange (pts.map Prod.fst) xlo xhi ∧ Spec.SampleRange (pts.map Prod.snd) ylo yhi ∧
      IsRanking hist xbins ybins args ∧ lines.length = xbins * ybins ∧
      lines = args.map fun b =>
        (Spec.binCentre xlo xhi xbins b.1, Spec.binCentre ylo yhi ybins b.2) := by
  have hr := histSortedArg_ranking argsort hs pts xbins ybins hy
  refine ⟨histogram2d pts xbins ybins, _,
    histSortedArg argsort (histogram2d pts xbins ybins) ybins, _, _, _, _, ?_, ?_,
    sampleRange_outer _, sampleRange_outer _, hr, ?_, rfl⟩
  · unfold Hough.bin
    simp only [hp]
    rw [if_neg (by omega)]
  · unfold Hough.bin
    simp only [hp]
    rw [if_neg (by omega)]
    unfold houghLines
    dsimp only
    congr 1
    apply List.map_congr_left
    intro b hb
    have hb := (hr.2.1 b).1 hb
    rw [centre_eq _ _ _ hb.1, centre_eq _ _ _ hb.2]
  · unfold histSortedArg
    rw [List.length_map, List.length_map, List.length_reverse, hs.length]
    have : histogram2d pts xbins ybins = (List.range xbins).map (fun i => (List.range ybins).map
      ((fun i j => pts.countP (fun p =>
      binNumber (binEdges (pts.map Prod.fst) xbins) p.1 == i + 1 &&
      binNumber (binEdges (pts.map Prod.snd) ybins) p.2 == j + 1)) i)) := rfl
    rw [this, flatten_table]
    simp

/-- The hypotheses of `C29_lines_ranked` met by three points and four bins. -/
example := C29_lines_ranked (K := ℚ) stableArgsort stableArgsort_isArgsort
  { (Hough.init : Hough ℚ) with points := some (.array [(0, 0), (3, 4), (4, 4)]) } [(0, 0), (3, 4), (4, 4)] rfl 2 2
  (by decide) (by decide)

theorem inBin_half (lo hi : K) (n i : Nat) (hn : 0 < n) (x : K) (h : Spec.InBin lo hi n i x) :
    |x - Spec.binCentre lo hi n i| ≤ (hi - lo) / n / 2 := by
  obtain ⟨h1, h2⟩ := h
  have h3 : x ≤ lo + (i + 1) * ((hi - lo) / n) := by
    rcases h2 with h2 | ⟨h2, h3⟩
    · exact h2.le
    · rw [h3]
      have : ((i : K) + 1) = n := by exact_mod_cast h2
      rw [this]
      have : (n : K) ≠ 0 := by exact_mod_cast hn.ne'
      rw [mul_div_cancel₀ _ this]
      linarith
  unfold Spec.binCentre
  rw [abs_le]
  constructor <;> linarith

/-- C30.  Every Hough point is within half a bin width, in both coordinates, of the entry of
`hough_lines` for the bin it is counted in; and that entry comes before the entry of every bin with
a smaller count. -/
theorem C30_half_bin (argsort : List Nat → List Nat) (hs : IsArgsort argsort) (h : Hough K)
    (pts : List (K × K)) (hp : h.points = some (.array pts)) (xbins ybins : Nat) (hx : 0 < xbins)
    (hy : 0 < ybins) :
    ∃ hist lines args xlo xhi ylo yhi,
      (h.bin argsort xbins ybins).1.hist = some hist ∧
      (h.bin argsort xbins ybins).1.lines = some lines ∧
      Spec.SampleRange (pts.map Prod.fst) xlo xhi ∧ Spec.SampleRange (pts.map Prod.snd) ylo yhi ∧
      IsRanking hist xbins ybins args ∧ lines.length = args.length ∧
      ∀ p ∈ pts, ∃ (k : Nat) (b : Nat × Nat) (l : K × K), args[k]? = some b ∧ lines[k]? = some l ∧
        Spec.InBin xlo xhi xbins b.1 p.1 ∧ Spec.InBin ylo yhi ybins b.2 p.2 ∧
        |p.1 - l.1| ≤ (xhi - xlo) / xbins / 2 ∧ |p.2 - l.2| ≤ (yhi - ylo) / ybins / 2 ∧
        ∀ (k' : Nat) (b' : Nat × Nat), args[k']? = some b' →
          (hist.getD b'.1 []).getD b'.2 0 < (hist.getD b.1 []).getD b.2 0 → k < k' := by
  obtain ⟨hist, lines, args, xlo, xhi, ylo, yhi, h1, h2, h3, h4, h5, h6, h7⟩ :=
    C29_lines_ranked argsort hs h pts hp xbins ybins hx hy
  obtain ⟨_, xlo', xhi', ylo', yhi', _, _, _, g3, g4, _, _, _, _, g5⟩ :=
    C28_bin_counts argsort h pts hp xbins ybins hx hy
  refine ⟨hist, lines, args, xlo, xhi, ylo, yhi, h1, h2, h3, h4, h5, by rw [h7]; simp, ?_⟩
  intro p hpp
  have uniq : ∀ (s : List K) (x : K), x ∈ s → ∀ lo hi lo' hi' : K, Spec.SampleRange s lo hi →
      Spec.SampleRange s lo' hi' → lo = lo' ∧ hi = hi' := by
    intro s x hxs lo hi lo' hi' ha hb
    have hne : s ≠ [] := fun h => by simp [h] at hxs
    rcases ha.tight hne with ⟨a1, a2⟩ | ⟨m, a1, a2, a3⟩ <;>
      rcases hb.tight hne with ⟨b1, b2⟩ | ⟨m', b1, b2, b3⟩
    · exact ⟨le_antisymm (ha.contains _ b1).1 (hb.contains _ a1).1,
        le_antisymm (hb.contains _ a2).2 (ha.contains _ b2).2⟩
    · have := ha.lt; rw [b1 _ a1, b1 _ a2] at this; exact absurd this (lt_irrefl _)
    · have := hb.lt; rw [a1 _ b1, a1 _ b2] at this; exact absurd this (lt_irrefl _)
    · have : m = m' := by rw [← a1 _ hxs, ← b1 _ hxs]
      subst this
      exact ⟨by rw [a2, b2], by rw [a3, b3]⟩
  obtain ⟨rfl, rfl⟩ := uniq _ p.1 (List.mem_map_of_mem hpp) _ _ _ _ h3 g3
  obtain ⟨rfl, rfl⟩ := uniq _ p.2 (List.mem_map_of_mem hpp) _ _ _ _ h4 g4
  obtain ⟨b, ⟨hb1, hb2, hb3, hb4⟩, _⟩ := g5 p hpp
  obtain ⟨k, hk⟩ := List.getElem?_of_mem ((h5.2.1 b).2 ⟨hb1, hb2⟩)
  refine ⟨k, b, _, hk, by rw [h7, List.getElem?_map, hk]; rfl, hb3, hb4,
    inBin_half _ _ _ _ hx _ hb3, inBin_half _ _ _ _ hy _ hb4, ?_⟩
  intro k' b' hk' hlt
  by_contra hcon
  have hpw := List.pairwise_iff_getElem.1 h5.2.2
  obtain ⟨hkl, hke⟩ := List.getElem?_eq_some_iff.1 hk
  obtain ⟨hkl', hke'⟩ := List.getElem?_eq_some_iff.1 hk'
  rcases Nat.lt_or_eq_of_le (not_lt.1 hcon) with hlt' | heq
  · have := hpw k' k hkl' hkl hlt'
    rw [hke, hke'] at this
    omega
  · subst heq
    rw [hke] at hke'
    subst hke'
    exact absurd hlt (lt_irrefl _)

/-- Two bins in each direction; the fullest bin, with two of the three points, comes first, and the
point at the right end belongs to the last bin. -/
example : ((({ (Hough.init : Hough ℚ) with points := some (.array [(0, 0), (3, 4), (4, 4)]) }).bin
    stableArgsort 2 2).1.hist, (({ (Hough.init : Hough ℚ) with
      points := some (.array [(0, 0), (3, 4), (4, 4)]) }).bin stableArgsort 2 2).1.lines) =
    (some [[1, 0], [0, 2]], some [(3, 3), (1, 1), (3, 1), (1, 3)]) := by decide +kernel

end Bin

/-! ### C31 -/

/-- C31.  `set_constraints` either stores four finite numbers, or raises and changes nothing; it
succeeds exactly when all four are finite. -/
theorem C31_constraints (h : Hough K) (a b c d : PyFloat K) :
    (∃ a' b' c' d' : K, a = .fin a' ∧ b = .fin b' ∧ c = .fin c' ∧ d = .fin d' ∧
      h.setConstraints a b c d = ({ h with
        minSlope := some a', maxSlope := some b', minIntercept := some c',
        maxIntercept := some d' }, .ok ())) ∨
    ((a.toFinite = none ∨ b.toFinite = none ∨ c.toFinite = none ∨ d.toFinite = none) ∧
      h.setConstraints a b c d = (h, .error .assertionError)) := by
  cases a with
  | fin a => cases b with
    | fin b => cases c with
      | fin c => cases d with
        | fin d => exact Or.inl ⟨a, b, c, d, rfl, rfl, rfl, rfl, rfl⟩
        | _ => exact Or.inr ⟨by simp [PyFloat.toFinite], rfl⟩
      | _ => exact Or.inr ⟨by simp [PyFloat.toFinite], rfl⟩
    | _ => exact Or.inr ⟨by simp [PyFloat.toFinite], rfl⟩
  | _ => exact Or.inr ⟨by simp [PyFloat.toFinite], rfl⟩

/-- Both alternatives of `C31_constraints` occur. -/
example : ((Hough.init : Hough ℤ).setConstraints (.fin 1) (.fin 2) (.fin 3) (.fin 4)).1.maxIntercept = some 4 ∧
    ((Hough.init : Hough ℤ).setConstraints (.fin 1) .nan (.fin 3) (.fin 4)).2 = .error .assertionError := by decide

/-- The four values of a call when they are all finite. -/
def fin4 : PyFloat K × PyFloat K × PyFloat K × PyFloat K → Option (K × K × K × K)
  | (.fin a, .fin b, .fin c, .fin d) => some (a, b, c, d)
  | _ => none

/-- C31, histories: after any sequence of calls the constraints are those of the last call with four
finite values, or the initial ones when there was none; everything else is unchanged. -/
theorem C31_history (h : Hough K) (ops : List (PyFloat K × PyFloat K × PyFloat K × PyFloat K)) :
    ops.foldl (fun h o => (h.setConstraints o.1 o.2.1 o.2.2.1 o.2.2.2).1) h =
      ((ops.filterMap fin4).getLast?.elim h fun v => { h with
        minSlope := some v.1, maxSlope := some v.2.1, minIntercept := some v.2.2.1,
        maxIntercept := some v.2.2.2 }) := by
  induction ops using List.reverseRecOn with
  | nil => rfl
  | append_singleton t o ih =>
    rw [List.foldl_append, List.filterMap_append, List.foldl_cons, List.foldl_nil]
    obtain ⟨o1, o2, o3, o4⟩ := o
    rcases C31_constraints (t.foldl (fun h o => (h.setConstraints o.1 o.2.1 o.2.2.1 o.2.2.2).1) h)
      o1 o2 o3 o4 with ⟨a, b, c, d, rfl, rfl, rfl, rfl, he⟩ | ⟨hnf, he⟩
    · rw [he, ih]
      simp only [List.filterMap_cons, List.filterMap_nil, fin4, List.getLast?_append,
        List.getLast?_singleton, Option.some_or, Option.elim_some]
      cases (t.filterMap fin4).getLast? <;> rfl
    · have : fin4 (o1, o2, o3, o4) = none := by
        cases o1 with
        | fin => cases o2 with
          | fin => cases o3 with
            | fin => cases o4 with
              | fin => simp [PyFloat.toFinite] at hnf
              | _ => rfl
            | _ => rfl
          | _ => rfl
        | _ => rfl
      rw [List.filterMap_cons, this]
      simp only [List.filterMap_nil, List.append_nil]
      rw [he]
      exact ih

example : ((Hough.init : Hough ℤ).setConstraints (.fin 1) (.fin 2) (.fin 3) .posInf) =
    (Hough.init, .error .assertionError) := rfl

end Rascal
