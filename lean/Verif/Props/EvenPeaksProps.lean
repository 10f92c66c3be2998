import Verif.Props.CandidateRankProps
import Verif.Props.FitLoopProps
import Verif.Props.SearchProps
import Mathlib.Tactic.IntervalCases

/-! Property theorem C201: evenly spaced peaks. -/

set_option linter.unusedSectionVars false

namespace Rascal

section
variable {K : Type _} [Field K] [LinearOrder K] [IsStrictOrderedRing K] [FloorRing K]

/-- `m` peaks at equal distances. -/
def Spec.even (lo d : K) (m : Nat) : List K := (List.range m).map (fun i : Nat => lo + (i : K) * d)

/-- The numbers of evenly spaced peaks with which `fit` cannot draw a sample. -/
def Spec.Unlucky (m : Nat) : Prop := m = 3 ∨ m = 5 ∨ m = 6 ∨ m = 7 ∨ m = 9

open Spec

/-- The condition of C58 for evenly spaced peaks, in whole numbers. -/
theorem even_condition (lo d : K) (hd : 0 < d) (n : Nat) :
    (∀ p ∈ even lo d (n + 1), ∀ i : Nat, 0 < i → i < 10 → p = lo + i * ((lo + (n : K) * d - lo) / 10) →
      ∃ q ∈ even lo d (n + 1), lo + ((i : K) - 1) * ((lo + (n : K) * d - lo) / 10) ≤ q ∧ q < p) ↔
    ∀ j i : Nat, j ≤ n → 0 < i → i < 10 → 10 * j = i * n → 10 ≤ n := by
  have hmem : ∀ p, p ∈ even lo d (n + 1) ↔ ∃ j : Nat, j ≤ n ∧ lo + (j : K) * d = p := by
    intro p
    unfold even
    rw [List.mem_map]
    constructor
    · rintro ⟨j, hj, rfl⟩
      exact ⟨j, by have := List.mem_range.1 hj; omega, rfl⟩
    · rintro ⟨j, hj, rfl⟩
      exact ⟨j, List.mem_range.2 (by omega), rfl⟩
  have hedge : ∀ i j : Nat, lo + (j : K) * d = lo + (i : K) * ((lo + (n : K) * d - lo) / 10) ↔ 10 * j = i * n := by
    intro i j
    have e : lo + (i : K) * ((lo + (n : K) * d - lo) / 10) = lo + ((i : K) * (n : K) / 10) * d := by ring
    rw [e, add_right_inj, mul_left_inj' hd.ne', eq_div_iff (by norm_num)]
    constructor
    · intro h
      have : ((10 * j : Nat) : K) = ((i * n : Nat) : K) := by push_cast; rw [← h]; ring
      exact_mod_cast this
    · intro h
      have : ((10 * j : Nat) : K) = ((i * n : Nat) : K) := by rw [h]
      push_cast at this
      rw [← this]; ring
  constructor
  · intro h j i hj hi hi' he
    obtain ⟨q, hq, h1, h2⟩ := h (lo + (j : K) * d) ((hmem _).2 ⟨j, hj, rfl⟩) i hi hi' ((hedge i j).2 he)
    obtain ⟨m, hm, rfl⟩ := (hmem q).1 hq
    have hlt : m < j := by
      have : (m : K) * d < (j : K) * d := by linarith
      exact_mod_cast lt_of_mul_lt_mul_right this hd.le
    have hle : ((i : K) - 1) * (n : K) ≤ 10 * (m : K) := by
      have e : lo + ((i : K) - 1) * ((lo + (n : K) * d - lo) / 10) = lo + (((i : K) - 1) * (n : K) / 10) * d := by ring
      rw [e] at h1
      have h3 : (((i : K) - 1) * (n : K) / 10) * d ≤ (m : K) * d := by linarith
      have h4 := le_of_mul_le_mul_right h3 hd
      rw [div_le_iff₀ (by norm_num)] at h4
      linarith
    have hk : (i : K) * (n : K) = 10 * (j : K) := by exact_mod_cast he.symm
    have : ((10 * j : Nat) : K) ≤ ((10 * m + n : Nat) : K) := by push_cast; linarith
    have : 10 * j ≤ 10 * m + n := by exact_mod_cast this
    omega
  · intro h p hp i hi hi' he
    obtain ⟨j, hj, rfl⟩ := (hmem p).1 hp
    have he' := (hedge i j).1 he
    have hn := h j i hj hi hi' he'
    have hj0 : 0 < j := by
      rcases Nat.eq_zero_or_pos j with h0 | h0
      · subst h0
        have : 0 < i * n := Nat.mul_pos hi (by omega)
        omega
      · exact h0
    obtain ⟨m, rfl⟩ : ∃ m, j = m + 1 := ⟨j - 1, by omega⟩
    refine ⟨lo + (m : K) * d, (hmem _).2 ⟨m, by omega, rfl⟩, ?_, ?_⟩
    · have hk : (i : K) * (n : K) = 10 * ((m : K) + 1) := by
        have : ((i * n : Nat) : K) = ((10 * (m + 1) : Nat) : K) := by rw [he']
        push_cast at this
        exact this
      have hnk : (10 : K) ≤ (n : K) := by exact_mod_cast hn
      have e : lo + ((i : K) - 1) * ((lo + (n : K) * d - lo) / 10) = lo + (((i : K) * (n : K) - (n : K)) / 10) * d := by ring
      rw [e, hk]
      have : (10 * ((m : K) + 1) - (n : K)) / 10 ≤ (m : K) := by
        rw [div_le_iff₀ (by norm_num)]
        linarith
      have := mul_le_mul_of_nonneg_right this hd.le
      linarith
    · push_cast
      linarith

theorem unlucky_iff (n : Nat) (hn : 1 ≤ n) :
    (∀ j i : Nat, j ≤ n → 0 < i → i < 10 → 10 * j = i * n → 10 ≤ n) ↔ ¬ Unlucky (n + 1) := by
  unfold Unlucky
  constructor
  · intro h hu
    rcases hu with hu | hu | hu | hu | hu
    · have := h 1 5 (by omega) (by omega) (by omega) (by omega); omega
    · have := h 2 5 (by omega) (by omega) (by omega) (by omega); omega
    · have := h 1 2 (by omega) (by omega) (by omega) (by omega); omega
    · have := h 3 5 (by omega) (by omega) (by omega) (by omega); omega
    · have := h 4 5 (by omega) (by omega) (by omega) (by omega); omega
  · intro h j i hj hi hi' he
    by_contra hlt
    push Not at hlt
    interval_cases n <;> omega

/-- C201 (part), the samples: of `m ≥ 2` evenly spaced candidate peaks samples can be drawn exactly if `m` is not 3, 5, 6, 7
or 9. -/
theorem C201_even_partial (lo d : K) (hd : 0 < d) (m : Nat) (hm : 2 ≤ m) :
    (¬ Unlucky m → ∃ probs, sampleProb (even lo d m) = .ok probs ∧ probs.length = m ∧ (∀ v ∈ probs, 0 < v) ∧ probs.sum = 1) ∧
    (Unlucky m → sampleProb (even lo d m) = .error .valueError) := by
  obtain ⟨n, rfl⟩ : ∃ n, m = n + 1 := ⟨m - 1, by omega⟩
  have hn : 1 ≤ n := by omega
  have hnk : (1 : K) ≤ (n : K) := by exact_mod_cast hn
  have h := C58_sampling_partial (even lo d (n + 1)) lo (lo + (n : K) * d)
    (by unfold even; exact List.mem_map.2 ⟨0, by simp, by simp⟩)
    (by unfold even; exact List.mem_map.2 ⟨n, by simp, rfl⟩)
    (by
      intro p hp
      unfold even at hp
      obtain ⟨j, hj, rfl⟩ := List.mem_map.1 hp
      have hj : (j : K) ≤ (n : K) := by have := List.mem_range.1 hj; exact_mod_cast (by omega : j ≤ n)
      have h0 : (0 : K) ≤ (j : K) := Nat.cast_nonneg j
      constructor <;> nlinarith)
    (by nlinarith)
  rw [even_condition lo d hd n, unlucky_iff n hn] at h
  refine ⟨fun hu => ?_, fun hu => h.2 (not_not.2 hu)⟩
  obtain ⟨probs, h1, h2, h3⟩ := h.1 hu
  exact ⟨probs, h1, by rw [h2]; simp [even], h3⟩

/-- C201 (part), fit: once `fit` without `brute_force` has its candidates and a sample to draw, it raises ValueError at
once, whatever it draws, if the candidate peaks are 3, 5, 6, 7 or 9 evenly spaced ones; for any other number of evenly spaced
peaks no draw raises ValueError. -/
theorem C201_fit_partial (F : FitEnv K) (w : World K) (a : FitArgs K) (rnd : FitRandom K) (lines : List K) (L : LoopStart K)
    (hf : a.fitType ≠ .other) (hl : w.atlasLines = .ok lines) (hL : (w.given a).enter F lines a rnd.uniform = some L)
    (hb : a.brute = false) (ht : L.trials ≠ []) (htape : rnd.tape ≠ []) (lo d : K) (hd : 0 < d) (m : Nat) (hm : 2 ≤ m)
    (hx : npUnique L.cfg.x = even lo d m) :
    (Unlucky m → (w.fit F a rnd).2 = .done (.error .valueError)) ∧
    (¬ Unlucky m → ∀ draw, ∀ t ∈ L.trials, L.cfg.sample draw t ≠ .error .valueError) := by
  have hs := enter_spec F _ lines a _ L hL
  have hran : ∀ t ∈ L.trials, t = .random := by
    intro t htm
    have := congrArg Prod.fst hs.trials
    dsimp only at this
    rw [this, hb] at htm
    unfold makeTrials at htm
    simp only [Bool.false_eq_true, if_false] at htm
    split at htm
    · obtain ⟨_, _, h⟩ := List.mem_map.1 htm; exact h.symm
    · exact (List.mem_replicate.1 htm).2
  have hprob := C201_even_partial lo d hd m hm
  constructor
  · intro hu
    have herr := hprob.2 hu
    obtain ⟨t, ts, hts⟩ := List.exists_cons_of_ne_nil ht
    obtain ⟨dr, ds, hds⟩ := List.exists_cons_of_ne_nil htape
    have htr : t = .random := hran t (by rw [hts]; simp)
    have hsam : L.cfg.sample dr t = .error .valueError := by
      rw [htr]
      unfold RansacCfg.sample
      dsimp only
      rw [hx, herr]
    rcases fit_eq F w a rnd with ⟨_, _, h1⟩ | ⟨lines', _, hl', h1⟩
    · exfalso
      rcases h1 with h1 | ⟨e, h1⟩
      · exact hf h1
      · rw [hl] at h1; cases h1
    · have : lines' = lines := by rw [hl] at hl'; exact (Except.ok.inj hl').symm
      subst this
      rw [h1]
      dsimp only
      rw [fitWith_enter F _ _ _ rnd _ hL, hts, hds]
      unfold RansacCfg.run RansacCfg.attempt
      rw [hsam]
      rfl
  · intro hu draw t htm he
    rw [hran t htm] at he
    obtain ⟨probs, hp, _⟩ := hprob.1 hu
    unfold RansacCfg.sample at he
    dsimp only at he
    rw [hx, hp] at he
    dsimp only at he
    split at he
    · rename_i e' hw
      have := pickWaves_error _ _ _ _ _ hw
      rw [this] at he
      cases he
    · cases he
    · cases he

end

/-! ### refutation and concrete cases -/

open Spec

/-- C201 (false).  Once `fit` has candidates for more peaks than the degree and a sample to draw, it does not raise ValueError,
wherever the peaks are, if the fitting routines do not. -/
def C201_Statement : Prop :=
  ∀ (F : FitEnv ℚ) (w : World ℚ) (a : FitArgs ℚ) (rnd : FitRandom ℚ) (lines : List ℚ) (L : LoopStart ℚ),
    w.atlasLines = .ok lines → (w.given a).enter F lines a rnd.uniform = some L → L.trials ≠ [] →
    (∀ xs ys, (F.kern a.fitType).polyfit xs ys a.degree ≠ .error .valueError) →
    (∀ xs ys, (F.kern a.fitType).robust xs ys a.degree ≠ .error .valueError) →
    (w.fit F a rnd).2 ≠ .done (.error .valueError)

/-- A calibrator for the given peaks, with a line for each of them. -/
def Toy.evenPeaks (ps : List ℚ) : PyRes (World ℚ) :=
  match Cal.new (fun _ => .ok ()) ps true none with
  | .error e => .error e
  | .ok c => .ok (World.steps Toy.calEnv ⟨[⟨ps.map (fun p => ⟨3100 + 140 * p, "Xe", 1, none⟩), none, none, 0⟩], c⟩
      [.setHough { numSlopes := some 5, xbins := some 4, ybins := some 4 },
       .setRansac { sampleSize := some 2, minFitError := some 0 },
       .setAtlas 0 10 false])

/-- The fit starts drawing, with the given peaks as candidates. -/
theorem Toy.even_enter (ps : List ℚ) (hps : ps = [10, 25, 40] ∨ ps = [10, 20, 30, 40]) (tape : List Draw) :
    ∃ w lines L, Toy.evenPeaks ps = .ok w ∧ w.atlasLines = .ok lines ∧
      (w.given (Toy.fourArgs 1)).enter Toy.env lines (Toy.fourArgs 1) (FitRandom.mk (fun _ => 0) tape).uniform = some L ∧
      L.trials ≠ [] ∧ npUnique L.cfg.x = ps := by
  have hc : (Toy.evenPeaks ps).toOption.bind (fun w => w.atlasLines.toOption.bind (fun lines =>
      ((w.given (Toy.fourArgs 1)).enter Toy.env lines (Toy.fourArgs 1) (fun _ => 0)).map (fun L =>
        (L.trials.length, npUnique L.cfg.x)))) = some (1, ps) := by
    rcases hps with rfl | rfl <;> decide +kernel
  cases hw : Toy.evenPeaks ps with
  | error e => rw [hw] at hc; simp [Except.toOption] at hc
  | ok w =>
    rw [hw] at hc
    simp only [Except.toOption, Option.bind_some] at hc
    cases hl : w.atlasLines with
    | error e => rw [hl] at hc; simp at hc
    | ok lines =>
      rw [hl] at hc
      simp only [Option.bind_some, Option.map_eq_some_iff, Prod.mk.injEq] at hc
      obtain ⟨L, hL, h1, h2⟩ := hc
      exact ⟨w, lines, L, rfl, hl, hL, by intro h; rw [h] at h1; simp at h1, h2⟩

theorem Toy.line_noValue (xs ys : List ℚ) : Toy.line xs ys ≠ .error .valueError := by
  unfold Toy.line
  dsimp only
  split <;> simp

/-- Three peaks at 10, 25 and 40, with lines that fit them: the second is on the edge of two of the ten bins, the lower of
which is empty. -/
theorem C201_refuted : ¬ C201_Statement := by
  intro h
  obtain ⟨w, lines, L, _, hl, hL, ht, hx⟩ := Toy.even_enter [10, 25, 40] (Or.inl rfl) [⟨[], []⟩]
  refine h Toy.env w (Toy.fourArgs 1) ⟨fun _ => 0, [⟨[], []⟩]⟩ lines L hl hL ht ?_ ?_ ?_
  · intro xs ys
    exact Toy.line_noValue _ _
  · intro xs ys
    exact Toy.line_noValue _ _
  · exact (C201_fit_partial Toy.env w (Toy.fourArgs 1) ⟨fun _ => 0, [⟨[], []⟩]⟩ lines L (by decide) hl hL rfl ht (by simp) 10 15
      (by norm_num) 3 (by norm_num) (by rw [hx]; decide +kernel)).1 (Or.inl rfl)

/-- The hypotheses of `C201_fit_partial` met by four peaks at 10, 20, 30 and 40: no draw raises ValueError. -/
example : ∃ w lines L, Toy.evenPeaks [10, 20, 30, 40] = .ok w ∧ w.atlasLines = .ok lines ∧
    (w.given (Toy.fourArgs 1)).enter Toy.env lines (Toy.fourArgs 1) (fun _ => 0) = some L ∧ L.trials ≠ [] ∧
    ∀ draw, ∀ t ∈ L.trials, L.cfg.sample draw t ≠ .error .valueError := by
  obtain ⟨w, lines, L, hw, hl, hL, ht, hx⟩ := Toy.even_enter [10, 20, 30, 40] (Or.inr rfl) [⟨[], []⟩]
  exact ⟨w, lines, L, hw, hl, hL, ht,
    (C201_fit_partial Toy.env w (Toy.fourArgs 1) ⟨fun _ => 0, [⟨[], []⟩]⟩ lines L (by decide) hl hL rfl ht (by simp) 10 10
      (by norm_num) 4 (by norm_num) (by rw [hx]; decide +kernel)).2 (by unfold Unlucky; omega)⟩

/-- Cases for `C201_even_partial`: eleven peaks can be drawn, nine cannot. -/
example : (∃ probs, sampleProb (even (100 : ℚ) 50 11) = .ok probs ∧ probs.length = 11 ∧ (∀ v ∈ probs, 0 < v) ∧ probs.sum = 1) ∧
    sampleProb (even (100 : ℚ) 50 9) = .error .valueError :=
  ⟨(C201_even_partial 100 50 (by norm_num) 11 (by norm_num)).1 (by unfold Unlucky; omega),
    (C201_even_partial 100 50 (by norm_num) 9 (by norm_num)).2 (by unfold Unlucky; omega)⟩

end Rascal
