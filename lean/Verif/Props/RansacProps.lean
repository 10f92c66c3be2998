import Verif.Proofs.RansacMain
import Verif.Props.CandidateRankProps
import Verif.Proofs.ToyKern

/-!
Property theorems C52, C59, C60 and C61: the sampling loop of `_solve_candidate_ransac`.
-/

set_option linter.unusedSectionVars false

namespace Rascal

section
variable {K : Type _} [Field K] [LinearOrder K] [IsStrictOrderedRing K]

/-- The best solution in whatever state the loop is. -/
def RunState.best : RunState K → Best K
  | .finished s => s
  | .running s => s
  | .raised _ s => s

/-! ### C59 -/

/-- C59.  The data of a random pass are distinct candidate peaks, as many as requested or available, each
with one of its candidate wavelengths, no wavelength used twice, followed by the known pairs. -/
theorem C59_distinct_samples (c : RansacCfg K) (d : Draw)
    (data : List (PyFloat K) × List (PyFloat K)) (h : c.sample d .random = .ok (some data)) :
    ∃ xs ys : List K, xs.Nodup ∧ ys.Nodup ∧ xs.length = ys.length ∧
      xs.length = min c.sampleSize c.x.dedup.length ∧ (∀ e ∈ xs.zip ys, e ∈ c.x.zip c.y) ∧
      data = (xs.map .fin ++ (c.known.getD ([], [])).1, ys.map .fin ++ (c.known.getD ([], [])).2) := by
  unfold RansacCfg.sample at h
  dsimp only at h
  cases hp : sampleProb (npUnique c.x) with
  | error e => rw [hp] at h; simp at h
  | ok pr =>
    rw [hp] at h
    simp only at h
    obtain ⟨h1, h2, h3⟩ := pickDistinct_spec (npUnique c.x) (npUnique_nodup c.x) c.sampleSize d.peaks
    generalize pickDistinct (npUnique c.x) c.sampleSize d.peaks = xs at h h1 h2 h3
    cases hw : pickWaves (candTable c.x c.y) xs [] d.waves with
    | error e => rw [hw] at h; simp at h
    | ok o =>
      rw [hw] at h
      cases o with
      | none => simp at h
      | some ys =>
        simp only [Except.ok.injEq, Option.some.injEq] at h
        obtain ⟨new, hn1, hn2, hn3, hn4⟩ := pickWaves_spec _ _ _ _ _ List.nodup_nil hw
        rw [List.nil_append] at hn1
        subst hn1
        refine ⟨xs, ys, h1, hn2, hn3.symm, by rw [h3, npUnique_length_eq_dedup], ?_, ?_⟩
        · intro e he
          obtain ⟨ws, hc, hm⟩ := hn4 e he
          unfold candTable at hc
          split at hc
          · simp only [Option.some.injEq] at hc
            subst hc
            rw [mem_boolMask] at hm
            obtain ⟨i, hi1, hi2⟩ := hm
            rw [List.getElem?_map] at hi2
            rw [List.mem_iff_getElem?]
            refine ⟨i, ?_⟩
            rw [List.getElem?_zip_eq_some]
            refine ⟨?_, hi1⟩
            cases hx : c.x[i]? with
            | none => rw [hx] at hi2; simp at hi2
            | some v => rw [hx] at hi2; simp at hi2; rw [hi2]
          · simp at hc
        · rw [← h]
          unfold addKnown
          cases c.known with
          | none => simp
          | some q => rfl

/-- C59, nothing is left out: every such choice of distinct peaks and wavelengths can be drawn. -/
theorem C59_every_sample_possible (c : RansacCfg K) (hprob : ∃ p, sampleProb (npUnique c.x) = .ok p) (xs ys : List K) (h1 : xs.Nodup) (h2 : ys.Nodup)
    (h3 : xs.length = ys.length) (h4 : xs.length = c.sampleSize) (h5 : ∀ e ∈ xs.zip ys, e ∈ c.x.zip c.y) :
    ∃ d, c.sample d .random = .ok (some (addKnown c.known xs ys)) := by
  have hsub : xs ⊆ npUnique c.x := by
    intro v hv
    obtain ⟨i, hi, hiv⟩ := List.getElem_of_mem hv
    have he : (v, ys[i]'(h3 ▸ hi)) ∈ xs.zip ys := by
      rw [List.mem_iff_getElem]
      exact ⟨i, by simp; omega, by simp [hiv]⟩
    exact (mem_npUnique c.x v).2 (List.of_mem_zip (h5 _ he)).1
  obtain ⟨seeds, hs⟩ := pickDistinct_complete (npUnique c.x) xs h1 hsub
  obtain ⟨seeds2, hs2⟩ := pickWaves_complete (candTable c.x c.y) xs ys [] h3.symm (by simpa using h2) (by
    intro e he
    have hz := h5 e he
    have hx : e.1 ∈ c.x := (List.of_mem_zip hz).1
    refine ⟨boolMask c.y (c.x.map (fun v => decide (v = e.1))), by unfold candTable; rw [if_pos hx], ?_⟩
    rw [mem_boolMask]
    rw [List.mem_iff_getElem?] at hz
    obtain ⟨i, hi⟩ := hz
    rw [List.getElem?_zip_eq_some] at hi
    refine ⟨i, hi.2, ?_⟩
    rw [List.getElem?_map, hi.1]
    simp)
  obtain ⟨p, hp⟩ := hprob
  refine ⟨⟨seeds, seeds2⟩, ?_⟩
  unfold RansacCfg.sample
  simp only [hp]
  rw [← h4, hs, hs2]
  rfl

/-! ### C52 -/

/-- The data contain every known pair. -/
def ContainsKnown (c : RansacCfg K) (data : List (PyFloat K) × List (PyFloat K)) : Prop :=
  ∀ p v, c.known = some (p, v) → ∀ e ∈ p.zip v, e ∈ data.1.zip data.2

theorem sample_containsKnown (c : RansacCfg K) (hxy : c.x.length = c.y.length) (d : Draw) (t : Trial)
    (data : List (PyFloat K) × List (PyFloat K)) (h : c.sample d t = .ok (some data)) :
    ContainsKnown c data := by
  have key : ∀ xs ys : List K, xs.length = ys.length → ContainsKnown c (addKnown c.known xs ys) := by
    intro xs ys hl p v hk e he
    unfold addKnown
    rw [hk]
    simp only
    rw [List.zip_append (by simp [hl])]
    exact List.mem_append_right _ he
  cases t with
  | random =>
    obtain ⟨xs, ys, _, _, hl, _, _, hd⟩ := C59_distinct_samples c d data h
    have := key xs ys hl
    unfold addKnown at this
    intro p v hk
    rw [hk] at this hd
    simp only [Option.getD_some] at hd
    rw [hd]
    exact this p v hk
  | brute idx =>
    unfold RansacCfg.sample at h
    dsimp only at h
    split at h
    · simp only [Except.ok.injEq, Option.some.injEq] at h
      rw [← h]
      apply key
      clear h
      unfold takeIdx
      induction idx with
      | nil => rfl
      | cons i idx ih =>
        rcases Nat.lt_or_ge i c.x.length with hi | hi
        · rw [List.filterMap_cons_some (List.getElem?_eq_getElem hi),
            List.filterMap_cons_some (List.getElem?_eq_getElem (hxy ▸ hi))]
          exact congrArg (· + 1) ih
        · rw [List.filterMap_cons_none (List.getElem?_eq_none hi),
            List.filterMap_cons_none (List.getElem?_eq_none (hxy ▸ hi))]
          exact ih
    · simp at h

/-- C52.  Every polynomial tried is fitted to data containing all known pairs: two fitting routines
that agree on all data with the known pairs give the same run, whatever they do on other data. -/
theorem C52_known_pairs_used [FloorRing K] (k : Kernels K) (c : RansacCfg K)
    (hxy : c.x.length = c.y.length)
    (polyfit' : List (PyFloat K) → List (PyFloat K) → Nat → PyRes (List K))
    (hagree : ∀ data, ContainsKnown c data → ∀ n, polyfit' data.1 data.2 n = k.polyfit data.1 data.2 n)
    (tape : List Draw) (trials : List Trial) (s : Best K) :
    c.run { k with polyfit := polyfit' } tape trials s = c.run k tape trials s := by
  induction tape generalizing trials s with
  | nil => cases trials <;> rfl
  | cons d ds ih =>
    cases trials with
    | nil => rfl
    | cons t ts =>
      have hatt : c.attempt { k with polyfit := polyfit' } d t s = c.attempt k d t s := by
        unfold RansacCfg.attempt
        cases hs : c.sample d t with
        | error e => rfl
        | ok o =>
          cases o with
          | none => rfl
          | some data =>
            simp only
            unfold RansacCfg.evaluate
            simp only []
            rw [hagree data (sample_containsKnown c hxy d t data hs) c.fitDeg]
            rfl
      simp only [RansacCfg.run]
      rw [hatt]
      split
      · exact ih _ _
      · exact ih _ _
      · rfl

/-! ### C60 -/

theorem attempt_cases [FloorRing K] (k : Kernels K) (c : RansacCfg K) (hxy : c.x.length = c.y.length)
    (d : Draw) (t : Trial) (s : Best K) :
    c.attempt k d t s = .retry ∨ c.attempt k d t s = .next s ∨
    (∃ s' data, c.attempt k d t s = .next s' ∧ c.sample d t = .ok (some data) ∧
      AcceptedTrial k c data s.cost s') ∨
    ∃ e, c.attempt k d t s = .raised e s ∧
      (c.sample d t = .error e ∨ ∃ data, c.sample d t = .ok (some data) ∧ PassError k c data e) := by
  unfold RansacCfg.attempt
  cases hs : c.sample d t with
  | error e => exact Or.inr (Or.inr (Or.inr ⟨e, rfl, Or.inl rfl⟩))
  | ok o =>
    cases o with
    | none => exact Or.inr (Or.inl rfl)
    | some data =>
      simp only
      rcases evaluate_cases k c hxy data s with h | h | ⟨s', h, ha⟩ | ⟨e, h, he⟩
      · exact Or.inl h
      · exact Or.inr (Or.inl h)
      · exact Or.inr (Or.inr (Or.inl ⟨s', data, h, rfl, ha⟩))
      · exact Or.inr (Or.inr (Or.inr ⟨e, h, Or.inr ⟨data, rfl, he⟩⟩))

/-- C60.  Whatever is drawn and however the run ends, the best solution is the one it started with, or
one accepted from the data of some pass: more than `fit_deg` matches, at least `minimum_matches`, at
least the requested share of the peaks, rms at least `minimum_fit_error`, every match a candidate within
the tolerance of a trial polynomial that respects the intercept bounds and increases. -/
theorem C60_accepted_constraints [FloorRing K] (k : Kernels K) (c : RansacCfg K)
    (hxy : c.x.length = c.y.length) (tape : List Draw) (trials : List Trial) (s : Best K) :
    (c.run k tape trials s).best = s ∨
    ∃ d ∈ tape, ∃ t ∈ trials, ∃ data prev, c.sample d t = .ok (some data) ∧
      AcceptedTrial k c data prev (c.run k tape trials s).best := by
  induction tape generalizing trials s with
  | nil => left; cases trials <;> rfl
  | cons d ds ih =>
    cases trials with
    | nil => left; rfl
    | cons t ts =>
      simp only [RansacCfg.run]
      rcases attempt_cases k c hxy d t s with h | h | ⟨s', data, h, hs, ha⟩ | ⟨e, h, _⟩
      · rw [h]
        rcases ih (t :: ts) s with h1 | ⟨d', hd, t', ht, data, prev, h2, h3⟩
        · exact Or.inl h1
        · exact Or.inr ⟨d', List.mem_cons_of_mem _ hd, t', ht, data, prev, h2, h3⟩
      · rw [h]
        rcases ih ts s with h1 | ⟨d', hd, t', ht, data, prev, h2, h3⟩
        · exact Or.inl h1
        · exact Or.inr ⟨d', List.mem_cons_of_mem _ hd, t', List.mem_cons_of_mem _ ht, data, prev, h2, h3⟩
      · rw [h]
        simp only
        rcases ih ts s' with h1 | ⟨d', hd, t', ht, data, prev, h2, h3⟩
        · rw [h1]
          exact Or.inr ⟨d, List.mem_cons_self, t, List.mem_cons_self, data, _, hs, ha⟩
        · exact Or.inr ⟨d', List.mem_cons_of_mem _ hd, t', List.mem_cons_of_mem _ ht, data, prev, h2, h3⟩
      · rw [h]
        exact Or.inl rfl

/-! ### C61 -/

/-- The passes of a run, in order. -/
def RansacCfg.passes [FloorRing K] (k : Kernels K) (c : RansacCfg K) :
    List Draw → List Trial → Best K → List (Draw × Trial)
  | _, [], _ => []
  | [], _ :: _, _ => []
  | d :: ds, t :: ts, s =>
    (d, t) :: match c.attempt k d t s with
      | .retry => c.passes k ds (t :: ts) s
      | .next s' => c.passes k ds ts s'
      | .raised _ _ => []

/-- No solution, at infinite cost. -/
def noSolution : Best K := ⟨.posInf, 0, none, none, 0, [], []⟩

/-- The pass would give the solution `b` if nothing had been found before. -/
def Acceptable [FloorRing K] (k : Kernels K) (c : RansacCfg K) (d : Draw) (t : Trial) (b : Best K) : Prop :=
  c.attempt k d t noSolution = .next b ∧ b.coeffs ≠ none

theorem evaluate_acceptable [FloorRing K] (k : Kernels K) (c : RansacCfg K)
    (data : List (PyFloat K) × List (PyFloat K)) (b : Best K) (hb : b.coeffs ≠ none)
    (h : c.evaluate k data noSolution = .next b) (s : Best K) :
    c.evaluate k data s = if b.cost.le s.cost then .next b else .next s := by
  unfold RansacCfg.evaluate at h ⊢
  cases hpf : k.polyfit data.1 data.2 c.fitDeg with
  | error e => rw [hpf] at h; simp at h
  | ok co =>
    rw [hpf] at h
    simp only at h ⊢
    split at h
    · simp at h
    rename_i h1
    rw [if_neg h1]
    split at h
    · simp at h
    rename_i h2
    rw [if_neg h2]
    split at h
    · simp at h
    · simp at h
    rename_i a l hm
    unfold RansacCfg.compare at h ⊢
    cases hw : c.weight k co with
    | error e => rw [hw] at h; simp at h
    | ok w =>
      rw [hw] at h
      simp only at h ⊢
      split at h
      swap
      · simp only [Attempt.next.injEq] at h
        rw [← h] at hb
        exact absurd rfl hb
      generalize trialCost (List.map (fun e => clipErr c.tol e.1) (a :: l)) co.length w = cost at h ⊢
      unfold RansacCfg.consider at h ⊢
      dsimp only at h ⊢
      split at h
      · simp at h
      rename_i h3
      rw [if_neg h3]
      cases hr : k.robust ((inlierList c.tol (a :: l)).map (fun e => e.2.1))
            ((inlierList c.tol (a :: l)).map (fun e => e.2.2)) c.fitDeg with
      | error e =>
        rw [hr] at h
        cases e <;> simp at h
      | ok ro =>
        rw [hr] at h
        simp only at h ⊢
        have hc : b.cost = cost := by
          unfold RansacCfg.judge at h
          dsimp only at h
          split at h
          · simp at h
          split at h
          · simp at h
          split at h
          · simp at h
          split at h
          · simp only [Attempt.next.injEq] at h
            rw [← h]
          · simp at h
        rw [hc, h]

theorem evaluate_next [FloorRing K] (k : Kernels K) (c : RansacCfg K)
    (data : List (PyFloat K) × List (PyFloat K)) (s s' : Best K) (h : c.evaluate k data s = .next s') :
    s' = s ∨ (c.evaluate k data noSolution = .next s' ∧ s'.coeffs ≠ none ∧ s'.cost.le s.cost = true) := by
  unfold RansacCfg.evaluate at h ⊢
  cases hpf : k.polyfit data.1 data.2 c.fitDeg with
  | error e => rw [hpf] at h; simp at h
  | ok co =>
    rw [hpf] at h
    simp only at h ⊢
    split at h
    · simp at h
    rename_i h1
    rw [if_neg h1]
    split at h
    · simp at h
    rename_i h2
    rw [if_neg h2]
    split at h
    · simp at h
    · simp at h
    rename_i a l hm
    unfold RansacCfg.compare at h ⊢
    cases hw : c.weight k co with
    | error e => rw [hw] at h; simp at h
    | ok w =>
      rw [hw] at h
      simp only at h ⊢
      split at h
      swap
      · simp only [Attempt.next.injEq] at h
        exact Or.inl h.symm
      right
      rename_i hle
      generalize trialCost (List.map (fun e => clipErr c.tol e.1) (a :: l)) co.length w = cost at h hle ⊢
      have hinf : cost.le (noSolution : Best K).cost = true := by
        have := (PyFloat.not_nan_of_le _ _ hle).1
        unfold noSolution
        cases cost with
        | nan => exact absurd rfl this
        | _ => rfl
      rw [if_pos hinf]
      unfold RansacCfg.consider at h ⊢
      dsimp only at h ⊢
      split at h
      · simp at h
      rename_i h3
      rw [if_neg h3]
      cases hr : k.robust ((inlierList c.tol (a :: l)).map (fun e => e.2.1))
            ((inlierList c.tol (a :: l)).map (fun e => e.2.2)) c.fitDeg with
      | error e =>
        rw [hr] at h
        cases e <;> simp at h
      | ok ro =>
        rw [hr] at h
        simp only at h ⊢
        refine ⟨h, ?_⟩
        unfold RansacCfg.judge at h
        dsimp only at h
        split at h
        · simp at h
        split at h
        · simp at h
        split at h
        · simp at h
        split at h
        · simp only [Attempt.next.injEq] at h
          rw [← h]
          exact ⟨by simp, hle⟩
        · simp at h

/-- C61.  The best solution of a run is the start or a solution of one of its passes; its cost is at most
the start's and at most that of every acceptable solution of a pass. -/
theorem C61_best_wins [FloorRing K] (k : Kernels K) (c : RansacCfg K) (hxy : c.x.length = c.y.length)
    (tape : List Draw) (trials : List Trial) (s : Best K) (hs : s.cost ≠ .nan) :
    let fin := (c.run k tape trials s).best
    (fin = s ∨ ∃ p ∈ c.passes k tape trials s, Acceptable k c p.1 p.2 fin) ∧
    fin.cost.le s.cost = true ∧
    ∀ p ∈ c.passes k tape trials s, ∀ b, Acceptable k c p.1 p.2 b → fin.cost.le b.cost = true := by
  have main : ∀ (tape : List Draw) (trials : List Trial) (s : Best K), s.cost ≠ .nan →
      ((c.run k tape trials s).best = s ∨
        ∃ p ∈ c.passes k tape trials s, Acceptable k c p.1 p.2 (c.run k tape trials s).best) ∧
      (c.run k tape trials s).best.cost.le s.cost = true ∧
      ∀ p ∈ c.passes k tape trials s, ∀ b, Acceptable k c p.1 p.2 b →
        (c.run k tape trials s).best.cost.le b.cost = true := by
    intro tape
    induction tape with
    | nil =>
      intro trials s hs
      cases trials <;>
        exact ⟨Or.inl rfl, PyFloat.le_refl _ hs, by simp [RansacCfg.passes]⟩
    | cons d ds ih =>
      intro trials s hs
      cases trials with
      | nil => exact ⟨Or.inl rfl, PyFloat.le_refl _ hs, by simp [RansacCfg.passes]⟩
      | cons t ts =>
        -- what an acceptable solution of this pass means for the pass itself
        have hacc : ∀ b, Acceptable k c d t b →
            c.attempt k d t s = if b.cost.le s.cost then .next b else .next s := by
          intro b ⟨hb, hbc⟩
          unfold RansacCfg.attempt at hb ⊢
          cases hsm : c.sample d t with
          | error e => rw [hsm] at hb; simp at hb
          | ok o =>
            rw [hsm] at hb
            cases o with
            | none =>
              simp only [Attempt.next.injEq] at hb
              rw [← hb] at hbc
              exact absurd rfl hbc
            | some data => exact evaluate_acceptable k c data b hbc hb s
        have hnn : ∀ b, Acceptable k c d t b → b.cost ≠ .nan := by
          intro b ⟨hb, hbc⟩
          unfold RansacCfg.attempt at hb
          cases hsm : c.sample d t with
          | error e => rw [hsm] at hb; simp at hb
          | ok o =>
            rw [hsm] at hb
            cases o with
            | none =>
              simp only [Attempt.next.injEq] at hb
              rw [← hb] at hbc
              exact absurd rfl hbc
            | some data =>
              rcases evaluate_next k c data _ _ hb with h | h
              · rw [h] at hbc; exact absurd rfl hbc
              · exact (PyFloat.not_nan_of_le _ _ h.2.2).1
        cases hat : c.attempt k d t s with
        | retry =>
          have e1 : c.run k (d :: ds) (t :: ts) s = c.run k ds (t :: ts) s := by
            simp only [RansacCfg.run]; rw [hat]
          have e2 : c.passes k (d :: ds) (t :: ts) s = (d, t) :: c.passes k ds (t :: ts) s := by
            simp only [RansacCfg.passes]; rw [hat]
          rw [e1, e2]
          obtain ⟨h1, h2, h3⟩ := ih (t :: ts) s hs
          refine ⟨?_, h2, ?_⟩
          · rcases h1 with h1 | ⟨p, hp, h1⟩
            · exact Or.inl h1
            · exact Or.inr ⟨p, List.mem_cons_of_mem _ hp, h1⟩
          · intro p hp b hb
            rcases List.mem_cons.1 hp with rfl | hp
            · have := hacc b hb
              rw [hat] at this
              split at this <;> simp at this
            · exact h3 p hp b hb
        | raised e s' =>
          have hse : s' = s := by
            rcases attempt_cases k c hxy d t s with h | h | ⟨s'', data, h, _⟩ | ⟨e', h, _⟩
            · rw [h] at hat; simp at hat
            · rw [h] at hat; simp at hat
            · rw [h] at hat; simp at hat
            · rw [h] at hat; simp at hat; exact hat.2.symm
          have e1 : (c.run k (d :: ds) (t :: ts) s).best = s := by
            simp only [RansacCfg.run]; rw [hat]; exact hse
          have e2 : c.passes k (d :: ds) (t :: ts) s = [(d, t)] := by
            simp only [RansacCfg.passes]; rw [hat]
          rw [e1, e2]
          refine ⟨Or.inl rfl, PyFloat.le_refl _ hs, ?_⟩
          intro p hp b hb
          rw [List.mem_singleton] at hp
          subst hp
          have := hacc b hb
          rw [hat] at this
          split at this <;> simp at this
        | next s' =>
          have e1 : c.run k (d :: ds) (t :: ts) s = c.run k ds ts s' := by
            simp only [RansacCfg.run]; rw [hat]
          have e2 : c.passes k (d :: ds) (t :: ts) s = (d, t) :: c.passes k ds ts s' := by
            simp only [RansacCfg.passes]; rw [hat]
          rw [e1, e2]
          have hstep : s' = s ∨ (Acceptable k c d t s' ∧ s'.cost.le s.cost = true) := by
            unfold RansacCfg.attempt at hat
            cases hsm : c.sample d t with
            | error e => rw [hsm] at hat; simp at hat
            | ok o =>
              rw [hsm] at hat
              cases o with
              | none => simp only [Attempt.next.injEq] at hat; exact Or.inl hat.symm
              | some data =>
                rcases evaluate_next k c data s s' hat with h | ⟨h, h4, h5⟩
                · exact Or.inl h
                · refine Or.inr ⟨⟨?_, h4⟩, h5⟩
                  unfold RansacCfg.attempt
                  rw [hsm]
                  exact h
          have hs' : s'.cost ≠ .nan := by
            rcases hstep with h | ⟨_, h⟩
            · rw [h]; exact hs
            · exact (PyFloat.not_nan_of_le _ _ h).1
          have hle : s'.cost.le s.cost = true := by
            rcases hstep with h | ⟨_, h⟩
            · rw [h]; exact PyFloat.le_refl _ hs
            · exact h
          obtain ⟨h1, h2, h3⟩ := ih ts s' hs'
          refine ⟨?_, PyFloat.le_trans _ _ _ h2 hle, ?_⟩
          · rcases h1 with h1 | ⟨p, hp, h1⟩
            · rw [h1]
              rcases hstep with h | ⟨h, _⟩
              · exact Or.inl h
              · exact Or.inr ⟨(d, t), List.mem_cons_self, h⟩
            · exact Or.inr ⟨p, List.mem_cons_of_mem _ hp, h1⟩
          · intro p hp b hb
            rcases List.mem_cons.1 hp with rfl | hp
            · have := hacc b hb
              rw [hat] at this
              split at this
              · simp only [Attempt.next.injEq] at this
                rw [← this]
                exact h2
              · rename_i hnle
                rcases PyFloat.le_total b.cost s.cost (hnn b hb) hs with hc | hc
                · exact absurd hc hnle
                · exact PyFloat.le_trans _ _ _ (PyFloat.le_trans _ _ _ h2 hle) hc
            · exact h3 p hp b hb
  exact main tape trials s hs

end

/-! ### Concrete cases -/

/-- C59: a draw that takes the second peak first. -/
example : (Toy.cfg.sample ⟨[1], []⟩ .random).toOption =
    some (some ([.fin 20, .fin 10], [.fin 8700, .fin 5900])) := by
  decide +kernel

/-- C59: the hypotheses of the converse, for the same data. -/
example : (sampleProb (npUnique Toy.cfg.x)).toOption.isSome = true ∧ ([20, 10] : List ℚ).Nodup ∧
    ([8700, 5900] : List ℚ).Nodup ∧
    ∀ e ∈ ([20, 10] : List ℚ).zip [8700, 5900], e ∈ Toy.cfg.x.zip Toy.cfg.y := by
  decide +kernel

/-- C52: with a known pair, the data of a pass contain it. -/
example : (({ Toy.cfg with known := some ([.fin 0], [.fin 3100]) } : RansacCfg ℚ).sample ⟨[1], []⟩
    .random).toOption = some (some ([.fin 20, .fin 10, .fin 0], [.fin 8700, .fin 5900, .fin 3100])) := by
  decide +kernel

/-- C60: the two candidate pairs give an accepted solution. -/
example : Toy.finished (Toy.cfg.run Toy.kern [⟨[], []⟩] [.random] Toy.start) = some Toy.solution := by
  decide +kernel

/-- Three candidate pairs, not quite on a line. -/
def Toy.cfg3 : RansacCfg ℚ := { Toy.cfg with x := [10, 20, 40], y := [5900, 8700, 14301], nPeaks := 3 }

/-- C61: the first pass fits the first two pairs, the second the last two, which costs less. -/
example :
    let one := Toy.finished (Toy.cfg3.run Toy.kern [⟨[0, 0], []⟩] [.random] Toy.start)
    let two := Toy.finished (Toy.cfg3.run Toy.kern [⟨[0, 0], []⟩, ⟨[1, 1], []⟩] [.random, .random] Toy.start)
    let other := Toy.finished (Toy.cfg3.run Toy.kern [⟨[1, 1], []⟩] [.random] Toy.start)
    one.isSome = true ∧ two = other ∧ one ≠ two ∧
      (two.map Best.cost).any (fun c => (one.map Best.cost).any (fun d => c.le d && !d.le c)) = true := by
  decide +kernel

end Rascal
