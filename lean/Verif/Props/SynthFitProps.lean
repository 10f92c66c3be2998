import Verif.Props.RestoreProps
import Verif.Props.SyntheticProps

/-!
Property theorems C180: calibrating a synthetic spectrum.
-/

set_option linter.unusedSectionVars false

namespace Rascal

open Spec

section
variable {K : Type _} [Field K] [LinearOrder K] [IsStrictOrderedRing K]

/-- What is assumed of the numerical routines: `polyval` of the power basis evaluates coefficients listed lowest order
first, and least squares and the robust fit find every polynomial from data on it. -/
structure Spec.ExactFits (F : FitEnv K) (M : MatchKernels K) : Prop where
  polyval : ∀ co x, (F.kern .poly).polyval co x = evalLow co x
  finds : ∀ t d, t.length = d + 1 → FindsExact (F.kern .poly) t d
  refits : ∀ t d, t.length = d + 1 → RefitsExact (F.kern .poly) M t d

/-- The call `manual_refit(px, out, degree=d)` with arrays `px`, `out`. -/
def Spec.refitOf (px out : List K) (d : Nat) : RefitArgs K :=
  { peaks := some (true, px), atlas := some (true, out), degree := some (true, (d : Int)) }

/-- `manual_refit` on given pairs that lie on the polynomial `t`. -/
theorem refit_given (F : FitEnv K) (M : MatchKernels K) (s : Session K) (b : FitType) (hb : s.basis = some b)
    (t px : List K) (d : Nat) (hd : 0 < d) (hM : RefitsExact (F.kern b) M t d)
    (hmany : d < px.dedup.length) :
    ∃ r, (s.manualRefit F M (refitOf px (px.map ((F.kern b).polyval t)) d)).2 = .ok r ∧ r.coeffs = some t := by
  have hle : px.dedup.length ≤ px.length := (List.dedup_sublist _).length_le
  have hst : s.refitStart (refitOf px (px.map ((F.kern b).polyval t)) d) = .ok (none, (d : Int)) := rfl
  unfold Session.manualRefit
  rw [hst]
  dsimp only
  rw [if_neg (by simp [Session.refitLists, refitOf]), if_pos ⟨by simp [Session.refitLists, refitOf], by
    simp only [Session.refitLists, refitOf]; omega, by omega, by simp only [Session.refitLists, refitOf]; omega⟩]
  have hl : M.robust (s.refitLists (refitOf px (px.map ((F.kern b).polyval t)) d)).1.2 (s.refitLists (refitOf px (px.map ((F.kern b).polyval t)) d)).2.2
      (d : Int).toNat none = .ok (some t) := hM px none hmany
  rw [hl]
  dsimp only
  generalize hs : s.storeRefit (refitOf px (px.map ((F.kern b).polyval t)) d) (d : Int).toNat (some t) = s1
  have hb1 : s1.basis = some b := by rw [← hs]; exact hb
  unfold Session.finishRefit
  rw [hb1]
  exact ⟨_, rfl, rfl⟩

/-- C180, what holds for linear models: refitting the pixels of a synthetic spectrum against its wavelengths gives the
coefficients it was created with.  What is missing: higher degrees. -/
theorem C180_linear_partial (F : FitEnv K) (M : MatchKernels K) (hF : ExactFits F M)
    (inv : (K → K) → List K → PyRes (List K)) (c0 c1 : K) (hc : c1 ≠ 0) (lo hi : LimitArg K) (g : Synth K)
    (hg : Synth.new (.list [c0, c1]) lo hi = .ok g) (ws px out : List K) (h : g.getPixels inv (.list ws) = .ok (px, out))
    (hmany : 1 < px.dedup.length) (s : Session K) (hb : s.basis = some .poly) :
    ∃ r, (s.manualRefit F M (refitOf px out 1)).2 =
      .ok r ∧ r.coeffs = some [c0, c1] := by
  have ho := C38_linear_partial inv c0 c1 hc lo hi g hg ws px out h
  have hv : (F.kern .poly).polyval [c0, c1] = evalLow [c0, c1] := funext (hF.polyval _)
  rw [← ho, ← hv]
  exact refit_given F M s .poly hb [c0, c1] px 1 (by simp) (hF.refits [c0, c1] 1 rfl) hmany

/-- C180, what holds for models of degree at least 2: the refit gives the coefficients the spectrum was created with in
reverse order.  What is missing: the order. -/
theorem C180_high_degree_partial (F : FitEnv K) (M : MatchKernels K) (hF : ExactFits F M)
    (inv : (K → K) → List K → PyRes (List K)) (cs : List K) (hinv : Inverts inv (evalHigh cs)) (hd : 3 ≤ cs.length)
    (lo hi : LimitArg K) (g : Synth K)
    (hg : Synth.new (.list cs) lo hi = .ok g) (ws px out : List K) (h : g.getPixels inv (.list ws) = .ok (px, out))
    (hmany : cs.length ≤ px.dedup.length) (s : Session K) (hb : s.basis = some .poly) :
    ∃ r, (s.manualRefit F M (refitOf px out (cs.length - 1))).2 = .ok r ∧ r.coeffs = some cs.reverse := by
  have ho := C38_high_degree_partial inv cs hinv hd lo hi g hg ws px out h
  have hv : (F.kern .poly).polyval cs.reverse = evalHigh cs := funext (hF.polyval _)
  rw [← ho, ← hv]
  exact refit_given F M s .poly hb cs.reverse px (cs.length - 1) (by omega)
    (hF.refits cs.reverse (cs.length - 1) (by rw [List.length_reverse]; omega)) (by omega)

/-- C180 for the whole workflow: a calibrator whose peaks are the pixels of a linear synthetic spectrum, and whose atlas
consists of its wavelengths, at least twice the tolerance apart.  From any solution that is nowhere off by the tolerance,
`match_peaks` returns the coefficients the spectrum was created with, and all pairs. -/
theorem C180_match_partial (F : FitEnv K) (M : MatchKernels K) (hF : ExactFits F M)
    (inv : (K → K) → List K → PyRes (List K)) (c0 c1 : K) (hc : c1 ≠ 0) (lo hi : LimitArg K) (g : Synth K)
    (hg : Synth.new (.list [c0, c1]) lo hi = .ok g) (ws px out : List K) (h : g.getPixels inv (.list ws) = .ok (px, out))
    (hmany : 1 < px.dedup.length) (s : Session K) (hb : s.basis = some .poly) (hp : s.world.cal.peaks = px)
    (hl : s.world.atlasLines = .ok out) (a : MatchArgs K) (u0 u1 : K) (arr : Bool) (hco : a.coeff = some (arr, [u0, u1]))
    (hr : a.refine = false) (hrob : a.robust = true) (hdeg : a.deg = none)
    (hsep : out.Pairwise (fun u v => 2 * a.tol ≤ |u - v|)) (hoff : ∀ p ∈ px, |c0 + p * c1 - (u0 + p * u1)| < a.tol) :
    ∃ s' r, s.matchPeaks F M a = (s', .ok (.report r)) ∧ r.coeffs = [c0, c1] ∧ r.peaks = px ∧ r.atlas = out := by
  have ho := C38_linear_partial inv c0 c1 hc lo hi g hg ws px out h
  have hv : (F.kern .poly).polyval [c0, c1] = evalLow [c0, c1] := funext (hF.polyval _)
  have hd : a.deg.getD (([u0, u1] : List K).length - 1) = 1 := by rw [hdeg]; rfl
  obtain ⟨s', r, h1, h2, _, h4, h5, _⟩ := C178_separated F M s a .poly [u0, u1] out [c0, c1] hb (.inl ⟨arr, hco⟩)
    (by simp) (by rw [hco]; simp) hr hrob hl (by rw [hd]; exact hF.finds _ _ rfl) (by rw [hd]; exact hF.refits _ _ rfl)
    hsep (by
      rw [hp, hv, ← ho]
      intro p hp
      exact List.mem_map_of_mem hp)
    (by
      rw [hp]
      intro p hp
      rw [hF.polyval, hF.polyval]
      simpa [evalLow] using hoff p hp) (by rw [hd, hp]; exact hmany)
  exact ⟨s', r, h1, h2, h4.trans hp, by rw [h5, hp, hv, ho]⟩

end

/-! ### refutation and concrete cases -/

section

open Classical in
/-- A robust fit that finds the polynomial behind the data, if there is one. -/
noncomputable def Toy.exactRobust (xs ys : List ℚ) (d : Nat) : PyRes (Option (List ℚ)) :=
  if h : ∃ t : List ℚ, t.length = d + 1 ∧ ys = xs.map (evalLow t) then .ok (some h.choose) else .error .valueError

/-- Least squares of the same kind. -/
noncomputable def Toy.exactEnv : FitEnv ℚ :=
  { Toy.env with kern := fun _ =>
    { Toy.kern with
      polyval := evalLow
      polyfit := fun xs ys d => match Toy.exactRobust (Toy.finites xs) (Toy.finites ys) d with
        | .ok (some t) => .ok t
        | _ => .error .valueError
      robust := fun xs ys d => match Toy.exactRobust xs ys d with
        | .ok (some t) => .ok t
        | _ => .error .valueError } }

noncomputable def Toy.exactKern : MatchKernels ℚ :=
  { Toy.mkern with robust := fun xs ys d _ => Toy.exactRobust xs ys d }

theorem Toy.exactRobust_finds (t xs : List ℚ) (d : Nat) (ht : t.length = d + 1) (h : d < xs.dedup.length) :
    Toy.exactRobust xs (xs.map (evalLow t)) d = .ok (some t) := by
  have hex : ∃ u : List ℚ, u.length = d + 1 ∧ xs.map (evalLow t) = xs.map (evalLow u) := ⟨t, ht, rfl⟩
  unfold Toy.exactRobust
  rw [dif_pos hex]
  have hu := hex.choose_spec
  generalize hex.choose = u at hu
  have : u = t := by
    apply evalLow_ext u t (by rw [hu.1, ht]) xs
    · rw [List.card_toFinset, hu.1]
      exact h
    · intro x hx
      exact (List.map_inj_left.1 hu.2 x hx).symm
  rw [this]

/-- The hypothesis `ExactFits` can be met. -/
theorem Toy.exactFits : ExactFits Toy.exactEnv Toy.exactKern where
  polyval := fun _ _ => rfl
  finds := by
    intro t d ht
    refine ⟨?_, ?_, ?_⟩
    · intro xs h
      show (match Toy.exactRobust (Toy.finites _) (Toy.finites _) d with
        | .ok (some t) => Except.ok t
        | _ => Except.error PyErr.valueError) = _
      have e : (fun p => PyFloat.fin ((Toy.exactEnv.kern .poly).polyval t p)) = PyFloat.fin ∘ evalLow t := rfl
      rw [e, ← List.map_map, Toy.finites_fin, Toy.finites_fin, Toy.exactRobust_finds t xs d ht h]
    · intro xs h
      show (match Toy.exactRobust xs (xs.map (evalLow t)) d with
        | .ok (some t) => Except.ok t
        | _ => Except.error PyErr.valueError) = _
      rw [Toy.exactRobust_finds t xs d ht h]
    · show Toy.kern.sqrt 0 = 0
      decide +kernel
  refits := fun t d ht xs _ h => Toy.exactRobust_finds t xs d ht h

end

/-- The expected behaviour: refitting the pixels of a synthetic spectrum against its wavelengths gives the coefficients
it was created with. -/
def C180_Statement : Prop :=
  ∀ (F : FitEnv ℚ) (M : MatchKernels ℚ), ExactFits F M → ∀ (inv : (ℚ → ℚ) → List ℚ → PyRes (List ℚ)) (cs : List ℚ),
    2 ≤ cs.length → cs.getLastD 0 ≠ 0 → Inverts inv (evalHigh cs) → ∀ (lo hi : LimitArg ℚ) (g : Synth ℚ),
    Synth.new (.list cs) lo hi = .ok g → ∀ ws px out : List ℚ, g.getPixels inv (.list ws) = .ok (px, out) →
    cs.length ≤ px.dedup.length → ∀ s : Session ℚ, s.basis = some .poly →
    ∃ r, (s.manualRefit F M (refitOf px out (cs.length - 1))).2 = .ok r ∧ r.coeffs = some cs

/-- A way to invert x² + 10 x + 50 at four values. -/
def Toy.invert (_ : ℚ → ℚ) (ys : List ℚ) : PyRes (List ℚ) :=
  if ys = [50, 61, 74, 89] then .ok [0, 1, 2, 3] else .error .valueError

theorem Toy.invert_inverts : Inverts Toy.invert (evalHigh [1, 10, 50]) := by
  intro ys xs h
  unfold Toy.invert at h
  split at h
  · rename_i hy
    cases h
    rw [hy]
    decide +kernel
  · cases h

theorem Toy.invert_refit : ∃ r, (Toy.pair.manualRefit Toy.exactEnv Toy.exactKern
    (refitOf [0, 1, 2, 3] [50, 61, 74, 89] 2)).2 = .ok r ∧ r.coeffs = some [50, 10, 1] :=
  C180_high_degree_partial Toy.exactEnv Toy.exactKern Toy.exactFits Toy.invert [1, 10, 50] Toy.invert_inverts (by simp)
    (.float (.fin 0)) (.float (.fin 900)) _ rfl [50, 61, 74, 89] [0, 1, 2, 3] [50, 61, 74, 89] (by decide +kernel)
    (by decide +kernel) Toy.pair (by decide +kernel)

/-- C180 is false: the synthetic spectrum of x² + 10 x + 50 is created with the coefficients [1, 10, 50], the refit
gives [50, 10, 1]. -/
theorem C180_refuted : ¬ C180_Statement := by
  intro h
  obtain ⟨r, h1, h2⟩ := h Toy.exactEnv Toy.exactKern Toy.exactFits Toy.invert [1, 10, 50] (by simp) (by decide +kernel)
    Toy.invert_inverts (.float (.fin 0)) (.float (.fin 900)) _ rfl [50, 61, 74, 89] [0, 1, 2, 3] [50, 61, 74, 89]
    (by decide +kernel) (by decide +kernel) Toy.pair (by decide +kernel)
  obtain ⟨r', h3, h4⟩ := Toy.invert_refit
  have h1' : (Toy.pair.manualRefit Toy.exactEnv Toy.exactKern (refitOf [0, 1, 2, 3] [50, 61, 74, 89] 2)).2 = .ok r := h1
  rw [h3] at h1'
  rw [← Except.ok.inj h1', h4] at h2
  revert h2
  decide +kernel

/-- A case for `C180_linear_partial`. -/
example : ∃ r, (Toy.pair.manualRefit Toy.exactEnv Toy.exactKern (refitOf [10, 20] [5900, 8700] 1)).2 = .ok r ∧
    r.coeffs = some [3100, 280] :=
  C180_linear_partial Toy.exactEnv Toy.exactKern Toy.exactFits Toy.invert 3100 280 (by norm_num) (.float (.fin 4000))
    (.float (.fin 9000)) _ rfl [3900, 5900, 8700, 9100] [10, 20] [5900, 8700] (by decide +kernel) (by decide +kernel)
    Toy.pair (by decide +kernel)

/-- A case for `C180_match_partial`. -/
example : ∃ s' r, Toy.pair.matchPeaks Toy.exactEnv Toy.exactKern Toy.matchArgs = (s', .ok (.report r)) ∧
    r.coeffs = [3100, 280] ∧ r.peaks = [10, 20] ∧ r.atlas = [5900, 8700] :=
  C180_match_partial Toy.exactEnv Toy.exactKern Toy.exactFits Toy.invert 3100 280 (by norm_num) (.float (.fin 4000))
    (.float (.fin 9000)) _ rfl [3900, 5900, 8700, 9100] [10, 20] [5900, 8700] (by decide +kernel) (by decide +kernel)
    Toy.pair (by decide +kernel) (by decide +kernel) (by decide +kernel) Toy.matchArgs 3101 280 true rfl rfl rfl rfl
    (by decide +kernel) (by decide +kernel)

end Rascal
