import Verif.Model.ConvolveLines
import Verif.Props.ArcProps
import Mathlib.Data.List.Sort

/-! Property theorems C185: the arc simulated by `convolve_lines.py`. -/

set_option linter.unusedSectionVars false

namespace Rascal

section
variable {K : Type _} [Field K] [LinearOrder K] [IsStrictOrderedRing K] [FloorRing K]

theorem setMasked_zero (m : List Bool) (n : Nat) (v : List K) :
    setMasked (List.replicate n 0) m v = addMasked (List.replicate n 0) m v := by
  induction n generalizing m v with
  | zero => simp [setMasked, addMasked]
  | succ n ih =>
    rw [List.replicate_succ]
    cases m with
    | nil => simp [setMasked, addMasked]
    | cons b m => cases b <;> cases v <;> simp [setMasked, addMasked, ih]

/-- The Xe lines of the file. -/
def Spec.xenon (nist : List (Row K)) : List (Row K) := nist.filter (fun r => decide (r.elem = "Xe"))

open Spec

theorem scriptGrid_sorted (lo hi : Int) : (scriptGrid lo hi).Pairwise (· < ·) := by
  unfold scriptGrid
  rw [List.pairwise_map]
  exact List.pairwise_lt_range.imp (fun h => by omega)

theorem mem_scriptGrid (lo hi x : Int) (h1 : lo ≤ x) (h2 : x ≤ hi) : x ∈ scriptGrid lo hi := by
  unfold scriptGrid
  rw [List.mem_map]
  exact ⟨(x - lo + 50000).toNat, List.mem_range.2 (by omega), by omega⟩

/-- What the script computes from distinct rounded wavelengths: the intensities, in the order of the file, sit on the
wavelengths in increasing order. -/
theorem script_value (g : Int → K) (nist : List (Row K)) (hne : xenon nist ≠ [])
    (hnd : ((xenon nist).map (fun r => centi r.wl)).Nodup) (ks : List Int)
    (hperm : ks.Perm ((xenon nist).map (fun r => centi r.wl))) (hs : ks.Pairwise (· < ·)) :
    ∃ grid arc, convolveScript g nist = .ok (grid, arc) ∧
      (∃ lo hi, lo ∈ ks ∧ hi ∈ ks ∧ (∀ k ∈ ks, lo ≤ k ∧ k ≤ hi) ∧ grid = scriptGrid lo hi) ∧
      arc = grid.map (fun w => ((ks.zip ((xenon nist).map Row.inten)).map (fun e => e.2 * g (w - e.1))).sum) := by
  unfold convolveScript
  dsimp only
  rw [show nist.filter (fun r => decide (r.elem = "Xe")) = xenon nist from rfl]
  have hlen : ks.length = ((xenon nist).map Row.inten).length := by rw [hperm.length_eq]; simp
  cases hw : (xenon nist).map (fun r => centi r.wl) with
  | nil => exact absurd (List.map_eq_nil_iff.1 hw) hne
  | cons w ws =>
    rw [hw] at hperm hnd
    dsimp only
    have hmin : ∀ k ∈ w :: ws, listMin w ws ≤ k := by
      simpa using listMin_le w ws
    have hmax : ∀ k ∈ w :: ws, k ≤ listMax w ws := by
      simpa using le_listMax w ws
    set grid := scriptGrid (listMin w ws) (listMax w ws) with hg
    have hin : ∀ k ∈ w :: ws, k ∈ grid := fun k hk => mem_scriptGrid _ _ _ (hmin k hk) (hmax k hk)
    have hgs : grid.Pairwise (· < ·) := scriptGrid_sorted _ _
    have hcount := (count_mask grid (hgs.imp (fun h => ne_of_lt h)) (w :: ws)).2 ⟨hnd, hin⟩
    have hl2 : ((xenon nist).map Row.inten).length = (w :: ws).length := by rw [← hw]; simp
    have hms : maskedSet (grid.map (fun _ => (0 : K))) (grid.map (fun x => decide (x ∈ w :: ws)))
        ((xenon nist).map Row.inten) = .ok (grid.map (fun x =>
          (((ks.zip ((xenon nist).map Row.inten)).filter (fun e => decide (e.1 = x))).map Prod.snd).sum)) := by
      unfold maskedSet
      rw [if_pos (by rw [hl2, ← hcount])]
      congr 1
      have hz : grid.map (fun _ => (0 : K)) = List.replicate grid.length 0 := by simp
      rw [hz, setMasked_zero, ← hz]
      have hk : ∀ x, decide (x ∈ w :: ws) = decide (x ∈ ks) := fun x => decide_eq_decide.2 hperm.mem_iff.symm
      simp only [hk]
      have := addMasked_sorted (fun e : Int × K => e.1) Prod.snd grid hgs
        (ks.zip ((xenon nist).map Row.inten)) (by
          rw [show (fun e : Int × K => e.1) = Prod.fst from rfl, List.map_fst_zip (le_of_eq hlen)]; exact hs)
        (fun e he => hin _ (hperm.mem_iff.1 (List.of_mem_zip (a := e.1) (b := e.2) he).1)) (fun _ => 0)
      rw [show (fun e : Int × K => e.1) = Prod.fst from rfl, List.map_fst_zip (le_of_eq hlen),
        List.map_snd_zip (ge_of_eq hlen)] at this
      rw [this]
      simp
    rw [hms]
    dsimp only
    refine ⟨_, _, rfl, ⟨listMin w ws, listMax w ws, hperm.mem_iff.2 (listMin_mem w ws), hperm.mem_iff.2 (listMax_mem w ws),
      fun k hk => ⟨hmin k (hperm.mem_iff.1 hk), hmax k (hperm.mem_iff.1 hk)⟩, rfl⟩, ?_⟩
    have hgrid : grid = (List.range grid.length).map (fun k : Nat => listMin w ws - 50000 + (k : Int)) := by
      rw [hg]
      conv_lhs => unfold scriptGrid
      congr 2
      unfold scriptGrid
      simp
    have := convolve_lines (fun e : Int × K => e.1) Prod.snd (listMin w ws - 50000) grid.length
      (ks.zip ((xenon nist).map Row.inten)) (by
        intro e he
        have := hin _ (hperm.mem_iff.1 (List.of_mem_zip (a := e.1) (b := e.2) he).1)
        rw [hgrid, List.mem_map] at this
        obtain ⟨k, hk, hk'⟩ := this
        exact ⟨k, List.mem_range.1 hk, hk'.symm⟩) g
    have e1 : ∀ f : Int → K, grid.map f =
        (List.range grid.length).map (fun k : Nat => f (listMin w ws - 50000 + (k : Int))) := by
      intro f
      conv_lhs => rw [hgrid]
      rw [List.map_map]
      rfl
    rw [e1 (fun x => (((ks.zip ((xenon nist).map Row.inten)).filter (fun e => decide (e.1 = x))).map Prod.snd).sum), this,
      e1 (fun x => ((ks.zip ((xenon nist).map Row.inten)).map (fun e => e.2 * g (x - e.1))).sum)]

/-- C185, exactly when the script runs: some Xe line, and no two of them rounded to the same 0.01 Angstrom. -/
theorem C185_runs (g : Int → K) (nist : List (Row K)) :
    (∃ r, convolveScript g nist = .ok r) ↔ xenon nist ≠ [] ∧ ((xenon nist).map (fun r => centi r.wl)).Nodup := by
  constructor
  · rintro ⟨r, h⟩
    unfold convolveScript at h
    dsimp only at h
    rw [show nist.filter (fun r => decide (r.elem = "Xe")) = xenon nist from rfl] at h
    cases hw : (xenon nist).map (fun r => centi r.wl) with
    | nil => rw [hw] at h; cases h
    | cons w ws =>
      have hne : xenon nist ≠ [] := by intro hc; rw [hc] at hw; cases hw
      refine ⟨hne, ?_⟩
      rw [hw] at h
      dsimp only at h
      have hl2 : ((xenon nist).map Row.inten).length = (w :: ws).length := by rw [← hw]; simp
      by_contra hnd
      have hgs := (scriptGrid_sorted (listMin w ws) (listMax w ws)).imp (fun h => ne_of_lt h)
      have hc := mt (count_mask _ hgs (w :: ws)).1 (fun hc => hnd hc.1)
      unfold maskedSet at h
      rw [if_neg (by rw [hl2]; exact fun he => hc he.symm)] at h
      cases hi : (xenon nist).map Row.inten with
      | nil => rw [hi] at hl2; cases hl2
      | cons a t =>
        cases t with
        | nil =>
          rw [hi] at hl2
          cases ws with
          | nil => exact hnd (List.nodup_singleton w)
          | cons b u => simp at hl2
        | cons b u => rw [hi] at h; cases h
  · rintro ⟨hne, hnd⟩
    have hs := List.pairwise_mergeSort' (r := (· ≤ ·)) ((xenon nist).map (fun r => centi r.wl))
    have hp := List.mergeSort_perm ((xenon nist).map (fun r => centi r.wl)) (fun a b => decide (a ≤ b))
    obtain ⟨grid, arc, h, _⟩ := script_value g nist hne hnd _ hp
      ((hs.and (hp.nodup_iff.2 hnd)).imp (fun h => lt_of_le_of_ne h.1 h.2))
    exact ⟨_, h⟩

/-- C185, what holds: if the rounded wavelengths increase through the file, the arc is the sum of the kernels centred on
the lines, each with the intensity of its line. -/
theorem C185_arc_partial (g : Int → K) (nist : List (Row K)) (hne : xenon nist ≠ [])
    (hs : ((xenon nist).map (fun r => centi r.wl)).Pairwise (· < ·)) :
    ∃ grid arc, convolveScript g nist = .ok (grid, arc) ∧
      (∀ r ∈ xenon nist, ∀ j : Int, |j| ≤ 50000 → centi r.wl + j ∈ grid) ∧
      arc = grid.map (fun w => ((xenon nist).map (fun r => r.inten * g (w - centi r.wl))).sum) := by
  obtain ⟨grid, arc, h1, ⟨lo, hi, hlo, hhi, hk, hg⟩, h2⟩ :=
    script_value g nist hne (hs.imp (fun h => ne_of_lt h)) _ (List.Perm.refl _) hs
  refine ⟨grid, arc, h1, ?_, ?_⟩
  · intro r hr j hj
    have := hk _ (List.mem_map_of_mem (f := fun r : Row K => centi r.wl) hr)
    rw [abs_le] at hj
    rw [hg]
    unfold scriptGrid
    rw [List.mem_map]
    exact ⟨(centi r.wl + j - lo + 50000).toNat, List.mem_range.2 (by omega), by omega⟩
  · rw [h2]
    apply List.map_congr_left
    intro w _
    congr 1
    rw [List.zip_map', List.map_map]
    rfl

/-- C185, as intended: the arc is the sum of the kernels centred on the lines, each with the intensity of its line. -/
def C185_Statement : Prop :=
  ∀ (g : Int → ℚ) (nist : List (Row ℚ)), xenon nist ≠ [] →
    ((xenon nist).map (fun r => centi r.wl)).Nodup →
    ∃ grid arc, convolveScript g nist = .ok (grid, arc) ∧
      arc = grid.map (fun w => ((xenon nist).map (fun r => r.inten * g (w - centi r.wl))).sum)

end

open Spec

/-- Two Xe lines in decreasing order, and one of another element. -/
def Toy.falling : List (Row ℚ) :=
  [{ elem := "Xe", wl := 2, inten := 10 }, { elem := "Hg", wl := 3, inten := 7 }, { elem := "Xe", wl := 1, inten := 20 }]

/-- The same lines in increasing order. -/
def Toy.rising : List (Row ℚ) :=
  [{ elem := "Xe", wl := 1, inten := 20 }, { elem := "Hg", wl := 3, inten := 7 }, { elem := "Xe", wl := 2, inten := 10 }]

/-- Two Xe lines that round to the same wavelength. -/
def Toy.blended : List (Row ℚ) :=
  [{ elem := "Xe", wl := 1, inten := 20 }, { elem := "Xe", wl := 1 + 1 / 1000, inten := 10 }]

/-- C185 is false of the code: the lines of a file that is not in increasing order swap their intensities. -/
theorem C185_refuted : ¬ C185_Statement := by
  intro h
  have hw : (xenon Toy.falling).map (fun r => centi r.wl) = [200, 100] := by decide +kernel
  have hi : (xenon Toy.falling).map Row.inten = [10, 20] := by decide +kernel
  have hne : xenon Toy.falling ≠ [] := by intro hc; rw [hc] at hw; cases hw
  have hnd : ((xenon Toy.falling).map (fun r => centi r.wl)).Nodup := by rw [hw]; decide
  obtain ⟨grid, arc, h1, h2⟩ := h (fun j => if j = 0 then 1 else 0) Toy.falling hne hnd
  obtain ⟨grid', arc', h3, ⟨lo, hi', hlo, hhi, hb, hg⟩, h4⟩ :=
    script_value (fun j => if j = 0 then 1 else 0) Toy.falling hne hnd [100, 200] (by rw [hw]; decide) (by decide)
  have heq := Except.ok.inj (h1.symm.trans h3)
  have hgg : grid = grid' := congrArg Prod.fst heq
  have haa : arc = arc' := congrArg Prod.snd heq
  subst hgg
  rw [h2, h4, List.map_inj_left] at haa
  have hmem : (100 : Int) ∈ grid := by
    rw [hg]; exact mem_scriptGrid _ _ _ (hb 100 (by simp)).1 (hb 100 (by simp)).2
  have := haa 100 hmem
  rw [hi] at this
  revert this
  decide +kernel

/-- Case for `C185_runs`: the lines in either order give an arc, two lines rounded to the same wavelength do not. -/
example : (∃ r, convolveScript (fun _ => (1 : ℚ)) Toy.falling = .ok r) ∧
    (∃ r, convolveScript (fun _ => (1 : ℚ)) Toy.rising = .ok r) ∧
    ¬ ∃ r, convolveScript (fun _ => (1 : ℚ)) Toy.blended = .ok r := by
  refine ⟨(C185_runs _ _).2 (by decide +kernel), (C185_runs _ _).2 (by decide +kernel), fun h => ?_⟩
  exact absurd ((C185_runs _ _).1 h) (by decide +kernel)

/-- Case for `C185_arc_partial`: at 1 Angstrom only the line of intensity 20 is seen by a narrow kernel. -/
example : ∃ grid arc, convolveScript (fun j => if j = 0 then (1 : ℚ) else 0) Toy.rising = .ok (grid, arc) ∧
    ((100 : Int), (20 : ℚ)) ∈ grid.zip arc := by
  obtain ⟨grid, arc, h1, h2, h3⟩ := C185_arc_partial (fun j => if j = 0 then (1 : ℚ) else 0) Toy.rising
    (by decide +kernel) (by decide +kernel)
  refine ⟨grid, arc, h1, ?_⟩
  have hm := h2 { elem := "Xe", wl := 1, inten := 20 } (by decide +kernel) 0 (by decide)
  rw [show centi (1 : ℚ) + 0 = 100 by decide +kernel] at hm
  obtain ⟨k, hk, hk'⟩ := List.getElem_of_mem hm
  rw [h3, List.mem_iff_getElem]
  refine ⟨k, by simpa using hk, ?_⟩
  simp only [List.getElem_zip, List.getElem_map, hk']
  decide +kernel

/-- C185 for the kernel of the script: a sum of Gaussians of standard deviation 2.3 * 5000 / 1024 Angstrom, cut off 100
Angstrom from their lines. -/
theorem C185_gaussian_partial (nist : List (Row ℝ)) (hne : xenon nist ≠ [])
    (hs : ((xenon nist).map (fun r => centi r.wl)).Pairwise (· < ·)) :
    ∃ grid arc, convolveScript scriptKernel nist = .ok (grid, arc) ∧
      arc = grid.map (fun w => ((xenon nist).map (fun r => if |w - centi r.wl| ≤ 10000 then
        r.inten * Real.exp (-((((w - centi r.wl : Int) : ℝ) / 100) ^ 2) / (2 * (2.3 * (5000 / 1024)) ^ 2)) else 0)).sum) := by
  obtain ⟨grid, arc, h1, _, h2⟩ := C185_arc_partial scriptKernel nist hne hs
  refine ⟨grid, arc, h1, ?_⟩
  rw [h2]
  apply List.map_congr_left
  intro w _
  congr 1
  apply List.map_congr_left
  intro r _
  unfold scriptKernel gausFn
  by_cases h : |w - centi r.wl| ≤ 10000
  · rw [if_pos h, if_pos h, one_mul, add_zero, sub_zero]
    congr 3
    · congr 1; ring
    · norm_num
  · rw [if_neg h, if_neg h, mul_zero]

/-- Case for `C185_gaussian_partial`: one Xe line of the file. -/
example : ∃ grid arc, convolveScript scriptKernel [{ elem := "Xe", wl := 4500.98, inten := 500 }] = .ok (grid, arc) ∧
    arc = grid.map (fun w => if |w - centi (4500.98 : ℝ)| ≤ 10000 then 500 *
      Real.exp (-((((w - centi (4500.98 : ℝ) : Int) : ℝ) / 100) ^ 2) / (2 * (2.3 * (5000 / 1024)) ^ 2)) else 0) := by
  have hx : xenon [({ elem := "Xe", wl := 4500.98, inten := 500 } : Row ℝ)] =
      [{ elem := "Xe", wl := 4500.98, inten := 500 }] := rfl
  obtain ⟨grid, arc, h1, h2⟩ := C185_gaussian_partial [{ elem := "Xe", wl := 4500.98, inten := 500 }]
    (by rw [hx]; exact List.cons_ne_nil _ _) (by rw [hx]; exact List.pairwise_singleton _ _)
  refine ⟨grid, arc, h1, ?_⟩
  rw [h2]
  apply List.map_congr_left
  intro w _
  rw [hx]
  simp

end Rascal
