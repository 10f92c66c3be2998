import Verif.Proofs.SessionLemmas
import Verif.Proofs.ToySession
import Verif.Spec.Edit
import Mathlib.Data.List.InsertIdx

/-! Property theorems C75, C76 and C97: editing the pixel-wavelength pairs. -/

set_option linter.unusedSectionVars false

namespace Rascal

open Spec

section
variable {K : Type _} [Field K] [LinearOrder K] [IsStrictOrderedRing K]

/-- The matched pairs of a session. -/
def Session.pairs (s : Session K) : List (K × K) := s.world.cal.matchedPeaks.zip s.world.cal.matchedAtlas

/-- Everything but the matched pairs and the types of the two lists is as before. -/
def OnlyPairsChange (s s' : Session K) : Prop :=
  ∃ p w, s' = { s with peaksArr := true, atlasKind := .array,
                       world := { s.world with cal := { s.world.cal with matchedPeaks := p, matchedAtlas := w } } }

theorem getPairs_listing (s : Session K) (h : s.atlasKind ≠ .absent) :
    s.getPairs = .ok (listing s.pairs) := by
  unfold Session.getPairs listing Session.pairs
  cases hk : s.atlasKind with
  | absent => exact absurd hk h
  | list => simp only [List.mapIdx_eq_zipIdx_map]
  | array => simp only [List.mapIdx_eq_zipIdx_map]

theorem insertIdx_split {α : Type _} (l : List α) (i : Nat) (h : i ≤ l.length) (a : α) :
    l.insertIdx i a = l.take i ++ a :: l.drop i := by
  induction l generalizing i with
  | nil =>
    have : i = 0 := by simpa using h
    subst this; rfl
  | cons b l ih =>
    cases i with
    | zero => rfl
    | succ i => simp [ih i (by simpa using h)]

theorem eraseIdx_split {α : Type _} (l : List α) (i : Nat) :
    l.eraseIdx i = l.take i ++ l.drop (i + 1) := List.eraseIdx_eq_take_drop_succ l i

theorem zip_append_take {α β : Type _} (a : List α) (b : List β) (i : Nat) (h : a.length = b.length) :
    a.zip b = (a.take i).zip (b.take i) ++ (a.drop i).zip (b.drop i) := by
  rw [← List.zip_append (by simp [h]), List.take_append_drop, List.take_append_drop]

theorem addPair_insert [FloorRing K] (s : Session K) (hk : s.atlasKind ≠ .absent) (n : Bool)
    (pix wave : K) (hc : ¬ (!s.peaksArr && !n) = true) (i : Nat)
    (hf : s.world.cal.matchedPeaks.findIdx? (fun p => decide (pix > p)) = some i)
    (hgo : ¬ s.world.cal.matchedAtlas.length < i) :
    s.addPair n pix wave = (s.setPairs (s.world.cal.matchedPeaks.insertIdx i (s.storedPix pix))
      (s.world.cal.matchedAtlas.insertIdx i wave), .ok ()) := by
  unfold Session.addPair
  rw [if_neg hc, hf]
  cases hk' : s.atlasKind with
  | absent => exact absurd hk' hk
  | list => simp only [if_neg hgo]
  | array => simp only [if_neg hgo]

theorem addPair_fail [FloorRing K] (s : Session K) (n : Bool) (pix wave : K)
    (h : (!s.peaksArr && !n) = true ∨
      s.world.cal.matchedPeaks.findIdx? (fun p => decide (pix > p)) = none) :
    ∃ e, s.addPair n pix wave = (s, .error e) := by
  unfold Session.addPair
  by_cases hc : (!s.peaksArr && !n) = true
  · rw [if_pos hc]; exact ⟨_, rfl⟩
  · rw [if_neg hc]
    rcases h with h | h
    · exact absurd h hc
    · rw [h]; exact ⟨_, rfl⟩

/-! ### C75 -/

/-- C75, additions: exactly when the stored peaks are an array or the pixel is a numpy number, and some
stored peak is smaller, the pair is inserted, before the first smaller peak; otherwise the call raises
and changes nothing. -/
theorem C75_add [FloorRing K] (s : Session K) (hk : s.atlasKind ≠ .absent)
    (hl : s.world.cal.matchedPeaks.length = s.world.cal.matchedAtlas.length) (n : Bool) (pix wave : K) :
    ((s.addPair n pix wave).2 = .ok () ↔
      (s.peaksArr = true ∨ n = true) ∧ ∃ p ∈ s.world.cal.matchedPeaks, p < pix) ∧
    ((s.addPair n pix wave).2 ≠ .ok () → (s.addPair n pix wave).1 = s) ∧
    ((s.addPair n pix wave).2 = .ok () →
      OnlyPairsChange s (s.addPair n pix wave).1 ∧
      (s.addPair n pix wave).1.world.cal.matchedPeaks.length =
        (s.addPair n pix wave).1.world.cal.matchedAtlas.length ∧
      ∃ l₁ e l₂, s.pairs = l₁ ++ e :: l₂ ∧ (∀ x ∈ l₁, pix ≤ x.1) ∧ e.1 < pix ∧
        (s.addPair n pix wave).1.pairs = l₁ ++ (s.storedPix pix, wave) :: e :: l₂) := by
  by_cases hc : (!s.peaksArr && !n) = true
  · obtain ⟨e, he⟩ := addPair_fail s n pix wave (.inl hc)
    rw [he]
    simp only [Bool.and_eq_true, Bool.not_eq_true'] at hc
    refine ⟨⟨fun h => (by cases h), fun h => ?_⟩, fun _ => rfl, fun h => (by cases h)⟩
    rcases h.1 with h1 | h1
    · rw [hc.1] at h1; cases h1
    · rw [hc.2] at h1; cases h1
  · have hc' : s.peaksArr = true ∨ n = true := by
      cases hp : s.peaksArr <;> cases hn : n <;> simp_all
    cases hf : s.world.cal.matchedPeaks.findIdx? (fun p => decide (pix > p)) with
    | none =>
      obtain ⟨e, he⟩ := addPair_fail s n pix wave (.inr hf)
      rw [he]
      rw [List.findIdx?_eq_none_iff] at hf
      refine ⟨⟨fun h => (by cases h), fun h => ?_⟩, fun _ => rfl, fun h => (by cases h)⟩
      obtain ⟨p, hp, hlt⟩ := h.2
      have := hf p hp
      simp only [decide_eq_false_iff_not] at this
      exact absurd hlt this
    | some i =>
      have hf' := hf
      rw [List.findIdx?_eq_some_iff_getElem] at hf
      obtain ⟨hi, hlt, hbefore⟩ := hf
      simp only [decide_eq_true_eq] at hlt
      have hgo : ¬ s.world.cal.matchedAtlas.length < i := by omega
      have hok : (∃ p ∈ s.world.cal.matchedPeaks, p < pix) := ⟨_, List.getElem_mem hi, hlt⟩
      rw [addPair_insert s hk n pix wave hc i hf' hgo]
      refine ⟨⟨fun _ => ⟨hc', hok⟩, fun _ => rfl⟩, fun h => absurd rfl h, fun _ => ⟨⟨_, _, rfl⟩, ?_, ?_⟩⟩
      · show (s.world.cal.matchedPeaks.insertIdx i (s.storedPix pix)).length =
          (s.world.cal.matchedAtlas.insertIdx i wave).length
        rw [List.length_insertIdx_of_le_length (by omega), List.length_insertIdx_of_le_length (by omega), hl]
      · have hia : i < s.world.cal.matchedAtlas.length := by omega
        refine ⟨(s.world.cal.matchedPeaks.take i).zip (s.world.cal.matchedAtlas.take i),
          (s.world.cal.matchedPeaks[i], s.world.cal.matchedAtlas[i]),
          (s.world.cal.matchedPeaks.drop (i + 1)).zip (s.world.cal.matchedAtlas.drop (i + 1)), ?_, ?_, hlt, ?_⟩
        · unfold Session.pairs
          rw [zip_append_take _ _ i hl, List.drop_eq_getElem_cons hi, List.drop_eq_getElem_cons hia,
            List.zip_cons_cons]
        · intro x hx
          obtain ⟨j, hj, hjx⟩ := List.getElem_of_mem (List.of_mem_zip hx).1
          have hj' : j < i := by
            rw [List.length_take] at hj; omega
          have := hbefore j hj'
          simp only [decide_eq_true_eq, not_lt, gt_iff_lt] at this
          rw [List.getElem_take] at hjx
          rw [← hjx]
          exact this
        · show (s.world.cal.matchedPeaks.insertIdx i (s.storedPix pix)).zip
            (s.world.cal.matchedAtlas.insertIdx i wave) = _
          rw [insertIdx_split _ _ (by omega), insertIdx_split _ _ (by omega),
            List.zip_append (by simp [hl]), List.zip_cons_cons, List.drop_eq_getElem_cons hi,
            List.drop_eq_getElem_cons hia, List.zip_cons_cons]

/-- C75, removals: exactly for a position shown by `get_pix_wave_pairs`, or a negative position counted
from the end, the pair at that position is deleted; otherwise the call raises and changes nothing. -/
theorem C75_remove (s : Session K) (hk : s.atlasKind ≠ .absent)
    (hl : s.world.cal.matchedPeaks.length = s.world.cal.matchedAtlas.length) (i : Int) :
    ((s.removePair i).2 = .ok () ↔ -(s.pairs.length : Int) ≤ i ∧ i < (s.pairs.length : Int)) ∧
    ((s.removePair i).2 ≠ .ok () → (s.removePair i).1 = s) ∧
    ((s.removePair i).2 = .ok () →
      OnlyPairsChange s (s.removePair i).1 ∧
      (s.removePair i).1.world.cal.matchedPeaks.length = (s.removePair i).1.world.cal.matchedAtlas.length ∧
      Deleted i s.pairs (s.removePair i).1.pairs) := by
  have hn : s.pairs.length = s.world.cal.matchedPeaks.length := by
    unfold Session.pairs; simp [hl]
  rw [hn]
  have hres : s.removePair i =
      (match npDelete s.world.cal.matchedPeaks i with
        | .error e => (s, .error e)
        | .ok p =>
          match npDelete s.world.cal.matchedAtlas i with
          | .error e => (s, .error e)
          | .ok w => (s.setPairs p w, .ok ())) := by
    unfold Session.removePair
    cases hk' : s.atlasKind with
    | absent => exact absurd hk' hk
    | list => rfl
    | array => rfl
  rw [hres]
  unfold npDelete
  rw [← hl]
  by_cases hb : i < -(s.world.cal.matchedPeaks.length : Int) ∨ (s.world.cal.matchedPeaks.length : Int) ≤ i
  · rw [if_pos hb]
    refine ⟨⟨fun h => (by cases h), fun h => (by omega)⟩, fun _ => rfl, fun h => by cases h⟩
  · rw [if_neg hb, if_neg hb]
    refine ⟨⟨fun _ => (by omega), fun _ => rfl⟩, fun h => absurd rfl h, fun _ => ⟨⟨_, _, rfl⟩, ?_⟩⟩
    generalize hj : (if i < 0 then (i + (s.world.cal.matchedPeaks.length : Int)).toNat else i.toNat) = j
    have hjl : j < s.world.cal.matchedPeaks.length := by split at hj <;> omega
    have hja : j < s.world.cal.matchedAtlas.length := by omega
    have hij : i = j ∨ i = (j : Int) - (s.world.cal.matchedPeaks.length : Int) := by split at hj <;> omega
    refine ⟨?_, (s.world.cal.matchedPeaks.take j).zip (s.world.cal.matchedAtlas.take j),
      (s.world.cal.matchedPeaks[j], s.world.cal.matchedAtlas[j]),
      (s.world.cal.matchedPeaks.drop (j + 1)).zip (s.world.cal.matchedAtlas.drop (j + 1)), ?_, ?_, ?_⟩
    · show (s.world.cal.matchedPeaks.eraseIdx j).length = (s.world.cal.matchedAtlas.eraseIdx j).length
      rw [List.length_eraseIdx_of_lt hjl, List.length_eraseIdx_of_lt hja, hl]
    · unfold Session.pairs
      rw [zip_append_take _ _ j hl, List.drop_eq_getElem_cons hjl, List.drop_eq_getElem_cons hja,
        List.zip_cons_cons]
    · show (s.world.cal.matchedPeaks.eraseIdx j).zip (s.world.cal.matchedAtlas.eraseIdx j) = _
      rw [eraseIdx_split, eraseIdx_split, List.zip_append (by simp [hl])]
    · rw [hn]
      have : ((s.world.cal.matchedPeaks.take j).zip (s.world.cal.matchedAtlas.take j)).length = j := by
        simp; omega
      rw [this]
      exact hij

/-- One editing call. -/
def Session.edit [FloorRing K] (s : Session K) : Edit K → Session K × PyRes Unit
  | .add n pix wave => s.addPair n pix wave
  | .remove i => s.removePair i

/-- The session after a history of editing calls. -/
def Session.edits [FloorRing K] (s : Session K) (h : List (Edit K)) : Session K :=
  h.foldl (fun s e => (s.edit e).1) s

/-- Which calls of a history returned. -/
def Session.editFlags [FloorRing K] (s : Session K) : List (Edit K) → List Bool
  | [] => []
  | e :: h => (s.edit e).2.toBool :: Session.editFlags (s.edit e).1 h

/-- C75: a history of editing calls acts on the one list of pairs that `get_pix_wave_pairs` shows. -/
theorem C75_history [FloorRing K] (s : Session K) (hk : s.atlasKind ≠ .absent)
    (hl : s.world.cal.matchedPeaks.length = s.world.cal.matchedAtlas.length) (h : List (Edit K)) :
    s.getPairs = .ok (listing s.pairs) ∧
    (s.edits h).getPairs = .ok (listing (s.edits h).pairs) ∧
    (s.edits h).world.cal.matchedPeaks.length = (s.edits h).world.cal.matchedAtlas.length ∧
    Edited s.pairs (h.zip (s.editFlags h)) (s.edits h).pairs := by
  refine ⟨getPairs_listing s hk, ?_⟩
  induction h generalizing s with
  | nil => exact ⟨getPairs_listing s hk, hl, .nil _⟩
  | cons e h ih =>
    have hrun : s.edits (e :: h) = (s.edit e).1.edits h := rfl
    have hflag : s.editFlags (e :: h) = (s.edit e).2.toBool :: (s.edit e).1.editFlags h := rfl
    rw [hrun, hflag, List.zip_cons_cons]
    by_cases hok : (s.edit e).2 = .ok ()
    · have hb : (s.edit e).2.toBool = true := by rw [hok]; rfl
      rw [hb]
      cases e with
      | add n pix wave =>
        obtain ⟨_, _, h3⟩ := C75_add s hk hl n pix wave
        obtain ⟨⟨p, w, g0⟩, g2, l₁, x, l₂, g3, _, _, g4⟩ := h3 hok
        have hk' : ((s.edit (.add n pix wave)).1).atlasKind ≠ .absent := by
          show (s.addPair n pix wave).1.atlasKind ≠ .absent
          rw [g0]
          exact fun hh => by cases hh
        obtain ⟨q1, q2, q3⟩ := ih (s.edit (.add n pix wave)).1 hk' g2
        exact ⟨q1, q2, .add n pix wave (s.storedPix pix) _ _ _ _ ⟨l₁, x :: l₂, g3, g4⟩ q3⟩
      | remove i =>
        obtain ⟨_, _, h3⟩ := C75_remove s hk hl i
        obtain ⟨⟨p, w, g0⟩, g2, g3⟩ := h3 hok
        have hk' : ((s.edit (.remove i)).1).atlasKind ≠ .absent := by
          show (s.removePair i).1.atlasKind ≠ .absent
          rw [g0]
          exact fun hh => by cases hh
        obtain ⟨q1, q2, q3⟩ := ih (s.edit (.remove i)).1 hk' g2
        exact ⟨q1, q2, .remove i _ _ _ _ g3 q3⟩
    · have hb : (s.edit e).2.toBool = false := by
        cases hx : (s.edit e).2 with
        | ok u => exact absurd hx hok
        | error e => rfl
      have hs : (s.edit e).1 = s := by
        cases e with
        | add n pix wave => exact (C75_add s hk hl n pix wave).2.1 hok
        | remove i => exact (C75_remove s hk hl i).2.1 hok
      rw [hb, hs]
      obtain ⟨q1, q2, q3⟩ := ih s hk hl
      exact ⟨q1, q2, .failed _ _ _ _ q3⟩

/-- C75, the hypotheses are met: after any history of calls on a new calibrator the two lists have the
same length, unless `matched_atlas` is None. -/
theorem C75_reachable [FloorRing K] (E : CalEnv K) (F : FitEnv K) (M : MatchKernels K)
    (interp : List K → PyRes Unit) (peaks : List K) (arr int : Bool) (spectrum : Option (List K))
    (atlases : List (Atlas K)) (c : Cal K) (hc : Cal.new interp peaks arr spectrum = .ok c)
    (h : List (SessionCall K)) :
    ((Session.new ⟨atlases, c⟩ int).calls E F M h).atlasKind = .absent ∨
    ((Session.new ⟨atlases, c⟩ int).calls E F M h).world.cal.matchedPeaks.length =
      ((Session.new ⟨atlases, c⟩ int).calls E F M h).world.cal.matchedAtlas.length := by
  have h0 : MatchesAligned (Session.new ⟨atlases, c⟩ int) := by
    right
    unfold Cal.new at hc
    split at hc
    · cases hc
    · split at hc
      · cases hc
      · cases hc; rfl
  have hstep : ∀ (s : Session K) (x : SessionCall K), MatchesAligned s → MatchesAligned (s.call E F M x) := by
    intro s x hs
    cases x with
    | set op =>
      have := (step_results E s.world op).result
      rcases hs with hs | hs
      · exact .inl hs
      · right
        show (s.world.step E op).1.cal.matchedPeaks.length = (s.world.step E op).1.cal.matchedAtlas.length
        rw [this.matchedPeaks, this.matchedAtlas, hs]
    | fit a arr rnd => exact fit_aligned F s hs a arr rnd
    | matchPeaks a => exact match_aligned F M s hs a
    | manualRefit a => exact manual_aligned F M s hs a
    | addPair n p v =>
      by_cases hk : s.atlasKind = .absent
      · left
        show (s.addPair n p v).1.atlasKind = .absent
        unfold Session.addPair
        split
        · exact hk
        · split
          · exact hk
          · rw [hk]
            exact hk
      · obtain ⟨_, h2, h3⟩ := C75_add s hk (hs.resolve_left hk) n p v
        by_cases ho : (s.addPair n p v).2 = .ok ()
        · exact .inr (h3 ho).2.1
        · have := h2 ho
          show MatchesAligned (s.addPair n p v).1
          rw [this]
          exact hs
    | removePair i =>
      by_cases hk : s.atlasKind = .absent
      · left
        show (s.removePair i).1.atlasKind = .absent
        unfold Session.removePair
        rw [hk]
        exact hk
      · obtain ⟨_, h2, h3⟩ := C75_remove s hk (hs.resolve_left hk) i
        by_cases ho : (s.removePair i).2 = .ok ()
        · exact .inr (h3 ho).2.1
        · have := h2 ho
          show MatchesAligned (s.removePair i).1
          rw [this]
          exact hs
  unfold Session.calls
  generalize Session.new ⟨atlases, c⟩ int = s at h0 ⊢
  induction h generalizing s with
  | nil => exact h0
  | cons x h ih => exact ih _ (hstep s x h0)

/-! ### C76 -/

/-- C76, what holds: peaks in descending order stay in descending order.  What is missing: peaks in
ascending order, which is how `match_peaks` returns them; and the smallest pixel cannot be added
(`C75_add`). -/
theorem C76_descending_partial [FloorRing K] (s : Session K) (hk : s.atlasKind ≠ .absent)
    (hl : s.world.cal.matchedPeaks.length = s.world.cal.matchedAtlas.length) (hint : s.matchedInt = false)
    (hd : (s.pairs.map Prod.fst).Pairwise (fun a b => b ≤ a)) (n : Bool) (pix wave : K)
    (hok : (s.addPair n pix wave).2 = .ok ()) :
    ((s.addPair n pix wave).1.pairs.map Prod.fst).Pairwise (fun a b => b ≤ a) := by
  obtain ⟨_, _, h3⟩ := C75_add s hk hl n pix wave
  obtain ⟨_, _, l₁, e, l₂, g1, g2, g3, g4⟩ := h3 hok
  have hst : s.storedPix pix = pix := by unfold Session.storedPix; rw [hint]; rfl
  rw [g1] at hd
  rw [g4, hst]
  simp only [List.map_append, List.map_cons, List.pairwise_append, List.pairwise_cons] at hd ⊢
  obtain ⟨d1, ⟨d2, d3⟩, d4⟩ := hd
  refine ⟨d1, ⟨?_, d2, d3⟩, ?_⟩
  · intro b hb
    rcases List.mem_cons.1 hb with rfl | hb
    · exact g3.le
    · exact (d2 b hb).trans g3.le
  · intro a ha b hb
    rcases List.mem_cons.1 hb with rfl | hb
    · obtain ⟨x, hx, rfl⟩ := List.mem_map.1 ha
      exact g2 x hx
    · exact d4 a ha b hb

/-- C76, what happens instead: with the peaks in ascending order a pair that can be added always goes to
the front, before a smaller peak. -/
theorem C76_ascending_front_partial [FloorRing K] (s : Session K) (hk : s.atlasKind ≠ .absent)
    (hl : s.world.cal.matchedPeaks.length = s.world.cal.matchedAtlas.length)
    (ha : (s.pairs.map Prod.fst).Pairwise (fun a b => a ≤ b)) (n : Bool) (pix wave : K)
    (hok : (s.addPair n pix wave).2 = .ok ()) :
    (s.addPair n pix wave).1.pairs = (s.storedPix pix, wave) :: s.pairs ∧
      ∃ e l, s.pairs = e :: l ∧ e.1 < pix := by
  obtain ⟨_, _, h3⟩ := C75_add s hk hl n pix wave
  obtain ⟨_, _, l₁, e, l₂, g1, g2, g3, g4⟩ := h3 hok
  cases l₁ with
  | nil => exact ⟨by rw [g4, g1]; rfl, e, l₂, g1, g3⟩
  | cons x l₁ =>
    exfalso
    rw [g1] at ha
    simp only [List.cons_append, List.map_cons, List.map_append, List.pairwise_cons, List.mem_append,
      List.mem_cons] at ha
    have h1 := ha.1 e.1 (.inr (.inl rfl))
    have h2 := g2 x (by simp)
    exact absurd (lt_of_le_of_lt (h2.trans h1) g3) (lt_irrefl _)

/-! ### C97 -/

/-- C97, what holds: the pair is stored exactly unless the stored peaks are integers; then the pixel is
cut off towards zero.  What is missing: pixels with a fraction and integer peaks. -/
theorem C97_stored_pixel_partial [FloorRing K] (s : Session K) (hk : s.atlasKind ≠ .absent)
    (hl : s.world.cal.matchedPeaks.length = s.world.cal.matchedAtlas.length) (n : Bool) (pix wave : K)
    (hok : (s.addPair n pix wave).2 = .ok ()) :
    ∃ v, Inserted (v, wave) s.pairs (s.addPair n pix wave).1.pairs ∧
      (s.matchedInt = false → v = pix) ∧
      (s.matchedInt = true → (∃ z : Int, v = z) ∧ |v| ≤ |pix| ∧ |pix - v| < 1) := by
  obtain ⟨_, _, h3⟩ := C75_add s hk hl n pix wave
  obtain ⟨_, _, l₁, e, l₂, g1, g2, g3, g4⟩ := h3 hok
  refine ⟨s.storedPix pix, ⟨l₁, e :: l₂, g1, g4⟩, ?_, ?_⟩
  · intro h; unfold Session.storedPix; rw [h]; rfl
  · intro h
    unfold Session.storedPix
    rw [h, if_pos rfl]
    split
    · rename_i h0
      have hf0 : (0 : K) ≤ (⌊pix⌋ : K) := by exact_mod_cast Int.floor_nonneg.2 h0
      refine ⟨⟨_, rfl⟩, ?_, ?_⟩
      · rw [abs_of_nonneg hf0, abs_of_nonneg h0]; exact Int.floor_le pix
      · rw [abs_of_nonneg (by linarith [Int.floor_le pix])]; linarith [Int.lt_floor_add_one pix]
    · rename_i h0
      have h0' : pix ≤ 0 := (not_le.1 h0).le
      have hf0 : (⌈pix⌉ : K) ≤ 0 := by exact_mod_cast Int.ceil_nonpos.2 h0'
      refine ⟨⟨_, rfl⟩, ?_, ?_⟩
      · rw [abs_of_nonpos hf0, abs_of_nonpos h0']; linarith [Int.le_ceil pix]
      · rw [abs_of_nonpos (by linarith [Int.le_ceil pix])]; linarith [Int.ceil_lt_add_one pix]

end

/-! ### refutations -/

set_option synthInstance.maxSize 2000
set_option synthInstance.maxHeartbeats 400000

/-- A session after `match_peaks` with the peaks 10 and 20. -/
def Toy.matched (int : Bool) : Option (Session ℚ) :=
  (Toy.session [10, 20] int [5900, 8700]).toOption.map (fun s => (s.matchPeaks Toy.env Toy.mkern
    { coeff := some (true, [3100, 280]), tol := 10, minFrac := 1 / 2 }).1)

/-- The expected behaviour: any pixel can be added to an ascending list and it stays ascending. -/
def C76_Statement : Prop :=
  ∀ s : Session ℚ, s.atlasKind ≠ .absent → s.peaksArr = true → s.matchedInt = false →
    s.world.cal.matchedPeaks.length = s.world.cal.matchedAtlas.length →
    (s.pairs.map Prod.fst).Pairwise (fun a b => a ≤ b) → ∀ pix wave : ℚ,
    (s.addPair false pix wave).2 = .ok () ∧
      ((s.addPair false pix wave).1.pairs.map Prod.fst).Pairwise (fun a b => a ≤ b)

/-- Adding 15 to 10, 20 gives 15, 10, 20; adding 5 raises. -/
theorem C76_refuted : ¬ C76_Statement := by
  intro h
  have hc : (Toy.matched false).map (fun s => (s.atlasKind, s.peaksArr, s.matchedInt,
      s.world.cal.matchedPeaks, s.world.cal.matchedAtlas,
      (s.addPair false 15 7300).1.world.cal.matchedPeaks, Toy.raised (s.addPair false 5 4500))) =
      some (.array, true, false, [10, 20], [5900, 8700], [15, 10, 20], some .indexError) := by decide +kernel
  cases hs : Toy.matched false with
  | none => rw [hs] at hc; simp at hc
  | some s =>
    rw [hs] at hc
    simp only [Option.map_some, Option.some.injEq, Prod.mk.injEq] at hc
    obtain ⟨h1, h2, h3, h4, h5, _, h7⟩ := hc
    have := (h s (by rw [h1]; decide) h2 h3 (by rw [h4, h5]; rfl)
      (by unfold Session.pairs; rw [h4, h5]; decide +kernel) 5 4500).1
    unfold Toy.raised at h7
    rw [this] at h7
    simp at h7

/-- The same for the order alone: 15 can be added but goes to the front. -/
theorem C76_order_refuted : ¬ ∀ s : Session ℚ, s.atlasKind ≠ .absent → s.peaksArr = true →
    s.matchedInt = false → s.world.cal.matchedPeaks.length = s.world.cal.matchedAtlas.length →
    (s.pairs.map Prod.fst).Pairwise (fun a b => a ≤ b) → ∀ pix wave : ℚ,
    (s.addPair false pix wave).2 = .ok () →
      (s.addPair false pix wave).1.world.cal.matchedPeaks.Pairwise (fun a b => a ≤ b) := by
  intro h
  have hc : (Toy.matched false).map (fun s => (s.atlasKind, s.peaksArr, s.matchedInt,
      s.world.cal.matchedPeaks, s.world.cal.matchedAtlas,
      (s.addPair false 15 7300).1.world.cal.matchedPeaks, (s.addPair false 15 7300).2.toBool)) =
      some (.array, true, false, [10, 20], [5900, 8700], [15, 10, 20], true) := by decide +kernel
  cases hs : Toy.matched false with
  | none => rw [hs] at hc; simp at hc
  | some s =>
    rw [hs] at hc
    simp only [Option.map_some, Option.some.injEq, Prod.mk.injEq] at hc
    obtain ⟨h1, h2, h3, h4, h5, h6, h7⟩ := hc
    have hok : (s.addPair false 15 7300).2 = .ok () := by
      cases ho : (s.addPair false 15 7300).2 with
      | error e => rw [ho] at h7; cases h7
      | ok u => rfl
    have := h s (by rw [h1]; decide) h2 h3 (by rw [h4, h5]; rfl)
      (by unfold Session.pairs; rw [h4, h5]; decide +kernel) 15 7300 hok
    rw [h6] at this
    exact absurd this (by decide +kernel)

/-- The expected behaviour: an added pixel is stored as given. -/
def C97_Statement : Prop :=
  ∀ s : Session ℚ, s.atlasKind ≠ .absent →
    s.world.cal.matchedPeaks.length = s.world.cal.matchedAtlas.length → ∀ (n : Bool) (pix wave : ℚ),
    (s.addPair n pix wave).2 = .ok () → (pix, wave) ∈ (s.addPair n pix wave).1.pairs

/-- With integer peaks 31/2 is stored as 15. -/
theorem C97_refuted : ¬ C97_Statement := by
  intro h
  have hc : (Toy.matched true).map (fun s => (s.atlasKind, s.world.cal.matchedPeaks,
      s.world.cal.matchedAtlas, (s.addPair false (31 / 2) 7440).1.world.cal.matchedPeaks,
      (s.addPair false (31 / 2) 7440).2.toBool)) =
      some (.array, [10, 20], [5900, 8700], [15, 10, 20], true) := by decide +kernel
  cases hs : Toy.matched true with
  | none => rw [hs] at hc; simp at hc
  | some s =>
    rw [hs] at hc
    simp only [Option.map_some, Option.some.injEq, Prod.mk.injEq] at hc
    obtain ⟨h1, h2, h3, h4, h5⟩ := hc
    have hok : (s.addPair false (31 / 2) 7440).2 = .ok () := by
      cases ho : (s.addPair false (31 / 2) 7440).2 with
      | error e => rw [ho] at h5; cases h5
      | ok u => rfl
    have := h s (by rw [h1]; decide) (by rw [h2, h3]; rfl) false (31 / 2) 7440 hok
    have := (List.of_mem_zip this).1
    rw [h4] at this
    exact absurd this (by decide +kernel)

/-- A case meeting the hypotheses of `C75_add`, `C75_remove`, `C75_history` and `C97_stored_pixel_partial`:
an addition, a removal from the end, a removal of a position that does not exist. -/
example : (Toy.matched false).map (fun s =>
    (s.atlasKind, s.world.cal.matchedPeaks.length, s.world.cal.matchedAtlas.length,
      s.editFlags [.add false (31 / 2) 7440, .remove (-1), .remove 5],
      (s.edits [.add false (31 / 2) 7440, .remove (-1), .remove 5]).world.cal.matchedPeaks,
      (s.edits [.add false (31 / 2) 7440, .remove (-1), .remove 5]).world.cal.matchedAtlas)) =
    some (.array, 2, 2, [true, true, false], [31 / 2, 10], [7440, 5900]) := by decide +kernel

/-- A case meeting the hypotheses of `C76_descending_partial`: the list left by the calls above is
descending, and 12 is placed in order. -/
example : (Toy.matched false).map (fun s =>
    let t := s.edits [.add false (31 / 2) 7440, .remove (-1)]
    (t.matchedInt, t.world.cal.matchedPeaks, (t.addPair false 12 6460).2.toBool,
      (t.addPair false 12 6460).1.world.cal.matchedPeaks)) =
    some (false, [31 / 2, 10], true, [31 / 2, 12, 10]) := by decide +kernel

end Rascal
