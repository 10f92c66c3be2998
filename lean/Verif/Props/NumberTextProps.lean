import Verif.Props.LineFileProps
import Mathlib.Data.Nat.Digits.Defs

/-!
C151, numbers with a sign or an exponent: which value is read from the twelve characters that are kept.
-/

set_option linter.unusedSectionVars false

namespace Rascal

variable {K : Type _}

/-! ### Specification of a number as text -/

/-- A sign as text; `true` stands for minus. -/
inductive Spec.SignText : List Char → Bool → Prop
  | none : Spec.SignText [] false
  | plus : Spec.SignText ['+'] false
  | minus : Spec.SignText ['-'] true

/-- Digits only. -/
def Spec.AllDigits (l : List Char) : Prop := ∀ c ∈ l, '0' ≤ c ∧ c ≤ '9'

/-- The number written by digits, the last one being the unit. -/
def Spec.digitsNat (l : List Char) : Nat := Nat.ofDigits 10 (l.reverse.map (fun c => c.toNat - 48))

/-- The value of a mantissa: sign, digits before and digits after the point. -/
def Spec.mantissa [Field K] (neg : Bool) (w f : List Char) : K :=
  (if neg then -1 else 1) * ((Spec.digitsNat w : K) + (Spec.digitsNat f : K) / 10 ^ f.length)

/-- The value of an exponent. -/
def Spec.exponent (neg : Bool) (d : List Char) : Int :=
  (if neg then -1 else 1) * (Spec.digitsNat d : Int)

/-! ### Parsing -/

theorem digitsVal_spec (l : List Char) : digitsVal l = Spec.digitsNat l := by
  induction l using List.reverseRecOn with
  | nil => rfl
  | append_singleton l c ih =>
    rw [digitsVal_append, ih]
    simp [Spec.digitsNat, digitsVal, Nat.ofDigits_cons]
    ring

theorem allDigits_isDigit {l : List Char} (h : Spec.AllDigits l) : ∀ c ∈ l, c.isDigit = true := by
  intro c hc
  have := h c hc
  simp only [Char.isDigit, Bool.and_eq_true, decide_eq_true_eq]
  exact ⟨this.1, this.2⟩

theorem splitSign_text {s : List Char} {neg : Bool} (hs : Spec.SignText s neg) (c : Char) (l : List Char)
    (h : c.isDigit = true) : splitSign (s ++ c :: l) = (neg, c :: l) := by
  cases hs with
  | none => exact splitSign_digit c l h
  | plus => rfl
  | minus => rfl

theorem takeWhile_stop (p : Char → Bool) (l : List Char) (hl : ∀ c ∈ l, p c = true) (r : List Char)
    (hr : ∀ c ∈ r.head?, p c = false) :
    (l ++ r).takeWhile p = l ∧ (l ++ r).dropWhile p = r := by
  induction l with
  | nil =>
    cases r with
    | nil => simp
    | cons c r =>
      have := hr c (by simp)
      simp [this]
  | cons c l ih =>
    have hc := hl c (by simp)
    have := ih (fun d hd => hl d (by simp [hd]))
    simp [hc, this]

section
variable [Field K]

/-- Sign and mantissa, followed by `r`, which is empty or begins with the letter of an exponent. -/
theorem parse_mantissa {s w f : List Char} {neg : Bool} (hs : Spec.SignText s neg) (hw : w ≠ [])
    (hwd : Spec.AllDigits w) (hfd : Spec.AllDigits f) (r : List Char)
    (hr : ∀ c ∈ r.head?, c = 'e' ∨ c = 'E') :
    (parseFloat (s ++ (w ++ '.' :: f) ++ r) : Option K) =
      match r with
      | [] => some (Spec.mantissa neg w f)
      | _ :: x => match parseExponent x with
        | none => none
        | some n => some (Spec.mantissa neg w f * (10 : K) ^ n) := by
  have hwd' := allDigits_isDigit hwd
  have hfd' := allDigits_isDigit hfd
  have hsign : splitSign (s ++ (w ++ '.' :: f) ++ r) = (neg, (w ++ '.' :: f) ++ r) := by
    cases w with
    | nil => exact absurd rfl hw
    | cons c w =>
      have := splitSign_text hs c (w ++ '.' :: f ++ r) (hwd' c (by simp))
      simpa using this
  have hne : ∀ c ∈ w ++ '.' :: f, decide (c ≠ 'e' ∧ c ≠ 'E') = true := by
    intro c hc
    simp only [List.mem_append, List.mem_cons] at hc
    simp only [decide_eq_true_eq]
    rcases hc with hc | rfl | hc
    · exact ⟨digit_ne (hwd' c hc) _ (by decide), digit_ne (hwd' c hc) _ (by decide)⟩
    · decide
    · exact ⟨digit_ne (hfd' c hc) _ (by decide), digit_ne (hfd' c hc) _ (by decide)⟩
  have hcut := takeWhile_stop (fun c => decide (c ≠ 'e' ∧ c ≠ 'E')) _ hne r (by
    intro c hc
    rcases hr c hc with rfl | rfl <;> decide)
  have hpt : splitPoint (w ++ '.' :: f) = some (w, f) := by
    have h1 := takeWhile_stop Char.isDigit w hwd' ('.' :: f) (by
      intro c hc
      simp only [List.head?_cons, Option.mem_def, Option.some.injEq] at hc
      subst hc
      decide)
    unfold splitPoint
    simp only [h1.1, h1.2]
    rw [if_pos]
    exact ⟨trivial, by simpa using hfd', fun h => hw h.1⟩
  unfold parseFloat
  simp only [hsign, hcut.1, hcut.2, parseMantissa, hpt, digitsVal_spec]
  cases r with
  | nil => cases neg <;> simp [Spec.mantissa]
  | cons c x =>
    dsimp only
    cases parseExponent x with
    | none => rfl
    | some n => cases neg <;> simp [Spec.mantissa]

theorem parseExponent_text {s d : List Char} {neg : Bool} (hs : Spec.SignText s neg) (hd : d ≠ [])
    (hdd : Spec.AllDigits d) : parseExponent (s ++ d) = some (Spec.exponent neg d) := by
  have hdd' := allDigits_isDigit hdd
  unfold parseExponent
  cases d with
  | nil => exact absurd rfl hd
  | cons c d =>
    rw [splitSign_text hs c d (hdd' c (by simp))]
    dsimp only
    rw [if_pos ⟨by simp, by simpa using hdd'⟩, digitsVal_spec]
    cases neg <;> simp [Spec.exponent]

/-- C151.  The twelve characters kept of a number with sign, point and exponent.  With `n` characters
up to the end of the mantissa: for `n ≥ 12` the exponent is lost and the mantissa cut; for `n = 11` nothing
can be read, and for `n = 10` neither if the exponent has a sign; otherwise the mantissa is complete and
the exponent consists of its first digits only. -/
theorem C151_exponent_partial (s w f s' d : List Char) (neg neg' : Bool) (e : Char)
    (hs : Spec.SignText s neg) (hs' : Spec.SignText s' neg') (hw : w ≠ []) (hd : d ≠ [])
    (hwd : Spec.AllDigits w) (hfd : Spec.AllDigits f) (hdd : Spec.AllDigits d)
    (he : e = 'e' ∨ e = 'E') (hpt : s.length + w.length ≤ 11) (n : Nat)
    (hn : n = s.length + w.length + 1 + f.length) :
    (parseFloat (s ++ (w ++ '.' :: f) ++ e :: (s' ++ d)) : Option K) =
        some (Spec.mantissa neg w f * 10 ^ Spec.exponent neg' d) ∧
      (parseFloat ((s ++ (w ++ '.' :: f) ++ e :: (s' ++ d)).take 12) : Option K) =
        if 12 ≤ n then some (Spec.mantissa neg w (f.take (11 - s.length - w.length)))
        else if n + 1 + s'.length < 12 then
          some (Spec.mantissa neg w f * 10 ^ Spec.exponent neg' (d.take (11 - n - s'.length)))
        else none := by
  have hhead : ∀ r : List Char, ∀ c ∈ (e :: r).head?, c = 'e' ∨ c = 'E' := by
    intro r c hc
    simp only [List.head?_cons, Option.mem_def, Option.some.injEq] at hc
    subst hc
    exact he
  have htakeD : ∀ m, Spec.AllDigits (d.take m) := fun m c hc => hdd c (List.mem_of_mem_take hc)
  have hlen : (s ++ (w ++ '.' :: f)).length = n := by simp [hn]; omega
  constructor
  · rw [parse_mantissa hs hw hwd hfd _ (hhead _)]
    simp only [parseExponent_text hs' hd hdd]
  · by_cases h12 : 12 ≤ n
    · rw [if_pos h12]
      have htake : (s ++ (w ++ '.' :: f) ++ e :: (s' ++ d)).take 12 =
          s ++ (w ++ '.' :: f.take (11 - s.length - w.length)) ++ [] := by
        rw [List.take_append_of_le_length (by omega), List.take_append,
          List.take_of_length_le (by omega), List.take_append, List.take_of_length_le (by omega),
          show 12 - s.length - w.length = (11 - s.length - w.length) + 1 from by omega,
          List.take_succ_cons, List.append_nil]
      rw [htake, parse_mantissa hs hw hwd (fun c hc => hfd c (List.mem_of_mem_take hc)) [] (by simp)]
    · rw [if_neg h12]
      have htake : (s ++ (w ++ '.' :: f) ++ e :: (s' ++ d)).take 12 =
          s ++ (w ++ '.' :: f) ++ e :: ((s' ++ d).take (11 - n)) := by
        rw [List.take_append, List.take_of_length_le (by omega), hlen,
          show 12 - n = (11 - n) + 1 from by omega, List.take_succ_cons]
      rw [htake, parse_mantissa hs hw hwd hfd _ (hhead _)]
      dsimp only
      by_cases hx : n + 1 + s'.length < 12
      · rw [if_pos hx, List.take_append, List.take_of_length_le (by omega),
          parseExponent_text hs' (by
            intro h
            rw [List.take_eq_nil_iff] at h
            rcases h with h | h
            · omega
            · exact hd h) (htakeD _)]
      · rw [if_neg hx]
        have hnone : parseExponent ((s' ++ d).take (11 - n)) = none := by
          cases hs' with
          | none =>
            have : 11 - n = 0 := by simp at hx; omega
            rw [this]
            rfl
          | plus =>
            have : 11 - n = 0 ∨ 11 - n = 1 := by simp at hx; omega
            rcases this with h | h <;> rw [h] <;> rfl
          | minus =>
            have : 11 - n = 0 ∨ 11 - n = 1 := by simp at hx; omega
            rcases this with h | h <;> rw [h] <;> rfl
        rw [hnone]

end

/-! ### Cases -/

/-- `C151_exponent_partial` for `-4.046563e-03`, of which `-4.046563e-0` is kept. -/
example : (parseFloat ("-4.046563e-03".toList) : Option ℚ) = some (-4046563/1000000000) ∧
    (parseFloat ("-4.046563e-03".toList.take 12) : Option ℚ) = some (-4046563/1000000) := by
  have h := C151_exponent_partial (K := ℚ) ['-'] ['4'] "046563".toList ['-'] ['0', '3'] true true 'e' .minus
    .minus (by decide) (by decide) (by unfold Spec.AllDigits; decide) (by unfold Spec.AllDigits; decide)
    (by unfold Spec.AllDigits; decide) (.inl rfl) (by decide) 9 (by decide)
  exact ⟨h.1.trans (by decide +kernel), h.2.trans (by decide +kernel)⟩

/-- `C151_exponent_partial` for `4.046563000e+03`, of which nothing can be read. -/
example : (parseFloat ("4.046563000e+03".toList) : Option ℚ) = some (4046563/1000) ∧
    (parseFloat ("4.046563000e+03".toList.take 12) : Option ℚ) = none := by
  have h := C151_exponent_partial (K := ℚ) [] ['4'] "046563000".toList ['+'] ['0', '3'] false false 'e' .none
    .plus (by decide) (by decide) (by unfold Spec.AllDigits; decide) (by unfold Spec.AllDigits; decide)
    (by unfold Spec.AllDigits; decide) (.inl rfl) (by decide) 11 (by decide)
  exact ⟨h.1.trans (by decide +kernel), h.2.trans (by decide +kernel)⟩

end Rascal
