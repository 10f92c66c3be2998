import Mathlib.Data.List.Basic

/-! What editing a list of pixel-wavelength pairs means, without reference to the model. -/

namespace Rascal.Spec

variable {K : Type _}

/-- The pairs with their positions, as `get_pix_wave_pairs` documents them
(src/rascal/calibrator.py:1958-1969). -/
def listing (l : List (K × K)) : List (Nat × K × K) := l.zipIdx.map (fun e => (e.2, e.1.1, e.1.2))

/-- `new` is `old` with one pair added somewhere (src/rascal/calibrator.py:1985-1998). -/
def Inserted (e : K × K) (old new : List (K × K)) : Prop :=
  ∃ l₁ l₂, old = l₁ ++ l₂ ∧ new = l₁ ++ e :: l₂

/-- `new` is `old` without the pair at position `i`, counted from the end if negative
(src/rascal/calibrator.py:2009-2020). -/
def Deleted (i : Int) (old new : List (K × K)) : Prop :=
  ∃ l₁ e l₂, old = l₁ ++ e :: l₂ ∧ new = l₁ ++ l₂ ∧
    (i = l₁.length ∨ i = (l₁.length : Int) - (old.length : Int))

/-- The two editing calls (src/rascal/calibrator.py:1985, 2009); `numpyPix` says whether the pixel is a
numpy number. -/
inductive Edit (K : Type _)
  | add (numpyPix : Bool) (pix wave : K)
  | remove (i : Int)

/-- The effect of a history of calls, each with a flag saying whether it returned: a failing call does
nothing, an addition adds one pair with the wavelength given, a removal removes the pair at the
position. -/
inductive Edited : List (K × K) → List (Edit K × Bool) → List (K × K) → Prop
  | nil (l : List (K × K)) : Edited l [] l
  | failed (e : Edit K) (h : List (Edit K × Bool)) (l l' : List (K × K)) :
      Edited l h l' → Edited l ((e, false) :: h) l'
  | add (n : Bool) (pix wave v : K) (h : List (Edit K × Bool)) (l l₁ l' : List (K × K)) :
      Inserted (v, wave) l l₁ → Edited l₁ h l' → Edited l ((.add n pix wave, true) :: h) l'
  | remove (i : Int) (h : List (Edit K × Bool)) (l l₁ l' : List (K × K)) :
      Deleted i l l₁ → Edited l₁ h l' → Edited l ((.remove i, true) :: h) l'

end Rascal.Spec
