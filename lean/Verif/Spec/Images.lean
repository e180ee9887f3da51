import Verif.Model.Images

/-! Vocabulary for the image properties. -/

namespace Oplab.Spec

/-- A stream of 32-bit words with the bytes of every word reversed. -/
def swapWords : List ℕ → List ℕ
  | a :: b :: c :: d :: rest => d :: c :: b :: a :: swapWords rest
  | l => l

/-- The 24-bit big-endian numbers of a stream of bytes. -/
def bigEndian24 : List ℕ → List ℕ
  | a :: b :: c :: rest => (a * 65536 + b * 256 + c) :: bigEndian24 rest
  | _ => []

/-- A list of bytes. -/
def Bytes (l : List ℕ) : Prop := ∀ b ∈ l, b < 256

/-- Parameters the attenuation fit can return: `a` above its lower bound, `b` not positive, `c` not negative
(curve_fitting.py L162-163), or the default 1, 0, 0. -/
def InBounds (a b c : ℝ) : Prop := 1e-6 ≤ a ∧ b ≤ 0 ∧ 0 ≤ c

end Oplab.Spec
