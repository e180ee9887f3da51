import Verif.Model.CalText
import Mathlib.Data.Rat.Floor

/-!
Model of /repo/src/scripts/laser_plane_virtual_image_generator.py: images of a laser line as two cameras would see it.  Where points project to is
given (camera_models.py); the plane fitted to the points at the end is only printed.
-/

namespace Oplab

/-- A grey image with its size; rows and columns from 0. (laser_plane_virtual_image_generator.py L103-104) -/
structure GreyImage where
  height : Nat
  width : Nat
  at' : Nat → Nat → Nat

/-- An index that may count from the end, as numpy allows. (laser_plane_virtual_image_generator.py L68-69) -/
def npIndex (n : Nat) (i : Int) : Option Nat :=
  if 0 ≤ i then (if i < n then some i.toNat else none) else if -(n : Int) ≤ i then some (i + n).toNat else none

/-- `img[r, c] = v`. (laser_plane_virtual_image_generator.py L68-69) -/
def setPixel (img : GreyImage) (r c : Int) (v : Nat) : Res GreyImage :=
  match npIndex img.height r, npIndex img.width c with
  | some r, some c => .ok { img with at' := fun i j => if i = r ∧ j = c then v else img.at' i j }
  | _, _ => .error .indexError

/-- laser_plane_virtual_image_generator.py L60-71 `drawGaussian`: `column` is what is called `row` there, and `y` what is called `col_float`. -/
def drawGaussian (img : GreyImage) (column : Int) (y : ℚ) : Res GreyImage :=
  let up := ⌈y⌉
  let down := ⌊y⌋
  if column < img.width then do
    let a ← setPixel img up column ⌊(y - down) * 255⌋.toNat
    setPixel a down column ⌊(up - y) * 255⌋.toNat
  else .ok img

/-- `np.linspace` (laser_plane_virtual_image_generator.py L83, L102). -/
def linspace (a b : ℚ) (n : Nat) : List ℚ := if n = 1 then [a] else (List.range n).map fun (k : Nat) => a + k * ((b - a) / (n - 1))

/-- laser_plane_virtual_image_generator.py L79-83: the altitudes, with `step` not 0. -/
def virtualAltitudes (amin amax step : ℚ) : List ℚ := linspace amin amax (⌊(amax - amin) / step⌋ + 1).toNat

/-- laser_plane_virtual_image_generator.py L101-107: the points of an altitude; of the plane only the last coefficient is used. -/
def virtualPoints (plane : V3 ℚ × ℚ) (alt : ℚ) (width : Nat) : List (V3 ℚ) :=
  (linspace (-(3 / 4 * alt)) (3 / 4 * alt) (3 * width / 2)).map fun x => ⟨x, -plane.2, alt⟩

/-- laser_plane_virtual_image_generator.py L105-121: the points are drawn one after the other, those whose rounded column is not in an image are left
out; `project` gives column and row in both images, which are positive (camera_models.py L169-176). -/
def drawAll (wl wr : Nat) (project : V3 ℚ → Option (ℚ × ℚ) × Option (ℚ × ℚ)) :
    List (V3 ℚ) → GreyImage × GreyImage → Res (GreyImage × GreyImage)
  | [], s => .ok s
  | p :: ps, (l, r) =>
    match project p with
    | (some (lx, ly), some (rx, ry)) =>
      if wl ≤ roundEven lx ∨ wr ≤ roundEven rx then drawAll wl wr project ps (l, r)
      else do
        let l' ← drawGaussian l (roundEven lx) ly
        let r' ← drawGaussian r (roundEven rx) ry
        drawAll wl wr project ps (l', r')
    | _ => drawAll wl wr project ps (l, r)

end Oplab
