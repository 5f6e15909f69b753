import Verif.Model.Sicd

/-!
# Model of the R/Rdot ground plane projection in binary64

`photogrammetry/sicd_sensor_model.py` L632-679 again, with every operation rounded.  `rnd` is the rounding of a real number to a double,
`dot3` the inner product as `np.dot` and `np.sum` of products compute it (in an order that is not specified).  Square roots are rounded correctly (IEEE 754).
-/

namespace Verif.RoundedSicd

open Verif.Sicd Verif.Sicd.V3

noncomputable section

/-- Each component of a vector rounded: numpy's elementwise operations.  `sicd_sensor_model.py` L643-679. -/
def rv (rnd : ℝ → ℝ) (a : V3) : V3 := ⟨rnd a.x, rnd a.y, rnd a.z⟩

/-- A vector over a number.  `sicd_sensor_model.py` L643, L665. -/
def over (a : V3) (k : ℝ) : V3 := ⟨a.x / k, a.y / k, a.z / k⟩

/-- `np.cross`: the products are rounded, then their differences.  `sicd_sensor_model.py` L666, L675. -/
def crossD (rnd : ℝ → ℝ) (a b : V3) : V3 :=
  ⟨rnd (rnd (a.y * b.z) - rnd (a.z * b.y)), rnd (rnd (a.z * b.x) - rnd (a.x * b.z)), rnd (rnd (a.x * b.y) - rnd (a.y * b.x))⟩

/-- `np.linalg.norm`.  `sicd_sensor_model.py` L643, L660. -/
def normD (rnd : ℝ → ℝ) (dot3 : V3 → V3 → ℝ) (a : V3) : ℝ := rnd √(dot3 a a)

/-- Step 1 (L643): the unit normal. -/
def unitD (rnd : ℝ → ℝ) (dot3 : V3 → V3 → ℝ) (u : V3) : V3 := rv rnd (over u (normD rnd dot3 u))

/-- Step 2 (L646): the distance of the platform from the plane. -/
def arpZ (rnd : ℝ → ℝ) (dot3 : V3 → V3 → ℝ) (P ref e : V3) : ℝ := dot3 (rv rnd (sub P ref)) e

/-- Step 2 (L650): the nadir of the platform. -/
def nadir (rnd : ℝ → ℝ) (P : V3) (z : ℝ) (e : V3) : V3 := rv rnd (sub P (rv rnd (smul z e)))

/-- Step 3 (L654): what the distance in the plane is the root of. -/
def gpSquare (rnd : ℝ → ℝ) (r z : ℝ) : ℝ := rnd (rnd (r * r) - rnd (z * z))

/-- Step 4 (L660-661): what the speed along the plane is the root of. -/
def vxSquare (rnd : ℝ → ℝ) (dot3 : V3 → V3 → ℝ) (V : V3) (vz : ℝ) : ℝ :=
  rnd (rnd (normD rnd dot3 V * normD rnd dot3 V) - rnd (vz * vz))

/-- Step 5 (L665): the direction of motion along the plane. -/
def uvectX (rnd : ℝ → ℝ) (V e : V3) (vz vx : ℝ) : V3 := rv rnd (over (rv rnd (sub V (rv rnd (smul vz e)))) vx)

/-- Step 6 (L669): numerator and denominator of the cosine of the azimuth. -/
def azNum (rnd : ℝ → ℝ) (r rdot z vz : ℝ) : ℝ := rnd (-rdot + rnd (vz * rnd (z / r)))
/-- Step 6 (L669): the denominator. -/
def azDen (rnd : ℝ → ℝ) (r g vx : ℝ) : ℝ := rnd (vx * rnd (g / r))

/-- Step 7 (L675): the side of the track. -/
def lookD (rnd : ℝ → ℝ) (dot3 : V3 → V3 → ℝ) (P ref V e : V3) : ℝ :=
  (SignType.sign (dot3 (crossD rnd (rv rnd (sub P ref)) V) e) : ℝ)

/-- Step 8 (L679): the point. -/
def pointD (rnd : ℝ → ℝ) (agpn ux uy : V3) (g ca sa : ℝ) : V3 :=
  rv rnd (add (rv rnd (add agpn (rv rnd (smul (rnd (g * ca)) ux)))) (rv rnd (smul (rnd (g * sa)) uy)))

/-- sicd_sensor_model.py L632-679 in doubles.  `none` is NaN: the root of a negative number, or 0/0.  A quotient of another number
by 0 is infinite; it raises when it is the cosine of the azimuth and gives NaN otherwise. -/
def toGroundD (rnd : ℝ → ℝ) (dot3 : V3 → V3 → ℝ) (pl : Plane) (k : Contour) : Except PyErr (Option V3) :=
  let e := unitD rnd dot3 pl.u
  let z := arpZ rnd dot3 k.P pl.ref e
  if k.r < z then .error .valueError
  else if k.r = 0 ∨ gpSquare rnd k.r z < 0 then .ok none
  else
    let g := rnd √(gpSquare rnd k.r z)
    let vz := dot3 k.V e
    if vxSquare rnd dot3 k.V vz < 0 then .ok none
    else
      let vx := rnd √(vxSquare rnd dot3 k.V vz)
      let num := azNum rnd k.r k.rdot z vz
      let den := azDen rnd k.r g vx
      if den = 0 then (if num = 0 then .ok none else .error .valueError)
      else
        let ca := rnd (num / den)
        if 1 < |ca| then .error .valueError
        else if vx = 0 ∨ rnd (1 - rnd (ca * ca)) < 0 then .ok none
        else
          let ux := uvectX rnd k.V e vz vx
          let uy := crossD rnd e ux
          let sa := lookD rnd dot3 k.P pl.ref k.V e * rnd √(rnd (1 - rnd (ca * ca)))
          .ok (some (pointD rnd (nadir rnd k.P z e) ux uy g ca sa))

end

end Verif.RoundedSicd
