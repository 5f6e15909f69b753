import Verif.Model.Coordinates

/-!
# Model of `srtm_dem_tile_set.py` and `generic_dem_tile_set.py`
-/

namespace Verif.DemTileSet

open Verif.Coordinates

/-- srtm_dem_tile_set.py L15-29: constructor arguments. -/
structure Srtm where
  pre : List Char
  version : List Char
  extension : List Char

/-- srtm_dem_tile_set.py L31-66: `SRTMTileSet.find_tile_id`; `deg` is `math.degrees`. -/
def Srtm.findTileId (t : Srtm) (deg : ℚ → ℚ) (c : Geodetic) : Option (List Char) :=
  let lonD := ⌊deg c.longitude⌋
  let latD := ⌊deg c.latitude⌋
  if latD > 59 ∨ latD < -56 then none
  else
    let lonDir := if lonD < 0 then 'w' else 'e'
    let latDir := if latD < 0 then 's' else 'n'
    some (t.pre ++ (latDir :: (fmt0d 2 |latD| ++ ('_' :: (lonDir :: (fmt0d 3 |lonD| ++
      ('_' :: (t.version ++ t.extension))))))))

/-- generic_dem_tile_set.py L15-40: constructor arguments. -/
structure Generic where
  spec : List Char
  minLat : ℚ
  maxLat : ℚ
  minLon : ℚ
  maxLon : ℚ

/-- generic_dem_tile_set.py L17-21: the default arguments. -/
def Generic.default : Generic :=
  { spec := "%od%oh/%ld%lh.dt2".toList, minLat := -90, maxLat := 90, minLon := -180, maxLon := 180 }

/-- generic_dem_tile_set.py L42-64: `GenericDEMTileSet.find_tile_id`; `rad` is `math.radians`
and `A.deg` stands for both `math.degrees` and `np.degrees`, which are the same multiplication. -/
def Generic.findTileId (t : Generic) (A : Arith) (rad : ℚ → ℚ) (c : Geodetic) : Option (List Char) :=
  let lonD := ⌊A.deg c.longitude⌋
  let latD := ⌊A.deg c.latitude⌋
  if (latD : ℚ) > t.maxLat ∨ (latD : ℚ) < t.minLat ∨ (lonD : ℚ) > t.maxLon ∨ (lonD : ℚ) < t.minLon then none
  else some (format A { longitude := rad lonD, latitude := rad latD, elevation := 0 } t.spec)

end Verif.DemTileSet
