import Verif.Model.Rounded

/-!
# The geotransform of a tile, in doubles

`/repo/src/aws/osml/image_processing/gdal_tile_factory.py` L103-105, L128-133: `create_encoded_tile` asks `gdal.Translate` for a source window and, if an output size is
given, for that size.  What GDAL then writes into the tile as its geotransform (`gdal_translate_lib.cpp`, `GDALRescaleGeoTransform`) is not in /repo; it is written out here as
known.  A GeoTIFF keeps the six doubles.  Not modelled: files whose geotransform GDAL cannot write.
-/

namespace Verif.TileAffineRounded

/-- gdal_tile_factory.py L84-86: the source window and the optional size of the output. -/
structure Request where
  left : Nat
  top : Nat
  width : Nat
  height : Nat
  output : Option (Nat × Nat)

/-- gdal_tile_factory.py L103-105, L128-133: the width and height of the tile. -/
def Request.size (r : Request) : Nat × Nat := r.output.getD (r.width, r.height)

/-- GDAL (L128-133): pixels of the image per pixel of the tile. -/
noncomputable def Request.ratio (rnd : ℝ → ℝ) (r : Request) : ℝ × ℝ := (rnd ((r.width : ℝ) / r.size.1), rnd ((r.height : ℝ) / r.size.2))

/-- GDAL (L128-133): a row of the geotransform of the tile, in the order of gdal_sensor_model.py L45-51: the coefficients of the column and of the row, and the constant.  The
origin moves to the corner of the window before the pixels are scaled. -/
noncomputable def Request.row (rnd : ℝ → ℝ) (r : Request) (g : ℝ × ℝ × ℝ) : ℝ × ℝ × ℝ :=
  (rnd (g.1 * (r.ratio rnd).1), rnd (g.2.1 * (r.ratio rnd).2), rnd (g.2.2 + rnd (rnd (r.left * g.1) + rnd (r.top * g.2.1))))

end Verif.TileAffineRounded
