# Formal model of osml-imagery-toolkit

This directory holds a Lean 4 model of the hand-written Python sources of `aws.osml` (`/repo/src/aws/osml`) and machine-checked
proofs of the properties in `properties.jsonl`.  `MANIFEST.json` maps every property to the theorems that settle it.

## Layout

* `lean/Verif/Model/*.lean`: the model, function by function.  Every definition cites the Python file and lines it stands for and
  says what it simplifies.
* `lean/Verif/Spec/*.lean`: small specifications that do not use the model's helpers (some short ones stand beside their theorem).
* `lean/Verif/Lemmas/*.lean`: auxiliary lemmas.
* `lean/Verif/Props/*.lean`: the property theorems.  The comment of each begins with the property, and a concrete case that meets
  its hypotheses follows it.
* `seeded/LOG.jsonl`: deliberate bugs put in a scratch copy of the model and the theorems that caught them (see the end).
* `tools/`: the scripts that write `properties.jsonl` and `MANIFEST.json`.

## How the Python is modelled

* Exceptions are values: a function that can raise returns `Except PyErr α`, where `PyErr` names the exception class.
* Integers are `Int` (`Nat` when the code can only produce non-negative ones).  Fixed-width numpy integers are integers with explicit
  wrap-around.  Dictionaries are association lists or functions with explicit update.  Mutable objects are records threaded
  through state-passing functions; where two names can share one object (option dictionaries, creation options) there is an explicit heap.
* Floating point numbers are elements of an exact ordered field: `ℚ` when the model should compute, any linearly ordered field `K`
  when it can be generic, `ℝ` where square roots or trigonometry occur.  Where rounding decides the outcome (tile names, DMS
  fields, map tiles, float32 in `linear_mapping`) the model takes a rounding function with the hypothesis `GoodRounding` and is instantiated with an exact
  model of IEEE binary64 or binary32 rounding (`Model/Float64.lean`, `Model/Sar.lean`).
* NaN and infinity are `none` or an explicit failure where they can occur; where the model excludes them the definition says so.
* Loops are folds or structural recursion, with a bound where the code has one (iteration limits).
* Threads are interleavings of atomic steps, given as arbitrary schedules.
* Third-party calls are parameters.  What is assumed of them is a hypothesis of the theorem or listed under *Trusted base*.
* Where the code does not have a property, one theorem proves the negation with a concrete witness, and a theorem whose name ends in
  `_partial` proves what does hold, stating the missing part in its comment.

## Plan per property

| Property | What is modelled | How it is proved |
|---|---|---|
| C01, C02, C90 | `DRAParameters.from_counts`: the two scans, cumulative sum, thresholds | loop invariants of the scans; values characterised by the percentile buckets, which are shown unique; C02 negated by a one-spike histogram with the exact condition proved |
| C03 | the same, under scaling of counts and change of bucket range | algebraic laws; one argument value (0) is ignored (witness) |
| C04 | option table of GDAL, `GDALConfigEnv.__enter__/__exit__` | induction over the option list, for any case folding of names; negated for two spellings of one name |
| C05 | trees of nested blocks; schedules of enter and exit events | induction over programs and over schedules; negated for re-entered and overlapping blocks |
| C06 | `with_aws_credentials` inside blocks, heap of dictionaries | case analysis on the options present; negated for first credentials inside a block |
| C07 | `set_gdal_default_configuration` | effect on every slot of the table |
| C08–C12 | Web Mercator tile arithmetic; projection as two strictly monotone bijections, instantiated with the Mercator formula over ℝ | characterisation of `ceil`, field algebra; C11 negated on the west and south edges |
| C13 | lookup of tile sets by name | case analysis on the table; description of a tile |
| C71 | row numbering of `WebMercatorQuadMapTileSet` against the OGC rows | exact relation of the two numberings; negation |
| C14–C18 | `__format__` as an interpreter over characters | induction over the format string; interval arithmetic for all good roundings; C15 and C18 negated |
| C19, C20 | tile naming of the SRTM and generic tile sets | injectivity of zero-padded decimals; C20 negated in binary64 and proved in exact arithmetic and for all other cells |
| C21–C23 | `DigitalElevationModel`, `LRUCache`, `cachedmethod` | invariant over operation lists; refinement to a function without cache; interleavings of threads |
| C24, C91, C92 | bilinear interpolator, `set_elevation`, `describe_region` | value between the four posts; C92 negated for void posts |
| C72, C73 | failed loads; the two tables inside an `LRUCache` | retry lemma and witness; schedule that leaves the cache failing for good, and absence of failures when all tiles fit |
| C25, C26 | `ProjectiveTransform` and its estimation | field identities; uniqueness of a homography on a frame, for every least squares solver |
| C27, C28, C34, C74, C106 | chipped, affine, composite, projective models and the control point builder | round trips through the transforms |
| C29, C30, C69 | RPC polynomials, minimisation loop, search simplex | term-by-term evaluation; statements for every search strategy |
| C31–C33, C75–C77 | RSM polynomials, ground domains, sections, polynomial model | sums over boxes, clamp lemmas, uniqueness of the section; C76 and C77 negated |
| C35, C36 | `SensorModelFactory.build` with builders as parameters | decision logic stated outright; negations with concrete metadata |
| C37, C62, C78, C94 | TRE fields, coefficient arrays, builders, from TREs to the sectioned model | folds over lists; exact set of accepted TREs and the model they give |
| C38, C39, C79, C93 | DES accessor | fixed-width layout; scan equivalent to the regular expression; negations |
| C40–C43 | SICD and SIDD updaters, chip interpolation | induction over request lists; C41, C42, C43 negated |
| C44, C84, C102 | `create_encoded_tile` with heap, files and updater state | invariant over request histories; negations |
| C45, C46, C82, C83 | source windows, levels, remap arrays, alpha | interval lemmas; negations |
| C47, C80, C81 | band adjustment, display range | order lemmas on clip and floor; negations |
| C95 | `_create_new_igeolo` | the four groups of characters are read back |
| C96–C100, C107 | `create_orthophoto_tile` from end to end | composition of the steps; position of every tile pixel for affine sensor models; negations by computed tiles |
| C48, C49, C103–C105 | SAR pixel functions, SAR display | exact integer wrap-around, monotonicity and values of the stretches, logarithm laws; negations |
| C52–C54, C70 | `gdal_utils`, extensions, tile paths | list and string lemmas; negations |
| C50, C51, C55, C56, C59, C86 | SICD coordinates, projection sets, ground plane, search | vector algebra over ℝ³, loop post-conditions; negations |
| C57, C58, C87, C88 | constant height and terrain surfaces | loop post-conditions, derivative of range; negations |
| C60, C61, C89 | SICD model builder | shift lemma, polynomial evaluation; negations |
| C63, C64 | feature property accessor | decision logic, frame conditions; negations |
| C65–C67, C85 | geolocator, interpolation grid | structural recursion, bilinear exactness; negations |
| C68 | spatial index | contract of the tree as hypothesis; negation for world geometries |
| C108–C110 | the elevation tile factory as tile source of the elevation model | value at pixel corners and centres for all histories; negations by a slope |
| C111–C115 | `load_gdal_dataset` with factory, builders and sensor models | composition of the theorems on the parts, inversion of the successful load; negation for projected control points |
| C116 | order of control points | existence and uniqueness of the shortest least squares solution over any ordered field (orthogonal projections), invariance of the residual under permutation |
| C117 | the map tile arithmetic again, every operation rounded to binary64 | rounding commutes with powers of two, doubles near the edge are multiples of 2⁻²⁹, hence the index is `⌈2^z u⌉ - 1` for one double `u`; error bounds; witnesses next to an edge |
| C118 | `geolocate_features` from the sensor model to the features, grid and splines computed | the spline is additive, reproduces affine functions and stays between neighbouring nodes; geometries change only through their vertices |
| C119 | threads that share a tile factory of a SICD image; a step is one assignment or one element rendered | invariants over all schedules; refinement of the sequential updater; witness schedule |
| C120 | `create_orthophoto_tile` for arbitrary sensor models, positions and windows | every entry of the position arrays is one weighted mean of the 3 × 3 grid; distance between a touched pixel and the true position |
| C121 | the loop of `SICDSensorModel.world_to_image` as a fixed point iteration on the ground plane | the distance to the foot shrinks by the factor κ per iteration; oblique projection stretches by the reciprocal cosine; κ computed for a level track |
| C122 | `Plane.new`, `haeToGround` on an ellipsoid of revolution given by the textbook formula (Spec/Ellipsoid) | support function of the ellipsoid; gap inequality between normals; Taylor bounds of the square root |
| C123 | `polyval`, `polyval2d`, the four `_grid_specific_projection` methods, adjustable offsets | induction over coefficients; derivatives of the range (Mathlib's `HasDerivAt`); equations of the ground point |
| C124 | `demToGround` from end to end (`Model/SicdDem.lean`) | chord bounds for equal steps of the cosine; distance from the center is affine in the cosine; induction over the scan |
| C125 | `Model.toWorldDem`, composed with the elevation files of C110 | C124; concrete contour and terrain for the negation |
| C126 | `Meta.toWorldDem`, `Sidd.toWorldDem` (side of track of the builders) | sign of the determinant of line of sight, position and velocity on the circle; Cauchy-Schwarz for the distance of the misplaced point |
| C127 | `Model/SicdFiles` (documents, xsdata as a parameter, sensor model of a text, tile factory of a segment), with `Loading`, `Factory`, `SarTiles`, `TileFactory` | composition of C40, C44, C60 and C101: option of the call, segment of the tile, model of the text; GDAL and xsdata assumptions are hypotheses |
| C128 | `Model/SiddFiles` (documents with a chip, sensor model of a text, tile factory of a segment) | as C127, with the requests that reached the updater (`serve_updates`), C41 for the accumulated corner and C42 for the chip transform; witness for the second tile with C56 |
| C129 | `Model/SicdFiles`, `Model/SiddFiles` with `Loading` | composition of C44/C101 (segment), C126 (side) and C56 (exact inverse) through the chip transform and the composite model |
| C130 | `Model/Extensions` (registry of drivers as list, table as association list, `gdal.Info` as parameter) | induction over the registry (`lookup_spec`), uniqueness of the split (`intercalate_inj`), selection from C54 |
| C131 | `Model/Memory` (arrays as memory cells, references, state and exceptions; every sensor model and elevation model again, on references) | refinement: each model on references runs as the one on values (`Agrees`), closed under chips, composites and sections; simulation by induction over programs, with distinct arrays for distinct variables as invariant |
| C132–C134 | `Model/Rounded` (RPC, RSM and affine projections again over ℝ, every operation followed by a rounding) | running error bounds (`Approx`: k roundings of a sum of magnitudes), closed under sums, products and rounding; the errors of the normalisation are moved to the ground position (backward), those of the polynomials to the pixel (forward) |
| C135 | `Model/Rpc`, `Model/RsmModel` | bound on the change of monomials, so numerator minus pixel times denominator is a linear map plus a contraction; Banach fixed point for existence, expansion for uniqueness and accuracy (`Lemmas/Nearby`) |
| C136 | `Model/DRARounded` (`from_counts` with every float operation rounded) | monotonicity of rounding for the order; the thresholds round to the exact integer for totals divisible by 50 (0.02 and 0.98 have relative error below 2⁻⁵⁵) and stay between the same integers otherwise; forward error bound for the values |
| C137 | `srtmTiles` and `terrain` of `Model/DemFiles`, `Model/Dem.bilinear`; `Spec/Seams` (surface through posts at all integers, files with common borders) | the interpolator clamps to the posts; equality with the surface shifted by half a post; Lipschitz bound of broken lines by telescoping; negation for a slope |
| C138 | `geolocateWith` of `Model/GeolocationGrid` | the properties that are written are not among those that are read; the box of a list is determined by its vertices |
| C139 | the same | triangle inequality on the error bounds of C118; negation by a quadratic sensor model and two points |
| C140 | two runs of `create_orthophoto_tile` | the position arrays of both tiles end on the same line of grid points; window, level and adjustment as in C120; negations by three small images |
| C141 | `Model/NelderMead`: `_minimize_neldermead` in two dimensions | invariant of the loop: vertices carry their true values and the best one never gets worse, also when the budget ends in the middle of a shrink; with C135; negation: the initial triangle already meets the tolerances |
| C142 | the same | induction over the remaining budget |
| C143 | `Spec/Mercator` beside `Model/MapTiles` and `Model/Orthophoto` | mean value theorem for the northing on both sides of a latitude, the odds of the shares differ by at most e^span; C120 for what a pixel shows; negation for the northern half and level 1 |
| C144 | `Model/Loading.compositeModel` with `Model/Rpc`, `Model/Rsm`, `Model/NelderMead` | the options that the composite model passes, C141 for one corner of the triangle, triangle inequality of the miss |
| C145 | `Model/Dem` (spline), `Model/DemFiles`, `Model/Rounded` (spline and position in doubles) | the surface is piecewise linear along each axis: slopes of lines across cells by induction; C135 for the RPC part; error calculus of C132 for the doubles |
| C146 | `Model/RoundedSicd` (R/Rdot ground plane projection in doubles) | absolute error bounds step by step; residuals of the three equations of the computed point; closeness from the residuals in the frame of velocity and normal |
| C147 | `Model/Orthophoto` (`remapLimit`) | the window follows from the source box, the level and the overviews; negation for every image without overviews |
| C148 | `Model/RoundedTransforms` | from the residuals at the corners follow, by mixed differences, bounds of the perspective terms; the residual inside is the bilinear interpolation of the corners plus a bubble; then rounding of both quotients (`Approx`) |
| C149 | `Model/GdalEnvironment` (table and environment variables) | the induction of C04 with effective values; exact set of options that still follow the environment; negation |
| C150, C151 | `Model/Remap` (float32 positions, 32nds of a pixel, integer weights, zero outside), `Lemmas/Float32` | both roundings keep the order with respect to integers, so the same cell is used; bilinear forms in the shares; negations |
| C152 | `Model/Xsdata` (dataclasses, element trees, writing and reading) | mutual induction over values: the elements of each field are picked out again by name; induction over trees: what was read fits and is not changed |
| C153 | `Model/Schema/*` (all dataclasses, generated), `Model/Schemas` | decided by the kernel (names are numbers); `path_fits` carries the check of a path from classes to objects |
| C154 | `Model/SarXml` (what builders read and updaters assign) | assignments keep objects stable; attributes with other names are untouched; composition with C127 |
| C155 | `Model/SarXml` (chip from the classes of the document's version, what the builder reads) | a new chip fits its classes and is read as it was written; other attributes are untouched; composition with C128 |
| C156, C157 | `SicdFiles`, `SiddFiles` | induction over the chain of files; the invariant is the document of each file and the model it loads with; negation |
| C158, C159 | `Model/FeaturesInPlace` (features on a heap, changed step by step) | a relation between a feature and what any calls can have made of it, kept by every step, also one that raises; steps give the same on related features; loops by induction; negations |
| C160 | `Spec/Ellipsoid` (the formula), `Sicd.Geo` (pyproj) | uniqueness by the support function of the ellipsoid, twice; existence by the maximum of the distance to tangent lines, whose derivative vanishes; elevation against any other point by the same gap |
| C161, C162 | `Model/DesText` (base64 decoder, UTF-8, GDAL's reading of the `DES=` option), `Spec/Base64` | induction over groups of three bytes with a decoder state; a prefix is decoded to a prefix; unescaping shortens exactly the texts with a backslash; negation by a path in the metadata |
| C163 | `SiddFiles` as for C128 | the updater takes rectangles to rectangles, one axis at a time; induction over the requests; the model of a rectangle is C27; negation by a tile at half size before another tile |
| C164 | `Spec/XmlPath` (elements by local names, no dataclasses); `Model/Xsdata`, `Model/SarXml` | each attribute of an object comes from the elements with the local name of its field; induction over paths; that the classes of all versions have these names at these places is decided by computation |
| C165 | as C164 | converse of C164: each element is bound to the attribute of its class, again by induction over paths and computation for the classes; with C164 an equivalence |
| C166 (partial) | `Model/IndexInPlace`: features and lists as objects, events between queries | invariant over sequences of events (geometries of the features of the list are unchanged, by C158 for geolocations) composed with C68; snapshots; witnesses |
| C167 | `Spec/Scene` (ranges, rates and planes as sums, distances and derivatives of the numbers of a document) over `Model/SicdBuilder`, `Model/Sicd`, `Model/SarXml` | the native polynomials are sums (folds over coefficients); rates of range are derivatives; plane projection of C35; composed with C129 (loading) and C165 (documents) |
| C168 | `Spec/Scene` (SIDD part: product plane, parallelograms) over `Model/SiddFiles`, `Model/Updaters.siddModel`, `Model/SarXml` | the estimated projective map of a parallelogram is the affine one (C26); round trip of C56; composed with loading and C165 |
| C169 | `Spec/Simplex` (the method as in Lagarias et al.) over `Model/NelderMead` | trace of tries; induction over the iterations, each of which uses an evaluation, so that only agreement or the 400th try ends the search |
| C170 | `Spec/Detections` (moved detections, calls with the same outcome) over `Model/GeolocationGrid` | the bounds, the grid and the interpolation move with the detections; one proof for any sensor model, then C27 (crops) and C127 (SICD tiles) |
| C171 | `Model/SarRounded` over `Spec/SarDisplay` (roundings to single precision, `Within n`: right to n roundings) | `Within` is kept by sums, products, roots and quotients with one rounding more each; ranges exclude underflow; monotone roundings give the order of grey levels |
| C172 | `Spec/Scene` over `Model/SicdDem` and `Model/SicdFiles` | the contour that the builder makes has the range, rate and platform of the document (C167); C124 and C126 for the points of the contour |
| C173 | `Props/GridRounded` (`Fits`, `Sampled`, `Around`) over `Model/GridRounded` | rounded nodes stay close to the even ones, so gaps stay wide; the reciprocal of a gap, the weights and the four products each add a few relative errors; a weighted mean of errors is no larger than the errors |
| C174 | `Props/SiddTerrain` (`SameView`) over `Model/SiddFiles` and `Model/SicdDem` | a SIDD image is a SICD image with a planar grid that looks to the left (same contour, so same terrain point): C172 through the chip transform of C168; Cauchy-Schwarz for the misplaced point |
| C175 | `Props/AffineFeatures` (`Six`) over `Model/GridRounded` and `Model/Rounded` | the sensor model is affine up to seven units, so C173 gives the plane up to 43; the factors of `radians` and `degrees` cancel before they are rounded |
| C176 | `Props/TileAffine` (`inImage`, `terms`) over `Model/TileAffineRounded` | the tile's row is the image's row composed with shift and scale up to three roundings, then C175 for both |
| C177 | `Props/AffineFeatures` (`Six`, `millionths`) over `Model/Rounded` | C175, then the way back of C134 with the written numbers as its starting point |
| C178 | `Props/GridSmooth` (`Bends`, `Smooth`) over `Model/GridRounded` | adding and subtracting a parabola makes the function convex (Mathlib), so chords are close; first along the two rows of nodes, then across, then C173 |
| C179 | `Props/OrthophotoSmooth` (`Bends`, `SmoothProjection`) over `Model/TileFactory`, `Model/Orthophoto` | chords over half a side along the three parallels, then along the meridian; the rest is C120 with `GridFollows` for the near-affine grid |
| C180 | `Props/RpcSmooth` (`Regular`, `InCube`, `Computes`) over `Model/Rpc`, `Model/TileFactory`, `Model/Orthophoto` | along an axis each polynomial is a cubic whose coefficients are bounded by sums of those of the model (induction over the terms); quotient rule twice; chords from C178; weights of the two nodes around a pixel, then C120 with `GridFollows` |
| C181 | `Props/RpcTiles` over `Model/Remap`, `Model/Rpc` | C150 restated for every projection that the grid follows (`Remap.grey_values_follow`), then C179 and C180; the same for C143 and C151 (RSM: `Props/RsmTiles`) |
| C182 | `Props/RsmSmooth` (`weighted`, `Regular`, `InCube`, `Computes`) over `Model/Rsm`, `Model/TileFactory`, `Model/Remap` | derivatives of the sum of all terms, bounded term by term; the quotient, the chords and the grid as in C180 |
| C101 | choice of the metadata segment in tile factory and sensor model factory | the two loops agree for all segment lists |

No property is classed as not applicable.

## Where the code does not do what is claimed

Each of these has a witness theorem.

* C02 suggested range inverted for histograms with one spike; C03 a last bucket limit of 0 is ignored.
* C04 two spellings of one option in a block do not restore; C149 an option that came from an environment variable does not follow it any more after a block.
* C05 re-entered or overlapping configuration blocks do not restore; C06 first credentials inside a block make the exit raise.
* C11 locations on the west and south edges have column or row -1; C71 rows are counted from the south.
* C15 minutes and seconds can be 60; C18 decimal degrees lose the sign.
* C20 in binary64 cells at 15, 30, 60 and 120 degrees get the name of their neighbour.
* C35 SIDD is used although not selected; C36 malformed optional metadata loses usable models or raises.
* C37, C61 negative indices and exponents count from the end; C62 a missing section raises KeyError.
* C38 overlong header values shift the header; C79 text fields are right justified; C39 some declarations remain.
* C41, C44, C128, C157 SIDD tile metadata accumulates over tiles, so later tiles (and tiles of them) are located elsewhere; C42 writer and reader use different corner pixels; C43 one-pixel chips divide by zero.
* C45 windows that touch the image read nothing, tall tiles are undersampled; C46 tiles that are not square come out transposed.
* C47 the maximum is dark for positive minima, 16-bit values wrap, and so do signed pixels of a band without statistics; C48 int16 power overflows; C49 black images become NaN.
* C51 platforms below the plane are not rejected; C56 a search can end unverified; C58 a sample at the tolerance counts as below; C86 elevation is projected away;
  C87 samples without terrain are returned; C89 a model without projection is built; C125 scenes without elevation file raise AttributeError,
  terrain above the summary of the scene center's tile raises IndexError; C126, C174 right-looking SIDD images are located on the wrong side of the track.
* C52 mixed types get the last type; C53 limits of Int8; C54, C130 extensions are matched anywhere in the path, two spaces in a driver's list give an empty extension; C70 `s3:/` inside a local path is rewritten.
* C166 a spatial index does not follow updates of its features; after a removal from the list it returns other features or raises IndexError.
* C163 after a scaled SIDD tile the next tile of the factory is located with the scale of both.
* C162 a backslash in the metadata of a tile is lost in its file.
* C159 features located before the exception keep their places, an update of a collection has replaced `imageGeometry` and the type of the detection;
* C64 holes are lost, collections raise; C65 lists without geometry raise; C66 boxes outside the grid; C67 constant outside the grid;
  C68 world geometries raise; C85 antimeridian; C118 features near the edge make the call raise with a sensor model that locates the image only.
* C72 unreadable tiles are remembered; C73 a race leaves the cache failing for good; C92 void posts become elevations.
* C76 RSM longitudes above 180 degrees; C77 hints west of the domain stick to its edge.
* C80 constant bands raise; C81 MINMAX cuts the maximum; C82 windows off the level grid are shifted; C83 dark pixels are transparent; C84 LZW gives JPEG 2000.
* C97 red and blue are exchanged; C98 x and y of the centre are exchanged; C99 an error at the centre is raised; C107 half a pixel off.
* C119 threads mix the metadata of their tiles.
* C102 SIDD tiles are marked complex; C103 tiles without statistics differ in brightness; C104 quarter power is half power.
* C08 in double arithmetic: locations next to a tile edge can get the neighbouring tile (C117 (i)).
* C136 in double arithmetic: weighting a histogram by a factor that is not an integer can move the suggested range by a bucket.
* C137 elevations jump at tile borders by half the difference of two posts.
* C139 the place of a feature depends on the features geolocated with it, unless the sensor model is affine.
* C140 neighbouring orthophoto tiles differ along the shared edge: the source window of one tile ends there, levels may differ, and without statistics the adjustment differs.
* C141 the search never looks at the first guess itself, and an `initial_search_distance` of up to 1e-6 degrees returns a corner of the triangle around it, whatever the pixel.
* C143 `create_orthophoto_tile` takes equal steps of latitude, so tiles of `WebMercatorQuad` made as in the documentation are not in Web Mercator: at level 1 the middle of a tile is over 50 of 256 pixels off, from level 10 on less than one.
* C151 tiles are opaque up to 3 pixels of the level outside the image, and everywhere for two-band images without adjustment.
* C147 a zoomed-out tile of an image with 32763 rows or columns and no overviews raises (`cv2.remap` takes at most 32766).
* C108 elevations are half a post off; C109 the reference system of elevation files, C115 of ground control points is ignored.

## Trusted base

* Lean's kernel (4.33.0) and the Mathlib definitions used in statements.
* Axioms: each theorem of the manifest depends on at most `propext`, `Classical.choice` and `Quot.sound` (checked with `#print axioms` for all).
  No axioms are added; there is no `sorry`, no `native_decide` and no `bv_decide`.
* The hand translation from Python to Lean.  Every definition cites its lines; the code was not run.
* Exact arithmetic instead of doubles, except where the model has a rounding function.
* Third-party behaviour, from documentation and general knowledge, as follows.

| Library | What is assumed | Where |
|---|---|---|
| cachetools | `LRUCache` evicts the least recently used entry; `cachedmethod` looks up, calls, stores; the internal steps of release 5.3 for C73 | Dem, DemRace |
| numpy | elementwise arithmetic, wrap-around of fixed-width integers, `clip`, `linspace`, `min`/`max` raising on empty arrays; `linalg.lstsq` returns a shortest least squares solution (hypothesis, met by exactly one function: `lstsq_function`); for doubles (C148) only that the residuals are at most a number `ρ` | throughout |
| scipy | `minimize` is any strategy that evaluates the objective and returns a point (C30); stays inside the bounds (C76), moves a clipped simplex (C77), is not worse than its start (C141), asks 400 times (C142): all four proved of `Model/NelderMead`, written after SciPy's source from memory (not available here); `RectBivariateSpline` of degree 1 is bilinear between nodes and constant outside; in doubles (C145) its coefficients are the posts and it adds four products as FITPACK's `fpbisp` does | Rpc, Rsm, Dem, Features, TileFactory; the coefficients of a spline of degree 1 are the node values to 16 units in the last place, and FITPACK evaluates it as in `Model/GridRounded` (C173) |
| pyproj | conversions are parameters; inverse laws are hypotheses where needed; Web Mercator is the formula over ℝ | MapTiles, Sensors, Rsm, Sicd |
| GDAL | option table, then environment variables (C149), `Translate` as a function with any outcome, `ReadAsArray`, statistics and histograms as data; the NITF driver's treatment of the `DES=` option (`CPLUnescapeString`, header length from DESSHL, base64); the geotransform that `Translate` gives to a window (C176) | GdalConfig, GdalUtils, TileFactory, Orthophoto, SarTiles, DesText, TileAffineRounded |
| OpenCV | `remap` interpolates (hypothesis of C100, C107, C120, C140, C143; shown for `Model/Remap`, OpenCV's general 8-bit code) and takes fewer than 32767 rows and columns, `copyMakeBorder` replicates, `imencode` wants 1, 3 or 4 channels in the order blue, green, red | Orthophoto |
| ElementTree, re, base64 | `find`/`findall` in document order; the regular expression as a scan; parsers as parameters | Tre, Des |
| shapely, geojson | geometries as vertex trees; `STRtree` queries by contract (hypothesis) | Features |
| xsdata | data binding modelled in `Model/Xsdata` (from its documented behaviour); texts of values (`Codec`, assumed `Faithful`) and of documents (`Text`) are parameters. C127 and C128 assume that a document is read back as it was written; C154 shows this for SICD and C155 for SIDD | Updaters, SicdBuilder, SicdFiles, SiddFiles, Xsdata, SarXml |

### Modelled

All hand-written modules under `features/`, `gdal/`, `image_processing/` and `photogrammetry/`, except as listed next.

### Not modelled

* The dataclasses under `formats/` are data (`Model/Schema/*.lean`, generated by `tools/gen_schema.py`); their enumerations and value restrictions are not modelled, nor is the text of an XML document (prefixes, escapes, declaration): documents are element trees.
* The files themselves: what `gdal.Open` finds is data (`Model/Loading.lean`, `Model/DemFiles.lean`); GDAL's driver registry and `gdal.Info` are parameters (`Model/Extensions.lean`).
* Case conversion of letters outside ASCII (`upper`, `lower` in `Model/GdalUtils.lean`).
* Plain data classes without logic (`typing.py`) and the abstract base classes. Coordinate objects are values everywhere except in `Model/Memory.lean`, where C131 shows that this makes no difference; attributes of sensor models are values there too.
* Logging, documentation strings, `__init__` exports.
* Convergence of numerical searches: theorems speak about what is returned for any course of the search; for RPC and RSM the error of the result is bounded by its own misfit (C135); only for the SICD search is it derived from a flatness condition (C121), which is proved for a level track.
* Rounding errors of double arithmetic outside tile names, DMS strings, map tiles (C117), display ranges (C136), `linear_mapping`, the projections of C132–C134, elevations (C145), the approximation grid (C173, C175–C178) and the ground plane projection of radar images (C146). There the assumptions are `Rounds` (relative error 2⁻⁵³, proved of binary64), `PowRounds` (`x ** i` right to one unit in the last place) and `DotRounds` and `Dot3Rounds` (`np.matmul`, `np.dot` and `np.sum` of products in any order, proved of the plain loop).

## Tests against wrong programs

A mutation is one edit of a model definition in a scratch copy, chosen to be a mistake a programmer could make there.  The copy is rebuilt; the theorems whose
proofs fail, and the manifest theorems that depend on them, are recorded.  When all theorems still hold although the English claim is
broken, the theorem is tightened in `/verif` and the mutation is run again.  A proof script that fails under an edit shows that the statement
depends on the definition; where a failing proof could be an accident of the script, the statement was compared with the edit by hand.
