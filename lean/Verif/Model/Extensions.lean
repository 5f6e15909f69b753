import Verif.Model.Des
import Verif.Model.GdalUtils

/-!
# Model of `get_image_extension` in `gdal_utils.py`

GDAL's registered drivers and `gdal.Info` are parameters.  Letters change case as in ASCII, as in `Verif.Model.GdalUtils`.
-/

namespace Verif.Extensions

open Verif.GdalUtils

/-- `s.split(" ")`: one piece more than there are spaces; pieces can be empty.  `gdal_utils.py` L259. -/
def splitSpace : List Char → List (List Char)
  | [] => [[]]
  | c :: cs =>
    match splitSpace cs with
    | [] => [[c]]
    | w :: ws => if c = ' ' then [] :: w :: ws else (c :: w) :: ws

/-- What `GetMetadataItem` gives for `DMD_LONGNAME` and `DMD_EXTENSIONS` of a driver.  `gdal_utils.py` L256-257. -/
structure Driver where
  name : Option (List Char)
  extensions : Option (List Char)
deriving DecidableEq

/-- A Python dict from names (`None` is one) to lists; the first entry of the list is the one that counts.  `gdal_utils.py` L253. -/
abbrev Lookup := List (Option (List Char) × List (List Char))

/-- gdal_utils.py L255-260: one round of the loop.  Missing and empty texts are false. -/
def addDriver (t : Lookup) (d : Driver) : Lookup :=
  match d.extensions with
  | none => t
  | some [] => t
  | some e => (d.name, splitSpace (Verif.Des.strip e)) :: t

/-- gdal_utils.py L247-261 -/
def driverExtensions (drivers : List Driver) : Lookup := drivers.foldl addDriver []

/-- gdal_utils.py L233-244.  `info` is what `gdal.Info` gives: an error, `None` (a file that cannot be opened, without exceptions), or a dictionary with or without
`driverLongName`. -/
def extensionsFromDriver (drivers : List Driver) (info : Except PyErr (Option (Option (List Char)))) : Except PyErr (List (List Char)) := do
  match ← info with
  | none => .error .attributeError
  | some name => pure (((driverExtensions drivers).lookup name).getD [])

/-- gdal_utils.py L182-194 -/
def imageExtension (drivers : List Driver) (info : List Char → Except PyErr (Option (Option (List Char)))) (path : List Char) : Except PyErr (List Char) := do
  let es ← extensionsFromDriver drivers (info path)
  pure (normalizeExtension (selectExtension path es))

end Verif.Extensions
