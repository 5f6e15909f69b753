import Verif.Model.GdalConfig

/-!
# GDAL options and the environment variables of the process

`gdal_config.py` L81-88 again.  `gdal.GetConfigOption` looks into GDAL's table first and then for an environment variable of the same name
(`CPLGetConfigOption`; GDAL is not in /repo, this is part of the trusted base).  The names of environment variables are compared exactly, those in the
table through `fold`.
-/

namespace Verif.GdalEnvironment

open Verif.GdalConfig

/-- The environment variables (`os.environ`).  Read by `gdal_config.py` L83 through GDAL. -/
abbrev Vars := String → Option String

/-- What GDAL options depend on: the table, and the environment variables.  `gdal_config.py` L81-88. -/
structure Process where
  cfg : Cfg
  vars : Vars

section
variable (fold : String → String)

/-- `gdal.GetConfigOption(key)`.  `gdal_config.py` L83. -/
def Process.get (p : Process) (key : String) : Option String := (getOpt fold p.cfg key).or (p.vars key)

/-- `gdal.SetConfigOption(key, value)`.  `gdal_config.py` L84, L88. -/
def Process.set (p : Process) (key : String) (value : Option String) : Process := { p with cfg := setOpt fold p.cfg key value }

/-- L81-84: the loop of `__enter__` over the remaining options. -/
def enterLoop : Dict → (String → Option (Option String)) → Process → (String → Option (Option String)) × Process
  | [], old, p => (old, p)
  | (k, v) :: rest, old, p => enterLoop rest (fun k' => if k' = k then some (p.get fold k) else old k') (p.set fold k (some v))

/-- L86-88: the loop of `__exit__`. -/
def exitLoop (old : String → Option (Option String)) : Dict → Process → Process × Option PyErr
  | [], p => (p, none)
  | (k, _) :: rest, p =>
    match old k with
    | none => (p, some .keyError)
    | some v => exitLoop old rest (p.set fold k v)

/-- A `with` statement whose body has the effect `body` on table and environment variables: the process after it, and the error of `__exit__`.
`gdal_config.py` L81-88. -/
def withBlock (e : Env) (body : Process → Process) (p : Process) : Process × Option PyErr :=
  let r := enterLoop fold e.options e.old p
  exitLoop fold r.1 e.options (body r.2)

end

end Verif.GdalEnvironment
