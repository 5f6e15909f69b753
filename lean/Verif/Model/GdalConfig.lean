import Verif.Model.Py

/-!
# GDAL configuration options

Model of `/repo/src/aws/osml/gdal/gdal_config.py`.

GDAL's global option table is a function from slots to optional values.  GDAL
compares option names ignoring case; `fold` maps a name to its slot and is a
parameter of everything below (`fold = id` would be a case-sensitive table).
Option values are strings: the `str(val)` of L42/L84 has been applied already
and is assumed not to raise.
-/

namespace Verif.GdalConfig

/-- GDAL's configuration table, `None` = unset.  Read and written by `gdal_config.py` L81-88. -/
abbrev Cfg := String → Option String

/-- A Python dictionary with string keys, in insertion order.  The options of `gdal_config.py` L11-79. -/
abbrev Dict := List (String × String)

section
variable (fold : String → String)

/-- `gdal.SetConfigOption(key, value)`; a `None` value unsets the option.  `gdal_config.py` L81-88. -/
def setOpt (cfg : Cfg) (key : String) (value : Option String) : Cfg :=
  fun s => if s = fold key then value else cfg s

/-- `gdal.GetConfigOption(key)`.  `gdal_config.py` L81-84. -/
def getOpt (cfg : Cfg) (key : String) : Option String := cfg (fold key)

/-- `d[key] = value` on an insertion-ordered dictionary.  `gdal_config.py` L63-79. -/
def dictSet (d : Dict) (key value : String) : Dict :=
  match d with
  | [] => [(key, value)]
  | (k, v) :: rest => if k = key then (k, value) :: rest else (k, v) :: dictSet rest key value

/-- L56-61: a `GDALConfigEnv`.  `old` is the `old_options` dictionary
(`none` = key absent). -/
structure Env where
  options : Dict
  old : String → Option (Option String)

/-- L56-61 `__init__`: a missing or empty dictionary gives no options. -/
def Env.new (options : Option Dict) : Env :=
  { options := options.getD [], old := fun _ => none }

/-- L81-84: the loop of `__enter__` over the remaining options. -/
def enterLoop : Dict → (String → Option (Option String)) → Cfg → (String → Option (Option String)) × Cfg
  | [], old, cfg => (old, cfg)
  | (k, v) :: rest, old, cfg =>
    enterLoop rest (fun k' => if k' = k then some (getOpt fold cfg k) else old k')
      (setOpt fold cfg k (some v))

/-- L81-84 `__enter__`. -/
def Env.enter (e : Env) (cfg : Cfg) : Env × Cfg :=
  let r := enterLoop fold e.options e.old cfg
  ({ e with old := r.1 }, r.2)

/-- L86-88: the loop of `__exit__`; a missing `old_options` entry raises
`KeyError` after the earlier options were restored. -/
def exitLoop (old : String → Option (Option String)) : Dict → Cfg → Cfg × Option PyErr
  | [], cfg => (cfg, none)
  | (k, _) :: rest, cfg =>
    match old k with
    | none => (cfg, some .keyError)
    | some v => exitLoop old rest (setOpt fold cfg k v)

/-- L86-88 `__exit__`. -/
def Env.exit (e : Env) (cfg : Cfg) : Cfg × Option PyErr :=
  exitLoop fold e.old e.options cfg

/-- The keys that L74-76 read from the credentials, and the options they set. -/
def credentialOptions (creds : String → Option String) : Except PyErr Dict :=
  match creds "SecretAccessKey", creds "AccessKeyId", creds "SessionToken" with
  | some s, some a, some t =>
    .ok [("AWS_SECRET_ACCESS_KEY", s), ("AWS_ACCESS_KEY_ID", a), ("AWS_SESSION_TOKEN", t)]
  | _, _, _ => .error .keyError

/-- L63-79 `with_aws_credentials`; `none` is the Python `None` argument. -/
def Env.withAwsCredentials (e : Env) (creds : Option (String → Option String)) : Except PyErr Env :=
  match creds with
  | none => .ok e
  | some c =>
    match credentialOptions c with
    | .error x => .error x
    | .ok new => .ok { e with options := new.foldl (fun d kv => dictSet d kv.1 kv.2) e.options }

/-- A `with env:` statement whose body has the effect `body` on the table (the
same table is left whether the body returns or raises). Returns the environment,
the final table, and the error raised by `__exit__`, if any.  `gdal_config.py` L81-88. -/
def withBlock (e : Env) (body : Cfg → Cfg) (cfg : Cfg) : Env × Cfg × Option PyErr :=
  let (e', cfg') := e.enter fold cfg
  let (cfg'', err) := e'.exit fold (body cfg')
  (e', cfg'', err)

/-! ## Programs with nested blocks -/

/-- Programs that use environment objects, named by numbers.  They call `gdal_config.py` L81-88. -/
inductive Prog
  | skip
  | set (key : String) (value : Option String)
  | raise
  | seq (p q : Prog)
  | block (env : Nat) (body : Prog)

/-- How a program ended (`gdal_config.py` L81-88). -/
inductive Outcome
  | normal
  | raised
  | exitFailed (e : PyErr)
deriving DecidableEq

/-- The state: environment objects and the global table (`gdal_config.py` L56-61, L81-88). -/
structure World where
  envs : Nat → Env
  cfg : Cfg

/-- Replace one environment object (`gdal_config.py` L81-84). -/
def World.setEnv (w : World) (i : Nat) (e : Env) : World :=
  { w with envs := fun j => if j = i then e else w.envs j }

/-- Semantics of programs.  `__exit__` (L86) returns `None`, so an exception of
the body propagates after the restore. -/
def run : Prog → World → World × Outcome
  | .skip, w => (w, .normal)
  | .set k v, w => ({ w with cfg := setOpt fold w.cfg k v }, .normal)
  | .raise, w => (w, .raised)
  | .seq p q, w =>
    match run p w with
    | (w', .normal) => run q w'
    | r => r
  | .block i body, w =>
    let (e', cfg') := (w.envs i).enter fold w.cfg
    let w1 : World := { (w.setEnv i e') with cfg := cfg' }
    let (w2, out) := run body w1
    let (cfg3, err) := (w2.envs i).exit fold w2.cfg
    let w3 : World := { w2 with cfg := cfg3 }
    match err with
    | some e => (w3, .exitFailed e)
    | none => (w3, out)

/-! ## Schedules of enter and exit events (several threads) -/

/-- One atomic step of some thread.  `gdal_config.py` L81-88. -/
inductive Event
  | enter (env : Nat)
  | exit (env : Nat)

/-- Execution of one event; an exit that raises stops with `none`.  `gdal_config.py` L81-88. -/
def step (w : World) : Event → Option World
  | .enter i =>
    let (e', cfg') := (w.envs i).enter fold w.cfg
    some { (w.setEnv i e') with cfg := cfg' }
  | .exit i =>
    match (w.envs i).exit fold w.cfg with
    | (cfg', none) => some { w with cfg := cfg' }
    | (_, some _) => none

/-- Execution of a schedule (`gdal_config.py` L81-88). -/
def runEvents : List Event → World → Option World
  | [], w => some w
  | ev :: rest, w => (step fold w ev).bind (runEvents rest)

/-! ## Default configuration -/

/-- L21-40: the default options. -/
def defaultOptions : Dict :=
  [("VSI_CACHE", "YES"),
   ("VSI_CACHE_SIZE", "10000000000"),
   ("GDAL_DISABLE_READDIR_ON_OPEN", "EMPTY_DIR"),
   ("GDAL_CACHEMAX", "75%"),
   ("GDAL_NUM_THREADS", "1"),
   ("GDAL_GCPS_TO_GEOTRANSFORM_APPROX_OK", "YES"),
   ("GDAL_MAX_DATASET_POOL_SIZE", "1000"),
   ("BIGTIFF_OVERVIEW", "YES"),
   ("USE_TILE_AS_BLOCK", "YES"),
   ("CPL_DEBUG", "OFF"),
   ("CPL_VSIL_CURL_CHUNK_SIZE", toString (10 * 1024 * 1024)),
   ("CPL_VSIL_CURL_CACHE_SIZE", toString (10 * 1024 * 1024 * 500))]

/-- L41-42: the loop of `set_gdal_default_configuration`. -/
def setDefaults (cfg : Cfg) : Cfg :=
  defaultOptions.foldl (fun c kv => setOpt fold c kv.1 (some kv.2)) cfg

end

/-! ## Object identity of option dictionaries -/

/-- A heap of dictionaries: addresses below `next` are in use.  The `options` of `gdal_config.py` L56-79. -/
structure DictHeap where
  dicts : Nat → Dict
  next : Nat

/-- L56-60 `__init__` on the heap: the dictionary is copied to a new address. -/
def DictHeap.newEnv (h : DictHeap) (arg : Option Nat) : DictHeap × Nat :=
  let content := match arg with
    | none => []
    | some a => h.dicts a
  ({ dicts := fun a => if a = h.next then content else h.dicts a, next := h.next + 1 }, h.next)

/-- L71-78 on the heap: the update happens at the environment's own dictionary. -/
def DictHeap.withCredentials (h : DictHeap) (env : Nat) (creds : Option (String → Option String)) :
    Except PyErr DictHeap :=
  match creds with
  | none => .ok h
  | some c =>
    match credentialOptions c with
    | .error x => .error x
    | .ok new => .ok { h with dicts := fun a =>
        if a = env then new.foldl (fun d kv => dictSet d kv.1 kv.2) (h.dicts env) else h.dicts a }

/-- Calls a client can make.  `gdal_config.py` L56-79. -/
inductive ClientOp
  | construct (arg : Option Nat)
  | credentials (envIndex : Nat) (creds : Option (String → Option String))

/-- Run a client program; `envs` are the addresses of the environments made so
far. A call that raises, or names no environment, changes nothing.  `gdal_config.py` L56-79. -/
def runClient : List ClientOp → DictHeap × List Nat → DictHeap × List Nat
  | [], s => s
  | .construct arg :: rest, (h, envs) =>
    let (h', a) := h.newEnv arg
    runClient rest (h', envs ++ [a])
  | .credentials i c :: rest, (h, envs) =>
    match envs[i]? with
    | none => runClient rest (h, envs)
    | some a =>
      match h.withCredentials a c with
      | .error _ => runClient rest (h, envs)
      | .ok h' => runClient rest (h', envs)

end Verif.GdalConfig
