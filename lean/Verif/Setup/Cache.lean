import Verif.Setup.Model

/-!
# Model of the cache of ephemeris data: `sorcha bootstrap` and the start of a run

The library pooch keeps files in a directory, the cache. A file that is there is used as it is (the registry gives no checksums, sorchaConfigs.py:1155);
one that is missing is downloaded to a temporary file and then moved to its place, so that a download leaves the whole file or nothing.
-/

namespace Sorcha.Setup

/-- The cache: the files in it by name. -/
abbrev Cache := String → Option (List Char)

/-- Create or replace a file. -/
def Cache.put (c : Cache) (name : String) (s : List Char) : Cache := Function.update c name (some s)

/-- Remove a file. -/
def Cache.remove (c : Cache) (name : String) : Cache := Function.update c name none

/-- The file names of `auxiliaryConfigs`, sorchaConfigs.py:961-1021. -/
structure Aux where
  planetEphemeris : String := "de440s.bsp"
  earthPredict : String := "earth_2025_250826_2125_predict.bpc"
  earthHistorical : String := "earth_620120_250826.bpc"
  earthHighPrecision : String := "earth_latest_high_prec.bpc"
  jplPlanets : String := "linux_p1550p2650.440"
  jplSmallBodies : String := "sb441-n16.bsp"
  leapSeconds : String := "naif0012.tls"
  metaKernel : String := "meta_kernel.txt"
  observatoryCodes : String := "ObsCodes.json"
  observatoryCodesCompressed : String := "ObsCodes.json.gz"
  orientationConstants : String := "pck00010.pck"

/-- `data_file_list`, sorchaConfigs.py:1119-1131. -/
def Aux.dataFileList (a : Aux) : List String :=
  [a.planetEphemeris, a.earthPredict, a.earthHistorical, a.earthHighPrecision, a.jplPlanets, a.jplSmallBodies, a.leapSeconds, a.metaKernel,
    a.observatoryCodes, a.observatoryCodesCompressed, a.orientationConstants]

/-- `data_files_to_download`, sorchaConfigs.py:1133-1143; also the keys of `urls`, lines 1107-1117. -/
def Aux.toDownload (a : Aux) : List String :=
  [a.planetEphemeris, a.earthPredict, a.earthHistorical, a.earthHighPrecision, a.jplPlanets, a.jplSmallBodies, a.leapSeconds,
    a.observatoryCodesCompressed, a.orientationConstants]

/-- `ordered_kernel_files`, sorchaConfigs.py:1145-1152. -/
def Aux.kernels (a : Aux) : List String :=
  [a.leapSeconds, a.earthHistorical, a.earthPredict, a.orientationConstants, a.planetEphemeris, a.earthHighPrecision]

/-- The network: what a download of a file gives in the end, after the 25 repetitions of simulation_data_files.py:29; `none` if it fails. -/
abbrev Net := String → Option (List Char)

/-- `retriever.fetch(name)` of pooch, for a name of the registry: nothing is done for a file that is there; a file without address cannot be downloaded
(its address is taken to be its name, which is no address of a known protocol). -/
def fetch (a : Aux) (net : Net) (name : String) (c : Cache) : Except Err Cache :=
  if (c name).isSome then .ok c
  else if name ∈ a.toDownload then
    match net name with
    | some s => .ok (c.put name s)
    | none => .error .download
  else .error .download

/-- A step that has run on the cache: every state in which it could have been ended, how it ended, and the cache then. -/
structure Did where
  passed : List Cache
  result : Except Err Unit
  cache : Cache

/-- `_remove_files`, retrieve_ephemeris_data_files.py:34-51: each file is fetched, then removed. -/
def removeAll (a : Aux) (net : Net) : List String → Cache → Did
  | [], c => ⟨[c], .ok (), c⟩
  | f :: fs, c =>
    match fetch a net f c with
    | .error e => ⟨[c], .error e, c⟩
    | .ok c' =>
      let r := removeAll a net fs (c'.remove f)
      ⟨c :: c' :: r.passed, r.result, r.cache⟩

/-- `os.path.splitext(fname)[-1] in known_extentions`, retrieve_ephemeris_data_files.py:29-30: the name without the extension. -/
def unpackedName (name : String) : Option String :=
  [".gz", ".bz2", ".xz"].findSome? fun ext =>
    if ext.toList.isSuffixOf name.toList && ext.length < name.length then some (String.ofList (name.toList.take (name.length - ext.length))) else none

/-- How far one of the parallel downloads is. -/
inductive Stage
  | waiting
  | unpacking (text : List Char) (written : ℕ)
  | done
deriving DecidableEq, Repr

/-- The state of the parallel downloads. -/
structure Par where
  cache : Cache
  stage : String → Stage

/-- The stage of one download changes. -/
def Par.to (s : Par) (name : String) (c : Cache) (st : Stage) : Par := ⟨c, Function.update s.stage name st⟩

/-- After the file is there, `_decompress`, retrieve_ephemeris_data_files.py:11-31: `Decompress` of pooch unpacks if the file was just downloaded or if the
unpacked one is missing. `unpack` is what the decompression writes; if the archive is damaged, it ends there with an exception that nobody sees. -/
def afterFetch (unpack : List Char → List Char) (name : String) (downloaded : Bool) (c : Cache) : Stage :=
  match unpackedName name with
  | none => .done
  | some u => if downloaded || (c u).isNone then .unpacking (unpack ((c name).getD [])) 0 else .done

/-- One step of one of the downloads: `executor.map(fetch_partial, …)`, bootstrap.py:71-74. The result of `map` is not looked at, so that an exception
ends this download only. The unpacked file grows until all is written. -/
def advance (a : Aux) (net : Net) (unpack : List Char → List Char) (name : String) (s : Par) : Par :=
  match s.stage name with
  | .waiting =>
    match fetch a net name s.cache with
    | .error _ => s.to name s.cache .done
    | .ok c => s.to name c (afterFetch unpack name (s.cache name).isNone c)
  | .unpacking t k => s.to name (s.cache.put ((unpackedName name).getD "") (t.take k)) (if k < t.length then .unpacking t (k + 1) else .done)
  | .done => s

/-- The downloads run in parallel, in any order and interleaving. -/
inductive Runs (a : Aux) (net : Net) (unpack : List Char → List Char) (s : Par) : Par → Prop
  | start : Runs a net unpack s s
  | step {t : Par} (name : String) (h : Runs a net unpack s t) (hn : name ∈ a.toDownload) : Runs a net unpack s (advance a net unpack name t)

/-- The beginning of the meta-kernel file, generate_meta_kernel.py:69-72. -/
def metaHead (dir : List Char) : List Char :=
  "\\begindata\n\n".toList ++ "PATH_VALUES = ('".toList ++ Cli.splitPath 79 dir ++ "')\n\n".toList ++ "PATH_SYMBOLS = ('A')\n\n".toList ++
    "KERNELS_TO_LOAD=(\n".toList

/-- One line of it, generate_meta_kernel.py:74-75; `fetch` gives the path of the file in the cache. -/
def metaLine (dir : List Char) (f : String) : List Char := "    '".toList ++ Cli.buildFileName dir (dir ++ '/' :: f.toList) ++ "',\n".toList

/-- The end of it, generate_meta_kernel.py:76-77. -/
def metaFoot : List Char := ")\n\n".toList ++ "\\begintext\n".toList

/-- The states while the meta-kernel is written: any initial part of what was written so far may have reached the file. -/
def partly (c : Cache) (name : String) (s : List Char) : List Cache := s.inits.map fun part => c.put name part

/-- The loop of `build_meta_kernel_file`, generate_meta_kernel.py:73-77; `text` is what was written so far. -/
def metaLoop (a : Aux) (net : Net) (dir : List Char) : List String → List Char → Cache → Did
  | [], text, c => ⟨partly c a.metaKernel (text ++ metaFoot), .ok (), c.put a.metaKernel (text ++ metaFoot)⟩
  | f :: fs, text, c =>
    match fetch a net f c with
    | .error e => ⟨partly c a.metaKernel text, .error e, c.put a.metaKernel text⟩
    | .ok c' =>
      let r := metaLoop a net dir fs (text ++ metaLine dir f) c'
      ⟨partly c a.metaKernel text ++ r.passed, r.result, r.cache⟩

/-- `build_meta_kernel_file`, generate_meta_kernel.py:49-77, for the cache directory `dir`. -/
def buildMeta (a : Aux) (net : Net) (dir : List Char) (c : Cache) : Did :=
  let r := metaLoop a net dir a.kernels (metaHead dir) c
  ⟨c :: r.passed, r.result, r.cache⟩

/-- `_check_for_existing_files`, retrieve_ephemeris_data_files.py:54-87: the files that are missing. -/
def missing (a : Aux) (c : Cache) : List String := a.dataFileList.filter fun f => (c f).isNone

/-- How `sorcha bootstrap` ends. -/
inductive End
  | killed
  | raised
  | normal (missing : List String)
deriving DecidableEq, Repr

/-- What the network gives in the three parts of the command; no file is downloaded twice in one part. -/
structure Nets where
  remove : Net
  download : Net
  build : Net

/-- The part before the downloads, bootstrap.py:60-66: the cache with which they start. -/
def Begins (a : Aux) (nets : Nets) (force : Bool) (c c' : Cache) : Prop :=
  (force = true ∧ (removeAll a nets.remove a.dataFileList c).result = .ok () ∧ c' = (removeAll a nets.remove a.dataFileList c).cache) ∨
  (force = false ∧ missing a c ≠ [] ∧ c' = c)

/-- The downloads are done. -/
def Finished (a : Aux) (s : Par) : Prop := ∀ f ∈ a.toDownload, s.stage f = .done

/-- `sorcha bootstrap`, bootstrap.py:32-80, on the cache `c`: it ends as told and leaves the cache. It may be ended at any moment. -/
inductive Bootstrap (a : Aux) (nets : Nets) (unpack : List Char → List Char) (dir : List Char) (force : Bool) (c : Cache) : End → Cache → Prop
  | early : Bootstrap a nets unpack dir force c .killed c
  | found (hf : force = false) (h : missing a c = []) : Bootstrap a nets unpack dir force c (.normal []) c
  | removeKilled {s : Cache} (hf : force = true) (h : s ∈ (removeAll a nets.remove a.dataFileList c).passed) :
      Bootstrap a nets unpack dir force c .killed s
  | removeRaised {e : Err} (hf : force = true) (h : (removeAll a nets.remove a.dataFileList c).result = .error e) :
      Bootstrap a nets unpack dir force c .raised (removeAll a nets.remove a.dataFileList c).cache
  | downloadKilled {c' : Cache} {s : Par} (hb : Begins a nets force c c') (h : Runs a nets.download unpack ⟨c', fun _ => .waiting⟩ s) :
      Bootstrap a nets unpack dir force c .killed s.cache
  | buildKilled {c' : Cache} {s : Par} {t : Cache} (hb : Begins a nets force c c') (h : Runs a nets.download unpack ⟨c', fun _ => .waiting⟩ s)
      (hf : Finished a s) (ht : t ∈ (buildMeta a nets.build dir s.cache).passed) : Bootstrap a nets unpack dir force c .killed t
  | buildRaised {c' : Cache} {s : Par} {e : Err} (hb : Begins a nets force c c') (h : Runs a nets.download unpack ⟨c', fun _ => .waiting⟩ s)
      (hf : Finished a s) (he : (buildMeta a nets.build dir s.cache).result = .error e) :
      Bootstrap a nets unpack dir force c .raised (buildMeta a nets.build dir s.cache).cache
  | built {c' : Cache} {s : Par} (hb : Begins a nets force c c') (h : Runs a nets.download unpack ⟨c', fun _ => .waiting⟩ s) (hf : Finished a s)
      (ho : (buildMeta a nets.build dir s.cache).result = .ok ()) :
      Bootstrap a nets unpack dir force c (.normal (missing a (buildMeta a nets.build dir s.cache).cache)) (buildMeta a nets.build dir s.cache).cache

/-! ## The start of a run -/

/-- Fetch several files one after the other. -/
def fetchAll (a : Aux) (net : Net) : List String → Cache → Except Err Cache
  | [], c => .ok c
  | f :: fs, c => do fetchAll a net fs (← fetch a net f c)

/-- The files a run has read: the meta-kernel given to SPICE, the planets, the small bodies and the observatory codes. -/
structure Loaded where
  metaKernel : List Char
  planets : List Char
  smallBodies : List Char
  observatories : List Char
deriving DecidableEq, Repr

/-- The meta-kernel is made iff there is none, simulation_setup.py:104-105. -/
def ensureMeta (a : Aux) (net : Net) (dir : List Char) (c : Cache) : Except Err Cache :=
  if (c a.metaKernel).isSome then .ok c
  else match (buildMeta a net dir c).result with
    | .ok _ => .ok (buildMeta a net dir c).cache
    | .error e => .error e

/-- The observatory codes, simulation_parsing.py:298-310: the file if it is there, else it is unpacked from the downloaded archive. -/
def observatories (a : Aux) (net : Net) (unpack : List Char → List Char) (c : Cache) : Except Err Cache :=
  if (c a.observatoryCodes).isSome then .ok c
  else do
    let c' ← fetch a net a.observatoryCodesCompressed c
    return c'.put a.observatoryCodes (unpack ((c' a.observatoryCodesCompressed).getD []))

/-- The start of a run with generated ephemerides, simulation_setup.py:211-215: `create_assist_ephemeris` (lines 69-72), `furnish_spiceypy` (98-118) and
`Observatory`. What is loaded and the cache afterwards. -/
def startRun (a : Aux) (net : Net) (unpack : List Char → List Char) (dir : List Char) (c : Cache) : Except Err (Loaded × Cache) := do
  let c ← fetchAll a net [a.jplPlanets, a.jplSmallBodies] c
  let c ← fetchAll a net a.kernels c
  let c ← ensureMeta a net dir c
  let c ← fetch a net a.metaKernel c
  let c ← observatories a net unpack c
  return (⟨(c a.metaKernel).getD [], (c a.jplPlanets).getD [], (c a.jplSmallBodies).getD [], (c a.observatoryCodes).getD []⟩, c)

end Sorcha.Setup
