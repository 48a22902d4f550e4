import Verif.Model.GridSerialize

set_option autoImplicit false

/-!
# Dumping a microgrid to a file (`utils/serialize.py:24-42,73-117`)

When the stream given to `dump` has a `name`, arrays and data frames are not part of the YAML document: they are written
to `.csv.gz` files and the document holds the relative paths.  The path of an array or data frame of a module is
`data/cls_params/<tag>/time_series.csv.gz` or `data/<tag>/log.csv.gz`, where `<tag>` is the yaml tag of the class of the
module.  The only arrays and data frames are the time series, the logs and the balance log, whose path
`data/Microgrid/balance_log.csv.gz` belongs to the microgrid alone.  Numbers are taken to be read back as written.
-/

namespace Pymgrid

/-- The yaml tags of the module classes. -/
inductive Tag
  | battery | genset | load | renewable | grid | balancing
  deriving DecidableEq, Repr

/-- A two-dimensional array: number of columns and rows. -/
abbrev Table := Nat × List (List ℚ)

namespace Params

/-- `yaml_tag` of the class, without the exclamation mark (`battery_module.py:62`, `genset_module.py:55`,
    `load_module.py:52`, `renewable_module.py:55`, `grid_module.py:67`, `unbalanced_energy_module.py:9`). -/
def tag : Params → Tag
  | .battery .. => .battery
  | .genset .. => .genset
  | .load .. => .load
  | .renewable .. => .renewable
  | .grid .. => .grid
  | .balancing .. => .balancing

/-- The array among the constructor arguments, `time_series`. -/
def table : Params → Option Table
  | .load series _ _ _ _ _ | .renewable series _ _ _ _ _ => some (1, series.map fun x => [x])
  | .grid _ _ ncols rows _ _ _ _ _ _ => some (ncols, rows)
  | _ => none

/-- The constructor arguments with another array. -/
def withTable (t : Table) : Params → Params
  | .load _ b c d e f => .load t.2.flatten b c d e f
  | .renewable _ b c d e f => .renewable t.2.flatten b c d e f
  | .grid a b _ _ e f g h i j => .grid a b t.1 t.2 e f g h i j
  | p => p

end Params

/-- Contents of the files `data/cls_params/<tag>/time_series.csv.gz` and `data/<tag>/log.csv.gz`. -/
structure Files where
  series : Tag → Option Table := fun _ => none
  log : Tag → Option (List (Key × List (Option ℚ))) := fun _ => none

namespace Files

/-- Represent one module (`base_module.py:799-850`, `utils/serialize.py:24-42,73-96`): its array and its log, if it has
    any, replace the contents of the files. -/
def write (f : Files) (d : Dump) : Files where
  series t := if d.params.tag = t then (match d.params.table with | some x => some x | none => f.series t) else f.series t
  log t := if d.params.tag = t then (match d.log with | some x => some x | none => f.log t) else f.log t

/-- Represent the modules in order. -/
def writeAll (f : Files) : List (String × Dump) → Files
  | [] => f
  | nd :: ds => (f.write nd.2).writeAll ds

/-- What the loader reads for a module (`utils/serialize.py:99-121`): the contents of the files that the document refers
    to.  They exist, the module itself has written them. -/
def read (f : Files) (d : Dump) : Dump where
  params := match f.series d.params.tag with | some t => d.params.withTable t | none => d.params
  state := d.state
  log := d.log.map fun own => (f.log d.params.tag).getD own

end Files

/-- The mapping that is read back from the file. -/
def GridDump.throughFile (d : GridDump) : GridDump :=
  { d with modules := d.modules.map fun nd => (nd.1, (Files.writeAll {} d.modules).read nd.2) }

/-- `with open(path, 'w') as f: microgrid.dump(f)` and then `with open(path) as f: Microgrid.load(f)`
    (`microgrid.py:829-864`). -/
def Microgrid.fileReload (gridClass : FFC) (g : Microgrid) : Except Err LoadedGrid :=
  match g.dump with
  | .error e => .error e
  | .ok d => d.throughFile.load gridClass

end Pymgrid
