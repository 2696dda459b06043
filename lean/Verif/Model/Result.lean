import Verif.Model.Reader
/-
Model of `harmonisation_eiv/harmonisation/core/matchup/matchupToolbox/harmonisation/harmonisationIO/HarmonisationResult.py`.

File names are treated as names in one directory (`os.path.split`, `pjoin` only carry the directory along); sensor names are taken not to contain `/`.
`α` is the type of the numbers; storing as `f8` does not change them. Strings are ASCII.
-/
set_option autoImplicit false
namespace Verif

/-- The value of a netCDF global attribute; `missing` is Python's `None`. -/
inductive AttVal (α : Type) where
  | missing
  | num (x : α)
  | str (s : String)
  deriving DecidableEq

/-- An entry of `additional_variables`: numbers, or names (`dtype` equal to `'S1'`), along the dimension `dim`. Dimension names are one character: the code
loops over the characters of the string (L629), and the package only uses `'s'` (HarmonisationEIV.py L147, L152). -/
inductive AddVar (α : Type) where
  | num (dim : Char) (data : List α)
  | names (dim : Char) (data : List String)
  deriving DecidableEq

/-- A variable of the output file: numbers or rows of characters (dimensions `(dim, 'l_name')`). -/
inductive OutVar (α : Type) where
  | num (dim : Char) (data : List α)
  | chars (dim : Char) (data : List (List Char))
  deriving DecidableEq

/-- The attributes of a `HarmonisationResult` (L138-163). -/
structure HarmResult (α : Type) where
  parameter : List α
  sensors : List String
  covariance : Option (List (List α))
  cost : AttVal α
  dof : AttVal α
  pValue : AttVal α
  attrs : List (String × AttVal α)
  vars : List (String × AddVar α)
  idx : Idx
  values : Option (List α)
  ks : Option (List α)

/-- The output file: global attributes, `parameter`, `parameter_covariance_matrix`, `parameter_sensors` (one row of characters per parameter), and the
additional variables. -/
structure OutFile (α : Type) where
  attrs : List (String × AttVal α)
  parameter : List α
  covariance : List (List α)
  sensors : List (List Char)
  vars : List (String × OutVar α)

/-- `max_l_name = 80` (L609). -/
def nameWidth : Nat := 80

/-- `'{0: <80}'.format(p)` (L628). -/
def padName (s : String) : List Char := s.toList ++ List.replicate (nameWidth - s.toList.length) ' '

/-- `stringtochar(asarray([...]))` assigned to a variable of 80 columns (L628-633, L646-653): a `ValueError` for an empty list (numpy makes it a float
array) and for a name longer than the column. -/
def charRows (names : List String) : Py (List (List Char)) :=
  if names = [] then .error .valueError
  else if names.any (fun s => decide (nameWidth < s.toList.length)) then .error .valueError
  else .ok (names.map padName)

/-- Setting a global attribute: `None` is refused by netCDF4 (`TypeError`); an existing one is replaced. -/
def setAtt {α : Type} (atts : List (String × AttVal α)) (a : String × AttVal α) : Py (List (String × AttVal α)) :=
  match a.2 with
  | .missing => .error .typeError
  | _ => .ok (if atts.any (fun b => b.1 == a.1) then atts.map (fun b => if b.1 == a.1 then a else b) else atts ++ [a])

/-- L611-626: the matrix must be there and be `n` by `n`. -/
def checkCov {α : Type} (n : Nat) (c : Option (List (List α))) : Py (List (List α)) :=
  match c with
  | none => .error .typeError
  | some rows => if rows.length = n ∧ rows.all (fun r => decide (r.length = n)) then .ok rows else .error .valueError

/-- The netCDF dimensions of the file so far. -/
abbrev DimTable := List (Char × Nat)

/-- `additional_variables[variable]['dim']` and the length of `['data']`. -/
def AddVar.dim {α : Type} : AddVar α → Char
  | .num d _ => d
  | .names d _ => d
def AddVar.size {α : Type} : AddVar α → Nat
  | .num _ l => l.length
  | .names _ l => l.length

/-- L637-639: the dimension is created if it is not there. -/
def dimsWith (dims : DimTable) (dim : Char) (len : Nat) : DimTable :=
  if (dims.lookup dim).isSome then dims else dims ++ [(dim, len)]

/-- L645-655: the variable as stored. The code also replaces the names held by the result object by padded ones (L646-647), which is not modelled. -/
def AddVar.stored {α : Type} : AddVar α → Py (OutVar α)
  | .num d l => .ok (.num d l)
  | .names d l => do
    let rows ← charRows l
    pure (.chars d rows)

/-- L636-655, one additional variable: create its dimension if it is not there, and write the data, which must fit it; a name already in use is refused. -/
def writeVar {α : Type} (st : DimTable × List (String × OutVar α)) (v : String × AddVar α) : Py (DimTable × List (String × OutVar α)) :=
  if v.1 ∈ ["parameter", "parameter_covariance_matrix", "parameter_sensors"] then .error .runtimeError else
  if (dimsWith st.1 v.2.dim v.2.size).lookup v.2.dim = some v.2.size then do
    let w ← v.2.stored
    pure (dimsWith st.1 v.2.dim v.2.size, st.2 ++ [(v.1, w)])
  else .error .valueError

/-- L575-667 `write_harmonisation_output_file`: the file written. -/
def HarmResult.writeOutput {α : Type} (r : HarmResult α) : Py (OutFile α) := do
  let attrs ← ([("cost", r.cost), ("cost_dof", r.dof), ("cost_p_value", r.pValue)] ++ r.attrs).foldlM setAtt []
  let cov ← checkCov r.parameter.length r.covariance
  let names ← charRows r.sensors
  if names.length = r.parameter.length then do
    let st ← r.vars.foldlM writeVar ([('n', r.parameter.length)], [])
    pure { attrs := attrs, parameter := r.parameter, covariance := cov, sensors := names, vars := st.2 }
  else .error .valueError

/-- The characters removed by `str.strip()`. -/
def isBlank (c : Char) : Bool := c ∈ [' ', '\t', '\n', '\r', '\x0b', '\x0c']

/-- `s.strip()`. -/
def strip (s : List Char) : List Char := ((s.dropWhile isBlank).reverse.dropWhile isBlank).reverse

/-- What `open_harmonisation_output_file` returns (L320-323). -/
structure OpenedOutput (α : Type) where
  parameter : List α
  sensors : List String
  covariance : List (List α)
  cost : AttVal α
  dof : AttVal α
  pValue : AttVal α
  attrs : List (String × AttVal α)
  vars : List (String × OutVar α)

/-- `dataset.name` for a global attribute. -/
def getAtt {α : Type} (atts : List (String × AttVal α)) (name : String) : Py (AttVal α) :=
  match atts.lookup name with
  | some v => .ok v
  | none => .error .attributeError

/-- L232-323 `open_harmonisation_output_file`. -/
def OutFile.open {α : Type} (f : OutFile α) : Py (OpenedOutput α) := do
  let cost ← getAtt f.attrs "cost"
  let dof ← getAtt f.attrs "cost_dof"
  let p ← getAtt f.attrs "cost_p_value"
  pure { parameter := f.parameter, sensors := f.sensors.map (fun s => String.ofList (strip s)), covariance := f.covariance, cost := cost, dof := dof, pValue := p
         attrs := f.attrs.filter (fun a => a.1 ∉ ["cost", "cost_dof", "cost_p_value"] && a.1.toList.head? ≠ some '_'), vars := f.vars }

/-- One sensor of a residual file: its name and, if written, the number of covariates (dimension `mj`) and the variable `Xj_res`. -/
structure ResSide (α : Type) where
  name : String
  X : Option (Nat × (Nat → Nat → α))

/-- A residual file: dimension `M`, attributes `sensor_1_name`, `sensor_2_name`, variables `X1_res`, `X2_res` (optional), `k_res`. The names `m`, `sensor_i`,
`sensor_j` of an older format (L401-414) are not modelled. -/
structure ResFile (α : Type) where
  M : Nat
  s1 : ResSide α
  s2 : ResSide α
  k : List α

/-- L729-742: the array `X_res` of one sensor of one series, column by column. -/
def resColumns {α : Type} [Zero α] (x : Idx) (values : List α) (i s M m : Nat) : Py (List (List α)) :=
  (List.range m).mapM fun c => do
    let b ← pyIndex x.blocks (s, i + 1, c + 1)
    let i_start ← pyGet x.idx b
    let i_end ← pyGet x.idx (b + 1)
    setSlice (List.replicate M 0) 0 M (slice values i_start i_end)

/-- L724-754: one sensor. The array is computed, a variable of its shape is created, but the assignment of L754, `X_res_var = X_res[:]`, rebinds the local name:
the variable in the file keeps netCDF's fill value. -/
def resSide {α : Type} [Zero α] (fill : α) (x : Idx) (values : Option (List α)) (i s M : Nat) (name : String) : Py (ResSide α) :=
  match values with
  | none => .ok { name := name, X := none }
  | some values => do
    let m ← pyGet x.sensor_ms s
    let _ ← resColumns x values i s M m
    pure { name := name, X := some (m, fun _ _ => fill) }

/-- L700-770: the residual file of series `i` (counted from 0) with the sensor pair `pair`. -/
def resFile {α : Type} [Zero α] (fill : α) (x : Idx) (values ks : Option (List α)) (i : Nat) (pair : Nat × Nat) : Py (ResFile α) := do
  let n1 ← pyGet x.sensors pair.1
  let n2 ← pyGet x.sensors pair.2
  let M ← pyGet x.Nm i
  let s1 ← resSide fill x values i pair.1 M n1
  let s2 ← resSide fill x values i pair.2 M n2
  let a ← pyGet x.cNm i
  let b ← pyGet x.cNm (i + 1)
  match ks with
  | none => .error .typeError
  | some ks => do
    let k ← setSlice (List.replicate M 0) 0 M (slice ks a b)
    pure { M := M, s1 := s1, s2 := s2, k := k }

/-- `os.path.splitext` of a name without slashes. -/
def splitext (s : List Char) : List Char × List Char :=
  let ext := (s.reverse.takeWhile (fun c => c ≠ '.')).reverse
  let stem := s.take (s.length - ext.length - 1)
  if '.' ∈ s ∧ stem.any (fun c => c ≠ '.') then (stem, '.' :: ext) else (s, [])

/-- L704-706: the name of a residual file. -/
def resName (fname : List Char) (s1 s2 : String) : List Char :=
  (splitext fname).1 ++ "_res_".toList ++ s1.toList ++ "_".toList ++ s2.toList ++ (splitext fname).2

/-- A file of the output directory. -/
inductive NcFile (α : Type) where
  | out (f : OutFile α)
  | res (f : ResFile α)
  | foreign

/-- A directory: names and contents. -/
abbrev Dir (α : Type) := List (List Char × NcFile α)

/-- `Dataset(path, 'w')`: create or overwrite. -/
def Dir.put {α : Type} (d : Dir α) (name : List Char) (f : NcFile α) : Dir α :=
  if d.any (fun e => e.1 == name) then d.map (fun e => if e.1 == name then (name, f) else e) else d ++ [(name, f)]

/-- L669-774 `write_harmonisation_residual_files`. The name uses the sensor names (L702-705). -/
def writeResiduals {α : Type} [Zero α] (fill : α) (dir : Dir α) (fname : List Char) (x : Idx) (values ks : Option (List α)) : Py (Dir α) :=
  x.Im.zipIdx.foldlM (fun d pi => do
    let f ← resFile fill x values ks pi.2 pi.1
    pure (d.put (resName fname f.s1.name f.s2.name) (.res f))) dir

/-- L554-573 `save`. -/
def HarmResult.save {α : Type} [Zero α] (fill : α) (dir : Dir α) (fname : List Char) (saveResiduals : Bool) (r : HarmResult α) : Py (Dir α) := do
  let f ← r.writeOutput
  let dir := dir.put fname (.out f)
  if saveResiduals then writeResiduals fill dir fname r.idx r.values r.ks else pure dir

/-- The part of a name before a line feed: `.` does not match a line feed. -/
def firstLine (s : List Char) : List Char := s.takeWhile (fun c => c ≠ '\n')

/-- L190: `re.compile('harm(?:(?!.*res.*).*)\.nc').match(f)`. -/
def outRule (f : List Char) : Bool :=
  "harm".toList.isPrefixOf f && !decide ("res".toList <:+: firstLine (f.drop 4)) && decide (".nc".toList <:+: firstLine (f.drop 4))

/-- L221: `re.compile('harm(?:(?=.*res.*).*)\.nc').match(f)`. -/
def resRule (f : List Char) : Bool :=
  "harm".toList.isPrefixOf f && decide ("res".toList <:+: firstLine (f.drop 4)) && decide (".nc".toList <:+: firstLine (f.drop 4))

/-- L178-204 `_get_harm_output_path`; `listing` is `listdir(output_dir)`. -/
def findOutput (listing : List (List Char)) : Py (List Char) :=
  match listing.filter outRule with
  | [] => .error .ioError
  | [f] => .ok f
  | _ => .error .ioError

/-- L206-230 `_get_harm_res_paths`; `none` is `None`. -/
def findResiduals (listing : List (List Char)) : Option (List (List Char)) :=
  match listing.filter resRule with
  | [] => none
  | l => some l

/-- L376-381: `X1_res` and `X2_res` in every file. -/
def resAvailable {α : Type} (fs : List (ResFile α)) : Bool := fs.all (fun f => f.s1.X.isSome && f.s2.X.isSome)

/-- L416-419: the number of covariates taken for a sensor of a file. -/
def ResSide.m {α : Type} (avail : Bool) (s : ResSide α) : Nat := if avail then (s.X.map (·.1)).getD 0 else 0

/-- L421-427: append an unseen sensor and its covariate count. -/
def resSensorStep {α : Type} (avail : Bool) (st : List String × List Nat) (s : ResSide α) : List String × List Nat :=
  if s.name ∈ st.1 then st else (st.1 ++ [s.name], st.2 ++ [s.m avail])

/-- L384-427: sensors and their covariate counts, in the order of the files. -/
def resSensors {α : Type} (avail : Bool) (fs : List (ResFile α)) : List String × List Nat :=
  (fs.flatMap fun f => [f.s1, f.s2]).foldl (resSensorStep avail) ([], [])

/-- L421-427: the pairs of sensor numbers (every name is in the list by then). -/
def resIm {α : Type} (sensors : List String) (fs : List (ResFile α)) : List (Nat × Nat) :=
  fs.map fun f => (sensors.idxOf f.s1.name, sensors.idxOf f.s2.name)

/-- L438-489: the block structure. Sensor number 0 is taken to be a reference with one covariate. Without `X` residuals the block entries are absent from
the dictionary; they are empty here. -/
def resIdx {α : Type} (fs : List (ResFile α)) : Py Idx := do
  let avail := resAvailable fs
  let Nm := fs.map (·.M)
  let (sensors, ms) := resSensors avail fs
  let Im := resIm sensors fs
  if avail then do
    let mx ← pyMax ms
    let refs := ((Im.flatMap pairList).filter (· = 0)).length
    let n_sensor := List.replicate refs 0 ++ (List.range mx).flatMap fun k => ((Im.flatMap pairList).filter (· ≠ 0)).filter (hasCov ms (k + 1))
    let n_mu := (Im.zipIdx.filter fun pi => 0 ∈ pairList pi.1).map (fun pi => pi.2 + 1) ++
      (List.range mx).flatMap fun k => Im.zipIdx.flatMap fun pi => ((pairList pi.1).filter fun s => hasCov ms (k + 1) s && s ≠ 0).map fun _ => pi.2 + 1
    let n_cov := List.replicate refs 1 ++
      (List.range mx).flatMap fun k => Im.flatMap fun p => ((pairList p).filter fun s => hasCov ms (k + 1) s && s ≠ 0).map fun _ => k + 1
    let N_var ← n_mu.mapM fun n => pyGet Nm (n - 1)
    pure { Nm := Nm, cNm := prefixSums Nm, Im := Im, sensors := sensors, sensor_ms := ms, n_sensor := n_sensor, n_mu := n_mu, n_cov := n_cov, N_var := N_var
           idx := prefixSums N_var }
  else pure { Nm := Nm, cNm := prefixSums Nm, Im := Im, sensors := sensors, sensor_ms := ms, n_sensor := [], n_mu := [], n_cov := [], N_var := [], idx := [] }

/-- L508-522: the columns of sensor number `n` in file `i`. -/
def resSideJobs {α : Type} (n i M : Nat) (s : ResSide α) : List ((Nat × Nat × Nat) × Py (List α)) :=
  match s.X with
  | none => []
  | some (m, X) => (List.range m).map fun c => ((n, i + 1, c + 1), .ok (column M X c))

/-- L499-522: the loop nest reading the `X` residuals: block keys and columns. -/
def resJobs {α : Type} (fs : List (ResFile α)) (x : Idx) : List ((Nat × Nat × Nat) × Py (List α)) :=
  (fs.zip x.Im).zipIdx.flatMap fun fi =>
    ([fi.1.1.s1, fi.1.1.s2].zip (pairList fi.1.2)).flatMap fun ss => resSideJobs ss.2 fi.2 fi.1.1.M ss.1

/-- What `open_harmonisation_residual_files` returns (L552). -/
structure OpenedResiduals (α : Type) where
  values : Option (List α)
  ks : List α
  idx : Idx
  attrs : List (String × AttVal α)

/-- L495-522: the `X` residuals. -/
def resValues {α : Type} [Zero α] (fs : List (ResFile α)) (x : Idx) : Py (Option (List α)) :=
  if resAvailable fs then do
    let n ← pyGet x.idx (x.idx.length - 1)
    let v ← (resJobs fs x).foldlM (writeBlock x.blocks x.idx) (List.replicate n 0)
    pure (some v)
  else pure none

/-- L325-552 `open_harmonisation_residual_files` (`IndexError` on an empty list, L373). The attributes are those of the first file. -/
def openResiduals {α : Type} [Zero α] (fs : List (ResFile α)) : Py (OpenedResiduals α) := do
  let f0 ← pyGet fs 0
  let x ← resIdx fs
  let values ← resValues fs x
  let n ← pyGet x.cNm (x.cNm.length - 1)
  let ks ← openSeries (List.replicate n 0) x.cNm (fs.map (·.k))
  pure { values := values, ks := ks, idx := x, attrs := [("sensor_1_name", .str f0.s1.name), ("sensor_2_name", .str f0.s2.name)] }

/-- `Dataset(path, 'r')` used as an output file: another file lacks the attribute `cost`. -/
def Dir.readOut {α : Type} (d : Dir α) (name : List Char) : Py (OutFile α) :=
  match d.lookup name with
  | some (.out f) => .ok f
  | some _ => .error .attributeError
  | none => .error .ioError

/-- `Dataset(path, 'r')` used as a residual file: another file lacks the dimensions `M` and `m`. -/
def Dir.readRes {α : Type} (d : Dir α) (name : List Char) : Py (ResFile α) :=
  match d.lookup name with
  | some (.res f) => .ok f
  | some _ => .error .keyError
  | none => .error .ioError

/-- L126-176, the constructor with a directory: the output data, and the residual data if asked for (the default). The listing is in arbitrary order. With
no residual files in the directory the loop over `None` is a `TypeError`. The additional attributes are overwritten by those of the residual file. -/
def openResult {α : Type} [Zero α] (d : Dir α) (listing : List (List Char)) (open_residuals : Bool) : Py (OpenedOutput α × Option (OpenedResiduals α)) := do
  let name ← findOutput listing
  let f ← d.readOut name
  let o ← f.open
  if open_residuals then
    match findResiduals listing with
    | none => .error .typeError
    | some names => do
      let fs ← names.mapM d.readRes
      let r ← openResiduals fs
      pure ({ o with attrs := r.attrs }, some r)
  else pure (o, none)

end Verif
