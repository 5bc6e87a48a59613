import Mathlib.Data.List.Basic
/-!
# The application object: choice of the GPU and search for files

`Application::Application` with MPI and CUDA (`src/goofit/Application.cpp:156-209`),
`Application::get_filename` (`src/goofit/Application.cpp:295-330`).
-/
set_option autoImplicit false
namespace GooFit

/-- What the choice of the device depends on: `MPI_Comm_size`, `MPI_Comm_rank`, `cudaGetDeviceCount` and the environment variable
`PBS_NUM_NODES` as `atoi` reads it, if it is set (`src/goofit/Application.cpp:164-176`). -/
structure MpiEnv where
  numProcs : Int
  myId : Int
  deviceCount : Int
  pbsNumNodes : Option Int

/-- What the constructor ends with: a device, an exception, or a division by zero. -/
inductive DeviceChoice where
  | device (n : Int)
  | thrown
  | ub
deriving DecidableEq

/-- The nodes (`src/goofit/Application.cpp:173-179`). -/
def MpiEnv.nodes (e : MpiEnv) : Int :=
  let nodes := match e.pbsNumNodes with
    | none => 1
    | some n => n
  if nodes = 0 then 1 else nodes

/-- The device of a process (`src/goofit/Application.cpp:181-203`); division and remainder of C, `int` without overflow. -/
def MpiEnv.chooseDevice (e : MpiEnv) : DeviceChoice :=
  let procsPerNode := e.numProcs.tdiv e.nodes
  if procsPerNode = 0 then .ub
  else
    let localRank := e.myId.tmod procsPerNode
    if e.deviceCount = 0 then .thrown
    else if e.deviceCount = 1 ∧ localRank > 1 then .device 0
    else if procsPerNode > 1 ∧ e.deviceCount > 1 then
      if localRank ≤ e.deviceCount then .device localRank
      else .device (localRank.tmod e.deviceCount)
    else .device 0

/-- `std::string::rfind` for one character: the last position at which it is (`src/goofit/Application.cpp:302`). -/
def rfindChar (c : Char) : List Char → Option Nat
  | [] => none
  | x :: xs =>
    match rfindChar c xs with
    | some i => some (i + 1)
    | none => if x = c then some 0 else none

/-- What `get_filename` ends with: a file, or `FileError`. -/
inductive FileChoice where
  | found (path : List Char)
  | thrown (path : List Char)
deriving DecidableEq

/-- The file in the directory of the program, if it is there (`src/goofit/Application.cpp:300-310`). -/
def inProgramDir (file : List Char → Bool) (argv0 input : List Char) : Option (List Char) :=
  match rfindChar '/' argv0 with
  | none => none
  | some loc =>
    let newInput := argv0.take loc ++ '/' :: input
    if file newInput then some newInput else none

/-- The file in the directory `base` of the sources, if it is there (`src/goofit/Application.cpp:312-319`). -/
def inBaseDir (file : List Char → Bool) (source input base : List Char) : Option (List Char) :=
  if base.length > 0 then
    let newInput := source ++ '/' :: base ++ '/' :: input
    if file newInput then some newInput else none
  else none

/-- `Application::get_filename` (`src/goofit/Application.cpp:295-330`); `file` tells which paths are files
(`CLI::ExistingFile(x).empty()`), `argv0` is the name of the program and `source` is `GOOFIT_SOURCE_DIR`.  Printing is left out. -/
def getFilename (file : List Char → Bool) (argv0 source input base : List Char) : FileChoice :=
  if file input then .found input
  else
    match inProgramDir file argv0 input with
    | some p => .found p
    | none =>
      match inBaseDir file source input base with
      | some p => .found p
      | none =>
        let newInput := source ++ ['/', '.', '.', '/'] ++ input
        if file newInput then .found newInput else .thrown input

end GooFit
