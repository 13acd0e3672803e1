import Verif.Basic.Bytes
/-
Model of `ipc/nodepart/arwenPath.go`: which program the driver of the node starts as the Arwen process.
-/
namespace Arwen.Ipc

/-- what `os.Stat` (external) says of a name -/
inductive FileStat
  /-- an error for which `os.IsNotExist` holds -/
  | missing
  /-- any other error, such as a missing permission; there is no information about the file then -/
  | failed
  | dir
  | file
  deriving DecidableEq, Repr, Inhabited

/-- what the driver can see of the computer that it runs on -/
structure Place where
  /-- `os.Getwd`; `none` for an error. A directory is taken to be written without superfluous parts. -/
  cwd : Option Bytes
  /-- the value of the environment variable `ARWEN_PATH` (`ipc/common/constants.go` 3-4), empty if there is none -/
  env : Bytes
  stat : Bytes → FileStat
  /-- `exec.LookPath` for a name without a slash: the program of that name in the directories of `PATH` -/
  look : Bytes → Option Bytes

/-- `path.Join(cwd, "arwen")`, `arwenPath.go` 30 -/
def arwenIn (d : Bytes) : Bytes := (if d = [47] then [] else d) ++ [47, 97, 114, 119, 101, 110]

/-- `fileExists`, `arwenPath.go` 47-54; `none` for the panic when there is an error but no information -/
def Place.fileExists (M : Place) (p : Bytes) : Option Bool :=
  match M.stat p with
  | .missing => some false
  | .failed => none
  | .dir => some false
  | .file => some true

/-- what looking for the program ends with -/
inductive Located
  | panics
  | notFound
  | at (p : Bytes)
  deriving DecidableEq, Repr, Inhabited

/-- `getArwenPathInCurrentDirectory`, `arwenPath.go` 24-36 -/
def Place.inCurrent (M : Place) : Located :=
  match M.cwd with
  | none => .notFound
  | some d =>
    match M.fileExists (arwenIn d) with
    | none => .panics
    | some true => .at (arwenIn d)
    | some false => .notFound

/-- `getArwenPathFromEnvironment`, `arwenPath.go` 38-45 -/
def Place.inEnvironment (M : Place) : Located :=
  match M.fileExists M.env with
  | none => .panics
  | some true => .at M.env
  | some false => .notFound

/-- `getArwenPath`, `arwenPath.go` 10-22 -/
def Place.arwenPath (M : Place) : Located :=
  match M.inCurrent with
  | .panics => .panics
  | .at p => .at p
  | .notFound => M.inEnvironment

/-- the program that is started (`arwenDriver.go` 90-95, 114-117): `exec.Command` (external) looks for a name without a slash in the
directories of `PATH`, and takes any other name as it is. `notFound` stands for an error here, too. -/
def Place.program (M : Place) : Located :=
  match M.arwenPath with
  | .panics => .panics
  | .notFound => .notFound
  | .at p =>
    if (47 : UInt8) ∈ p then .at p
    else match M.look p with
      | none => .notFound
      | some q => .at q

end Arwen.Ipc
