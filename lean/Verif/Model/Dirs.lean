import Verif.Py.Err
import Mathlib.Data.List.Infix

/-!
Model of the run directory: names (hyvr/input/parameters.py:124-156), set-up (hyvr/input/parameters.py:466-521) and the loop
over realisations (hyvr/sim.py:19-66).
-/

namespace Hyvr

open Py

/-! ### File systems -/

/-- An absolute path without links and without `.`, `..`: the names from the root. -/
abbrev Path := List String

/-- What a path can be. `other` is an entry that is neither a file nor a directory (a pipe, a socket, a device). -/
inductive Entry
  | dir
  | file (content : String)
  | other
  deriving DecidableEq

/-- A file system: the entries below the root. Simplification: links are not modelled. -/
abbrev FS := List (Path × Entry)

namespace FS

/-- The entry at a path. -/
def get (fs : FS) (p : Path) : Option Entry := (fs.find? fun e => decide (e.1 = p)).map (·.2)

/-- The file system without the entry at a path. -/
def del (fs : FS) (p : Path) : FS := fs.filter fun e => decide (e.1 ≠ p)

/-- The file system with a new entry at a path. -/
def put (fs : FS) (p : Path) (n : Entry) : FS := (p, n) :: fs.del p

/-- `os.listdir(p)`. hyvr/input/parameters.py:503. -/
def children (fs : FS) (p : Path) : List String :=
  fs.filterMap fun e => if e.1.dropLast = p then e.1.getLast? else none

end FS

/-- The file system during a run, and all its earlier states: the states an interruption can leave behind. -/
structure World where
  fs : FS
  past : List FS

namespace World

/-- One elementary change. -/
def put (w : World) (p : Path) (n : Entry) : World := { fs := w.fs.put p n, past := w.fs :: w.past }

/-- `path.unlink()`. hyvr/input/parameters.py:507. -/
def del (w : World) (p : Path) : World := { fs := w.fs.del p, past := w.fs :: w.past }

/-- `shutil.rmtree(path)`. hyvr/input/parameters.py:509, hyvr/sim.py:66. Simplification: the entries are removed one by one in
the order in which they are listed, not children first. -/
def rmtree (w : World) (p : Path) : World :=
  (w.fs.filter fun e => decide (p <+: e.1)).foldl (fun w e => w.del e.1) w

/-- The loop of `path.mkdir(parents=True, exist_ok=True)` over the ancestors of the path and the path. An entry that is no
directory raises `FileExistsError` or `NotADirectoryError`; both are `fileExists` here. hyvr/input/parameters.py:493,517. -/
def mkdirs (w : World) : List Path → World × Option PyErr
  | [] => (w, none)
  | q :: qs =>
    match w.fs.get q with
    | none => mkdirs (w.put q .dir) qs
    | some .dir => mkdirs w qs
    | some _ => (w, some .fileExists)

/-- The non-empty prefixes of a path, shortest first: its ancestors below the root, and itself. -/
def prefixes : Path → List Path
  | [] => []
  | a :: l => [a] :: (prefixes l).map (a :: ·)

/-- `path.mkdir(parents=True, exist_ok=True)`. hyvr/input/parameters.py:493,517, hyvr/sim.py:56. -/
def mkdir (w : World) (p : Path) : World × Option PyErr := w.mkdirs (prefixes p)

/-- `with open(path, 'w') as f: p.write(f)`: the file is emptied or created first. Simplification: the text is written at
once. hyvr/input/parameters.py:520-521. -/
def write (w : World) (p : Path) (text : String) : World × Option PyErr :=
  match w.fs.get p with
  | some .dir => (w, some .fileExists)
  | some .other => (w, some .fileExists)
  | _ => ((w.put p (.file "")).put p (.file text), none)

/-- One entry of the run directory is deleted. hyvr/input/parameters.py:504-509. -/
def clearEntry (w : World) (p : Path) : World :=
  match w.fs.get p with
  | some (.file _) => w.del p
  | some .dir => w.rmtree p
  | _ => w

/-- The loop that deletes everything in the run directory. hyvr/input/parameters.py:503-509. -/
def clear (w : World) (p : Path) : World := (w.fs.children p).foldl (fun w n => w.clearEntry (p ++ [n])) w

end World

/-! ### Names -/

/-- `s.endswith(t)`. hyvr/input/parameters.py:127,141. -/
def endsWith (s t : List Char) : Bool := decide (t <:+ s)

/-- `s.split('.')`. hyvr/input/parameters.py:130. -/
def splitDots : List Char → List (List Char)
  | [] => [[]]
  | c :: s =>
    if c = '.' then [] :: splitDots s
    else match splitDots s with
      | [] => [[c]]
      | a :: l => (c :: a) :: l

/-- `".".join(l)`. hyvr/input/parameters.py:130. -/
def joinDots : List (List Char) → List Char
  | [] => []
  | [a] => a
  | a :: l => a ++ '.' :: joinDots l

/-- The run name derived from the name of the ini-file. hyvr/input/parameters.py:126-130. -/
def defaultRunName (ini : List Char) : List Char :=
  if endsWith ini "autogenerated_backup.ini".toList then ini.take (ini.length - 25)
  else joinDots (splitDots ini).dropLast

/-- The run name. hyvr/input/parameters.py:126-130. -/
def runName (given : Option (List Char)) (ini : List Char) : List Char := given.getD (defaultRunName ini)

/-- `path / name` for a name with the characters given. hyvr/input/parameters.py:156,519. Simplification: a name with
slashes is one component here, and `..` is an ordinary name; an empty name or `.` adds nothing, as in `pathlib`. -/
def joinPath (p : Path) (name : List Char) : Path :=
  if name = [] ∨ name = ['.'] then p else p ++ [String.ofList name]

/-- The option `modeldir` of the run section. -/
inductive ModelDir
  | unset
  | select (answer : Path)
  | text

/-- `run['runname']`, `run['modeldir']`, `run['rundir']`. hyvr/input/parameters.py:124-156. `answer` is the directory typed in;
its length is not tested, but that of the option (152), so an empty answer is the current directory. A given `modeldir` is a
`str`, for which `/` is not defined: `TypeError`. -/
def runDirs (given : Option (List Char)) (modeldir : ModelDir) (iniDir : Path) (ini : List Char) :
    Except PyErr (List Char × Path × Path) :=
  let name := runName given ini
  if endsWith ini "_autogenerated_backup.ini".toList then .ok (name, iniDir.dropLast, iniDir)
  else match modeldir with
    | .unset => .ok (name, iniDir, joinPath iniDir name)
    | .select answer => .ok (name, answer, joinPath answer name)
    | .text => .error .typeError

/-! ### Set-up -/

/-- The run settings `set_up_directories` reads. hyvr/input/parameters.py:493-519. `overwrite` is whether the option
`overwrite_old_output` is `True`. -/
structure RunCfg where
  modeldir : Path
  rundir : Path
  runname : List Char
  overwrite : Bool

/-- The name of the copy of the ini-file. hyvr/input/parameters.py:519. -/
def backupPath (c : RunCfg) : Path := c.rundir ++ [String.ofList (c.runname ++ "_autogenerated_backup.ini".toList)]

/-- `set_up_directories(run, inifile, flag)` for an ini-file whose copy has the given text. The argument `flag` is only used
to compute a variable that is not read afterwards. hyvr/input/parameters.py:466-521. -/
def setUp (text : String) (c : RunCfg) (flag : Option Bool) (w : World) : World × Option PyErr :=
  let _overwrite := flag.getD c.overwrite
  match w.mkdir c.modeldir with
  | (w, some e) => (w, some e)
  | (w, none) =>
    if c.rundir = [] ∨ w.fs.get c.rundir = some .dir then
      if c.overwrite then (w.clear c.rundir).write (backupPath c) text else (w, some .fileExists)
    else if (w.fs.get c.rundir).isSome then (w, some .fileExists)
    else
      match w.mkdir c.rundir with
      | (w, some e) => (w, some e)
      | (w, none) => w.write (backupPath c) text

/-! ### Realisations -/

/-- The decimal digits of a number. -/
def decimal (n : ℕ) : List Char :=
  if n < 10 then [Nat.digitChar n] else decimal (n / 10) ++ [Nat.digitChar (n % 10)]
termination_by n

/-- `'{:03d}'.format(n)`. hyvr/sim.py:53. -/
def pad3 (n : ℕ) : List Char := List.replicate (3 - (decimal n).length) '0' ++ decimal n

/-- The directory of realisation `s`. hyvr/sim.py:52-55. -/
def realDir (rundir : Path) (numsim s : ℕ) : Path :=
  if 1 < numsim then rundir ++ [String.ofList ("real_".toList ++ pad3 s)] else rundir

/-- The files `create_outputs` writes for one realisation, relative to its directory. Simplification: directories for
several files of one format are not listed. hyvr/sim.py:57-58. -/
abbrev Outputs := List (Path × String)

/-- What a realisation does: the exception its generation ends with if there is one, the files it writes, and the exception
the writers end with if there is one. hyvr/sim.py:34-41,57-58. -/
structure Realisation where
  gen : Option PyErr
  files : Outputs
  err : Option PyErr

/-- The files of one realisation are written. -/
def writeOutputs (w : World) (dir : Path) (outs : Outputs) : World :=
  outs.foldl (fun w f => w.put (dir ++ f.1) (.file f.2)) w

/-- The loop over the realisations, from `s` on: generating, making the directory, writing. hyvr/sim.py:34-58. Simplification:
of generating a realisation only whether it raises is modelled here. -/
def runLoop (rundir : Path) (numsim : ℕ) (outs : ℕ → Realisation) : ℕ → ℕ → World → World × Option PyErr
  | 0, _, w => (w, none)
  | k + 1, s, w =>
    match (outs s).gen with
    | some e => (w, some e)
    | none =>
      match w.mkdir (realDir rundir numsim s) with
      | (w, some e) => (w, some e)
      | (w, none) =>
        match (outs s).err with
        | some e => (writeOutputs w (realDir rundir numsim s) (outs s).files, some e)
        | none => runLoop rundir numsim outs k (s + 1) (writeOutputs w (realDir rundir numsim s) (outs s).files)

/-- `run(inifile, flag)` after parsing. hyvr/sim.py:32-58. -/
def runIni (text : String) (c : RunCfg) (flag : Option Bool) (numsim : ℕ) (outs : ℕ → Realisation) (w : World) :
    World × Option PyErr :=
  match setUp text c flag w with
  | (w, some e) => (w, some e)
  | (w, none) => runLoop c.rundir numsim outs numsim 1 w

/-- `run(0)`, the built-in test case: `tmp` is the directory `mkdtemp` makes. hyvr/sim.py:32-66,
hyvr/input/parameters.py:480-483. -/
def runTest (tmp : Path) (numsim : ℕ) (outs : ℕ → Realisation) (w : World) : World × Option PyErr :=
  match runLoop tmp numsim outs numsim 1 (w.put tmp .dir) with
  | (w, some e) => (w, some e)
  | (w, none) => if (w.fs.get tmp).isSome then (w.rmtree tmp, none) else (w, none)

end Hyvr
