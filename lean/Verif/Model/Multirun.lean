import Verif.Model.Argparse
import Verif.Spec.Shell

/-!
# Model of `scripts/multirun.py`

A file system is the list of its directories and the list of its other files.  `os.mkdir` makes the directory, or raises `FileExistsError`
if the path exists, or another `OSError` if its parent directory does not exist; missing permissions are not modelled.  `Pool(4).map` calls
the worker once for every element; in which order the calls happen is not modelled: `multirun` gives the list of the calls.
-/

namespace Pot

open Spec

/-- the directories and the other files -/
structure FileTree where
  dirs : List Str
  files : List Str

/-- the path up to the last `/` -/
def parentDir (p : Str) : Str := (p.reverse.dropWhile (· ≠ '/')).tail.reverse

/-- outcome of `os.mkdir` -/
inductive MkdirRes where
  | made (fs : FileTree)
  | exists
  | noParent

/-- `os.mkdir` -/
def mkdir (fs : FileTree) (d : Str) : MkdirRes :=
  if d ∈ fs.dirs ∨ d ∈ fs.files then .exists else if parentDir d ∈ fs.dirs then .made { fs with dirs := d :: fs.dirs } else .noParent

/-- scripts/multirun.py:10 -/
def outDirEscape : Str := "/Users/sam/Google\\ Drive/research/output/".toList

/-- scripts/multirun.py:11 -/
def outDirNoescape : Str := "/Users/sam/Google Drive/research/output/".toList

/-- scripts/multirun.py:15 -/
def multirunProblems : List Str := ["ihz-bessel-line".toList]

/-- scripts/multirun.py:16 -/
def multirunBoundaries : List Str := ["arc".toList, "outer-sine".toList, "inner-sine".toList, "cubic".toList, "sine7".toList]

/-- scripts/multirun.py:18 -/
def multirunArgs : Str := "-c 1024".toList

/-- scripts/multirun.py:20-25 `worker`, the command -/
def multirunLine (problem boundary : Str) : Str :=
  let filename := outDirEscape ++ problem ++ "/".toList ++ boundary ++ ".txt".toList
  let command := "python3 runz.py ".toList ++ problem ++ " ".toList ++ boundary ++ " ".toList ++ multirunArgs
  command ++ " > ".toList ++ filename

/-- scripts/multirun.py:30-36, the loop: the names printed, and the file system afterwards, `none` after an uncaught `OSError` -/
def mkdirLoop (fs : FileTree) : List Str → List Str × Option FileTree
  | [] => ([], some fs)
  | p :: t =>
    match mkdir fs (outDirNoescape ++ p) with
    | .made fs' => ((outDirNoescape ++ p) :: (mkdirLoop fs' t).1, (mkdirLoop fs' t).2)
    | .exists => mkdirLoop fs t
    | .noParent => ([], none)

/-- scripts/multirun.py as a whole: the directories printed, and the lines given to the shell with the directories that exist then -/
def multirun (problems boundaries : List Str) (fs : FileTree) : List Str × Option (FileTree × List Str) :=
  ((mkdirLoop fs problems).1, (mkdirLoop fs problems).2.map fun fs' => (fs', (problems ×ˢ boundaries).map fun x => multirunLine x.1 x.2))

end Pot
