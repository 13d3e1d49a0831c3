import Verif.Model.Py

/-
File names of the command line app, anticipy/app.py 38-103. Paths are lists of characters; the operations are those of Python's
`posixpath`. Reading and writing the files themselves is not modelled.
-/
namespace Anticipy

/-- See app.py 45-65. -/
abbrev Path := List Char

/-- `os.path.basename`: the part after the last slash. (app.py 49) -/
def baseName (p : Path) : Path := (p.reverse.takeWhile (· ≠ '/')).reverse

/-- `p[:p.rfind('/') + 1]`. (app.py 59) -/
def dirHead (p : Path) : Path := (p.reverse.dropWhile (· ≠ '/')).reverse

/-- `os.path.dirname`: the part before the last slash, trailing slashes removed unless it consists of slashes only. (app.py 59) -/
def dirName (p : Path) : Path :=
  if (dirHead p).all (· = '/') then dirHead p else ((dirHead p).reverse.dropWhile (· = '/')).reverse

/-- `os.path.join(a, b)`. (app.py 63-65) -/
def joinPath (a b : Path) : Path :=
  if b.head? = some '/' then b
  else if a = [] ∨ a.getLast? = some '/' then a ++ b
  else a ++ '/' :: b

/-- `file_name.split('.')[0]`, app.py line 50. -/
def stem (name : Path) : Path := name.takeWhile (· ≠ '.')

/-- File system as seen by the app: which paths exist and which are directories. (app.py 45-57) -/
structure FileSystem where
  exists_ : Path → Bool
  isDir : Path → Bool

/-- Paths written by the app: data, metadata, plot (without extension). (app.py 63-65) -/
structure AppPaths where
  data : Path
  metadata : Path
  plot : Path
  deriving DecidableEq, Repr

/-- Path computation of `run_forecast_app`, app.py 38-71. -/
def appPaths (fs : FileSystem) (pathIn : Option Path) (pathOut : Option Path) : Res AppPaths := do
  match pathIn with
  | none => .error .assertionError
  | some pIn => do
    pyAssert (fs.exists_ pIn)
    pyAssert (!fs.isDir pIn)
    let p1 := stem (baseName pIn)
    let pOut := pathOut.getD pIn
    pyAssert (fs.exists_ pOut)
    let folder := dirName pOut
    .ok ⟨joinPath folder (p1 ++ "_fcast.csv".toList), joinPath folder (p1 ++ "_metadata.csv".toList),
      joinPath folder (p1 ++ "_fcast".toList)⟩

end Anticipy
