import Verif.Model.ToRoot

/-!
# Directories and figures: `utils/files.py:7-11`, `plotting/setup.py:107-126`, `plotting/camera.py:85-110`

A path is the list of its components (none of them empty, `.` or `..`); the empty list is the working directory.
A figure is a value of some type. `savefig` and PyPDF2 are external: what is trusted about them is stated at `saveFig` and `cropPdf`.
-/

namespace Verif.Model

open Verif.Py

abbrev FPath := List (List Char)

/-- directories and files with their contents -/
structure Disk (F : Type) where
  dirs : List FPath
  files : Dict FPath F

variable {F : Type}

/-- `os.path.isdir`; the working directory exists -/
def Disk.isDir (d : Disk F) (p : FPath) : Bool := p = [] || d.dirs.contains p

/-- `os.path.exists` -/
def Disk.exists (d : Disk F) (p : FPath) : Bool := d.isDir p || (Dict.get? d.files p).isSome

/-- `os.makedirs`: the missing directories on the way from `done` along `todo`; a file in the way raises (`NotADirectoryError`, `FileExistsError`) -/
def makeDirs (d : Disk F) (done : FPath) : FPath → Except Err (Disk F)
  | [] => .ok d
  | c :: todo =>
    let p := done ++ [c]
    if (Dict.get? d.files p).isSome then .error .ioError
    else makeDirs (if d.isDir p then d else { d with dirs := d.dirs ++ [p] }) p todo

/-- `create_directory` (`utils/files.py:7-11`) -/
def createDirectory (d : Disk F) (p : FPath) : Except Err (Disk F) :=
  if p = [] then .ok d else if d.exists p then .ok d else makeDirs d [] p

/-- the extension of the name of a file, with its dot (`os.path.splitext(name)[1]`) -/
def extension (name : List Char) : List Char := name.drop (splitextRoot name).length

/-- the name of the file matplotlib writes: without an extension (or with a bare dot), dots at the end are removed and the default format is appended -/
def figureName (name : List Char) : List Char :=
  if (extension name).length ≤ 1 then (name.reverse.dropWhile (· = '.')).reverse ++ ".png".toList else name

/-- `fig.savefig(path)`: the format is taken from the extension, `known` are the formats of matplotlib (with their dots); the directory has to exist -/
def saveFig (known : List Char → Bool) (d : Disk F) (dir : FPath) (name : List Char) (fig : F) : Except Err (Disk F) :=
  let file := figureName name
  if known (extension file) = false then .error .valueError
  else if d.isDir dir = false then .error .ioError
  else if d.isDir (dir ++ [file]) then .error .ioError
  else .ok { d with files := Dict.set d.files (dir ++ [file]) fig }

/-- a plotter: the figure, and whether it has been closed -/
structure Plot (F : Type) where
  fig : F
  closed : Bool

/-- `Plotter.save` (`plotting/setup.py:114-120`) with the path `dir/name`; `finish` adds the labels. Result: the disk, the plotter, the path in the message. -/
def savePlot (known : List Char → Bool) (finish : F → F) (d : Disk F) (p : Plot F) (dir : FPath) (name : List Char) :
    Except Err (Disk F × Plot F × FPath) :=
  match createDirectory d dir with
  | .error e => .error e
  | .ok d => match saveFig known d dir name (finish p.fig) with
    | .error e => .error e
    | .ok d => .ok (d, ⟨finish p.fig, true⟩, dir ++ [name])

/-- `CameraImage.crop` (`plotting/camera.py:94-110`): `cut` is the figure cropped -/
def cropPdf (cut : F → F) (d : Disk F) (dir : FPath) (name : List Char) : Except Err (Disk F) :=
  match Dict.get? d.files (dir ++ [name]) with
  | none => .error .fileNotFound
  | some f =>
    if d.isDir (dir ++ [splitextRoot name ++ "_cropped.pdf".toList]) then .error .ioError
    else .ok { d with files := Dict.set d.files (dir ++ [splitextRoot name ++ "_cropped.pdf".toList]) (cut f) }

/-- `CameraImage.save` (`plotting/camera.py:85-91`); without PyPDF2 nothing is cropped -/
def saveImage (known : List Char → Bool) (finish : F → F) (cut : F → F) (pypdf : Bool) (d : Disk F) (p : Plot F) (dir : FPath) (name : List Char) :
    Except Err (Disk F × Plot F × FPath) :=
  match savePlot known finish d p dir name with
  | .error e => .error e
  | .ok (d, p, path) =>
    if ".pdf".toList.isSuffixOf name && pypdf then match cropPdf cut d dir name with
      | .error e => .error e
      | .ok d => .ok (d, p, path)
    else .ok (d, p, path)

end Verif.Model
