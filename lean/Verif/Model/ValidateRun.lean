/-
metcalcpy/validate_mv_python.py:57-179: the removal of old output, the validation of every selected XML file and the removal of files.
-/
import Verif.Model.Validate
import Verif.Model.CompareImages

namespace Metcalcpy

/-- The texts of an XML file the program reads or replaces; `rest` is everything else. -/
structure PlotXml where
  plotFile : List Char
  plots : List Char
  dataFile : List Char
  rFile : List Char
  rTmpl : List Char
  rWork : List Char
  user : List Char
  password : List Char
  data : List Char
  scripts : List Char
  rest : List Char
  deriving DecidableEq, Repr

/-- The content of a file: an XML file, an image of type `I` or anything else. -/
inductive FileContent (I : Type) where
  | xml (x : PlotXml)
  | image (i : I)
  | other (text : List Char)
  deriving DecidableEq

/-- The files of a machine by path.  Simplification: directories are not entries; those of the parameters exist and hold only files. -/
abbrev Disk (I : Type) := List Char → Option (FileContent I)

/-- The parameters of the program (a YAML file). -/
structure ValidateParams where
  mvHome : List Char
  outputXmlDir : List Char
  outputPlotsDir : List Char
  outputDataDir : List Char
  outputScriptsDir : List Char
  dbUser : List Char
  dbPass : List Char
  deriving DecidableEq, Repr

/-- Why a run stops: an exception of the modelled kinds, or a file that is not there (FileNotFoundError). -/
inductive RunStop where
  | python (e : PyErr)
  | noFile (path : List Char)
  deriving DecidableEq, Repr

variable {I : Type}

/-- `entry.path` of `os.scandir(dir)` for a file of that name: `os.path.join`. -/
def scanPath (dir name : List Char) : List Char :=
  if dir.getLast? = some '/' then dir ++ name else dir ++ '/' :: name

/-- `path` is a file directly in `dir`. -/
def inDirectory (dir path : List Char) : Bool :=
  let pre := scanPath dir []
  pre.isPrefixOf path && !(path.drop pre.length).contains '/' && path.length != pre.length

/-- The disk without the files of a set. -/
def Disk.without (d : Disk I) (gone : List Char → Bool) : Disk I := fun p => if gone p then none else d p

/-- The disk with one file written. -/
def Disk.write (d : Disk I) (path : List Char) (c : FileContent I) : Disk I := fun p => if p = path then some c else d p

/-- `os.remove(path)`. -/
def Disk.remove (d : Disk I) (path : List Char) : Disk I × Except RunStop Unit :=
  if (d path).isSome then (d.without (· == path), .ok ()) else (d, .error (.noFile path))

/-- validate_mv_python.py:57-73 clean. -/
def cleanOutput (P : ValidateParams) (d : Disk I) : Disk I :=
  (((d.without (inDirectory P.outputXmlDir)).without (inDirectory P.outputPlotsDir)).without (inDirectory P.outputDataDir)).without
    (inDirectory P.outputScriptsDir)

/-- `file_name.split('.')[0]`. -/
def nameStem (file : List Char) : List Char := file.takeWhile (· != '.')

/-- The file name at the end of a path (`os.path.basename`). -/
def baseName (p : List Char) : List Char := (p.reverse.takeWhile (· != '/')).reverse

/-- `path` is in `glob.glob(pre + '*')`: no further directory, and a name beginning with a dot only if the pattern begins with one.
Simplification: `pre` contains none of the characters `*?[`. -/
def globStar (pre path : List Char) : Bool :=
  pre.isPrefixOf path && !(path.drop pre.length).contains '/' &&
    ((baseName path).head? != some '.' || (baseName pre).head? == some '.')

/-- validate_mv_python.py:168-179 delete_similar_files. -/
def deleteSimilar (d : Disk I) (dir file : List Char) : Disk I := d.without (globStar (dir ++ nameStem file))

/-- What is printed for a file (134, 148, 159, 165). -/
inductive Verdict where
  | bothMissing
  | identical
  | different
  | unreadable
  deriving DecidableEq, Repr

/-- validate_mv_python.py:100-113: the new XML file. -/
def newXml (P : ValidateParams) (x : PlotXml) : PlotXml :=
  { x with
    plotFile := replaceNameChars x.plotFile "py".toList
    dataFile := replaceNameChars x.dataFile "py".toList
    rFile := replaceNameChars x.rFile "py".toList
    rTmpl := P.mvHome ++ "R_tmpl".toList
    rWork := P.mvHome ++ "R_work".toList
    plots := P.outputPlotsDir
    user := P.dbUser
    password := P.dbPass
    data := P.outputDataDir
    scripts := P.outputScriptsDir }

/-- The image tools on the files of a disk; `T` holds what does not depend on the disk. -/
def diskTools (T : ImageTools I) (d : Disk I) : ImageTools I :=
  { T with read := fun p => match d p.toList with
      | some (.image i) => some i
      | _ => none }

/-- validate_mv_python.py:116 the path of the new XML file. -/
def newXmlPath (P : ValidateParams) (file : List Char) : List Char :=
  P.outputXmlDir ++ baseName (replaceNameChars file "py".toList)

/-- validate_mv_python.py:128 the path of the new image. -/
def newImagePath (P : ValidateParams) (plot : List Char) : List Char := P.outputPlotsDir ++ replaceNameChars plot "py".toList

/-- validate_mv_python.py:137-140, 153-156: the script and data files of a plot are removed. -/
def deleteOutputs (P : ValidateParams) (d : Disk I) (plot : List Char) : Disk I :=
  deleteSimilar (deleteSimilar d P.outputScriptsDir plot) P.outputDataDir plot

/-- validate_mv_python.py:130-165: the comparison of the two images and the removal of files. -/
def judgePlot (T : ImageTools I) (P : ValidateParams) (file : List Char) (x : PlotXml) (d : Disk I) : Disk I × Except RunStop Verdict :=
  let original := x.plots ++ '/' :: x.plotFile
  let image := newImagePath P x.plotFile
  if (d original).isNone && (d image).isNone then
    match d.remove (newXmlPath P file) with
    | (d, .error e) => (d, .error e)
    | (d, .ok _) => (deleteOutputs P d x.plotFile, .ok .bothMissing)
  else
    match Comparison.init (diskTools T d) (String.ofList original) (String.ofList image) with
    | .error .keyError => (d, .ok .unreadable)                                     -- 164-165
    | .error e => (d, .error (.python e))
    | .ok s =>
      if s.mssim = 1 then
        match d.remove image with
        | (d, .error e) => (d, .error e)
        | (d, .ok _) =>
          match d.remove (newXmlPath P file) with
          | (d, .error e) => (d, .error e)
          | (d, .ok _) => (deleteOutputs P d x.plotFile, .ok .identical)
      else
        match s.call T .thresh with
        | .error .keyError => (d, .ok .unreadable)
        | .error e => (d, .error (.python e))
        | .ok (_, i) => (d.write (P.outputPlotsDir ++ replaceNameChars x.plotFile "thresh".toList) (.image i), .ok .different)

/-- validate_mv_python.py:92-165: one XML file.  `batch` is the METviewer run (120-126) on the new XML file: what it makes of the disk.
Simplification: a file that is no XML file with the expected elements is a ValueError. -/
def validateFile (T : ImageTools I) (batch : List Char → Disk I → Disk I) (P : ValidateParams) (file : List Char) (d : Disk I) :
    Disk I × Except RunStop Verdict :=
  match d file with
  | none => (d, .error (.noFile file))
  | some (.xml x) => judgePlot T P file x (batch (newXmlPath P file) (d.write (newXmlPath P file) (.xml (newXml P x))))
  | some _ => (d, .error (.python .valueError))

/-- validate_mv_python.py:92-165 the loop: the disk, the verdicts given and the exception that ended the loop, if any. -/
def validateFiles (T : ImageTools I) (batch : List Char → Disk I → Disk I) (P : ValidateParams) :
    List (List Char) → Disk I → Disk I × List Verdict × Option RunStop
  | [], d => (d, [], none)
  | f :: fs, d =>
    match validateFile T batch P f d with
    | (d, .error e) => (d, [], some e)
    | (d, .ok v) =>
      let r := validateFiles T batch P fs d
      (r.1, v :: r.2.1, r.2.2)

/-- validate_mv_python.py:76-165 main; `tests` is the list of get_test_xml (`getTestXml`). -/
def validateRun (T : ImageTools I) (batch : List Char → Disk I → Disk I) (P : ValidateParams) (tests : List (List Char)) (d : Disk I) :
    Disk I × List Verdict × Option RunStop :=
  validateFiles T batch P tests (cleanOutput P d)

end Metcalcpy
