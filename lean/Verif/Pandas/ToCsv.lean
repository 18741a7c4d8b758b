import Verif.Pandas.Frame
/-
What `to_csv` of pandas writes.  Trusted: this is the specification C53 is stated with.
-/

variable {ι κ α β : Type}

/-- The `mode` a file is opened with. -/
inductive OpenMode where
  /-- a new file, or an old one emptied -/
  | w
  /-- at the end of the file, which is made if it is not there -/
  | a
  /-- a new file; an old one is an error -/
  | x
deriving DecidableEq, Repr

/-- The text of a frame, written row by row: a header line (if wanted), then a line for each row, which depends on the
    column labels, the row's label and its cells. -/
def csvText (head : List κ → List β) (line : List κ → ι → List α → List β) (header : Bool) (df : Frame ι κ α) : List β :=
  (if header then head df.columns else []) ++ (List.zipWith (line df.columns) df.index df.rows).flatten

/-- What pandas leaves in the file that held `old` (`none`: there was no file); `none`: it raises and the file stays. -/
def writtenFile (mode : OpenMode) (old : Option (List β)) (text : List β) : Option (List β) :=
  match mode, old with
  | .w, _ => some text
  | .a, old => some (old.getD [] ++ text)
  | .x, none => some text
  | .x, some _ => none

/-- `extension_to_compression` of pandas.io.common -/
def compressedExtensions : List (List Char) :=
  [".tar", ".tar.gz", ".tar.bz2", ".tar.xz", ".gz", ".bz2", ".zip", ".xz", ".zst"].map String.toList

/-- `infer_compression(path, "infer")` of pandas.io.common finds a compression: the name ends, in whatever case, with one
    of the extensions. -/
def inferredCompressed (path : List Char) : Bool :=
  compressedExtensions.any fun e => e.isSuffixOf (path.map Char.toLower)
