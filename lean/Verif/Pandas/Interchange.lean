import Verif.Pandas.GroupAgg
/-
Specification vocabulary for the dataframe interchange protocol: what a column holds, and what a column of another library means.
-/

variable {ι κ α : Type}

/-- What kind of column it is, by its dtype: numbers, booleans and dates without a timezone; Python strings (dtype `object`);
    categories, given by their list, which are numbers or strings. -/
inductive ColKind (α : Type) where
  | primitive
  | string
  | categorical (cats : List α) (strings : Bool)

/-- Python strings as cells: `enc` are the UTF-8 bytes of a cell that is a `str` (`none`: it is not), `dec` is
    `bytes.decode("utf-8")` (`none`: it raises). -/
structure Utf8 (α : Type) where
  enc : α → Option (List Nat)
  dec : List Nat → Option α
  dec_enc : ∀ a b, enc a = some b → dec b = some a

/-- The cells a column of some kind is made of: any cell; strings and missing values; the listed categories. -/
def ColKind.Holds (u : Utf8 α) (nan : α) : ColKind α → List α → Prop
  | .primitive, _ => True
  | .string, vs => ∀ v ∈ vs, (u.enc v).isSome ∨ v = nan
  | .categorical cats strings, vs => (∀ v ∈ vs, v ∈ cats) ∧ (strings = true → ∀ c ∈ cats, (u.enc c).isSome)

/-- `pandas.DataFrame(columns)` for a dictionary of arrays: they must be of one length; the row labels are 0, 1, ... -/
def frameOfDict (cols : List (κ × List α)) : Option (Frame Nat κ α) :=
  match cols with
  | [] => some { index := [], columns := [], rows := [] }
  | c :: _ => if cols.all (fun d => d.2.length == c.2.length) then some (Frame.ofCols (List.range c.2.length) cols) else none
