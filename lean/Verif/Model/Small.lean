import Verif.Model.Panond
import Verif.Model.PvFunctions
import Verif.Model.Temperature

/-! # Models of small functions used by several modules -/

noncomputable section
open scoped Classical
namespace Pvlib.Small
open Fl

/-! ### SAM libraries -/

/-- A Python `str`. (Used for pvlib/pvsystem.py:2218-2234.) -/
abbrev Text := Panond.Text

/-- A cell of the table: a number, a string or (ADR coefficients) a list of numbers. (Used for pvlib/pvsystem.py:2218-2234.) -/
inductive Cell where
  | num (x : Fl)
  | str (s : Text)
  | list (xs : List Fl)

/-- A line of the file: the first field and the others. (Used for pvlib/pvsystem.py:2220.) -/
structure Line where
  name : Text
  cells : List Cell

/-- The result: row labels, column labels, and the cells of a product (column). (Used for pvlib/pvsystem.py:2234.) -/
structure SamTable where
  attributes : List Text
  products : List Text
  columns : List (List Cell)

/-- `x.strip(' []')`, pvlib/pvsystem.py:2232. -/
def stripBrackets (s : Text) : Text :=
  let p (c : Char) : Bool := c = ' ' || c = '[' || c = ']'
  ((s.dropWhile p).reverse.dropWhile p).reverse

/-- `s.split()`: the words between white space, pvlib/pvsystem.py:2232. -/
def words (s : Text) : List Text := (Panond.splitBy Panond.isSpace s).filter fun w => w ≠ []

/-- All results, or the first error. (Used for pvlib/pvsystem.py:2231-2232.) -/
def collectE {α β : Type} (f : α → Except PyErr β) : List α → Except PyErr (List β)
  | [] => .ok []
  | x :: xs => match f x with
    | .error e => .error e
    | .ok y => match collectE f xs with
      | .error e => .error e
      | .ok ys => .ok (y :: ys)

/-- `list(map(float, x.strip(' []').split()))`, pvlib/pvsystem.py:2231-2232; `pyFloat` is Python's `float` on strings.  A number has no
`strip`. -/
def adrCell (pyFloat : Text → Option Fl) : Cell → Except PyErr Cell
  | .str s => match collectE (fun w => match pyFloat w with
        | some x => .ok x
        | none => .error .valueError) (words (stripBrackets s)) with
      | .ok xs => .ok (.list xs)
      | .error e => .error e
  | _ => .error .attributeError

/-- `df.loc[ad_ce] = ...` for the cell of one product, pvlib/pvsystem.py:2231: the cell in position `k` is replaced. -/
def adrColumn (pyFloat : Text → Option Fl) (k : ℕ) (col : List Cell) : Except PyErr (List Cell) :=
  match col[k]? with
  | none => .ok col
  | some c => match adrCell pyFloat c with
    | .ok c => .ok (col.set k c)
    | .error e => .error e

/-- `df.columns.str.replace(' ', '_')`, pvlib/pvsystem.py:2222. -/
def underscore (s : Text) : Text := s.map fun c => if c = ' ' then '_' else c

/-- `_parse_raw_sam_df`, pvlib/pvsystem.py:2218-2234, on the fields of the file's lines: a header, two lines that are skipped, products.
Splitting lines into typed fields is pandas'; header names are assumed distinct (pandas renames repeated ones). -/
def parseRawSam (pyFloat : Text → Option Fl) (header : List Text) (lines : List Line) : Except PyErr SamTable :=
  let lines := lines.drop 2
  let attributes := header.map underscore
  let products := (PvFunctions.normalizeNames (lines.map Line.name)).1
  let columns := lines.map Line.cells
  match attributes.findIdx? (fun a => a = "ADRCoefficients".toList) with
  | none => .ok ⟨attributes, products, columns⟩
  | some k => match collectE (adrColumn pyFloat k) columns with
    | .ok columns => .ok ⟨attributes, products, columns⟩
    | .error e => .error e

/-! ### Files -/

/-- What a user passes as a file: a name or path, or an object with a `read` method (and what `str(object)` gives). (Used for
pvlib/tools.py:583-588.) -/
inductive Src where
  | path (p : Text)
  | object (text : Text)

/-- `str(filename)`. (Used for pvlib/iotools/epw.py:220, pvlib/iotools/bsrn.py:458.) -/
def Src.str : Src → Text
  | .path p => p
  | .object t => t

/-- What happens outside: a file is opened (as text, or as compressed text), a URL fetched, a file closed. (Used for pvlib/tools.py:583-589.) -/
inductive Event where
  | opened (p : Text)
  | openedGzip (p : Text)
  | fetched (p : Text)
  | closed (p : Text)
  deriving DecidableEq

/-- Where the text comes from. (Used for pvlib/tools.py:583-589.) -/
inductive Origin where
  | object
  | file (p : Text)
  | gzip (p : Text)
  | url (p : Text)
  deriving DecidableEq

/-- `with ... as f: parse(f)`: the text is parsed; files that were opened here are closed whether or not parsing raises. (Used for
pvlib/iotools/epw.py:228-234, pvlib/iotools/bsrn.py:462-463.) -/
def withOrigin {α : Type} (contents : Origin → Text) (parse : Text → Except PyErr α) (o : Origin) : Except PyErr α × List Event :=
  (parse (contents o), match o with
    | .object => []
    | .file p => [.opened p, .closed p]
    | .gzip p => [.openedGzip p, .closed p]
    | .url p => [.fetched p])

/-- `_file_context_manager`, pvlib/tools.py:566-589. -/
def fileContext : Src → Origin
  | .object _ => .object
  | .path p => .file p

/-- `read_epw`, pvlib/iotools/epw.py:13-236. -/
def readEpw {α : Type} (contents : Origin → Text) (parse : Text → Except PyErr α) (f : Src) : Except PyErr α × List Event :=
  if "http".toList.isPrefixOf f.str then withOrigin contents parse (.url f.str)
  else withOrigin contents parse (fileContext f)

/-- `read_bsrn`, pvlib/iotools/bsrn.py:368-464.  (`gzip.open` also accepts a file object.) -/
def readBsrn {α : Type} (contents : Origin → Text) (parse : Text → Except PyErr α) (f : Src) : Except PyErr α × List Event :=
  if ".gz".toList.isSuffixOf f.str then withOrigin contents parse (.gzip f.str)
  else withOrigin contents parse (fileContext f)

/-- `read_panond`, pvlib/iotools/panond.py:104-154: `open` takes a name only. -/
def readPanond {α : Type} (contents : Origin → Text) (parse : Text → Except PyErr α) : Src → Except PyErr α × List Event
  | .path p => withOrigin contents parse (.file p)
  | .object _ => (.error .typeError, [])

/-! ### Shapes -/

/-- `np.size` of a shape. (Used for pvlib/singlediode.py:720.) -/
def size (s : List ℕ) : ℕ := s.prod

/-- `_shape_of_max_size`, pvlib/singlediode.py:719-721: Python's `max` keeps the first of several largest. -/
def shapeOfMaxSize : List (List ℕ) → List ℕ
  | [] => []
  | s :: ss => ss.foldl (fun best t => if size best < size t then t else best) s

/-- One dimension of numpy's broadcasting; `none` is an error. (Used for pvlib/singlediode.py:748.) -/
def dim (a b : ℕ) : Option ℕ := if a = b then some a else if a = 1 then some b else if b = 1 then some a else none

/-- Broadcasting of two shapes given with the last dimension first. (Used for pvlib/singlediode.py:748.) -/
def bcastRev : List ℕ → List ℕ → Option (List ℕ)
  | [], t => some t
  | s, [] => some s
  | a :: s, b :: t => match dim a b, bcastRev s t with
    | some c, some u => some (c :: u)
    | _, _ => none

/-- `np.broadcast_shapes(s, t)`. (Used for pvlib/singlediode.py:748.) -/
def bcast (s t : List ℕ) : Option (List ℕ) := (bcastRev s.reverse t.reverse).map List.reverse

/-- `np.broadcast_to(x, t)` succeeds. (Used for pvlib/singlediode.py:748.) -/
def castsTo (s t : List ℕ) : Prop := bcast s t = some t

/-- An argument: a Python scalar, or an array of a shape. (Used for pvlib/singlediode.py:746.) -/
inductive Arg where
  | scalar
  | array (shape : List ℕ)

/-- `np.shape`. (Used for pvlib/singlediode.py:720.) -/
def Arg.shape : Arg → List ℕ
  | .scalar => []
  | .array s => s

/-- `np.isscalar`. (Used for pvlib/singlediode.py:746.) -/
def Arg.isScalar : Arg → Bool
  | .scalar => true
  | .array _ => false

/-- `NEWTON_DEFAULT_PARAMS`, pvlib/singlediode.py:13-16. -/
def newtonDefaults : List (String × Fl) := [("tol", 1e-6), ("maxiter", 100)]

/-- `{**defaults, **kwargs}`: the value of a key. (Used for pvlib/singlediode.py:752.) -/
def override (defaults kwargs : List (String × Fl)) (key : String) : Option Fl :=
  match kwargs.reverse.lookup key with
  | some x => some x
  | none => defaults.lookup key

/-- `_prepare_newton_inputs`, pvlib/singlediode.py:724-754: the shape the iteration starts with and what each keyword is; an impossible
broadcast is ValueError. -/
def prepareNewtonInputs (x0 : Arg) (args : List Arg) (kwargs : List (String × Fl)) : Except PyErr (Arg × (String → Option Fl)) :=
  let kw := override newtonDefaults kwargs
  if x0.isScalar && args.all Arg.isScalar then .ok (x0, kw)
  else
    let t := shapeOfMaxSize (x0.shape :: args.map Arg.shape)
    if castsTo x0.shape t then .ok (.array t, kw) else .error .valueError

/-! ### Others -/

/-- An argument that may be a pandas object with an index of type `ι`. (Used for pvlib/tools.py:533-536.) -/
inductive Maybe (ι : Type) where
  | pandas (index : ι)
  | other

/-- `get_pandas_index`, pvlib/tools.py:517-536: the index of the first pandas object among the arguments. -/
def getPandasIndex {ι : Type} (args : List (Maybe ι)) : Option ι :=
  args.findSome? fun a => match a with
    | .pandas i => some i
    | .other => none

end Pvlib.Small
end
