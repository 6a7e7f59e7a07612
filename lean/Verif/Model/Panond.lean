import Verif.Base.Py

/-! # Model of `pvlib/iotools/panond.py`

Text is a list of characters.  Python's `float(s)` and `int(s)` are arbitrary partial functions.  Dictionaries are objects with
identity: the model keeps them in a heap and stores references, because `_parse_panond` mutates a dictionary after storing it in
another one. -/

namespace Pvlib.Panond

/-- A Python `str`. (Used for pvlib/iotools/panond.py:6-101.) -/
abbrev Text := List Char

/-- Python's white space, as stripped by `str.strip()`. (Used for pvlib/iotools/panond.py:79-82.) -/
def isSpace (c : Char) : Bool :=
  c ∈ [' ', '\t', '\n', '\x0b', '\x0c', '\r', '\x1c', '\x1d', '\x1e', '\x1f', '\u0085', '\u00a0', '\u1680', '\u2028', '\u2029', '\u202f', '\u205f',
    '\u3000'] || ('\u2000' ≤ c && c ≤ '\u200a')

/-- Line boundaries of `str.splitlines()`; reading in text mode has already turned every carriage return into a newline.
(Used for pvlib/iotools/panond.py:67.) -/
def isBreak (c : Char) : Bool :=
  c ∈ ['\n', '\r', '\x0b', '\x0c', '\x1c', '\x1d', '\x1e', '\u0085', '\u2028', '\u2029']

/-- `s.strip()`. (Used for pvlib/iotools/panond.py:79-82.) -/
def strip (s : Text) : Text := ((s.dropWhile isSpace).reverse.dropWhile isSpace).reverse

/-- Cut at every character satisfying `p`. (Used for pvlib/iotools/panond.py:37, 67, 78.) -/
def splitBy (p : Char → Bool) : Text → List Text
  | [] => [[]]
  | x :: xs =>
    if p x then [] :: splitBy p xs
    else match splitBy p xs with
      | [] => [[x]]
      | y :: ys => (x :: y) :: ys

/-- `s.split(c)` for a character `c`. (Used for pvlib/iotools/panond.py:37, 78.) -/
def splitOn (c : Char) (s : Text) : List Text := splitBy (· = c) s

/-- `s.splitlines()`: no empty line after a final line break. (Used for pvlib/iotools/panond.py:67.) -/
def splitlines (s : Text) : List Text :=
  let parts := splitBy isBreak s
  if parts.getLast? = some [] then parts.dropLast else parts

/-- What `_num_type` returns: a float, an int or the string itself. (Used for pvlib/iotools/panond.py:6-27.) -/
inductive Scalar (F : Type) where
  | float (x : F)
  | int (n : ℤ)
  | str (s : Text)

/-- What `_element_type` returns: a scalar or a list of scalars. (Used for pvlib/iotools/panond.py:30-45.) -/
inductive Value (F : Type) where
  | scalar (x : Scalar F)
  | list (xs : List (Scalar F))

/-- Python's `float` and `int` on strings; `none` is ValueError. (Used for pvlib/iotools/panond.py:12, 22.) -/
structure Numbers (F : Type) where
  (float : Text → Option F)
  (int : Text → Option ℤ)

variable {F : Type} (py : Numbers F)

/-- `_num_type`, pvlib/iotools/panond.py:6-27. -/
def numType (value : Text) : Scalar F :=
  if '.' ∈ value then
    match py.float value with
    | some x => .float x
    | none => .str value
  else
    match py.int value with
    | some n => .int n
    | none => .str value

/-- `_element_type`, pvlib/iotools/panond.py:30-45. -/
def elementType (element : Text) : Value F :=
  if ',' ∈ element then .list ((splitOn ',' element).map (numType py))
  else .scalar (numType py element)

/-- What a dictionary holds: a value, `None`, or another dictionary (by reference). (Used for pvlib/iotools/panond.py:64-99.) -/
inductive Entry (F : Type) where
  | value (v : Option (Value F))
  | dict (ref : ℕ)

/-- `d[key] = e`: replaces in place or appends. (Used for pvlib/iotools/panond.py:92-99.) -/
def dictSet {α : Type} (d : List (Text × α)) (key : Text) (e : α) : List (Text × α) :=
  match d with
  | [] => [(key, e)]
  | (k, x) :: rest => if k = key then (k, e) :: rest else (k, x) :: dictSet rest key e

/-- The dictionaries made so far, and `dict_levels`. (Used for pvlib/iotools/panond.py:64-65.) -/
structure State (F : Type) where
  (heap : List (List (Text × Entry F)))
  (levels : List ℕ)

/-- `(len(line) - len(line.lstrip(' '))) // 2`, pvlib/iotools/panond.py:75-76. -/
def level (line : Text) : ℕ := (line.length - (line.dropWhile (· = ' ')).length) / 2

/-- Key and value of a line, pvlib/iotools/panond.py:78-85.  (`split` never returns an empty list.) -/
def keyValue (line : Text) : Text × Option (Value F) :=
  match splitOn '=' line with
  | [] => ([], none)
  | [k] => (strip k, none)
  | k :: v :: _ => (strip k, some (elementType py (strip v)))

/-- One iteration of the loop, pvlib/iotools/panond.py:69-99: `line` is `lines[i]` and `next` is `lines[i + 1]`. -/
def step (line next : Text) (s : State F) : Except PyErr (State F) :=
  if line = [] then .ok s
  else
    let indent_lvl_1 := level line
    let indent_lvl_2 := level next
    let kv := keyValue py line
    match s.levels[indent_lvl_1]? with
    | none => .error .indexError
    | some current_level =>
      if indent_lvl_2 > indent_lvl_1 then
        let new_level := s.heap.length
        let heap := s.heap.modify current_level (fun d => dictSet d kv.1 (.dict new_level)) ++ [dictSet [] kv.1 (.value kv.2)]
        .ok ⟨heap, s.levels.take (indent_lvl_1 + 1) ++ [new_level]⟩
      else
        .ok ⟨s.heap.modify current_level (fun d => dictSet d kv.1 (.value kv.2)), s.levels⟩

/-- The loop of `_parse_panond`, pvlib/iotools/panond.py:69-99: every line but the last. -/
def run : List Text → State F → Except PyErr (State F)
  | line :: next :: rest, s =>
    match step py line next s with
    | .error e => .error e
    | .ok s' => run (next :: rest) s'
  | _, s => .ok s

/-- `_parse_panond`, pvlib/iotools/panond.py:48-101: the heap; the result is dictionary number 0. -/
def parse (content : Text) : Except PyErr (List (List (Text × Entry F))) :=
  match run py (splitlines content) ⟨[[]], [0]⟩ with
  | .error e => .error e
  | .ok s => .ok s.heap

end Pvlib.Panond
