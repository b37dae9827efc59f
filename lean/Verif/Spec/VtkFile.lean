import Verif.Spec.Vtu
import Verif.Spec.Tensor
/-
What a reader of VTK's XML files sees: elements with attributes and text, unstructured grids (`.vtu`), and multi-block files that refer to
other files. Texts are lists of characters. The only simplifications: no entities (`&`), no comments.
-/
namespace Qugar.Spec.Vtk

/-- The parts of a text between the occurrences of a character. -/
def splitOn (c : Char) : List Char → List (List Char)
  | [] => [[]]
  | a :: l => if a = c then [] :: splitOn c l else
    match splitOn c l with
    | h :: t => (a :: h) :: t
    | [] => [[a]]

/-- White space. -/
def isSpace (c : Char) : Bool := c == ' ' || c == '\n' || c == '\t' || c == '\r'

/-- The words of a text: `acc` is the current word, reversed. -/
def wordsFrom (acc : List Char) : List Char → List (List Char)
  | [] => if acc = [] then [] else [acc.reverse]
  | a :: l => if isSpace a then (if acc = [] then wordsFrom [] l else acc.reverse :: wordsFrom [] l) else wordsFrom (a :: acc) l

/-- The words of a text. -/
def words (l : List Char) : List (List Char) := wordsFrom [] l

/-- A decimal number. -/
def readNat (l : List Char) : Option Nat :=
  if l = [] then none else
    l.foldlM (fun n c => if '0'.toNat ≤ c.toNat ∧ c.toNat ≤ '9'.toNat then some (10 * n + (c.toNat - '0'.toNat)) else none) 0

/-- The tags of a text (between `<` and `>`), each with the text that follows it. -/
def tags (l : List Char) : Option (List (List Char × List Char)) :=
  match splitOn '<' l with
  | [] :: parts => parts.mapM fun part =>
      match splitOn '>' part with
      | [t, b] => some (t, b)
      | _ => none
  | _ => none

/-- The name of a tag. -/
def tagName (t : List Char) : List Char := t.takeWhile fun c => !isSpace c

/-- The value of an attribute: the pieces of the tag between quotes are, alternately, the text that ends with `name=` and the value. -/
def attrIn (name : List Char) : List (List Char) → Option (List Char)
  | p :: v :: rest => if (words p).getLast? = some (name ++ ['=']) then some v else attrIn name rest
  | _ => none

/-- The value of an attribute of a tag. -/
def attr (name : String) (t : List Char) : Option (List Char) := attrIn name.toList (splitOn '"' t)

/-- The tags are nested properly: `stack` has the names of the open elements, innermost first; `?xml` declarations are skipped. -/
def nested : List (List Char) → List (List Char) → Bool
  | stack, [] => stack.isEmpty
  | stack, t :: ts =>
    if t.head? = some '?' then nested stack ts
    else if t.getLast? = some '/' then nested stack ts
    else if t.head? = some '/' then
      match stack with
      | s :: stack => s = t.tail && nested stack ts
      | [] => false
    else nested (tagName t :: stack) ts

/-- An unstructured grid: points with 3 coordinates, cells with a type and the numbers of their points. -/
structure Grid (α : Type) where
  points : List (List α)
  cells : List (Nat × List Nat)
deriving DecidableEq

/-- Groups of three. -/
def triples {α : Type} : List α → Option (List (List α))
  | [] => some []
  | a :: b :: c :: l => (triples l).map ([a, b, c] :: ·)
  | _ => none

/-- The parts of a list that end at the given offsets. -/
def cut {α : Type} (l : List α) : Nat → List Nat → List (List α)
  | _, [] => []
  | start, e :: es => (l.drop start).take (e - start) :: cut l e es

/-- The words of the data array with a name. -/
def dataArray (es : List (List Char × List Char)) (name : String) : Option (List (List Char)) := do
  let e ← es.find? fun e => tagName e.1 = "DataArray".toList ∧ attr "Name" e.1 = some name.toList
  some (words e.2)

/-- The grid in the text of a `.vtu` file; `parse` reads a coordinate. -/
def readVtu {α : Type} (parse : List Char → Option α) (text : List Char) : Option (Grid α) := do
  let es ← tags text
  if ¬ nested [] (es.map Prod.fst) then none else
  let root ← es.find? fun e => tagName e.1 = "VTKFile".toList
  if attr "type" root.1 ≠ some "UnstructuredGrid".toList then none else
  let piece ← es.find? fun e => tagName e.1 = "Piece".toList
  let nPoints ← (attr "NumberOfPoints" piece.1).bind readNat
  let nCells ← (attr "NumberOfCells" piece.1).bind readNat
  let points ← ((← dataArray es "Points").mapM parse).bind triples
  let conn ← (← dataArray es "connectivity").mapM readNat
  let offsets ← (← dataArray es "offsets").mapM readNat
  let types ← (← dataArray es "types").mapM readNat
  if points.length = nPoints ∧ offsets.length = nCells ∧ types.length = nCells ∧ offsets.getLastD 0 = conn.length ∧ ∀ v ∈ conn, v < nPoints then
    some ⟨points, List.zip types (cut conn 0 offsets)⟩
  else none

/-- The directory of a file name, with the final `/`; empty for a file in the working directory. -/
def directory (name : List Char) : List Char := (name.reverse.dropWhile (· ≠ '/')).reverse

/-- The name of a file referred to in another one: absolute, or relative to the directory of the latter. -/
def resolve (parent name : List Char) : List Char := if name.head? = some '/' then name else directory parent ++ name

/-- The names and grids of the blocks of a multi-block file; `files` gives the texts of the files. -/
def readBlocks {α : Type} (parse : List Char → Option α) (files : List Char → Option (List Char)) (name : List Char) :
    Option (List (List Char × Grid α)) := do
  let es ← tags (← files name)
  if ¬ nested [] (es.map Prod.fst) then none else
  let root ← es.find? fun e => tagName e.1 = "VTKFile".toList
  if attr "type" root.1 ≠ some "vtkMultiBlockDataSet".toList then none else
  (es.filter fun e => tagName e.1 = "DataSet".toList).mapM fun e => do
    let block ← attr "name" e.1
    let file ← attr "file" e.1
    let text ← files (resolve name file)
    let grid ← readVtu parse text
    some (block, grid)

/-- The grid of a mesh of cells with `order` points per direction: the coordinates are completed with zeros, the nodes of the cells are in VTK's order, and the
types are the ones of (linear or Lagrange) lines, quadrilaterals and hexahedra. -/
def gridOf {α : Type} [Zero α] (dim range order : Nat) (points : List (List α)) (conn : List Nat) : Grid α :=
  ⟨points.map fun p => p ++ List.replicate (3 - range) 0,
   (List.range (conn.length / order ^ dim)).map fun c =>
     ((if order = 2 then cellTypes.1 else cellTypes.2).getD (dim - 1) 0,
      (nodes dim order).map fun t => conn.getD (c * order ^ dim + flatIndex t (List.replicate dim order)) 0)⟩

end Qugar.Spec.Vtk
