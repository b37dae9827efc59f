import Verif.Model.VtuMask
import Verif.Model.Mesh
/-
Model of the VTK output of `qugar::ReparamMesh` (cpp/qugar/reparam_mesh.cpp). The text of a file is a list of characters. External: the
operator `<<` of `std::ostream` for `real` with `max_digits10` digits (parameter `real`). A file that cannot be opened
(`writable` is false) is not written: no operation on the stream raises. `none`: a failed assertion.
-/
namespace Qugar.VtkFile
variable {K : Type}

/-- The operator `<<` of `std::ostream` for non-negative integers (`std::size_t`, and `int` for the cell types). -/
def dec (n : Nat) : List Char :=
  if n < 10 then [Char.ofNat ('0'.toNat + n)] else dec (n / 10) ++ [Char.ofNat ('0'.toNat + n % 10)]
decreasing_by omega

/-- A point, with the branches of `if constexpr` on `range`. reparam_mesh.cpp:277-283. (`getD`: the points have `range` coordinates.) -/
def pointText [Zero K] (real : K → List Char) (range : Nat) (p : List K) : List Char :=
  if range = 1 then real (p.getD 0 0) ++ " 0 0 ".toList
  else if range = 2 then real (p.getD 0 0) ++ " ".toList ++ real (p.getD 1 0) ++ " 0 ".toList
  else real (p.getD 0 0) ++ " ".toList ++ real (p.getD 1 0) ++ " ".toList ++ real (p.getD 2 0) ++ " ".toList

/-- `write_reparam_to_VTK_cells`: the text of the file. reparam_mesh.cpp:249-320. (The order of `Option` effects is not the one of the code: nothing
is observable before the assertion.) -/
def vtuText [Zero K] (real : K → List Char) (dim range order : Nat) (points : List (List K)) (conn : List Nat) : Option (List Char) :=
  if ¬ 1 < order then none else
  let n := order ^ dim
  if conn.length % n ≠ 0 then none else
  let nCells := conn.length / n
  do
    let cells ← (List.range nCells).mapM fun (c : Nat) => Vtu.writeCell dim order ((conn.drop (c * n)).take n)
    let type ← Vtu.cellType dim order
    some ("<?xml version=\"1.0\"?>\n".toList
      ++ "<VTKFile type=\"UnstructuredGrid\" version=\"0.1\" byte_order=\"LittleEndian\">\n".toList
      ++ "<UnstructuredGrid>\n".toList
      ++ ("<Piece NumberOfPoints=\"".toList ++ dec points.length ++ "\" NumberOfCells=\"".toList ++ dec nCells ++ "\">\n".toList)
      ++ "<Points>\n".toList
      ++ ("  <DataArray type=\"Float64\" Name=\"Points\" NumberOfComponents=\"3\" format=\"ascii\">".toList
        ++ points.flatMap (pointText real range) ++ "</DataArray>\n".toList)
      ++ "</Points>\n".toList
      ++ "<Cells>\n".toList
      ++ ("  <DataArray type=\"UInt64\" Name=\"connectivity\" format=\"ascii\">".toList
        ++ cells.flatMap (fun cell => cell.flatMap fun v => dec v ++ " ".toList) ++ "</DataArray>\n".toList)
      ++ ("  <DataArray type=\"UInt64\" Name=\"offsets\" format=\"ascii\">".toList
        ++ (List.range nCells).flatMap (fun c => dec ((c + 1) * n) ++ " ".toList) ++ "</DataArray>\n".toList)
      ++ ("  <DataArray type=\"Int32\" Name=\"types\" format=\"ascii\">".toList
        ++ (List.range nCells).flatMap (fun _ => dec type ++ " ".toList) ++ "</DataArray>\n".toList)
      ++ "</Cells>\n".toList
      ++ "</Piece>\n".toList
      ++ "</UnstructuredGrid>\n".toList
      ++ "</VTKFile>\n".toList)

/-- The text of the multi-block file. reparam_mesh.cpp:744-756. -/
def blocksText (filename wirebasket : List Char) : List Char :=
  "<?xml version=\"1.0\"?>\n".toList
    ++ "<VTKFile type=\"vtkMultiBlockDataSet\" version=\"1.0\" byte_order=\"LittleEndian\">\n".toList
    ++ "  <vtkMultiBlockDataSet>\n".toList
    ++ ("    <DataSet index=\"0\" name=\"interior\" file=\"".toList ++ filename ++ ".vtu\"/>\n".toList)
    ++ ("    <DataSet index=\"1\" name=\"boundary\" file=\"".toList ++ wirebasket ++ ".vtu\"/>\n".toList)
    ++ "  </vtkMultiBlockDataSet>\n".toList
    ++ "</VTKFile>\n".toList

/-- `std::ofstream stream(name)` and the output to it; a file that cannot be opened is not changed. reparam_mesh.cpp:267, 743. -/
def save (writable : List Char → Bool) (files : List Char → Option (List Char)) (name text : List Char) : List Char → Option (List Char) :=
  fun f => if f = name ∧ writable name then some text else files f

/-- `write_VTK_file`: the files afterwards. reparam_mesh.cpp:736-758. -/
def write [Zero K] (real : K → List Char) (writable : List Char → Bool) (files : List Char → Option (List Char)) (m : Mesh.Mesh K)
    (filename : List Char) : Option (List Char → Option (List Char)) := do
  let cells ← vtuText real m.dim m.range m.order m.points m.conn
  let files := save writable files (filename ++ ".vtu".toList) cells
  let wirebasket := filename ++ "_wb".toList
  let wires ← vtuText real 1 m.range m.order m.points m.wires
  let files := save writable files (wirebasket ++ ".vtu".toList) wires
  some (save writable files (filename ++ ".vtmb".toList) (blocksText filename wirebasket))

end Qugar.VtkFile
