import Verif.Model.Path
import Verif.Model.Loop
/-
Model of `export_mesh` in src/geom.rs.  Text is a list of bytes.
-/

namespace OCG.Mesh

/-- geom.rs:30-31, the text written first ("# This file uses centimeters as units for
non-parametric coordinates.") followed by two line ends. -/
def header : Bytes :=
  [35, 32, 84, 104, 105, 115, 32, 102, 105, 108, 101, 32, 117, 115, 101, 115, 32, 99, 101, 110,
   116, 105, 109, 101, 116, 101, 114, 115, 32, 97, 115, 32, 117, 110, 105, 116, 115, 32, 102,
   111, 114, 32, 110, 111, 110, 45, 112, 97, 114, 97, 109, 101, 116, 114, 105, 99, 32, 99, 111,
   111, 114, 100, 105, 110, 97, 116, 101, 115, 46, 10, 10]

variable {F : Type}

/-- `format!("v {} {} {}\n", x, y, z)`, geom.rs:40. `fmt` is the `Display` of `f32`
(std, external). -/
def vertexLine (fmt : F → Bytes) (x y z : F) : Bytes :=
  [118, 32] ++ fmt x ++ [32] ++ fmt y ++ [32] ++ fmt z ++ [10]

/-- `format!("vt {} {}\n", x, y)`, geom.rs:49. -/
def uvLine (fmt : F → Bytes) (x y : F) : Bytes :=
  [118, 116, 32] ++ fmt x ++ [32] ++ fmt y ++ [10]

/-- `format!("f {0}/{0} {1}/{1} {2}/{2}\n", x, y, z)`, geom.rs:61. -/
def faceLine (x y z : Nat) : Bytes :=
  [102, 32] ++ Path.decimal x ++ [47] ++ Path.decimal x ++ [32] ++ Path.decimal y ++ [47] ++
    Path.decimal y ++ [32] ++ Path.decimal z ++ [47] ++ Path.decimal z ++ [10]

/-- geom.rs:35-41, the loop over the vertices. -/
def vertexLoop (fmt : F → Bytes) (positions : List F) (data : Bytes) : Res Bytes :=
  forRange (positions.length / 3) (fun i data => do
    let x ← getAt positions (i * 3 + 0)
    let y ← getAt positions (i * 3 + 1)
    let z ← getAt positions (i * 3 + 2)
    .ok (data ++ vertexLine fmt x y z)) data

/-- geom.rs:43-50, the loop over the texture coordinates. -/
def uvLoop (fmt : F → Bytes) (uvs : List F) (data : Bytes) : Res Bytes :=
  forRange (uvs.length / 2) (fun i data => do
    let x ← getAt uvs (i * 2 + 0)
    let y ← getAt uvs (i * 2 + 1)
    .ok (data ++ uvLine fmt x y)) data

/-- geom.rs:52-63, the loop over the triangles; the state is `tri_index` and the text. -/
def faceLoop (p : Profile) (indices : List Nat) (data : Bytes) : Res (Nat × Bytes) :=
  forRange (indices.length / 3) (fun _ s => do
    let a ← getAt indices (s.1 + 0)
    let x ← u32 p (1 + a)
    let b ← getAt indices (s.1 + 1)
    let y ← u32 p (1 + b)
    let c ← getAt indices (s.1 + 2)
    let z ← u32 p (1 + c)
    .ok (s.1 + 3, s.2 ++ faceLine x y z)) (0, data)

/-- geom.rs:26-63 `export_mesh` before the write: the text for the file. -/
def exportMesh (p : Profile) (fmt : F → Bytes) (positions uvs : List F) (indices : List Nat) :
    Res Bytes := do
  let data ← vertexLoop fmt positions header
  let data ← uvLoop fmt uvs data
  let r ← faceLoop p indices data
  .ok r.2

/-- The file system as `std::fs::write` sees it (std, external; used in geom.rs:66): the contents of
the files, and which paths can be written. -/
structure Disk where
  files : Bytes → Option Bytes
  writable : Bytes → Bool

/-- `std::fs::write(file_path, data).unwrap()`, geom.rs:65-66: creates the file or replaces its
contents; an I/O error panics.  Simplification: whether writing works is known beforehand. -/
def Disk.write (disk : Disk) (path data : Bytes) : Res Disk :=
  if disk.writable path then
    .ok { disk with files := fun q => if q = path then some data else disk.files q }
  else .error .explicit

/-- geom.rs:26-67 `export_mesh`. -/
def exportMeshFile (p : Profile) (fmt : F → Bytes) (positions uvs : List F) (indices : List Nat)
    (path : Bytes) (disk : Disk) : Res Disk := do
  let data ← exportMesh p fmt positions uvs indices
  disk.write path data

end OCG.Mesh
