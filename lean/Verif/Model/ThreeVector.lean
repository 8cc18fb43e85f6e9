import Verif.Base.Dbl

set_option autoImplicit false

/-!
# `Source/Tools/ThreeVector.hh` and `Source/Tools/ThreeMatrix.hh`

Index assertions (`ThreeVector.hh:131,137`, `ThreeMatrix.hh:86,92`) are not
modelled: every index in the code is a literal or a loop variable below 3, so
components are plain structure fields.
-/

namespace QED

open Dbl

/-- `class ThreeVector` (`Tools/ThreeVector.hh:11-14`): three doubles. -/
@[ext] structure V3 (D : Type) where
  x : D
  y : D
  z : D

/-- `class ThreeMatrix` (`Tools/ThreeMatrix.hh:4-7`): `m_data[9]`, row major;
field `mij` is `m_data[3*i+j]`. -/
@[ext] structure M3 (D : Type) where
  m00 : D
  m01 : D
  m02 : D
  m10 : D
  m11 : D
  m12 : D
  m20 : D
  m21 : D
  m22 : D

variable {D : Type} [Dbl D]

namespace V3

/-- Default constructor (`ThreeVector.hh:18-23`). -/
def zero : V3 D := ⟨lit 0, lit 0, lit 0⟩

/-- `operator[]` for an index below 3 (`ThreeVector.hh:135-139`). -/
def get (v : V3 D) : Fin 3 → D
  | 0 => v.x
  | 1 => v.y
  | 2 => v.z

/-- `operator+(vector, vector)` (`ThreeVector.hh:158-165`). -/
def add (a b : V3 D) : V3 D := ⟨a.x +. b.x, a.y +. b.y, a.z +. b.z⟩

/-- `operator-(vector, vector)` (`ThreeVector.hh:167-174`). -/
def sub (a b : V3 D) : V3 D := ⟨a.x -. b.x, a.y -. b.y, a.z -. b.z⟩

/-- `operator*(scalar, vector)` (`ThreeVector.hh:231-238`). -/
def smul (s : D) (v : V3 D) : V3 D := ⟨s *. v.x, s *. v.y, s *. v.z⟩

/-- `operator*(vector, scalar)` (`ThreeVector.hh:240-247`). -/
def muls (v : V3 D) (s : D) : V3 D := ⟨v.x *. s, v.y *. s, v.z *. s⟩

/-- `operator/(vector, scalar)` (`ThreeVector.hh:258-265`). -/
def divs (v : V3 D) (s : D) : V3 D := ⟨v.x /. s, v.y /. s, v.z /. s⟩

/-- `Cross` (`ThreeVector.hh:51-58`). -/
def cross (a b : V3 D) : V3 D :=
  ⟨a.y *. b.z -. a.z *. b.y, a.z *. b.x -. a.x *. b.z, a.x *. b.y -. a.y *. b.x⟩

/-- `Dot` (`ThreeVector.hh:66-70`). -/
def dot (a b : V3 D) : D := a.x *. b.x +. a.y *. b.y +. a.z *. b.z

/-- `Mag` (`ThreeVector.hh:73-76`). -/
def mag (a : V3 D) : D := sqrt (dot a a)

/-- `Mag2` (`ThreeVector.hh:79-82`). -/
def mag2 (a : V3 D) : D := dot a a

/-- `Norm` (`ThreeVector.hh:60-63`). -/
def norm (a : V3 D) : V3 D := divs a (mag a)

/-- `Direction` (`ThreeVector.hh:85-93`). Line 91 calls `dir.Norm()` and
discards its result, so the difference itself is returned. -/
def direction (a point : V3 D) : V3 D :=
  let dir : V3 D := ⟨point.x -. a.x, point.y -. a.y, point.z -. a.z⟩
  let _ := norm dir
  dir

end V3

namespace M3

/-- Default constructor, `Zeros` (`ThreeMatrix.hh:10-13,27-33`). -/
def zeros : M3 D :=
  ⟨lit 0, lit 0, lit 0, lit 0, lit 0, lit 0, lit 0, lit 0, lit 0⟩

/-- `Ideneity` (`ThreeMatrix.hh:35-40`): sets the diagonal of `m` to one and
leaves the other entries as they are. -/
def ideneity (m : M3 D) : M3 D := { m with m00 := lit 1, m11 := lit 1, m22 := lit 1 }

/-- `Determinant` (`ThreeMatrix.hh:61-66`). -/
def det (m : M3 D) : D :=
  m.m00 *. (m.m11 *. m.m22 -. m.m12 *. m.m21)
    -. m.m01 *. (m.m10 *. m.m22 -. m.m12 *. m.m20)
    +. m.m02 *. (m.m10 *. m.m21 -. m.m11 *. m.m20)

/-- `operator+` (`ThreeMatrix.hh:96-104`). -/
def add (a b : M3 D) : M3 D :=
  ⟨a.m00 +. b.m00, a.m01 +. b.m01, a.m02 +. b.m02,
   a.m10 +. b.m10, a.m11 +. b.m11, a.m12 +. b.m12,
   a.m20 +. b.m20, a.m21 +. b.m21, a.m22 +. b.m22⟩

/-- One entry of the product: the accumulator starts at `0.0` and is increased
three times (`ThreeMatrix.hh:113-116`, `ThreeVector.hh:273-276`). -/
def acc3 (a1 b1 a2 b2 a3 b3 : D) : D := lit 0 +. a1 *. b1 +. a2 *. b2 +. a3 *. b3

/-- `operator*(matrix, matrix)` (`ThreeMatrix.hh:106-120`). -/
def mul (a b : M3 D) : M3 D :=
  ⟨acc3 a.m00 b.m00 a.m01 b.m10 a.m02 b.m20,
   acc3 a.m00 b.m01 a.m01 b.m11 a.m02 b.m21,
   acc3 a.m00 b.m02 a.m01 b.m12 a.m02 b.m22,
   acc3 a.m10 b.m00 a.m11 b.m10 a.m12 b.m20,
   acc3 a.m10 b.m01 a.m11 b.m11 a.m12 b.m21,
   acc3 a.m10 b.m02 a.m11 b.m12 a.m12 b.m22,
   acc3 a.m20 b.m00 a.m21 b.m10 a.m22 b.m20,
   acc3 a.m20 b.m01 a.m21 b.m11 a.m22 b.m21,
   acc3 a.m20 b.m02 a.m21 b.m12 a.m22 b.m22⟩

/-- `operator*(matrix, scalar)` (`ThreeMatrix.hh:122-130`). -/
def muls (a : M3 D) (s : D) : M3 D :=
  ⟨a.m00 *. s, a.m01 *. s, a.m02 *. s,
   a.m10 *. s, a.m11 *. s, a.m12 *. s,
   a.m20 *. s, a.m21 *. s, a.m22 *. s⟩

/-- `operator*(matrix, vector)` (`ThreeVector.hh:268-280`). -/
def mulVec (a : M3 D) (v : V3 D) : V3 D :=
  ⟨acc3 a.m00 v.x a.m01 v.y a.m02 v.z,
   acc3 a.m10 v.x a.m11 v.y a.m12 v.z,
   acc3 a.m20 v.x a.m21 v.y a.m22 v.z⟩

/-- `Inverse` (`ThreeMatrix.hh:68-82`). -/
def inverse (m : M3 D) : M3 D :=
  muls
    ⟨m.m11 *. m.m22 -. m.m12 *. m.m21,
     m.m02 *. m.m21 -. m.m01 *. m.m22,
     m.m01 *. m.m12 -. m.m02 *. m.m11,
     m.m12 *. m.m20 -. m.m10 *. m.m22,
     m.m00 *. m.m22 -. m.m02 *. m.m20,
     m.m02 *. m.m10 -. m.m00 *. m.m12,
     m.m10 *. m.m21 -. m.m11 *. m.m20,
     m.m01 *. m.m20 -. m.m00 *. m.m21,
     m.m00 *. m.m11 -. m.m01 *. m.m10⟩
    (lit 1 /. det m)

end M3

/-- The skew matrix built at `ThreeVector.hh:112-118`. -/
def skewMat (c : V3 D) : M3 D :=
  { (M3.zeros : M3 D) with
    m01 := -. c.z, m02 := c.y, m10 := c.z, m12 := -. c.x, m20 := -. c.y, m21 := c.x }

/-- `RotateToAxis` (`ThreeVector.hh:96-125`). -/
def V3.rotateToAxis (v axis : V3 D) : M3 D :=
  if (v.norm.add axis.norm).mag2 <=. lit 1e-10 then
    { (M3.zeros : M3 D) with m00 := lit (-1), m11 := lit 1, m22 := lit (-1) }
  else
    let norm1 := v.norm
    let norm2 := axis.norm
    let crossVec := norm1.cross norm2
    let cos := norm1.dot norm2
    let skew := skewMat crossVec
    let ident := (M3.zeros : M3 D).ideneity
    (ident.add skew).add ((skew.mul skew).muls (lit 1 /. (lit 1 +. cos)))

/-- The axis `ThreeVector(0, 0, 1)` used by every caller of `RotateToAxis`
(`SourceGenerator.cpp:34`, `PlaneEMField.cpp:13`, `GaussianEMField.cpp:18`,
`FocusingField.cpp:15`). -/
def V3.ez : V3 D := ⟨lit 0, lit 0, lit 1⟩

end QED
