import Verif.Model.Vector

/-!
# Model of `math::Transform3` and `math::Transform4`

`Transform4` stores a matrix with its second index lowered: the rows are Minkowski-dotted with what
they act on.
-/

namespace Sidis

/-- `struct Transform3` (include/sidis/transform.hpp 20-35): the rows. -/
@[ext] structure Transform3 where
  x : Vec3
  y : Vec3
  z : Vec3

/-- `struct Transform4` (include/sidis/transform.hpp 172-193): the rows. -/
@[ext] structure Transform4 where
  t : Vec4
  x : Vec4
  y : Vec4
  z : Vec4

namespace Transform3

/-- `operator+` (transform.hpp 62-67, 113-116). -/
instance : Add Transform3 := ⟨fun a b => ⟨a.x + b.x, a.y + b.y, a.z + b.z⟩⟩
/-- `operator-` (transform.hpp 68-73, 117-120). -/
instance : Sub Transform3 := ⟨fun a b => ⟨a.x - b.x, a.y - b.y, a.z - b.z⟩⟩
/-- unary `operator-` (transform.hpp 93-95). -/
instance : Neg Transform3 := ⟨fun a => ⟨-a.x, -a.y, -a.z⟩⟩
/-- `operator*` by a number (transform.hpp 74-79, 121-128). -/
instance : SMul ℝ Transform3 := ⟨fun s a => ⟨s • a.x, s • a.y, s • a.z⟩⟩
/-- `operator/` by a number (transform.hpp 80-85, 129-132). -/
noncomputable instance : HDiv Transform3 ℝ Transform3 := ⟨fun a s => ⟨a.x / s, a.y / s, a.z / s⟩⟩

/-- The constructor from nine numbers (transform.hpp 36-42). -/
def mk9 (xx xy xz yx yy yz zx zy zz : ℝ) : Transform3 :=
  ⟨⟨xx, xy, xz⟩, ⟨yx, yy, yz⟩, ⟨zx, zy, zz⟩⟩

/-- `TRANSFORM3_ID` (transform.hpp 108-111). -/
def one : Transform3 := mk9 1 0 0 0 1 0 0 0 1

/-- `Transform3::transpose` (src/transform.cpp 54-59). -/
def transpose (a : Transform3) : Transform3 :=
  ⟨⟨a.x.x, a.y.x, a.z.x⟩, ⟨a.x.y, a.y.y, a.z.y⟩, ⟨a.x.z, a.y.z, a.z.z⟩⟩

/-- `operator*(Transform3, Transform3)` (transform.hpp 86-92, 133-136). -/
def mul (a b : Transform3) : Transform3 :=
  let b' := b.transpose
  ⟨⟨a.x.dot b'.x, a.x.dot b'.y, a.x.dot b'.z⟩,
   ⟨a.y.dot b'.x, a.y.dot b'.y, a.y.dot b'.z⟩,
   ⟨a.z.dot b'.x, a.z.dot b'.y, a.z.dot b'.z⟩⟩

/-- `operator*(Transform3, Vec3)`, `dot(Transform3, Vec3)`, `transform(Vec3)`
(transform.hpp 137-142, 144-146, src/transform.cpp 77-79). -/
def apply (a : Transform3) (v : Vec3) : Vec3 := ⟨a.x.dot v, a.y.dot v, a.z.dot v⟩

/-- `transform(Transform3)` (src/transform.cpp 85-87). -/
def conj (a b : Transform3) : Transform3 := (a.mul b).mul a.transpose

/-- `outer` (transform.hpp 153-155). -/
def outer (a b : Vec3) : Transform3 := ⟨a.x • b, a.y • b, a.z • b⟩

/-- `cross(Vec3)` (transform.hpp 156-161) and `Transform3::bivec` (src/transform.cpp 50-52). -/
def crossOp (v : Vec3) : Transform3 := mk9 0 (-v.z) v.y v.z 0 (-v.x) (-v.y) v.x 0

/-- `asym_prod` (transform.hpp 162-164). -/
def asymProd (a b : Vec3) : Transform3 := outer a b - outer b a

/-- `sym_prod` (transform.hpp 165-167), as written. -/
def symProd (a b : Vec3) : Transform3 := outer a b + outer a b

/-- `Transform3::rotate` (src/transform.cpp 9-16). -/
noncomputable def rotate (dir : Vec3) (angle : ℝ) : Transform3 :=
  let u := dir.unit
  Real.cos angle • one + Real.sin angle • crossOp u + (1 - Real.cos angle) • outer u u

/-- `Transform3::rotate_to(old, new)` (src/transform.cpp 18-27). -/
noncomputable def rotateTo (dir_old dir_new : Vec3) : Transform3 :=
  let o := dir_old.unit
  let n := dir_new.unit
  let dir := (o.cross n).unit
  let c := o.dot n
  let s := (o.cross n).norm
  c • one + s • crossOp dir + (1 - c) • outer dir dir

/-- `Transform3::rotate_basis` (src/transform.cpp 33-38). -/
noncomputable def rotateBasis (z_axis y_up : Vec3) : Transform3 :=
  let z := z_axis.unit
  let x := (y_up.cross z_axis).unit
  let y := (z.cross x).unit
  ⟨x, y, z⟩

/-- `Transform3::scale` (src/transform.cpp 40-43). -/
noncomputable def scale (dir : Vec3) (s : ℝ) : Transform3 :=
  let u := dir.unit
  one + (s - 1) • outer u u

/-- `Transform3::project` (src/transform.cpp 45-48). -/
noncomputable def project (dir : Vec3) : Transform3 := outer dir dir / dir.normSq

/-- `Transform3::trace` (src/transform.cpp 61-63). -/
def trace (a : Transform3) : ℝ := a.x.x + a.y.y + a.z.z

/-- `Transform3::det` (src/transform.cpp 65-68). -/
def det (a : Transform3) : ℝ :=
  a.x.x * a.y.y * a.z.z + a.x.y * a.y.z * a.z.x + a.x.z * a.y.x * a.z.y
    - a.x.x * a.y.z * a.z.y - a.x.z * a.y.y * a.z.x - a.x.y * a.y.x * a.z.z

/-- `Transform3::inv` (src/transform.cpp 70-75). -/
noncomputable def inv (a : Transform3) : Transform3 :=
  (1 / a.det) • mk9
    (a.y.y * a.z.z - a.y.z * a.z.y) (a.x.z * a.z.y - a.x.y * a.z.z) (a.x.y * a.y.z - a.x.z * a.y.y)
    (a.y.z * a.z.x - a.y.x * a.z.z) (a.x.x * a.z.z - a.x.z * a.z.x) (a.x.z * a.y.x - a.x.x * a.y.z)
    (a.y.x * a.z.y - a.y.y * a.z.x) (a.x.y * a.z.x - a.x.x * a.z.y) (a.x.x * a.y.y - a.x.y * a.y.x)

end Transform3

namespace Transform4

/-- `operator+` (transform.hpp 229-235, 286-289). -/
instance : Add Transform4 := ⟨fun a b => ⟨a.t + b.t, a.x + b.x, a.y + b.y, a.z + b.z⟩⟩
/-- `operator-` (transform.hpp 236-242, 290-293). -/
instance : Sub Transform4 := ⟨fun a b => ⟨a.t - b.t, a.x - b.x, a.y - b.y, a.z - b.z⟩⟩
/-- unary `operator-` (transform.hpp 265-267). -/
instance : Neg Transform4 := ⟨fun a => ⟨-a.t, -a.x, -a.y, -a.z⟩⟩
/-- `operator*` by a number (transform.hpp 243-249, 294-301). -/
instance : SMul ℝ Transform4 := ⟨fun s a => ⟨s • a.t, s • a.x, s • a.y, s • a.z⟩⟩
/-- `operator/` by a number (transform.hpp 250-256, 302-305). -/
noncomputable instance : HDiv Transform4 ℝ Transform4 :=
  ⟨fun a s => ⟨a.t / s, a.x / s, a.y / s, a.z / s⟩⟩

/-- The constructor from sixteen numbers, which lowers the second index (transform.hpp 194-202). -/
def mk16 (tt tx ty tz xt xx xy xz yt yx yy yz zt zx zy zz : ℝ) : Transform4 :=
  ⟨⟨tt, -tx, -ty, -tz⟩, ⟨xt, -xx, -xy, -xz⟩, ⟨yt, -yx, -yy, -yz⟩, ⟨zt, -zx, -zy, -zz⟩⟩

/-- `Transform4(Transform3)` (transform.hpp 208-213). -/
def ofT3 (a : Transform3) : Transform4 :=
  ⟨.et, .ofVec3 0 (-a.x), .ofVec3 0 (-a.y), .ofVec3 0 (-a.z)⟩

/-- `TRANSFORM4_ID` (transform.hpp 280-284). -/
def one : Transform4 := mk16 1 0 0 0 0 1 0 0 0 0 1 0 0 0 0 1

/-- `Transform4::transpose` (src/transform.cpp 160-166). -/
def transpose (a : Transform4) : Transform4 :=
  ⟨⟨a.t.t, a.x.t, a.y.t, a.z.t⟩, ⟨a.t.x, a.x.x, a.y.x, a.z.x⟩,
   ⟨a.t.y, a.x.y, a.y.y, a.z.y⟩, ⟨a.t.z, a.x.z, a.y.z, a.z.z⟩⟩

/-- `operator*(Transform4, Transform4)` (transform.hpp 257-264, 306-309). -/
def mul (a b : Transform4) : Transform4 :=
  let b' := b.transpose
  ⟨⟨a.t.dot b'.t, a.t.dot b'.x, a.t.dot b'.y, a.t.dot b'.z⟩,
   ⟨a.x.dot b'.t, a.x.dot b'.x, a.x.dot b'.y, a.x.dot b'.z⟩,
   ⟨a.y.dot b'.t, a.y.dot b'.x, a.y.dot b'.y, a.y.dot b'.z⟩,
   ⟨a.z.dot b'.t, a.z.dot b'.x, a.z.dot b'.y, a.z.dot b'.z⟩⟩

/-- `operator*(Transform4, Vec4)`, `dot(Transform4, Vec4)`, `transform(Vec4)`
(transform.hpp 310-316, 318-320, src/transform.cpp 203-205). -/
def apply (a : Transform4) (v : Vec4) : Vec4 := ⟨a.t.dot v, a.x.dot v, a.y.dot v, a.z.dot v⟩

/-- `transform(Transform4)` (src/transform.cpp 211-213). -/
def conj (a b : Transform4) : Transform4 := (a.mul b).mul a.transpose

/-- `outer` (transform.hpp 327-329). -/
def outer (a b : Vec4) : Transform4 := ⟨a.t • b, a.x • b, a.y • b, a.z • b⟩

/-- `asym_prod` (transform.hpp 337-339). -/
def asymProd (a b : Vec4) : Transform4 := outer a b - outer b a

/-- `sym_prod` (transform.hpp 340-342), as written. -/
def symProd (a b : Vec4) : Transform4 := outer a b + outer a b

/-- `cross(Vec4, Vec4)` (transform.hpp 330-336). -/
def crossOp (a b : Vec4) : Transform4 :=
  mk16 0 (a.y * b.z - a.z * b.y) (a.z * b.x - a.x * b.z) (a.x * b.y - a.y * b.x)
    (a.z * b.y - a.y * b.z) 0 (a.t * b.z - a.z * b.t) (a.y * b.t - a.t * b.y)
    (a.x * b.z - a.z * b.x) (a.z * b.t - a.t * b.z) 0 (a.t * b.x - a.x * b.t)
    (a.y * b.x - a.x * b.y) (a.t * b.y - a.y * b.t) (a.x * b.t - a.t * b.x) 0

/-- `Transform4::rotate` (src/transform.cpp 93-95). -/
noncomputable def rotate (dir : Vec3) (angle : ℝ) : Transform4 := ofT3 (Transform3.rotate dir angle)

/-- `Transform4::rotate_basis` (src/transform.cpp 102-104). -/
noncomputable def rotateBasis (z_axis y_up : Vec3) : Transform4 :=
  ofT3 (Transform3.rotateBasis z_axis y_up)

/-- `Transform4::boost` (src/transform.cpp 112-119). -/
noncomputable def boost (dir : Vec3) (rapidity : ℝ) : Transform4 :=
  let d := Vec4.ofVec3 0 dir.unit
  one + Real.sinh rapidity • (outer d .et - outer .et d)
    + (1 - Real.cosh rapidity) • (outer d d - outer .et .et)

open Classical in
/-- `Transform4::transform_to(old, new)` (src/transform.cpp 125-140); `none` is a matrix of NaNs. -/
noncomputable def transformTo (dir_old dir_new : Vec4) : Option Transform4 :=
  let o := dir_old.unit
  let n := dir_new.unit
  let c := o.dot n
  let s_old := o.sign
  let s := n.sign
  if s_old ≠ s ∨ s = 0 then none
  else
    let sym := outer o o + outer n n
    let asym := outer o n - outer n o
    let transport := (2 * (s : ℝ) * c) • outer n o
    some (one - (sym + asym - transport) / ((s : ℝ) + c))

/-- `Transform4::project(Vec4)` (src/transform.cpp 146-149). -/
noncomputable def project (dir : Vec4) : Transform4 := outer dir dir / dir.normSq

/-- `Transform4::bivec` (src/transform.cpp 151-158). -/
def bivec (v bv : Vec3) : Transform4 :=
  mk16 0 (-v.x) (-v.y) (-v.z) (-v.x) 0 (-bv.z) bv.y (-v.y) bv.z 0 (-bv.x) (-v.z) (-bv.y) bv.x 0

/-- `Transform4::trace` (src/transform.cpp 168-170). -/
def trace (a : Transform4) : ℝ := a.t.t - a.x.x - a.y.y - a.z.z

/-- `Transform4::det` (src/transform.cpp 172-181). -/
def det (a : Transform4) : ℝ :=
  let t := a.t
  let x := a.x
  let y := a.y
  let z := a.z;
  -t.t * x.x * y.y * z.z - t.t * x.y * y.z * z.x - t.t * x.z * y.x * z.y
    + t.t * x.x * y.z * z.y + t.t * x.z * y.y * z.x + t.t * x.y * y.x * z.z
    + t.x * x.t * y.y * z.z + t.x * x.y * y.z * z.t + t.x * x.z * y.t * z.y
    - t.x * x.t * y.z * z.y - t.x * x.z * y.y * z.t - t.x * x.y * y.t * z.z
    + t.y * x.x * y.t * z.z + t.y * x.t * y.z * z.x + t.y * x.z * y.x * z.t
    - t.y * x.x * y.z * z.t - t.y * x.z * y.t * z.x - t.y * x.t * y.x * z.z
    + t.z * x.x * y.y * z.t + t.z * x.y * y.t * z.x + t.z * x.t * y.x * z.y
    - t.z * x.x * y.t * z.y - t.z * x.t * y.y * z.x - t.z * x.y * y.x * z.t

/-- `Transform4::inv` (src/transform.cpp 183-201). -/
noncomputable def inv (a : Transform4) : Transform4 :=
  let t := a.t
  let x := a.x
  let y := a.y
  let z := a.z
  (1 / a.det) • mk16
    (-(x.x * y.y * z.z + x.y * y.z * z.x + x.z * y.x * z.y - x.x * y.z * z.y - x.z * y.y * z.x - x.y * y.x * z.z))
    (-(t.x * y.z * z.y + t.z * y.y * z.x + t.y * y.x * z.z - t.x * y.y * z.z - t.y * y.z * z.x - t.z * y.x * z.y))
    (-(x.x * t.z * z.y + x.z * t.y * z.x + x.y * t.x * z.z - x.x * t.y * z.z - x.y * t.z * z.x - x.z * t.x * z.y))
    (-(x.x * y.z * t.y + x.z * y.y * t.x + x.y * y.x * t.z - x.x * y.y * t.z - x.y * y.z * t.x - x.z * y.x * t.y))
    (x.t * y.z * z.y + x.z * y.y * z.t + x.y * y.t * z.z - x.t * y.y * z.z - x.y * y.z * z.t - x.z * y.t * z.y)
    (t.t * y.y * z.z + t.y * y.z * z.t + t.z * y.t * z.y - t.t * y.z * z.y - t.z * y.y * z.t - t.y * y.t * z.z)
    (t.t * x.z * z.y + t.z * x.y * z.t + t.y * x.t * z.z - t.t * x.y * z.z - t.y * x.z * z.t - t.z * x.t * z.y)
    (t.t * y.z * x.y + t.z * y.y * x.t + t.y * y.t * x.z - t.t * y.y * x.z - t.y * y.z * x.t - t.z * y.t * x.y)
    (x.x * y.z * z.t + x.z * y.t * z.x + x.t * y.x * z.z - x.x * y.t * z.z - x.t * y.z * z.x - x.z * y.x * z.t)
    (y.x * t.z * z.t + y.z * t.t * z.x + y.t * t.x * z.z - y.x * t.t * z.z - y.t * t.z * z.x - y.z * t.x * z.t)
    (x.x * t.t * z.z + x.t * t.z * z.x + x.z * t.x * z.t - x.x * t.z * z.t - x.z * t.t * z.x - x.t * t.x * z.z)
    (x.x * t.z * y.t + x.z * t.t * y.x + x.t * t.x * y.z - x.x * t.t * y.z - x.t * t.z * y.x - x.z * t.x * y.t)
    (x.x * y.t * z.y + x.t * y.y * z.x + x.y * y.x * z.t - x.x * y.y * z.t - x.y * y.t * z.x - x.t * y.x * z.y)
    (z.x * y.t * t.y + z.t * y.y * t.x + z.y * y.x * t.t - z.x * y.y * t.t - z.y * y.t * t.x - z.t * y.x * t.y)
    (x.x * z.t * t.y + x.t * z.y * t.x + x.y * z.x * t.t - x.x * z.y * t.t - x.y * z.t * t.x - x.t * z.x * t.y)
    (x.x * y.y * t.t + x.y * y.t * t.x + x.t * y.x * t.y - x.x * y.t * t.y - x.t * y.y * t.x - x.y * y.x * t.t)

end Transform4
end Sidis
