import Mathlib.Analysis.SpecialFunctions.Trigonometric.Inverse

/-!
# Model of `math::Vec3` and `math::Vec4`

Components are real numbers (no rounding, overflow or special values).  Division by zero, where the
code can meet it, is excluded by the hypotheses of the theorems.
-/

namespace Sidis

/-- `struct Vec3` (include/sidis/vector.hpp 19-25). -/
@[ext] structure Vec3 where
  x : ℝ
  y : ℝ
  z : ℝ

/-- `struct Vec4` (include/sidis/vector.hpp 114-122). -/
@[ext] structure Vec4 where
  t : ℝ
  x : ℝ
  y : ℝ
  z : ℝ

namespace Vec3

/-- `operator+` (vector.hpp 36-41, 79-82). -/
instance : Add Vec3 := ⟨fun a b => ⟨a.x + b.x, a.y + b.y, a.z + b.z⟩⟩
/-- `operator-` (vector.hpp 42-47, 83-86). -/
instance : Sub Vec3 := ⟨fun a b => ⟨a.x - b.x, a.y - b.y, a.z - b.z⟩⟩
/-- unary `operator-` (vector.hpp 60-62). -/
instance : Neg Vec3 := ⟨fun a => ⟨-a.x, -a.y, -a.z⟩⟩
/-- `operator*` by a number (vector.hpp 48-53, 87-94). -/
instance : SMul ℝ Vec3 := ⟨fun s a => ⟨a.x * s, a.y * s, a.z * s⟩⟩
/-- `operator/` by a number (vector.hpp 54-59, 95-98). -/
noncomputable instance : HDiv Vec3 ℝ Vec3 := ⟨fun a s => ⟨a.x / s, a.y / s, a.z / s⟩⟩

/-- `VEC3_ZERO` (vector.hpp 74). -/
def zero : Vec3 := ⟨0, 0, 0⟩
/-- `VEC3_X`, `VEC3_Y`, `VEC3_Z` (vector.hpp 75-77). -/
def ex : Vec3 := ⟨1, 0, 0⟩
@[inherit_doc ex] def ey : Vec3 := ⟨0, 1, 0⟩
@[inherit_doc ex] def ez : Vec3 := ⟨0, 0, 1⟩

/-- `dot(Vec3, Vec3)` (vector.hpp 100-102). -/
def dot (a b : Vec3) : ℝ := a.x * b.x + a.y * b.y + a.z * b.z

/-- `cross(Vec3, Vec3)` (vector.hpp 103-108). -/
def cross (a b : Vec3) : Vec3 :=
  ⟨a.y * b.z - a.z * b.y, a.z * b.x - a.x * b.z, a.x * b.y - a.y * b.x⟩

/-- `Vec3::norm_sq` (src/vector.cpp 9-11). -/
def normSq (a : Vec3) : ℝ := a.dot a

open Classical in
/-- `Vec3::norm` (src/vector.cpp 13-27). -/
noncomputable def norm (a : Vec3) : ℝ :=
  let m := max (max |a.x| |a.y|) |a.z|
  if m = 0 then 0
  else
    let x_r := a.x / m
    let y_r := a.y / m
    let z_r := a.z / m
    m * √(x_r * x_r + y_r * y_r + z_r * z_r)

open Classical in
/-- `Vec3::unit` (src/vector.cpp 29-36). -/
noncomputable def unit (a : Vec3) : Vec3 := if a.norm = 0 then zero else a / a.norm

open Classical in
/-- `Vec3::par` (src/vector.cpp 38-45). -/
noncomputable def par (a v : Vec3) : Vec3 :=
  if v.normSq = 0 then a else (a.dot v • v) / v.normSq

open Classical in
/-- `Vec3::perp` (src/vector.cpp 47-54). -/
noncomputable def perp (a v : Vec3) : Vec3 :=
  if v.normSq = 0 then zero else ((v.cross a).cross v) / v.normSq

/-- `angle_between` (src/vector.cpp 56-58). -/
noncomputable def angleBetween (a b : Vec3) : ℝ := Real.arccos (a.unit.dot b.unit)

end Vec3

namespace Vec4

/-- `operator+` (vector.hpp 140-146, 189-192). -/
instance : Add Vec4 := ⟨fun a b => ⟨a.t + b.t, a.x + b.x, a.y + b.y, a.z + b.z⟩⟩
/-- `operator-` (vector.hpp 147-153, 193-196). -/
instance : Sub Vec4 := ⟨fun a b => ⟨a.t - b.t, a.x - b.x, a.y - b.y, a.z - b.z⟩⟩
/-- unary `operator-` (vector.hpp 168-170). -/
instance : Neg Vec4 := ⟨fun a => ⟨-a.t, -a.x, -a.y, -a.z⟩⟩
/-- `operator*` by a number (vector.hpp 154-160, 197-204). -/
instance : SMul ℝ Vec4 := ⟨fun s a => ⟨a.t * s, a.x * s, a.y * s, a.z * s⟩⟩
/-- `operator/` by a number (vector.hpp 161-167, 205-208). -/
noncomputable instance : HDiv Vec4 ℝ Vec4 := ⟨fun a s => ⟨a.t / s, a.x / s, a.y / s, a.z / s⟩⟩

/-- `VEC4_ZERO` (vector.hpp 183). -/
def zero : Vec4 := ⟨0, 0, 0, 0⟩
/-- `VEC4_T`, `VEC4_X`, `VEC4_Y`, `VEC4_Z` (vector.hpp 184-187). -/
def et : Vec4 := ⟨1, 0, 0, 0⟩
@[inherit_doc et] def ex : Vec4 := ⟨0, 1, 0, 0⟩
@[inherit_doc et] def ey : Vec4 := ⟨0, 0, 1, 0⟩
@[inherit_doc et] def ez : Vec4 := ⟨0, 0, 0, 1⟩

/-- `Vec4(Real t, Vec3 r)` (vector.hpp 122). -/
def ofVec3 (t : ℝ) (r : Vec3) : Vec4 := ⟨t, r.x, r.y, r.z⟩
/-- `Vec4::r` (vector.hpp 127-129). -/
def r (a : Vec4) : Vec3 := ⟨a.x, a.y, a.z⟩

/-- `dot(Vec4, Vec4)` (vector.hpp 210-212). -/
def dot (a b : Vec4) : ℝ := a.t * b.t - a.x * b.x - a.y * b.y - a.z * b.z

/-- `Vec4::from_length_and_r` (src/vector.cpp 60-72). -/
noncomputable def fromLengthAndR (m : ℝ) (p : Vec3) : Vec4 :=
  let mx := max (max (max |m| |p.x|) |p.y|) |p.z|
  let m_r := m / mx
  let x_r := p.x / mx
  let y_r := p.y / mx
  let z_r := p.z / mx
  let energy := mx * √(m_r * m_r + x_r * x_r + y_r * y_r + z_r * z_r)
  ofVec3 energy p

/-- `Vec4::from_length_and_t` (src/vector.cpp 74-80). -/
noncomputable def fromLengthAndT (m t : ℝ) (dir : Vec3) : Vec4 :=
  let mx := max |m| |t|
  let m_r := m / mx
  let t_r := t / mx
  let p := mx * √(t_r * t_r - m_r * m_r)
  ofVec3 t (p • dir.unit)

/-- `cross(Vec4, Vec4, Vec4)` (src/vector.cpp 82-92). -/
def cross (a b c : Vec4) : Vec4 :=
  ⟨a.x * b.y * c.z + a.y * b.z * c.x + a.z * b.x * c.y
    - a.x * b.z * c.y - a.y * b.x * c.z - a.z * b.y * c.x,
   a.t * b.z * c.y + a.y * b.t * c.z + a.z * b.y * c.t
    - a.t * b.y * c.z - a.y * b.z * c.t - a.z * b.t * c.y,
   a.t * b.x * c.z + a.x * b.z * c.t + a.z * b.t * c.x
    - a.t * b.z * c.x - a.x * b.t * c.z - a.z * b.x * c.t,
   a.t * b.y * c.x + a.x * b.t * c.y + a.y * b.x * c.t
    - a.t * b.x * c.y - a.x * b.y * c.t - a.y * b.t * c.x⟩

/-- `Vec4::norm_sq` (src/vector.cpp 94-96). -/
def normSq (a : Vec4) : ℝ := a.dot a

open Classical in
/-- `Vec4::norm` (src/vector.cpp 98-110). -/
noncomputable def norm (a : Vec4) : ℝ :=
  let m := max (max (max |a.t| |a.x|) |a.y|) |a.z|
  if m = 0 then 0
  else
    let t_r := a.t / m
    let x_r := a.x / m
    let y_r := a.y / m
    let z_r := a.z / m
    m * √|t_r * t_r - (x_r * x_r + y_r * y_r + z_r * z_r)|

open Classical in
/-- `Vec4::unit` (src/vector.cpp 112-119). -/
noncomputable def unit (a : Vec4) : Vec4 := if a.norm = 0 then zero else a / a.norm

open Classical in
/-- `Vec4::sign` (src/vector.cpp 121-124). -/
noncomputable def sign (a : Vec4) : ℤ :=
  (if 0 < a.normSq then 1 else 0) - (if a.normSq < 0 then 1 else 0)

open Classical in
/-- `Vec4::par` (src/vector.cpp 126-133). -/
noncomputable def par (a v : Vec4) : Vec4 :=
  if v.normSq = 0 then a else (a.dot v • v) / v.normSq

/-- `Vec4::perp` (src/vector.cpp 135-137). -/
noncomputable def perp (a v : Vec4) : Vec4 := a - a.par v

end Vec4
end Sidis
