import Verif.Model.Vector

/-!
# Model of `src/quaternion.rs`

Components are `f32` values; `a`, `b`, `c`, `d` are the tuple fields `.0 .. .3`.
-/

namespace Micromath

/-- `Quaternion`: src/quaternion.rs:52. -/
@[ext] structure Quaternion where
  a : F32
  b : F32
  c : F32
  d : F32
deriving DecidableEq

namespace Quaternion
open F32

/-- `IDENTITY`: src/quaternion.rs:56. -/
def IDENTITY : Quaternion := ⟨one, posZero, posZero, posZero⟩

/-- `Default`: src/quaternion.rs:257-261. -/
def default : Quaternion := IDENTITY

/-- `new`: src/quaternion.rs:59-61. -/
def new (a b c d : F32) : Quaternion := ⟨a, b, c, d⟩

variable [Cfg]

omit [Cfg] in
/-- `conj`: src/quaternion.rs:107-109. -/
def conj (q : Quaternion) : Quaternion := ⟨q.a, -q.b, -q.c, -q.d⟩

/-- `dot`: src/quaternion.rs:112-114. -/
def dot (q r : Quaternion) : F32 := q.a * r.a + q.b * r.b + q.c * r.c + q.d * r.d

/-- `norm`: src/quaternion.rs:133-135. -/
def norm (q : Quaternion) : F32 := q.a * q.a + q.b * q.b + q.c * q.c + q.d * q.d

/-- `magnitude`: src/quaternion.rs:126-128. -/
def magnitude (q : Quaternion) : F32 := F32.sqrt q.norm

/-- `scale`: src/quaternion.rs:184-190. -/
def scale (q : Quaternion) (k : F32) : Quaternion := ⟨q.a * k, q.b * k, q.c * k, q.d * k⟩

/-- `Mul<f32> for Quaternion`: src/quaternion.rs:303-305. -/
def mulF32 (q : Quaternion) (k : F32) : Quaternion := q.scale k
/-- `Mul<Quaternion> for f32`: src/quaternion.rs:311-313. -/
def f32Mul (k : F32) (q : Quaternion) : Quaternion := q.scale k
/-- `MulAssign<f32>`: src/quaternion.rs:317-319. -/
def mulAssign (q : Quaternion) (k : F32) : Quaternion := q.mulF32 k

/-- `inv`: src/quaternion.rs:119-123 (`assert_ne!` panics iff the operands compare equal). -/
def inv (q : Quaternion) : Res Quaternion :=
  let norm := q.norm
  if norm.feq posZero then .error .assertFailed
  else .ok (q.conj.scale (F32.inv norm))

/-- `normalize`: src/quaternion.rs:193-199. -/
def normalize (q : Quaternion) : Res Quaternion := do
  let norm := q.norm
  if norm.feq posZero then .error .assertFailed
  else
    let n ← F32.invsqrt norm
    .ok (q.scale n)

/-- `Add`: src/quaternion.rs:241-248. -/
def add (q r : Quaternion) : Quaternion := ⟨q.a + r.a, q.b + r.b, q.c + r.c, q.d + r.d⟩
/-- `AddAssign`: src/quaternion.rs:252-254. -/
def addAssign (q r : Quaternion) : Quaternion := q.add r
/-- `Sub`: src/quaternion.rs:325-332. -/
def sub (q r : Quaternion) : Quaternion := ⟨q.a - r.a, q.b - r.b, q.c - r.c, q.d - r.d⟩

/-- `SubAssign`: src/quaternion.rs:336-338. -/
def subAssign (q r : Quaternion) : Quaternion := q.sub r

/-- `Mul`: src/quaternion.rs:290-297. -/
def mul (q r : Quaternion) : Quaternion :=
  ⟨q.a * r.a - q.b * r.b - q.c * r.c - q.d * r.d,
   q.a * r.b + q.b * r.a + q.c * r.d - q.d * r.c,
   q.a * r.c - q.b * r.d + q.c * r.a + q.d * r.b,
   q.a * r.d + q.b * r.c - q.c * r.b + q.d * r.a⟩

/-- `axis_angle`: src/quaternion.rs:139-153.  The `f32` scalar product of lines 146-150 is
`Vector3d::<f32>::mul` (src/vector/vector3d.rs:263-269), which cannot panic. -/
def axisAngle {C : Type} [IntoF32 C] (v : Vector3d C) (theta : C) : Quaternion :=
  let halfTheta := IntoF32.into theta * lit 5 10
  let s := halfTheta.sin
  ⟨halfTheta.cos, IntoF32.into v.x * s, IntoF32.into v.y * s, IntoF32.into v.z * s⟩

/-- `rotate`: src/quaternion.rs:157-181. -/
def rotate {C : Type} [IntoF32 C] (q : Quaternion) (v : Vector3d C) : Vector3d F32 :=
  let ⟨qw, qx, qy, qz⟩ := q
  let qwsq := qw * qw
  let qxsq := qx * qx
  let qysq := qy * qy
  let qzsq := qz * qz
  let two := lit 2 1
  let vx : F32 := IntoF32.into v.x
  let vy : F32 := IntoF32.into v.y
  let vz : F32 := IntoF32.into v.z
  { x := (qwsq + qxsq - qysq - qzsq) * vx
      + (two * (qx * qy - qw * qz)) * vy
      + (two * (qx * qz + qw * qy)) * vz
    y := (two * (qx * qy + qw * qz)) * vx
      + (qwsq - qxsq + qysq - qzsq) * vy
      + (two * (qy * qz - qw * qx)) * vz
    z := (two * (qx * qz - qw * qy)) * vx
      + (two * (qy * qz + qw * qx)) * vy
      + (qwsq - qxsq - qysq + qzsq) * vz }

/-- `Mul<Vector3d<C>>`: src/quaternion.rs:360-362. -/
def mulVec {C : Type} [IntoF32 C] (q : Quaternion) (v : Vector3d C) : Vector3d F32 := q.rotate v

/-- `to_euler`: src/quaternion.rs:202-210. -/
def toEuler (q : Quaternion) : Res (F32 × F32 × F32) := do
  let two := lit 2 1
  let r := (two * (q.a * q.b + q.c * q.d)).atan2 (one - two * (q.b * q.b + q.c * q.c))
  let p ← (two * (q.a * q.c - q.b * q.d)).asin
  let y := (two * (q.a * q.d + q.b * q.c)).atan2 (one - two * (q.c * q.c + q.d * q.d))
  .ok (r, p, y)

/-- `from_two_vectors`: src/quaternion.rs:65-104. -/
def fromTwoVectors {C : Type} [Component C] [IntoF32 C] (u v : Vector3d C) : Res Quaternion := do
  let uu ← u.dot u
  let vv ← v.dot v
  let nUv := F32.sqrt (IntoF32.into uu * IntoF32.into vv)
  let uv ← u.dot v
  let realpart := nUv + IntoF32.into uv
  let q : Quaternion :=
    if realpart.lt (lit 1 1000000 * nUv) then
      if (IntoF32.into u.x : F32).abs.gt (IntoF32.into u.z : F32).abs then
        ⟨posZero, -IntoF32.into u.y, IntoF32.into u.x, posZero⟩
      else
        ⟨posZero, posZero, -IntoF32.into u.z, IntoF32.into u.y⟩
    else
      let ux : F32 := IntoF32.into u.x
      let uy : F32 := IntoF32.into u.y
      let uz : F32 := IntoF32.into u.z
      let vx : F32 := IntoF32.into v.x
      let vy : F32 := IntoF32.into v.y
      let vz : F32 := IntoF32.into v.z
      -- `F32x3 * F32x3` is the cross product, src/vector/vector3d.rs:70-76
      ⟨realpart, uy * vz - uz * vy, uz * vx - ux * vz, ux * vy - uy * vx⟩
  let n ← F32.invsqrt q.norm
  .ok (q.scale n)

omit [Cfg]

/-- `PartialEq` (derived): src/quaternion.rs:51. -/
def eq (q r : Quaternion) : Bool := q.a.feq r.a && q.b.feq r.b && q.c.feq r.c && q.d.feq r.d

/-- `to_array`: src/quaternion.rs:213-215. -/
def toArray (q : Quaternion) : Fin 4 → F32
  | 0 => q.a
  | 1 => q.b
  | 2 => q.c
  | 3 => q.d
/-- `From<Quaternion> for [f32; 4]`: src/quaternion.rs:282-284. -/
def intoArray (q : Quaternion) : Fin 4 → F32 := q.toArray
/-- `w`: src/quaternion.rs:218-220. -/
def w (q : Quaternion) : F32 := q.a
/-- `x`: src/quaternion.rs:223-225. -/
def x (q : Quaternion) : F32 := q.b
/-- `y`: src/quaternion.rs:228-230. -/
def y (q : Quaternion) : F32 := q.c
/-- `z`: src/quaternion.rs:233-235. -/
def z (q : Quaternion) : F32 := q.d
/-- `From<(f32, f32, f32, f32)>`: src/quaternion.rs:264-266. -/
def ofTuple (t : F32 × F32 × F32 × F32) : Quaternion := new t.1 t.2.1 t.2.2.1 t.2.2.2
/-- `From<Quaternion> for (f32, f32, f32, f32)`: src/quaternion.rs:270-272. -/
def toTuple (q : Quaternion) : F32 × F32 × F32 × F32 := (q.a, q.b, q.c, q.d)
/-- `From<[f32; 4]>`: src/quaternion.rs:276-278. -/
def ofArray (q : Fin 4 → F32) : Quaternion := new (q 0) (q 1) (q 2) (q 3)
/-- `From<Vector3d<C>>`: src/quaternion.rs:347-349. -/
def ofVector3d {C : Type} [IntoF32 C] (v : Vector3d C) : Quaternion :=
  ⟨posZero, IntoF32.into v.x, IntoF32.into v.y, IntoF32.into v.z⟩

end Quaternion
end Micromath
