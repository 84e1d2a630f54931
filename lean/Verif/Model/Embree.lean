/- Model of the Embree back-end: `blazert/embree/scene.h` and `blazert/embree/primitives/*.h`, in the case `T = float` (for other
types every function delegates to `BlazertScene`).  Embree itself is not part of /repo; what is assumed about it is in `Rtc`,
`RtcTrace` and `EmbScene.Intersect1` below. -/
import Verif.Model.Cylinder

set_option autoImplicit false

namespace Blazert
open Scalar

/-- Embree's `RTCRay`, the members used -/
structure RtcRay (T : Type) where
  org : Vec3 T
  dir : Vec3 T
  tnear : T
  tfar : T

/-- Embree's `RTCHit` -/
structure RtcHit (T : Type) where
  ng : Vec3 T
  u : T
  v : T
  primID : Nat
  geomID : Nat
  instID : Nat

/-- Embree's `RTCRayHit` -/
structure RtcRayHit (T : Type) where
  ray : RtcRay T
  hit : RtcHit T

/-- `EmbreeSphere` (`blazert/embree/primitives/EmbreeSphere.h:21-54`).  The center is a reference into the caller's container in
C++; here it is a value. -/
structure EmbSphere (T : Type) where
  center : Vec3 T
  radius : T
  geomID : Nat

/-- `EmbreePlane` (`blazert/embree/primitives/EmbreePlane.h:22-76`) -/
structure EmbPlane (T : Type) where
  center : Vec3 T
  d1 : T
  d2 : T
  rot : Mat3 T
  geomID : Nat

/-- `EmbreeCylinder` (`blazert/embree/primitives/EmbreeCylinder.h:22-54`) -/
structure EmbCyl (T : Type) where
  center : Vec3 T
  a : T
  b : T
  height : T
  rot : Mat3 T
  geomID : Nat

section
variable {T : Type} [Scalar T]

/-- `setRayHit` (`blazert/embree/primitives/EmbreeGeometryObject.h:37-48`); `u` and `v` are 0 in every call. -/
def RtcRayHit.set (rh : RtcRayHit T) (ng : Vec3 T) (primID geomID instID : Nat) (tfar : T) : RtcRayHit T where
  ray := { rh.ray with tfar := tfar }
  hit := ⟨ng, nat 0, nat 0, primID, geomID, instID⟩

/-! ### spheres -/

/-- `sphereBoundsFunc` (`blazert/embree/primitives/EmbreeSphere.h:63-74`) -/
def EmbSphere.bounds (s : EmbSphere T) : Vec3 T × Vec3 T :=
  (⟨s.center.x - s.radius, s.center.y - s.radius, s.center.z - s.radius⟩,
   ⟨s.center.x + s.radius, s.center.y + s.radius, s.center.z + s.radius⟩)

/-- `sphereIntersectFunc` (`blazert/embree/primitives/EmbreeSphere.h:83-134`) for a valid ray; `instID` comes from Embree's
context, and there is one primitive, with `primID` 0. -/
def EmbSphere.intersect (s : EmbSphere T) (instID : Nat) (rh : RtcRayHit T) : RtcRayHit T :=
  let org := rh.ray.org
  let dir := rh.ray.dir
  let v := org - s.center
  let A := Vec3.dot dir dir
  let B := nat 2 * Vec3.dot v dir
  let C := Vec3.dot v v - s.radius * s.radius
  let D := B * B - nat 4 * A * C
  if lt D (nat 0) then rh
  else
    let Q := sqrt D
    let rcpA := nat 1 / A
    let t0 := ofRat (1/2) * rcpA * (-B - Q)
    let t1 := ofRat (1/2) * rcpA * (-B + Q)
    let rh :=
      if gt t0 rh.ray.tnear && lt t0 rh.ray.tfar then
        rh.set (Vec3.normalize (org + Vec3.smul t0 dir - s.center)) 0 s.geomID instID (Vec3.norm (Vec3.smul t0 dir))
      else rh
    if gt t1 rh.ray.tnear && lt t1 rh.ray.tfar then
      rh.set (Vec3.normalize (org + Vec3.smul t1 dir - s.center)) 0 s.geomID instID (Vec3.norm (Vec3.smul t1 dir))
    else rh

/-- `-std::numeric_limits<float>().infinity()`, given plus infinity, which `Scalar` does not have -/
def RtcRay.block (inf : T) (ray : RtcRay T) : RtcRay T := { ray with tfar := -inf }

/-- `sphereOccludedFunc` (`blazert/embree/primitives/EmbreeSphere.h:142-188`) for a valid ray; `inf` is plus infinity.  The lower
limit is compared with `t0` in both conditions (lines 181 and 185). -/
def EmbSphere.occluded (inf : T) (s : EmbSphere T) (ray : RtcRay T) : RtcRay T :=
  let org := ray.org
  let dir := ray.dir
  let v := org - s.center
  let A := Vec3.dot dir dir
  let B := nat 2 * Vec3.dot v dir
  let C := Vec3.dot v v - s.radius * s.radius
  let D := B * B - nat 4 * A * C
  if lt D (nat 0) then ray
  else
    let Q := sqrt D
    let rcpA := nat 1 / A
    let t0 := ofRat (1/2) * rcpA * (-B - Q)
    let t1 := ofRat (1/2) * rcpA * (-B + Q)
    let ray := if lt ray.tnear t0 && lt t0 ray.tfar then ray.block inf else ray
    if lt ray.tnear t0 && lt t1 ray.tfar then ray.block inf else ray

/-- `EmbreeSphere::distance_to_surface` (`blazert/embree/primitives/EmbreeSphere.h:30-33`) -/
def EmbSphere.distance (s : EmbSphere T) (point : Vec3 T) : T := abs (Vec3.norm (s.center - point) - s.radius)

/-! ### planes -/

/-- `planeBoundsFunc` (`blazert/embree/primitives/EmbreePlane.h:85-119`); `thickness` is `numeric_limits<float>::min()` (line 29) -/
def EmbPlane.bounds (p : EmbPlane T) : Vec3 T × Vec3 T :=
  let a1t : Vec3 T := ⟨-p.d1 / nat 2, -p.d2 / nat 2, nat 0⟩
  let a2t : Vec3 T := ⟨p.d1 / nat 2, -p.d2 / nat 2, nat 0⟩
  let a3t : Vec3 T := ⟨-p.d1 / nat 2, p.d2 / nat 2, nat 0⟩
  let a4t : Vec3 T := ⟨p.d1 / nat 2, p.d2 / nat 2, nat 0⟩
  let c1t : Vec3 T := ⟨nat 0, nat 0, -tiny⟩
  let c2t : Vec3 T := ⟨nat 0, nat 0, tiny⟩
  let a1 := p.center + p.rot.mulVec a1t
  let a2 := p.center + p.rot.mulVec a2t
  let a3 := p.center + p.rot.mulVec a3t
  let a4 := p.center + p.rot.mulVec a4t
  let c1 := p.center + p.rot.mulVec c1t
  let c2 := p.center + p.rot.mulVec c2t
  (minOfV a1 [a2, a3, a4, c1, c2], maxOfV a1 [a2, a3, a4, c1, c2])

/-- `setRayHit(rayhit, Ng / norm(Ng), ...)` with `Ng = rot * n` (e.g. `blazert/embree/primitives/EmbreePlane.h:178-179`) -/
def EmbPlane.setEdge (p : EmbPlane T) (instID : Nat) (rh : RtcRayHit T) (n : Vec3 T) (tfar : T) : RtcRayHit T :=
  let ng := p.rot.mulVec n
  rh.set (Vec3.divs ng (Vec3.norm ng)) 0 p.geomID instID tfar

/-- `planeIntersectFunc` (`blazert/embree/primitives/EmbreePlane.h:128-212`) for a valid ray -/
def EmbPlane.intersect (p : EmbPlane T) (instID : Nat) (rh : RtcRayHit T) : RtcRayHit T :=
  let inv := p.rot.trans
  let org := inv.mulVec (rh.ray.org - p.center)
  let dir := inv.mulVec rh.ray.dir
  let t1 := -org.z / dir.z
  let q := org + Vec3.smul t1 dir
  let tnear := rh.ray.tnear
  let tfar := rh.ray.tfar
  let xmin := -p.d1 / nat 2
  let xmax := p.d1 / nat 2
  let ymin := -p.d2 / nat 2
  let ymax := p.d2 / nat 2
  let s := org.z / abs org.z
  let d := Vec3.norm (Vec3.smul t1 dir)
  if gt t1 tnear && lt t1 tfar && gt q.x xmin && lt q.x xmax && gt q.y ymin && lt q.y ymax then
    rh.set (Vec3.smul s (p.rot.mulVec ⟨nat 0, nat 0, nat 1⟩)) 0 p.geomID instID d
  else if gt t1 tnear && lt t1 tfar && eq q.x xmin && lt q.x xmax && gt q.y ymin && lt q.y ymax then
    p.setEdge instID rh ⟨-nat 1, nat 0, s⟩ d
  else if gt t1 tnear && lt t1 tfar && gt q.x xmin && eq q.x xmax && gt q.y ymin && lt q.y ymax then
    p.setEdge instID rh ⟨nat 1, nat 0, s⟩ d
  else if gt t1 tnear && lt t1 tfar && gt q.x xmin && lt q.x xmax && eq q.y ymin && lt q.y ymax then
    p.setEdge instID rh ⟨nat 0, -nat 1, s⟩ d
  else if gt t1 tnear && lt t1 tfar && gt q.x xmin && lt q.x xmax && gt q.y ymin && eq q.y ymax then
    p.setEdge instID rh ⟨nat 0, nat 1, s⟩ d
  else if gt t1 tnear && lt t1 tfar && eq q.x xmin && lt q.x xmax && eq q.y ymin && lt q.y ymax then
    p.setEdge instID rh ⟨-nat 1, -nat 1, s⟩ d
  else if gt t1 tnear && lt t1 tfar && eq q.x xmin && lt q.x xmax && gt q.y ymin && eq q.y ymax then
    p.setEdge instID rh ⟨-nat 1, nat 1, s⟩ d
  else if gt t1 tnear && lt t1 tfar && gt q.x xmin && eq q.x xmax && eq q.y ymin && lt q.y ymax then
    p.setEdge instID rh ⟨nat 1, -nat 1, s⟩ d
  else if gt t1 tnear && lt t1 tfar && gt q.x xmin && eq q.x xmax && gt q.y ymin && eq q.y ymax then
    p.setEdge instID rh ⟨nat 1, nat 1, s⟩ d
  else rh

/-- `planeOccludedFunc` (`blazert/embree/primitives/EmbreePlane.h:220-264`) for a valid ray -/
def EmbPlane.occluded (inf : T) (p : EmbPlane T) (ray : RtcRay T) : RtcRay T :=
  let rot := p.rot.trans
  let org := rot.mulVec (ray.org - p.center)
  let dir := rot.mulVec ray.dir
  let t1 := -org.z / dir.z
  let q := org + Vec3.smul t1 dir
  let xmin := -p.d1 / nat 2
  let xmax := p.d1 / nat 2
  let ymin := -p.d2 / nat 2
  let ymax := p.d2 / nat 2
  if gt t1 ray.tnear && lt t1 ray.tfar && ge q.x xmin && le q.x xmax && ge q.y ymin && le q.y ymax then ray.block inf else ray

/-- `EmbreePlane::distance_to_surface` (`blazert/embree/primitives/EmbreePlane.h:36`) -/
def EmbPlane.distance (_p : EmbPlane T) (_point : Vec3 T) : T := nat 0

/-! ### cylinders -/

/-- `cylinderBoundsFunc` (`blazert/embree/primitives/EmbreeCylinder.h:56-96`) -/
def EmbCyl.bounds (c : EmbCyl T) : Vec3 T × Vec3 T :=
  let a1t : Vec3 T := ⟨c.a, nat 0, nat 0⟩
  let b1t : Vec3 T := ⟨nat 0, c.b, nat 0⟩
  let h1t : Vec3 T := ⟨nat 0, nat 0, c.height / nat 2⟩
  let a1 := c.center + c.rot.mulVec a1t
  let b1 := c.center + c.rot.mulVec b1t
  let h1 := c.center + c.rot.mulVec h1t
  let a2 := c.center - c.rot.mulVec a1t
  let b2 := c.center - c.rot.mulVec b1t
  let h2 := c.center - c.rot.mulVec h1t
  (minOfV a1 [b1, a2, b2, h1, h2], maxOfV a1 [b1, a2, b2, h1, h2])

/-- `setRayHit(rayhit, rot * normal / norm(normal), ..., norm(t * dir))` (e.g. `blazert/embree/primitives/EmbreeCylinder.h:164-167`) -/
def EmbCyl.setAt (c : EmbCyl T) (instID : Nat) (rh : RtcRayHit T) (n : Vec3 T) (t : T) (dir : Vec3 T) : RtcRayHit T :=
  rh.set (Vec3.divs (c.rot.mulVec n) (Vec3.norm n)) 0 c.geomID instID (Vec3.norm (Vec3.smul t dir))

/-- The lateral test from outside (`blazert/embree/primitives/EmbreeCylinder.h:170-195, 215-238, 243-266`).  The three copies differ
in the case `t0 < t1`: `zlow` is the lower bound for `z` there (`-h/2`, and `-h/20` in the last one, line 261), and `swap` says
whether `t1` is recorded there instead of `t0` (the second one, line 237). -/
def EmbCyl.lateral (c : EmbCyl T) (instID : Nat) (zlow : T) (swap : Bool) (org dir : Vec3 T) (rh : RtcRayHit T) : RtcRayHit T :=
  let a := c.a; let b := c.b; let h := c.height
  let (A, B, C) := cylABC a b org dir
  if lt C (nat 0) then rh
  else
    let t0 := cylT0 a b A B C
    let t1 := cylT1 a b A B C
    let p0 := org + Vec3.muls dir t0
    let p1 := org + Vec3.muls dir t1
    let rh := if gt t1 (nat 0) && lt t1 t0 && le p1.z (h / nat 2) && ge p1.z (-h / nat 2) then
        c.setAt instID rh (cylNormal a b p1) t1 dir else rh
    if gt t0 (nat 0) && lt t0 t1 && le p0.z (h / nat 2) && ge p0.z zlow then
      c.setAt instID rh (cylNormal a b p0) (if swap then t1 else t0) dir
    else rh

/-- area 1 and area 2 (`blazert/embree/primitives/EmbreeCylinder.h:154-196` and `199-239`): `cap` is `h/2` or `-h/2`, `nz` the z-component
of the normal -/
def EmbCyl.aboveBelow (c : EmbCyl T) (instID : Nat) (cap nz : T) (swap : Bool) (org dir : Vec3 T) (rh : RtcRayHit T) : RtcRayHit T :=
  let a := c.a; let b := c.b
  if eq dir.z (nat 0) then rh
  else
    let t0 := (cap - org.z) / dir.z
    if lt t0 (nat 0) then rh
    else
      let p := org + Vec3.smul t0 dir
      if le (b * b * p.x * p.x + a * a * p.y * p.y) (a * a * b * b) then c.setAt instID rh ⟨nat 0, nat 0, nz⟩ t0 dir
      else c.lateral instID (-c.height / nat 2) swap org dir rh

/-- leaving through the bottom or the top (`blazert/embree/primitives/EmbreeCylinder.h:310-327, 360-377`) -/
def EmbCyl.caps (c : EmbCyl T) (instID : Nat) (org dir : Vec3 T) (rh : RtcRayHit T) : RtcRayHit T :=
  let h := c.height
  let rh := if lt dir.z (nat 0) then c.setAt instID rh ⟨nat 0, nat 0, -nat 1⟩ ((-h / nat 2 - org.z) / dir.z) dir else rh
  if gt dir.z (nat 0) then c.setAt instID rh ⟨nat 0, nat 0, nat 1⟩ ((h / nat 2 - org.z) / dir.z) dir else rh

/-- area 4 (`blazert/embree/primitives/EmbreeCylinder.h:269-379`) -/
def EmbCyl.inside (c : EmbCyl T) (instID : Nat) (org dir : Vec3 T) (rh : RtcRayHit T) : RtcRayHit T :=
  let a := c.a; let b := c.b; let h := c.height
  let x0 := org.x; let y0 := org.y; let z0 := org.z
  let j := dir.x; let k := dir.y; let l := dir.z
  if eq l (nat 0) then
    if eq z0 (-h / nat 2) || eq z0 (h / nat 2) then rh
    else
      let (A, B, C) := cylABC a b org dir
      if lt C (nat 0) then rh
      else
        let t0 := cylT0 a b A B C
        let t1 := cylT1 a b A B C
        let p0 := org + Vec3.muls dir t0
        let p1 := org + Vec3.muls dir t1
        let rh := if gt t1 (nat 0) && le p1.z (h / nat 2) && ge p1.z (-h / nat 2) then
            c.setAt instID rh (cylNormal a b p1) t1 dir else rh
        if gt t0 (nat 0) && le p0.z (h / nat 2) && ge p0.z (-h / nat 2) then c.setAt instID rh (cylNormal a b p0) t0 dir else rh
  else if eq j (nat 0) && eq k (nat 0) then
    if eq (b * b * x0 * x0 + a * a * y0 * y0) (a * a * b * b) then rh
    else c.caps instID org dir rh
  else
    let (A, B, C) := cylABC a b org dir
    if lt C (nat 0) then rh
    else
      let t0 := cylT0 a b A B C
      let t1 := cylT1 a b A B C
      let p0 := org + Vec3.muls dir t0
      let p1 := org + Vec3.muls dir t1
      if gt t1 (nat 0) && le p1.z (h / nat 2) && ge p1.z (-h / nat 2) then c.setAt instID rh (cylNormal a b p1) t1 dir
      else if gt t0 (nat 0) && le p0.z (h / nat 2) && ge p0.z (-h / nat 2) then c.setAt instID rh (cylNormal a b p0) t0 dir
      else c.caps instID org dir rh

/-- `cylinderIntersectFunc` (`blazert/embree/primitives/EmbreeCylinder.h:98-380`) for a valid ray.  The limits `tnear`, `tfar` are not
read.  Area 4 (line 269) is tested after each of the other three in C++; after area 1 and 2 the model leaves this out, as `z0 <= h/2`
is never true together with `z0 > h/2`, nor `z0 >= -h/2` with `z0 < -h/2`. -/
def EmbCyl.intersect (c : EmbCyl T) (instID : Nat) (rh : RtcRayHit T) : RtcRayHit T :=
  let a := c.a; let b := c.b; let h := c.height
  let inv := c.rot.trans
  let org := inv.mulVec (rh.ray.org - c.center)
  let dir := inv.mulVec rh.ray.dir
  let x0 := org.x; let y0 := org.y; let z0 := org.z
  if gt z0 (h / nat 2) then c.aboveBelow instID (h / nat 2) (nat 1) false org dir rh
  else if lt z0 (-h / nat 2) then c.aboveBelow instID (-h / nat 2) (-nat 1) true org dir rh
  else
    let rh :=
      if gt z0 (-h / nat 2) && lt z0 (h / nat 2) && gt (x0 * x0 * b * b + y0 * y0 * a * a) (a * a * b * b) then
        c.lateral instID (-h / nat 20) false org dir rh
      else rh
    if ge z0 (-h / nat 2) && le z0 (h / nat 2) && le (x0 * x0 * b * b + y0 * y0 * a * a) (a * a * b * b) then
      c.inside instID org dir rh
    else rh

/-- the lateral test of areas 1 and 2 in `cylinderOccludedFunc` (`blazert/embree/primitives/EmbreeCylinder.h:450-469, 485-505`) -/
def EmbCyl.lateralOccluded (c : EmbCyl T) (org dir : Vec3 T) : Bool :=
  let a := c.a; let b := c.b; let h := c.height
  let (A, B, C) := cylABC a b org dir
  if lt C (nat 0) then false
  else
    let t0 := cylT0 a b A B C
    let t1 := cylT1 a b A B C
    let p0 := org + Vec3.muls dir t0
    let p1 := org + Vec3.muls dir t1
    (gt t1 (nat 0) && lt t1 t0 && le p1.z (h / nat 2) && ge p1.z (-h / nat 2)) ||
    (gt t0 (nat 0) && lt t0 t1 && le p0.z (h / nat 2) && ge p0.z (-h / nat 2))

/-- areas 1 and 2 in `cylinderOccludedFunc` (`blazert/embree/primitives/EmbreeCylinder.h:437-470` and `472-506`) -/
def EmbCyl.aboveBelowOccluded (c : EmbCyl T) (cap : T) (org dir : Vec3 T) : Bool :=
  let a := c.a; let b := c.b
  if eq dir.z (nat 0) then false
  else
    let t0 := (cap - org.z) / dir.z
    if lt t0 (nat 0) then false
    else
      let p := org + Vec3.smul t0 dir
      if le (b * b * p.x * p.x + a * a * p.y * p.y) (a * a * b * b) then true else c.lateralOccluded org dir

/-- area 3 in `cylinderOccludedFunc` (`blazert/embree/primitives/EmbreeCylinder.h:509-524`): the heights of the intercepts are not
examined -/
def EmbCyl.sideOccluded (c : EmbCyl T) (org dir : Vec3 T) : Bool :=
  let (A, B, C) := cylABC c.a c.b org dir
  if lt C (nat 0) then false
  else !(lt (cylT0 c.a c.b A B C) (nat 0) && lt (cylT1 c.a c.b A B C) (nat 0))

/-- area 4 in `cylinderOccludedFunc` (`blazert/embree/primitives/EmbreeCylinder.h:525-548`) -/
def EmbCyl.insideOccluded (c : EmbCyl T) (org dir : Vec3 T) : Bool :=
  let h := c.height
  if (eq org.z (-h / nat 2) && lt dir.z (nat 0)) || (eq org.z (h / nat 2) && gt dir.z (nat 0)) then false
  else
    let (A, B, C) := cylABC c.a c.b org dir
    if lt C (nat 0) then false
    else !(le (cylT0 c.a c.b A B C) (nat 0) && le (cylT1 c.a c.b A B C) (nat 0))

/-- whether `cylinderOccludedFunc` (`blazert/embree/primitives/EmbreeCylinder.h:382-549`) sets `tfar`; the limits `tnear`, `tfar` are not
read -/
def EmbCyl.isOccluded (c : EmbCyl T) (rayOrg rayDir : Vec3 T) : Bool :=
  let a := c.a; let b := c.b; let h := c.height
  let inv := c.rot.trans
  let org := inv.mulVec (rayOrg - c.center)
  let dir := inv.mulVec rayDir
  let x0 := org.x; let y0 := org.y; let z0 := org.z
  if gt z0 (h / nat 2) then c.aboveBelowOccluded (h / nat 2) org dir
  else if lt z0 (-h / nat 2) then c.aboveBelowOccluded (-h / nat 2) org dir
  else
    (gt z0 (-h / nat 2) && lt z0 (h / nat 2) && gt (x0 * x0 * b * b + y0 * y0 * a * a) (a * a * b * b) && c.sideOccluded org dir) ||
    (ge z0 (-h / nat 2) && le z0 (h / nat 2) && le (x0 * x0 * b * b + y0 * y0 * a * a) (a * a * b * b) && c.insideOccluded org dir)

/-- `cylinderOccludedFunc` (`blazert/embree/primitives/EmbreeCylinder.h:382-549`) for a valid ray -/
def EmbCyl.occluded (inf : T) (c : EmbCyl T) (ray : RtcRay T) : RtcRay T :=
  if c.isOccluded ray.org ray.dir then ray.block inf else ray

/-! ### the scene -/

/-- an object with callbacks, by its class -/
inductive UserGeom (T : Type) where
  | sphere (s : EmbSphere T)
  | plane (p : EmbPlane T)
  | cylinder (c : EmbCyl T)

/-- the callbacks registered in the constructors (`EmbreeSphere.h:45-48`, `EmbreePlane.h:67-70`, `EmbreeCylinder.h:45-48`) -/
def UserGeom.bounds : UserGeom T → Vec3 T × Vec3 T
  | .sphere s => s.bounds
  | .plane p => p.bounds
  | .cylinder c => c.bounds

@[inherit_doc UserGeom.bounds]
def UserGeom.intersect (instID : Nat) : UserGeom T → RtcRayHit T → RtcRayHit T
  | .sphere s => s.intersect instID
  | .plane p => p.intersect instID
  | .cylinder c => c.intersect instID

@[inherit_doc UserGeom.bounds]
def UserGeom.occluded (inf : T) : UserGeom T → RtcRay T → RtcRay T
  | .sphere s => s.occluded inf
  | .plane p => p.occluded inf
  | .cylinder c => c.occluded inf

end

/-- a geometry attached to an Embree scene: one with user callbacks, which get the address of the object (`geometryUserPtr`), or a
triangle mesh -/
inductive RtcGeom (T : Type) where
  | user (address : Nat)
  | mesh (vertices : List (Vec3 T)) (faces : List (Vec3 Nat))

/-- `EmbreeScene<float>` (`blazert/embree/scene.h:33-89`) together with the memory of the `unique_ptr`s and the state of `rtcscene` -/
structure EmbScene (T : Type) where
  /-- the objects by address; `none` once they are deleted -/
  heap : List (Option (UserGeom T))
  /-- the geometries attached to `rtcscene`; the position is the id -/
  attached : List (RtcGeom T)
  /-- the pointers `sphere`, `plane`, `cylinder` -/
  sphere : Option Nat
  plane : Option Nat
  cylinder : Option Nat
  /-- `has_been_committed` -/
  committed : Bool
  /-- how many geometries were attached, and their bounds, when `rtcCommitScene` was called last -/
  known : Option (List (Option (Vec3 T × Vec3 T)))

section
variable {T : Type} [Scalar T]

/-- the constructor (`blazert/embree/scene.h:49-58`) -/
def EmbScene.init : EmbScene T := ⟨[], [], none, none, none, false, none⟩

/-- `delete` on the old object of a `unique_ptr`, if any -/
def freeOld (heap : List (Option (UserGeom T))) : Option Nat → List (Option (UserGeom T))
  | none => heap
  | some a => heap.set a none

/-- How `Vec3r<float>` and `Vec3ui` are laid out: the number of 4-byte words, of which the first three are the components and the
others padding (Blaze sets it to zero).  With Embree `blazert/datatypes.h:13-24` selects padded types, so that the number is 4 with
SSE, 8 with AVX and 16 with AVX-512. -/
structure Layout where
  words : Nat
  three_le : 3 ≤ words

/-- `bytestride_int`, `bytestride_float` (`blazert/embree/scene.h:165-166`) -/
def Layout.byteStride (l : Layout) : Nat := l.words * 4 / 8 * 4

/-- a vector of vectors in memory, by words -/
def Layout.memory {A : Type} (l : Layout) (pad : A) (vs : List (Vec3 A)) : List A :=
  vs.flatMap fun v => [v.x, v.y, v.z] ++ List.replicate (l.words - 3) pad

/-- the vector Embree reads at byte `stride * i` of a shared buffer -/
def readShared {A : Type} (memory : List A) (stride i : Nat) : Run (Vec3 A) := do
  let x ← lookup .oobIndex memory (stride * i / 4)
  let y ← lookup .oobIndex memory (stride * i / 4 + 1)
  let z ← lookup .oobIndex memory (stride * i / 4 + 2)
  return ⟨x, y, z⟩

/-- what Embree finds in the shared buffer for `vs` -/
def Layout.seen {A : Type} (l : Layout) (pad : A) (vs : List (Vec3 A)) : Run (List (Vec3 A)) :=
  (List.range vs.length).mapM (readShared (l.memory pad vs) l.byteStride)

/-- `add_mesh` (`blazert/embree/scene.h:159-180`): returns the id.  Neither an earlier mesh nor an earlier commit is looked at. -/
def EmbScene.addMesh (l : Layout) (s : EmbScene T) (vertices : List (Vec3 T)) (faces : List (Vec3 Nat)) : Run (EmbScene T × Nat) := do
  let v ← l.seen (nat 0) vertices
  let f ← l.seen 0 faces
  return ({ s with attached := s.attached ++ [.mesh v f] }, s.attached.length)

/-- `add_spheres` (`blazert/embree/scene.h:200-220`): only the first sphere is used; the object of an earlier call is deleted when
the `unique_ptr` is assigned, but it stays attached. -/
def EmbScene.addSpheres (s : EmbScene T) (centers : List (Vec3 T)) (radii : List T) : Run (EmbScene T × Nat) := do
  let c ← lookup .oobIndex centers 0
  let r ← lookup .oobIndex radii 0
  let id := s.attached.length
  return ({ s with
    heap := freeOld (s.heap ++ [some (.sphere ⟨c, r, id⟩)]) s.sphere, attached := s.attached ++ [.user s.heap.length],
    sphere := some s.heap.length }, id)

/-- `add_planes` (`blazert/embree/scene.h:244-267`) -/
def EmbScene.addPlanes (s : EmbScene T) (centers : List (Vec3 T)) (dxs dys : List T) (rotations : List (Mat3 T)) :
    Run (EmbScene T × Nat) := do
  let c ← lookup .oobIndex centers 0
  let dx ← lookup .oobIndex dxs 0
  let dy ← lookup .oobIndex dys 0
  let r ← lookup .oobIndex rotations 0
  let id := s.attached.length
  return ({ s with
    heap := freeOld (s.heap ++ [some (.plane ⟨c, dx, dy, r, id⟩)]) s.plane, attached := s.attached ++ [.user s.heap.length],
    plane := some s.heap.length }, id)

/-- `add_cylinders` (`blazert/embree/scene.h:292-316`) -/
def EmbScene.addCylinders (s : EmbScene T) (centers : List (Vec3 T)) (as bs heights : List T) (rotations : List (Mat3 T)) :
    Run (EmbScene T × Nat) := do
  let c ← lookup .oobIndex centers 0
  let a ← lookup .oobIndex as 0
  let b ← lookup .oobIndex bs 0
  let h ← lookup .oobIndex heights 0
  let r ← lookup .oobIndex rotations 0
  let id := s.attached.length
  return ({ s with
    heap := freeOld (s.heap ++ [some (.cylinder ⟨c, a, b, h, r, id⟩)]) s.cylinder, attached := s.attached ++ [.user s.heap.length],
    cylinder := some s.heap.length }, id)

/-- the object behind a user pointer; undefined behaviour if it was deleted -/
def EmbScene.deref (s : EmbScene T) (address : Nat) : Run (UserGeom T) :=
  match s.heap[address]? with
  | some (some g) => .ok g
  | _ => .error .dangling

/-- `rtcCommitScene` calls the bounds function of every attached user geometry -/
def EmbScene.rtcBounds (s : EmbScene T) : RtcGeom T → Run (Option (Vec3 T × Vec3 T))
  | .user p => do let g ← s.deref p; return some g.bounds
  | .mesh _ _ => .ok none

/-- `commit` (`blazert/embree/scene.h:77-88`) -/
def EmbScene.commit (s : EmbScene T) : Run (EmbScene T) :=
  if s.committed then .ok s
  else do
    let bounds ← s.attached.mapM s.rtcBounds
    return { s with committed := true, known := some bounds }

/-- What is left open about Embree: how it intersects a triangle mesh with a given id, and for which bounds and rays it does not call
the intersection callback. -/
structure Rtc (T : Type) where
  tri : List (Vec3 T) → List (Vec3 Nat) → Nat → RtcRayHit T → RtcRayHit T
  miss : Vec3 T × Vec3 T → RtcRay T → Prop

/-- the processing of the attached geometry number `id`: the callback for user geometries -/
def EmbScene.process (rtc : Rtc T) (s : EmbScene T) (id : Nat) (rh : RtcRayHit T) : Run (RtcRayHit T) := do
  let g ← lookup .oobIndex s.attached id
  match g with
  | .user p => do let g ← s.deref p; return g.intersect invalidId rh
  | .mesh v f => return rtc.tri v f id rh

/-- whether geometry number `id` may be skipped for the ray in its present state -/
def EmbScene.MaySkip (rtc : Rtc T) (bounds : List (Option (Vec3 T × Vec3 T))) (id : Nat) (ray : RtcRay T) : Prop :=
  ∃ b, bounds[id]? = some (some b) ∧ rtc.miss b ray

/-- Embree processes geometries one after the other, and may skip some. -/
inductive RtcTrace (process : Nat → RtcRayHit T → Run (RtcRayHit T)) (maySkip : Nat → RtcRay T → Prop) :
    List Nat → RtcRayHit T → Run (RtcRayHit T) → Prop where
  | done (rh : RtcRayHit T) : RtcTrace process maySkip [] rh (.ok rh)
  | call {i : Nat} {is : List Nat} {rh rh' : RtcRayHit T} {r : Run (RtcRayHit T)} (h : process i rh = .ok rh')
      (rest : RtcTrace process maySkip is rh' r) : RtcTrace process maySkip (i :: is) rh r
  | fail {i : Nat} {is : List Nat} {rh : RtcRayHit T} {e : UB} (h : process i rh = .error e) :
      RtcTrace process maySkip (i :: is) rh (.error e)
  | skip {i : Nat} {is : List Nat} {rh : RtcRayHit T} {r : Run (RtcRayHit T)} (h : maySkip i rh.ray)
      (rest : RtcTrace process maySkip is rh r) : RtcTrace process maySkip (i :: is) rh r

/-- the `RTCRayHit` passed to Embree (`blazert/embree/scene.h:112-127`) -/
def Ray.toRtc (ray : Ray T) : RtcRayHit T where
  ray := ⟨ray.origin, ray.direction, ray.minHit, ray.maxHit⟩
  hit := ⟨⟨nat 0, nat 0, nat 0⟩, nat 0, nat 0, 0, invalidId, invalidId⟩

/-- what is copied back (`blazert/embree/scene.h:131-137`); `geom_id` is not among it -/
def RtcRayHit.copyTo (rh : RtcRayHit T) (rayhit : RayHit T) : Bool × RayHit T :=
  if rh.hit.geomID ≠ invalidId then
    (true, { rayhit with primId := rh.hit.primID, uv := (rh.hit.u, rh.hit.v), hitDistance := rh.ray.tfar, normal := rh.hit.ng })
  else (false, rayhit)

/-- `intersect1` (`blazert/embree/scene.h:102-143`) may end with `r`: `rtcIntersect1` processes every geometry attached once, in any
order, or skips it.  Embree requires that the scene has been committed after the last change. -/
def EmbScene.Intersect1 (rtc : Rtc T) (s : EmbScene T) (ray : Ray T) (rayhit : RayHit T) (r : Run (Bool × RayHit T)) : Prop :=
  match s.known with
  | none => r = .error .notCommitted
  | some bounds =>
    if bounds.length ≠ s.attached.length then r = .error .notCommitted
    else ∃ order r', order.Perm (List.range s.attached.length) ∧
      RtcTrace (s.process rtc) (EmbScene.MaySkip rtc bounds) order ray.toRtc r' ∧ r = r'.map (·.copyTo rayhit)

/-- A call of the scene API. -/
inductive EmbCall (T : Type) where
  | addMesh (vertices : List (Vec3 T)) (faces : List (Vec3 Nat))
  | addSpheres (centers : List (Vec3 T)) (radii : List T)
  | addPlanes (centers : List (Vec3 T)) (dxs dys : List T) (rotations : List (Mat3 T))
  | addCylinders (centers : List (Vec3 T)) (as bs heights : List T) (rotations : List (Mat3 T))
  | commit

/-- execute a call -/
def EmbCall.exec (l : Layout) (s : EmbScene T) : EmbCall T → Run (EmbScene T)
  | .addMesh v f => do let r ← s.addMesh l v f; return r.1
  | .addSpheres c r => do let r ← s.addSpheres c r; return r.1
  | .addPlanes c dx dy r => do let r ← s.addPlanes c dx dy r; return r.1
  | .addCylinders c a b h r => do let r ← s.addCylinders c a b h r; return r.1
  | .commit => s.commit

/-- execute a list of calls -/
def embRun (l : Layout) (s : EmbScene T) (calls : List (EmbCall T)) : Run (EmbScene T) := calls.foldlM (EmbCall.exec l) s

end
end Blazert
