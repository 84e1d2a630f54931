/- Model of `blazert/primitives/cylinder.h`. -/
import Verif.Model.Plane

set_option autoImplicit false

namespace Blazert
open Scalar

/-- `Cylinder<T>` (`blazert/primitives/cylinder.h:19-40`). -/
structure Cylinder (T : Type) where
  center : Vec3 T
  a : T
  b : T
  height : T
  rotation : Mat3 T
  primId : Nat
  deriving DecidableEq, Repr

/-- `CylinderCollection<T>` (`blazert/primitives/cylinder.h:74-148`). -/
structure CylColl (T : Type) where
  centers : List (Vec3 T)
  as : List T
  bs : List T
  heights : List T
  rotations : List (Mat3 T)
  boxes : List (Vec3 T × Vec3 T)

section
variable {T : Type} [Scalar T]

/-- `pre_compute_bounding_box` (`blazert/primitives/cylinder.h:115-147`). -/
def cylBox (center : Vec3 T) (a b height : T) (rotation : Mat3 T) : Vec3 T × Vec3 T :=
  let a1t : Vec3 T := ⟨a, nat 0, nat 0⟩
  let b1t : Vec3 T := ⟨nat 0, b, nat 0⟩
  let h1t : Vec3 T := ⟨nat 0, nat 0, height / nat 2⟩
  let a1 := center + rotation.mulVec a1t
  let b1 := center + rotation.mulVec b1t
  let h1 := center + rotation.mulVec h1t
  let a2 := center - rotation.mulVec a1t
  let b2 := center - rotation.mulVec b1t
  let h2 := center - rotation.mulVec h1t
  (minOfV a1 [b1, a2, b2, h1, h2], maxOfV a1 [b1, a2, b2, h1, h2])

/-- The `CylinderCollection` constructor (`blazert/primitives/cylinder.h:91-101`). -/
def CylColl.make (centers : List (Vec3 T)) (as bs heights : List T) (rotations : List (Mat3 T)) : Run (CylColl T) := do
  let boxes ← (List.range centers.length).mapM fun i => do
    let c ← lookup .oobIndex centers i
    let a ← lookup .oobIndex as i
    let b ← lookup .oobIndex bs i
    let h ← lookup .oobIndex heights i
    let r ← lookup .oobIndex rotations i
    return cylBox c a b h r
  return { centers, as, bs, heights, rotations, boxes }

/-- `primitive_from_collection` (`blazert/primitives/cylinder.h:42-53`), `size` (103), `get_primitive_bounding_box`
(105-108), `get_primitive_center` (110-112). -/
def CylColl.toCollection (c : CylColl T) : Collection T (Cylinder T) where
  size := c.centers.length
  box := lookup .oobIndex c.boxes
  center := lookup .oobIndex c.centers
  prim i := do
    let center ← lookup .oobIndex c.centers i
    let a ← lookup .oobIndex c.as i
    let b ← lookup .oobIndex c.bs i
    let height ← lookup .oobIndex c.heights i
    let rotation ← lookup .oobIndex c.rotations i
    return { center, a, b, height, rotation, primId := i }

/-- The quantities `A`, `B`, `C` of the quadratic equation for the lateral surface.  The same expressions occur at
`blazert/primitives/cylinder.h:246-248, 300-302, 336-338, 377-379, 440-442`. -/
def cylABC (a b : T) (org dir : Vec3 T) : T × T × T :=
  let x0 := org.x; let y0 := org.y
  let j := dir.x; let k := dir.y
  (a * a * k * k + b * b * j * j,
   a * a * k * y0 + b * b * j * x0,
   a * a * k * k + b * b * j * j - j * j * y0 * y0 + nat 2 * j * k * x0 * y0 - k * k * x0 * x0)

/-- `t0` of the lateral surface (`blazert/primitives/cylinder.h:253, 307, 342, 384, 446`) -/
def cylT0 (a b A B C : T) : T := nat 1 / A * (-B + a * b * sqrt C)
/-- `t1` of the lateral surface (`blazert/primitives/cylinder.h:254, 308, 343, 385, 447`) -/
def cylT1 (a b A B C : T) : T := -nat 1 / A * (B + a * b * sqrt C)

/-- the local lateral normal at an intercept (e.g. `blazert/primitives/cylinder.h:262`) -/
def cylNormal (a b : T) (p : Vec3 T) : Vec3 T := ⟨nat 2 * p.x / (a * a), nat 2 * p.y / (b * b), nat 0⟩

/-- `rotation * normal / norm(normal)` (e.g. `blazert/primitives/cylinder.h:263`) -/
def cylNg (rotation : Mat3 T) (n : Vec3 T) : Vec3 T := Vec3.divs (rotation.mulVec n) (Vec3.norm n)

/-- `intercept[2] <= h/2 && intercept[2] >= -h/2` (e.g. `blazert/primitives/cylinder.h:260-261`) -/
def cylInZ (h z : T) : Bool := le z (h / nat 2) && ge z (-h / nat 2)

/-- The lateral test from outside (`blazert/primitives/cylinder.h:246-277, 300-330, 336-365`): needs `t1 < t0`
respectively `t0 < t1`. -/
def cylLateralOutside (i : PlaneI T) (cy : Cylinder T) (org dir : Vec3 T) : PlaneI T × Bool :=
  let a := cy.a; let b := cy.b; let h := cy.height
  let (A, B, C) := cylABC a b org dir
  if lt C (nat 0) then (i, false)
  else
    let t0 := cylT0 a b A B C
    let t1 := cylT1 a b A B C
    let p0 := org + Vec3.muls dir t0
    let p1 := org + Vec3.muls dir t1
    if gt t1 (nat 0) && lt t1 t0 && cylInZ h p1.z then
      i.record (cylNg cy.rotation (cylNormal a b p1)) t1 dir cy.primId
    else if gt t0 (nat 0) && lt t0 t1 && cylInZ h p0.z then
      i.record (cylNg cy.rotation (cylNormal a b p0)) t0 dir cy.primId
    else (i, false)

/-- area 1 and area 2: origin above the top or below the bottom plane (`blazert/primitives/cylinder.h:228-279` and
`281-332`); `cap` is `h/2` or `-h/2`, `nz` the cap normal's z-component. -/
def cylAboveBelow (i : PlaneI T) (cy : Cylinder T) (org dir : Vec3 T) (cap nz : T) : PlaneI T × Bool :=
  let a := cy.a; let b := cy.b
  if eq dir.z (nat 0) then (i, false)
  else
    let t0 := (cap - org.z) / dir.z
    if lt t0 (nat 0) then (i, false)
    else
      let p := org + Vec3.smul t0 dir
      if le (b * b * p.x * p.x + a * a * p.y * p.y) (a * a * b * b) then
        i.record (cylNg cy.rotation ⟨nat 0, nat 0, nz⟩) t0 dir cy.primId
      else cylLateralOutside i cy org dir

/-- leaving through the bottom (`l < 0`) or the top (`l > 0`) (`blazert/primitives/cylinder.h:415-435, 470-490`) -/
def cylCapsInside (i : PlaneI T) (cy : Cylinder T) (org dir : Vec3 T) : PlaneI T × Bool :=
  let h := cy.height
  if lt dir.z (nat 0) then
    i.record (cylNg cy.rotation ⟨nat 0, nat 0, -nat 1⟩) ((-h / nat 2 - org.z) / dir.z) dir cy.primId
  else if gt dir.z (nat 0) then
    i.record (cylNg cy.rotation ⟨nat 0, nat 0, nat 1⟩) ((h / nat 2 - org.z) / dir.z) dir cy.primId
  else (i, false)

/-- area 4: origin inside or on the cylinder (`blazert/primitives/cylinder.h:368-492`). -/
def cylInside (i : PlaneI T) (cy : Cylinder T) (org dir : Vec3 T) : PlaneI T × Bool :=
  let a := cy.a; let b := cy.b; let h := cy.height
  let x0 := org.x; let y0 := org.y; let z0 := org.z
  let j := dir.x; let k := dir.y; let l := dir.z
  if eq l (nat 0) then
    if eq z0 (-h / nat 2) || eq z0 (h / nat 2) then (i, false)
    else
      let (A, B, C) := cylABC a b org dir
      if lt C (nat 0) then (i, false)
      else
        let t0 := cylT0 a b A B C
        let t1 := cylT1 a b A B C
        let p0 := org + Vec3.muls dir t0
        let p1 := org + Vec3.muls dir t1
        if gt t1 (nat 0) && cylInZ h p1.z then
          i.record (cylNg cy.rotation (cylNormal a b p1)) t1 dir cy.primId
        else if gt t0 (nat 0) && cylInZ h p0.z then
          i.record (cylNg cy.rotation (cylNormal a b p0)) t0 dir cy.primId
        else (i, false)
  else if eq j (nat 0) && eq k (nat 0) then
    if eq (b * b * x0 * x0 + a * a * y0 * y0) (a * a * b * b) then (i, false)
    else cylCapsInside i cy org dir
  else
    let (A, B, C) := cylABC a b org dir
    if lt C (nat 0) then (i, false)
    else
      let t0 := cylT0 a b A B C
      let t1 := cylT1 a b A B C
      let p0 := org + Vec3.muls dir t0
      let p1 := org + Vec3.muls dir t1
      if gt t1 (nat 0) && cylInZ h p1.z then
        i.record (cylNg cy.rotation (cylNormal a b p1)) t1 dir cy.primId
      else if gt t0 (nat 0) && cylInZ h p0.z then
        -- here the C++ code stores the local normal without rotating it (lines 462-463)
        i.record (cylNormal a b p0) t0 dir cy.primId
      else cylCapsInside i cy org dir

/-- `intersect_primitive` (`blazert/primitives/cylinder.h:182-495`).  Note that neither `min_hit_distance` nor
`hit_distance` of the intersector is read. -/
def cylIntersect (i : PlaneI T) (cy : Cylinder T) (_ray : Ray T) : PlaneI T × Bool :=
  let a := cy.a; let b := cy.b; let h := cy.height
  let inv := cy.rotation.trans
  let org := inv.mulVec (i.rayOrg - cy.center)
  let dir := inv.mulVec i.rayDir
  let x0 := org.x; let y0 := org.y; let z0 := org.z
  let area4 : PlaneI T × Bool :=
    if ge z0 (-h / nat 2) && le z0 (h / nat 2) && le (x0 * x0 * b * b + y0 * y0 * a * a) (a * a * b * b) then
      cylInside i cy org dir
    else (i, false)
  if gt z0 (h / nat 2) then
    let r := cylAboveBelow i cy org dir (h / nat 2) (nat 1)
    if r.2 then r else area4
  else if lt z0 (-h / nat 2) then
    let r := cylAboveBelow i cy org dir (-h / nat 2) (-nat 1)
    if r.2 then r else area4
  else if gt z0 (-h / nat 2) && lt z0 (h / nat 2)
      && gt (x0 * x0 * b * b + y0 * y0 * a * a) (a * a * b * b) then
    let r := cylLateralOutside i cy org dir
    if r.2 then r else area4
  else area4

/-- `CylinderIntersector<T>`: `prepare_traversal` (`blazert/primitives/cylinder.h:167-174`), `post_traversal`
(155-160). -/
def cylIx : Intersector T (Cylinder T) (PlaneI T) where
  prepare := planePrepare
  isect := cylIntersect
  hitDistance := PlaneI.hd
  post := planePost

/-! ### Distance to the surface (`blazert/primitives/cylinder.h:497-759`) -/

/-- `ellipse_equation` (`blazert/primitives/cylinder.h:508-512`) -/
def ellipseEquation (a b x y : T) : T := (x * x) / (a * a) + (y * y) / (b * b) - nat 1

/-- the four instantiations of the templates over `HALFSPACE`, `ARGUMENT` (`blazert/primitives/cylinder.h:514-515`) -/
inductive NewtonCase where
  | upperX
  | lowerX
  | upperY
  | lowerY
  deriving DecidableEq, Repr

/-- the local variable `sqrt` (`blazert/primitives/cylinder.h:520, 526, 532, 538, ...`) -/
def newtonSqrt (a val : T) : T :=
  if gt (val * val) (a * a) then sqrt (val * val - a * a) else sqrt (a * a - val * val)

/-- `distance_derivative` (`blazert/primitives/cylinder.h:517-544`) -/
def distanceDerivative (nc : NewtonCase) (a b xq yq val : T) : T :=
  match nc with
  | .upperX =>
    let s := newtonSqrt a val
    (-nat 2) * (xq - val) - nat 2 * b * val * (b / a * s - yq) / (a * s)
  | .lowerX =>
    let s := newtonSqrt a val
    (-nat 2) * (xq - val) - nat 2 * b * val * (b / a * s + yq) / (a * s)
  | .upperY =>
    let s := newtonSqrt b val
    (-nat 2) * (yq - val) - nat 2 * a * val * (a / b * s + xq) / (b * s)
  | .lowerY =>
    let s := newtonSqrt b val
    (-nat 2) * (yq - val) - nat 2 * a * val * (a / b * s - xq) / (b * s)

/-- `single_newton_iteration` (`blazert/primitives/cylinder.h:548-583`) -/
def singleNewton (nc : NewtonCase) (a b xq yq val : T) : T :=
  match nc with
  | .upperX =>
    let s := newtonSqrt a val
    ((a * a * a * xq - a * val * val * xq) * s + b * val * val * val * yq)
      / ((a * a * a - a * b * b - a * val * val + b * b * val * val / a) * s + a * a * b * yq)
  | .lowerX =>
    let s := newtonSqrt a val
    ((-a * a * a * xq + a * val * val * xq) * s + b * val * val * val * yq)
      / ((-a * a * a + a * b * b + a * val * val - b * b * val * val / a) * s + a * a * b * yq)
  | .upperY =>
    let s := newtonSqrt b val
    ((b * b * b * yq - b * val * val * yq) * s + a * val * val * val * xq)
      / ((b * b * b - b * a * a - b * val * val + a * a * val * val / b) * s + b * b * a * xq)
  | .lowerY =>
    let s := newtonSqrt b val
    ((-b * b * b * yq + b * val * val * yq) * s + a * val * val * val * xq)
      / ((-b * b * b + b * a * a + b * val * val - a * a * val * val / b) * s + b * b * a * xq)

/-- The loop of `newton_iteration` (`blazert/primitives/cylinder.h:599-605`); the first argument is `100 - cnt`.
`tol` is the constant `1e-4` (float) or `1e-7` (otherwise). -/
def newtonLoop (tol : T) (nc : NewtonCase) (a b xq yq : T) : Nat → T → T
  | 0, val0 => val0
  | n + 1, val0 =>
    if ge (abs (distanceDerivative nc a b xq yq val0)) tol then
      let val := singleNewton nc a b xq yq val0
      newtonLoop tol nc a b xq yq n (if eq (abs val) a then val + eps else val)
    else val0

/-- The same loop as it is written, with the counter `cnt` of the floating point type (`blazert/primitives/cylinder.h:589, 599-606`):
`NewtonRuns val0 cnt r` says that from the state `(val0, cnt)` the loop ends and `r` is returned. -/
inductive NewtonRuns (tol : T) (nc : NewtonCase) (a b xq yq : T) : T → T → T → Prop where
  | stop {val0 cnt : T} (h : (ge (abs (distanceDerivative nc a b xq yq val0)) tol && lt cnt (nat 100)) = false) :
      NewtonRuns tol nc a b xq yq val0 cnt val0
  | step {val0 cnt r : T} (h : (ge (abs (distanceDerivative nc a b xq yq val0)) tol && lt cnt (nat 100)) = true)
      (next : NewtonRuns tol nc a b xq yq
        (if eq (abs (singleNewton nc a b xq yq val0)) a then singleNewton nc a b xq yq val0 + eps
          else singleNewton nc a b xq yq val0) (cnt + nat 1) r) :
      NewtonRuns tol nc a b xq yq val0 cnt r

/-- `newton_iteration` (`blazert/primitives/cylinder.h:586-607`) -/
def newtonIteration (tol : T) (nc : NewtonCase) (a b xq yq guess : T) : T := newtonLoop tol nc a b xq yq 100 guess

/-- `find_minimum_distance_to_ellipse` (`blazert/primitives/cylinder.h:615-664`): the closest point and the distance. -/
def minDistEllipse (tol : T) (a b xq yq : T) : (T × T) × T :=
  let pc : T := ofRat (95/100)
  if (ge xq (nat 0) && ge yq (b / a * xq)) || (le xq (nat 0) && ge yq (-b / a * xq)) then
    let x0 := if gt xq (nat 0) then pc * a else -pc * a
    let xm := newtonIteration tol .upperX a b xq yq x0
    let ym := b / a * sqrt (a * a - xm * xm)
    ((xm, ym), sqrt ((xq - xm) * (xq - xm) + (yq - ym) * (yq - ym)))
  else if (ge xq (nat 0) && le yq (-b / a * xq)) || (le xq (nat 0) && le yq (b / a * xq)) then
    let x0 := if gt xq (nat 0) then pc * a else -pc * a
    let xm := newtonIteration tol .lowerX a b xq yq x0
    let ym := -b / a * sqrt (a * a - xm * xm)
    ((xm, ym), sqrt ((xq - xm) * (xq - xm) + (yq - ym) * (yq - ym)))
  else if ge xq (nat 0) && le yq (b / a * xq) && ge yq (-b / a * xq) then
    let y0 := if gt yq (nat 0) then pc * b else -pc * b
    let ym := newtonIteration tol .upperY a b xq yq y0
    let xm := a / b * sqrt (b * b - ym * ym)
    ((xm, ym), sqrt ((yq - ym) * (yq - ym) + (xq - xm) * (xq - xm)))
  else
    let y0 := if gt yq (nat 0) then pc * b else -pc * b
    let ym := newtonIteration tol .lowerY a b xq yq y0
    let xm := -a / b * sqrt (b * b - ym * ym)
    ((xm, ym), sqrt ((yq - ym) * (yq - ym) + (xq - xm) * (xq - xm)))

/-- `distance_to_surface` (`blazert/primitives/cylinder.h:678-759`).  `isZ` is `blaze::isZero` on the two-component
vector (Blaze is not part of /repo), `tol` as in `newtonLoop`. -/
def cylDistance (isZ : T → T → Bool) (tol : T) (cy : Cylinder T) (point : Vec3 T) : T :=
  let lp := cy.rotation.trans.mulVec (point - cy.center)
  let h2 := cy.height / nat 2
  let distTop := abs (lp.z - h2)
  let distBottom := abs (lp.z + h2)
  let xq := lp.x; let yq := lp.y; let zq := lp.z
  let a := cy.a; let b := cy.b
  if isZ xq yq then
    if gt zq h2 || lt zq (-cy.height / nat 2) then minOf distTop [distBottom]
    else minOf a [b, distTop, distBottom]
  else
    let el := ellipseEquation a b xq yq
    if lt (abs el) eps then
      if gt zq h2 || lt zq (-cy.height / nat 2) then Scalar.min distTop distBottom else nat 0
    else if lt el (nat 0) then
      if ge zq h2 then distTop
      else if le zq (-cy.height / nat 2) then distBottom
      else minOf (minDistEllipse tol a b xq yq).2 [distBottom, distTop]
    else if gt el (nat 0) then
      let ds := (minDistEllipse tol a b xq yq).2
      if lt zq h2 && gt zq (-cy.height / nat 2) then ds
      else minOf (sqrt (ds * ds + distTop * distTop)) [sqrt (ds * ds + distBottom * distBottom)]
    else -nat 1

end
end Blazert
