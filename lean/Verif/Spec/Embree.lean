/- Specification vocabulary for the Embree back-end. -/
import Verif.Spec.Hits
import Verif.Model.Embree

set_option autoImplicit false

namespace Blazert

section
variable {T : Type} [Scalar T]

/-! ### the same thing for the native back-end -/

/-- the sphere as an element of a native collection -/
def EmbSphere.native (s : EmbSphere T) : Sphere T := ⟨s.center, s.radius, 0⟩
/-- the rectangle as an element of a native collection -/
def EmbPlane.native (p : EmbPlane T) : Plane T := ⟨p.center, p.d1, p.d2, p.rot, 0⟩
/-- the cylinder as an element of a native collection -/
def EmbCyl.native (c : EmbCyl T) : Cylinder T := ⟨c.center, c.a, c.b, c.height, c.rot, 0⟩

/-- the state of the native sphere intersector for this ray, `tfar` being the closest distance so far -/
def RtcRay.sphereI (r : RtcRay T) : SphereI T := ⟨r.org, r.dir, r.tnear, (Scalar.nat 0, Scalar.nat 0), r.tfar, invalidId⟩
/-- the state of the native plane or cylinder intersector for this ray -/
def RtcRay.planeI (r : RtcRay T) : PlaneI T :=
  ⟨Vec3.const (Scalar.nat 0), r.org, r.dir, r.tnear, (Scalar.nat 0, Scalar.nat 0), r.tfar, invalidId⟩

/-! ### callbacks -/

/-- `rh'` is `rh` with a hit on the geometry `g` recorded, at the distance `t` and with the normal `n` -/
structure Records (rh rh' : RtcRayHit T) (g : Nat) (t : T) (n : Vec3 T) : Prop where
  ray : rh'.ray = ⟨rh.ray.org, rh.ray.dir, rh.ray.tnear, t⟩
  normal : rh'.hit.ng = n
  geom : rh'.hit.geomID = g
  prim : rh'.hit.primID = 0

/-- the id under which an object is attached -/
def UserGeom.geomID : UserGeom T → Nat
  | .sphere s => s.geomID
  | .plane p => p.geomID
  | .cylinder c => c.geomID

/-- the occlusion callback reports an occlusion (it sets `tfar` to minus infinity) if and only if the intersection callback records a
hit; otherwise both change nothing -/
def OcclusionAgrees (inf : T) (g : UserGeom T) (instID : Nat) (rh : RtcRayHit T) : Prop :=
  (g.intersect instID rh = rh ∧ g.occluded inf rh.ray = rh.ray) ∨
  (∃ t n, Records rh (g.intersect instID rh) g.geomID t n) ∧ g.occluded inf rh.ray = rh.ray.block inf

/-! ### the scene -/

/-- no geometry attached to the scene refers to a deleted object -/
def EmbScene.Alive (s : EmbScene T) : Prop := ∀ p, .user p ∈ s.attached → ∃ g, s.heap[p]? = some (some g)

/-- nothing has been attached after the last commit -/
def EmbScene.UpToDate (s : EmbScene T) : Prop := ∃ bounds, s.known = some bounds ∧ bounds.length = s.attached.length

/-- the object attached with the id `i` is `g` -/
def EmbScene.HasUser (s : EmbScene T) (i : Nat) (g : UserGeom T) : Prop := ∃ p, s.attached[i]? = some (.user p) ∧ s.heap[p]? = some (some g)

/-- the mesh attached with the id `i`, as Embree sees it -/
def EmbScene.HasMesh (s : EmbScene T) (i : Nat) (v : List (Vec3 T)) (f : List (Vec3 Nat)) : Prop := s.attached[i]? = some (.mesh v f)

/-- the call has the arguments for one primitive at least -/
def EmbCall.Nonempty : EmbCall T → Prop
  | .addMesh _ _ => True
  | .addSpheres c r => c ≠ [] ∧ r ≠ []
  | .addPlanes c dx dy r => c ≠ [] ∧ dx ≠ [] ∧ dy ≠ [] ∧ r ≠ []
  | .addCylinders c a b h r => c ≠ [] ∧ a ≠ [] ∧ b ≠ [] ∧ h ≠ [] ∧ r ≠ []
  | .commit => True

/-- which of the three pointers of the scene a call assigns -/
def EmbCall.pointer : EmbCall T → Option (Fin 3)
  | .addSpheres _ _ => some 0
  | .addPlanes _ _ _ _ => some 1
  | .addCylinders _ _ _ _ _ => some 2
  | _ => none

/-- whether the call is `commit` -/
def EmbCall.isCommit : EmbCall T → Bool
  | .commit => true
  | _ => false

/-- two records agree in everything `intersect1` sets -/
structure SameAnswer (x y : RayHit T) : Prop where
  prim : x.primId = y.primId
  uv : x.uv = y.uv
  distance : x.hitDistance = y.hitDistance
  normal : x.normal = y.normal

end

section
variable {F : Fmt ℝ}

/-- Embree's ray is `o + t u`, `|u| = 1`, with parameters between `m ≥ 0` and `M` -/
structure RtcRay.For (r : RtcRay (XF F)) (o u : Vec3 ℝ) (m M : ℝ) : Prop where
  org : IsV r.org o
  dir : IsV r.dir u
  near : r.tnear.Is m
  far : r.tfar.Is M
  unit : sq u = 1
  nonneg : 0 ≤ m

/-- the sphere stands for the sphere with center `c` and radius `r ≥ 0` -/
structure EmbSphere.For (s : EmbSphere (XF F)) (c : Vec3 ℝ) (r : ℝ) : Prop where
  center : IsV s.center c
  radius : s.radius.Is r
  nonneg : 0 ≤ r

/-- the plane stands for the rectangle with center `c`, sides `dx`, `dy > 0` and orientation `R` -/
structure EmbPlane.For (p : EmbPlane (XF F)) (c : Vec3 ℝ) (dx dy : ℝ) (R : Mat3 ℝ) : Prop where
  center : IsV p.center c
  d1 : p.d1.Is dx
  d2 : p.d2.Is dy
  rot : IsM p.rot R
  dx_pos : 0 < dx
  dy_pos : 0 < dy
  orth : Orthonormal R

/-- the cylinder stands for the cylinder with center `c`, half axes `a`, `b`, height `h` and orientation `R` -/
structure EmbCyl.For (y : EmbCyl (XF F)) (c : Vec3 ℝ) (a b h : ℝ) (R : Mat3 ℝ) : Prop where
  center : IsV y.center c
  isA : y.a.Is a
  isB : y.b.Is b
  height : y.height.Is h
  rot : IsM y.rot R
  a_pos : 0 < a
  b_pos : 0 < b
  h_pos : 0 < h
  orth : Orthonormal R

/-- the ray `o + t u` meets the sphere or crosses the rectangle at the distance `t > m` -/
def UserGeom.HitAt (o u : Vec3 ℝ) (m t : ℝ) : UserGeom (XF F) → Prop
  | .sphere s => ∃ c r, s.For c r ∧ m < t ∧ OnSphere c r (along o u t)
  | .plane p => ∃ c dx dy R, p.For c dx dy R ∧ m < t ∧ Vec3.dot (perp R) u ≠ 0 ∧ InRect c dx dy R (along o u t)
  | .cylinder _ => False

/-- the object is a meaningful sphere or plane -/
def UserGeom.Plain : UserGeom (XF F) → Prop
  | .sphere s => ∃ c r, s.For c r
  | .plane p => ∃ c dx dy R, p.For c dx dy R
  | .cylinder _ => False

/-- the ray `o + t u` hits primitive `k` of the geometry with the id `i` at the distance `t` (`k = 0` for spheres and planes) -/
def EmbScene.HitAt (s : EmbScene (XF F)) (o u : Vec3 ℝ) (m : ℝ) (i k : Nat) (t : ℝ) : Prop :=
  (k = 0 ∧ ∃ g, s.HasUser i g ∧ g.HitAt o u m t) ∨ (∃ v f, s.HasMesh i v f ∧ FaceHit v f o u m k t)

/-- What is assumed of Embree in theorems about hits: a callback is saved only if the ray does not meet the bounds within its
limits, and the intersection with a mesh yields the closest hit within the limits, if there is one.  It is left open whether hits
exactly at the limits count. -/
structure Rtc.Sound (rtc : Rtc (XF F)) : Prop where
  miss : ∀ b r, rtc.miss b r → ∀ o u m M mn mx, r.For o u m M → IsV b.1 mn → IsV b.2 mx →
    ∀ t, m ≤ t → t ≤ M → ¬ InBox mn mx (along o u t)
  mesh : ∀ v f id rh o u m M, rh.ray.For o u m M →
    (rtc.tri v f id rh = rh ∧ ∀ k t, FaceHit v f o u m k t → m < t → M ≤ t) ∨
    (∃ k t x, x.Is t ∧ FaceHit v f o u m k t ∧ t ≤ M ∧ (∀ k' t', FaceHit v f o u m k' t' → m < t' → t ≤ t') ∧
      (rtc.tri v f id rh).ray = ⟨rh.ray.org, rh.ray.dir, rh.ray.tnear, x⟩ ∧ (rtc.tri v f id rh).hit.geomID = id ∧
      (rtc.tri v f id rh).hit.primID = k)

end
end Blazert
