/- C03: a BVH answers like a test of all primitives. -/
import Verif.Props.Closest

set_option autoImplicit false

namespace Blazert
open Scalar Format

variable {F : Fmt ℝ}

section
variable {origin direction : Vec3 (XF F)} {minHit maxHit : XF F} {o d : Vec3 ℝ} {m M : ℝ}

/-- **C03** for spheres: traversing a BVH built with any options and any `std::partition` gives the same answer and the same
distance as testing the ray against every sphere in turn.  Missing from the full claim: rays with a component `-0.0` or lying in
a z face of a box (false, see `C03_negative_zero`), rounding. -/
theorem C03_spheres_partial (hF : F.Exact) {cs : List (Vec3 (XF F))} {rs : List (XF F)} {coll : SphereColl (XF F)}
    (hmake : SphereColl.make cs rs = .ok coll)
    (hgood : ∀ (i : Nat) x y, coll.centers[i]? = some x → coll.radii[i]? = some y → ∃ c r, IsV x c ∧ y.Is r ∧ 0 ≤ r)
    (hrange : ∀ b ∈ coll.boxes, BoxInRange b) (hray : RayFor origin direction minHit maxHit o d m M)
    (hface : d.z = 0 → ∀ b ∈ coll.boxes, ¬ b.1.z.Is o.z ∧ ¬ b.2.z.Is o.z)
    (part : StdPartition) (opts : BuildOptions) {nodes : List (Node (XF F) (Sphere (XF F)))} {stats : Statistics}
    (hbuild : build part coll.toCollection opts [] = .ok (nodes, stats)) {rh rh' : RayHit (XF F)} {hit : Bool}
    (ht : traverse (sphereIx coll) nodes (Ray.make origin direction minHit maxHit false) rh = .ok (hit, rh'))
    {ps : List (Sphere (XF F))} (hps : (List.range coll.toCollection.size).mapM coll.toCollection.prim = .ok ps) :
    hit = scanHit (sphereIx coll) (Ray.make origin direction minHit maxHit false) ps ∧
    (hit = true → SameDistance rh'.hitDistance
      ((sphereIx coll).hitDistance (scan (sphereIx coll) (Ray.make origin direction minHit maxHit false) ps))) := by
  obtain ⟨t, h1, h2, h3⟩ := built_of_build hbuild
  refine partSpec_scanSpec (spherePart hF hray.toRayBase True (fun _ => hray) false hmake hgood (fun _ => hrange)
    (fun _ => hface) opts nodes t h1 h2 h3) rfl ?_ ht hps
  rintro rh t ⟨x, y, c, r, k1, k2, k3, k4, k5, k6, _⟩
  exact ⟨rh.primId, trivial, x, y, c, r, k1, k2, k3, k4, k5, k6⟩

/-- **C03** for planes. -/
theorem C03_planes_partial (hF : F.Exact) {cs : List (Vec3 (XF F))} {xs ys : List (XF F)} {ms : List (Mat3 (XF F))}
    {coll : PlaneColl (XF F)} (hmake : PlaneColl.make cs xs ys ms = .ok coll)
    (hgood : ∀ (i : Nat) x y z w, coll.centers[i]? = some x → coll.dxs[i]? = some y → coll.dys[i]? = some z →
      coll.rotations[i]? = some w → ∃ c dx dy R, IsV x c ∧ y.Is dx ∧ z.Is dy ∧ IsM w R ∧ 0 < dx ∧ 0 < dy ∧ Orthonormal R)
    (hrange : ∀ b ∈ coll.boxes, BoxInRange b) (hray : RayFor origin direction minHit maxHit o d m M)
    (hface : d.z = 0 → ∀ b ∈ coll.boxes, ¬ b.1.z.Is o.z ∧ ¬ b.2.z.Is o.z)
    (part : StdPartition) (opts : BuildOptions) {nodes : List (Node (XF F) (Plane (XF F)))} {stats : Statistics}
    (hbuild : build part coll.toCollection opts [] = .ok (nodes, stats)) {rh rh' : RayHit (XF F)} {hit : Bool}
    (ht : traverse planeIx nodes (Ray.make origin direction minHit maxHit false) rh = .ok (hit, rh'))
    {ps : List (Plane (XF F))} (hps : (List.range coll.toCollection.size).mapM coll.toCollection.prim = .ok ps) :
    hit = scanHit planeIx (Ray.make origin direction minHit maxHit false) ps ∧
    (hit = true → SameDistance rh'.hitDistance
      (planeIx.hitDistance (scan planeIx (Ray.make origin direction minHit maxHit false) ps))) := by
  obtain ⟨t, h1, h2, h3⟩ := built_of_build hbuild
  refine partSpec_scanSpec (planePart hF hray.toRayBase True (fun _ => hray) false hmake hgood (fun _ => hrange)
    (fun _ => hface) opts nodes t h1 h2 h3) rfl ?_ ht hps
  rintro rh t ⟨x, y, z, w, c, dx, dy, R, a, b, k1, k2, k3, k4, k5, k6, k7, k8, k9, l1, l2, l3, l4, _⟩
  exact ⟨rh.primId, trivial, x, y, z, w, c, dx, dy, R, k1, k2, k3, k4, k5, k6, k7, k8, k9, l1, a, b, (abs_le.1 l2).1,
    (abs_le.1 l2).2, (abs_le.1 l3).1, (abs_le.1 l3).2, l4⟩

/-- **C03** for meshes, if no face is passed so narrowly that the tolerance decides (otherwise it is false, see
`C03_phantom`). -/
theorem C03_meshes_partial (hF : F.Exact) {vs : List (Vec3 (XF F))} {fs : List (Vec3 Nat)} {mesh : MeshColl (XF F)}
    (hmake : MeshColl.make vs fs = .ok mesh) (hgood : ∀ v ∈ mesh.vertices, ∃ A, IsV v A)
    (hrange : ∀ b ∈ mesh.boxes, BoxInRange b) (hray : RayFor origin direction minHit maxHit o d m M)
    (hface : d.z = 0 → ∀ b ∈ mesh.boxes, ¬ b.1.z.Is o.z ∧ ¬ b.2.z.Is o.z)
    (hclear : ∀ i t, FaceNear (4 * F.eps) mesh.vertices mesh.faces o (unit d) m i t →
      FaceHit mesh.vertices mesh.faces o (unit d) m i t)
    (part : StdPartition) (opts : BuildOptions) {nodes : List (Node (XF F) (Triangle (XF F)))} {stats : Statistics}
    (hbuild : build part mesh.toCollection opts [] = .ok (nodes, stats)) {rh rh' : RayHit (XF F)} {hit : Bool}
    (ht : traverse (triIx mesh) nodes (Ray.make origin direction minHit maxHit false) rh = .ok (hit, rh'))
    {ps : List (Triangle (XF F))} (hps : (List.range mesh.toCollection.size).mapM mesh.toCollection.prim = .ok ps) :
    hit = scanHit (triIx mesh) (Ray.make origin direction minHit maxHit false) ps ∧
    (hit = true → SameDistance rh'.hitDistance
      ((triIx mesh).hitDistance (scan (triIx mesh) (Ray.make origin direction minHit maxHit false) ps))) := by
  obtain ⟨t, h1, h2, h3⟩ := built_of_build hbuild
  refine partSpec_scanSpec (meshPart hF hray.toRayBase True (fun _ => hray) false hmake hgood (fun _ => hrange)
    (fun _ => hface) opts nodes t h1 h2 h3) rfl ?_ ht hps
  rintro rh t ⟨A, B, C, a, b, k1, k2, k3, k4, k5, _⟩
  exact ⟨rh.primId, trivial, hclear _ _ ⟨A, B, C, a, b, k1, k2, k3, k4, k5⟩⟩

end

/-! ### Examples and counterexamples -/

/-- answer of the BVH, and answer of testing all triangles -/
def compareMesh (vs : List (Vec3 Double)) (fs : List (Vec3 Nat)) (ray : Ray Double) : Run (Bool × Bool) := do
  let mesh ← MeshColl.make vs fs
  let (nodes, _) ← build stablePartition mesh.toCollection .default []
  let (hit, _) ← traverse (triIx mesh) nodes ray RayHit.fresh
  let ps ← (List.range mesh.toCollection.size).mapM mesh.toCollection.prim
  return (hit, scanHit (triIx mesh) ray ps)

/-- answer of the BVH, and answer of testing all spheres -/
def compareSpheres (cs : List (Vec3 Double)) (rs : List Double) (ray : Ray Double) : Run (Bool × Bool) := do
  let coll ← SphereColl.make cs rs
  let (nodes, _) ← build stablePartition coll.toCollection .default []
  let (hit, _) ← traverse (sphereIx coll) nodes ray RayHit.fresh
  let ps ← (List.range coll.toCollection.size).mapM coll.toCollection.prim
  return (hit, scanHit (sphereIx coll) ray ps)

/-- **C03 is false for meshes** (double arithmetic): testing all triangles reports a hit with a tiny triangle which the ray
passes; the BVH does not. -/
theorem C03_phantom : compareMesh [dvec 0 0 0, dvec (pow2 (-30)) 0 0, dvec 0 (pow2 (-30)) 0] [⟨0, 1, 2⟩]
    (Ray.make' (dvec (pow2 (-22)) (pow2 (-22)) 1) (dvec 0 0 (-1))) = .ok (false, true) := by
  obtain ⟨r, h1, h2⟩ : ∃ r, compareMesh [dvec 0 0 0, dvec (pow2 (-30)) 0 0, dvec 0 (pow2 (-30)) 0] [⟨0, 1, 2⟩]
    (Ray.make' (dvec (pow2 (-22)) (pow2 (-22)) 1) (dvec 0 0 (-1))) = .ok r ∧ r = (false, true) := exists_ok_of_eval (by decide +kernel)
  rw [h1, h2]

/-- **C03 is false for rays with a component `-0.0`** (double arithmetic): the sphere is hit, but the BVH does not notice. -/
theorem C03_negative_zero : compareSpheres [dvec 0 0 0] [dbl 1]
    (Ray.make' (dvec 0 0 3) ⟨.fin 0 true, dbl 0, dbl (-1)⟩) = .ok (false, true) := by
  obtain ⟨r, h1, h2⟩ : ∃ r, compareSpheres [dvec 0 0 0] [dbl 1]
    (Ray.make' (dvec 0 0 3) ⟨.fin 0 true, dbl 0, dbl (-1)⟩) = .ok r ∧ r = (false, true) := exists_ok_of_eval (by decide +kernel)
  rw [h1, h2]

/-- a collection and a ray to which the theorem applies, for any options and any `std::partition` -/
example (part : StdPartition) (opts : BuildOptions) (h1 : 1 ≤ opts.binSize) (h2 : opts.binSize ≤ 2 ^ 29) :
    ∃ coll, SphereColl.make (centersOf sampleBalls) (radiiOf sampleBalls) = .ok coll ∧
      (∀ (i : Nat) x y, coll.centers[i]? = some x → coll.radii[i]? = some y → ∃ c r, IsV x c ∧ y.Is r ∧ 0 ≤ r) ∧
      (∀ b ∈ coll.boxes, BoxInRange b) ∧ ∃ out, build part coll.toCollection opts [] = .ok out := by
  obtain ⟨mesh, sph, hm, hs, e1, e2, h⟩ := sample_history sampleBalls
  have hg := sample_good sampleBalls_small hm hs e1 e2
  have g1 := hg.spheres _ rfl
  have g2 := hg.sphereRange _ rfl
  exact ⟨sph, hs, g1, g2, C19_build_returns_exact_partial exactFmt_exact part _ (sphere_wellFormed exactFmt_exact hs g1 g2) opts h1 h2 []⟩

end Blazert
