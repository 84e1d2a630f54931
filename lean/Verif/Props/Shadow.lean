/- C97: rays that start at a reported hit and leave the surface. -/
import Verif.Props.SceneRound
import Verif.Proofs.ShadowScene

set_option autoImplicit false

namespace Blazert
open Scalar

section
variable {K : Type} [Field K] [LinearOrder K] [IsStrictOrderedRing K] [FloorRing K] {F : Fmt K}

/-- **C97**, spheres, general.  In any format that rounds: a ray starts on a sphere of a committed scene or outside of it, up to `δ` (in
the power of the point), and leaves it (`κ` is a lower bound of the component of the direction along the radius, times the
radius).  If the lower limit `m` of the ray is at least `(δ + 2100 u L²) / 2 κ`, then no query reports that sphere. -/
theorem C97_leave_sphere (u η hi : K) (hF : F.Rounds u η hi) {s : Scene (XF F)} {rs : List Nat} (hist : History s rs)
    (hcom : s.committed = true) (q : Part (SphereColl (XF F)) (XF F) (Sphere (XF F))) (hq : s.spheres = some q)
    (j : Nat) (center : Vec3 (XF F)) (radius : XF F) (hcj : q.coll.centers[j]? = some center) (hrj : q.coll.radii[j]? = some radius)
    (c : Vec3 K) (r : K) (hc : IsV center c) (hr : radius.Is r) (origin direction : Vec3 (XF F)) (minHit maxHit : XF F) {any : Bool}
    (o d : Vec3 K) (m : K) (ho : IsV origin o) (hd : IsV (Ray.make origin direction minHit maxHit any).direction d)
    (hN : |Vec3.dot d d - 1| ≤ 11 * u) (hmin : minHit.Is m) (hm : 0 ≤ m) (L : K) (hsc : Scale u η hi L)
    (hL : |o.x - c.x| + |o.y - c.y| + |o.z - c.z| + |r| ≤ L) (δ κ : K) (hstart : -δ ≤ power c r o) (hκ : 0 ≤ κ)
    (hleave : κ ≤ Vec3.dot (o - c) d) (hfar : δ + 2100 * (u * L ^ 2) ≤ 2 * κ * m) (rh0 out : RayHit (XF F))
    (h : s.intersect1 (Ray.make origin direction minHit maxHit any) rh0 = .ok (true, out)) :
    ¬ (out.geomId = q.geomId ∧ out.primId = j) := by
  rintro ⟨hg, rfl⟩
  have hids := hist.ids.2
  have hid : s.ids 1 = some q.geomId := by show s.spheres.map _ = _; rw [hq]; rfl
  rcases intersect1_reportedBy (XF.irreflLt F) hist.ok hcom _ rh0 out h with ⟨q', hq', p, s0, s', t, r', -, -, -, -, -, -, e⟩ |
    ⟨q', hq', p, s0, s', t, r', k0, k1, k2, -⟩ | ⟨q', hq', p, s0, s', t, r', -, -, -, -, -, -, e⟩ |
    ⟨q', hq', p, s0, s', t, r', -, -, -, -, -, -, e⟩
  · have : s.ids 0 = some q.geomId := by show s.mesh.map _ = _; rw [hq', ← hg, e]; rfl
    exact absurd (hids 0 1 _ this hid) (by decide)
  · obtain rfl := Option.some.inj (hq.symm.trans hq')
    obtain ⟨g1, g2, -⟩ := SphereColl.prim_eq k0
    obtain rfl := Option.some.inj (hcj.symm.trans g1)
    obtain rfl := Option.some.inj (hrj.symm.trans g2)
    have := sphere_leaves hF hsc (Ray.make origin direction minHit maxHit any) (i := s0) (s := p) (k1.1 ▸ ho) (k1.2.1 ▸ hd) hc hr
      (k1.2.2 ▸ hmin) hm hN hL hstart hκ hleave hfar
    have k2' : sphereIntersect s0 p (Ray.make origin direction minHit maxHit any) = (s', true) := k2
    rw [k2'] at this
    cases this
  · have : s.ids 2 = some q.geomId := by show s.planes.map _ = _; rw [hq', ← hg, e]; rfl
    exact absurd (hids 2 1 _ this hid) (by decide)
  · have : s.ids 3 = some q.geomId := by show s.cylinders.map _ = _; rw [hq', ← hg, e]; rfl
    exact absurd (hids 3 1 _ this hid) (by decide)

/-- **C97**, rectangles, general.  A ray starts in the plane of a rectangle of a committed scene, up to `δ`, and leaves it at an angle
whose sine is at least `κ`.  If the lower limit `m` is at least `(δ + 2400 u L + 160 ε L) / κ`, then no query reports that rectangle. -/
theorem C97_leave_rectangle (u η hi : K) (hF : F.Rounds u η hi) (hfa : F.Faithful u η) (hodd : F.Odd) {s : Scene (XF F)} {rs : List Nat}
    (hist : History s rs) (hcom : s.committed = true) (q : Part (PlaneColl (XF F)) (XF F) (Plane (XF F))) (hq : s.planes = some q)
    (j : Nat) (center : Vec3 (XF F)) (dx dy : XF F) (rotation : Mat3 (XF F)) (hcj : q.coll.centers[j]? = some center)
    (hxj : q.coll.dxs[j]? = some dx) (hyj : q.coll.dys[j]? = some dy) (hrj : q.coll.rotations[j]? = some rotation)
    (c : Vec3 K) (a b : K) (R : Mat3 K) (ε : K) (hc : IsV center c) (ha : dx.Is a) (hb : dy.Is b) (hR : IsM rotation R)
    (hε : NearOrtho ε R) (hε' : ε ≤ 1 / 1000) (origin direction : Vec3 (XF F)) (minHit maxHit : XF F) {any : Bool}
    (o d : Vec3 K) (m : K) (ho : IsV origin o) (hd : IsV (Ray.make origin direction minHit maxHit any).direction d)
    (hN : |Vec3.dot d d - 1| ≤ 11 * u) (hmin : minHit.Is m) (hm : 0 ≤ m) (L : K) (hsc : Scale u η hi L)
    (hL : |o.x - c.x| + |o.y - c.y| + |o.z - c.z| + |a| + |b| ≤ L) (δ κ : K) (hstart : |Vec3.dot R.trans.r2 (o - c)| ≤ δ)
    (hκ : 0 ≤ κ) (hleave : κ ≤ |Vec3.dot R.trans.r2 d|) (hfar : δ + 2400 * (u * L) + 160 * (ε * L) ≤ κ * m) (rh0 out : RayHit (XF F))
    (h : s.intersect1 (Ray.make origin direction minHit maxHit any) rh0 = .ok (true, out)) :
    ¬ (out.geomId = q.geomId ∧ out.primId = j) := by
  rintro ⟨hg, rfl⟩
  have hids := hist.ids.2
  have hid : s.ids 2 = some q.geomId := by show s.planes.map _ = _; rw [hq]; rfl
  rcases intersect1_reportedBy (XF.irreflLt F) hist.ok hcom _ rh0 out h with ⟨q', hq', p, s0, s', t, r', -, -, -, -, -, -, e⟩ |
    ⟨q', hq', p, s0, s', t, r', -, -, -, -, -, -, e⟩ | ⟨q', hq', p, s0, s', t, r', k0, k1, k2, -⟩ |
    ⟨q', hq', p, s0, s', t, r', -, -, -, -, -, -, e⟩
  · have : s.ids 0 = some q.geomId := by show s.mesh.map _ = _; rw [hq', ← hg, e]; rfl
    exact absurd (hids 0 2 _ this hid) (by decide)
  · have : s.ids 1 = some q.geomId := by show s.spheres.map _ = _; rw [hq', ← hg, e]; rfl
    exact absurd (hids 1 2 _ this hid) (by decide)
  · obtain rfl := Option.some.inj (hq.symm.trans hq')
    obtain ⟨-, g1, g2, g3, g4⟩ := PlaneColl.prim_ok k0
    obtain rfl := Option.some.inj (hcj.symm.trans g1)
    obtain rfl := Option.some.inj (hxj.symm.trans g2)
    obtain rfl := Option.some.inj (hyj.symm.trans g3)
    obtain rfl := Option.some.inj (hrj.symm.trans g4)
    have := plane_leaves hF hfa hodd hsc (Ray.make origin direction minHit maxHit any) (i := s0) (q := p) (k1.1 ▸ ho) (k1.2.1 ▸ hd)
      ⟨hc, ha, hb, hR, hε, hL⟩ hε' (k1.2.2 ▸ hmin) hm hN hstart hκ hleave hfar
    have k2' : planeIntersect s0 p (Ray.make origin direction minHit maxHit any) = (s', true) := k2
    rw [k2'] at this
    cases this
  · have : s.ids 3 = some q.geomId := by show s.cylinders.map _ = _; rw [hq', ← hg, e]; rfl
    exact absurd (hids 3 2 _ this hid) (by decide)

/-- **C97**, faces, general.  A ray starts in the plane of a face of a committed scene, up to `δ` (times twice the area), and leaves it
(`κ` is a lower bound of the sine of the angle, times twice the area).  If `δ + 10 u L³ + 12 u L² m ≤ κ m` for its lower limit `m`,
then no query reports that face. -/
theorem C97_leave_face (u η lo lo' hi : K) (hF : F.Rounds u η hi) (hF' : F.Relative u lo' hi) {s : Scene (XF F)} {rs : List Nat}
    (hist : History s rs) (hcom : s.committed = true) (q : Part (MeshColl (XF F)) (XF F) (Triangle (XF F))) (hq : s.mesh = some q)
    (j : Nat) (face : Vec3 Nat) (va vb vc : Vec3 (XF F)) (hface : q.coll.faces[j]? = some face)
    (hva : q.coll.vertices[face.x]? = some va) (hvb : q.coll.vertices[face.y]? = some vb) (hvc : q.coll.vertices[face.z]? = some vc)
    (A B C : Vec3 K) (hA : IsV va A) (hB : IsV vb B) (hC : IsV vc C) (origin direction : Vec3 (XF F)) (minHit maxHit : XF F) {any : Bool}
    (o d : Vec3 K) (m : K) (ho : IsV origin o) (hd : IsV (Ray.make origin direction minHit maxHit any).direction d)
    (hN : |Vec3.dot d d - 1| ≤ 11 * u) (hmin : minHit.Is m) (hm : 0 ≤ m) (L : K) (hsc : Scale3 u η hi lo L)
    (hL : ∀ V ∈ [A, B, C], 2 * oneNorm (V - o) ≤ L) (hmL : 2 * L ^ 2 * m ≤ hi) (δ κ : K)
    (hstart : |Vec3.dot (normalOf A B C) (A - o)| ≤ δ) (hleave : κ ≤ |Vec3.dot (normalOf A B C) d|)
    (hfar : δ + 10 * (u * L ^ 3) + 12 * (u * L ^ 2) * m ≤ κ * m) (rh0 out : RayHit (XF F))
    (h : s.intersect1 (Ray.make origin direction minHit maxHit any) rh0 = .ok (true, out)) :
    ¬ (out.geomId = q.geomId ∧ out.primId = j) := by
  rintro ⟨hg, rfl⟩
  have hids := hist.ids.2
  have hid : s.ids 0 = some q.geomId := by show s.mesh.map _ = _; rw [hq]; rfl
  rcases intersect1_reportedBy (XF.irreflLt F) hist.ok hcom _ rh0 out h with ⟨q', hq', p, s0, s', t, r', k0, k1, k2, -⟩ |
    ⟨q', hq', p, s0, s', t, r', -, -, -, -, -, -, e⟩ | ⟨q', hq', p, s0, s', t, r', -, -, -, -, -, -, e⟩ |
    ⟨q', hq', p, s0, s', t, r', -, -, -, -, -, -, e⟩
  · obtain rfl := Option.some.inj (hq.symm.trans hq')
    obtain ⟨f, a, b, c, g1, g2, g3, g4, g5⟩ := MeshColl.prim_ok k0
    obtain rfl := Option.some.inj (hface.symm.trans g1)
    obtain rfl := Option.some.inj (hva.symm.trans g2)
    obtain rfl := Option.some.inj (hvb.symm.trans g3)
    obtain rfl := Option.some.inj (hvc.symm.trans g4)
    have lA := hL A (by simp)
    have lB := hL B (by simp)
    have lC := hL C (by simp)
    have n0 := oneNorm_nonneg (A - o)
    have hdiff : ∀ {V W : Vec3 K}, 2 * oneNorm (V - o) ≤ L → 2 * oneNorm (W - o) ≤ L → oneNorm (V - W) ≤ L := fun h1 h2 =>
      (oneNorm_diff (o := o) (a := L / 2) (b := L / 2) (by linarith) (by linarith)).trans_eq (by ring)
    have hw : TriWithin o L p A B C := ⟨⟨va, vb, vc, hA, hB, hC, by rw [g5]; rfl⟩, hdiff lA lB, hdiff lC lA, by linarith⟩
    have hunit : Vec3.dot d d ≤ 5 / 4 := by
      have := (abs_le.1 hN).2
      have := hsc.toScale.eleven
      linarith
    have k1' : s0.minHit = minHit := k1
    have := tri_leaves hF hF' hsc (ray := Ray.make origin direction minHit maxHit any) (i := s0) hw ho hd hunit (k1' ▸ hmin) hm hmL
      hstart hleave hfar
    have k2' : triIntersect s0 p (Ray.make origin direction minHit maxHit any) = (s', true) := k2
    rw [k2'] at this
    cases this
  · have : s.ids 1 = some q.geomId := by show s.spheres.map _ = _; rw [hq', ← hg, e]; rfl
    exact absurd (hids 1 0 _ this hid) (by decide)
  · have : s.ids 2 = some q.geomId := by show s.planes.map _ = _; rw [hq', ← hg, e]; rfl
    exact absurd (hids 2 0 _ this hid) (by decide)
  · have : s.ids 3 = some q.geomId := by show s.cylinders.map _ = _; rw [hq', ← hg, e]; rfl
    exact absurd (hids 3 0 _ this hid) (by decide)


/-! ### starting at a reported hit -/

theorem shadow_sphere (u η lo up hi : K) (hF : F.Rounds u η hi) {s : Scene (XF F)} {rs : List Nat} (hist : History s rs)
    (hcom : s.committed = true) (q : Part (SphereColl (XF F)) (XF F) (Sphere (XF F))) (hq : s.spheres = some q)
    {ray : Ray (XF F)} {out : RayHit (XF F)} {o d : Vec3 K} (ho : IsV ray.origin o) (hd : IsV ray.direction d)
    (hnear : NearSphere u lo up q.coll out.primId out.hitDistance o d) (center : Vec3 (XF F)) (radius : XF F)
    (hcj : q.coll.centers[out.primId]? = some center) (hrj : q.coll.radii[out.primId]? = some radius) (c : Vec3 K) (r : K)
    (hc : IsV center c) (hr : radius.Is r) (L : K) (hsc : Scale u η hi L) (hL1 : lo ≤ L) (hL2 : L ≤ up)
    (hoL : |o.x| + |o.y| + |o.z| ≤ L) (hL : |o.x - c.x| + |o.y - c.y| + |o.z - c.z| + 3 * |r| ≤ L)
    (direction : Vec3 (XF F)) (minHit maxHit : XF F) {any : Bool} (e : Vec3 K) (m κ : K)
    (he : IsV (Ray.make (hitPoint ray out) direction minHit maxHit any).direction e) (hN : |Vec3.dot e e - 1| ≤ 11 * u)
    (hmin : minHit.Is m) (hm : 0 ≤ m) (hκ : 0 ≤ κ) (hleave : ∀ p, IsV (hitPoint ray out) p → κ ≤ Vec3.dot (p - c) e)
    (hfar : 2060 * u * L ^ 2 ≤ κ * m) (rh0 out' : RayHit (XF F))
    (h : s.intersect1 (Ray.make (hitPoint ray out) direction minHit maxHit any) rh0 = .ok (true, out')) :
    ¬ (out'.geomId = q.geomId ∧ out'.primId = out.primId) := by
  obtain ⟨center', radius', g1, g2, g3⟩ := hnear
  obtain rfl := Option.some.inj (hcj.symm.trans g1)
  obtain rfl := Option.some.inj (hrj.symm.trans g2)
  obtain ⟨k, k1, -, k2⟩ := g3 c r L hc hr (by linarith [abs_nonneg r]) hL1 hL2
  obtain ⟨⟨b1, b2, b3⟩, -⟩ := sphere_point_near (p := o) hsc hL k2
  obtain ⟨p, p1, p2, p3, p4⟩ := hitPoint_near hF hsc ho hd k1 hoL b1 b2 b3
  obtain ⟨f1, f2⟩ := (sphere_point_near hsc hL k2).2 p2 p3 p4
  refine C97_leave_sphere u η hi hF hist hcom q hq out.primId center radius g1 g2 c r hc hr (hitPoint ray out) direction minHit maxHit
    p e m p1 he hN hmin hm L hsc f2 (2020 * (u * L ^ 2)) κ f1 hκ (hleave p p1) ?_ rh0 out' h
  have e1 : 2060 * u * L ^ 2 = 2060 * (u * L ^ 2) := by ring
  rw [e1] at hfar
  linarith

theorem shadow_rectangle (u η lo up hi : K) (hF : F.Rounds u η hi) (hfa : F.Faithful u η) (hodd : F.Odd) {s : Scene (XF F)}
    {rs : List Nat} (hist : History s rs) (hcom : s.committed = true) (q : Part (PlaneColl (XF F)) (XF F) (Plane (XF F)))
    (hq : s.planes = some q) {ray : Ray (XF F)} {out : RayHit (XF F)} {o d : Vec3 K} (ho : IsV ray.origin o) (hd : IsV ray.direction d)
    (hnear : NearRect u lo up q.coll out.primId out.hitDistance o d) (center : Vec3 (XF F)) (dx dy : XF F) (rotation : Mat3 (XF F))
    (hcj : q.coll.centers[out.primId]? = some center) (hxj : q.coll.dxs[out.primId]? = some dx)
    (hyj : q.coll.dys[out.primId]? = some dy) (hrj : q.coll.rotations[out.primId]? = some rotation)
    (c : Vec3 K) (a b : K) (R : Mat3 K) (ε : K) (hc : IsV center c) (ha : dx.Is a) (hb : dy.Is b) (hR : IsM rotation R)
    (hε : NearOrtho ε R) (hε' : ε ≤ 1 / 1000) (L : K) (hsc : Scale u η hi L) (hL1 : lo ≤ L) (hL2 : L ≤ up)
    (hoL : |o.x| + |o.y| + |o.z| ≤ L) (hL : |o.x - c.x| + |o.y - c.y| + |o.z - c.z| + 3 * (|a| + |b|) ≤ L)
    (direction : Vec3 (XF F)) (minHit maxHit : XF F) {any : Bool} (e : Vec3 K) (m κ : K)
    (he : IsV (Ray.make (hitPoint ray out) direction minHit maxHit any).direction e) (hN : |Vec3.dot e e - 1| ≤ 11 * u)
    (hmin : minHit.Is m) (hm : 0 ≤ m) (hκ : 0 ≤ κ) (hleave : κ ≤ |Vec3.dot R.trans.r2 e|)
    (hfar : 4230 * u * L + 282 * ε * L ≤ κ * m) (rh0 out' : RayHit (XF F))
    (h : s.intersect1 (Ray.make (hitPoint ray out) direction minHit maxHit any) rh0 = .ok (true, out')) :
    ¬ (out'.geomId = q.geomId ∧ out'.primId = out.primId) := by
  obtain ⟨center', dx', dy', rot', g1, g2, g3, g4, g5⟩ := hnear
  obtain rfl := Option.some.inj (hcj.symm.trans g1)
  obtain rfl := Option.some.inj (hxj.symm.trans g2)
  obtain rfl := Option.some.inj (hyj.symm.trans g3)
  obtain rfl := Option.some.inj (hrj.symm.trans g4)
  obtain ⟨k, k1, -, y, k2, k3⟩ := g5 c a b R ε L hc ha hb hR hε hε' (by linarith [abs_nonneg a, abs_nonneg b]) hL1 hL2
  obtain ⟨⟨b1, b2, b3⟩, -⟩ := rect_point_near (p := o) hsc hε hε' hL k2 k3
  obtain ⟨p, p1, p2, p3, p4⟩ := hitPoint_near hF hsc ho hd k1 hoL b1 b2 b3
  obtain ⟨f1, f2⟩ := (rect_point_near hsc hε hε' hL k2 k3).2 p2 p3 p4
  refine C97_leave_rectangle u η hi hF hfa hodd hist hcom q hq out.primId center dx dy rotation hcj hxj hyj hrj c a b R ε hc ha hb hR hε
    hε' (hitPoint ray out) direction minHit maxHit p e m p1 he hN hmin hm L hsc f2 _ κ f1 hκ hleave ?_ rh0 out' h
  have e1 : 4230 * u * L + 282 * ε * L = 4230 * (u * L) + 282 * (ε * L) := by ring
  rw [e1] at hfar
  linarith

theorem shadow_face (u η lo lo' up lo'' top hi : K) {m0 : K} (hF : F.Rounds u η hi) (hF' : F.Relative u lo' hi) {s : Scene (XF F)}
    {rs : List Nat} (hist : History s rs) (hcom : s.committed = true) (q : Part (MeshColl (XF F)) (XF F) (Triangle (XF F)))
    (hq : s.mesh = some q) {ray : Ray (XF F)} {out : RayHit (XF F)} {o d : Vec3 K} (ho : IsV ray.origin o) (hd : IsV ray.direction d)
    (hNd : |Vec3.dot d d - 1| ≤ 11 * u) (hnear : NearFace u lo'' up top m0 q.coll out.primId out.hitDistance o d) (face : Vec3 Nat)
    (va vb vc : Vec3 (XF F)) (hface : q.coll.faces[out.primId]? = some face)
    (hva : q.coll.vertices[face.x]? = some va) (hvb : q.coll.vertices[face.y]? = some vb) (hvc : q.coll.vertices[face.z]? = some vc)
    (A B C : Vec3 K) (hA : IsV va A) (hB : IsV vb B) (hC : IsV vc C) (L : K) (hsc : Scale3 u η hi lo L) (hL1 : lo'' ≤ L) (hL2 : L ≤ up)
    (hm0 : 2 * L ^ 2 * m0 ≤ top) (hoL : |o.x| + |o.y| + |o.z| ≤ L) (hL : ∀ V ∈ [A, B, C], 2 * oneNorm (V - o) ≤ L)
    (hsteep : 11 * u * L ^ 2 ≤ |Vec3.dot (normalOf A B C) d|) (hdist : ∀ k, out.hitDistance.Is k → k ≤ L)
    (direction : Vec3 (XF F)) (minHit maxHit : XF F) {any : Bool} (e : Vec3 K) (m κ : K)
    (he : IsV (Ray.make (hitPoint ray out) direction minHit maxHit any).direction e) (hN : |Vec3.dot e e - 1| ≤ 11 * u)
    (hmin : minHit.Is m) (hm : 0 ≤ m) (hmL : 2 * L ^ 2 * m ≤ hi)
    (hsize : ∀ p, IsV (hitPoint ray out) p → ∀ V ∈ [A, B, C], 2 * oneNorm (V - p) ≤ L)
    (hleave : κ ≤ |Vec3.dot (normalOf A B C) e|) (hfar : 42 * u * L ^ 3 + 12 * u * L ^ 2 * m ≤ κ * m) (rh0 out' : RayHit (XF F))
    (h : s.intersect1 (Ray.make (hitPoint ray out) direction minHit maxHit any) rh0 = .ok (true, out')) :
    ¬ (out'.geomId = q.geomId ∧ out'.primId = out.primId) := by
  obtain ⟨face', va', vb', vc', g1, g2, g3, g4, g5⟩ := hnear
  obtain rfl := Option.some.inj (hface.symm.trans g1)
  obtain rfl := Option.some.inj (hva.symm.trans g2)
  obtain rfl := Option.some.inj (hvb.symm.trans g3)
  obtain rfl := Option.some.inj (hvc.symm.trans g4)
  obtain ⟨k, k1, k0, k2⟩ := (g5 A B C L hA hB hC hL hL1 hL2 hm0).2 hsteep
  have lA := hL A (by simp)
  have lB := hL B (by simp)
  have lC := hL C (by simp)
  have hdiff : ∀ {V W : Vec3 K}, 2 * oneNorm (V - o) ≤ L → 2 * oneNorm (W - o) ≤ L → oneNorm (V - W) ≤ L := fun h1 h2 =>
    (oneNorm_diff (o := o) (a := L / 2) (b := L / 2) (by linarith) (by linarith)).trans_eq (by ring)
  have hunit : Vec3.dot d d ≤ 5 / 4 := by
    have := (abs_le.1 hNd).2
    have := hsc.toScale.eleven
    linarith
  obtain ⟨⟨b1, b2, b3⟩, -⟩ := face_point_near (p := o) hsc.toScale k0 (hdist k k1) hunit (hdiff lA lB) (hdiff lC lA) k2
  obtain ⟨p, p1, p2, p3, p4⟩ := hitPoint_near hF hsc.toScale ho hd k1 hoL b1 b2 b3
  have f1 := (face_point_near hsc.toScale k0 (hdist k k1) hunit (hdiff lA lB) (hdiff lC lA) k2).2 p2 p3 p4
  refine C97_leave_face u η lo lo' hi hF hF' hist hcom q hq out.primId face va vb vc hface hva hvb hvc A B C hA hB hC
    (hitPoint ray out) direction minHit maxHit p e m p1 he hN hmin hm L hsc (hsize p p1) hmL _ κ f1 hleave ?_ rh0 out' h
  have e1 : 42 * u * L ^ 3 + 12 * u * L ^ 2 * m = 42 * (u * L ^ 3) + 12 * (u * L ^ 2) * m := by ring
  rw [e1] at hfar
  linarith

end

/-- a hit with the id of a kind of geometry is on geometry of that kind -/
theorem hit_on_double {s : Scene Double} {rs : List Nat} (hist : History s rs) (hcom : s.committed = true)
    (origin direction : Vec3 Double) (minHit maxHit : Double) {any : Bool} (o p : Vec3 ℚ) (m : ℚ)
    (ho : IsV origin o) (hdir : IsV direction p) (hmin : minHit.Is m) (hm : 0 ≤ m)
    (hp1 : 1 / 2 ^ 484 ≤ |p.x| + |p.y| + |p.z|) (hp2 : |p.x| + |p.y| + |p.z| ≤ 2 ^ 500) (rh0 out : RayHit Double)
    (h : s.intersect1 (Ray.make origin direction minHit maxHit any) rh0 = .ok (true, out)) :
    ∃ d, IsV (Ray.make origin direction minHit maxHit any).direction d ∧ |Vec3.dot d d - 1| ≤ 11 * (1 / 2 ^ 53) ∧
      (∀ q, s.spheres = some q → out.geomId = q.geomId → NearSphere (1 / 2 ^ 53) (1 / 2 ^ 484) (2 ^ 500) q.coll out.primId out.hitDistance o d) ∧
      (∀ q, s.planes = some q → out.geomId = q.geomId → NearRect (1 / 2 ^ 53) (1 / 2 ^ 484) (2 ^ 500) q.coll out.primId out.hitDistance o d) ∧
      (∀ q, s.mesh = some q → out.geomId = q.geomId →
        NearFace (1 / 2 ^ 53) (1 / 2 ^ 100) (2 ^ 100) ((2 - 1 / 2 ^ 52) * 2 ^ 1023) m q.coll out.primId out.hitDistance o d) := by
  have hids := hist.ids.2
  have i0 : ∀ q, s.mesh = some q → s.ids 0 = some q.geomId := fun q hq => by show s.mesh.map _ = _; rw [hq]; rfl
  have i1 : ∀ q, s.spheres = some q → s.ids 1 = some q.geomId := fun q hq => by show s.spheres.map _ = _; rw [hq]; rfl
  have i2 : ∀ q, s.planes = some q → s.ids 2 = some q.geomId := fun q hq => by show s.planes.map _ = _; rw [hq]; rfl
  have i3 : ∀ q, s.cylinders = some q → s.ids 3 = some q.geomId := fun q hq => by show s.cylinders.map _ = _; rw [hq]; rfl
  obtain ⟨d, h1, h2, h3⟩ := C83_double hist hcom origin direction minHit maxHit o p m ho hdir hmin hm hp1 hp2 rh0 out h
  refine ⟨d, h1, h2, ?_, ?_, ?_⟩
  · intro q hq hg
    rcases h3 with ⟨q', k1, k2, k3⟩ | ⟨q', k1, k2, -⟩ | ⟨q', k1, k2, -⟩ | ⟨q', k1, k2, -⟩
    · obtain rfl := Option.some.inj (hq.symm.trans k1); exact k3
    · exact absurd (hids 1 2 _ (i1 q hq) (by rw [i2 q' k1, ← k2, hg])) (by decide)
    · exact absurd (hids 1 0 _ (i1 q hq) (by rw [i0 q' k1, ← k2, hg])) (by decide)
    · exact absurd (hids 1 3 _ (i1 q hq) (by rw [i3 q' k1, ← k2, hg])) (by decide)
  · intro q hq hg
    rcases h3 with ⟨q', k1, k2, -⟩ | ⟨q', k1, k2, k3⟩ | ⟨q', k1, k2, -⟩ | ⟨q', k1, k2, -⟩
    · exact absurd (hids 2 1 _ (i2 q hq) (by rw [i1 q' k1, ← k2, hg])) (by decide)
    · obtain rfl := Option.some.inj (hq.symm.trans k1); exact k3
    · exact absurd (hids 2 0 _ (i2 q hq) (by rw [i0 q' k1, ← k2, hg])) (by decide)
    · exact absurd (hids 2 3 _ (i2 q hq) (by rw [i3 q' k1, ← k2, hg])) (by decide)
  · intro q hq hg
    rcases h3 with ⟨q', k1, k2, -⟩ | ⟨q', k1, k2, -⟩ | ⟨q', k1, k2, k3⟩ | ⟨q', k1, k2, -⟩
    · exact absurd (hids 0 1 _ (i0 q hq) (by rw [i1 q' k1, ← k2, hg])) (by decide)
    · exact absurd (hids 0 2 _ (i0 q hq) (by rw [i2 q' k1, ← k2, hg])) (by decide)
    · obtain rfl := Option.some.inj (hq.symm.trans k1); exact k3
    · exact absurd (hids 0 3 _ (i0 q hq) (by rw [i3 q' k1, ← k2, hg])) (by decide)

/-- **C97**, spheres, for `double`.  A first query reports a sphere; a second ray starts at the hit point, computed in `double` arithmetic,
and leaves the sphere (`κ` is a lower bound for the component of its stored direction `e` along the radius vector).  If its lower limit
is at least `2060 u L² / κ`, a query with it does not report the same sphere. -/
theorem C97_sphere_double {s : Scene Double} {rs : List Nat} (hist : History s rs) (hcom : s.committed = true)
    (q : Part (SphereColl Double) Double (Sphere Double)) (hq : s.spheres = some q)
    (origin direction : Vec3 Double) (minHit maxHit : Double) {any : Bool} (o p : Vec3 ℚ) (m : ℚ)
    (ho : IsV origin o) (hdir : IsV direction p) (hmin : minHit.Is m) (hm : 0 ≤ m)
    (hp1 : 1 / 2 ^ 484 ≤ |p.x| + |p.y| + |p.z|) (hp2 : |p.x| + |p.y| + |p.z| ≤ 2 ^ 500) (rh0 out : RayHit Double)
    (h : s.intersect1 (Ray.make origin direction minHit maxHit any) rh0 = .ok (true, out)) (hgeom : out.geomId = q.geomId)
    (center : Vec3 Double) (radius : Double) (hcj : q.coll.centers[out.primId]? = some center) (hrj : q.coll.radii[out.primId]? = some radius)
    (c : Vec3 ℚ) (r : ℚ) (hc : IsV center c) (hr : radius.Is r) (L : ℚ) (hL1 : 1 / 2 ^ 484 ≤ L) (hL2 : L ≤ 2 ^ 500)
    (hoL : |o.x| + |o.y| + |o.z| ≤ L) (hL : |o.x - c.x| + |o.y - c.y| + |o.z - c.z| + 3 * |r| ≤ L)
    (direction' : Vec3 Double) (minHit' maxHit' : Double) {any' : Bool} (p' e : Vec3 ℚ) (m' κ : ℚ) (hdir' : IsV direction' p')
    (hp1' : 1 / 2 ^ 484 ≤ |p'.x| + |p'.y| + |p'.z|) (hp2' : |p'.x| + |p'.y| + |p'.z| ≤ 2 ^ 500) (hmin' : minHit'.Is m') (hm' : 0 ≤ m')
    (he : IsV (Ray.make (hitPoint (Ray.make origin direction minHit maxHit any) out) direction' minHit' maxHit' any').direction e)
    (hκ : 0 ≤ κ) (hleave : ∀ x, IsV (hitPoint (Ray.make origin direction minHit maxHit any) out) x → κ ≤ Vec3.dot (x - c) e)
    (hfar : 2060 * (1 / 2 ^ 53) * L ^ 2 ≤ κ * m') (rh1 out' : RayHit Double)
    (h' : s.intersect1 (Ray.make (hitPoint (Ray.make origin direction minHit maxHit any) out) direction' minHit' maxHit' any') rh1 =
      .ok (true, out')) : ¬ SamePrim out' out := by
  obtain ⟨d, h1, -, h2, -, -⟩ := hit_on_double hist hcom origin direction minHit maxHit o p m ho hdir hmin hm hp1 hp2 rh0 out h
  obtain ⟨e', n, g1, g2, -⟩ := C68_direction _ _ _ rounds_double (hitPoint (Ray.make origin direction minHit maxHit any) out) direction'
    minHit' maxHit' any' p' hdir' (scale_double hp1' hp2')
  obtain rfl := g1.unique he
  have := shadow_sphere _ _ _ _ _ rounds_double hist hcom q hq (ray := Ray.make origin direction minHit maxHit any) ho h1
    (h2 q hq hgeom) center radius hcj hrj c r hc hr L (scale_double hL1 hL2) hL1 hL2 hoL hL direction' minHit' maxHit' e' m' κ he g2
    hmin' hm' hκ hleave hfar rh1 out' h'
  exact fun hs => this ⟨hs.1.trans hgeom, hs.2⟩

/-- **C97**, rectangles, for `double`.  The same for a rectangle: `κ` is a lower bound for the component of the direction along the normal
(the third column of the rotation), and the lower limit at least `(4230 u + 282 ε) L / κ`. -/
theorem C97_rectangle_double {s : Scene Double} {rs : List Nat} (hist : History s rs) (hcom : s.committed = true)
    (q : Part (PlaneColl Double) Double (Plane Double)) (hq : s.planes = some q)
    (origin direction : Vec3 Double) (minHit maxHit : Double) {any : Bool} (o p : Vec3 ℚ) (m : ℚ)
    (ho : IsV origin o) (hdir : IsV direction p) (hmin : minHit.Is m) (hm : 0 ≤ m)
    (hp1 : 1 / 2 ^ 484 ≤ |p.x| + |p.y| + |p.z|) (hp2 : |p.x| + |p.y| + |p.z| ≤ 2 ^ 500) (rh0 out : RayHit Double)
    (h : s.intersect1 (Ray.make origin direction minHit maxHit any) rh0 = .ok (true, out)) (hgeom : out.geomId = q.geomId)
    (center : Vec3 Double) (dx dy : Double) (rotation : Mat3 Double)
    (hcj : q.coll.centers[out.primId]? = some center) (hxj : q.coll.dxs[out.primId]? = some dx)
    (hyj : q.coll.dys[out.primId]? = some dy) (hrj : q.coll.rotations[out.primId]? = some rotation)
    (c : Vec3 ℚ) (a b : ℚ) (R : Mat3 ℚ) (ε : ℚ) (hc : IsV center c) (ha : dx.Is a) (hb : dy.Is b) (hR : IsM rotation R)
    (hε : NearOrtho ε R) (hε' : ε ≤ 1 / 1000) (L : ℚ) (hL1 : 1 / 2 ^ 484 ≤ L) (hL2 : L ≤ 2 ^ 500)
    (hoL : |o.x| + |o.y| + |o.z| ≤ L) (hL : |o.x - c.x| + |o.y - c.y| + |o.z - c.z| + 3 * (|a| + |b|) ≤ L)
    (direction' : Vec3 Double) (minHit' maxHit' : Double) {any' : Bool} (p' e : Vec3 ℚ) (m' κ : ℚ) (hdir' : IsV direction' p')
    (hp1' : 1 / 2 ^ 484 ≤ |p'.x| + |p'.y| + |p'.z|) (hp2' : |p'.x| + |p'.y| + |p'.z| ≤ 2 ^ 500) (hmin' : minHit'.Is m') (hm' : 0 ≤ m')
    (he : IsV (Ray.make (hitPoint (Ray.make origin direction minHit maxHit any) out) direction' minHit' maxHit' any').direction e)
    (hκ : 0 ≤ κ) (hleave : κ ≤ |Vec3.dot R.trans.r2 e|)
    (hfar : 4230 * (1 / 2 ^ 53) * L + 282 * ε * L ≤ κ * m') (rh1 out' : RayHit Double)
    (h' : s.intersect1 (Ray.make (hitPoint (Ray.make origin direction minHit maxHit any) out) direction' minHit' maxHit' any') rh1 =
      .ok (true, out')) : ¬ SamePrim out' out := by
  obtain ⟨d, h1, -, -, h2, -⟩ := hit_on_double hist hcom origin direction minHit maxHit o p m ho hdir hmin hm hp1 hp2 rh0 out h
  obtain ⟨e', n, g1, g2, -⟩ := C68_direction _ _ _ rounds_double (hitPoint (Ray.make origin direction minHit maxHit any) out) direction'
    minHit' maxHit' any' p' hdir' (scale_double hp1' hp2')
  obtain rfl := g1.unique he
  have := shadow_rectangle _ _ _ _ _ rounds_double faithful_double Format.binary64_odd hist hcom q hq
    (ray := Ray.make origin direction minHit maxHit any) ho h1 (h2 q hq hgeom) center dx dy rotation hcj hxj hyj hrj c a b R ε hc ha hb hR
    hε hε' L (scale_double hL1 hL2) hL1 hL2 hoL hL direction' minHit' maxHit' e' m' κ he g2 hmin' hm' hκ hleave hfar rh1 out' h'
  exact fun hs => this ⟨hs.1.trans hgeom, hs.2⟩

/-- **C97**, faces, for `double`.  The same for a face of a mesh: `κ` is a lower bound for the component of the direction along the normal
(not normalized: its length is twice the area), the first ray is not parallel to the face and reaches it within `L`, and the lower limit
is at least `42 u L³ / (κ - 12 u L²)`. -/
theorem C97_face_double {s : Scene Double} {rs : List Nat} (hist : History s rs) (hcom : s.committed = true)
    (q : Part (MeshColl Double) Double (Triangle Double)) (hq : s.mesh = some q)
    (origin direction : Vec3 Double) (minHit maxHit : Double) {any : Bool} (o p : Vec3 ℚ) (m : ℚ)
    (ho : IsV origin o) (hdir : IsV direction p) (hmin : minHit.Is m) (hm : 0 ≤ m)
    (hp1 : 1 / 2 ^ 484 ≤ |p.x| + |p.y| + |p.z|) (hp2 : |p.x| + |p.y| + |p.z| ≤ 2 ^ 500) (rh0 out : RayHit Double)
    (h : s.intersect1 (Ray.make origin direction minHit maxHit any) rh0 = .ok (true, out)) (hgeom : out.geomId = q.geomId)
    (d : Vec3 ℚ) (hd : IsV (Ray.make origin direction minHit maxHit any).direction d) (face : Vec3 Nat) (va vb vc : Vec3 Double)
    (hface : q.coll.faces[out.primId]? = some face) (hva : q.coll.vertices[face.x]? = some va)
    (hvb : q.coll.vertices[face.y]? = some vb) (hvc : q.coll.vertices[face.z]? = some vc)
    (A B C : Vec3 ℚ) (hA : IsV va A) (hB : IsV vb B) (hC : IsV vc C) (L : ℚ) (hL1 : 1 / 2 ^ 100 ≤ L) (hL2 : L ≤ 2 ^ 100)
    (hmL : 2 * L ^ 2 * m ≤ ((2 - 1 / 2 ^ 52) * 2 ^ 1023)) (hoL : |o.x| + |o.y| + |o.z| ≤ L) (hL : ∀ V ∈ [A, B, C], 2 * oneNorm (V - o) ≤ L)
    (hsteep : 11 * (1 / 2 ^ 53) * L ^ 2 ≤ |Vec3.dot (normalOf A B C) d|) (hdist : ∀ k, out.hitDistance.Is k → k ≤ L)
    (direction' : Vec3 Double) (minHit' maxHit' : Double) {any' : Bool} (p' e : Vec3 ℚ) (m' κ : ℚ) (hdir' : IsV direction' p')
    (hp1' : 1 / 2 ^ 484 ≤ |p'.x| + |p'.y| + |p'.z|) (hp2' : |p'.x| + |p'.y| + |p'.z| ≤ 2 ^ 500) (hmin' : minHit'.Is m') (hm' : 0 ≤ m')
    (hmL' : 2 * L ^ 2 * m' ≤ ((2 - 1 / 2 ^ 52) * 2 ^ 1023))
    (he : IsV (Ray.make (hitPoint (Ray.make origin direction minHit maxHit any) out) direction' minHit' maxHit' any').direction e)
    (hsize : ∀ x, IsV (hitPoint (Ray.make origin direction minHit maxHit any) out) x → ∀ V ∈ [A, B, C], 2 * oneNorm (V - x) ≤ L)
    (hleave : κ ≤ |Vec3.dot (normalOf A B C) e|) (hfar : 42 * (1 / 2 ^ 53) * L ^ 3 + 12 * (1 / 2 ^ 53) * L ^ 2 * m' ≤ κ * m') (rh1 out' : RayHit Double)
    (h' : s.intersect1 (Ray.make (hitPoint (Ray.make origin direction minHit maxHit any) out) direction' minHit' maxHit' any') rh1 =
      .ok (true, out')) : ¬ SamePrim out' out := by
  obtain ⟨d', h1, h0, -, -, h2⟩ := hit_on_double hist hcom origin direction minHit maxHit o p m ho hdir hmin hm hp1 hp2 rh0 out h
  obtain rfl := h1.unique hd
  obtain ⟨e', n, g1, g2, -⟩ := C68_direction _ _ _ rounds_double (hitPoint (Ray.make origin direction minHit maxHit any) out) direction'
    minHit' maxHit' any' p' hdir' (scale_double hp1' hp2')
  obtain rfl := g1.unique he
  have := shadow_face _ _ _ _ _ _ _ _ rounds_double relative_double hist hcom q hq
    (ray := Ray.make origin direction minHit maxHit any) ho h1 h0 (h2 q hq hgeom) face va vb vc hface hva hvb hvc A B C hA hB hC L
    (scale3_double hL1 hL2) hL1 hL2 hmL hoL hL hsteep hdist direction' minHit' maxHit' e' m' κ he g2 hmin' hm' hmL' hsize hleave hfar
    rh1 out' h'
  exact fun hs => this ⟨hs.1.trans hgeom, hs.2⟩

/-- a hit with the id of a kind of geometry is on geometry of that kind -/
theorem hit_on_float {s : Scene Single} {rs : List Nat} (hist : History s rs) (hcom : s.committed = true)
    (origin direction : Vec3 Single) (minHit maxHit : Single) {any : Bool} (o p : Vec3 ℚ) (m : ℚ)
    (ho : IsV origin o) (hdir : IsV direction p) (hmin : minHit.Is m) (hm : 0 ≤ m)
    (hp1 : 1 / 2 ^ 51 ≤ |p.x| + |p.y| + |p.z|) (hp2 : |p.x| + |p.y| + |p.z| ≤ 2 ^ 60) (rh0 out : RayHit Single)
    (h : s.intersect1 (Ray.make origin direction minHit maxHit any) rh0 = .ok (true, out)) :
    ∃ d, IsV (Ray.make origin direction minHit maxHit any).direction d ∧ |Vec3.dot d d - 1| ≤ 11 * (1 / 2 ^ 24) ∧
      (∀ q, s.spheres = some q → out.geomId = q.geomId → NearSphere (1 / 2 ^ 24) (1 / 2 ^ 51) (2 ^ 60) q.coll out.primId out.hitDistance o d) ∧
      (∀ q, s.planes = some q → out.geomId = q.geomId → NearRect (1 / 2 ^ 24) (1 / 2 ^ 51) (2 ^ 60) q.coll out.primId out.hitDistance o d) ∧
      (∀ q, s.mesh = some q → out.geomId = q.geomId →
        NearFace (1 / 2 ^ 24) (1 / 2 ^ 20) (2 ^ 15) ((2 - 1 / 2 ^ 23) * 2 ^ 127) m q.coll out.primId out.hitDistance o d) := by
  have hids := hist.ids.2
  have i0 : ∀ q, s.mesh = some q → s.ids 0 = some q.geomId := fun q hq => by show s.mesh.map _ = _; rw [hq]; rfl
  have i1 : ∀ q, s.spheres = some q → s.ids 1 = some q.geomId := fun q hq => by show s.spheres.map _ = _; rw [hq]; rfl
  have i2 : ∀ q, s.planes = some q → s.ids 2 = some q.geomId := fun q hq => by show s.planes.map _ = _; rw [hq]; rfl
  have i3 : ∀ q, s.cylinders = some q → s.ids 3 = some q.geomId := fun q hq => by show s.cylinders.map _ = _; rw [hq]; rfl
  obtain ⟨d, h1, h2, h3⟩ := C83_float hist hcom origin direction minHit maxHit o p m ho hdir hmin hm hp1 hp2 rh0 out h
  refine ⟨d, h1, h2, ?_, ?_, ?_⟩
  · intro q hq hg
    rcases h3 with ⟨q', k1, k2, k3⟩ | ⟨q', k1, k2, -⟩ | ⟨q', k1, k2, -⟩ | ⟨q', k1, k2, -⟩
    · obtain rfl := Option.some.inj (hq.symm.trans k1); exact k3
    · exact absurd (hids 1 2 _ (i1 q hq) (by rw [i2 q' k1, ← k2, hg])) (by decide)
    · exact absurd (hids 1 0 _ (i1 q hq) (by rw [i0 q' k1, ← k2, hg])) (by decide)
    · exact absurd (hids 1 3 _ (i1 q hq) (by rw [i3 q' k1, ← k2, hg])) (by decide)
  · intro q hq hg
    rcases h3 with ⟨q', k1, k2, -⟩ | ⟨q', k1, k2, k3⟩ | ⟨q', k1, k2, -⟩ | ⟨q', k1, k2, -⟩
    · exact absurd (hids 2 1 _ (i2 q hq) (by rw [i1 q' k1, ← k2, hg])) (by decide)
    · obtain rfl := Option.some.inj (hq.symm.trans k1); exact k3
    · exact absurd (hids 2 0 _ (i2 q hq) (by rw [i0 q' k1, ← k2, hg])) (by decide)
    · exact absurd (hids 2 3 _ (i2 q hq) (by rw [i3 q' k1, ← k2, hg])) (by decide)
  · intro q hq hg
    rcases h3 with ⟨q', k1, k2, -⟩ | ⟨q', k1, k2, -⟩ | ⟨q', k1, k2, k3⟩ | ⟨q', k1, k2, -⟩
    · exact absurd (hids 0 1 _ (i0 q hq) (by rw [i1 q' k1, ← k2, hg])) (by decide)
    · exact absurd (hids 0 2 _ (i0 q hq) (by rw [i2 q' k1, ← k2, hg])) (by decide)
    · obtain rfl := Option.some.inj (hq.symm.trans k1); exact k3
    · exact absurd (hids 0 3 _ (i0 q hq) (by rw [i3 q' k1, ← k2, hg])) (by decide)

/-- **C97**, spheres, for `float`.  A first query reports a sphere; a second ray starts at the hit point, computed in `float` arithmetic,
and leaves the sphere (`κ` is a lower bound for the component of its stored direction `e` along the radius vector).  If its lower limit
is at least `2060 u L² / κ`, a query with it does not report the same sphere. -/
theorem C97_sphere_float {s : Scene Single} {rs : List Nat} (hist : History s rs) (hcom : s.committed = true)
    (q : Part (SphereColl Single) Single (Sphere Single)) (hq : s.spheres = some q)
    (origin direction : Vec3 Single) (minHit maxHit : Single) {any : Bool} (o p : Vec3 ℚ) (m : ℚ)
    (ho : IsV origin o) (hdir : IsV direction p) (hmin : minHit.Is m) (hm : 0 ≤ m)
    (hp1 : 1 / 2 ^ 51 ≤ |p.x| + |p.y| + |p.z|) (hp2 : |p.x| + |p.y| + |p.z| ≤ 2 ^ 60) (rh0 out : RayHit Single)
    (h : s.intersect1 (Ray.make origin direction minHit maxHit any) rh0 = .ok (true, out)) (hgeom : out.geomId = q.geomId)
    (center : Vec3 Single) (radius : Single) (hcj : q.coll.centers[out.primId]? = some center) (hrj : q.coll.radii[out.primId]? = some radius)
    (c : Vec3 ℚ) (r : ℚ) (hc : IsV center c) (hr : radius.Is r) (L : ℚ) (hL1 : 1 / 2 ^ 51 ≤ L) (hL2 : L ≤ 2 ^ 60)
    (hoL : |o.x| + |o.y| + |o.z| ≤ L) (hL : |o.x - c.x| + |o.y - c.y| + |o.z - c.z| + 3 * |r| ≤ L)
    (direction' : Vec3 Single) (minHit' maxHit' : Single) {any' : Bool} (p' e : Vec3 ℚ) (m' κ : ℚ) (hdir' : IsV direction' p')
    (hp1' : 1 / 2 ^ 51 ≤ |p'.x| + |p'.y| + |p'.z|) (hp2' : |p'.x| + |p'.y| + |p'.z| ≤ 2 ^ 60) (hmin' : minHit'.Is m') (hm' : 0 ≤ m')
    (he : IsV (Ray.make (hitPoint (Ray.make origin direction minHit maxHit any) out) direction' minHit' maxHit' any').direction e)
    (hκ : 0 ≤ κ) (hleave : ∀ x, IsV (hitPoint (Ray.make origin direction minHit maxHit any) out) x → κ ≤ Vec3.dot (x - c) e)
    (hfar : 2060 * (1 / 2 ^ 24) * L ^ 2 ≤ κ * m') (rh1 out' : RayHit Single)
    (h' : s.intersect1 (Ray.make (hitPoint (Ray.make origin direction minHit maxHit any) out) direction' minHit' maxHit' any') rh1 =
      .ok (true, out')) : ¬ SamePrim out' out := by
  obtain ⟨d, h1, -, h2, -, -⟩ := hit_on_float hist hcom origin direction minHit maxHit o p m ho hdir hmin hm hp1 hp2 rh0 out h
  obtain ⟨e', n, g1, g2, -⟩ := C68_direction _ _ _ rounds_float (hitPoint (Ray.make origin direction minHit maxHit any) out) direction'
    minHit' maxHit' any' p' hdir' (scale_float hp1' hp2')
  obtain rfl := g1.unique he
  have := shadow_sphere _ _ _ _ _ rounds_float hist hcom q hq (ray := Ray.make origin direction minHit maxHit any) ho h1
    (h2 q hq hgeom) center radius hcj hrj c r hc hr L (scale_float hL1 hL2) hL1 hL2 hoL hL direction' minHit' maxHit' e' m' κ he g2
    hmin' hm' hκ hleave hfar rh1 out' h'
  exact fun hs => this ⟨hs.1.trans hgeom, hs.2⟩

/-- **C97**, rectangles, for `float`.  The same for a rectangle: `κ` is a lower bound for the component of the direction along the normal
(the third column of the rotation), and the lower limit at least `(4230 u + 282 ε) L / κ`. -/
theorem C97_rectangle_float {s : Scene Single} {rs : List Nat} (hist : History s rs) (hcom : s.committed = true)
    (q : Part (PlaneColl Single) Single (Plane Single)) (hq : s.planes = some q)
    (origin direction : Vec3 Single) (minHit maxHit : Single) {any : Bool} (o p : Vec3 ℚ) (m : ℚ)
    (ho : IsV origin o) (hdir : IsV direction p) (hmin : minHit.Is m) (hm : 0 ≤ m)
    (hp1 : 1 / 2 ^ 51 ≤ |p.x| + |p.y| + |p.z|) (hp2 : |p.x| + |p.y| + |p.z| ≤ 2 ^ 60) (rh0 out : RayHit Single)
    (h : s.intersect1 (Ray.make origin direction minHit maxHit any) rh0 = .ok (true, out)) (hgeom : out.geomId = q.geomId)
    (center : Vec3 Single) (dx dy : Single) (rotation : Mat3 Single)
    (hcj : q.coll.centers[out.primId]? = some center) (hxj : q.coll.dxs[out.primId]? = some dx)
    (hyj : q.coll.dys[out.primId]? = some dy) (hrj : q.coll.rotations[out.primId]? = some rotation)
    (c : Vec3 ℚ) (a b : ℚ) (R : Mat3 ℚ) (ε : ℚ) (hc : IsV center c) (ha : dx.Is a) (hb : dy.Is b) (hR : IsM rotation R)
    (hε : NearOrtho ε R) (hε' : ε ≤ 1 / 1000) (L : ℚ) (hL1 : 1 / 2 ^ 51 ≤ L) (hL2 : L ≤ 2 ^ 60)
    (hoL : |o.x| + |o.y| + |o.z| ≤ L) (hL : |o.x - c.x| + |o.y - c.y| + |o.z - c.z| + 3 * (|a| + |b|) ≤ L)
    (direction' : Vec3 Single) (minHit' maxHit' : Single) {any' : Bool} (p' e : Vec3 ℚ) (m' κ : ℚ) (hdir' : IsV direction' p')
    (hp1' : 1 / 2 ^ 51 ≤ |p'.x| + |p'.y| + |p'.z|) (hp2' : |p'.x| + |p'.y| + |p'.z| ≤ 2 ^ 60) (hmin' : minHit'.Is m') (hm' : 0 ≤ m')
    (he : IsV (Ray.make (hitPoint (Ray.make origin direction minHit maxHit any) out) direction' minHit' maxHit' any').direction e)
    (hκ : 0 ≤ κ) (hleave : κ ≤ |Vec3.dot R.trans.r2 e|)
    (hfar : 4230 * (1 / 2 ^ 24) * L + 282 * ε * L ≤ κ * m') (rh1 out' : RayHit Single)
    (h' : s.intersect1 (Ray.make (hitPoint (Ray.make origin direction minHit maxHit any) out) direction' minHit' maxHit' any') rh1 =
      .ok (true, out')) : ¬ SamePrim out' out := by
  obtain ⟨d, h1, -, -, h2, -⟩ := hit_on_float hist hcom origin direction minHit maxHit o p m ho hdir hmin hm hp1 hp2 rh0 out h
  obtain ⟨e', n, g1, g2, -⟩ := C68_direction _ _ _ rounds_float (hitPoint (Ray.make origin direction minHit maxHit any) out) direction'
    minHit' maxHit' any' p' hdir' (scale_float hp1' hp2')
  obtain rfl := g1.unique he
  have := shadow_rectangle _ _ _ _ _ rounds_float faithful_float Format.binary32_odd hist hcom q hq
    (ray := Ray.make origin direction minHit maxHit any) ho h1 (h2 q hq hgeom) center dx dy rotation hcj hxj hyj hrj c a b R ε hc ha hb hR
    hε hε' L (scale_float hL1 hL2) hL1 hL2 hoL hL direction' minHit' maxHit' e' m' κ he g2 hmin' hm' hκ hleave hfar rh1 out' h'
  exact fun hs => this ⟨hs.1.trans hgeom, hs.2⟩

/-- **C97**, faces, for `float`.  The same for a face of a mesh: `κ` is a lower bound for the component of the direction along the normal
(not normalized: its length is twice the area), the first ray is not parallel to the face and reaches it within `L`, and the lower limit
is at least `42 u L³ / (κ - 12 u L²)`. -/
theorem C97_face_float {s : Scene Single} {rs : List Nat} (hist : History s rs) (hcom : s.committed = true)
    (q : Part (MeshColl Single) Single (Triangle Single)) (hq : s.mesh = some q)
    (origin direction : Vec3 Single) (minHit maxHit : Single) {any : Bool} (o p : Vec3 ℚ) (m : ℚ)
    (ho : IsV origin o) (hdir : IsV direction p) (hmin : minHit.Is m) (hm : 0 ≤ m)
    (hp1 : 1 / 2 ^ 51 ≤ |p.x| + |p.y| + |p.z|) (hp2 : |p.x| + |p.y| + |p.z| ≤ 2 ^ 60) (rh0 out : RayHit Single)
    (h : s.intersect1 (Ray.make origin direction minHit maxHit any) rh0 = .ok (true, out)) (hgeom : out.geomId = q.geomId)
    (d : Vec3 ℚ) (hd : IsV (Ray.make origin direction minHit maxHit any).direction d) (face : Vec3 Nat) (va vb vc : Vec3 Single)
    (hface : q.coll.faces[out.primId]? = some face) (hva : q.coll.vertices[face.x]? = some va)
    (hvb : q.coll.vertices[face.y]? = some vb) (hvc : q.coll.vertices[face.z]? = some vc)
    (A B C : Vec3 ℚ) (hA : IsV va A) (hB : IsV vb B) (hC : IsV vc C) (L : ℚ) (hL1 : 1 / 2 ^ 20 ≤ L) (hL2 : L ≤ 2 ^ 15)
    (hmL : 2 * L ^ 2 * m ≤ ((2 - 1 / 2 ^ 23) * 2 ^ 127)) (hoL : |o.x| + |o.y| + |o.z| ≤ L) (hL : ∀ V ∈ [A, B, C], 2 * oneNorm (V - o) ≤ L)
    (hsteep : 11 * (1 / 2 ^ 24) * L ^ 2 ≤ |Vec3.dot (normalOf A B C) d|) (hdist : ∀ k, out.hitDistance.Is k → k ≤ L)
    (direction' : Vec3 Single) (minHit' maxHit' : Single) {any' : Bool} (p' e : Vec3 ℚ) (m' κ : ℚ) (hdir' : IsV direction' p')
    (hp1' : 1 / 2 ^ 51 ≤ |p'.x| + |p'.y| + |p'.z|) (hp2' : |p'.x| + |p'.y| + |p'.z| ≤ 2 ^ 60) (hmin' : minHit'.Is m') (hm' : 0 ≤ m')
    (hmL' : 2 * L ^ 2 * m' ≤ ((2 - 1 / 2 ^ 23) * 2 ^ 127))
    (he : IsV (Ray.make (hitPoint (Ray.make origin direction minHit maxHit any) out) direction' minHit' maxHit' any').direction e)
    (hsize : ∀ x, IsV (hitPoint (Ray.make origin direction minHit maxHit any) out) x → ∀ V ∈ [A, B, C], 2 * oneNorm (V - x) ≤ L)
    (hleave : κ ≤ |Vec3.dot (normalOf A B C) e|) (hfar : 42 * (1 / 2 ^ 24) * L ^ 3 + 12 * (1 / 2 ^ 24) * L ^ 2 * m' ≤ κ * m') (rh1 out' : RayHit Single)
    (h' : s.intersect1 (Ray.make (hitPoint (Ray.make origin direction minHit maxHit any) out) direction' minHit' maxHit' any') rh1 =
      .ok (true, out')) : ¬ SamePrim out' out := by
  obtain ⟨d', h1, h0, -, -, h2⟩ := hit_on_float hist hcom origin direction minHit maxHit o p m ho hdir hmin hm hp1 hp2 rh0 out h
  obtain rfl := h1.unique hd
  obtain ⟨e', n, g1, g2, -⟩ := C68_direction _ _ _ rounds_float (hitPoint (Ray.make origin direction minHit maxHit any) out) direction'
    minHit' maxHit' any' p' hdir' (scale_float hp1' hp2')
  obtain rfl := g1.unique he
  have := shadow_face _ _ _ _ _ _ _ _ rounds_float relative_float hist hcom q hq
    (ray := Ray.make origin direction minHit maxHit any) ho h1 h0 (h2 q hq hgeom) face va vb vc hface hva hvb hvc A B C hA hB hC L
    (scale3_float hL1 hL2) hL1 hL2 hmL hoL hL hsteep hdist direction' minHit' maxHit' e' m' κ he g2 hmin' hm' hmL' hsize hleave hfar
    rh1 out' h'
  exact fun hs => this ⟨hs.1.trans hgeom, hs.2⟩

/-! ### Examples, and the lower limits of zero -/

/-- two unit spheres -/
def shadowSpheres : List (Call Double) := [.addSpheres [dvec 0 0 0, dvec 5 (1/2) 5] [dbl 1, dbl 1], .commit]

def shadowFirst : Ray Double := Ray.make (dvec (3/4) (1/2) 3) (dvec 0 0 (-1)) (dbl 0) (dbl 100) false

/-- the ray from the hit point away from the first sphere, towards the second -/
def shadowSecond (out : RayHit Double) (minHit : Double) : Ray Double :=
  Ray.make (hitPoint shadowFirst out) (dvec 1 0 1) minHit (dbl 100) false

theorem shadow_first : ∃ (s : Scene Double) (rs : List Nat) (q : Part (SphereColl Double) Double (Sphere Double)) (out : RayHit Double),
    History s rs ∧ s.committed = true ∧ s.spheres = some q ∧ q.geomId = 0 ∧ q.coll.centers = [dvec 0 0 0, dvec 5 (1/2) 5] ∧
    q.coll.radii = [dbl 1, dbl 1] ∧ s.intersect1 shadowFirst RayHit.fresh = .ok (true, out) ∧ out.geomId = 0 ∧ out.primId = 0 ∧
    out.hitDistance = dbl (5780341519611499/2251799813685248) ∧
    (∃ out', s.intersect1 (shadowSecond out (dbl 0)) RayHit.fresh = .ok (true, out') ∧ SamePrim out' out ∧
      out'.hitDistance = dbl (1 / 2 ^ 53)) ∧
    (∃ out', s.intersect1 (shadowSecond out (dbl (1 / 2 ^ 30))) RayHit.fresh = .ok (true, out') ∧ out'.primId = 1) := by
  obtain ⟨s, h1, h2, h3, h5⟩ := exists_ok_of_eval (x := runCalls stablePartition shadowSpheres)
    (q := fun s => s.committed = true ∧ (s.spheres.elim false fun q => decide (q.geomId = 0 ∧
        q.coll.centers = [dvec 0 0 0, dvec 5 (1/2) 5] ∧ q.coll.radii = [dbl 1, dbl 1])) = true ∧
      evalOk (s.intersect1 shadowFirst RayHit.fresh) (fun r => decide (r.1 = true ∧ r.2.geomId = 0 ∧ r.2.primId = 0 ∧
        r.2.hitDistance = dbl (5780341519611499/2251799813685248) ∧
        evalOk (s.intersect1 (shadowSecond r.2 (dbl 0)) RayHit.fresh) (fun r' => decide (r'.1 = true ∧ (r'.2.geomId = r.2.geomId ∧
          r'.2.primId = r.2.primId) ∧ r'.2.hitDistance = dbl (1 / 2 ^ 53))) = true ∧
        evalOk (s.intersect1 (shadowSecond r.2 (dbl (1 / 2 ^ 30))) RayHit.fresh) (fun r' => decide (r'.1 = true ∧ r'.2.primId = 1)) =
          true)) = true) (by decide +kernel)
  obtain ⟨rs, hs⟩ := runCalls_history h1
  cases hq : s.spheres with
  | none => rw [hq] at h3; cases h3
  | some q =>
    rw [hq] at h3
    obtain ⟨c1, c2, c3⟩ := of_decide_eq_true (show decide _ = true from h3)
    obtain ⟨⟨hit, out⟩, hr, hhit, e2, e3, e4, e5, e6⟩ := exists_ok_of_eval (x := s.intersect1 shadowFirst RayHit.fresh)
      (q := fun r => r.1 = true ∧ r.2.geomId = 0 ∧ r.2.primId = 0 ∧
        r.2.hitDistance = dbl (5780341519611499/2251799813685248) ∧
        evalOk (s.intersect1 (shadowSecond r.2 (dbl 0)) RayHit.fresh) (fun r' => decide (r'.1 = true ∧ (r'.2.geomId = r.2.geomId ∧
          r'.2.primId = r.2.primId) ∧ r'.2.hitDistance = dbl (1 / 2 ^ 53))) = true ∧
        evalOk (s.intersect1 (shadowSecond r.2 (dbl (1 / 2 ^ 30))) RayHit.fresh) (fun r' => decide (r'.1 = true ∧ r'.2.primId = 1)) =
          true) h5
    obtain rfl : hit = true := hhit
    obtain ⟨⟨hit1, out1⟩, k1, k2, k3, k4⟩ := exists_ok_of_eval
      (q := fun r' : Bool × RayHit Double => r'.1 = true ∧ (r'.2.geomId = out.geomId ∧
        r'.2.primId = out.primId) ∧ r'.2.hitDistance = dbl (1 / 2 ^ 53)) e5
    obtain rfl : hit1 = true := k2
    obtain ⟨⟨hit2, out2⟩, l1, l2, l3⟩ := exists_ok_of_eval (q := fun r' : Bool × RayHit Double => r'.1 = true ∧ r'.2.primId = 1) e6
    obtain rfl : hit2 = true := l2
    exact ⟨s, rs, q, out, hs, h2, hq, c1, c2, c3, hr, e2, e3, e4, ⟨out1, k1, k3, k4⟩, out2, l1, l3⟩

/-- **C97**, the negation for the default lower limit of zero (`double`).  In a scene with two spheres a ray starts at a reported hit point
on the first one, and leaves it: the query reports that sphere again, at the distance `2^-53`, instead of the second one. -/
theorem C97_zero_limit : ∃ (s : Scene Double) (rs : List Nat) (out out' : RayHit Double) (p e : Vec3 ℚ), History s rs ∧
    s.committed = true ∧ s.intersect1 shadowFirst RayHit.fresh = .ok (true, out) ∧
    IsV (hitPoint shadowFirst out) p ∧ IsV (shadowSecond out (dbl 0)).direction e ∧ 3 / 4 ≤ Vec3.dot (p - ⟨0, 0, 0⟩) e ∧
    s.intersect1 (shadowSecond out (dbl 0)) RayHit.fresh = .ok (true, out') ∧ SamePrim out' out ∧ out'.hitDistance = dbl (1 / 2 ^ 53) := by
  obtain ⟨s, rs, q, out, hs, h2, -, -, -, -, hr, -, -, e4, ⟨out', k1, k2, k3⟩, -⟩ := shadow_first
  have hp : hitPoint shadowFirst out = dvec (3/4) (1/2) (975057921444245/2251799813685248) := by
    unfold hitPoint
    rw [e4]
    decide +kernel
  refine ⟨s, rs, out, out', ⟨3/4, 1/2, 975057921444245/2251799813685248⟩,
    ⟨1592262918131443/2251799813685248, 0, 1592262918131443/2251799813685248⟩, hs, h2, hr, ?_, ?_, by decide +kernel, k1, k2, k3⟩
  · rw [hp]
    exact dvec_is (sx := false) (sy := false) (sz := false) (by decide +kernel)
  · show IsV (Vec3.normalize (dvec 1 0 1)) _
    exact ⟨⟨false, by decide +kernel⟩, ⟨false, by decide +kernel⟩, ⟨false, by decide +kernel⟩⟩

/-- C97 applied to this scene, with a lower limit of `2^-30`: whatever the second query reports, it is not the first sphere; it is
indeed the second one. -/
example : ∃ (s : Scene Double) (out out' : RayHit Double), s.intersect1 shadowFirst RayHit.fresh = .ok (true, out) ∧
    s.intersect1 (shadowSecond out (dbl (1 / 2 ^ 30))) RayHit.fresh = .ok (true, out') ∧ out'.primId = 1 ∧ ¬ SamePrim out' out := by
  obtain ⟨s, rs, q, out, hs, h2, hq, hg, hcs, hrs, hr, e2, e3, e4, -, out', l1, l2⟩ := shadow_first
  refine ⟨s, out, out', hr, l1, l2, ?_⟩
  have hp : hitPoint shadowFirst out = dvec (3/4) (1/2) (975057921444245/2251799813685248) := by
    unfold hitPoint
    rw [e4]
    decide +kernel
  have he : IsV (Vec3.normalize (dvec 1 0 1)) (⟨1592262918131443/2251799813685248, 0, 1592262918131443/2251799813685248⟩ : Vec3 ℚ) :=
    ⟨⟨false, by decide +kernel⟩, ⟨false, by decide +kernel⟩, ⟨false, by decide +kernel⟩⟩
  refine C97_sphere_double hs h2 q hq (dvec (3/4) (1/2) 3) (dvec 0 0 (-1)) (dbl 0) (dbl 100) (any := false) ⟨3/4, 1/2, 3⟩ ⟨0, 0, -1⟩ 0
    (dvec_is (sx := false) (sy := false) (sz := false) (by decide +kernel))
    (dvec_is (sx := false) (sy := false) (sz := true) (by decide +kernel)) ⟨false, by decide +kernel⟩ le_rfl (by decide +kernel)
    (by decide +kernel) RayHit.fresh out hr (e2.trans hg.symm) (dvec 0 0 0) (dbl 1) (by rw [e3, hcs]; rfl) (by rw [e3, hrs]; rfl)
    ⟨0, 0, 0⟩ 1 (dvec_is (sx := false) (sy := false) (sz := false) (by decide +kernel)) ⟨false, by decide +kernel⟩ 8 (by decide +kernel)
    (by decide +kernel) (by decide +kernel) (by decide +kernel) (dvec 1 0 1) (dbl (1 / 2 ^ 30)) (dbl 100) (any' := false) ⟨1, 0, 1⟩ _
    (1 / 2 ^ 30) (1 / 2) (dvec_is (sx := false) (sy := false) (sz := false) (by decide +kernel)) (by decide +kernel) (by decide +kernel)
    ⟨false, by decide +kernel⟩ (by decide +kernel) he (by decide +kernel) ?_ (by decide +kernel) RayHit.fresh out' l1
  intro x hx
  have hx' : IsV (hitPoint shadowFirst out) x := hx
  rw [hp] at hx'
  have : IsV (dvec (3/4) (1/2) (975057921444245/2251799813685248)) (⟨3/4, 1/2, 975057921444245/2251799813685248⟩ : Vec3 ℚ) :=
    dvec_is (sx := false) (sy := false) (sz := false) (by decide +kernel)
  obtain rfl := this.unique hx'
  decide +kernel

/-- a cylinder of radius 1 and height 2 -/
def shadowTube : List (Call Double) := [.addCylinders [dvec 0 0 0] [dbl 1] [dbl 1] [dbl 2] [idMat], .commit]

def tubeFirst : Ray Double := Ray.make (dvec 3 (3/8) (1/4)) (dvec (-1) 0 0) (dbl 0) (dbl 100) false

/-- **C97**, the negation for cylinders (`double`).  A ray starts at a reported hit point on the tube and leaves
it, at more than 45 degrees; its lower limit is 1/16.  The query reports the cylinder again, at a distance between 1 and 2, where the ray is
far off the cylinder of radius 1 (`x > 3/2`); the lower limit has kept no hit on that cylinder away, since its test ignores the limit. -/
theorem C97_tube : ∃ (s : Scene Double) (rs : List Nat) (out out' : RayHit Double) (p e : Vec3 ℚ) (t : ℚ), History s rs ∧
    s.committed = true ∧ s.intersect1 tubeFirst RayHit.fresh = .ok (true, out) ∧
    IsV (hitPoint tubeFirst out) p ∧
    IsV (Ray.make (hitPoint tubeFirst out) (dvec 1 1 1) (dbl (1/16)) (dbl 100) false).direction e ∧
    7 / 10 ≤ p.x * e.x + p.y * e.y ∧
    s.intersect1 (Ray.make (hitPoint tubeFirst out) (dvec 1 1 1) (dbl (1/16)) (dbl 100) false) RayHit.fresh = .ok (true, out') ∧
    SamePrim out' out ∧ out'.hitDistance.Is t ∧ 1 < t ∧ t < 2 ∧ 3 / 2 < (along p e t).x := by
  obtain ⟨s, h1, h2, h5⟩ := exists_ok_of_eval (x := runCalls stablePartition shadowTube)
    (q := fun s => s.committed = true ∧
      evalOk (s.intersect1 tubeFirst RayHit.fresh) (fun r => decide (r.1 = true ∧
        hitPoint tubeFirst r.2 = dvec (1043737148218427/1125899906842624) (3/8) (1/4) ∧
        evalOk (s.intersect1 (Ray.make (hitPoint tubeFirst r.2) (dvec 1 1 1) (dbl (1/16)) (dbl 100) false) RayHit.fresh)
          (fun r' => decide (r'.1 = true ∧ (r'.2.geomId = r.2.geomId ∧ r'.2.primId = r.2.primId) ∧
            r'.2.hitDistance = dbl (45705840067699/35184372088832))) = true)) = true) (by decide +kernel)
  obtain ⟨rs, hs⟩ := runCalls_history h1
  obtain ⟨⟨hit, out⟩, hr, hhit, e4, e5⟩ := exists_ok_of_eval (x := s.intersect1 tubeFirst RayHit.fresh)
    (q := fun r => r.1 = true ∧ hitPoint tubeFirst r.2 = dvec (1043737148218427/1125899906842624) (3/8) (1/4) ∧
        evalOk (s.intersect1 (Ray.make (hitPoint tubeFirst r.2) (dvec 1 1 1) (dbl (1/16)) (dbl 100) false) RayHit.fresh)
          (fun r' => decide (r'.1 = true ∧ (r'.2.geomId = r.2.geomId ∧ r'.2.primId = r.2.primId) ∧
            r'.2.hitDistance = dbl (45705840067699/35184372088832))) = true) h5
  obtain rfl : hit = true := hhit
  obtain ⟨⟨hit1, out1⟩, k1, k2, k3, k4⟩ := exists_ok_of_eval
    (q := fun r' : Bool × RayHit Double => r'.1 = true ∧ (r'.2.geomId = out.geomId ∧ r'.2.primId = out.primId) ∧
      r'.2.hitDistance = dbl (45705840067699/35184372088832)) e5
  obtain rfl : hit1 = true := k2
  refine ⟨s, rs, out, out1, ⟨1043737148218427/1125899906842624, 3/8, 1/4⟩, ⟨5200308914369309/9007199254740992, 5200308914369309/9007199254740992, 5200308914369309/9007199254740992⟩, 45705840067699/35184372088832, hs, h2, hr,
    ?_, ?_, by decide +kernel, k1, k3, ?_, by norm_num, by norm_num, by decide +kernel⟩
  · have e4' : hitPoint tubeFirst out = _ := e4
    rw [e4']
    exact dvec_is (sx := false) (sy := false) (sz := false) (by decide +kernel)
  · show IsV (Vec3.normalize (dvec 1 1 1)) _
    exact ⟨⟨false, by decide +kernel⟩, ⟨false, by decide +kernel⟩, ⟨false, by decide +kernel⟩⟩
  · have k4' : out1.hitDistance = _ := k4
    rw [k4']
    exact ⟨false, by decide +kernel⟩

/-- the ray down from `(1/4, 1/4, 2)` -/
def downFirst : Ray Double := Ray.make (dvec (1/4) (1/4) 2) (dvec 0 0 (-1)) (dbl 0) (dbl 100) false

/-- the ray up again from the hit point -/
def upSecond (out : RayHit Double) : Ray Double := Ray.make (hitPoint downFirst out) (dvec 1 0 1) (dbl (1 / 2 ^ 30)) (dbl 100) false

/-- C97 applied to two rectangles above each other. -/
example : ∃ (s : Scene Double) (out out' : RayHit Double), s.intersect1 downFirst RayHit.fresh = .ok (true, out) ∧
    s.intersect1 (upSecond out) RayHit.fresh = .ok (true, out') ∧ out'.primId = 1 ∧ ¬ SamePrim out' out := by
  obtain ⟨s, h1, h2, h3, h5⟩ := exists_ok_of_eval
    (x := runCalls stablePartition [Call.addPlanes [dvec 0 0 0, dvec 0 0 3] [dbl 1, dbl 9] [dbl 1, dbl 9] [idMat, idMat], .commit])
    (q := fun s => s.committed = true ∧ (s.planes.elim false fun q => decide (q.geomId = 0 ∧
        q.coll.centers = [dvec 0 0 0, dvec 0 0 3] ∧ q.coll.dxs = [dbl 1, dbl 9] ∧ q.coll.dys = [dbl 1, dbl 9] ∧
        q.coll.rotations = [idMat, idMat])) = true ∧
      evalOk (s.intersect1 downFirst RayHit.fresh) (fun r => decide (r.1 = true ∧ r.2.geomId = 0 ∧ r.2.primId = 0 ∧
        evalOk (s.intersect1 (upSecond r.2) RayHit.fresh) (fun r' => decide (r'.1 = true ∧ r'.2.primId = 1)) = true)) = true)
    (by decide +kernel)
  obtain ⟨rs, hs⟩ := runCalls_history h1
  cases hq : s.planes with
  | none => rw [hq] at h3; cases h3
  | some q =>
    rw [hq] at h3
    obtain ⟨c1, c2, c3, c4, c5⟩ := of_decide_eq_true (show decide _ = true from h3)
    obtain ⟨⟨hit, out⟩, hr, hhit, e2, e3, e5⟩ := exists_ok_of_eval (x := s.intersect1 downFirst RayHit.fresh)
      (q := fun r => r.1 = true ∧ r.2.geomId = 0 ∧ r.2.primId = 0 ∧
        evalOk (s.intersect1 (upSecond r.2) RayHit.fresh) (fun r' => decide (r'.1 = true ∧ r'.2.primId = 1)) = true) h5
    obtain rfl : hit = true := hhit
    obtain ⟨⟨hit', out'⟩, k1, k2, k3⟩ := exists_ok_of_eval (q := fun r' : Bool × RayHit Double => r'.1 = true ∧ r'.2.primId = 1) e5
    obtain rfl : hit' = true := k2
    have e2' : out.geomId = 0 := e2
    have e3' : out.primId = 0 := e3
    have he : IsV (Vec3.normalize (dvec 1 0 1)) (⟨1592262918131443/2251799813685248, 0, 1592262918131443/2251799813685248⟩ : Vec3 ℚ) :=
      ⟨⟨false, by decide +kernel⟩, ⟨false, by decide +kernel⟩, ⟨false, by decide +kernel⟩⟩
    exact ⟨s, out, out', hr, k1, k3, C97_rectangle_double hs h2 q hq (dvec (1/4) (1/4) 2) (dvec 0 0 (-1)) (dbl 0) (dbl 100) (any := false)
      ⟨1/4, 1/4, 2⟩ ⟨0, 0, -1⟩ 0 (dvec_is (sx := false) (sy := false) (sz := false) (by decide +kernel))
      (dvec_is (sx := false) (sy := false) (sz := true) (by decide +kernel)) ⟨false, by decide +kernel⟩ le_rfl (by decide +kernel)
      (by decide +kernel) RayHit.fresh out hr (e2'.trans c1.symm) (dvec 0 0 0) (dbl 1) (dbl 1) idMat (by rw [e3', c2]; rfl)
      (by rw [e3', c3]; rfl) (by rw [e3', c4]; rfl) (by rw [e3', c5]; rfl) ⟨0, 0, 0⟩ 1 1 ⟨⟨1, 0, 0⟩, ⟨0, 1, 0⟩, ⟨0, 0, 1⟩⟩ 0
      (dvec_is (sx := false) (sy := false) (sz := false) (by decide +kernel)) ⟨false, by decide +kernel⟩ ⟨false, by decide +kernel⟩
      ⟨dvec_is (sx := false) (sy := false) (sz := false) (by decide +kernel),
        dvec_is (sx := false) (sy := false) (sz := false) (by decide +kernel),
        dvec_is (sx := false) (sy := false) (sz := false) (by decide +kernel)⟩ (by constructor <;> constructor <;> decide +kernel) (by norm_num) 9
      (by decide +kernel) (by decide +kernel) (by decide +kernel) (by decide +kernel) (dvec 1 0 1) (dbl (1 / 2 ^ 30)) (dbl 100)
      (any' := false) ⟨1, 0, 1⟩ _ (1 / 2 ^ 30) (1 / 2) (dvec_is (sx := false) (sy := false) (sz := false) (by decide +kernel))
      (by decide +kernel) (by decide +kernel) ⟨false, by decide +kernel⟩ (by decide +kernel) he (by decide +kernel) (by decide +kernel)
      (by decide +kernel) RayHit.fresh out' k1⟩

/-- C97 applied to a mesh of two triangles above each other. -/
example : ∃ (s : Scene Double) (out out' : RayHit Double), s.intersect1 downFirst RayHit.fresh = .ok (true, out) ∧
    s.intersect1 (upSecond out) RayHit.fresh = .ok (true, out') ∧ out'.primId = 1 ∧ ¬ SamePrim out' out := by
  obtain ⟨s, h1, h2, h3, h5⟩ := exists_ok_of_eval
    (x := runCalls stablePartition [Call.addMesh [dvec 0 0 0, dvec 1 0 0, dvec 0 1 0, dvec (-9) (-9) 3, dvec 9 (-9) 3, dvec 9 9 3]
      [⟨0, 1, 2⟩, ⟨3, 4, 5⟩], .commit])
    (q := fun s => s.committed = true ∧ (s.mesh.elim false fun q => decide (q.geomId = 0 ∧
        q.coll.vertices = [dvec 0 0 0, dvec 1 0 0, dvec 0 1 0, dvec (-9) (-9) 3, dvec 9 (-9) 3, dvec 9 9 3] ∧
        q.coll.faces = [⟨0, 1, 2⟩, ⟨3, 4, 5⟩])) = true ∧
      evalOk (s.intersect1 downFirst RayHit.fresh) (fun r => decide (r.1 = true ∧ r.2.geomId = 0 ∧ r.2.primId = 0 ∧
        r.2.hitDistance = dbl 2 ∧
        evalOk (s.intersect1 (upSecond r.2) RayHit.fresh) (fun r' => decide (r'.1 = true ∧ r'.2.primId = 1)) = true)) = true)
    (by decide +kernel)
  obtain ⟨rs, hs⟩ := runCalls_history h1
  cases hq : s.mesh with
  | none => rw [hq] at h3; cases h3
  | some q =>
    rw [hq] at h3
    obtain ⟨c1, c2, c3⟩ := of_decide_eq_true (show decide _ = true from h3)
    obtain ⟨⟨hit, out⟩, hr, hhit, e2, e3, e4, e5⟩ := exists_ok_of_eval (x := s.intersect1 downFirst RayHit.fresh)
      (q := fun r => r.1 = true ∧ r.2.geomId = 0 ∧ r.2.primId = 0 ∧ r.2.hitDistance = dbl 2 ∧
        evalOk (s.intersect1 (upSecond r.2) RayHit.fresh) (fun r' => decide (r'.1 = true ∧ r'.2.primId = 1)) = true) h5
    obtain rfl : hit = true := hhit
    obtain ⟨⟨hit', out'⟩, k1, k2, k3⟩ := exists_ok_of_eval (q := fun r' : Bool × RayHit Double => r'.1 = true ∧ r'.2.primId = 1) e5
    obtain rfl : hit' = true := k2
    have e2' : out.geomId = 0 := e2
    have e3' : out.primId = 0 := e3
    have e4' : out.hitDistance = dbl 2 := e4
    have hp : hitPoint downFirst out = dvec (1/4) (1/4) 0 := by
      unfold hitPoint
      rw [e4']
      decide +kernel
    have he : IsV (Vec3.normalize (dvec 1 0 1)) (⟨1592262918131443/2251799813685248, 0, 1592262918131443/2251799813685248⟩ : Vec3 ℚ) :=
      ⟨⟨false, by decide +kernel⟩, ⟨false, by decide +kernel⟩, ⟨false, by decide +kernel⟩⟩
    refine ⟨s, out, out', hr, k1, k3, C97_face_double hs h2 q hq (dvec (1/4) (1/4) 2) (dvec 0 0 (-1)) (dbl 0) (dbl 100) (any := false)
      ⟨1/4, 1/4, 2⟩ ⟨0, 0, -1⟩ 0 (dvec_is (sx := false) (sy := false) (sz := false) (by decide +kernel))
      (dvec_is (sx := false) (sy := false) (sz := true) (by decide +kernel)) ⟨false, by decide +kernel⟩ le_rfl (by decide +kernel)
      (by decide +kernel) RayHit.fresh out hr (e2'.trans c1.symm) ⟨0, 0, -1⟩ ?_ ⟨0, 1, 2⟩ (dvec 0 0 0) (dvec 1 0 0) (dvec 0 1 0)
      (by rw [e3', c3]; rfl) (by rw [c2]; rfl) (by rw [c2]; rfl) (by rw [c2]; rfl) ⟨0, 0, 0⟩ ⟨1, 0, 0⟩ ⟨0, 1, 0⟩
      (dvec_is (sx := false) (sy := false) (sz := false) (by decide +kernel))
      (dvec_is (sx := false) (sy := false) (sz := false) (by decide +kernel))
      (dvec_is (sx := false) (sy := false) (sz := false) (by decide +kernel)) 9 (by decide +kernel) (by decide +kernel) (by decide +kernel)
      (by decide +kernel) (by decide +kernel) (by decide +kernel) ?_ (dvec 1 0 1) (dbl (1 / 2 ^ 30)) (dbl 100)
      (any' := false) ⟨1, 0, 1⟩ _ (1 / 2 ^ 30) (1 / 2) (dvec_is (sx := false) (sy := false) (sz := false) (by decide +kernel))
      (by decide +kernel) (by decide +kernel) ⟨false, by decide +kernel⟩ (by decide +kernel) (by decide +kernel) he ?_ (by decide +kernel)
      (by decide +kernel) RayHit.fresh out' k1⟩
    · show IsV (Vec3.normalize (dvec 0 0 (-1))) _
      exact ⟨⟨false, by decide +kernel⟩, ⟨false, by decide +kernel⟩, ⟨true, by decide +kernel⟩⟩
    · intro k hk
      rw [e4'] at hk
      have h2 : (dbl 2).Is (2 : ℚ) := ⟨false, by decide +kernel⟩
      rw [← h2.unique hk]
      norm_num
    · intro x hx
      have hx' : IsV (hitPoint downFirst out) x := hx
      rw [hp] at hx'
      have : IsV (dvec (1/4) (1/4) 0) (⟨1/4, 1/4, 0⟩ : Vec3 ℚ) :=
        dvec_is (sx := false) (sy := false) (sz := false) (by decide +kernel)
      obtain rfl := this.unique hx'
      decide +kernel

end Blazert
