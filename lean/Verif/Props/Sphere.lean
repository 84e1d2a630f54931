/- C25, C26, C27, C40: spheres, in exact arithmetic. -/
import Verif.Proofs.Sphere
import Verif.Samples
import Verif.SamplesReal

set_option autoImplicit false

namespace Blazert
open Scalar

variable {F : Fmt ℝ}

/-- **C25**.  For a ray `o + t d` with unit direction and nonnegative minimal distance `m`, the sphere test accepts exactly
when the sphere is met at some distance strictly between `m` and the closest distance so far (`i.hd`), it then records the
smallest such distance, and it changes nothing when it rejects.  (For negative `m` see `C25_negative_min`.) -/
theorem C25_sphere_exact (hF : F.Exact) (i : SphereI (XF F)) (s : Sphere (XF F)) (ray : Ray (XF F))
    (c o d : Vec3 ℝ) (r m : ℝ) (hc : IsV s.center c) (hr : s.radius.Is r) (hr0 : 0 ≤ r)
    (ho : IsV i.rayOrg o) (hdir : IsV i.rayDir d) (hmin : i.minHit.Is m) (hd : sq d = 1) (hm : 0 ≤ m) :
    ((sphereIntersect i s ray).2 = true ↔ ∃ t, m < t ∧ i.hd.Above t ∧ OnSphere c r (along o d t)) ∧
    ((sphereIntersect i s ray).2 = true → ∃ t, (sphereIntersect i s ray).1.hd.Is t ∧
      IsLeast {t | m < t ∧ i.hd.Above t ∧ OnSphere c r (along o d t)} t ∧
      (sphereIntersect i s ray).1.primId = s.primId) ∧
    ((sphereIntersect i s ray).2 = false → (sphereIntersect i s ray).1 = i) := by
  rcases sphereIntersect_cases hF i s ray c o d r m hc hr hr0 ⟨ho, hdir, hmin⟩ hd hm with
    ⟨he, hn⟩ | ⟨t, h1, h2, h3, h4, hd', h5, he⟩
  · rw [he]
    refine ⟨⟨fun h => by simp at h, ?_⟩, fun h => by simp at h, fun _ => rfl⟩
    rintro ⟨t, h1, h2, h3⟩
    exact absurd h3 (hn t h1 h2)
  · rw [he]
    refine ⟨⟨fun _ => ⟨t, h1, h2, h3⟩, fun _ => rfl⟩, fun _ => ⟨t, h5, ⟨⟨h1, h2, h3⟩, ?_⟩, rfl⟩, fun h => by simp at h⟩
    rintro t' ⟨g1, g2, g3⟩
    exact h4 t' g1 g3 g2

/-- the unit sphere at the origin from `(-3,0,0)` along `x` -/
example : (sphereIntersect (T := XF exactFmt) ⟨rvec (-3) 0 0, rvec 1 0 0, rl 0, (rl 0, rl 0), .inf false, 0⟩
    ⟨rvec 0 0 0, rl 1, 7⟩ (Ray.make' (rvec (-3) 0 0) (rvec 1 0 0))).2 = true := by
  rw [(C25_sphere_exact exactFmt_exact _ _ _ ⟨0, 0, 0⟩ ⟨-3, 0, 0⟩ ⟨1, 0, 0⟩ 1 0 (rvec_is _ _ _) (rl_is _) (by norm_num)
    (rvec_is _ _ _) (rvec_is _ _ _) (rl_is _) (by norm_num [sq, Vec3.dot]) (by norm_num)).1]
  refine ⟨2, by norm_num, .inl rfl, ?_⟩
  rw [OnSphere, dist3_eq_iff (by norm_num)]
  norm_num [sq, Vec3.dot, along]

/-- **C25** is false for negative minimal distances: a sphere behind the origin of the ray, met at `t = -4`, is reported as
a hit at distance `+4`. -/
theorem C25_negative_min :
    let i : SphereI Double := ⟨dvec 3 0 0, dvec 1 0 0, dbl (-10), (dbl 0, dbl 0), dbl 10, 0⟩
    (sphereIntersect i ⟨dvec 0 0 0, dbl 1, 7⟩ (Ray.make' (dvec 3 0 0) (dvec 1 0 0))).2 = true ∧
    (sphereIntersect i ⟨dvec 0 0 0, dbl 1, 7⟩ (Ray.make' (dvec 3 0 0) (dvec 1 0 0))).1.hd = dbl 4 := by
  decide +kernel

/-- **C26**.  The normal reported for a sphere hit has length 1 and points from the center to the hit point. -/
theorem C26_sphere_normal (hF : F.Exact) (coll : SphereColl (XF F)) (i i' : SphereI (XF F)) (s : Sphere (XF F))
    (ray : Ray (XF F)) (rh rh' : RayHit (XF F)) (c o d : Vec3 ℝ) (r m : ℝ)
    (hprim : coll.toCollection.prim s.primId = .ok s)
    (hc : IsV s.center c) (hr : s.radius.Is r) (hr0 : 0 < r)
    (ho : IsV i.rayOrg o) (hdir : IsV i.rayDir d) (hmin : i.minHit.Is m) (hd : sq d = 1) (hm : 0 ≤ m)
    (hhit : sphereIntersect i s ray = (i', true)) (hpost : spherePost coll i' rh = .ok rh') :
    ∃ n t, IsV rh'.normal n ∧ rh'.hitDistance.Is t ∧ len n = 1 ∧ along o d t = c + Vec3.smul r n := by
  rcases sphereIntersect_cases hF i s ray c o d r m hc hr hr0.le ⟨ho, hdir, hmin⟩ hd hm with
    ⟨he, _⟩ | ⟨t, _, _, h3, _, hd', h5, he⟩
  · rw [he] at hhit; simp at hhit
  · rw [he] at hhit
    simp only [Prod.mk.injEq, and_true] at hhit
    subst hhit
    have hcen : lookup .oobIndex coll.centers s.primId = .ok s.center := by
      simp only [SphereColl.toCollection] at hprim
      cases h1 : lookup UB.oobIndex coll.centers s.primId with
      | error e => rw [h1] at hprim; simp [bind, Except.bind] at hprim
      | ok ce =>
        cases h2 : lookup UB.oobIndex coll.radii s.primId with
        | error e => rw [h1, h2] at hprim; simp [bind, Except.bind] at hprim
        | ok ra =>
          rw [h1, h2] at hprim
          simp only [bind, Except.bind, pure, Except.pure, Except.ok.injEq] at hprim
          rw [← hprim]
    simp only [spherePost, hcen, bind, Except.bind, pure, Except.pure, Except.ok.injEq] at hpost
    subst hpost
    have hp : dist3 (along o d t) c = r := h3
    have hne : along o d t - c ≠ ⟨0, 0, 0⟩ := by
      rw [Vec3.sub_ne_zero]
      intro h
      rw [h, dist3, show c - c = (⟨0, 0, 0⟩ : Vec3 ℝ) by ext <;> simp] at hp
      rw [len, sq_eq_zero.2 rfl, Real.sqrt_zero] at hp
      exact hr0.ne hp
    have hn := ((ho.add hF (IsV.smul hF h5 hdir)).sub hF hc).normalize hF hne
    refine ⟨_, t, hn, h5, len_divs_len hne, ?_⟩
    have hl : len (o + Vec3.smul t d - c) = r := hp
    rw [hl]
    unfold along
    ext <;> simp <;> field_simp <;> ring

/-- a hit on the unit sphere: the hypotheses of C26 hold and the conclusion is about a real hit -/
example : ∃ i' rh' n t, sphereIntersect (T := XF exactFmt) ⟨rvec (-3) 0 0, rvec 1 0 0, rl 0, (rl 0, rl 0), .inf false, 0⟩
    ⟨rvec 0 0 0, rl 1, 0⟩ (Ray.make' (rvec (-3) 0 0) (rvec 1 0 0)) = (i', true) ∧
    spherePost ⟨[rvec 0 0 0], [rl 1], []⟩ i' RayHit.fresh = .ok rh' ∧ IsV rh'.normal n ∧ rh'.hitDistance.Is t ∧
    along ⟨-3, 0, 0⟩ ⟨1, 0, 0⟩ t = ⟨0, 0, 0⟩ + Vec3.smul 1 n := by
  have hsq : sq ⟨1, 0, 0⟩ = 1 := by norm_num [sq, Vec3.dot]
  rcases sphereIntersect_cases exactFmt_exact ⟨rvec (-3) 0 0, rvec 1 0 0, rl 0, (rl 0, rl 0), .inf false, 0⟩
    ⟨rvec 0 0 0, rl 1, 0⟩ (Ray.make' (rvec (-3) 0 0) (rvec 1 0 0)) ⟨0, 0, 0⟩ ⟨-3, 0, 0⟩ ⟨1, 0, 0⟩ 1 0 (rvec_is _ _ _) (rl_is _)
    (by norm_num) ⟨rvec_is _ _ _, rvec_is _ _ _, rl_is _⟩ hsq (by norm_num)
    with ⟨_, h⟩ | ⟨t, _, _, _, _, hd', _, he⟩
  · exfalso
    refine h 2 (by norm_num) (.inl rfl) ?_
    rw [OnSphere, dist3_eq_iff (by norm_num)]
    norm_num [sq, Vec3.dot, along]
  · obtain ⟨n, t, h1, h2, h3, h4⟩ := C26_sphere_normal exactFmt_exact ⟨[rvec 0 0 0], [rl 1], []⟩ _ _
      ⟨rvec 0 0 0, rl 1, 0⟩ _ RayHit.fresh _ ⟨0, 0, 0⟩ ⟨-3, 0, 0⟩ ⟨1, 0, 0⟩ 1 0 rfl (rvec_is _ _ _) (rl_is _)
      (by norm_num) (rvec_is _ _ _) (rvec_is _ _ _) (rl_is _) hsq (by norm_num) he rfl
    exact ⟨_, _, n, t, he, rfl, h1, h2, h4⟩

/-- **C27**.  The box of a sphere contains the sphere and its center, and any box that contains the sphere contains this
box. -/
theorem C27_sphere_box (hF : F.Exact) (center : Vec3 (XF F)) (radius : XF F) (c : Vec3 ℝ) (r : ℝ) (hc : IsV center c)
    (hr : radius.Is r) (hr0 : 0 ≤ r) :
    ∃ mn mx, IsV (sphereBox center radius).1 mn ∧ IsV (sphereBox center radius).2 mx ∧ InBox mn mx c ∧
      (∀ p, dist3 p c ≤ r → InBox mn mx p) ∧
      (∀ mn' mx', (∀ p, OnSphere c r p → InBox mn' mx' p) → InBox mn' mx' mn ∧ InBox mn' mx' mx) := by
  refine ⟨Vec3.subs c r, Vec3.adds c r, hc.subs hF hr, hc.adds hF hr, ?_, ?_, ?_⟩
  · simp only [InBox, Vec3.subs, Vec3.adds]
    refine ⟨⟨?_, ?_⟩, ⟨?_, ?_⟩, ⟨?_, ?_⟩⟩ <;> linarith
  · intro p hp
    have h : ∀ i, |(p - c).get i| ≤ r := fun i => (abs_get_le_len _ i).trans hp
    have h0 := abs_le.1 (h 0); have h1 := abs_le.1 (h 1); have h2 := abs_le.1 (h 2)
    simp only [Vec3.get_zero, Vec3.get_one, Vec3.get_two, Vec3.sub_x, Vec3.sub_y, Vec3.sub_z] at h0 h1 h2
    simp only [InBox, Vec3.subs, Vec3.adds]
    refine ⟨⟨?_, ?_⟩, ⟨?_, ?_⟩, ⟨?_, ?_⟩⟩ <;> linarith
  · intro mn' mx' h
    have on : ∀ a b e : ℝ, a * a + b * b + e * e = r * r → InBox mn' mx' ⟨c.x + a, c.y + b, c.z + e⟩ := by
      intro a b e hab
      refine h _ ((dist3_eq_iff hr0).2 ?_)
      simp only [sq, Vec3.dot, Vec3.sub_x, Vec3.sub_y, Vec3.sub_z]
      linear_combination hab
    have x1 := on r 0 0 (by ring); have x2 := on (-r) 0 0 (by ring)
    have y1 := on 0 r 0 (by ring); have y2 := on 0 (-r) 0 (by ring)
    have z1 := on 0 0 r (by ring); have z2 := on 0 0 (-r) (by ring)
    simp only [InBox, Vec3.subs, Vec3.adds] at *
    refine ⟨⟨⟨?_, ?_⟩, ⟨?_, ?_⟩, ⟨?_, ?_⟩⟩, ⟨⟨?_, ?_⟩, ⟨?_, ?_⟩, ⟨?_, ?_⟩⟩⟩ <;> linarith

/-- the box of the sphere of radius 2 around `(1,2,3)` contains the point `(3,2,3)` -/
example : ∃ mn mx, IsV (F := exactFmt) (sphereBox (rvec 1 2 3) (rl 2)).1 mn ∧ IsV (F := exactFmt) (sphereBox (rvec 1 2 3) (rl 2)).2 mx ∧
    InBox mn mx ⟨3, 2, 3⟩ := by
  obtain ⟨mn, mx, h1, h2, _, h3, _⟩ := C27_sphere_box exactFmt_exact (rvec 1 2 3) (rl 2) ⟨1, 2, 3⟩ 2 (rvec_is _ _ _) (rl_is _)
    (by norm_num)
  exact ⟨mn, mx, h1, h2, h3 _ (le_of_eq ((dist3_eq_iff (by norm_num)).2 (by norm_num [sq, Vec3.dot])))⟩

/-- **C40**.  `distance_to_surface(sphere, p)` is the smallest distance of `p` to a point of the sphere. -/
theorem C40_sphere_distance (hF : F.Exact) (s : Sphere (XF F)) (point : Vec3 (XF F)) (c p : Vec3 ℝ) (r : ℝ)
    (hc : IsV s.center c) (hr : s.radius.Is r) (hr0 : 0 ≤ r) (hp : IsV point p) :
    ∃ v, (sphereDistance s point).Is v ∧ IsLeast {x | ∃ q, OnSphere c r q ∧ x = dist3 p q} v := by
  exact ⟨|dist3 c p - r|, (((hc.sub hF hp).norm hF).sub hF hr).abs, sphere_least c p hr0⟩

/-- the distance of `(3,0,0)` from the unit sphere is 2 -/
example : (sphereDistance (T := XF exactFmt) ⟨rvec 0 0 0, rl 1, 0⟩ (rvec 3 0 0)).Is 2 := by
  have h := (((rvec_is (F := exactFmt) 0 0 0).sub exactFmt_exact (rvec_is 3 0 0)).norm exactFmt_exact).sub exactFmt_exact (rl_is 1)
  have : len ((⟨0, 0, 0⟩ : Vec3 ℝ) - ⟨3, 0, 0⟩) = 3 := (dist3_eq_iff (by norm_num)).2 (by norm_num [sq, Vec3.dot])
  rw [this] at h
  have := h.abs
  norm_num at this
  exact this

end Blazert
