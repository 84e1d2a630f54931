/- C36-C39: cylinders. -/
import Verif.Proofs.CylinderBox
import Verif.Spec.Hits
import Verif.Samples
import Verif.SamplesReal

set_option autoImplicit false

namespace Blazert
open Scalar

variable {F : Fmt ℝ}

/-- the cylinder of radius 1 and height 2 around the z axis, with id 4, and the ray from `o` in direction `u` -/
noncomputable def sampleCylinder : Cylinder (XF exactFmt) := ⟨rvec 0 0 0, rl 1, rl 1, rl 2, idM, 4⟩
@[inherit_doc sampleCylinder]
noncomputable def sampleCylI (o u : Vec3 ℝ) : PlaneI (XF exactFmt) :=
  ⟨rvec 0 0 0, rvec o.x o.y o.z, rvec u.x u.y u.z, rl 0, (rl 0, rl 0), rl 100, 0⟩

theorem sampleCyl_test (o u : Vec3 ℝ) (hu : sq u = 1) : CylTest (sampleCylI o u) sampleCylinder ⟨0, 0, 0⟩ 1 1 2 idR o u where
  center := rvec_is _ _ _
  isA := rl_is _
  isB := rl_is _
  height := rl_is _
  rot := idM_is
  a_pos := one_pos
  b_pos := one_pos
  h_pos := two_pos
  orth := idR_orthonormal
  org := rvec_is _ _ _
  dir := rvec_is _ _ _
  unit := hu

/-- the point with these coordinates in the sample cylinder -/
theorem sampleCyl_point (x y z : ℝ) : (⟨x, y, z⟩ : Vec3 ℝ) = ⟨0, 0, 0⟩ + idR.mulVec ⟨x, y, z⟩ := by
  ext <;> simp [Mat3.mulVec, idR, Vec3.dot]

section
variable {i : PlaneI (XF F)} {cy : Cylinder (XF F)} {c : Vec3 ℝ} {a b h : ℝ} {R : Mat3 ℝ} {o u : Vec3 ℝ}

/-- **C36**.  If the cylinder test reports a hit, then the recorded distance `t` is not negative, the point at that distance is on
the surface of the cylinder, and its id is recorded.  Assumption: the origin is not on the lateral surface, or it is and the ray
heads inside; without it see `C36_false_cap_hit`.  Missing: `t` may be zero (`C36_zero_distance`), and it need not be below the
closest distance so far (`C36_ignores_limits`). -/
theorem C36_on_surface_partial (hF : F.Exact) (ray : Ray (XF F)) (H : CylTest i cy c a b h R o u)
    (hlat : OnLateral c a b h R o → ∃ t, 0 < t ∧ InTube c a b R (along o u t)) :
    ((cylIntersect i cy ray).2 = true → ∃ t, 0 ≤ t ∧ (cylIntersect i cy ray).1.hd.Is t ∧ OnCyl c a b h R (along o u t) ∧
      (cylIntersect i cy ray).1.primId = cy.primId ∧ (¬ AtCapLevel c h R o → 0 < t)) ∧
    ((cylIntersect i cy ray).2 = false → (cylIntersect i cy ray).1 = i) := by
  have hloc : o = c + R.mulVec (R.trans.mulVec (o - c)) := (H.orth.local_iff _ _ _).2 rfl
  by_cases h0 : InCyl c a b h R o
  · rcases H.inside hF ray h0 hlat with ⟨hr, _, _⟩ | ⟨t, N, k1, k2, k3, k4, k5, n, hd, k6, k7, hr⟩
    · rw [hr]; exact ⟨fun hc => by simp at hc, fun _ => rfl⟩
    · rw [hr]
      refine ⟨fun _ => ⟨t, k1, k7, (onCyl_along H.orth H.a_pos H.b_pos t).2 k2, rfl, fun hz => ?_⟩, fun hc => by simp at hc⟩
      have hin := (inCyl_along (o := o) (d := u) (c := c) (h := h) H.orth H.a_pos H.b_pos 0).1 (by rw [along_zero]; exact h0)
      have z1 := hin.2.1; have z2 := hin.2.2
      rw [zero_mul, add_zero] at z1 z2
      exact (k4 (lt_of_le_of_ne z1 fun hc => hz ⟨_, _, _, .inr hc.symm, hloc⟩)
        (lt_of_le_of_ne z2 fun hc => hz ⟨_, _, _, .inl hc, hloc⟩)).1
  · by_cases hz : AtCapLevel c h R o
    · rw [H.cap_level hF ray h0 hz]; exact ⟨fun hc => by simp at hc, fun _ => rfl⟩
    · rcases H.outside hF ray h0 hz with ⟨hr, _⟩ | ⟨t, N, k1, k2, k3, k4, n, hd, k6, k7, hr⟩
      · rw [hr]; exact ⟨fun hc => by simp at hc, fun _ => rfl⟩
      · rw [hr]
        exact ⟨fun _ => ⟨t, k1.le, k7, (onCyl_along H.orth H.a_pos H.b_pos t).2 k2, rfl, fun _ => k1⟩, fun hc => by simp at hc⟩

/-- from `(-5,0,0)` in direction x: a hit at distance 4, by `C37_outside_partial` below; here, the assumption on the origin -/
example : OnLateral ⟨0, 0, 0⟩ 1 1 2 idR ⟨1, 0, 0⟩ ∧ ∃ t, 0 < t ∧ InTube ⟨0, 0, 0⟩ 1 1 idR (along ⟨1, 0, 0⟩ ⟨-1, 0, 0⟩ t) := by
  refine ⟨⟨1, 0, 0, by norm_num, by norm_num, by norm_num, sampleCyl_point _ _ _⟩, 1, one_pos, 0, 0, 0, by norm_num, ?_⟩
  ext <;> norm_num [along, Mat3.mulVec, idR, Vec3.dot]

/-- **C36** is false: if the origin is on the lateral surface, below the top and above the bottom, and the ray does not head
inside and is neither parallel nor perpendicular to the axis, then the test always reports a hit, at a point outside the cylinder
(in the plane of a cap). -/
theorem C36_false_cap_hit (hF : F.Exact) (ray : Ray (XF F)) (H : CylTest i cy c a b h R o u)
    (hlat : OnLateral c a b h R o) (hz : ¬ AtCapLevel c h R o) (hout : ∀ t, 0 < t → ¬ InTube c a b R (along o u t))
    (hperp : Vec3.dot (perp R) u ≠ 0) (hpar : u ≠ perp R ∧ u ≠ Vec3.smul (-1) (perp R)) :
    (cylIntersect i cy ray).2 = true ∧ ∃ t, 0 < t ∧ (cylIntersect i cy ray).1.hd.Is t ∧ ¬ InCyl c a b h R (along o u t) := by
  have hloc : o = c + R.mulVec (R.trans.mulVec (o - c)) := (H.orth.local_iff _ _ _).2 rfl
  have ulen : sq (R.trans.mulVec u) = 1 := by rw [H.orth.trans.sq, H.unit]
  have hu : u = R.mulVec (R.trans.mulVec u) := (H.orth.rows u).symm
  obtain ⟨x, y, z, h1, h2, h3, h4⟩ := hlat
  have h4' := (H.orth.local_iff _ _ _).1 h4
  set g := R.trans.mulVec (o - c) with hg
  set e := R.trans.mulVec u with he
  have ti := tube_iff H.a_pos H.b_pos g e 0
  rw [along_zero, h4'] at ti
  have hE := ti.2.2.1 h1
  have gz : g.z = z := by rw [h4']
  rw [← h4'] at hE
  have z1 : g.z ≠ h / 2 := fun hc => hz ⟨_, _, _, .inl hc, hloc⟩
  have z2 : g.z ≠ -(h / 2) := fun hc => hz ⟨_, _, _, .inr hc, hloc⟩
  have hl : e.z ≠ 0 := by rw [he, trans_mulVec_z]; exact hperp
  have hjk : e.x ≠ 0 ∨ e.y ≠ 0 := by
    by_contra hn
    push Not at hn
    have hzz : e.z * e.z = 1 := by
      rw [sq, Vec3.dot, hn.1, hn.2] at ulen; linarith
    have : R.mulVec e = Vec3.smul e.z (perp R) := by
      ext <;> simp [Mat3.mulVec, Vec3.dot, perp, hn.1, hn.2, mul_comm]
    rw [← hu] at this
    rcases mul_self_eq_one_iff.1 hzz with h | h <;> rw [h] at this
    · refine hpar.1 (this.trans ?_); ext <;> simp
    · exact hpar.2 this
  have hA := latA_pos H.a_pos H.b_pos hjk
  have hq : ∀ t, cylE a b g e t = latA a b e * (t * t) + 2 * (latB a b g e * t) := by
    intro t
    have : cylE a b g e t = latA a b e * (t * t) + 2 * (latB a b g e * t) + cylE a b g e 0 := by unfold cylE latA latB; ring
    rw [this, hE, add_zero]
  have hB : 0 ≤ latB a b g e := by
    by_contra hn
    have hn := not_le.1 hn
    have ht : 0 < -latB a b g e / latA a b e := div_pos (by linarith) hA
    apply hout _ ht
    refine ⟨_, _, _, ?_, (H.orth.local_iff _ _ _).2 (trans_along R c o u _)⟩
    refine (tube_iff H.a_pos H.b_pos g e _).2.1.2 ?_
    rw [hq]
    have : latA a b e * (-latB a b g e / latA a b e * (-latB a b g e / latA a b e)) +
        2 * (latB a b g e * (-latB a b g e / latA a b e)) = -(latB a b g e * latB a b g e) / latA a b e := by
      field_simp; ring
    rw [this]
    exact div_neg_of_neg_of_pos (by nlinarith) hA
  have ig := H.rot.trans.mulVec hF (H.org.sub hF H.center)
  have ie := H.rot.trans.mulVec hF H.dir
  have hin : LIn a b h g e 0 := ⟨hE.le, by rw [zero_mul, add_zero, gz]; exact h2, by rw [zero_mul, add_zero, gz]; exact h3⟩
  obtain ⟨⟨n, hd, _, k1, hr⟩, k2, k3⟩ := cylInside_false_hit hF i cy H.for H.a_pos H.b_pos ig ie ulen hE hB (by rw [gz]; exact h2)
    (by rw [gz]; exact h3) hl hjk
  rw [cylIntersect_inside hF i cy ray H.for H.a_pos H.b_pos H.h_pos.le H.orth H.org H.dir H.unit hg he hin, hr]
  have hpos : 0 < capT h g e := by
    refine lt_of_le_of_ne k2 fun hc => ?_
    have hzc : g.z + capT h g e * e.z = (if e.z < 0 then -(h / 2) else h / 2) := by unfold capT; field_simp; ring
    rw [← hc, zero_mul, add_zero] at hzc
    split at hzc
    · exact z2 hzc
    · exact z1 hzc
  refine ⟨rfl, _, hpos, k1, fun hc => ?_⟩
  have := ((inCyl_along H.orth H.a_pos H.b_pos _).1 hc).1
  linarith [k3 hpos]

/-- from `(1,0,0)` in the direction `(3/5,0,4/5)`: the "hit" is at `(7/4,0,1)` -/
example : (cylIntersect (sampleCylI ⟨1, 0, 0⟩ ⟨3/5, 0, 4/5⟩) sampleCylinder (Ray.make' (rvec 1 0 0) (rvec (3/5) 0 (4/5)))).2 = true := by
  refine (C36_false_cap_hit exactFmt_exact _ (sampleCyl_test _ _ (by norm_num [sq, Vec3.dot]))
    ⟨1, 0, 0, by norm_num, by norm_num, by norm_num, sampleCyl_point _ _ _⟩ ?_ ?_ ?_ ?_).1
  · rintro ⟨x, y, z, hz, h⟩
    rw [← sampleCyl_point] at h
    injection h with _ _ h
    subst h
    norm_num at hz
  · rintro t ht ⟨x, y, z, h1, h⟩
    rw [← sampleCyl_point] at h
    injection h with h2 h3 _
    simp at h2 h3
    subst h2 h3
    norm_num at h1
    rw [abs_lt] at h1
    linarith [h1.2]
  · norm_num [perp, idR, Vec3.dot]
  · constructor
    · intro h; have := congrArg Vec3.x h; norm_num [perp, idR] at this
    · intro h; have := congrArg Vec3.x h; norm_num [perp, idR] at this

/-- **C36** is false also because the test uses neither the minimal distance nor the closest distance so far: whatever they are
(and in any arithmetic), the answer and the recorded distance are the same. -/
theorem C36_ignores_limits {T : Type} [Scalar T] (i : PlaneI T) (x y : T) (cy : Cylinder T) (ray : Ray T) :
    (cylIntersect { i with hd := x, minHit := y } cy ray).2 = (cylIntersect i cy ray).2 ∧
    ((cylIntersect i cy ray).2 = true →
      (cylIntersect { i with hd := x, minHit := y } cy ray).1.hd = (cylIntersect i cy ray).1.hd) := by
  rw [cylIntersect_limits]
  exact ⟨rfl, fun h => by simp [withLimits, h]⟩

/-- so a query may report a hit nearer than the ray's minimal distance: the ray `(-5,0,0) + t (1,0,0)` with `t` at least 5 and the
cylinder around the z axis with radius 1 -/
theorem C36_below_min_distance :
    ∃ r, query stablePartition [.addCylinders [dvec 0 0 0] [dbl 1] [dbl 1] [dbl 2] [⟨dvec 1 0 0, dvec 0 1 0, dvec 0 0 1⟩], .commit]
      { (Ray.make' (dvec (-5) 0 0) (dvec 1 0 0)) with minHit := dbl 5 } RayHit.fresh = .ok r ∧
      (r.1 = true ∧ r.2.hitDistance = dbl 4) :=
  exists_ok_of_eval (by decide +kernel)

/-- a ray leaving from the middle of the top reports a hit at distance zero -/
theorem C36_zero_distance :
    ∃ r, query stablePartition [.addCylinders [dvec 0 0 0] [dbl 1] [dbl 1] [dbl 2] [⟨dvec 1 0 0, dvec 0 1 0, dvec 0 0 1⟩], .commit]
      (Ray.make' (dvec 0 0 1) (dvec 0 0 1)) RayHit.fresh = .ok r ∧ (r.1 = true ∧ r.2.hitDistance = dbl 0) :=
  exists_ok_of_eval (by decide +kernel)

/-- **C37**, for a single cylinder and an origin outside.  If the origin is not in the solid (nor in the plane of a cap), then a
hit is the first point of the solid along the ray, and without a hit the ray does not meet the interior.  Missing: origins in the
plane of a cap (`C37_cap_level_blind`), several cylinders (`C37_farther_wins`). -/
theorem C37_outside_partial (hF : F.Exact) (ray : Ray (XF F)) (H : CylTest i cy c a b h R o u) (h0 : ¬ InCyl c a b h R o)
    (hz : ¬ AtCapLevel c h R o) :
    ((cylIntersect i cy ray).2 = true → ∃ t, 0 < t ∧ (cylIntersect i cy ray).1.hd.Is t ∧ InCyl c a b h R (along o u t) ∧
      ∀ s, 0 ≤ s → InCyl c a b h R (along o u s) → t ≤ s) ∧
    ((cylIntersect i cy ray).2 = false → ∀ t, 0 < t → ¬ InOpenCyl c a b h R (along o u t)) := by
  rcases H.outside hF ray h0 hz with ⟨hr, hm⟩ | ⟨t, N, k1, k2, k3, k4, n, hd, k6, k7, hr⟩
  · rw [hr]
    refine ⟨fun hc => by simp at hc, fun _ t ht hc => hm t ht ((inOpenCyl_along H.orth H.a_pos H.b_pos t).1 hc)⟩
  · rw [hr]
    refine ⟨fun _ => ⟨t, k1, k7, (inCyl_along H.orth H.a_pos H.b_pos t).2 ?_, fun s hs hin => ?_⟩, fun hc => by simp at hc⟩
    · have hh := H.h_pos
      rcases k2 with ⟨q1, q2, q3⟩ | ⟨q1, q2⟩
      · exact ⟨q1.le, q2, q3⟩
      · refine ⟨q1, ?_, ?_⟩ <;> rcases q2 with q2 | q2 <;> linarith
    · by_contra hn
      exact k3 s hs (not_le.1 hn) ((inCyl_along H.orth H.a_pos H.b_pos s).1 hin)

/-- from `(-5,0,0)` in direction x the hypotheses are met -/
example : ¬ InCyl ⟨0, 0, 0⟩ 1 1 2 idR ⟨-5, 0, 0⟩ ∧ ¬ AtCapLevel ⟨0, 0, 0⟩ 2 idR ⟨-5, 0, 0⟩ := by
  constructor
  · rintro ⟨x, y, z, h1, _, _, h⟩
    rw [← sampleCyl_point] at h
    injection h with h2 h3 _
    subst h2 h3
    norm_num at h1
  · rintro ⟨x, y, z, hz, h⟩
    rw [← sampleCyl_point] at h
    injection h with _ _ h
    subst h
    norm_num at hz

/-- **C37**, for a single cylinder and an origin strictly inside: there is always a hit, and it is where the ray leaves. -/
theorem C37_inside_partial (hF : F.Exact) (ray : Ray (XF F)) (H : CylTest i cy c a b h R o u) (h0 : InOpenCyl c a b h R o) :
    (cylIntersect i cy ray).2 = true ∧ ∃ t, 0 < t ∧ (cylIntersect i cy ray).1.hd.Is t ∧ OnCyl c a b h R (along o u t) ∧
      ∀ s, 0 ≤ s → s < t → InOpenCyl c a b h R (along o u s) := by
  have h1 := (inOpenCyl_along (o := o) (d := u) (c := c) (h := h) H.orth H.a_pos H.b_pos 0).1 (by rw [along_zero]; exact h0)
  have z1 := h1.2.1; have z2 := h1.2.2
  rw [zero_mul, add_zero] at z1 z2
  have hin : InCyl c a b h R o := by
    obtain ⟨x, y, z, k1, k2, k3, k4⟩ := h0
    exact ⟨x, y, z, k1.le, k2.le, k3.le, k4⟩
  have hno : ¬ OnLateral c a b h R o := by
    rintro ⟨x, y, z, e1, _, _, e4⟩
    obtain ⟨x', y', z', e1', _, _, e4'⟩ := h0
    have := ((H.orth.local_iff _ _ _).1 e4).symm.trans ((H.orth.local_iff _ _ _).1 e4')
    injection this with e5 e6 _
    rw [e5, e6] at e1
    linarith
  rcases H.inside hF ray hin (fun hl => absurd hl hno) with ⟨hr, _, hc⟩ | ⟨t, N, k1, k2, k3, k4, k5, n, hd, k6, k7, hr⟩
  · rcases hc with hc | hc <;> linarith
  · obtain ⟨q1, q2⟩ := k4 z1 z2
    rw [hr]
    refine ⟨rfl, t, q1, k7, (onCyl_along H.orth H.a_pos H.b_pos t).2 k2, fun s hs hst => ?_⟩
    rw [inOpenCyl_along H.orth H.a_pos H.b_pos]
    rcases hs.lt_or_eq with hs | rfl
    · exact q2 s hs hst
    · exact h1

/-- from the center, in direction x -/
example : (cylIntersect (sampleCylI ⟨0, 0, 0⟩ ⟨1, 0, 0⟩) sampleCylinder (Ray.make' (rvec 0 0 0) (rvec 1 0 0))).2 = true :=
  (C37_inside_partial exactFmt_exact _ (sampleCyl_test _ _ (by norm_num [sq, Vec3.dot]))
    ⟨0, 0, 0, by norm_num, by norm_num, by norm_num, sampleCyl_point _ _ _⟩).1

/-- **C37** is false already for a single cylinder: from outside, in the plane of the top or bottom, the test never reports
anything, even if the ray passes through the interior. -/
theorem C37_cap_level_blind (hF : F.Exact) (ray : Ray (XF F)) (H : CylTest i cy c a b h R o u) (h0 : ¬ InCyl c a b h R o)
    (hz : AtCapLevel c h R o) : (cylIntersect i cy ray).2 = false := by
  rw [H.cap_level hF ray h0 hz]

/-- from `(-2,0,1)` in the direction `(4/5,0,-3/5)` the ray passes through the interior, yet nothing is reported -/
example : (cylIntersect (sampleCylI ⟨-2, 0, 1⟩ ⟨4/5, 0, -3/5⟩) sampleCylinder (Ray.make' (rvec (-2) 0 1) (rvec (4/5) 0 (-3/5)))).2 = false ∧
    InOpenCyl ⟨0, 0, 0⟩ 1 1 2 idR (along ⟨-2, 0, 1⟩ ⟨4/5, 0, -3/5⟩ 2) := by
  constructor
  · refine C37_cap_level_blind exactFmt_exact _ (sampleCyl_test _ _ (by norm_num [sq, Vec3.dot])) ?_
      ⟨-2, 0, 1, by norm_num, sampleCyl_point _ _ _⟩
    rintro ⟨x, y, z, h1, _, _, h⟩
    rw [← sampleCyl_point] at h
    injection h with h2 h3 _
    subst h2 h3
    norm_num at h1
  · refine ⟨-2/5, 0, -1/5, by norm_num, by norm_num, by norm_num, ?_⟩
    ext <;> norm_num [along, Mat3.mulVec, idR, Vec3.dot]

/-- **C37** is false: of two cylinders along the x axis, one in front of the other, the farther one is reported. -/
theorem C37_farther_wins :
    let id3 : Mat3 Double := ⟨dvec 1 0 0, dvec 0 1 0, dvec 0 0 1⟩
    ∃ r, query stablePartition [.addCylinders [dvec 0 0 0, dvec 10 0 0] [dbl 1, dbl 1] [dbl 1, dbl 1] [dbl 2, dbl 2] [id3, id3],
      .commit] (Ray.make' (dvec (-5) 0 0) (dvec 1 0 0)) RayHit.fresh = .ok r ∧
      (r.1 = true ∧ r.2.hitDistance = dbl 14 ∧ r.2.primId = 1) :=
  exists_ok_of_eval (by decide +kernel)

/-- **C38**.  The box contains the cylinder if its orientation takes axes to axes.  Missing: all other orientations, for which
it does not, see `C38_box_too_small`. -/
theorem C38_box_partial (hF : F.Exact) (center : Vec3 (XF F)) (xa xb xh : XF F) (rotation : Mat3 (XF F)) (c : Vec3 ℝ) (a b h : ℝ)
    (R : Mat3 ℝ) (hc : IsV center c) (ia : xa.Is a) (ib : xb.Is b) (ih : xh.Is h) (hr : IsM rotation R) (ha : 0 < a) (hb : 0 < b)
    (hh : 0 ≤ h) (hR : AxisParallel R) :
    ∃ mn mx, IsV (cylBox center xa xb xh rotation).1 mn ∧ IsV (cylBox center xa xb xh rotation).2 mx ∧
      ∀ p, InCyl c a b h R p → InBox mn mx p := by
  obtain ⟨h1, h2⟩ := cylBox_is hF hc ia ib ih hr
  refine ⟨_, _, h1, h2, ?_⟩
  rintro p ⟨x, y, z, k1, k2, k3, rfl⟩
  rw [inBox_iff]
  intro k
  have e : (c + R.mulVec ⟨x, y, z⟩).get k = c.get k + ((R.row k).x * x + (R.row k).y * y + (R.row k).z * z) := by
    match k with
    | 0 => rfl
    | 1 => rfl
    | 2 => rfl
  have := abs_le.1 (boxExt_sound ha hb hh (hR k) k1 k2 k3)
  rw [e, Vec3.get_ofFn, Vec3.get_ofFn]
  exact ⟨by linarith [this.1], by linarith [this.2]⟩

/-- the rotation about the z axis by 90 degrees -/
example : AxisParallel ⟨⟨0, -1, 0⟩, ⟨1, 0, 0⟩, ⟨0, 0, 1⟩⟩ := by
  intro k
  match k with
  | 0 => exact .inr (.inl ⟨rfl, rfl⟩)
  | 1 => exact .inl ⟨rfl, rfl⟩
  | 2 => exact .inr (.inr ⟨rfl, rfl⟩)

/-- **C38** is false for every other orientation: some point of the cylinder is not in the box. -/
theorem C38_box_too_small (hF : F.Exact) (center : Vec3 (XF F)) (xa xb xh : XF F) (rotation : Mat3 (XF F)) (c : Vec3 ℝ) (a b h : ℝ)
    (R : Mat3 ℝ) (hc : IsV center c) (ia : xa.Is a) (ib : xb.Is b) (ih : xh.Is h) (hr : IsM rotation R) (ha : 0 < a) (hb : 0 < b)
    (hh : 0 < h) (hR : ¬ AxisParallel R) :
    ∃ p mn mx, InCyl c a b h R p ∧ IsV (cylBox center xa xb xh rotation).1 mn ∧ IsV (cylBox center xa xb xh rotation).2 mx ∧
      ¬ InBox mn mx p := by
  obtain ⟨h1, h2⟩ := cylBox_is hF hc ia ib ih hr
  unfold AxisParallel at hR
  push Not at hR
  obtain ⟨k, hk⟩ := hR
  obtain ⟨x, y, z, k1, k2, k3, k4⟩ := boxExt_lt (r := R.row k) ha hb hh (by tauto)
  refine ⟨c + R.mulVec ⟨x, y, z⟩, _, _, ⟨x, y, z, k1, k2, k3, rfl⟩, h1, h2, fun hin => ?_⟩
  have := ((inBox_iff.1 hin) k).2
  have e : (c + R.mulVec ⟨x, y, z⟩).get k = c.get k + ((R.row k).x * x + (R.row k).y * y + (R.row k).z * z) := by
    match k with
    | 0 => rfl
    | 1 => rfl
    | 2 => rfl
  rw [e, Vec3.get_ofFn] at this
  linarith

/-- the rotation about the y axis with sine 4/5 -/
example : ¬ AxisParallel ⟨⟨3/5, 0, 4/5⟩, ⟨0, 1, 0⟩, ⟨-4/5, 0, 3/5⟩⟩ := by
  intro h
  have := h 0
  norm_num [Mat3.row] at this

/-- and therefore rays miss rotated cylinders: radius 1, height 2, turned by 53 degrees about the y axis; the vertical ray at
`x = 13/10` passes through the interior, e.g. through the point `(1.3, 0, -0.1)`, whose coordinates in the cylinder are
`(0.86, 0, 0.98)`. -/
theorem C38_rotated_cylinder_missed :
    ∃ r, query stablePartition [.addCylinders [dvec 0 0 0] [dbl 1] [dbl 1] [dbl 2]
        [⟨dvec (3/5) 0 (4/5), dvec 0 1 0, dvec (-4/5) 0 (3/5)⟩], .commit]
      (Ray.make' (dvec (13/10) 0 10) (dvec 0 0 (-1))) RayHit.fresh = .ok r ∧ r.1 = false :=
  exists_ok_of_eval (by decide +kernel)

/-- **C39**.  The recorded normal is an outer unit normal of the cylinder at the reported point, unless the origin is in the
solid and the ray leaves through the lateral surface, not perpendicularly to the axis.  Missing: that case, see
`C39_inside_normal_not_rotated`. -/
theorem C39_normal_partial (hF : F.Exact) (ray : Ray (XF F)) (rh : RayHit (XF F)) (H : CylTest i cy c a b h R o u)
    (hlat : OnLateral c a b h R o → ∃ t, 0 < t ∧ InTube c a b R (along o u t))
    (hhit : (cylIntersect i cy ray).2 = true)
    (hcase : ¬ InCyl c a b h R o ∨ Vec3.dot (perp R) u = 0 ∨ ∀ t, 0 ≤ t → ¬ OnLateral c a b h R (along o u t)) :
    ∃ t rh' n, (cylIntersect i cy ray).1.hd.Is t ∧ planePost (cylIntersect i cy ray).1 rh = .ok rh' ∧ IsV rh'.normal n ∧
      OuterNormal (InCyl c a b h R) (along o u t) n := by
  by_cases h0 : InCyl c a b h R o
  · rcases H.inside hF ray h0 hlat with ⟨hr, _, _⟩ | ⟨t, N, k1, k2, k3, k4, k5, n, hd, k6, k7, hr⟩
    · rw [hr] at hhit; simp at hhit
    · rw [hr]
      rcases k5 with ⟨n', k5, rfl⟩ | ⟨hez, hE, _⟩
      · exact post_ok (i := { i with normal := n, hd := hd, primId := cy.primId }) hF rh k7 k6 (k5.outer H.orth H.a_pos H.b_pos)
      · exfalso
        rcases hcase with hc | hc | hc
        · exact hc h0
        · exact hez (by rw [trans_mulVec_z]; exact hc)
        · refine hc t k1 ?_
          have ti := (tube_iff H.a_pos H.b_pos (R.trans.mulVec (o - c)) (R.trans.mulVec u) t).2.2.2 hE
          have hin := k3 t k1 le_rfl
          exact ⟨_, _, _, ti, by simpa [along] using hin.2.1, by simpa [along] using hin.2.2,
            (H.orth.local_iff _ _ _).2 (trans_along R c o u t)⟩
  · by_cases hz : AtCapLevel c h R o
    · rw [H.cap_level hF ray h0 hz] at hhit; simp at hhit
    · rcases H.outside hF ray h0 hz with ⟨hr, _⟩ | ⟨t, N, k1, k2, k3, k4, n, hd, k6, k7, hr⟩
      · rw [hr] at hhit; simp at hhit
      · rw [hr]
        exact post_ok (i := { i with normal := n, hd := hd, primId := cy.primId }) hF rh k7 k6 (k4.outer H.orth H.a_pos H.b_pos)

/-- from the center upwards, the normal of the top is reported -/
example : ∃ t rh' n, IsV rh'.normal n ∧ OuterNormal (InCyl ⟨0, 0, 0⟩ 1 1 2 idR) (along ⟨0, 0, 0⟩ ⟨0, 0, 1⟩ t) n ∧
    planePost (cylIntersect (sampleCylI ⟨0, 0, 0⟩ ⟨0, 0, 1⟩) sampleCylinder (Ray.make' (rvec 0 0 0) (rvec 0 0 1))).1 RayHit.fresh =
      .ok rh' := by
  have T := sampleCyl_test ⟨0, 0, 0⟩ ⟨0, 0, 1⟩ (by norm_num [sq, Vec3.dot])
  obtain ⟨t, rh', n, _, h2, h3, h4⟩ := C39_normal_partial exactFmt_exact (Ray.make' (rvec 0 0 0) (rvec 0 0 1)) RayHit.fresh T
    (by
      rintro ⟨x, y, z, h1, _, _, h⟩
      rw [← sampleCyl_point] at h
      injection h with h2 h3 _
      subst h2 h3
      norm_num at h1)
    (C37_inside_partial exactFmt_exact _ T ⟨0, 0, 0, by norm_num, by norm_num, by norm_num, sampleCyl_point _ _ _⟩).1
    (.inr (.inr (by
      rintro t _ ⟨x, y, z, h1, _, _, h⟩
      rw [← sampleCyl_point] at h
      injection h with h2 h3 _
      simp at h2 h3
      subst h2 h3
      norm_num at h1)))
  exact ⟨t, rh', n, h3, h4, h2⟩

/-- **C39** is false: from the center of a cylinder around the z axis which is turned by 90 degrees about this axis, the ray in
direction `(4,0,1)` leaves at a point `(1,0,z)`, and the normal reported is `(0,-1,0)`. -/
theorem C39_inside_normal_not_rotated :
    ∃ r, query stablePartition [.addCylinders [dvec 0 0 0] [dbl 1] [dbl 1] [dbl 2] [⟨dvec 0 (-1) 0, dvec 1 0 0, dvec 0 0 1⟩], .commit]
      (Ray.make' (dvec 0 0 0) (dvec 4 0 1)) RayHit.fresh = .ok r ∧
      (r.1 = true ∧ eq r.2.normal.x (dbl 0) = true ∧ r.2.normal.y = dbl (-1) ∧ eq r.2.normal.z (dbl 0) = true) :=
  exists_ok_of_eval (by decide +kernel)

end
end Blazert
