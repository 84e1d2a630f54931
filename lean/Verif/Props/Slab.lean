/- C20-C24: the box test. -/
import Verif.Proofs.Slab
import Verif.Proofs.Rounding
import Verif.Proofs.Binary
import Verif.Samples
import Verif.SamplesReal

set_option autoImplicit false

namespace Blazert
open Scalar

section
variable {F : Fmt ℝ} {P : Type}

/-- **C20**, exact arithmetic.  A ray constructed from `origin` and `direction` that is inside the closed box `[mn, mx]` at
the parameter `t`, with `0 ≤ t` and `min ≤ t ≤ hd`, passes the box test.  (For a unit direction the parameter is the
distance.)  Two situations have to be excluded: negative zeros in the direction (see C23), and a ray parallel to the z
faces starting exactly in the plane of one of them (see C24); `0 ≤ t` is needed because the slack is a factor. -/
theorem C20_box_test_complete_partial (hF : F.Exact) (node : Node (XF F) P) (origin direction : Vec3 (XF F))
    (minHit maxHit hd : XF F) (any : Bool) (mn mx o d : Vec3 ℝ) (m t : ℝ)
    (hmn : IsV node.min mn) (hmx : IsV node.max mx) (ho : IsV origin o) (hdir : IsV direction d)
    (hmin : minHit.Is m) (ht : 0 ≤ t) (hmt : m ≤ t) (hhd : hd = .inf false ∨ ∃ h, hd.Is h ∧ t ≤ h)
    (hin : InBox mn mx (along o d t))
    (hneg : ∀ i, direction.get i ≠ .fin 0 true) (hface : d.z = 0 → o.z ≠ mn.z ∧ o.z ≠ mx.z) :
    intersectNode minHit hd node (Ray.make origin direction minHit maxHit any) = true :=
  intersectNode_of_inBox hF node origin direction minHit maxHit any hd mn mx o d t hmn hmx ho hdir hneg ht hin hface
    (.inr (.inr ⟨m, hmin, hmt⟩)) (.inr hhd)

/-- **C20**, converse: the box test accepts nothing else, up to the slack.  If it accepts then for some parameter `t` in
`[min, hd]` every coordinate is within the box's range at `t` or shortly before (by the factor `1 + 4 eps`). -/
theorem C20_box_test_precise (hF : F.Exact) (node : Node (XF F) P) (origin direction : Vec3 (XF F))
    (minHit maxHit hd : XF F) (any : Bool) (mn mx o d : Vec3 ℝ) (m h : ℝ)
    (hmn : IsV node.min mn) (hmx : IsV node.max mx) (ho : IsV origin o) (hdir : IsV direction d)
    (hbox : ∀ i, mn.get i ≤ mx.get i) (hmin : minHit.Is m) (hm : 0 ≤ m) (hhd : hd.Is h)
    (hneg : ∀ i, direction.get i ≠ .fin 0 true)
    (hface : ∀ i, d.get i = 0 → o.get i ≠ mn.get i ∧ o.get i ≠ mx.get i)
    (hacc : intersectNode minHit hd node (Ray.make origin direction minHit maxHit any) = true) :
    ∃ t, m ≤ t ∧ t ≤ h ∧ ∀ i, ∃ t', t' ≤ t ∧ t ≤ t' * (1 + 4 * F.eps) ∧
      mn.get i ≤ (along o d t').get i ∧ (along o d t').get i ≤ mx.get i := by
  obtain ⟨t, h1, h2, h3⟩ := intersectNode_conv hF node origin direction minHit maxHit any hd mn mx o d m h hmn hmx ho
    hdir hbox hneg hface hmin hm hhd hacc
  refine ⟨t, h1, h2, fun i => ?_⟩
  obtain ⟨t', h4, h5, h6, h7⟩ := h3 i
  refine ⟨t', h4, h5, ?_⟩
  match i with
  | 0 => exact ⟨h6, h7⟩
  | 1 => exact ⟨h6, h7⟩
  | 2 => exact ⟨h6, h7⟩

/-- the hypotheses of C20 are met by a ray along `x` hitting the cube `[-1,1]³` at parameters 2 to 4 -/
example : intersectNode (P := Unit) (rl 0 : XF exactFmt) (rl 10) ⟨rvec (-1) (-1) (-1), rvec 1 1 1, true, 0, 0, 0, []⟩
    (Ray.make (rvec (-3) 0 0) (rvec 1 0 0) (rl 0) (rl 10) false) = true := by
  refine C20_box_test_complete_partial exactFmt_exact _ _ _ _ _ _ _ ⟨-1, -1, -1⟩ ⟨1, 1, 1⟩ ⟨-3, 0, 0⟩ ⟨1, 0, 0⟩ 0 3
    (rvec_is _ _ _) (rvec_is _ _ _) (rvec_is _ _ _) (rvec_is _ _ _) (rl_is _) (by norm_num) (by norm_num)
    (.inr ⟨10, rl_is _, by norm_num⟩) ?_ (rvec_not_negZero _ _ _) (fun _ => by norm_num)
  simp only [InBox, along, Vec3.add_x, Vec3.add_y, Vec3.add_z, Vec3.smul_x, Vec3.smul_y, Vec3.smul_z]
  norm_num

/-- and a ray that passes the cube is rejected -/
example : intersectNode (P := Unit) (dbl 0) (dbl 10) ⟨dvec (-1) (-1) (-1), dvec 1 1 1, true, 0, 0, 0, []⟩
    (Ray.make (dvec (-3) 2 0) (dvec 1 0 0) (dbl 0) (dbl 10) false) = false := by decide +kernel

/-- **C20** fails for negative distances (a negative `min_hit_distance`): the box `x = -1` is met at the parameter
`-1`, inside `[-10, 10]`, but the slack factor moves the exit in the wrong direction and the box is rejected. -/
theorem C20_negative_interval_rejected :
    intersectNode (P := Unit) (dbl (-10)) (dbl 10) ⟨dvec (-1) (-1) (-1), dvec (-1) 1 1, true, 0, 0, 0, []⟩
      (Ray.make (dvec 0 0 0) (dvec 1 0 0) (dbl (-10)) (dbl 10) false) = false ∧
    InBox (K := ℚ) ⟨-1, -1, -1⟩ ⟨-1, 1, 1⟩ (along ⟨0, 0, 0⟩ ⟨1, 0, 0⟩ (-1)) := by
  refine ⟨by decide +kernel, ?_⟩
  simp only [InBox, along, Vec3.add_x, Vec3.add_y, Vec3.add_z, Vec3.smul_x, Vec3.smul_y, Vec3.smul_z]
  norm_num

end

section
variable {K : Type} [Field K] [LinearOrder K] [IsStrictOrderedRing K] [FloorRing K] {F : Fmt K} {P : Type}

/-- no operation of the box test on the axis with the given values leaves the range `[lo, hi]` -/
def AxisInRange (lo hi mn mx o d : K) : Prop :=
  Between lo hi (mn - o) ∧ Between lo hi (mx - o) ∧
  (d ≠ 0 → Between lo hi (1 / d) ∧ Between (2 * lo) (hi / 4) ((mn - o) / d) ∧ Between (2 * lo) (hi / 4) ((mx - o) / d))

/-- **C21**, with rounding.  In any format whose operations have relative error at most `u = eps/2` on results in
`[lo, hi]`, and as long as no operation leaves this range, the slack suffices: a box that the ray enters at a parameter
`t` with `t (1 + u)³ ≤ hd` is never rejected. -/
theorem C21_box_test_complete_with_rounding_partial (u lo hi : K) (hF : F.Relative u lo hi) (hu : 0 ≤ u)
    (hu64 : 64 * u ≤ 1) (hlo : 0 ≤ lo) (node : Node (XF F) P) (origin direction : Vec3 (XF F))
    (minHit maxHit hd : XF F) (any : Bool) (mn mx o d : Vec3 K) (m t : K)
    (hmn : IsV node.min mn) (hmx : IsV node.max mx) (ho : IsV origin o) (hdir : IsV direction d)
    (hmin : minHit.Is m) (ht : 0 ≤ t) (hmt : m ≤ t) (hhd : hd = .inf false ∨ ∃ h, hd.Is h ∧ t * (1 + u) ^ 3 ≤ h)
    (hin : InBox mn mx (along o d t))
    (hrange : ∀ i, AxisInRange lo hi (mn.get i) (mx.get i) (o.get i) (d.get i))
    (hneg : ∀ i, direction.get i ≠ .fin 0 true) (hface : d.z = 0 → o.z ≠ mn.z ∧ o.z ≠ mx.z) :
    intersectNode minHit hd node (Ray.make origin direction minHit maxHit any) = true := by
  obtain ⟨⟨hx1, hx2⟩, ⟨hy1, hy2⟩, ⟨hz1, hz2⟩⟩ := hin
  simp only [along, Vec3.add_x, Vec3.add_y, Vec3.add_z, Vec3.smul_x, Vec3.smul_y, Vec3.smul_z] at hx1 hx2 hy1 hy2 hz1 hz2
  obtain ⟨a0, b0, c0⟩ := hrange 0
  obtain ⟨a1, b1, c1⟩ := hrange 1
  obtain ⟨a2, b2, c2⟩ := hrange 2
  obtain ⟨l0, u0, _⟩ := slab_axis_rel hF hu hu64 hlo hmn.1 hmx.1 ho.1 hdir.1 (hneg 0) ht hx1 hx2 a0 b0
    (fun h => (c0 h).1) (fun h => (c0 h).2.1) (fun h => (c0 h).2.2) _ _ rfl rfl
  obtain ⟨l1, u1, _⟩ := slab_axis_rel hF hu hu64 hlo hmn.2.1 hmx.2.1 ho.2.1 hdir.2.1 (hneg 1) ht hy1 hy2 a1 b1
    (fun h => (c1 h).1) (fun h => (c1 h).2.1) (fun h => (c1 h).2.2) _ _ rfl rfl
  obtain ⟨l2, u2, n2⟩ := slab_axis_rel hF hu hu64 hlo hmn.2.2 hmx.2.2 ho.2.2 hdir.2.2 (hneg 2) ht hz1 hz2 a2 b2
    (fun h => (c2 h).1) (fun h => (c2 h).2.1) (fun h => (c2 h).2.2) _ _ rfl rfl
  obtain ⟨n2, m2⟩ := n2 (by by_cases h : d.z = 0; exact .inr (hface h); exact .inl h)
  have hm' : m ≤ t * (1 + u) ^ 3 := by
    have : 1 ≤ (1 + u) ^ 3 := one_le_pow₀ (by linarith)
    nlinarith
  unfold intersectNode
  simp only [slabStep_make, Vec3.get_zero, Vec3.get_one, Vec3.get_two]
  exact (l2.max (l1.max (l0.max (.inr (.inr ⟨m, hmin, hm'⟩))))).le_hi (u2.min (u1.min (u0.min (.inr hhd))))
    (max_ne_nan n2) (min_ne_nan m2)

/-- **C21** for `double`: `u = 2^-53`, and the range is from the smallest normal number to the largest number. -/
theorem C21_double_partial (node : Node Double P) (origin direction : Vec3 Double)
    (minHit maxHit hd : Double) (any : Bool) (mn mx o d : Vec3 ℚ) (m t : ℚ)
    (hmn : IsV node.min mn) (hmx : IsV node.max mx) (ho : IsV origin o) (hdir : IsV direction d)
    (hmin : minHit.Is m) (ht : 0 ≤ t) (hmt : m ≤ t)
    (hhd : hd = .inf false ∨ ∃ h, hd.Is h ∧ t * (1 + 1 / 2 ^ 53) ^ 3 ≤ h)
    (hin : InBox mn mx (along o d t))
    (hrange : ∀ i, AxisInRange (1 / 2 ^ 1022) ((2 - 1 / 2 ^ 52) * 2 ^ 1023) (mn.get i) (mx.get i) (o.get i) (d.get i))
    (hneg : ∀ i, direction.get i ≠ .fin 0 true) (hface : d.z = 0 → o.z ≠ mn.z ∧ o.z ≠ mx.z) :
    intersectNode minHit hd node (Ray.make origin direction minHit maxHit any) = true := by
  have e1 : Format.pow2 (-53) = 1 / 2 ^ 53 := by decide +kernel
  have e2 : Format.binary64.tiny = 1 / 2 ^ 1022 := by decide +kernel
  have e3 : Format.binary64.maxVal = (2 - 1 / 2 ^ 52) * 2 ^ 1023 := by decide +kernel
  have h := Format.binary64_relative
  rw [e1, e2, e3] at h
  exact C21_box_test_complete_with_rounding_partial _ _ _ h (by norm_num) (by norm_num) (by norm_num) node origin
    direction minHit maxHit hd any mn mx o d m t hmn hmx ho hdir hmin ht hmt hhd hin hrange hneg hface

/-- **C21** for `float`: `u = 2^-24`. -/
theorem C21_float_partial (node : Node Single P) (origin direction : Vec3 Single)
    (minHit maxHit hd : Single) (any : Bool) (mn mx o d : Vec3 ℚ) (m t : ℚ)
    (hmn : IsV node.min mn) (hmx : IsV node.max mx) (ho : IsV origin o) (hdir : IsV direction d)
    (hmin : minHit.Is m) (ht : 0 ≤ t) (hmt : m ≤ t)
    (hhd : hd = .inf false ∨ ∃ h, hd.Is h ∧ t * (1 + 1 / 2 ^ 24) ^ 3 ≤ h)
    (hin : InBox mn mx (along o d t))
    (hrange : ∀ i, AxisInRange (1 / 2 ^ 126) ((2 - 1 / 2 ^ 23) * 2 ^ 127) (mn.get i) (mx.get i) (o.get i) (d.get i))
    (hneg : ∀ i, direction.get i ≠ .fin 0 true) (hface : d.z = 0 → o.z ≠ mn.z ∧ o.z ≠ mx.z) :
    intersectNode minHit hd node (Ray.make origin direction minHit maxHit any) = true := by
  have e1 : Format.pow2 (-24) = 1 / 2 ^ 24 := by decide +kernel
  have e2 : Format.binary32.tiny = 1 / 2 ^ 126 := by decide +kernel
  have e3 : Format.binary32.maxVal = (2 - 1 / 2 ^ 23) * 2 ^ 127 := by decide +kernel
  have h := Format.binary32_relative
  rw [e1, e2, e3] at h
  exact C21_box_test_complete_with_rounding_partial _ _ _ h (by norm_num) (by norm_num) (by norm_num) node origin
    direction minHit maxHit hd any mn mx o d m t hmn hmx ho hdir hmin ht hmt hhd hin hrange hneg hface

/-- The hypotheses of C21 are met by a ray in direction `(3/8, 1/2, 0)` towards the cube. -/
example : intersectNode (P := Unit) (.fin 0 false) (.fin 10 false)
    ⟨⟨.fin (-1) false, .fin (-1) false, .fin (-1) false⟩, ⟨.fin 1 false, .fin 1 false, .fin 1 false⟩, true, 0, 0, 0, []⟩
    (Ray.make ⟨.fin (-3) false, .fin (-4) false, .fin 0 false⟩
      (⟨.fin (3/8) false, .fin (1/2) false, .fin 0 false⟩ : Vec3 Double) (.fin 0 false) (.fin 10 false) false) = true := by
  refine C21_double_partial _ _ _ _ _ _ _ ⟨-1, -1, -1⟩ ⟨1, 1, 1⟩ ⟨-3, -4, 0⟩ ⟨3/8, 1/2, 0⟩ 0 8
    ⟨⟨_, rfl⟩, ⟨_, rfl⟩, ⟨_, rfl⟩⟩ ⟨⟨_, rfl⟩, ⟨_, rfl⟩, ⟨_, rfl⟩⟩ ⟨⟨_, rfl⟩, ⟨_, rfl⟩, ⟨_, rfl⟩⟩ ⟨⟨_, rfl⟩, ⟨_, rfl⟩, ⟨_, rfl⟩⟩
    ⟨_, rfl⟩ (by norm_num) (by norm_num) (.inr ⟨10, ⟨_, rfl⟩, by norm_num⟩) ?_ ?_ ?_ (fun _ => by norm_num)
  · simp only [InBox, along, Vec3.add_x, Vec3.add_y, Vec3.add_z, Vec3.smul_x, Vec3.smul_y, Vec3.smul_z]
    norm_num
  · intro i
    have hlo : (1 / 2 ^ 1022 : ℚ) ≤ 1 / 2 := by decide +kernel
    have hhi : (64 : ℚ) ≤ (2 - 1 / 2 ^ 52) * 2 ^ 1023 := by decide +kernel
    generalize (1 / 2 ^ 1022 : ℚ) = lo at *
    generalize ((2 - 1 / 2 ^ 52) * 2 ^ 1023 : ℚ) = hi at *
    have key : ∀ r : ℚ, r = 0 ∨ (1 ≤ |r| ∧ |r| ≤ 16) → Between lo hi r ∧ Between (2 * lo) (hi / 4) r := by
      rintro r (rfl | ⟨h1, h2⟩)
      · exact ⟨.inl rfl, .inl rfl⟩
      · exact ⟨.inr ⟨by linarith, by linarith⟩, .inr ⟨by linarith, by linarith⟩⟩
    match i with
    | 0 => exact ⟨(key _ (.inr (by norm_num [abs_of_pos]))).1, (key _ (.inr (by norm_num [abs_of_pos]))).1,
        fun _ => ⟨(key _ (.inr (by norm_num [abs_of_pos]))).1, (key _ (.inr (by norm_num [abs_of_pos]))).2,
          (key _ (.inr (by norm_num [abs_of_pos]))).2⟩⟩
    | 1 => exact ⟨(key _ (.inr (by norm_num [abs_of_pos]))).1, (key _ (.inr (by norm_num [abs_of_pos]))).1,
        fun _ => ⟨(key _ (.inr (by norm_num [abs_of_pos]))).1, (key _ (.inr (by norm_num [abs_of_pos]))).2,
          (key _ (.inr (by norm_num [abs_of_pos]))).2⟩⟩
    | 2 => exact ⟨(key _ (.inr (by norm_num))).1, (key _ (.inr (by norm_num))).1, fun h => absurd rfl h⟩
  · intro i
    match i with
    | 0 => simp
    | 1 => simp
    | 2 => simp

end

/-- **C22** is false.  The unit sphere at the origin is hit from `(3,0,0)` in direction `(-1,0,0)` at distance 2 with
`max_hit_distance = 3`; with the direction `(-1/2,0,0)` the same query misses, because the box test uses the direction
before it is normalised. -/
theorem C22_scaled_direction_misses :
    (∃ r, query stablePartition oneSphere (Ray.make (dvec 3 0 0) (dvec (-1) 0 0) (dbl 0) (dbl 3) false) RayHit.fresh
      = .ok r ∧ (r.1 = true ∧ r.2.hitDistance = dbl 2)) ∧
    (∃ r, query stablePartition oneSphere (Ray.make (dvec 3 0 0) (dvec (-1/2) 0 0) (dbl 0) (dbl 3) false) RayHit.fresh
      = .ok r ∧ r.1 = false) :=
  ⟨exists_ok_of_eval (by decide +kernel), exists_ok_of_eval (by decide +kernel)⟩

/-- **C23** is false.  The unit sphere at the origin is hit from `(3,0,0)` in direction `(-1,0,0)`, but missed in direction
`(-1,-0.0,-0.0)`: the inverse direction is `-inf` while `direction_sign` is 0, so that the slabs are taken in the wrong
order. -/
theorem C23_negative_zero_misses :
    (∃ r, query stablePartition oneSphere (Ray.make' (dvec 3 0 0) (dvec (-1) 0 0)) RayHit.fresh
      = .ok r ∧ (r.1 = true ∧ r.2.hitDistance = dbl 2)) ∧
    (∃ r, query stablePartition oneSphere (Ray.make' (dvec 3 0 0) ⟨dbl (-1), dblNegZero, dblNegZero⟩) RayHit.fresh
      = .ok r ∧ r.1 = false) :=
  ⟨exists_ok_of_eval (by decide +kernel), exists_ok_of_eval (by decide +kernel)⟩

/-- **C24** is false.  The unit sphere at the origin is touched by the ray from `(-3,0,1)` in direction `(1,0,0)` and the
sphere test accepts it; the box test does not, as `0 * inf` is NaN on the last axis.  The same ray in the plane of a y face
is fine. -/
theorem C24_ray_in_z_face_misses :
    (∃ r, query stablePartition oneSphere (Ray.make' (dvec (-3) 0 1) (dvec 1 0 0)) RayHit.fresh
      = .ok r ∧ r.1 = false) ∧
    (sphereIntersect (spherePrepare (Ray.make' (dvec (-3) 0 1) (dvec 1 0 0))) ⟨dvec 0 0 0, dbl 1, 0⟩
      (Ray.make' (dvec (-3) 0 1) (dvec 1 0 0))).2 = true ∧
    (∃ r, query stablePartition oneSphere (Ray.make' (dvec (-3) 1 0) (dvec 1 0 0)) RayHit.fresh
      = .ok r ∧ (r.1 = true ∧ r.2.hitDistance = dbl 3)) :=
  ⟨exists_ok_of_eval (by decide +kernel), by decide +kernel, exists_ok_of_eval (by decide +kernel)⟩

end Blazert
