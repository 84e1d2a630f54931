/- C111: the distance to a rectangle, with all roundings. -/
import Verif.Props.PlaneRound
import Verif.Proofs.PlaneDist

set_option autoImplicit false

namespace Blazert
open Scalar

section
variable {K : Type} [Field K] [LinearOrder K] [IsStrictOrderedRing K] [FloorRing K] {F : Fmt K}

/-- **C111**, general.  In any format that rounds, for a point `p` at the place `(x, y)` of the plane of a rectangle and at the height
`h` above it: (1) `distance_to_surface` returns the largest number, or the height up to `6 u L + 4 ε L`.  If the rectangle is centered on
the z axis, (2) it is the height whenever the place is in the rectangle, at least `8 u L + 4 ε L` from its edges, and (3) it is the
largest number whenever the place is more than that outside of the rectangle. -/
theorem C111_plane_distance (u η hi : K) (hF : F.Rounds u η hi) (pl : Plane (XF F)) (point : Vec3 (XF F)) (c p : Vec3 K)
    (a b x y h ε L : K) (R : Mat3 K) (hc : IsV pl.center c) (ha : pl.dx.Is a) (hb : pl.dy.Is b) (hr : IsM pl.rotation R)
    (hR : NearOrtho ε R) (hε : ε ≤ 1 / 1000) (hp : IsV point p) (hpos : p = c + R.mulVec ⟨x, y, h⟩)
    (hL : |p.x - c.x| + |p.y - c.y| + |p.z - c.z| + |a| + |b| ≤ L) (hs : Scale u η hi L) :
    (planeDistance pl point = maxVal ∨ ∃ v, (planeDistance pl point).Is v ∧ |v - (|h|)| ≤ 6 * u * L + 4 * ε * L) ∧
    (c.x = 0 → c.y = 0 →
      (|x| ≤ a / 2 - (8 * u * L + 4 * ε * L) → |y| ≤ b / 2 - (8 * u * L + 4 * ε * L) →
        ∃ v, (planeDistance pl point).Is v ∧ |v - (|h|)| ≤ 6 * u * L + 4 * ε * L) ∧
      (a / 2 + (8 * u * L + 4 * ε * L) < |x| ∨ b / 2 + (8 * u * L + 4 * ε * L) < |y| → planeDistance pl point = maxVal)) := by
  have x0 := abs_nonneg (p.x - c.x)
  have y0 := abs_nonneg (p.y - c.y)
  have z0 := abs_nonneg (p.z - c.z)
  have a0 := abs_nonneg a
  have b0 := abs_nonneg b
  obtain ⟨q, q1, qx, qy, qz, -⟩ := plane_coords hF hs hp hc hr hR hε (by linarith) hpos
  dsimp only at qx qy qz
  have hz : ∃ v, (abs (pl.rotation.trans.mulVec (point - pl.center)).z : XF F).Is v ∧ |v - (|h|)| ≤ 6 * u * L + 4 * ε * L :=
    ⟨_, q1.2.2.abs, (abs_abs_sub_abs_le _ _).trans (qz.trans_eq (by ring))⟩
  refine ⟨?_, fun cx cy => ?_⟩
  · unfold planeDistance
    dsimp only
    split
    · exact .inr hz
    · exact .inl rfl
  · have c0 := hc.1
    have c1 := hc.2.1
    rw [cx] at c0
    rw [cy] at c1
    obtain ⟨xl, xu, xl1, xu1, xl2, xu2⟩ := plane_edges hF hs ha c0 (by linarith)
    obtain ⟨yl, yu, yl1, yu1, yl2, yu2⟩ := plane_edges hF hs hb c1 (by linarith)
    have e : 8 * u * L + 4 * ε * L = 2 * (u * L) + (6 * (u * L) + 4 * (ε * L)) := by ring
    rw [e]
    unfold planeDistance
    dsimp only
    constructor
    · intro hx hy
      have ix := edges_in xl2 xu2 qx hx
      have iy := edges_in yl2 yu2 qy hy
      rw [if_pos]
      · exact hz
      · rw [Bool.and_eq_true, Bool.and_eq_true, Bool.and_eq_true, q1.1.ge xl1, q1.1.le xu1, q1.2.1.ge yl1, q1.2.1.le yu1]
        exact ⟨⟨ix, iy.1⟩, iy.2⟩
    · intro ho
      rw [if_neg]
      rw [Bool.and_eq_true, Bool.and_eq_true, Bool.and_eq_true, q1.1.ge xl1, q1.1.le xu1, q1.2.1.ge yl1, q1.2.1.le yu1]
      rintro ⟨⟨ix, iy1⟩, iy2⟩
      rcases ho with ho | ho
      · exact edges_out xl2 xu2 qx ho ix
      · exact edges_out yl2 yu2 qy ho ⟨iy1, iy2⟩

end

/-- **C111** for `double`. -/
theorem C111_double (pl : Plane Double) (point : Vec3 Double) (c p : Vec3 ℚ)
    (a b x y h ε L : ℚ) (R : Mat3 ℚ) (hc : IsV pl.center c) (ha : pl.dx.Is a) (hb : pl.dy.Is b) (hr : IsM pl.rotation R)
    (hR : NearOrtho ε R) (hε : ε ≤ 1 / 1000) (hp : IsV point p) (hpos : p = c + R.mulVec ⟨x, y, h⟩)
    (hL : |p.x - c.x| + |p.y - c.y| + |p.z - c.z| + |a| + |b| ≤ L) (hL1 : 1 / 2 ^ 484 ≤ L) (hL2 : L ≤ 2 ^ 500) :
    (planeDistance pl point = maxVal ∨ ∃ v, (planeDistance pl point).Is v ∧ |v - (|h|)| ≤ 6 * (1 / 2 ^ 53) * L + 4 * ε * L) ∧
    (c.x = 0 → c.y = 0 →
      (|x| ≤ a / 2 - (8 * (1 / 2 ^ 53) * L + 4 * ε * L) → |y| ≤ b / 2 - (8 * (1 / 2 ^ 53) * L + 4 * ε * L) →
        ∃ v, (planeDistance pl point).Is v ∧ |v - (|h|)| ≤ 6 * (1 / 2 ^ 53) * L + 4 * ε * L) ∧
      (a / 2 + (8 * (1 / 2 ^ 53) * L + 4 * ε * L) < |x| ∨ b / 2 + (8 * (1 / 2 ^ 53) * L + 4 * ε * L) < |y| →
        planeDistance pl point = maxVal)) :=
  C111_plane_distance _ _ _ rounds_double pl point c p a b x y h ε L R hc ha hb hr hR hε hp hpos hL (scale_double hL1 hL2)

/-- **C111** for `float`. -/
theorem C111_float (pl : Plane Single) (point : Vec3 Single) (c p : Vec3 ℚ)
    (a b x y h ε L : ℚ) (R : Mat3 ℚ) (hc : IsV pl.center c) (ha : pl.dx.Is a) (hb : pl.dy.Is b) (hr : IsM pl.rotation R)
    (hR : NearOrtho ε R) (hε : ε ≤ 1 / 1000) (hp : IsV point p) (hpos : p = c + R.mulVec ⟨x, y, h⟩)
    (hL : |p.x - c.x| + |p.y - c.y| + |p.z - c.z| + |a| + |b| ≤ L) (hL1 : 1 / 2 ^ 51 ≤ L) (hL2 : L ≤ 2 ^ 60) :
    (planeDistance pl point = maxVal ∨ ∃ v, (planeDistance pl point).Is v ∧ |v - (|h|)| ≤ 6 * (1 / 2 ^ 24) * L + 4 * ε * L) ∧
    (c.x = 0 → c.y = 0 →
      (|x| ≤ a / 2 - (8 * (1 / 2 ^ 24) * L + 4 * ε * L) → |y| ≤ b / 2 - (8 * (1 / 2 ^ 24) * L + 4 * ε * L) →
        ∃ v, (planeDistance pl point).Is v ∧ |v - (|h|)| ≤ 6 * (1 / 2 ^ 24) * L + 4 * ε * L) ∧
      (a / 2 + (8 * (1 / 2 ^ 24) * L + 4 * ε * L) < |x| ∨ b / 2 + (8 * (1 / 2 ^ 24) * L + 4 * ε * L) < |y| →
        planeDistance pl point = maxVal)) :=
  C111_plane_distance _ _ _ rounds_float pl point c p a b x y h ε L R hc ha hb hr hR hε hp hpos hL (scale_float hL1 hL2)

/-- A tilted rectangle around `(0,0,1)`: the point `(0,1/2,6)` is 5 above the center, so about 3 above its plane, but 4 to the side, and
the rectangle is 10 wide.  The hypotheses of (2) can be met. -/
example : ∃ v, (planeDistance (T := Double) ⟨dvec 0 0 1, dbl 10, dbl 2, tilt, 0⟩ (dvec 0 (1/2) 6)).Is v ∧ |v - 3| ≤ 1 / 10 ^ 12 := by
  have dv : ∀ x y z x' y' z' : ℚ, ∀ sx sy sz, dvec x y z = ⟨.fin x' sx, .fin y' sy, .fin z' sz⟩ →
      IsV (dvec x y z) ⟨x', y', z'⟩ := by
    intro x y z x' y' z' sx sy sz e
    rw [e]
    exact ⟨⟨_, rfl⟩, ⟨_, rfl⟩, ⟨_, rfl⟩⟩
  -- the exact coordinates in the system of the rectangle
  let s : ℚ := 5404319552844595 / 2 ^ 53
  let t : ℚ := 3602879701896397 / 2 ^ 52
  let D : ℚ := s * s + t * t
  obtain ⟨-, h⟩ := C111_double ⟨dvec 0 0 1, dbl 10, dbl 2, tilt, 0⟩ (dvec 0 (1/2) 6) ⟨0, 0, 1⟩ ⟨0, 1/2, 6⟩ 10 2 (-(5 * t / D)) (1/2)
    (5 * s / D) (1 / 2 ^ 52) 20 tiltQ (dv _ _ _ _ _ _ false false false (by decide +kernel)) ⟨false, by decide +kernel⟩
    ⟨false, by decide +kernel⟩ tilt_is tilt_near (by decide +kernel) (dv _ _ _ _ _ _ false false false (by decide +kernel))
    (by ext <;> decide +kernel) (by decide +kernel) (by decide +kernel) (by decide +kernel)
  obtain ⟨v, h1, h2⟩ := (h rfl rfl).1 (by decide +kernel) (by decide +kernel)
  refine ⟨v, h1, ?_⟩
  have h3 : |(|5 * s / D| : ℚ) - 3| ≤ 1 / 10 ^ 13 := by decide +kernel
  have h4 := abs_sub_le v |5 * s / D| 3
  have h5 : (6 * (1 / 2 ^ 53) * 20 + 4 * (1 / 2 ^ 52) * 20 : ℚ) ≤ 1 / 10 ^ 13 := by decide +kernel
  have h6 : (1 / 10 ^ 13 + 1 / 10 ^ 13 : ℚ) ≤ 1 / 10 ^ 12 := by norm_num
  exact h4.trans ((add_le_add (h2.trans h5) h3).trans h6)

end Blazert
