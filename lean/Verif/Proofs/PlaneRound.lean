/- Rounding errors of the plane test. -/
import Verif.Proofs.SphereRound
import Verif.Proofs.TriScan
import Verif.Spec.PlaneRound
import Verif.Spec.TriRound
import Verif.Spec.Hits
import Verif.Model.Plane

set_option autoImplicit false
set_option linter.unusedSectionVars false

namespace Blazert
open Scalar

section
variable {K : Type} [Field K] [LinearOrder K] [IsStrictOrderedRing K] [FloorRing K] {ε L : K}

/-! ### nearly orthonormal matrices -/

theorem unit_comp {a : Vec3 K} (h : |Vec3.dot a a - 1| ≤ ε) (hε : ε ≤ 1 / 1000) :
    |a.x| ≤ 1001 / 1000 ∧ |a.y| ≤ 1001 / 1000 ∧ |a.z| ≤ 1001 / 1000 := by
  have h1 := (abs_le.1 h).2
  obtain ⟨x, y, z⟩ := comp_sq_le a
  refine ⟨abs_le_of_sq_le_sq ?_ (by norm_num), abs_le_of_sq_le_sq ?_ (by norm_num), abs_le_of_sq_le_sq ?_ (by norm_num)⟩ <;>
    rw [pow_two] <;> linarith

theorem unit_dot {a v : Vec3 K} (h : |Vec3.dot a a - 1| ≤ ε) (hε : ε ≤ 1 / 1000) :
    |a.x * v.x| + |a.y * v.y| + |a.z * v.z| ≤ 1001 / 1000 * oneNorm v ∧ |Vec3.dot a v| ≤ 1001 / 1000 * oneNorm v := by
  obtain ⟨hx, hy, hz⟩ := unit_comp h hε
  have x := abs_mul_le hx (le_refl |v.x|)
  have y := abs_mul_le hy (le_refl |v.y|)
  have z := abs_mul_le hz (le_refl |v.z|)
  have h1 : |a.x * v.x| + |a.y * v.y| + |a.z * v.z| ≤ 1001 / 1000 * oneNorm v := by unfold oneNorm; linarith
  refine ⟨h1, le_trans ?_ h1⟩
  unfold Vec3.dot
  exact abs_add_le' (abs_add_le _ _) le_rfl

theorem NearOrtho.rows {R : Mat3 K} (h : NearOrtho ε R) : NearUnit ε R.r0 R.r1 R.r2 := h.1
theorem NearOrtho.cols {R : Mat3 K} (h : NearOrtho ε R) : NearUnit ε R.trans.r0 R.trans.r1 R.trans.r2 := h.2

theorem NearUnit.nonneg {a b c : Vec3 K} (h : NearUnit ε a b c) : 0 ≤ ε := (abs_nonneg _).trans h.ab

theorem oneNorm_sq_le (d : Vec3 K) : oneNorm d ^ 2 ≤ 3 * Vec3.dot d d := by
  unfold oneNorm Vec3.dot
  rw [← abs_mul_abs_self d.x, ← abs_mul_abs_self d.y, ← abs_mul_abs_self d.z]
  nlinarith [mul_self_nonneg (|d.x| - |d.y|), mul_self_nonneg (|d.x| - |d.z|), mul_self_nonneg (|d.y| - |d.z|)]

theorem oneNorm_nonneg' (d : Vec3 K) : 0 ≤ oneNorm d := by
  unfold oneNorm
  have := abs_nonneg d.x
  have := abs_nonneg d.y
  have := abs_nonneg d.z
  linarith

/-- the length of a vector in local coordinates -/
theorem NearOrtho.norm {R : Mat3 K} (h : NearOrtho ε R) (d : Vec3 K) :
    |Vec3.dot (R.trans.mulVec d) (R.trans.mulVec d) - Vec3.dot d d| ≤ 3 * ε * Vec3.dot d d := by
  obtain ⟨aa, bb, cc, ab, ac, bc⟩ := h.rows
  have e : Vec3.dot (R.trans.mulVec d) (R.trans.mulVec d) - Vec3.dot d d =
      d.x * d.x * (Vec3.dot R.r0 R.r0 - 1) + d.y * d.y * (Vec3.dot R.r1 R.r1 - 1) + d.z * d.z * (Vec3.dot R.r2 R.r2 - 1) +
      2 * d.x * d.y * Vec3.dot R.r0 R.r1 + 2 * d.x * d.z * Vec3.dot R.r0 R.r2 + 2 * d.y * d.z * Vec3.dot R.r1 R.r2 := by
    simp only [Vec3.dot, Mat3.mulVec, Mat3.trans]; ring
  have h1 := abs_mul_le (le_refl |d.x * d.x|) aa
  have h2 := abs_mul_le (le_refl |d.y * d.y|) bb
  have h3 := abs_mul_le (le_refl |d.z * d.z|) cc
  have h4 := abs_mul_le (le_refl |2 * d.x * d.y|) ab
  have h5 := abs_mul_le (le_refl |2 * d.x * d.z|) ac
  have h6 := abs_mul_le (le_refl |2 * d.y * d.z|) bc
  rw [e]
  refine (abs_add_le' (abs_add_le' (abs_add_le' (abs_add_le' (abs_add_le' h1 h2) h3) h4) h5) h6).trans ?_
  have e2 : |d.x * d.x| * ε + |d.y * d.y| * ε + |d.z * d.z| * ε + |2 * d.x * d.y| * ε + |2 * d.x * d.z| * ε +
      |2 * d.y * d.z| * ε = ε * oneNorm d ^ 2 := by
    unfold oneNorm
    simp only [abs_mul, abs_two]
    ring
  rw [e2, mul_comm 3 ε, mul_assoc]
  exact mul_le_mul_of_nonneg_left (oneNorm_sq_le d) h.rows.nonneg

/-- back from local coordinates, one component -/
theorem back_aux {r0 r1 r2 v : Vec3 K} (h0 : |Vec3.dot r0 r0 - 1| ≤ ε) (h1 : |Vec3.dot r0 r1| ≤ ε) (h2 : |Vec3.dot r0 r2| ≤ ε)
    {x y z : K} : |x * (Vec3.dot r0 r0 - 1) + y * Vec3.dot r0 r1 + z * Vec3.dot r0 r2| ≤ ε * (|x| + |y| + |z|) := by
  have a := abs_mul_le (le_refl |x|) h0
  have b := abs_mul_le (le_refl |y|) h1
  have c := abs_mul_le (le_refl |z|) h2
  refine (abs_add_le' (abs_add_le' a b) c).trans (le_of_eq ?_)
  ring

theorem NearOrtho.back {R : Mat3 K} (h : NearOrtho ε R) (v : Vec3 K) (k : Fin 3) :
    |(R.mulVec (R.trans.mulVec v)).get k - v.get k| ≤ ε * oneNorm v := by
  obtain ⟨aa, bb, cc, ab, ac, bc⟩ := h.rows
  have ba := ab; have ca := ac; have cb := bc
  rw [dot_comm'] at ba ca cb
  match k with
  | 0 =>
    have := back_aux aa ab ac (v := v) (x := v.x) (y := v.y) (z := v.z)
    have e : (R.mulVec (R.trans.mulVec v)).get 0 - v.get 0 =
      v.x * (Vec3.dot R.r0 R.r0 - 1) + v.y * Vec3.dot R.r0 R.r1 + v.z * Vec3.dot R.r0 R.r2 := by
      simp only [Vec3.dot, Mat3.mulVec, Mat3.trans, Vec3.get_zero]; ring
    rw [e]; exact this
  | 1 =>
    have := back_aux bb ba bc (v := v) (x := v.y) (y := v.x) (z := v.z)
    have e : (R.mulVec (R.trans.mulVec v)).get 1 - v.get 1 =
      v.y * (Vec3.dot R.r1 R.r1 - 1) + v.x * Vec3.dot R.r1 R.r0 + v.z * Vec3.dot R.r1 R.r2 := by
      simp only [Vec3.dot, Mat3.mulVec, Mat3.trans, Vec3.get_one]; ring
    rw [e]; refine this.trans (le_of_eq ?_); unfold oneNorm; ring
  | 2 =>
    have := back_aux cc ca cb (v := v) (x := v.z) (y := v.x) (z := v.y)
    have e : (R.mulVec (R.trans.mulVec v)).get 2 - v.get 2 =
      v.z * (Vec3.dot R.r2 R.r2 - 1) + v.x * Vec3.dot R.r2 R.r0 + v.y * Vec3.dot R.r2 R.r1 := by
      simp only [Vec3.dot, Mat3.mulVec, Mat3.trans, Vec3.get_two]; ring
    rw [e]; refine this.trans (le_of_eq ?_); unfold oneNorm; ring

/-- the coordinates of a point of the rectangle, in the local system -/
theorem NearOrtho.forth {R : Mat3 K} (h : NearOrtho ε R) (x y : K) :
    |(R.trans.mulVec (R.mulVec ⟨x, y, 0⟩)).x - x| ≤ ε * (|x| + |y|) ∧
    |(R.trans.mulVec (R.mulVec ⟨x, y, 0⟩)).y - y| ≤ ε * (|x| + |y|) ∧
    |(R.trans.mulVec (R.mulVec ⟨x, y, 0⟩)).z| ≤ ε * (|x| + |y|) := by
  obtain ⟨aa, bb, cc, ab, ac, bc⟩ := h.cols
  refine ⟨?_, ?_, ?_⟩
  · have a := abs_mul_le (le_refl |x|) aa
    have b := abs_mul_le (le_refl |y|) ab
    have e : (R.trans.mulVec (R.mulVec ⟨x, y, 0⟩)).x - x = x * (Vec3.dot R.trans.r0 R.trans.r0 - 1) +
        y * Vec3.dot R.trans.r0 R.trans.r1 := by
      simp only [Vec3.dot, Mat3.mulVec, Mat3.trans]; ring
    rw [e]
    exact (abs_add_le' a b).trans (le_of_eq (by ring))
  · have a := abs_mul_le (le_refl |x|) ab
    have b := abs_mul_le (le_refl |y|) bb
    have e : (R.trans.mulVec (R.mulVec ⟨x, y, 0⟩)).y - y = x * Vec3.dot R.trans.r0 R.trans.r1 +
        y * (Vec3.dot R.trans.r1 R.trans.r1 - 1) := by
      simp only [Vec3.dot, Mat3.mulVec, Mat3.trans]; ring
    rw [e]
    exact (abs_add_le' a b).trans (le_of_eq (by ring))
  · have a := abs_mul_le (le_refl |x|) ac
    have b := abs_mul_le (le_refl |y|) bc
    have e : (R.trans.mulVec (R.mulVec ⟨x, y, 0⟩)).z = x * Vec3.dot R.trans.r0 R.trans.r2 +
        y * Vec3.dot R.trans.r1 R.trans.r2 := by
      simp only [Vec3.dot, Mat3.mulVec, Mat3.trans]; ring
    rw [e]
    exact (abs_add_le' a b).trans (le_of_eq (by ring))

end

section
variable {K : Type} [Field K] [LinearOrder K] [IsStrictOrderedRing K] [FloorRing K] {F : Fmt K} {u η hi L ε : K}

/-! ### the local coordinates, computed -/

theorem IsM.transpose {m : Mat3 (XF F)} {n : Mat3 K} (h : IsM m n) : IsM m.trans n.trans :=
  ⟨⟨h.1.1, h.2.1.1, h.2.2.1⟩, ⟨h.1.2.1, h.2.1.2.1, h.2.2.2.1⟩, ⟨h.1.2.2, h.2.1.2.2, h.2.2.2.2⟩⟩

theorem unit_one_norm {d : Vec3 K} (h : Vec3.dot d d ≤ 101 / 100) : oneNorm d ≤ 175 / 100 := by
  have h1 := oneNorm_sq_le d
  refine (le_abs_self _).trans (abs_le_of_sq_le_sq ?_ (by norm_num))
  linarith

/-- one local coordinate of a difference of points -/
theorem local_org (hF : F.Rounds u η hi) (hs : Scale u η hi L) {x y : Vec3 (XF F)} {a v w : Vec3 K} (hx : IsV x a)
    (hy : IsV y w) (ha : |Vec3.dot a a - 1| ≤ ε) (hε : ε ≤ 1 / 1000) (hw : NearV u η L w v) :
    ∃ r, (Vec3.dot x y).Is r ∧ |r - Vec3.dot a v| ≤ 6 * (u * L) ∧ |Vec3.dot a v| ≤ 1001 / 1000 * L ∧ |r| ≤ 101 / 100 * L := by
  obtain ⟨u0, u1, η0, ηu, ηL, ηLL, ηuLL, ηuL, L0, uL0, uLL0, uL1, uLL1, hi1, hiL, hiLL⟩ := hs.sizes
  obtain ⟨s1, s2⟩ := hw.sums hs
  have hv := hw.size
  have h1 := (unit_dot (v := w) ha hε).1
  have h2 := (unit_dot (v := w - v) ha hε).2
  have h3 := (unit_dot (v := v) ha hε).2
  have e1 : oneNorm w = |w.x| + |w.y| + |w.z| := rfl
  have e2 : oneNorm v = |v.x| + |v.y| + |v.z| := rfl
  have e3 : oneNorm (w - v) = |w.x - v.x| + |w.y - v.y| + |w.z - v.z| := rfl
  rw [e1] at h1
  rw [e2] at h3
  rw [e3] at h2
  obtain ⟨r, r1, r2, -⟩ := rnd_dot hF.toGradual u0.le (by linarith) η0 hx hy (h1.trans (mul_le_mul_of_nonneg_left s1 (by norm_num)))
    (by linarith)
  have e4 : Vec3.dot a w - Vec3.dot a v = Vec3.dot a (w - v) := by
    simp only [Vec3.dot, Vec3.sub_x, Vec3.sub_y, Vec3.sub_z]; ring
  rw [← e4] at h2
  have h4 := abs_near_trans r2 h2
  have h5 : |r - Vec3.dot a v| ≤ 6 * (u * L) := by
    refine h4.trans ?_
    rw [show 4 * u * (1001 / 1000 * (1001 / 1000 * L)) = 4 * (1001 / 1000 * (1001 / 1000 * (u * L))) by ring]
    linarith
  have h6 : |Vec3.dot a v| ≤ 1001 / 1000 * L := h3.trans (by linarith)
  exact ⟨r, r1, h5, h6, (abs_le_of_near h5 h6).trans (by linarith)⟩

/-- one local coordinate of the direction -/
theorem local_dir (hF : F.Rounds u η hi) (hs : Scale u η hi L) {x y : Vec3 (XF F)} {a d : Vec3 K} (hx : IsV x a)
    (hy : IsV y d) (ha : |Vec3.dot a a - 1| ≤ ε) (hε : ε ≤ 1 / 1000) (hd : Vec3.dot d d ≤ 101 / 100) :
    ∃ r, (Vec3.dot x y).Is r ∧ |r - Vec3.dot a d| ≤ 8 * u := by
  obtain ⟨u0, u1, η0, ηu, ηL, ηLL, ηuLL, ηuL, L0, uL0, uLL0, uL1, uLL1, hi1, hiL, hiLL⟩ := hs.sizes
  have h1 := (unit_dot (v := d) ha hε).1
  have h2 := unit_one_norm hd
  obtain ⟨r, r1, r2, -⟩ := rnd_dot hF.toGradual u0.le (by linarith) η0 hx hy (h1.trans (mul_le_mul_of_nonneg_left h2 (by norm_num)))
    (by linarith)
  refine ⟨r, r1, r2.trans ?_⟩
  linarith

/-- the local coordinates of origin and direction, and what is computed for them -/
structure Local (u ε L : K) (p d p' d' : Vec3 K) : Prop where
  px : |p'.x - p.x| ≤ 6 * (u * L)
  py : |p'.y - p.y| ≤ 6 * (u * L)
  pz : |p'.z - p.z| ≤ 6 * (u * L)
  sx : |p'.x| ≤ 101 / 100 * L
  sy : |p'.y| ≤ 101 / 100 * L
  sz : |p'.z| ≤ 101 / 100 * L
  dx : |d'.x - d.x| ≤ 8 * u
  dy : |d'.y - d.y| ≤ 8 * u
  dz : |d'.z - d.z| ≤ 8 * u
  nd : |Vec3.dot d d - 1| ≤ 11 * u + 4 * ε
  nd' : |Vec3.dot d' d' - 1| ≤ 42 * u + 4 * ε

theorem local_dot_near {d d' : Vec3 K} (hs : Scale u η hi L) (hx : |d'.x - d.x| ≤ 8 * u) (hy : |d'.y - d.y| ≤ 8 * u)
    (hz : |d'.z - d.z| ≤ 8 * u) (hd : Vec3.dot d d ≤ 102 / 100) : |Vec3.dot d' d' - Vec3.dot d d| ≤ 31 * u := by
  obtain ⟨u0, u1, -⟩ := hs.sizes
  have h1 : oneNorm d ≤ 176 / 100 := by
    have h1 := oneNorm_sq_le d
    refine (le_abs_self _).trans (abs_le_of_sq_le_sq ?_ (by norm_num))
    linarith
  unfold oneNorm at h1
  have key : ∀ a b : K, |a - b| ≤ 8 * u → |a * a - b * b| ≤ 8 * u * (2 * |b| + 8 * u) := by
    intro a b h
    rw [show a * a - b * b = (a - b) * (a + b) by ring]
    refine abs_mul_le h ?_
    rw [show a + b = (a - b) + 2 * b by ring]
    have := abs_add_le' h (le_refl |2 * b|)
    rw [abs_mul, abs_two] at this
    linarith
  have e : Vec3.dot d' d' - Vec3.dot d d = (d'.x * d'.x - d.x * d.x) + (d'.y * d'.y - d.y * d.y) + (d'.z * d'.z - d.z * d.z) := by
    unfold Vec3.dot; ring
  rw [e]
  refine (abs_add_le' (abs_add_le' (key _ _ hx) (key _ _ hy)) (key _ _ hz)).trans ?_
  have h2 := mul_le_mul_of_nonneg_left h1 u0.le
  have h3 : u * u ≤ 1 / 2 ^ 20 * u := mul_le_mul_of_nonneg_right u1 u0.le
  rw [show 8 * u * (2 * |d.x| + 8 * u) + 8 * u * (2 * |d.y| + 8 * u) + 8 * u * (2 * |d.z| + 8 * u) =
    16 * (u * (|d.x| + |d.y| + |d.z|)) + 192 * (u * u) by ring]
  linarith

theorem plane_local (hF : F.Rounds u η hi) (hs : Scale u η hi L) {org dir cen : Vec3 (XF F)} {rot : Mat3 (XF F)}
    {o d c : Vec3 K} {R : Mat3 K} (ho : IsV org o) (hd : IsV dir d) (hc : IsV cen c) (hR : IsM rot R)
    (hortho : NearOrtho ε R) (hε : ε ≤ 1 / 1000) (hN : |Vec3.dot d d - 1| ≤ 11 * u)
    (hL : |o.x - c.x| + |o.y - c.y| + |o.z - c.z| ≤ L) :
    ∃ p' d', IsV (rot.trans.mulVec (org - cen)) p' ∧ IsV (rot.trans.mulVec dir) d' ∧
      Local u ε L (R.trans.mulVec (o - c)) (R.trans.mulVec d) p' d' := by
  obtain ⟨u0, u1, -⟩ := hs.sizes
  have ε0 := hortho.rows.nonneg
  have hRt := hR.transpose
  obtain ⟨w, w1, w2⟩ := rnd_subv hF hs ho hc hL
  have hd1 : Vec3.dot d d ≤ 101 / 100 := by have := (abs_le.1 hN).2; linarith
  obtain ⟨x, x1, x2, -, x3⟩ := local_org hF hs hRt.1 w1 hortho.cols.aa hε w2
  obtain ⟨y, y1, y2, -, y3⟩ := local_org hF hs hRt.2.1 w1 hortho.cols.bb hε w2
  obtain ⟨z, z1, z2, -, z3⟩ := local_org hF hs hRt.2.2 w1 hortho.cols.cc hε w2
  obtain ⟨a, a1, a2⟩ := local_dir hF hs hRt.1 hd hortho.cols.aa hε hd1
  obtain ⟨b, b1, b2⟩ := local_dir hF hs hRt.2.1 hd hortho.cols.bb hε hd1
  obtain ⟨e, e1, e2⟩ := local_dir hF hs hRt.2.2 hd hortho.cols.cc hε hd1
  have n1 := hortho.norm d
  have n2 : 3 * ε * Vec3.dot d d ≤ 4 * ε := by
    have := mul_le_mul_of_nonneg_left hd1 ε0
    linarith
  have n3 := abs_near_trans n1 hN
  have nd : |Vec3.dot (R.trans.mulVec d) (R.trans.mulVec d) - 1| ≤ 11 * u + 4 * ε := by linarith
  have n4 : Vec3.dot (R.trans.mulVec d) (R.trans.mulVec d) ≤ 102 / 100 := by
    have := (abs_le.1 nd).2
    linarith
  have n5 := abs_near_trans (local_dot_near hs (d := R.trans.mulVec d) (d' := ⟨a, b, e⟩) a2 b2 e2 n4) nd
  exact ⟨⟨x, y, z⟩, ⟨a, b, e⟩, ⟨x1, y1, z1⟩, ⟨a1, b1, e1⟩, x2, y2, z2, x3, y3, z3, a2, b2, e2, nd, by linarith⟩

/-! ### what is finite came from finite numbers -/

theorem Is.add_right {x y : XF F} {r a : K} (h : (x + y).Is r) (hx : x.Is a) : ∃ b, y.Is b ∧ F.post (a + b) = some r := by
  obtain ⟨s, rfl⟩ := hx
  match y with
  | .fin b t => exact ⟨b, ⟨t, rfl⟩, XF.mk_is h⟩
  | .inf t => obtain ⟨_, h⟩ := h; cases h
  | .nan => obtain ⟨_, h⟩ := h; cases h

theorem Is.mul_post {x y : XF F} {r a b : K} (h : (x * y).Is r) (hx : x.Is a) (hy : y.Is b) : F.post (a * b) = some r := by
  obtain ⟨s, rfl⟩ := hx
  obtain ⟨t, rfl⟩ := hy
  exact XF.mk_is h

theorem Is.div_post {x y : XF F} {r a b : K} (h : (x / y).Is r) (hx : x.Is a) (hy : y.Is b) :
    b ≠ 0 ∧ F.post (a / b) = some r := by
  obtain ⟨s, rfl⟩ := hx
  obtain ⟨t, rfl⟩ := hy
  obtain ⟨w, h⟩ := h
  change (if b = 0 then (if a = 0 then XF.nan else XF.inf _) else XF.mk F _ (a / b)) = _ at h
  by_cases hb : b = 0
  · rw [if_pos hb] at h
    split_ifs at h
  · rw [if_neg hb] at h
    exact ⟨hb, XF.mk_is ⟨w, h⟩⟩

/-! ### which tests pass -/

/-- between two bounds, and not on both -/
def Within (v a b : XF F) : Prop :=
  (gt v a = true ∧ lt v b = true) ∨ (eq v a = true ∧ lt v b = true) ∨ (gt v a = true ∧ eq v b = true)

theorem Within.is {v a b : XF F} {A B : K} (h : Within v a b) (ha : a.Is A) (hb : b.Is B) :
    ∃ V, v.Is V ∧ A ≤ V ∧ V ≤ B ∧ A < B := by
  obtain ⟨s, rfl⟩ := ha
  obtain ⟨t, rfl⟩ := hb
  match v with
  | .fin V w =>
    refine ⟨V, ⟨w, rfl⟩, ?_⟩
    rcases h with ⟨h1, h2⟩ | ⟨h1, h2⟩ | ⟨h1, h2⟩
    · have h1 : A < V := of_decide_eq_true h1
      have h2 : V < B := of_decide_eq_true h2
      exact ⟨h1.le, h2.le, h1.trans h2⟩
    · have h1 : V = A := of_decide_eq_true h1
      have h2 : V < B := of_decide_eq_true h2
      exact ⟨h1.ge, h2.le, h1 ▸ h2⟩
    · have h1 : A < V := of_decide_eq_true h1
      have h2 : V = B := of_decide_eq_true h2
      exact ⟨h1.le, h2.le, h2 ▸ h1⟩
  | .inf w =>
    cases w
    · rcases h with ⟨_, h2⟩ | ⟨h1, _⟩ | ⟨_, h2⟩
      · cases h2
      · cases h1
      · cases h2
    · rcases h with ⟨h1, _⟩ | ⟨h1, _⟩ | ⟨h1, _⟩ <;> cases h1
  | .nan => rcases h with ⟨h1, h2⟩ | ⟨h1, h2⟩ | ⟨h1, h2⟩ <;> first | cases h1 | cases h2

/-- on none of the sides -/
def OffEdge (p : Vec3 (XF F)) (x0 x1 y0 y1 : XF F) : Prop :=
  eq p.x x0 = false ∧ eq p.x x1 = false ∧ eq p.y y0 = false ∧ eq p.y y1 = false

/-- the outcome of the plane test; `N` is the normal recorded in the interior -/
def PlaneTaken (i : PlaneI (XF F)) (t1 : XF F) (p dir : Vec3 (XF F)) (x0 x1 y0 y1 : XF F) (id : Nat) (N : Vec3 (XF F))
    (r : PlaneI (XF F) × Bool) : Prop :=
  r = (i, false) ∨ (gt t1 i.minHit = true ∧ lt t1 i.hd = true ∧ Within p.x x0 x1 ∧ Within p.y y0 y1 ∧
    ∃ n, r = i.record n t1 dir id ∧ (OffEdge p x0 x1 y0 y1 → n = N))

theorem PlaneTaken.ite {i : PlaneI (XF F)} {t1 : XF F} {p dir : Vec3 (XF F)} {x0 x1 y0 y1 : XF F} {id : Nat} {N : Vec3 (XF F)} {c : Bool}
    {a b : PlaneI (XF F) × Bool} (ha : c = true → PlaneTaken i t1 p dir x0 x1 y0 y1 id N a)
    (hb : PlaneTaken i t1 p dir x0 x1 y0 y1 id N b) : PlaneTaken i t1 p dir x0 x1 y0 y1 id N (if c = true then a else b) := by
  split
  · exact ha ‹_›
  · exact hb

theorem planeIntersect_taken (i : PlaneI (XF F)) (pl : Plane (XF F)) (ray : Ray (XF F)) :
    PlaneTaken i (-(pl.rotation.trans.mulVec (i.rayOrg - pl.center)).z / (pl.rotation.trans.mulVec i.rayDir).z)
      (pl.rotation.trans.mulVec (i.rayOrg - pl.center) +
        Vec3.smul (-(pl.rotation.trans.mulVec (i.rayOrg - pl.center)).z / (pl.rotation.trans.mulVec i.rayDir).z)
          (pl.rotation.trans.mulVec i.rayDir))
      (pl.rotation.trans.mulVec i.rayDir) (-pl.dx / nat 2) (pl.dx / nat 2) (-pl.dy / nat 2) (pl.dy / nat 2) pl.primId
      (Vec3.smul ((pl.rotation.trans.mulVec (i.rayOrg - pl.center)).z /
        abs (pl.rotation.trans.mulVec (i.rayOrg - pl.center)).z) (pl.rotation.mulVec ⟨nat 0, nat 0, nat 1⟩))
      (planeIntersect i pl ray) := by
  unfold planeIntersect
  dsimp only
  refine .ite (fun h => by
    simp only [Bool.and_eq_true] at h
    obtain ⟨⟨⟨⟨⟨h1, h2⟩, h3⟩, h4⟩, h5⟩, h6⟩ := h
    exact .inr ⟨h1, h2, by unfold Within; simp only [h3, h4, and_self, true_or, or_true],
      by unfold Within; simp only [h5, h6, and_self, true_or, or_true], _, rfl, fun _ => rfl⟩) ?_
  iterate 8
    refine .ite (fun h => by
      simp only [Bool.and_eq_true] at h
      obtain ⟨⟨⟨⟨⟨h1, h2⟩, h3⟩, h4⟩, h5⟩, h6⟩ := h
      exact .inr ⟨h1, h2, by unfold Within; simp only [h3, h4, and_self, true_or, or_true],
        by unfold Within; simp only [h5, h6, and_self, true_or, or_true], _, rfl, fun ho => by
          obtain ⟨o1, o2, o3, o4⟩ := ho
          first
            | exact absurd h3 (by rw [o1]; exact Bool.false_ne_true)
            | exact absurd h4 (by rw [o2]; exact Bool.false_ne_true)
            | exact absurd h5 (by rw [o3]; exact Bool.false_ne_true)
            | exact absurd h6 (by rw [o4]; exact Bool.false_ne_true)⟩) ?_
  exact .inl rfl

/-! ### a hit is close to the rectangle -/

theorem faith_bound {r r' B : K} (u0 : 0 ≤ u) (u1 : u ≤ 1 / 2 ^ 20) (h : |r' - r| ≤ u * |r| + η) (hr : |r'| ≤ B) :
    |r| ≤ 1001 / 1000 * (B + η) := by
  have h1 : u * |r| ≤ 1 / 2 ^ 20 * |r| := mul_le_mul_of_nonneg_right u1 (abs_nonneg r)
  have h2 : |r| ≤ |r'| + |r' - r| := by
    have := abs_add_le r' (r - r')
    rw [add_sub_cancel, abs_sub_comm r] at this
    exact this
  have h3 := abs_nonneg r
  linarith

/-- the position in the rectangle, one coordinate -/
theorem plane_coord (hs : Scale u η hi L) {a p T e Px X x1 : K} (hfa1 : |X - (p + Px)| ≤ u * |p + Px| + η)
    (hfa2 : |Px - T * e| ≤ u * |T * e| + η) (hx1 : |x1 - a / 2| ≤ u * |a / 2| + η) (ha : |a| ≤ L)
    (hp : |p| ≤ 101 / 100 * L) (hX : |X| ≤ |x1|) :
    |T * e| ≤ 154 / 100 * L ∧ |X - (p + T * e)| ≤ 21 / 10 * (u * L) := by
  obtain ⟨u0, u1, η0, ηu, ηL, ηLL, ηuLL, ηuL, L0, uL0, uLL0, uL1, uLL1, hi1, hiL, hiLL⟩ := hs.sizes
  have ha2 : |a / 2| ≤ L / 2 := by rw [abs_div, abs_two]; linarith
  have h1 := mul_le_mul_of_nonneg_left ha2 u0.le
  have h2 := abs_le_of_near hx1 ha2
  have h3 : |p + Px| ≤ 1001 / 1000 * (51 / 100 * L + η) := faith_bound u0.le u1 hfa1 (by linarith)
  have h4 : |Px| ≤ 153 / 100 * L := by
    have := abs_sub_le' h3 hp
    rw [show p + Px - p = Px by ring] at this
    linarith
  have h5 : |T * e| ≤ 1001 / 1000 * (153 / 100 * L + η) := faith_bound u0.le u1 hfa2 h4
  have h6 : |T * e| ≤ 154 / 100 * L := by linarith
  refine ⟨h6, ?_⟩
  have h7 := mul_le_mul_of_nonneg_left h6 u0.le
  have h8 := mul_le_mul_of_nonneg_left h3 u0.le
  have h9 : |(p + Px) - (p + T * e)| ≤ u * |T * e| + η := by
    rw [show (p + Px) - (p + T * e) = Px - T * e by ring]; exact hfa2
  have h10 := abs_near_trans hfa1 h9
  have h11 : u * η ≤ 1 * η := mul_le_mul_of_nonneg_right (by linarith) η0
  linarith

/-- where the plane is met: the third coordinate vanishes -/
theorem plane_zero (hs : Scale u η hi L) {p e T : K} (he : e ≠ 0) (h : |T - -p / e| ≤ u * |-p / e| + η)
    (hp : |p| ≤ 101 / 100 * L) (he1 : |e| ≤ 102 / 100) : |p + T * e| ≤ 102 / 100 * (u * L) := by
  obtain ⟨u0, u1, η0, ηu, ηL, ηLL, ηuLL, ηuL, L0, uL0, uLL0, uL1, uLL1, hi1, hiL, hiLL⟩ := hs.sizes
  have h1 : |(T - -p / e) * e| ≤ (u * |-p / e| + η) * |e| := by
    rw [abs_mul]; exact mul_le_mul_of_nonneg_right h (abs_nonneg e)
  have e1 : (T - -p / e) * e = p + T * e := by field_simp; ring
  have e2 : (u * |-p / e| + η) * |e| = u * |p| + η * |e| := by
    rw [abs_div, abs_neg, add_mul, mul_assoc, div_mul_cancel₀ _ (abs_ne_zero.2 he)]
  rw [e1, e2] at h1
  have h2 := mul_le_mul_of_nonneg_left hp u0.le
  have h3 := mul_le_mul_of_nonneg_left he1 η0
  linarith

theorem plane_T_le (L0 : 0 < L) {d : Vec3 K} {T : K} (T0 : 0 ≤ T) (hN : 99 / 100 ≤ Vec3.dot d d) (hx : |T * d.x| ≤ 154 / 100 * L)
    (hy : |T * d.y| ≤ 154 / 100 * L) (hz : |T * d.z| ≤ 102 / 100 * L) : T ≤ 5 / 2 * L := by
  have key : ∀ a A : K, |a| ≤ A → a * a ≤ A * A := by
    intro a A h
    rw [← abs_mul_abs_self a]
    exact mul_le_mul h h (abs_nonneg a) ((abs_nonneg a).trans h)
  have h1 := key _ _ hx
  have h2 := key _ _ hy
  have h3 := key _ _ hz
  have h4 : T * T * Vec3.dot d d = T * d.x * (T * d.x) + T * d.y * (T * d.y) + T * d.z * (T * d.z) := by
    unfold Vec3.dot; ring
  have h5 : T * T * (99 / 100) ≤ T * T * Vec3.dot d d := mul_le_mul_of_nonneg_left hN (mul_self_nonneg T)
  refine (le_abs_self T).trans (abs_le_of_sq_le_sq ?_ (by linarith))
  have e : (5 / 2 * L) ^ 2 = 25 / 4 * (L * L) := by ring
  rw [e, pow_two]
  have := mul_pos L0 L0
  linarith

/-- one local coordinate of the point at the reported distance, against the one at the parameter computed -/
theorem coord_at (hs : Scale u η hi L) {p p' e e' T h Q : K} (hp : |p' - p| ≤ 6 * (u * L)) (he : |e' - e| ≤ 8 * u)
    (hT0 : 0 ≤ T) (hT : T ≤ 5 / 2 * L) (hh : |h - T| ≤ 152 * (u * L) + 10 * (ε * L)) (he1 : |e| ≤ 101 / 100)
    (ε0 : 0 ≤ ε) (hQ : |Q - (p' + T * e')| ≤ 21 / 10 * (u * L)) : |Q - (p + h * e)| ≤ 183 * (u * L) + 102 / 10 * (ε * L) := by
  obtain ⟨u0, u1, η0, ηu, ηL, ηLL, ηuLL, ηuL, L0, uL0, uLL0, uL1, uLL1, hi1, hiL, hiLL⟩ := hs.sizes
  have hT' : |T| ≤ 5 / 2 * L := by rw [abs_of_nonneg hT0]; exact hT
  have h1 := abs_mul_le hT' he
  have h2 := abs_mul_le hh he1
  have e1 : Q - (p + h * e) = (Q - (p' + T * e')) + (p' - p) + T * (e' - e) - (h - T) * e := by ring
  rw [e1]
  refine (abs_sub_le' (abs_add_le' (abs_add_le' hQ hp) h1) h2).trans ?_
  have : 0 ≤ ε * L := mul_nonneg ε0 L0.le
  have e2 : 5 / 2 * L * (8 * u) = 20 * (u * L) := by ring
  rw [e2]
  linarith

/-- the nearest number of an interval -/
theorem exists_clamp {q X x0 x1 A E B : K} (h0 : x0 ≤ X) (h1 : X ≤ x1) (hA : 0 ≤ A) (hE : |X - q| ≤ E) (hx0 : |x0 - -A| ≤ B)
    (hx1 : |x1 - A| ≤ B) : ∃ x, -A ≤ x ∧ x ≤ A ∧ |q - x| ≤ E + B := by
  obtain ⟨a1, a2⟩ := abs_le.1 hE
  obtain ⟨b1, b2⟩ := abs_le.1 hx0
  obtain ⟨c1, c2⟩ := abs_le.1 hx1
  have hB : 0 ≤ B := (abs_nonneg _).trans hx0
  have hE0 : 0 ≤ E := (abs_nonneg _).trans hE
  rcases le_total q (-A) with h | h
  · exact ⟨-A, le_rfl, by linarith, abs_le.2 ⟨by linarith, by linarith⟩⟩
  rcases le_total q A with h' | h'
  · exact ⟨q, h, h', by rw [sub_self, abs_zero]; linarith⟩
  · exact ⟨A, by linarith, le_rfl, abs_le.2 ⟨by linarith, by linarith⟩⟩

theorem trans_along' (R : Mat3 K) (o d c : Vec3 K) (h : K) :
    R.trans.mulVec (along o d h - c) = along (R.trans.mulVec (o - c)) (R.trans.mulVec d) h := by
  ext <;> simp only [along, Mat3.mulVec, Mat3.trans, Vec3.dot, Vec3.add_x, Vec3.add_y, Vec3.add_z, Vec3.sub_x, Vec3.sub_y,
    Vec3.sub_z, Vec3.smul_x, Vec3.smul_y, Vec3.smul_z] <;> ring

/-- from local coordinates to the point of the rectangle -/
theorem rect_near {R : Mat3 K} (hortho : NearOrtho ε R) (hε : ε ≤ 1 / 1000) {v c : Vec3 K} {x y V E : K} (hv : oneNorm v ≤ V)
    (hx : |(R.trans.mulVec v).x - x| ≤ E) (hy : |(R.trans.mulVec v).y - y| ≤ E) (hz : |(R.trans.mulVec v).z| ≤ E) (k : Fin 3) :
    |(c + v).get k - (c + R.mulVec ⟨x, y, 0⟩).get k| ≤ ε * V + 3003 / 1000 * E := by
  have ε0 := hortho.rows.nonneg
  set q := R.trans.mulVec v with hq
  have h1 : |(R.mulVec q).get k - v.get k| ≤ ε * V := (hortho.back v k).trans (mul_le_mul_of_nonneg_left hv ε0)
  have h2 : |(R.mulVec q).get k - (R.mulVec ⟨x, y, 0⟩).get k| ≤ 3003 / 1000 * E := by
    have h3 : oneNorm (q - ⟨x, y, 0⟩) ≤ 3 * E := by
      have e : oneNorm (q - ⟨x, y, 0⟩) = |q.x - x| + |q.y - y| + |q.z - 0| := rfl
      rw [e, sub_zero]
      linarith
    have key : ∀ r : Vec3 K, |Vec3.dot r r - 1| ≤ ε → |Vec3.dot r q - Vec3.dot r ⟨x, y, 0⟩| ≤ 3003 / 1000 * E := by
      intro r hr
      have h4 := (unit_dot (v := q - ⟨x, y, 0⟩) hr hε).2
      have e : Vec3.dot r q - Vec3.dot r ⟨x, y, 0⟩ = Vec3.dot r (q - ⟨x, y, 0⟩) := by
        simp only [Vec3.dot, Vec3.sub_x, Vec3.sub_y, Vec3.sub_z]; ring
      rw [e]
      linarith
    match k with
    | 0 => exact key _ hortho.rows.aa
    | 1 => exact key _ hortho.rows.bb
    | 2 => exact key _ hortho.rows.cc
  have e : (c + v).get k - (c + R.mulVec ⟨x, y, 0⟩).get k = v.get k - (R.mulVec ⟨x, y, 0⟩).get k := by
    match k with
    | 0 => simp only [Vec3.get_zero, Vec3.add_x]; ring
    | 1 => simp only [Vec3.get_one, Vec3.add_y]; ring
    | 2 => simp only [Vec3.get_two, Vec3.add_z]; ring
  rw [e]
  rw [abs_sub_comm] at h1
  exact abs_near_trans h1 h2

theorem off_side {q X x1 A B V : K} (hX : |X - q| ≤ B) (hx1 : |x1 - A| ≤ V) (h : |q| + B + V < A) : -x1 < X ∧ X < x1 := by
  obtain ⟨a1, a2⟩ := abs_le.1 hX
  obtain ⟨b1, b2⟩ := abs_le.1 hx1
  obtain ⟨c1, c2⟩ := abs_le.1 (le_refl |q|)
  constructor <;> linarith

/-- a rectangle given by numbers, of which the origin `o` is not too far away -/
structure PlaneWithin (ε : K) (o : Vec3 K) (L : K) (q : Plane (XF F)) (c : Vec3 K) (a b : K) (R : Mat3 K) : Prop where
  center : IsV q.center c
  dx : q.dx.Is a
  dy : q.dy.Is b
  rot : IsM q.rotation R
  ortho : NearOrtho ε R
  size : |o.x - c.x| + |o.y - c.y| + |o.z - c.z| + |a| + |b| ≤ L

theorem half_is (hF : F.Rounds u η hi) (hs : Scale u η hi L) {x : XF F} {a : K} (hx : x.Is a) (ha : |a| ≤ L) :
    ∃ x1, (x / nat 2).Is x1 ∧ |x1 - a / 2| ≤ u * |a / 2| + η ∧ (0 ≤ a → 0 ≤ x1) := by
  obtain ⟨u0, u1, η0, ηu, ηL, ηLL, ηuLL, ηuL, L0, uL0, uLL0, uL1, uLL1, hi1, hiL, hiLL⟩ := hs.sizes
  have h1 : |a / 2| ≤ L / 2 := by rw [abs_div, abs_two]; linarith
  obtain ⟨x1, h2, h3, h4⟩ := rnd_div hF.toGradual u0.le hx hF.nat2 two_ne_zero le_rfl (by linarith : |a / 2| ≤ hi)
  exact ⟨x1, h2, h3, fun h => h4 (by linarith)⟩

/-- the lower bound is the negative of the upper one -/
theorem neg_half_is (hodd : F.Odd) {x : XF F} {a x1 : K} (h2 : (nat 2 : XF F).Is 2) (hx : x.Is a) (h : (x / nat 2).Is x1) :
    (-x / nat 2).Is (-x1) := by
  obtain ⟨s, rfl⟩ := hx
  obtain ⟨t, h2⟩ := h2
  rw [h2] at h ⊢
  have h3 := (Is.div_post h ⟨s, rfl⟩ ⟨t, rfl⟩).2
  show (XF.div (.fin (-a) _) (.fin 2 t)).Is _
  unfold XF.div
  simp only
  rw [if_neg two_ne_zero]
  refine XF.is_mk ?_
  rw [neg_div, hodd, h3]; rfl

/-- the sides of the rectangle, computed -/
theorem plane_side (hF : F.Rounds u η hi) (hodd : F.Odd) (hs : Scale u η hi L) {x v : XF F} {a : K} (hx : x.Is a) (ha : |a| ≤ L)
    (h : Within v (-x / nat 2) (x / nat 2)) :
    ∃ V x1, v.Is V ∧ |x1 - a / 2| ≤ u * |a / 2| + η ∧ |V| ≤ |x1| ∧ -x1 ≤ V ∧ V ≤ x1 ∧ 0 < a ∧
      (-x1 < V → V < x1 → eq v (-x / nat 2) = false ∧ eq v (x / nat 2) = false) := by
  obtain ⟨x1, h1, h2, h3⟩ := half_is hF hs hx ha
  obtain ⟨V, v1, v2, v3, v4⟩ := h.is (neg_half_is hodd hF.nat2 hx h1) h1
  have h0 : 0 < x1 := by linarith
  refine ⟨V, x1, v1, h2, ?_, v2, v3, ?_, fun l1 l2 => ⟨?_, ?_⟩⟩
  · rw [abs_of_pos h0]; exact abs_le.2 ⟨v2, v3⟩
  · by_contra hneg
    have hneg := not_lt.1 hneg
    have ha' : |-a| ≤ L := by rwa [abs_neg]
    obtain ⟨x2, k1, -, k3⟩ := half_is hF hs hx.neg ha'
    have := k1.unique (neg_half_is hodd hF.nat2 hx h1)
    have := k3 (by linarith)
    linarith
  · rw [← Bool.not_eq_true, v1.eq (neg_half_is hodd hF.nat2 hx h1)]
    exact l1.ne'
  · rw [← Bool.not_eq_true, v1.eq h1]
    exact l2.ne

theorem hit_oneNorm (hs : Scale u η hi L) (hε : ε ≤ 1 / 1000) {o d c : Vec3 K} {r T : K}
    (hL : |o.x - c.x| + |o.y - c.y| + |o.z - c.z| ≤ L) (hN : |Vec3.dot d d - 1| ≤ 11 * u) (r0 : 0 ≤ r) (hTL : T ≤ 5 / 2 * L)
    (r4 : |r - T| ≤ 152 * (u * L) + 10 * (ε * L)) : oneNorm (along o d r - c) ≤ 545 / 100 * L := by
  obtain ⟨u0, u1, η0, ηu, ηL, ηLL, ηuLL, ηuL, L0, uL0, uLL0, uL1, uLL1, hi1, hiL, hiLL⟩ := hs.sizes
  have hd1 : Vec3.dot d d ≤ 101 / 100 := by have := (abs_le.1 hN).2; linarith
  have h1 := unit_one_norm hd1
  have h2 : r ≤ 252 / 100 * L := by
    have := (abs_le.1 r4).2
    have h3 : ε * L ≤ 1 / 1000 * L := mul_le_mul_of_nonneg_right hε L0.le
    linarith
  have h3 : oneNorm (along o d r - c) ≤ (|o.x - c.x| + |o.y - c.y| + |o.z - c.z|) + r * oneNorm d := by
    have e1 : oneNorm (along o d r - c) = |o.x + r * d.x - c.x| + |o.y + r * d.y - c.y| + |o.z + r * d.z - c.z| := rfl
    have key : ∀ A B C : K, |A + r * B - C| ≤ |A - C| + r * |B| := by
      intro A B C
      rw [show A + r * B - C = (A - C) + r * B by ring]
      refine (abs_add_le _ _).trans (le_of_eq ?_)
      rw [abs_mul, abs_of_nonneg r0]
    have k1 := key o.x d.x c.x
    have k2 := key o.y d.y c.y
    have k3 := key o.z d.z c.z
    rw [e1]
    unfold oneNorm
    linarith
  have h4 : r * oneNorm d ≤ 252 / 100 * L * (175 / 100) := mul_le_mul h2 h1 (oneNorm_nonneg' d) (by linarith)
  linarith

theorem near_half (hs : Scale u η hi L) {a x1 : K} (ha : |a| ≤ L) (h : |x1 - a / 2| ≤ u * |a / 2| + η) :
    |x1 - a / 2| ≤ 6 / 10 * (u * L) ∧ |-x1 - -(a / 2)| ≤ 6 / 10 * (u * L) := by
  obtain ⟨u0, u1, η0, ηu, ηL, -, -, -, L0, uL0, -⟩ := hs.sizes
  have h1 : |a / 2| ≤ L / 2 := by rw [abs_div, abs_two]; linarith
  have h2 := mul_le_mul_of_nonneg_left h1 u0.le
  have h3 : |x1 - a / 2| ≤ 6 / 10 * (u * L) := by linarith
  refine ⟨h3, ?_⟩
  rwa [show -x1 - -(a / 2) = -(x1 - a / 2) by ring, abs_neg]

theorem near_one_comp {e : Vec3 K} (he : |Vec3.dot e e - 1| ≤ 5 / 1000) :
    |e.x| ≤ 101 / 100 ∧ |e.y| ≤ 101 / 100 ∧ |e.z| ≤ 101 / 100 := by
  have h1 := (abs_le.1 he).2
  obtain ⟨x, y, z⟩ := comp_sq_le e
  refine ⟨abs_le_of_sq_le_sq ?_ (by norm_num), abs_le_of_sq_le_sq ?_ (by norm_num), abs_le_of_sq_le_sq ?_ (by norm_num)⟩ <;>
    rw [pow_two] <;> linarith

theorem hit_param {t1 x y : XF F} {m : K} (hm : x.Is m) (g1 : gt t1 x = true) (g2 : lt t1 y = true) : ∃ T, t1.Is T := by
  obtain ⟨s, rfl⟩ := hm
  match t1, g1, g2 with
  | .fin T s, _, _ => exact ⟨T, s, rfl⟩
  | .inf true, g1, _ => cases g1
  | .inf false, _, g2 =>
    match y, g2 with
    | .fin _ _, g2 => cases g2
    | .inf true, g2 => cases g2
    | .inf false, g2 => cases g2
    | .nan, g2 => cases g2
  | .nan, g1, _ => cases g1

/-- a hit is in front: the computed third coordinates of origin and direction have opposite signs -/
theorem opposite_signs (hF : F.Rounds u η hi) (hfa : F.Faithful u η) (hodd : F.Odd) (hs : Scale u η hi L) {z e T : K} (he : e ≠ 0)
    (h : F.post (-z / e) = some T) (hT : 0 < T) (hTL : T ≤ 5 / 2 * L) : z * e < 0 := by
  obtain ⟨u0, u1, η0, ηu, ηL, ηLL, ηuLL, ηuL, L0, uL0, uLL0, uL1, uLL1, hi1, hiL, hiLL⟩ := hs.sizes
  by_contra hneg
  have h0 : 0 ≤ z / e := by
    rw [show z / e = z * e / (e * e) by field_simp]
    exact div_nonneg (not_lt.1 hneg) (mul_self_nonneg e)
  have h1 := hfa _ _ h
  rw [neg_div, abs_neg, abs_of_nonneg h0] at h1
  have h2 := (abs_le.1 h1).2
  have h3 : u * (z / e) ≤ 1 / 2 ^ 20 * (z / e) := mul_le_mul_of_nonneg_right u1 h0
  have h4 : z / e ≤ hi := by linarith
  obtain ⟨r, r1, -, r2⟩ := hF.post (z / e) (by rwa [abs_of_nonneg h0])
  rw [neg_div, hodd, r1] at h
  have h5 : -r = T := by simpa using h
  have := r2 h0
  linarith

theorem plane_hit_near (hF : F.Rounds u η hi) (hfa : F.Faithful u η) (hodd : F.Odd) (hs : Scale u η hi L)
    {i i' : PlaneI (XF F)} {q : Plane (XF F)} (ray : Ray (XF F)) {o d c : Vec3 K} {a b m : K} {R : Mat3 K}
    (ho : IsV i.rayOrg o) (hd : IsV i.rayDir d) (hq : PlaneWithin ε o L q c a b R) (hε : ε ≤ 1 / 1000)
    (hm : i.minHit.Is m) (hm0 : 0 ≤ m) (hN : |Vec3.dot d d - 1| ≤ 11 * u) (h : planeIntersect i q ray = (i', true)) :
    ∃ h T, i'.hd.Is h ∧ 0 ≤ h ∧ m < T ∧ T ≤ 5 / 2 * L ∧ (∀ k, i.hd.Is k → T < k) ∧
      |h - T| ≤ 152 * (u * L) + 10 * (ε * L) ∧ i'.primId = q.primId ∧
      (∃ z e, (q.rotation.trans.mulVec (i.rayOrg - q.center)).z.Is z ∧ |z - (R.trans.mulVec (o - c)).z| ≤ 6 * (u * L) ∧
        |e - (R.trans.mulVec d).z| ≤ 8 * u ∧ z * e < 0) ∧
      (|(R.trans.mulVec (along o d h - c)).x| + 185 * (u * L) + 11 * (ε * L) < a / 2 →
        |(R.trans.mulVec (along o d h - c)).y| + 185 * (u * L) + 11 * (ε * L) < b / 2 →
        i'.normal = Vec3.smul ((q.rotation.trans.mulVec (i.rayOrg - q.center)).z /
          abs (q.rotation.trans.mulVec (i.rayOrg - q.center)).z) (q.rotation.mulVec ⟨nat 0, nat 0, nat 1⟩)) ∧
      ∃ y, InRect c a b R y ∧ ∀ k, |(along o d h).get k - y.get k| ≤ 600 * (u * L) + 40 * (ε * L) := by
  obtain ⟨u0, u1, η0, ηu, ηL, ηLL, ηuLL, ηuL, L0, uL0, uLL0, uL1, uLL1, hi1, hiL, hiLL⟩ := hs.sizes
  have ε0 := hq.ortho.rows.nonneg
  have εL0 : 0 ≤ ε * L := mul_nonneg ε0 L0.le
  have hsz := hq.size
  have a0 := abs_nonneg a
  have b0 := abs_nonneg b
  have c0 : 0 ≤ |o.x - c.x| + |o.y - c.y| + |o.z - c.z| := by positivity
  obtain ⟨p', d', hp', hd', hl⟩ := plane_local hF hs ho hd hq.center hq.rot hq.ortho hε hN (by linarith)
  set p := R.trans.mulVec (o - c) with hp
  set D := R.trans.mulVec d with hD
  have htaken := planeIntersect_taken i q ray
  rw [h] at htaken
  rcases htaken with e | ⟨g1, g2, g3, g4, n, e, hn⟩
  · cases e
  have e := congrArg Prod.fst e
  simp only [PlaneI.record] at e
  obtain ⟨X, x1, hX, hx1, hX1, hX2, hX3, ha, hXo⟩ := plane_side hF hodd hs hq.dx (by linarith) g3
  obtain ⟨Y, y1, hY, hy1, hY1, hY2, hY3, hb, hYo⟩ := plane_side hF hodd hs hq.dy (by linarith) g4
  generalize ht1 : -(q.rotation.trans.mulVec (i.rayOrg - q.center)).z / (q.rotation.trans.mulVec i.rayDir).z = t1 at *
  -- the parameter
  obtain ⟨T, hT⟩ := hit_param hm g1 g2
  have hmT : m < T := (XF.Is.gt hT hm).1 g1
  have hT0 : 0 ≤ T := by linarith
  have hdiv : (-(q.rotation.trans.mulVec (i.rayOrg - q.center)).z / (q.rotation.trans.mulVec i.rayDir).z).Is T := ht1 ▸ hT
  obtain ⟨hz0, hz1⟩ := Is.div_post hdiv hp'.2.2.neg hd'.2.2
  have hnd : 42 * u + 4 * ε ≤ 5 / 1000 := by linarith
  obtain ⟨n1, n2⟩ := abs_le.1 hl.nd'
  obtain ⟨D1, D2, D3⟩ := near_one_comp (e := D) (by linarith [hl.nd])
  obtain ⟨d1, d2, d3⟩ := near_one_comp (e := d') (by linarith [hl.nd'])
  have hzero := plane_zero hs hz0 (hfa _ _ hz1) hl.sz (by linarith)
  -- the position
  have hX' : ((q.rotation.trans.mulVec (i.rayOrg - q.center)).x + t1 * (q.rotation.trans.mulVec i.rayDir).x).Is X := hX
  have hY' : ((q.rotation.trans.mulVec (i.rayOrg - q.center)).y + t1 * (q.rotation.trans.mulVec i.rayDir).y).Is Y := hY
  obtain ⟨Px, hx2, hx3⟩ := Is.add_right hX' hp'.1
  obtain ⟨Py, hy2, hy3⟩ := Is.add_right hY' hp'.2.1
  have hx4 := Is.mul_post hx2 hT hd'.1
  have hy4 := Is.mul_post hy2 hT hd'.2.1
  obtain ⟨kx1, kx2⟩ := plane_coord hs (hfa _ _ hx3) (hfa _ _ hx4) hx1 (by linarith) hl.sx hX1
  obtain ⟨ky1, ky2⟩ := plane_coord hs (hfa _ _ hy3) (hfa _ _ hy4) hy1 (by linarith) hl.sy hY1
  have hTz : |T * d'.z| ≤ 102 / 100 * L := by
    have h1 := abs_sub_le' hzero hl.sz
    rw [show p'.z + T * d'.z - p'.z = T * d'.z by ring] at h1
    linarith
  have hTL : T ≤ 5 / 2 * L := plane_T_le L0 hT0 (by linarith) kx1 ky1 hTz
  -- the distance
  obtain ⟨r, r1, r0, r2⟩ := norm_scaled hF hs hT hd' (by linarith) (by rw [abs_of_nonneg hT0]; linarith)
  have r3 := dist_near hs r0 hT0 hl.nd' (by linarith) r2
  have r4 : |r - T| ≤ 152 * (u * L) + 10 * (ε * L) := by
    refine r3.trans ?_
    have h1 := mul_le_mul_of_nonneg_left hTL (by linarith : 0 ≤ 42 * u + 4 * ε + 13 * u)
    linarith
  have hE0 : |0 - (p'.z + T * d'.z)| ≤ 21 / 10 * (u * L) := by rw [zero_sub, abs_neg]; linarith
  have cx := coord_at hs hl.px hl.dx hT0 hTL r4 D1 ε0 kx2
  have cy := coord_at hs hl.py hl.dy hT0 hTL r4 D2 ε0 ky2
  have cz := coord_at hs hl.pz hl.dz hT0 hTL r4 D3 ε0 hE0
  rw [zero_sub, abs_neg] at cz
  obtain ⟨ha1, ha2⟩ := near_half hs (by linarith) hx1
  obtain ⟨hb1, hb2⟩ := near_half hs (by linarith) hy1
  obtain ⟨x, x2, x3, x4⟩ := exists_clamp hX2 hX3 (by linarith : 0 ≤ a / 2) cx ha2 ha1
  obtain ⟨y, y2, y3, y4⟩ := exists_clamp hY2 hY3 (by linarith : 0 ≤ b / 2) cy hb2 hb1
  have hloc := trans_along' R o d c r
  rw [← hp, ← hD] at hloc
  refine ⟨r, T, by rw [e]; exact r1, r0, hmT, hTL, fun k hk => (XF.Is.lt hT hk).1 g2, r4, by rw [e],
    ⟨p'.z, d'.z, hp'.2.2, hl.pz, hl.dz, opposite_signs hF hfa hodd hs hz0 hz1 (lt_of_le_of_lt hm0 hmT) hTL⟩, fun ix iy => ?_,
    c + R.mulVec ⟨x, y, 0⟩, ⟨x, y, x2, x3, y2, y3, rfl⟩, fun k => ?_⟩
  · rw [hloc] at ix iy
    replace ix : |p.x + r * D.x| + 185 * (u * L) + 11 * (ε * L) < a / 2 := ix
    replace iy : |p.y + r * D.y| + 185 * (u * L) + 11 * (ε * L) < b / 2 := iy
    rw [e]
    obtain ⟨l1, l2⟩ := off_side cx ha1 (lt_of_le_of_lt (by linarith) ix)
    obtain ⟨l3, l4⟩ := off_side cy hb1 (lt_of_le_of_lt (by linarith) iy)
    exact hn ⟨(hXo l1 l2).1, (hXo l1 l2).2, (hYo l3 l4).1, (hYo l3 l4).2⟩
  have hv : oneNorm (along o d r - c) ≤ 545 / 100 * L := hit_oneNorm hs hε (by linarith) hN r0 hTL r4
  have hfin := rect_near (c := c) hq.ortho hε hv (x := x) (y := y) (E := 184 * (u * L) + 102 / 10 * (ε * L))
    (by rw [hloc]; exact x4.trans (by linarith)) (by rw [hloc]; exact y4.trans (by linarith))
    (by rw [hloc]; exact cz.trans (by linarith)) k
  have e2 : c + (along o d r - c) = along o d r := by
    ext <;> simp
  rw [e2] at hfin
  refine hfin.trans ?_
  linarith

end
namespace Format

theorem roundBinary_faithful (p : Nat) (hp : 1 ≤ p) (emin : Int) (M q r : ℚ) (h : roundBinary p emin M q = some r) :
    |r - q| ≤ pow2 (-(p : Int)) * |q| + pow2 (emin - 1) := by
  by_cases h0 : q = 0
  · unfold roundBinary at h
    rw [if_pos h0, Option.some.injEq] at h
    rw [← h, h0]; simp [(pow2_pos (emin - 1)).le]
  have hq : 0 < |q| := abs_pos.2 h0
  obtain ⟨l1, l2⟩ := ilog2_spec hq
  set emax := max (ilog2 |q| + 1) (emin + ((p : Int) - 1)) with he
  have hb : |q| ≤ (pow2 p - 1) * pow2 (emax - ((p : Int) - 1)) := by
    have h1 : pow2 (ilog2 |q| + 1) ≤ pow2 emax := pow2_le.2 (le_max_left _ _)
    have h2 : pow2 emax = pow2 ((p : Int) - 1) * pow2 (emax - ((p : Int) - 1)) := by rw [← pow2_add]; congr 1; ring
    have h3 : pow2 (p : Int) = 2 * pow2 ((p : Int) - 1) := by
      have : (p : Int) = 1 + ((p : Int) - 1) := by ring
      conv_lhs => rw [this, pow2_add]
      congr 1
    have h4 : 1 ≤ pow2 ((p : Int) - 1) := by
      have : pow2 0 ≤ pow2 ((p : Int) - 1) := pow2_le.2 (by omega)
      exact this
    have h5 := pow2_pos (emax - ((p : Int) - 1))
    rw [h3]
    refine l2.le.trans (h1.trans ?_)
    rw [h2]
    exact mul_le_mul_of_nonneg_right (by linarith) h5.le
  obtain ⟨r', h1, h2⟩ := roundBinary_gradual p hp emin emax (le_max_right _ _) q hb
  have : r' = r := by
    unfold roundBinary at h h1
    rw [if_neg h0] at h h1
    dsimp only at h h1
    split_ifs at h h1 <;> rw [Option.some.injEq] at h h1 <;> rw [← h, ← h1]
  rw [← this]; exact h2

theorem binary64_faithful : binary64.Faithful (pow2 (-53)) (pow2 (-1075)) := by
  intro r r' h
  rw [binary64] at h
  have e : pow2 (-1075) = pow2 (-1074 - 1) := congrArg pow2 (by norm_num)
  rw [e]
  exact roundBinary_faithful 53 (by norm_num) (-1074) _ r r' h

theorem binary32_faithful : binary32.Faithful (pow2 (-24)) (pow2 (-150)) := by
  intro r r' h
  rw [binary32] at h
  have e : pow2 (-150) = pow2 (-149 - 1) := congrArg pow2 (by norm_num)
  rw [e]
  exact roundBinary_faithful 24 (by norm_num) (-149) _ r r' h

end Format
end Blazert
