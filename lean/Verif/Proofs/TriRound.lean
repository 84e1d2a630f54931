/- Rounding errors of the triangle test. -/
import Verif.Proofs.SphereRound
import Verif.Spec.TriRound
import Verif.Model.TriMesh

set_option autoImplicit false
set_option linter.unusedSectionVars false

namespace Blazert
open Scalar

variable {K : Type} [Field K] [LinearOrder K] [IsStrictOrderedRing K] [FloorRing K] {F : Fmt K} {u η hi lo lo' L : K}

/-- all components are at most `B` -/
structure Sup (v : Vec3 K) (B : K) : Prop where
  x : |v.x| ≤ B
  y : |v.y| ≤ B
  z : |v.z| ≤ B

theorem oneNorm_nonneg (v : Vec3 K) : 0 ≤ oneNorm v := by unfold oneNorm; positivity

theorem Sup.of_one {v : Vec3 K} {B : K} (h : oneNorm v ≤ B) : Sup v B := by
  unfold oneNorm at h
  have := abs_nonneg v.x
  have := abs_nonneg v.y
  have := abs_nonneg v.z
  exact ⟨by linarith, by linarith, by linarith⟩

theorem Sup.nonneg {v : Vec3 K} {B : K} (h : Sup v B) : 0 ≤ B := (abs_nonneg _).trans h.x

theorem Sup.add {v w : Vec3 K} {B C : K} (h : Sup (v - w) B) (h' : Sup w C) : Sup v (C + B) :=
  ⟨abs_le_of_near h.x h'.x, abs_le_of_near h.y h'.y, abs_le_of_near h.z h'.z⟩

theorem oneNorm_near {v w : Vec3 K} {B C : K} (h : oneNorm (v - w) ≤ B) (h' : oneNorm w ≤ C) : oneNorm v ≤ C + B := by
  unfold oneNorm at *
  have h1 := abs_le_of_near (a := v.x) (b := w.x) le_rfl le_rfl
  have h2 := abs_le_of_near (a := v.y) (b := w.y) le_rfl le_rfl
  have h3 := abs_le_of_near (a := v.z) (b := w.z) le_rfl le_rfl
  simp only [Vec3.sub_x, Vec3.sub_y, Vec3.sub_z] at h
  linarith

theorem oneNorm_trans {v w x : Vec3 K} {B C : K} (h : oneNorm (v - w) ≤ B) (h' : oneNorm (w - x) ≤ C) :
    oneNorm (v - x) ≤ B + C := by
  unfold oneNorm at *
  simp only [Vec3.sub_x, Vec3.sub_y, Vec3.sub_z] at *
  have h1 := abs_near_trans (a := v.x) (b := w.x) (c := x.x) le_rfl le_rfl
  have h2 := abs_near_trans (a := v.y) (b := w.y) (c := x.y) le_rfl le_rfl
  have h3 := abs_near_trans (a := v.z) (b := w.z) (c := x.z) le_rfl le_rfl
  linarith

theorem Sup.trans {v w x : Vec3 K} {B C : K} (h : Sup (v - w) B) (h' : Sup (w - x) C) : Sup (v - x) (B + C) :=
  ⟨abs_near_trans h.x h'.x, abs_near_trans h.y h'.y, abs_near_trans h.z h'.z⟩

/-- the products of a scalar product -/
theorem dot_sum_le {a b : Vec3 K} {A B : K} (ha : oneNorm a ≤ A) (hb : Sup b B) :
    |a.x * b.x| + |a.y * b.y| + |a.z * b.z| ≤ A * B := by
  have h1 := abs_mul_le (le_refl |a.x|) hb.x
  have h2 := abs_mul_le (le_refl |a.y|) hb.y
  have h3 := abs_mul_le (le_refl |a.z|) hb.z
  have h4 := mul_le_mul_of_nonneg_right ha hb.nonneg
  unfold oneNorm at h4
  linarith

theorem abs_dot_le {a b : Vec3 K} {A B : K} (ha : oneNorm a ≤ A) (hb : Sup b B) : |Vec3.dot a b| ≤ A * B :=
  (abs_add_le' (abs_add_le' le_rfl le_rfl) le_rfl).trans (dot_sum_le ha hb)

theorem dot_near {a a0 b b0 : Vec3 K} {ea A eb B : K} (h1 : oneNorm (a - a0) ≤ ea) (h2 : oneNorm a0 ≤ A)
    (h3 : Sup (b - b0) eb) (h4 : Sup b0 B) : |Vec3.dot a b - Vec3.dot a0 b0| ≤ ea * (B + eb) + A * eb := by
  rw [show Vec3.dot a b - Vec3.dot a0 b0 = Vec3.dot (a - a0) b + Vec3.dot a0 (b - b0) by
    simp only [Vec3.dot, Vec3.sub_x, Vec3.sub_y, Vec3.sub_z]; ring]
  exact abs_add_le' (abs_dot_le h1 (h3.add h4)) (abs_dot_le h2 h3)

theorem dot_comm' (a b : Vec3 K) : Vec3.dot a b = Vec3.dot b a := by unfold Vec3.dot; ring

/-- the products of a vector product -/
theorem cross_sum_le {a b : Vec3 K} {A B : K} (ha : oneNorm a ≤ A) (hb : oneNorm b ≤ B) :
    (|a.y * b.z| + |a.z * b.y|) + (|a.z * b.x| + |a.x * b.z|) + (|a.x * b.y| + |a.y * b.x|) ≤ A * B := by
  have h := mul_le_mul ha hb (oneNorm_nonneg b) ((oneNorm_nonneg a).trans ha)
  unfold oneNorm at h
  simp only [abs_mul]
  have h1 := mul_nonneg (abs_nonneg a.x) (abs_nonneg b.x)
  have h2 := mul_nonneg (abs_nonneg a.y) (abs_nonneg b.y)
  have h3 := mul_nonneg (abs_nonneg a.z) (abs_nonneg b.z)
  have e : (|a.x| + |a.y| + |a.z|) * (|b.x| + |b.y| + |b.z|) = (|a.x| * |b.x| + |a.y| * |b.y| + |a.z| * |b.z|) +
      ((|a.y| * |b.z| + |a.z| * |b.y|) + (|a.z| * |b.x| + |a.x| * |b.z|) + (|a.x| * |b.y| + |a.y| * |b.x|)) := by ring
  linarith

theorem oneNorm_cross_le {a b : Vec3 K} {A B : K} (ha : oneNorm a ≤ A) (hb : oneNorm b ≤ B) :
    oneNorm (Vec3.cross a b) ≤ A * B := by
  refine le_trans ?_ (cross_sum_le ha hb)
  unfold oneNorm Vec3.cross
  have h1 := abs_sub_le' (le_refl |a.y * b.z|) (le_refl |a.z * b.y|)
  have h2 := abs_sub_le' (le_refl |a.z * b.x|) (le_refl |a.x * b.z|)
  have h3 := abs_sub_le' (le_refl |a.x * b.y|) (le_refl |a.y * b.x|)
  linarith

theorem cross_pair_le {a b : Vec3 K} {A B : K} (ha : Sup a A) (hb : oneNorm b ≤ B) :
    |a.y * b.z| + |a.z * b.y| ≤ A * B ∧ |a.z * b.x| + |a.x * b.z| ≤ A * B ∧ |a.x * b.y| + |a.y * b.x| ≤ A * B := by
  have h := mul_le_mul_of_nonneg_left hb ha.nonneg
  unfold oneNorm at h
  have x0 := mul_nonneg ha.nonneg (abs_nonneg b.x)
  have y0 := mul_nonneg ha.nonneg (abs_nonneg b.y)
  have z0 := mul_nonneg ha.nonneg (abs_nonneg b.z)
  have e : A * (|b.x| + |b.y| + |b.z|) = A * |b.x| + A * |b.y| + A * |b.z| := by ring
  have h1 := abs_mul_le ha.y (le_refl |b.z|)
  have h2 := abs_mul_le ha.z (le_refl |b.y|)
  have h3 := abs_mul_le ha.z (le_refl |b.x|)
  have h4 := abs_mul_le ha.x (le_refl |b.z|)
  have h5 := abs_mul_le ha.x (le_refl |b.y|)
  have h6 := abs_mul_le ha.y (le_refl |b.x|)
  refine ⟨by linarith, by linarith, by linarith⟩

theorem Sup.cross {a b : Vec3 K} {A B : K} (ha : Sup a A) (hb : oneNorm b ≤ B) : Sup (Vec3.cross a b) (A * B) := by
  obtain ⟨h1, h2, h3⟩ := cross_pair_le ha hb
  exact ⟨(abs_sub_le' le_rfl le_rfl).trans h1, (abs_sub_le' le_rfl le_rfl).trans h2, (abs_sub_le' le_rfl le_rfl).trans h3⟩

theorem cross_sub_left (a a0 b : Vec3 K) : Vec3.cross a b - Vec3.cross a0 b = Vec3.cross (a - a0) b := by
  ext <;> simp only [Vec3.cross, Vec3.sub_x, Vec3.sub_y, Vec3.sub_z] <;> ring

theorem cross_sub_right (a b b0 : Vec3 K) : Vec3.cross a b - Vec3.cross a b0 = Vec3.cross a (b - b0) := by
  ext <;> simp only [Vec3.cross, Vec3.sub_x, Vec3.sub_y, Vec3.sub_z] <;> ring

/-! ### Rounded vector products -/

/-- `a b - c d` -/
theorem rnd_det2 (hF : F.Gradual u η hi) (hu : 0 ≤ u) (hu8 : 2 ^ 20 * u ≤ 1) (hη : 0 ≤ η) {x y z w : XF F} {a b c d P : K}
    (hx : x.Is a) (hy : y.Is b) (hz : z.Is c) (hw : w.Is d) (hP : |a * b| + |c * d| ≤ P) (hr : 2 * P + 8 * η ≤ hi) :
    ∃ r, (x * y - z * w).Is r ∧ |r - (a * b - c * d)| ≤ 201 / 100 * (u * (|a * b| + |c * d|)) + 4 * η := by
  have h1 := abs_nonneg (a * b)
  have h2 := abs_nonneg (c * d)
  obtain ⟨p, p1, p2, -⟩ := rnd_mul hF hu hx hy le_rfl (by linarith)
  obtain ⟨q, q1, q2, -⟩ := rnd_mul hF hu hz hw le_rfl (by linarith)
  have hu1 : u ≤ 1 / 2 ^ 20 := by rw [le_div_iff₀ (by positivity)]; linarith
  set X := |a * b|
  set Y := |c * d|
  have hX0 := mul_nonneg hu h1
  have hY0 := mul_nonneg hu h2
  have hX1 : u * X ≤ 1 / 2 ^ 20 * X := mul_le_mul_of_nonneg_right hu1 h1
  have hY1 : u * Y ≤ 1 / 2 ^ 20 * Y := mul_le_mul_of_nonneg_right hu1 h2
  have hX2 : u * (u * X) ≤ 1 / 2 ^ 20 * (u * X) := mul_le_mul_of_nonneg_right hu1 hX0
  have hY2 : u * (u * Y) ≤ 1 / 2 ^ 20 * (u * Y) := mul_le_mul_of_nonneg_right hu1 hY0
  have hη2 : u * η ≤ 1 / 2 ^ 20 * η := mul_le_mul_of_nonneg_right hu1 hη
  have hp := abs_le_of_near p2 le_rfl
  have hq := abs_le_of_near q2 le_rfl
  have hpq := abs_sub_le' hp hq
  obtain ⟨r, r1, r2, -⟩ := rnd_sub hF hu p1 q1 hpq (by linarith)
  refine ⟨r, r1, ?_⟩
  rw [show r - (a * b - c * d) = (r - (p - q)) + (p - a * b) - (q - c * d) by ring]
  refine (abs_sub_le' (abs_add_le' r2 p2) q2).trans ?_
  have e : u * (X + (u * X + η) + (Y + (u * Y + η))) = u * X + u * Y + u * (u * X) + u * (u * Y) + 2 * (u * η) := by ring
  rw [e]
  linarith

theorem rnd_cross (hF : F.Gradual u η hi) (hu : 0 ≤ u) (hu8 : 2 ^ 20 * u ≤ 1) (hη : 0 ≤ η) {x y : Vec3 (XF F)}
    {a b : Vec3 K} (hx : IsV x a) (hy : IsV y b) {P Q : K}
    (hP : (|a.y * b.z| + |a.z * b.y|) + (|a.z * b.x| + |a.x * b.z|) + (|a.x * b.y| + |a.y * b.x|) ≤ P)
    (h1 : |a.y * b.z| + |a.z * b.y| ≤ Q) (h2 : |a.z * b.x| + |a.x * b.z| ≤ Q) (h3 : |a.x * b.y| + |a.y * b.x| ≤ Q)
    (hr : 2 * Q + 8 * η ≤ hi) :
    ∃ w, IsV (Vec3.cross x y) w ∧ oneNorm (w - Vec3.cross a b) ≤ 201 / 100 * (u * P) + 12 * η ∧
      Sup (w - Vec3.cross a b) (201 / 100 * (u * Q) + 4 * η) := by
  obtain ⟨p, p1, p2⟩ := rnd_det2 hF hu hu8 hη hx.2.1 hy.2.2 hx.2.2 hy.2.1 h1 hr
  obtain ⟨q, q1, q2⟩ := rnd_det2 hF hu hu8 hη hx.2.2 hy.1 hx.1 hy.2.2 h2 hr
  obtain ⟨r, r1, r2⟩ := rnd_det2 hF hu hu8 hη hx.1 hy.2.1 hx.2.1 hy.1 h3 hr
  refine ⟨⟨p, q, r⟩, ⟨p1, q1, r1⟩, ?_, ?_⟩
  · show |p - (a.y * b.z - a.z * b.y)| + |q - (a.z * b.x - a.x * b.z)| + |r - (a.x * b.y - a.y * b.x)| ≤ _
    have := mul_le_mul_of_nonneg_left hP hu
    linarith
  · refine ⟨p2.trans ?_, q2.trans ?_, r2.trans ?_⟩
    · have := mul_le_mul_of_nonneg_left h1 hu; linarith
    · have := mul_le_mul_of_nonneg_left h2 hu; linarith
    · have := mul_le_mul_of_nonneg_left h3 hu; linarith

/-! ### The numbers of the triangle test -/

/-- what linear arithmetic needs to know about cubes -/
structure Sizes3 (u η hi lo L : K) : Prop where
  uL3 : 0 < u * L ^ 3
  ηL3 : η ≤ u * L ^ 3 / 2 ^ 20
  uL31 : u * L ^ 3 ≤ L ^ 3 / 2 ^ 20
  L3 : 0 < L ^ 3

theorem Scale3.sizes3 (h : Scale3 u η hi lo L) : Sizes3 u η hi lo L := by
  have u0 := h.u_pos
  have u1 := h.toScale.sizes.u1
  have L0 := h.pos
  have h0 : 0 < u * L ^ 3 := by positivity
  refine ⟨h0, ?_, ?_, by positivity⟩
  · have : u ^ 2 * L ^ 3 ≤ (u * L ^ 3) * (1 / 2 ^ 20) := by
      rw [show u ^ 2 * L ^ 3 = (u * L ^ 3) * u by ring]; exact mul_le_mul_of_nonneg_left u1 h0.le
    have := h.η_le_cube
    linarith
  · have := mul_le_mul_of_nonneg_right u1 (by positivity : 0 ≤ L ^ 3); linarith

/-- the vectors from which the test computes its numbers, and what they stand for -/
structure TriVecs (u L : K) (N R E1 E2 C N0 R0 E10 E20 C0 : Vec3 K) : Prop where
  n : oneNorm (N - N0) ≤ 42 / 10 * (u * L ^ 2)
  n0 : oneNorm N0 ≤ L ^ 2
  r : Sup (R - R0) (35 / 10 * (u * L))
  r0 : Sup R0 (9 / 8 * L)
  e1 : oneNorm (E1 - E10) ≤ 1001 / 1000 * (u * L)
  e10 : oneNorm E10 ≤ L
  e2 : oneNorm (E2 - E20) ≤ 1001 / 1000 * (u * L)
  e20 : oneNorm E20 ≤ L
  c : oneNorm (C - C0) ≤ 1001 / 1000 * (u * L)
  c0 : oneNorm C0 ≤ L

theorem tri_vecs (hF : F.Rounds u η hi) (hs : Scale u η hi L) {a b c o d : Vec3 (XF F)} {A B C O D : Vec3 K}
    (ha : IsV a A) (hb : IsV b B) (hc : IsV c C) (ho : IsV o O) (hd : IsV d D) (hD : Vec3.dot D D ≤ 5 / 4)
    (h1 : oneNorm (A - B) ≤ L) (h2 : oneNorm (C - A) ≤ L) (h3 : oneNorm (A - O) ≤ L) :
    ∃ N R E1 E2 V, IsV (Vec3.cross (a - b) (c - a)) N ∧ IsV (Vec3.cross d (a - o)) R ∧ IsV (a - b) E1 ∧ IsV (c - a) E2 ∧
      IsV (a - o) V ∧ TriVecs u L N R E1 E2 V (normalOf A B C) (Vec3.cross D (A - O)) (A - B) (C - A) (A - O) := by
  obtain ⟨u0, u1, η0, ηu, ηL, ηLL, -, -, L0, uL0, uLL0, uL1, uLL1, hi1, hiL, hiLL⟩ := hs.sizes
  obtain ⟨E1, i1, n1⟩ := rnd_subv hF hs ha hb h1
  obtain ⟨E2, i2, n2⟩ := rnd_subv hF hs hc ha h2
  obtain ⟨V, i3, n3⟩ := rnd_subv hF hs ha ho h3
  obtain ⟨s1, t1⟩ := n1.sums hs
  obtain ⟨s2, t2⟩ := n2.sums hs
  obtain ⟨s3, t3⟩ := n3.sums hs
  have s1' : oneNorm E1 ≤ 1001 / 1000 * L := s1
  have s2' : oneNorm E2 ≤ 1001 / 1000 * L := s2
  have s3' : oneNorm V ≤ 1001 / 1000 * L := s3
  have hDs : Sup D (9 / 8) := by
    obtain ⟨x, y, z⟩ := comp_le hD
    exact ⟨x, y, z⟩
  -- the normal
  have hP := cross_sum_le s1' s2'
  have eL : 1001 / 1000 * L * (1001 / 1000 * L) = 1002001 / 1000000 * L ^ 2 := by ring
  rw [eL] at hP
  have p1 := abs_nonneg (E1.y * E2.z)
  have p2 := abs_nonneg (E1.z * E2.y)
  have p3 := abs_nonneg (E1.z * E2.x)
  have p4 := abs_nonneg (E1.x * E2.z)
  have p5 := abs_nonneg (E1.x * E2.y)
  have p6 := abs_nonneg (E1.y * E2.x)
  obtain ⟨N, i4, n4, -⟩ := rnd_cross hF.toGradual u0.le hs.u_le η0 i1 i2 hP (Q := 1002001 / 1000000 * L ^ 2) (by linarith)
    (by linarith) (by linarith) (by linarith)
  have n5 : oneNorm (Vec3.cross E1 E2 - Vec3.cross (A - B) E2) ≤ 1001 / 1000 * (u * L) * (1001 / 1000 * L) := by
    rw [cross_sub_left]; exact oneNorm_cross_le t1 s2'
  have n6 : oneNorm (Vec3.cross (A - B) E2 - Vec3.cross (A - B) (C - A)) ≤ L * (1001 / 1000 * (u * L)) := by
    rw [cross_sub_right]; exact oneNorm_cross_le h1 t2
  have n7 := oneNorm_trans n4 (oneNorm_trans n5 n6)
  -- the moment
  obtain ⟨q1, q2, q3⟩ := cross_pair_le hDs s3'
  have eQ : 9 / 8 * (1001 / 1000 * L) = 9009 / 8000 * L := by ring
  rw [eQ] at q1 q2 q3
  obtain ⟨R, i5, -, n8⟩ := rnd_cross hF.toGradual u0.le hs.u_le η0 hd i3 le_rfl q1 q2 q3 (by linarith)
  have n9 : Sup (Vec3.cross D V - Vec3.cross D (A - O)) (9 / 8 * (1001 / 1000 * (u * L))) := by
    rw [cross_sub_right]; exact hDs.cross t3
  have n10 := n8.trans n9
  have n11 := hDs.cross h3
  refine ⟨N, R, E1, E2, V, i4, i5, i1, i2, i3, n7.trans ?_, ?_, ⟨n10.x.trans ?_, n10.y.trans ?_, n10.z.trans ?_⟩, n11, t1, h1,
    t2, h2, t3, h3⟩
  · have e1 : 1001 / 1000 * (u * L) * (1001 / 1000 * L) = 1002001 / 1000000 * (u * L ^ 2) := by ring
    have e2 : L * (1001 / 1000 * (u * L)) = 1001 / 1000 * (u * L ^ 2) := by ring
    have e3 : u * (1002001 / 1000000 * L ^ 2) = 1002001 / 1000000 * (u * L ^ 2) := by ring
    rw [e1, e2, e3]
    linarith
  · have := oneNorm_cross_le h1 h2
    rw [← pow_two] at this
    exact this
  all_goals
    have e : u * (9009 / 8000 * L) = 9009 / 8000 * (u * L) := by ring
    rw [e]
    linarith

/-- the numbers of the test -/
structure TriNums (u L : K) (D U V T D0 U0 V0 T0 : K) : Prop where
  det : |D - D0| ≤ 95 / 10 * (u * L ^ 2)
  ac : |U - U0| ≤ 95 / 10 * (u * L ^ 2)
  ba : |V - V0| ≤ 95 / 10 * (u * L ^ 2)
  dist : |T - T0| ≤ 95 / 10 * (u * L ^ 3)
  d0 : |D0| ≤ 9 / 8 * L ^ 2
  u0 : |U0| ≤ 9 / 8 * L ^ 2
  v0 : |V0| ≤ 9 / 8 * L ^ 2
  t0 : |T0| ≤ L ^ 3

theorem TriVecs.nums (hF : F.Rounds u η hi) (hs : Scale3 u η hi lo L) {n r e1 e2 v d : Vec3 (XF F)}
    {N R E1 E2 V N0 R0 E10 E20 V0 D : Vec3 K} (hn : IsV n N) (hr : IsV r R) (he1 : IsV e1 E1) (he2 : IsV e2 E2) (hv : IsV v V)
    (hd : IsV d D) (hD : Vec3.dot D D ≤ 5 / 4) (h : TriVecs u L N R E1 E2 V N0 R0 E10 E20 V0) :
    ∃ Dt Ut Vt Tt, (Vec3.dot n d).Is Dt ∧ (Vec3.dot r e2).Is Ut ∧ (Vec3.dot r e1).Is Vt ∧ (Vec3.dot n v).Is Tt ∧
      TriNums u L Dt Ut Vt Tt (Vec3.dot N0 D) (Vec3.dot R0 E20) (Vec3.dot R0 E10) (Vec3.dot N0 V0) := by
  obtain ⟨u0, u1, η0, ηu, ηL, ηLL, -, -, L0, uL0, uLL0, uL1, uLL1, hi1, hiL, hiLL⟩ := hs.toScale.sizes
  obtain ⟨uL3, ηL3, uL31, L3⟩ := hs.sizes3
  have hiL3 := hs.cube_le
  have hu8 : 8 * u ≤ 1 := by linarith
  have hDs : Sup D (9 / 8) := by
    obtain ⟨x, y, z⟩ := comp_le hD
    exact ⟨x, y, z⟩
  have hD0 : Sup (D - D) 0 := by
    refine ⟨?_, ?_, ?_⟩ <;> simp
  have nN : oneNorm N ≤ 1001 / 1000 * L ^ 2 := (oneNorm_near h.n h.n0).trans (by linarith)
  have nR : Sup R (1126 / 1000 * L) := by
    have := h.r.add h.r0
    exact ⟨this.x.trans (by linarith), this.y.trans (by linarith), this.z.trans (by linarith)⟩
  have nE1 : oneNorm E1 ≤ 1001 / 1000 * L := (oneNorm_near h.e1 h.e10).trans (by linarith)
  have nE2 : oneNorm E2 ≤ 1001 / 1000 * L := (oneNorm_near h.e2 h.e20).trans (by linarith)
  have nV : oneNorm V ≤ 1001 / 1000 * L := (oneNorm_near h.c h.c0).trans (by linarith)
  -- determinant
  have p1 := dot_sum_le nN hDs
  have e1' : 1001 / 1000 * L ^ 2 * (9 / 8) = 9009 / 8000 * L ^ 2 := by ring
  rw [e1'] at p1
  obtain ⟨Dt, d1, d2, -⟩ := rnd_dot hF.toGradual u0.le hu8 η0 hn hd p1 (by linarith)
  have d3 := dot_near h.n h.n0 hD0 hDs
  -- edges
  have comm : ∀ E : Vec3 K, |R.x * E.x| + |R.y * E.y| + |R.z * E.z| = |E.x * R.x| + |E.y * R.y| + |E.z * R.z| := by
    intro E; simp only [mul_comm]
  have p2 := dot_sum_le nE2 nR
  have p3 := dot_sum_le nE1 nR
  have e2' : 1001 / 1000 * L * (1126 / 1000 * L) = 1127126 / 1000000 * L ^ 2 := by ring
  rw [e2', ← comm] at p2 p3
  obtain ⟨Ut, u1', u2, -⟩ := rnd_dot hF.toGradual u0.le hu8 η0 hr he2 p2 (by linarith)
  obtain ⟨Vt, v1, v2, -⟩ := rnd_dot hF.toGradual u0.le hu8 η0 hr he1 p3 (by linarith)
  have u3 := dot_near h.e2 h.e20 h.r h.r0
  have v3 := dot_near h.e1 h.e10 h.r h.r0
  rw [dot_comm' _ R, dot_comm' _ R0] at u3 v3
  -- distance
  have p4 := dot_sum_le nN (Sup.of_one nV)
  have e3' : 1001 / 1000 * L ^ 2 * (1001 / 1000 * L) = 1002001 / 1000000 * L ^ 3 := by ring
  rw [e3'] at p4
  obtain ⟨Tt, t1, t2, -⟩ := rnd_dot hF.toGradual u0.le hu8 η0 hn hv p4 (by linarith)
  have t3 := dot_near h.n h.n0 (Sup.of_one h.c) (Sup.of_one h.c0)
  refine ⟨Dt, Ut, Vt, Tt, d1, u1', v1, t1, (abs_near_trans d2 d3).trans ?_, (abs_near_trans u2 u3).trans ?_,
    (abs_near_trans v2 v3).trans ?_, (abs_near_trans t2 t3).trans ?_, (abs_dot_le h.n0 hDs).trans_eq (by ring), ?_, ?_,
    (abs_dot_le h.n0 (Sup.of_one h.c0)).trans_eq (by ring)⟩
  · rw [show 4 * u * (9009 / 8000 * L ^ 2) + 6 * η + (42 / 10 * (u * L ^ 2) * (9 / 8 + 0) + L ^ 2 * 0) =
      (4 * 9009 / 8000 + 42 * 9 / 80) * (u * L ^ 2) + 6 * η by ring]
    linarith
  · have hu2 : u * (u * L ^ 2) ≤ 1 / 2 ^ 20 * (u * L ^ 2) := mul_le_mul_of_nonneg_right u1 uLL0.le
    rw [show 4 * u * (1127126 / 1000000 * L ^ 2) + 6 * η +
        (1001 / 1000 * (u * L) * (9 / 8 * L + 35 / 10 * (u * L)) + L * (35 / 10 * (u * L))) =
      (4 * 1127126 / 1000000 + 1001 * 9 / 8000 + 35 / 10) * (u * L ^ 2) + 35035 / 10000 * (u * (u * L ^ 2)) + 6 * η by ring]
    linarith
  · have hu2 : u * (u * L ^ 2) ≤ 1 / 2 ^ 20 * (u * L ^ 2) := mul_le_mul_of_nonneg_right u1 uLL0.le
    rw [show 4 * u * (1127126 / 1000000 * L ^ 2) + 6 * η +
        (1001 / 1000 * (u * L) * (9 / 8 * L + 35 / 10 * (u * L)) + L * (35 / 10 * (u * L))) =
      (4 * 1127126 / 1000000 + 1001 * 9 / 8000 + 35 / 10) * (u * L ^ 2) + 35035 / 10000 * (u * (u * L ^ 2)) + 6 * η by ring]
    linarith
  · have hu2 : u * (u * L ^ 3) ≤ 1 / 2 ^ 20 * (u * L ^ 3) := mul_le_mul_of_nonneg_right u1 uL3.le
    rw [show 4 * u * (1002001 / 1000000 * L ^ 3) + 6 * η +
        (42 / 10 * (u * L ^ 2) * (L + 1001 / 1000 * (u * L)) + L ^ 2 * (1001 / 1000 * (u * L))) =
      (4 * 1002001 / 1000000 + 42 / 10 + 1001 / 1000) * (u * L ^ 3) + 42042 / 10000 * (u * (u * L ^ 3)) + 6 * η by ring]
    linarith
  · rw [dot_comm']; exact (abs_dot_le h.e20 h.r0).trans_eq (by ring)
  · rw [dot_comm']; exact (abs_dot_le h.e10 h.r0).trans_eq (by ring)

theorem side_ba (o d A B : Vec3 K) : Vec3.dot (Vec3.cross d (A - o)) (A - B) = edgeSide o d B A := by
  simp only [edgeSide, Vec3.dot, Vec3.cross, Vec3.sub_x, Vec3.sub_y, Vec3.sub_z]; ring

theorem side_sum (o d A B C : Vec3 K) :
    Vec3.dot (normalOf A B C) d = edgeSide o d A C + edgeSide o d C B + edgeSide o d B A := by
  simp only [edgeSide, normalOf, Vec3.dot, Vec3.cross, Vec3.sub_x, Vec3.sub_y, Vec3.sub_z]; ring

/-! ### One test -/

/-- products that may overflow -/
theorem mul_above (hF : F.Gradual u η hi) (hS : F.Saturates hi) {x y : XF F} {a b r : K} (hx : x.Is a) (hy : y.Is b)
    (h0 : 0 ≤ a * b) (hr : r < hi) (h : r < a * b - (u * (a * b) + η)) : (x * y).Above r := by
  obtain ⟨s, rfl⟩ := hx
  obtain ⟨t, rfl⟩ := hy
  show (XF.mk F _ (a * b)).Above r
  rcases le_or_gt (a * b) hi with h1 | h1
  · obtain ⟨r', h2, h3, -⟩ := XF.mk_grad hF (by rwa [abs_of_nonneg h0]) (XF.sgn a s ^^ XF.sgn b t)
    refine .inr ⟨r', h2, ?_⟩
    rw [abs_of_nonneg h0] at h3
    have := (abs_le.1 h3).1
    linarith
  · unfold XF.mk
    rcases hS _ h1 with h2 | ⟨r', h2, h3⟩
    · rw [h2]
      refine .inl ?_
      have : ¬ a * b < 0 := not_lt.2 h0
      simp [this]
    · rw [h2]
      exact .inr ⟨r', ⟨_, rfl⟩, lt_of_lt_of_le hr h3⟩

theorem mul_inf_pos {x : XF F} {a : K} (hx : x.Is a) (h : 0 < a) : x * (.inf false : XF F) = .inf false := by
  obtain ⟨s, rfl⟩ := hx
  show XF.mul _ _ = _
  simp [XF.mul, h.ne', XF.sgn, not_lt.2 h.le]

theorem above_ne_nan {x : XF F} {t : K} (h : x.Above t) : x ≠ .nan := by
  rintro rfl
  rcases h with h | ⟨_, ⟨_, h⟩, _⟩ <;> cases h

/-- a determinant of zero: no hit -/
theorem det_zero_rejects (hF : F.Gradual u η hi) {x y mn hd : XF F} {t m : K} (hx : x.Is t) (hy : y.Is 0) (hm : mn.Is m)
    (hhi : 0 ≤ hi) : ¬ (ge x (y * mn) = true ∧ gt (y * hd) x = true) := by
  rintro ⟨h1, h2⟩
  obtain ⟨z, z1, -, -, z2⟩ := grad_mul hF hy hm (by rw [zero_mul, abs_zero]; exact hhi)
  rw [z2 (zero_mul _)] at z1
  have ht := (hx.ge z1).1 h1
  have h3 := hx.lt_iff.1 h2
  cases hd with
  | fin v s =>
    obtain ⟨z', z3, -, -, z4⟩ := grad_mul hF hy (⟨s, rfl⟩ : (XF.fin v s : XF F).Is v) (by rw [zero_mul, abs_zero]; exact hhi)
    rw [z4 (zero_mul _)] at z3
    rcases h3 with h3 | ⟨b, h3, h4⟩
    · obtain ⟨_, z3⟩ := z3; rw [h3] at z3; cases z3
    · have := z3.unique h3; linarith
  | inf s =>
    obtain ⟨s', rfl⟩ := hy
    refine above_ne_nan h3 ?_
    show XF.mul _ _ = _
    simp [XF.mul]
  | nan =>
    obtain ⟨s', rfl⟩ := hy
    exact above_ne_nan h3 rfl

/-- a triangle of the mesh that was made from these vertices, all of them not too far from the origin -/
structure TriWithin (o : Vec3 K) (L : K) (tri : Triangle (XF F)) (A B C : Vec3 K) : Prop where
  make : ∃ a b c, IsV a A ∧ IsV b B ∧ IsV c C ∧ tri = Triangle.make a b c tri.primId
  ba : oneNorm (A - B) ≤ L
  ac : oneNorm (C - A) ≤ L
  oa : oneNorm (A - o) ≤ L

/-- what a test of a triangle does, in terms of numbers `D`, `U`, `V`, `T`, `w`, the sign `s` of `D` -/
structure TriRun (u L : K) (i : TriI (XF F)) (tri : Triangle (XF F)) (ray : Ray (XF F)) (D U V T w s : K)
    (x y : XF F) : Prop where
  det : (Vec3.dot (Vec3.cross tri.c tri.b) ray.direction).Is D
  edgeAC : (Vec3.dot (Vec3.cross ray.direction (tri.a - ray.origin)) tri.b).Is U
  edgeBA : (Vec3.dot (Vec3.cross ray.direction (tri.a - ray.origin)) tri.c).Is V
  dist : x.Is (s * T)
  size : y.Is |D|
  sign : (s = 1 ∧ 0 < D) ∨ (s = -1 ∧ D < 0)
  third : |w - (|D| - s * U - s * V)| ≤ 6 * (u * L ^ 2)
  accept : (triIntersect i tri ray).2 = true ↔ (-(8 * u) ≤ s * U ∧ -(8 * u) ≤ s * V ∧ -(8 * u) ≤ w) ∧
    ge x (y * i.minHit) = true ∧ gt (y * i.hd) x = true
  result : (triIntersect i tri ray).2 = true →
    (triIntersect i tri ray).1.hd = x * (nat 1 / y) ∧ (triIntersect i tri ray).1.primId = tri.primId

theorem tri_tolerance (hF : F.Rounds u η hi) (hF' : F.Relative u lo' hi) : (-(nat 4 * eps) : XF F).Is (-(8 * u)) := by
  have h4 : (nat 4 : XF F).Is 4 := hF.nat4
  obtain ⟨s, h4⟩ := h4
  have h := hF'.four_eps
  rw [hF'.eps] at h
  have e : (nat 4 * eps : XF F).Is (8 * u) := by
    rw [h4]
    show (XF.mul (XF.fin 4 s) (XF.fin F.eps false)).Is _
    simp only [XF.mul]
    rw [hF'.eps]
    unfold XF.mk
    rw [h]
    exact ⟨_, by rw [show (4 : K) * (2 * u) = 8 * u by ring]⟩
  exact e.neg

theorem tri_run (hF : F.Rounds u η hi) (hF' : F.Relative u lo' hi) (hs : Scale3 u η hi lo L) {i : TriI (XF F)}
    {tri : Triangle (XF F)} {ray : Ray (XF F)} {A B C o d : Vec3 K} {m : K} (ht : TriWithin o L tri A B C)
    (ho : IsV ray.origin o) (hd : IsV ray.direction d) (hD : Vec3.dot d d ≤ 5 / 4) (hm : i.minHit.Is m) :
    ∃ D U V T, (Vec3.dot (Vec3.cross tri.c tri.b) ray.direction).Is D ∧
      TriNums u L D U V T (Vec3.dot (normalOf A B C) d) (edgeSide o d A C) (edgeSide o d B A) (Vec3.dot (normalOf A B C) (A - o)) ∧
      ((D = 0 ∧ triIntersect i tri ray = (i, false)) ∨ ∃ w s x y, TriRun u L i tri ray D U V T w s x y) := by
  obtain ⟨⟨a, b, c, ha, hb, hc, hmake⟩, l1, l2, l3⟩ := ht
  obtain ⟨N, R, E1, E2, W, i1, i2, i3, i4, i5, hv⟩ := tri_vecs hF hs.toScale ha hb hc ho hd hD l1 l2 l3
  obtain ⟨D, U, V, T, n1, n2, n3, n4, hn⟩ := hv.nums hF hs i1 i2 i3 i4 i5 hd hD
  have hb' : tri.b = c - a := by rw [hmake]; rfl
  have hc' : tri.c = a - b := by rw [hmake]; rfl
  have ha' : tri.a = a := by rw [hmake]; rfl
  rw [← hb', ← hc'] at n1
  rw [← hb', ← ha'] at n2
  rw [← hc', ← ha'] at n3
  rw [← hb', ← hc', ← ha'] at n4
  rw [side_ba] at hn
  refine ⟨D, U, V, T, n1, hn, ?_⟩
  obtain ⟨u0, u1, η0, ηu, ηL, ηLL, -, -, L0, uL0, uLL0, uL1, uLL1, hi1, hiL, hiLL⟩ := hs.toScale.sizes
  have htol := tri_tolerance hF hF'
  by_cases hD0 : D = 0
  · refine .inl ⟨hD0, ?_⟩
    subst hD0
    have habs := n1.abs
    rw [abs_zero] at habs
    have hT : ∃ s, (productSign (Vec3.dot (Vec3.cross tri.c tri.b) (tri.a - ray.origin))
        (Vec3.dot (Vec3.cross tri.c tri.b) ray.direction)).Is s := by
      unfold productSign; split
      · exact ⟨_, n4.neg⟩
      · exact ⟨_, n4⟩
    obtain ⟨t, hT⟩ := hT
    have hrej := det_zero_rejects hF.toGradual (hd := i.hd) hT habs hm (by linarith)
    unfold triIntersect
    simp only
    rw [← Bool.and_eq_true, Bool.not_eq_true] at hrej
    rw [hrej]
    simp
  · right
    set s : K := if D < 0 then -1 else 1 with hs'
    have hsign : (s = 1 ∧ 0 < D) ∨ (s = -1 ∧ D < 0) := by
      rcases lt_or_gt_of_ne hD0 with h | h
      · exact .inr ⟨if_pos h, h⟩
      · exact .inl ⟨if_neg (not_lt.2 h.le), h⟩
    have hps : ∀ {x : XF F} {v : K}, x.Is v →
        (productSign x (Vec3.dot (Vec3.cross tri.c tri.b) ray.direction)).Is (s * v) := by
      intro x v hx
      have := hx.productSign n1 hD0
      rw [hs']
      split_ifs at this ⊢
      · rwa [neg_one_mul]
      · rwa [one_mul]
    have hs1 : |s| = 1 := by
      rcases hsign with ⟨h, -⟩ | ⟨h, -⟩ <;> simp [h]
    have pu := hps n2
    have pv := hps n3
    have pt := hps n4
    have pd := n1.abs
    have bD : |D| ≤ 1126 / 1000 * L ^ 2 := (abs_le_of_near hn.det hn.d0).trans (by linarith)
    have bU : |s * U| ≤ 1126 / 1000 * L ^ 2 := by
      rw [abs_mul, hs1, one_mul]; exact (abs_le_of_near hn.ac hn.u0).trans (by linarith)
    have bV : |s * V| ≤ 1126 / 1000 * L ^ 2 := by
      rw [abs_mul, hs1, one_mul]; exact (abs_le_of_near hn.ba hn.v0).trans (by linarith)
    have b1 : |(|D|) - s * U| ≤ 2252 / 1000 * L ^ 2 := by
      have := abs_sub_le' (abs_abs D ▸ bD : |(|D|)| ≤ _) bU
      linarith
    obtain ⟨x, x1, x2, -⟩ := rnd_sub hF.toGradual u0.le pd pu b1 (by linarith)
    have bx := abs_le_of_near x2 b1
    have b2 := abs_sub_le' bx bV
    have eu : u * (2252 / 1000 * L ^ 2) = 2252 / 1000 * (u * L ^ 2) := by ring
    rw [eu] at x2 b2
    have b3 : |x - s * V| ≤ 3379 / 1000 * L ^ 2 := by linarith
    obtain ⟨w, w1, w2, -⟩ := rnd_sub hF.toGradual u0.le x1 pv b3 (by linarith)
    have eu2 : u * (3379 / 1000 * L ^ 2) = 3379 / 1000 * (u * L ^ 2) := by ring
    rw [eu2] at w2
    refine ⟨w, s, _, _, n1, n2, n3, pt, pd, hsign, ?_, ?_, ?_⟩
    · rw [show w - (|D| - s * U - s * V) = (w - (x - s * V)) + (x - (|D| - s * U)) by ring]
      refine (abs_add_le' w2 x2).trans ?_
      linarith
    · unfold triIntersect
      simp only
      rw [← pu.ge htol, ← pv.ge htol, ← w1.ge htol]
      constructor
      · intro h
        split_ifs at h with h1 h2
        · rw [Bool.and_eq_true, Bool.and_eq_true] at h1
          rw [Bool.and_eq_true] at h2
          exact ⟨⟨h1.1.1, h1.1.2, h1.2⟩, h2.1, h2.2⟩
      · rintro ⟨⟨h1, h2, h3⟩, h4, h5⟩
        rw [h1, h2, h3, h4, h5]
        rfl
    · intro h
      revert h
      unfold triIntersect
      simp only
      intro h
      split_ifs at h ⊢ with h1 h2
      · exact ⟨rfl, rfl⟩

theorem TriRun.abs_sign {i : TriI (XF F)} {tri : Triangle (XF F)} {ray : Ray (XF F)} {D U V T w s : K} {x y : XF F}
    (h : TriRun u L i tri ray D U V T w s x y) : |s| = 1 ∧ |D| = s * D ∧ 0 < |D| := by
  rcases h.sign with ⟨h1, h2⟩ | ⟨h1, h2⟩
  · rw [h1, abs_one, one_mul, abs_of_pos h2]; exact ⟨rfl, rfl, h2⟩
  · rw [h1, abs_neg, abs_one, neg_one_mul, abs_of_neg h2]; exact ⟨rfl, rfl, by linarith⟩

theorem abs_sign_mul {s a b e : K} (hs : |s| = 1) (h : |a - b| ≤ e) : |s * a - s * b| ≤ e := by
  rw [← mul_sub, abs_mul, hs, one_mul]; exact h

/-- The quotient `t / D`: `t` times the reciprocal of `D`. -/
theorem tri_quotient (hF : F.Rounds u η hi) (hs : Scale3 u η hi lo L) {x y : XF F} {t D : K} (hx : x.Is t) (hy : y.Is D)
    (ht0 : 0 ≤ t) (ht : t ≤ 1001 / 1000 * L ^ 3) (hD : lo ≤ D) (hD1 : D ≤ 1126 / 1000 * L ^ 2) :
    ∃ h, (x * (nat 1 / y)).Is h ∧ 0 ≤ h ∧ |h * D - t| ≤ 203 / 100 * (u * t) + η * D := by
  obtain ⟨u0, u1, η0, ηu, ηL, ηLL, -, -, L0, uL0, uLL0, uL1, uLL1, hi1, hiL, hiLL⟩ := hs.toScale.sizes
  have hlo := hs.lo_pos
  have hD0 : 0 < D := lt_of_lt_of_le hlo hD
  have hhi : 0 < hi := by linarith
  have hq : 4 * (1 / D) ≤ hi := by
    rw [mul_one_div, div_le_iff₀ hD0]
    have h1 := hs.inv_le
    have h2 := mul_le_mul_of_nonneg_right hD hhi.le
    linarith
  have hq0 : 0 < 1 / D := by positivity
  obtain ⟨r, r1, r2, r3⟩ := rnd_div hF.toGradual u0.le hF.nat1 hy hD0.ne' (A := 1 / D) (by rw [abs_of_pos hq0])
    (by linarith)
  have hr0 : 0 ≤ r := r3 hq0.le
  -- relative error of the reciprocal
  have hηD : η * D ≤ 1 / 100 * u := by
    have h1 : η * D ≤ η * (1126 / 1000 * L ^ 2) := mul_le_mul_of_nonneg_left hD1 η0
    have h2 := hs.η_inv
    have h3 : u ^ 2 ≤ 1 / 2 ^ 20 * u := by rw [pow_two]; exact mul_le_mul_of_nonneg_right u1 u0.le
    linarith
  have r4 : |r * D - 1| ≤ 101 / 100 * u := by
    have e : r * D - 1 = (r - 1 / D) * D := by field_simp
    rw [e, abs_mul, abs_of_pos hD0]
    have h1 := mul_le_mul_of_nonneg_right r2 hD0.le
    have e2 : (u * (1 / D) + η) * D = u + η * D := by field_simp
    rw [e2] at h1
    linarith
  obtain ⟨r5, r6⟩ := abs_le.1 r4
  -- the product
  have hrD : r ≤ 102 / 100 * (1 / D) := by
    have e : 102 / 100 * (1 / D) = (102 / 100) / D := by ring
    rw [e, le_div_iff₀ hD0]
    linarith
  have htr : t * r ≤ hi := by
    have h1 : t * r ≤ 1001 / 1000 * L ^ 3 * (102 / 100 * (1 / D)) :=
      mul_le_mul ht hrD hr0 (by positivity)
    have h2 : 4 * L ^ 3 * (1 / D) ≤ hi := by
      rw [mul_one_div, div_le_iff₀ hD0]
      have h1 := hs.quot_le
      have h2 := mul_le_mul_of_nonneg_right hD hhi.le
      linarith
    have e : 1001 / 1000 * L ^ 3 * (102 / 100 * (1 / D)) = 1001 / 1000 * (102 / 100) / 4 * (4 * L ^ 3 * (1 / D)) := by ring
    rw [e] at h1
    linarith
  have htr0 : 0 ≤ t * r := mul_nonneg ht0 hr0
  obtain ⟨h, h1, h2, h3⟩ := rnd_mul hF.toGradual u0.le hx r1 (A := t * r) (by rw [abs_of_nonneg htr0]) htr
  refine ⟨h, h1, h3 htr0, ?_⟩
  rw [show h * D - t = (h - t * r) * D + t * (r * D - 1) by ring]
  have h4 : |(h - t * r) * D| ≤ (u * (t * r) + η) * D := by
    rw [abs_mul, abs_of_pos hD0]; exact mul_le_mul_of_nonneg_right h2 hD0.le
  have h5 : |t * (r * D - 1)| ≤ t * (101 / 100 * u) := by
    rw [abs_mul, abs_of_nonneg ht0]; exact mul_le_mul_of_nonneg_left r4 ht0
  refine (abs_add_le' h4 h5).trans ?_
  have h6 : u * t * (r * D) ≤ u * t * (102 / 100) := mul_le_mul_of_nonneg_left (by linarith) (by positivity)
  have e : (u * (t * r) + η) * D = u * t * (r * D) + η * D := by ring
  rw [e]
  have := mul_nonneg u0.le ht0
  linarith

/-- Nothing accepted is far from the triangle, and how the distance is related to the previous one. -/
theorem tri_hit_near (hF : F.Rounds u η hi) (hF' : F.Relative u lo' hi) (hs : Scale3 u η hi lo L) {i : TriI (XF F)}
    {tri : Triangle (XF F)} {ray : Ray (XF F)} {A B C o d : Vec3 K} {m : K} (ht : TriWithin o L tri A B C)
    (ho : IsV ray.origin o) (hd : IsV ray.direction d) (hD : Vec3.dot d d ≤ 5 / 4) (hm : i.minHit.Is m) (hm0 : 0 ≤ m)
    (hmL : 2 * L ^ 2 * m ≤ hi) (h : (triIntersect i tri ray).2 = true) :
    ∃ s : K, (s = 1 ∨ s = -1) ∧ -(8 * u + 10 * (u * L ^ 2)) ≤ s * edgeSide o d A C ∧ -(8 * u + 10 * (u * L ^ 2)) ≤ s * edgeSide o d B A ∧
      -(8 * u + 35 * (u * L ^ 2)) ≤ s * edgeSide o d C B ∧
      ∃ D, (Vec3.dot (Vec3.cross tri.c tri.b) ray.direction).Is D ∧ 0 < s * D ∧
        |s * D - s * Vec3.dot (normalOf A B C) d| ≤ 10 * (u * L ^ 2) ∧
        (lo ≤ |D| → ∃ h, (triIntersect i tri ray).1.hd.Is h ∧ 0 ≤ h ∧
          |h * (s * Vec3.dot (normalOf A B C) d) - s * Vec3.dot (normalOf A B C) (A - o)| ≤ 12 * (u * L ^ 2) * (L + h) ∧
          ∀ k, 0 ≤ k → i.hd.Is k → h + L ≤ (k + L) * (1 + 4 * u)) := by
  obtain ⟨u0, u1, η0, ηu, ηL, ηLL, ηuLL, ηuL, L0, uL0, uLL0, uL1, uLL1, hi1, hiL, hiLL⟩ := hs.toScale.sizes
  obtain ⟨uL3, ηL3, uL31, L3⟩ := hs.sizes3
  obtain ⟨D, U, V, T, n1, hn, ⟨-, h0⟩ | ⟨w, s, x, y, hr⟩⟩ := tri_run hF hF' hs ht ho hd hD hm
  · rw [h0] at h; cases h
  obtain ⟨s1, s2, s3⟩ := hr.abs_sign
  obtain ⟨⟨c1, c2, c3⟩, c4, c5⟩ := hr.accept.1 h
  have dU := abs_le.1 (abs_sign_mul s1 hn.ac)
  have dV := abs_le.1 (abs_sign_mul s1 hn.ba)
  have dD := abs_le.1 (abs_sign_mul s1 hn.det)
  have dT := abs_le.1 (abs_sign_mul s1 hn.dist)
  have dw := abs_le.1 hr.third
  have hsum := congrArg (s * ·) (side_sum o d A B C)
  simp only [mul_add] at hsum
  refine ⟨s, hr.sign.imp And.left And.left, by linarith [dU.2], by linarith [dV.2], ?_, D, n1, by rw [← s2]; exact s3, ?_, ?_⟩
  · rw [s2] at dw
    linarith [dU.1, dV.1, dD.2, dw.2]
  · exact (abs_sign_mul s1 hn.det).trans (by linarith)
  intro hlo
  have bD : |D| ≤ 1126 / 1000 * L ^ 2 := (abs_le_of_near hn.det hn.d0).trans (by linarith)
  have bT : s * T ≤ 1001 / 1000 * L ^ 3 := by
    refine (le_abs_self _).trans ?_
    rw [abs_mul, s1, one_mul]
    exact (abs_le_of_near hn.dist hn.t0).trans (by linarith)
  -- the distance is not negative
  have hDm : |D| * m ≤ hi := by
    have := mul_le_mul_of_nonneg_right bD hm0
    have e : 1126 / 1000 * L ^ 2 * m = 563 / 1000 * (2 * L ^ 2 * m) := by ring
    have h2 : 0 ≤ 2 * L ^ 2 * m := by positivity
    linarith
  obtain ⟨q, q1, -, q2, -⟩ := grad_mul hF.toGradual hr.size hm (by rw [abs_of_nonneg (by positivity)]; exact hDm)
  have hT0 : 0 ≤ s * T := (q2 (by positivity)).trans ((hr.dist.ge q1).1 c4)
  obtain ⟨h', k1, k2, k3⟩ := tri_quotient hF hs hr.dist hr.size hT0 bT hlo bD
  rw [← (hr.result h).1] at k1
  have hηD : η * |D| ≤ 1 / 1000 * (u * L ^ 3) := by
    have h1 : η * |D| ≤ (u ^ 2 * L) * (1126 / 1000 * L ^ 2) := mul_le_mul ηuL bD (abs_nonneg _) (by positivity)
    have e : u ^ 2 * L * (1126 / 1000 * L ^ 2) = 1126 / 1000 * (u * (u * L ^ 3)) := by ring
    have h2 : u * (u * L ^ 3) ≤ 1 / 2 ^ 20 * (u * L ^ 3) := mul_le_mul_of_nonneg_right u1 uL3.le
    linarith
  have huT : u * (s * T) ≤ 1001 / 1000 * (u * L ^ 3) := by
    have := mul_le_mul_of_nonneg_left bT u0.le
    linarith
  refine ⟨h', k1, k2, ?_, ?_⟩
  · have e : h' * (s * Vec3.dot (normalOf A B C) d) - s * Vec3.dot (normalOf A B C) (A - o) =
        (h' * |D| - s * T) + h' * (s * Vec3.dot (normalOf A B C) d - s * D) +
          (s * T - s * Vec3.dot (normalOf A B C) (A - o)) := by rw [s2]; ring
    rw [e]
    have e1 : |h' * (s * Vec3.dot (normalOf A B C) d - s * D)| ≤ h' * (95 / 10 * (u * L ^ 2)) := by
      rw [abs_mul, abs_of_nonneg k2, abs_sub_comm]
      exact mul_le_mul_of_nonneg_left (abs_sign_mul s1 hn.det) k2
    refine (abs_add_le' (abs_add_le' k3 e1) (abs_sign_mul s1 hn.dist)).trans ?_
    have e2 : 12 * (u * L ^ 2) * (L + h') = 12 * (u * L ^ 3) + 12 * (h' * (u * L ^ 2)) := by ring
    rw [e2]
    have := mul_nonneg k2 uLL0.le
    linarith
  · intro k hk0 hk
    have hD0 : 0 < |D| := s3
    -- the limit
    have ht : s * T ≤ |D| * k * (1 + u) + η := by
      rcases le_or_gt (|D| * k) hi with h1 | h1
      · obtain ⟨q, q1, q2, -⟩ := grad_mul hF.toGradual hr.size hk (by rw [abs_of_nonneg (by positivity)]; exact h1)
        have h2 : s * T < q := (q1.gt hr.dist).1 c5
        rw [abs_of_nonneg (by positivity : 0 ≤ |D| * k)] at q2
        have := (abs_le.1 q2).2
        linarith
      · have h2 := hs.cube_le
        have h3 : 0 ≤ |D| * k * u := by positivity
        linarith
    have hηlo : η ≤ u ^ 2 * L * |D| := hs.η_le_lo.trans (mul_le_mul_of_nonneg_left hlo (by positivity))
    have h1 : h' * |D| ≤ (s * T) * (1 + 203 / 100 * u) + η * |D| := by
      have := (abs_le.1 k3).2
      linarith
    have h2 : (s * T) * (1 + 203 / 100 * u) ≤ (|D| * k * (1 + u) + u ^ 2 * L * |D|) * (1 + 203 / 100 * u) :=
      mul_le_mul_of_nonneg_right (by linarith) (by linarith)
    have h3 : η * |D| ≤ u ^ 2 * L * |D| := mul_le_mul_of_nonneg_right ηuL hD0.le
    have h4 : h' * |D| ≤ ((k * (1 + u) + u ^ 2 * L) * (1 + 203 / 100 * u) + u ^ 2 * L) * |D| := by
      have e : ((k * (1 + u) + u ^ 2 * L) * (1 + 203 / 100 * u) + u ^ 2 * L) * |D| =
        (|D| * k * (1 + u) + u ^ 2 * L * |D|) * (1 + 203 / 100 * u) + u ^ 2 * L * |D| := by ring
      rw [e]; linarith
    have h5 := le_of_mul_le_mul_right h4 hD0
    have hku : 0 ≤ k * u := mul_nonneg hk0 u0.le
    have hkuu : k * u * u ≤ k * u * (1 / 2 ^ 20) := mul_le_mul_of_nonneg_left u1 hku
    have hLuu : u * L * u ≤ u * L * (1 / 2 ^ 20) := mul_le_mul_of_nonneg_left u1 uL0.le
    have hLuuu : u * L * u * u ≤ u * L * u * (1 / 2 ^ 20) := mul_le_mul_of_nonneg_left u1 (by positivity)
    have e : (k * (1 + u) + u ^ 2 * L) * (1 + 203 / 100 * u) + u ^ 2 * L =
      k + 303 / 100 * (k * u) + 203 / 100 * (k * u * u) + 2 * (u * L * u) + 203 / 100 * (u * L * u * u) := by ring
    rw [e] at h5
    have e2 : (k + L) * (1 + 4 * u) = k + L + 4 * (k * u) + 4 * (u * L) := by ring
    rw [e2]
    linarith

/-- A test that has the signs right accepts, or the distance is behind the one already known. -/
theorem TriRun.found (hF : F.Rounds u η hi) (hS : F.Saturates hi) (hs : Scale3 u η hi lo L) {i : TriI (XF F)}
    {tri : Triangle (XF F)} {ray : Ray (XF F)} {m D U V T w s D0 U0 V0 T0 : K} {x y : XF F}
    (hr : TriRun u L i tri ray D U V T w s x y) (hn : TriNums u L D U V T D0 U0 V0 T0)
    (hm : i.minHit.Is m) (hm0 : 0 ≤ m) (hmL : 2 * L ^ 2 * m ≤ hi)
    (h1 : -(8 * u) ≤ s * U) (h2 : -(8 * u) ≤ s * V) (h3 : -(8 * u) ≤ w)
    (hT : 12 * (u * L ^ 2) * (L + m) ≤ s * T0 - s * D0 * m)
    (hhd : i.hd = .inf false ∨ ∃ k, 0 ≤ k ∧ i.hd.Is k ∧ 12 * (u * L ^ 2) * (L + k) < s * D0 * k - s * T0) :
    (triIntersect i tri ray).2 = true := by
  obtain ⟨u0, u1, η0, ηu, ηL, ηLL, ηuLL, ηuL, L0, uL0, uLL0, uL1, uLL1, hi1, hiL, hiLL⟩ := hs.toScale.sizes
  obtain ⟨uL3, ηL3, uL31, L3⟩ := hs.sizes3
  obtain ⟨s1, s2, s3⟩ := hr.abs_sign
  have dD := abs_le.1 (abs_sign_mul s1 hn.det)
  have dT := abs_le.1 (abs_sign_mul s1 hn.dist)
  rw [← s2] at dD
  have bD : |D| ≤ 1126 / 1000 * L ^ 2 := (abs_le_of_near hn.det hn.d0).trans (by linarith)
  have bT : s * T ≤ 1001 / 1000 * L ^ 3 := by
    refine (le_abs_self _).trans ?_
    rw [abs_mul, s1, one_mul]
    exact (abs_le_of_near hn.dist hn.t0).trans (by linarith)
  refine hr.accept.2 ⟨⟨h1, h2, h3⟩, ?_, ?_⟩
  · have hDm : |D| * m ≤ hi := by
      have := mul_le_mul_of_nonneg_right bD hm0
      have e : 1126 / 1000 * L ^ 2 * m = 563 / 1000 * (2 * L ^ 2 * m) := by ring
      have h2 : 0 ≤ 2 * L ^ 2 * m := by positivity
      linarith
    have hDm0 : 0 ≤ |D| * m := by positivity
    obtain ⟨q, q1, q2, -⟩ := grad_mul hF.toGradual hr.size hm (by rw [abs_of_nonneg hDm0]; exact hDm)
    rw [abs_of_nonneg hDm0] at q2
    refine (hr.dist.ge q1).2 ?_
    have a1 := (abs_le.1 q2).2
    have a2 : |D| * m ≤ (s * D0 + 95 / 10 * (u * L ^ 2)) * m := mul_le_mul_of_nonneg_right (by linarith [dD.2]) hm0
    have a3 : u * (|D| * m) ≤ u * (1126 / 1000 * L ^ 2 * m) :=
      mul_le_mul_of_nonneg_left (mul_le_mul_of_nonneg_right bD hm0) u0.le
    have e1 : u * (1126 / 1000 * L ^ 2 * m) = 1126 / 1000 * (u * L ^ 2 * m) := by ring
    have e2 : (s * D0 + 95 / 10 * (u * L ^ 2)) * m = s * D0 * m + 95 / 10 * (u * L ^ 2 * m) := by ring
    have e3 : 12 * (u * L ^ 2) * (L + m) = 12 * (u * L ^ 3) + 12 * (u * L ^ 2 * m) := by ring
    have e4 : 0 ≤ u * L ^ 2 * m := by positivity
    linarith [dT.1]
  · show lt x (y * i.hd) = true
    refine hr.dist.lt_iff.2 ?_
    rcases hhd with h | ⟨k, k0, hk, hkT⟩
    · rw [h]; exact .inl (mul_inf_pos hr.size s3)
    · have hDk0 : 0 ≤ |D| * k := by positivity
      have a2 : (s * D0 - 95 / 10 * (u * L ^ 2)) * k ≤ |D| * k := mul_le_mul_of_nonneg_right (by linarith [dD.1]) k0
      have a3 : u * (|D| * k) ≤ u * (1126 / 1000 * L ^ 2 * k) :=
        mul_le_mul_of_nonneg_left (mul_le_mul_of_nonneg_right bD k0) u0.le
      have e1 : u * (1126 / 1000 * L ^ 2 * k) = 1126 / 1000 * (u * L ^ 2 * k) := by ring
      have e2 : (s * D0 - 95 / 10 * (u * L ^ 2)) * k = s * D0 * k - 95 / 10 * (u * L ^ 2 * k) := by ring
      have e3 : 12 * (u * L ^ 2) * (L + k) = 12 * (u * L ^ 3) + 12 * (u * L ^ 2 * k) := by ring
      have e4 : 0 ≤ u * L ^ 2 * k := by positivity
      refine mul_above hF.toGradual hS hr.size hk hDk0 ?_ ?_
      · have := hs.cube_le
        linarith
      · linarith [dT.2]

end Blazert
