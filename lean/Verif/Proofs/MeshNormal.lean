/- Normals of meshes, with rounding. -/
import Verif.Proofs.TriRound
import Verif.Proofs.Mesh

set_option autoImplicit false
set_option linter.unusedSectionVars false

namespace Blazert
open Scalar

section
variable {K : Type} [Field K] [LinearOrder K] [IsStrictOrderedRing K] [FloorRing K] {F : Fmt K} {u η hi : K}

theorem Sup.cross_sup {a b : Vec3 K} {A B : K} (ha : Sup a A) (hb : Sup b B) : Sup (Vec3.cross a b) (2 * (A * B)) := by
  constructor <;> simp only [Vec3.cross] <;> rw [two_mul] <;>
    refine abs_sub_le' (abs_mul_le ?_ ?_) (abs_mul_le ?_ ?_) <;>
    first | exact ha.x | exact ha.y | exact ha.z | exact hb.x | exact hb.y | exact hb.z

theorem Sup.dot_sup {a b : Vec3 K} {A B : K} (ha : Sup a A) (hb : Sup b B) : |Vec3.dot a b| ≤ 3 * (A * B) := by
  have := abs_add_le' (abs_add_le' (abs_mul_le ha.x hb.x) (abs_mul_le ha.y hb.y)) (abs_mul_le ha.z hb.z)
  unfold Vec3.dot
  linarith

theorem Sup.one {v : Vec3 K} {B : K} (h : Sup v B) : oneNorm v ≤ 3 * B := by
  have := h.x
  have := h.y
  have := h.z
  unfold oneNorm
  linarith

theorem oneNorm_sub_comm (v w : Vec3 K) : oneNorm (v - w) = oneNorm (w - v) := by
  simp only [oneNorm, Vec3.sub_x, Vec3.sub_y, Vec3.sub_z, abs_sub_comm]

theorem Sup.of_dot {d : Vec3 K} {B : K} (hB : 0 ≤ B) (h : Vec3.dot d d ≤ B ^ 2) : Sup d B := by
  unfold Vec3.dot at h
  have hx := mul_self_nonneg d.x
  have hy := mul_self_nonneg d.y
  have hz := mul_self_nonneg d.z
  constructor <;> refine abs_le_of_sq_le_sq ?_ hB <;> rw [pow_two] <;> linarith

/-- what `normalize` computes: a vector along `p`, of length about 1 -/
structure Along (u : K) (p d : Vec3 K) (l : K) : Prop where
  unit : |Vec3.dot d d - 1| ≤ 11 * u
  sup : Sup d (101 / 100)
  pos : 0 < l
  low : oneNorm p ≤ 2 * l
  high : l ≤ 101 / 100 * oneNorm p
  near : Sup (Vec3.smul l d - p) (101 / 100 * (u * oneNorm p))

theorem normalize_along (hF : F.Rounds u η hi) {dir : Vec3 (XF F)} {p : Vec3 K} (hp : IsV dir p)
    (hs : Scale u η hi (oneNorm p)) : ∃ d l, IsV (Vec3.normalize dir) d ∧ Along u p d l := by
  obtain ⟨d, l, h1, h2, h3, h4, h5, h6, h7⟩ := normalize_near hF hp hs
  obtain ⟨u0, u1, η0, ηu, -, -, -, -, L0, -, -, -, -, -, -, -⟩ := hs.sizes
  have hu := hs.u_le
  set L := oneNorm p with hL
  have hL1 : Vec3.dot p p ≤ L ^ 2 := by
    have := sum_sq_le p.x p.y p.z 0
    rw [mul_zero, add_zero, abs_zero, add_zero] at this
    exact this
  have hL3 : L ^ 2 ≤ 3 * Vec3.dot p p := by
    rw [hL]
    unfold Vec3.dot oneNorm
    rw [← abs_mul_abs_self p.x, ← abs_mul_abs_self p.y, ← abs_mul_abs_self p.z]
    nlinarith [mul_self_nonneg (|p.x| - |p.y|), mul_self_nonneg (|p.y| - |p.z|), mul_self_nonneg (|p.x| - |p.z|)]
  have hLL : 0 < L ^ 2 := by positivity
  have hS0 : 0 < Vec3.dot p p := by linarith
  have huS : u * Vec3.dot p p ≤ Vec3.dot p p / 2 ^ 20 := (mul_le_mul_of_nonneg_right u1 hS0.le).trans_eq (by ring)
  have h4' := abs_le.1 h4
  have hlow : L ≤ 2 * l := by
    by_contra hc
    have hc : 2 * l < L := not_le.1 hc
    have : (2 * l) ^ 2 < L ^ 2 := pow_lt_pow_left₀ hc (by positivity) two_ne_zero
    nlinarith
  have hhigh : l ≤ 101 / 100 * L := by
    by_contra hc
    have hc : 101 / 100 * L < l := not_le.1 hc
    have : (101 / 100 * L) ^ 2 < l ^ 2 := pow_lt_pow_left₀ hc (by positivity) two_ne_zero
    nlinarith
  have h2' := abs_le.1 h2
  have hsup : Sup d (101 / 100) := by
    exact Sup.of_dot (by norm_num) (by linarith)
  have hc : ∀ {a q : K}, |q| ≤ L → |a - q / l| ≤ u * |q / l| + η → |l * a - q| ≤ 101 / 100 * (u * L) := by
    intro a q hq h
    have h := mul_le_mul_of_nonneg_left h h3.le
    have g1 : l * |a - q / l| = |l * a - q| := by
      conv_lhs => rw [← abs_of_pos h3, ← abs_mul, abs_of_pos h3, mul_sub, mul_div_cancel₀ _ h3.ne']
    have g2 : l * |q / l| = |q| := by
      rw [abs_div, abs_of_pos h3, mul_div_cancel₀ _ h3.ne']
    rw [g1, mul_add, mul_left_comm, g2] at h
    refine h.trans ?_
    have e1 := mul_le_mul_of_nonneg_left hq u0.le
    have e2 := mul_le_mul hhigh ηu η0 (by positivity)
    have e4 : 0 < u * L := by positivity
    linarith
  obtain ⟨p1, p2, p3⟩ : Sup p L := Sup.of_one le_rfl
  exact ⟨d, l, h1, h2, hsup, h3, hlow, hhigh, hc p1 h5, hc p2 h6, hc p3 h7⟩

/-- `w * a + U * b + V * c`, rounded -/
theorem interp_comp (hF : F.Rounds u η hi) (u0 : 0 < u) (hu : 2 ^ 20 * u ≤ 1) {S : K} (η0 : 0 ≤ η) (hη : 10 * η ≤ u * S)
    (hS : 10 * S ≤ hi) {w xu xv x y z : XF F} {w' w0 U V a b c : K} (hw : w.Is w') (hw' : |w' - w0| ≤ 61 / 10 * u) (hw0 : |w0| ≤ 3)
    (hU : xu.Is U) (hV : xv.Is V) (hUV : |U| + |V| ≤ 2) (ha : x.Is a) (hb : y.Is b) (hc : z.Is c) (la : |a| ≤ S) (lb : |b| ≤ S)
    (lc : |c| ≤ S) : ∃ p, (w * x + xu * y + xv * z).Is p ∧ |p - (w0 * a + U * b + V * c)| ≤ 22 * (u * S) := by
  have hG := hF.toGradual
  have S0 : 0 ≤ S := (abs_nonneg _).trans la
  have U0 := abs_nonneg U
  have V0 := abs_nonneg V
  have uS : u * S ≤ S / 2 ^ 20 := by
    have := mul_le_mul_of_nonneg_right hu S0
    linarith
  have uS0 : 0 ≤ u * S := by positivity
  have UV : |U| * S + |V| * S ≤ 2 * S := by
    have := mul_le_mul_of_nonneg_right hUV S0
    linarith
  have US0 : 0 ≤ |U| * S := by positivity
  have VS0 : 0 ≤ |V| * S := by positivity
  have uUV : u * (|U| * S) + u * (|V| * S) ≤ 2 * (u * S) := by
    have := mul_le_mul_of_nonneg_left UV u0.le
    linarith
  have w1 : |w'| ≤ 3001 / 1000 := by
    have := abs_add_le (w' - w0) w0
    rw [sub_add_cancel] at this
    linarith
  have m0 := abs_mul_le w1 la
  have m1 := abs_mul_le (le_refl |U|) lb
  have m2 := abs_mul_le (le_refl |V|) lc
  obtain ⟨p0, i0, e0, -⟩ := rnd_mul hG u0.le hw ha m0 (by linarith)
  obtain ⟨p1, i1, e1, -⟩ := rnd_mul hG u0.le hU hb m1 (by linarith)
  obtain ⟨p2, i2, e2, -⟩ := rnd_mul hG u0.le hV hc m2 (by linarith)
  have n0 : |p0| ≤ 3001 / 1000 * S + (u * (3001 / 1000 * S) + η) := by
    have := abs_add_le (p0 - w' * a) (w' * a)
    rw [sub_add_cancel] at this
    linarith
  have n1 : |p1| ≤ |U| * S + (u * (|U| * S) + η) := by
    have := abs_add_le (p1 - U * b) (U * b)
    rw [sub_add_cancel] at this
    linarith
  have n2 : |p2| ≤ |V| * S + (u * (|V| * S) + η) := by
    have := abs_add_le (p2 - V * c) (V * c)
    rw [sub_add_cancel] at this
    linarith
  have uu : u * (3001 / 1000 * S) = 3001 / 1000 * (u * S) := by ring
  have uV0 : 0 ≤ u * (|V| * S) := by positivity
  have uU0 : 0 ≤ u * (|U| * S) := by positivity
  have s1 : |p0 + p1| ≤ 5002 / 1000 * S := by
    have := abs_add_le p0 p1
    linarith
  obtain ⟨p3, i3, e3, -⟩ := rnd_add hG u0.le i0 i1 s1 (by linarith)
  have s2 : |p3 + p2| ≤ 5003 / 1000 * S := by
    have h1 := abs_add_le p3 p2
    have h2 := abs_add_le (p3 - (p0 + p1)) (p0 + p1)
    rw [sub_add_cancel] at h2
    have h3 := abs_add_le p0 p1
    linarith
  obtain ⟨p4, i4, e4, -⟩ := rnd_add hG u0.le i3 i2 s2 (by linarith)
  refine ⟨p4, i4, ?_⟩
  have e5 : |w' * a - w0 * a| ≤ 61 / 10 * u * S := by
    rw [← sub_mul]
    exact abs_mul_le hw' la
  have := abs_add_le' (abs_add_le' (abs_add_le' (abs_add_le' (abs_add_le' e4 e3) e0) e1) e2) e5
  rw [show p4 - (w0 * a + U * b + V * c) = p4 - (p3 + p2) + (p3 - (p0 + p1)) + (p0 - w' * a) + (p1 - U * b) + (p2 - V * c) +
    (w' * a - w0 * a) by ring]
  linarith

theorem interp_near (hF : F.Rounds u η hi) (u0 : 0 < u) (hu : 2 ^ 20 * u ≤ 1) {S : K} (η0 : 0 ≤ η) (η1 : η ≤ u ^ 2)
    (hη : 10 * η ≤ u * S) (hS : 10 * S ≤ hi) (hi1 : 64 ≤ hi) {xu xv : XF F} {x y z : Vec3 (XF F)} {U V : K} {a b c : Vec3 K}
    (hU : xu.Is U) (hV : xv.Is V) (hUV : |U| + |V| ≤ 2) (ha : IsV x a) (hb : IsV y b) (hc : IsV z c) (la : Sup a S) (lb : Sup b S)
    (lc : Sup c S) :
    ∃ p, IsV (Vec3.smul (nat 1 - xu - xv) x + Vec3.smul xu y + Vec3.smul xv z) p ∧ Sup (p - bary a b c U V) (22 * (u * S)) := by
  have hG := hF.toGradual
  have U0 := abs_nonneg U
  have V0 := abs_nonneg V
  have η2 : η ≤ u / 2 ^ 20 := η1.trans (by rw [pow_two]; nlinarith)
  have w1 : |1 - U| ≤ 3 := by
    have := abs_sub_le' (le_of_eq (abs_one (α := K))) (le_refl |U|)
    linarith
  obtain ⟨s, i1, e1, -⟩ := rnd_sub hG u0.le hF.nat1 hU w1 (by linarith)
  have w2 : |1 - U - V| ≤ 3 := by
    have := abs_sub_le' (abs_sub_le' (le_of_eq (abs_one (α := K))) (le_refl |U|)) (le_refl |V|)
    linarith
  have w3 : |s - V| ≤ 3001 / 1000 := by
    have := abs_add_le' e1 w2
    rw [show s - (1 - U) + (1 - U - V) = s - V by ring] at this
    linarith
  obtain ⟨w, i2, e2, -⟩ := rnd_sub hG u0.le i1 hV w3 (by linarith)
  have e3 : |w - (1 - U - V)| ≤ 61 / 10 * u := by
    have := abs_add_le' e2 e1
    rw [show w - (s - V) + (s - (1 - U)) = w - (1 - U - V) by ring] at this
    linarith
  obtain ⟨p, j1, f1⟩ := interp_comp hF u0 hu η0 hη hS i2 e3 w2 hU hV hUV ha.1 hb.1 hc.1 la.x lb.x lc.x
  obtain ⟨q, j2, f2⟩ := interp_comp hF u0 hu η0 hη hS i2 e3 w2 hU hV hUV ha.2.1 hb.2.1 hc.2.1 la.y lb.y lc.y
  obtain ⟨r, j3, f3⟩ := interp_comp hF u0 hu η0 hη hS i2 e3 w2 hU hV hUV ha.2.2 hb.2.2 hc.2.2 la.z lb.z lc.z
  exact ⟨⟨p, q, r⟩, ⟨j1, j2, j3⟩, f1, f2, f3⟩

/-- the direction `d` of `p` is also that of a vector `g` close to `p` -/
theorem Along.parallel {p g d : Vec3 K} {l e : K} (h : Along u p d l) (he : Sup (p - g) e) :
    Sup (Vec3.cross d g) (2 * (101 / 100 * (101 / 100 * (u * oneNorm p) + e))) := by
  have h1 : Sup (Vec3.smul l d - g) (101 / 100 * (u * oneNorm p) + e) := h.near.trans he
  have h2 := h.sup.cross_sup h1
  obtain ⟨h3, h4, h5⟩ := h2
  have e1 : Vec3.cross d (Vec3.smul l d - g) = ⟨-(Vec3.cross d g).x, -(Vec3.cross d g).y, -(Vec3.cross d g).z⟩ := by
    ext <;> simp [Vec3.cross] <;> ring
  rw [e1] at h3 h4 h5
  rw [abs_neg] at h3 h4 h5
  exact ⟨h3, h4, h5⟩

theorem Along.forward {p g d : Vec3 K} {l e : K} (h : Along u p d l) (hu : 2 ^ 20 * u ≤ 1) (he : Sup (p - g) e) :
    49 / 100 * oneNorm p - 303 / 100 * (101 / 100 * (u * oneNorm p) + e) ≤ Vec3.dot d g := by
  have h1 : Sup (Vec3.smul l d - g) (101 / 100 * (u * oneNorm p) + e) := h.near.trans he
  have h2 := abs_le.1 (h.sup.dot_sup h1)
  have e1 : Vec3.dot d (Vec3.smul l d - g) = l * Vec3.dot d d - Vec3.dot d g := by
    simp [Vec3.dot]; ring
  rw [e1] at h2
  have h3 := abs_le.1 h.unit
  have h4 : l * (49 / 50) ≤ l * Vec3.dot d d := mul_le_mul_of_nonneg_left (by linarith) h.pos.le
  have := h.low
  linarith

/-- the vertex normals of a face that shares no vertex with another one -/
theorem isolated_stored {T : Type} [Scalar T] {vertices : List (Vec3 T)} {pre post : List (Vec3 Nat)} {face : Vec3 Nat}
    {mesh : MeshColl T} (hmake : MeshColl.make vertices (pre ++ face :: post) = .ok mesh)
    (hxy : face.x ≠ face.y) (hxz : face.x ≠ face.z) (hyz : face.y ≠ face.z)
    (hiso : ∀ g ∈ pre ++ post, ∀ k ∈ [face.x, face.y, face.z], g.x ≠ k ∧ g.y ≠ k ∧ g.z ≠ k)
    {a b c : Vec3 T} (hva : vertices[face.x]? = some a) (hvb : vertices[face.y]? = some b)
    (hvc : vertices[face.z]? = some c) :
    mesh.vertexNormals[face.x]? = some (Vec3.const (nat 0) + Vec3.divs (triNormal a b c) (nat 3)) ∧
    mesh.vertexNormals[face.y]? = some (Vec3.const (nat 0) + Vec3.divs (triNormal a b c) (nat 3)) ∧
    mesh.vertexNormals[face.z]? = some (Vec3.const (nat 0) + Vec3.divs (triNormal a b c) (nat 3)) := by
  unfold MeshColl.make at hmake
  rw [List.foldlM_append, run_bind_eq_ok] at hmake
  obtain ⟨m1, h1, hmake⟩ := hmake
  rw [List.foldlM_cons, run_bind_eq_ok] at hmake
  obtain ⟨m2, h2, hmake⟩ := hmake
  obtain ⟨v0, v1, v2, l1, l2, e0, e1, e2, g0, g1, g2⟩ := meshFace_normals h2
  rw [hva] at e0; cases e0
  rw [hvb] at e1; cases e1
  rw [hvc] at e2; cases e2
  have hpre : ∀ k ∈ [face.x, face.y, face.z], ∀ g ∈ pre, g.x ≠ k ∧ g.y ≠ k ∧ g.z ≠ k :=
    fun k hk g hg => hiso g (by simp [hg]) k hk
  have hpost : ∀ k ∈ [face.x, face.y, face.z], ∀ g ∈ post, g.x ≠ k ∧ g.y ≠ k ∧ g.z ≠ k :=
    fun k hk g hg => hiso g (by simp [hg]) k hk
  have hzero : ∀ k ∈ [face.x, face.y, face.z], k < vertices.length → m1.vertexNormals[k]? = some (Vec3.const (nat 0)) := by
    intro k hk hlt
    rw [normals_untouched k pre _ _ h1 (hpre k hk)]
    simp [hlt]
  have hlast : ∀ k ∈ [face.x, face.y, face.z], mesh.vertexNormals[k]? = m2.vertexNormals[k]? := fun k hk =>
    normals_untouched k post _ _ hmake (hpost k hk)
  have lx := (List.getElem?_eq_some_iff.1 hva).1
  have ly := (List.getElem?_eq_some_iff.1 hvb).1
  have lz := (List.getElem?_eq_some_iff.1 hvc).1
  refine ⟨?_, ?_, ?_⟩
  · rw [hlast _ (by simp), addNormal_get g2, if_neg hxz, addNormal_get g1, if_neg hxy, addNormal_get g0, if_pos rfl,
      hzero _ (by simp) lx]; rfl
  · rw [hlast _ (by simp), addNormal_get g2, if_neg hyz, addNormal_get g1, if_pos rfl, addNormal_get g0, if_neg hxy.symm,
      hzero _ (by simp) ly]; rfl
  · rw [hlast _ (by simp), addNormal_get g2, if_pos rfl, addNormal_get g1, if_neg hyz.symm, addNormal_get g0, if_neg hxz.symm,
      hzero _ (by simp) lz]; rfl

theorem face_cross {L : K} (hF : F.Rounds u η hi) (hs : Scale u η hi L) {a b c : Vec3 (XF F)} {A B C : Vec3 K}
    (ha : IsV a A) (hb : IsV b B) (hc : IsV c C) (h1 : oneNorm (B - A) ≤ L) (h2 : oneNorm (C - A) ≤ L) :
    ∃ P, IsV (Vec3.cross (b - a) (c - a)) P ∧ oneNorm (P - Vec3.cross (B - A) (C - A)) ≤ 42 / 10 * (u * L ^ 2) ∧
      oneNorm (Vec3.cross (B - A) (C - A)) ≤ L ^ 2 := by
  obtain ⟨u0, u1, η0, ηu, ηL, ηLL, -, -, L0, uL0, uLL0, uL1, uLL1, hi1, hiL, hiLL⟩ := hs.sizes
  obtain ⟨E1, i1, n1⟩ := rnd_subv hF hs hb ha h1
  obtain ⟨E2, i2, n2⟩ := rnd_subv hF hs hc ha h2
  obtain ⟨s1, t1⟩ := n1.sums hs
  obtain ⟨s2, t2⟩ := n2.sums hs
  have s1' : oneNorm E1 ≤ 1001 / 1000 * L := s1
  have s2' : oneNorm E2 ≤ 1001 / 1000 * L := s2
  have hP := cross_sum_le s1' s2'
  have eL : 1001 / 1000 * L * (1001 / 1000 * L) = 1002001 / 1000000 * L ^ 2 := by ring
  rw [eL] at hP
  have p1 := abs_nonneg (E1.y * E2.z)
  have p2 := abs_nonneg (E1.z * E2.y)
  have p3 := abs_nonneg (E1.z * E2.x)
  have p4 := abs_nonneg (E1.x * E2.z)
  have p5 := abs_nonneg (E1.x * E2.y)
  have p6 := abs_nonneg (E1.y * E2.x)
  obtain ⟨N, i4, n4, -⟩ := rnd_cross hF.toGradual u0.le hs.u_le η0 i1 i2 hP (Q := 1002001 / 1000000 * L ^ 2) (by linarith)
    (by linarith) (by linarith) (by linarith)
  have n5 : oneNorm (Vec3.cross E1 E2 - Vec3.cross (B - A) E2) ≤ 1001 / 1000 * (u * L) * (1001 / 1000 * L) := by
    rw [cross_sub_left]; exact oneNorm_cross_le t1 s2'
  have n6 : oneNorm (Vec3.cross (B - A) E2 - Vec3.cross (B - A) (C - A)) ≤ L * (1001 / 1000 * (u * L)) := by
    rw [cross_sub_right]; exact oneNorm_cross_le h1 t2
  have n7 := oneNorm_trans n4 (oneNorm_trans n5 n6)
  refine ⟨N, i4, n7.trans ?_, ?_⟩
  · have e1 : 1001 / 1000 * (u * L) * (1001 / 1000 * L) = 1002001 / 1000000 * (u * L ^ 2) := by ring
    have e2 : L * (1001 / 1000 * (u * L)) = 1001 / 1000 * (u * L ^ 2) := by ring
    have e3 : u * (1002001 / 1000000 * L ^ 2) = 1002001 / 1000000 * (u * L ^ 2) := by ring
    rw [e1, e2, e3]
    linarith
  · have := oneNorm_cross_le h1 h2
    rw [← pow_two] at this
    exact this

theorem third_comp (hF : F.Rounds u η hi) (u0 : 0 < u) (hu : 2 ^ 20 * u ≤ 1) (η0 : 0 ≤ η) (η1 : η ≤ u / 2 ^ 20) (hi1 : 64 ≤ hi)
    {x y : XF F} {d t : K} (hx : x.Is d) (hd : |d| ≤ 101 / 100) (hy : y.Is t) (t1 : 299 / 100 ≤ t) (t2 : t ≤ 301 / 100) :
    ∃ w, ((nat 0 : XF F) + x / y).Is w ∧ |t * w - d| ≤ 21 / 10 * u ∧ |w| ≤ 36 / 100 := by
  have t0 : 0 < t := by linarith
  have q : |d / t| ≤ 34 / 100 := by
    rw [abs_div, abs_of_pos t0, div_le_iff₀ t0]
    linarith
  obtain ⟨p, i1, e1, -⟩ := rnd_div hF.toGradual u0.le hx hy t0.ne' q (by linarith)
  have hp : |0 + p| ≤ 341 / 1000 := by
    rw [zero_add]
    have := abs_le_of_near e1 q
    linarith
  obtain ⟨w, i2, e2, -⟩ := rnd_add hF.toGradual u0.le hF.nat0 i1 hp (by linarith)
  rw [zero_add] at e2 hp
  refine ⟨w, i2, ?_, ?_⟩
  · have h1 := abs_near_trans e2 e1
    have h2 := mul_le_mul t2 h1 (abs_nonneg _) (by norm_num)
    have h3 : |t * w - d| = t * |w - d / t| := by
      conv_rhs => rw [← abs_of_pos t0, ← abs_mul, abs_of_pos t0, mul_sub, mul_div_cancel₀ _ t0.ne']
    rw [h3]
    linarith
  · have := abs_le_of_near e2 hp
    linarith

/-- what is stored for the vertices of an isolated face -/
structure Stored (u L : K) (N w : Vec3 K) (l : K) : Prop where
  sup : Sup w (36 / 100)
  size : 32 / 100 ≤ oneNorm w
  near : Sup (Vec3.smul l w - N) (75 / 10 * (u * L ^ 2))
  low : 14 / 10 * oneNorm N ≤ l
  high : l ≤ 31 / 10 * L ^ 2

theorem stored_near {L : K} (hF : F.Rounds u η hi) (hs : Scale u η hi L) (hη : η ≤ u ^ 4) (hL : 66 * L ^ 4 ≤ hi)
    {a b c : Vec3 (XF F)} {A B C : Vec3 K} (ha : IsV a A) (hb : IsV b B) (hc : IsV c C) (h1 : oneNorm (B - A) ≤ L)
    (h2 : oneNorm (C - A) ≤ L) (hN1 : 800 * u ≤ oneNorm (Vec3.cross (B - A) (C - A)))
    (hN2 : 800 * (u * L ^ 2) ≤ oneNorm (Vec3.cross (B - A) (C - A))) :
    ∃ w l, IsV (Vec3.const (nat 0) + Vec3.divs (triNormal a b c) (nat 3)) w ∧ Stored u L (Vec3.cross (B - A) (C - A)) w l := by
  obtain ⟨u0, u1, η0, ηu, ηL, ηLL, -, -, L0, uL0, uLL0, uL1, uLL1, hi1, hiL, hiLL⟩ := hs.sizes
  obtain ⟨P, i1, e1, e2⟩ := face_cross hF hs ha hb hc h1 h2
  set N := Vec3.cross (B - A) (C - A) with hN
  have hPN : oneNorm P ≤ oneNorm N + 42 / 10 * (u * L ^ 2) := oneNorm_near e1 le_rfl
  have hNP : oneNorm N ≤ oneNorm P + 42 / 10 * (u * L ^ 2) := oneNorm_near (by rwa [oneNorm_sub_comm]) le_rfl
  have hP0 : 700 * u ≤ oneNorm P := by linarith
  have hP1 : oneNorm P ≤ 1001 / 1000 * L ^ 2 := by linarith
  have hPs : Scale u η hi (oneNorm P) := by
    refine ⟨u0, hs.u_le, η0, hs.η_le, ?_, by linarith, ?_, hs.hi_large⟩
    · have g1 : (700 * u) ^ 2 ≤ oneNorm P ^ 2 := pow_le_pow_left₀ (by positivity) hP0 2
      have g2 := mul_le_mul_of_nonneg_left g1 (by positivity : 0 ≤ u ^ 2)
      have g3 : u ^ 2 * (700 * u) ^ 2 = 490000 * u ^ 4 := by ring
      have g4 : 0 ≤ u ^ 4 := by positivity
      linarith
    · have g1 : oneNorm P ^ 2 ≤ (1001 / 1000 * L ^ 2) ^ 2 := pow_le_pow_left₀ (by linarith) hP1 2
      have g2 : (1001 / 1000 * L ^ 2) ^ 2 = 1002001 / 1000000 * L ^ 4 := by ring
      have g4 : 0 ≤ L ^ 4 := by positivity
      linarith
  obtain ⟨d, l, i2, al⟩ := normalize_along hF i1 hPs
  obtain ⟨t, i3, e3, -⟩ := XF.mk_grad hF.toGradual (r := (((3 : ℕ) : ℚ) : K)) (by
    rw [Rat.cast_natCast, Nat.cast_ofNat, abs_of_pos (by norm_num : (0 : K) < 3)]; linarith) false
  rw [Rat.cast_natCast, Nat.cast_ofNat, abs_of_pos (by norm_num : (0 : K) < 3)] at e3
  have i3 : (nat 3 : XF F).Is t := i3
  have t1 : 299 / 100 ≤ t := by linarith [(abs_le.1 e3).1]
  have t2 : t ≤ 301 / 100 := by linarith [(abs_le.1 e3).2]
  obtain ⟨x, j1, f1, g1⟩ := third_comp hF u0 hs.u_le η0 ηu hs.hi_large i2.1 al.sup.x i3 t1 t2
  obtain ⟨y, j2, f2, g2⟩ := third_comp hF u0 hs.u_le η0 ηu hs.hi_large i2.2.1 al.sup.y i3 t1 t2
  obtain ⟨z, j3, f3, g3⟩ := third_comp hF u0 hs.u_le η0 ηu hs.hi_large i2.2.2 al.sup.z i3 t1 t2
  have l0 := al.pos
  have lh := al.high
  have ll := al.low
  have hl : l ≤ 102 / 100 * L ^ 2 := by linarith
  refine ⟨⟨x, y, z⟩, l * t, ⟨j1, j2, j3⟩, ⟨g1, g2, g3⟩, ?_, ?_, ?_, ?_⟩
  · have q1 : (97 / 100) ^ 2 ≤ oneNorm d ^ 2 := by
      have := sum_sq_le d.x d.y d.z 0
      rw [mul_zero, add_zero, abs_zero, add_zero] at this
      have q2 := (abs_le.1 al.unit).1
      unfold Vec3.dot at q2
      unfold oneNorm
      linarith
    have q2 : 97 / 100 ≤ oneNorm d := by
      by_contra hc
      exact absurd q1 (not_le.2 (pow_lt_pow_left₀ (not_le.1 hc) (oneNorm_nonneg d) two_ne_zero))
    have q3 : ∀ {w e : K}, |t * w - e| ≤ 21 / 10 * u → |e| ≤ 301 / 100 * |w| + 21 / 10 * u := fun {w e} h => by
      have r1 := abs_sub_abs_le_abs_sub e (t * w)
      rw [abs_sub_comm, abs_mul, abs_of_pos (by linarith : 0 < t)] at r1
      have r2 := mul_le_mul_of_nonneg_right t2 (abs_nonneg w)
      linarith
    have r1 := q3 f1
    have r2 := q3 f2
    have r3 := q3 f3
    unfold oneNorm at q2 ⊢
    linarith
  · have m1 : Sup (Vec3.smul (l * t) ⟨x, y, z⟩ - Vec3.smul l d) (215 / 100 * (u * L ^ 2)) := by
      have q : ∀ {w e : K}, |t * w - e| ≤ 21 / 10 * u → |l * t * w - l * e| ≤ 2143 / 1000 * (u * L ^ 2) := fun {w e} h => by
        rw [mul_assoc, ← mul_sub, abs_mul, abs_of_pos l0]
        refine (mul_le_mul hl h (abs_nonneg _) (by positivity)).trans ?_
        have : 102 / 100 * L ^ 2 * (21 / 10 * u) = 2142 / 1000 * (u * L ^ 2) := by ring
        linarith
      exact ⟨(q f1).trans (by linarith), (q f2).trans (by linarith), (q f3).trans (by linarith)⟩
    have m2 := (m1.trans al.near).trans (Sup.of_one e1)
    have m3 : u * oneNorm P ≤ 1001 / 1000 * (u * L ^ 2) := by
      have := mul_le_mul_of_nonneg_left hP1 u0.le
      linarith
    exact ⟨m2.x.trans (by linarith), m2.y.trans (by linarith), m2.z.trans (by linarith)⟩
  · have := mul_le_mul ll t1 (by norm_num) (by positivity)
    linarith
  · have := mul_le_mul hl t2 (by linarith) (by positivity)
    linarith

end
end Blazert
