/- C91: normals of meshes, with rounding. -/
import Verif.Props.UvRound
import Verif.Proofs.MeshNormal

set_option autoImplicit false

namespace Blazert
open Scalar

section
variable {K : Type} [Field K] [LinearOrder K] [IsStrictOrderedRing K] [FloorRing K] {F : Fmt K}

/-- where the normal reported with a hit on a mesh comes from -/
theorem mesh_normal_from {part : StdPartition} {mesh : MeshColl (XF F)} {opts : BuildOptions}
    {nodes : List (Node (XF F) (Triangle (XF F)))} {stats : Statistics}
    (hbuild : build part mesh.toCollection opts [] = .ok (nodes, stats)) {ray : Ray (XF F)} {rayhit out : RayHit (XF F)}
    (h : traverse (triIx mesh) nodes ray rayhit = .ok (true, out)) :
    ∃ face n0 n1 n2, mesh.faces[out.primId]? = some face ∧ mesh.vertexNormals[face.x]? = some n0 ∧
      mesh.vertexNormals[face.y]? = some n1 ∧ mesh.vertexNormals[face.z]? = some n2 ∧
      out.normal = Vec3.normalize (Vec3.smul (nat 1 - out.uv.1 - out.uv.2) n0 + Vec3.smul out.uv.1 n1 + Vec3.smul out.uv.2 n2) := by
  obtain ⟨ps, vs, rest, -, -, ⟨-, e4, -⟩⟩ := traverse_tests hbuild (tri_quiet mesh ray) h
  obtain ⟨f, n0, n1, n2, e1, e2, e3, e5, rfl⟩ := triPost_ok (e4 rfl)
  exact ⟨f, n0, n1, n2, e1, e2, e3, e5, rfl⟩

/-- **C91**, general.  In any format that rounds: the normal reported with a hit on a mesh (with or without `any_hit`) is a unit vector up
to `11 u`, and has the direction of the interpolation `G` of the normals stored for the vertices of the face, with the reported
coordinates as weights: its vector product with `G` is at most `80 u S` in each coordinate, `S` being a bound for the coordinates of the
stored normals, and its scalar product with `G` is positive.  Interpolations that vanish, up to `300 u S`, are excluded. -/
theorem C91_interpolated (u η hi : K) (hF : F.Rounds u η hi) (part : StdPartition)
    (mesh : MeshColl (XF F)) (opts : BuildOptions) (nodes : List (Node (XF F) (Triangle (XF F)))) (stats : Statistics)
    (hbuild : build part mesh.toCollection opts [] = .ok (nodes, stats)) (ray : Ray (XF F)) (rayhit out : RayHit (XF F))
    (h : traverse (triIx mesh) nodes ray rayhit = .ok (true, out)) :
    ∃ face n0 n1 n2, mesh.faces[out.primId]? = some face ∧ mesh.vertexNormals[face.x]? = some n0 ∧
      mesh.vertexNormals[face.y]? = some n1 ∧ mesh.vertexNormals[face.z]? = some n2 ∧
      ∀ N0 N1 N2 U V S, IsV n0 N0 → IsV n1 N1 → IsV n2 N2 → out.uv.1.Is U → out.uv.2.Is V → |U| + |V| ≤ 2 →
        (∀ N ∈ [N0, N1, N2], ∀ j, |N.get j| ≤ S) → Scale u η hi (oneNorm (bary N0 N1 N2 U V) / 2) →
        300 * oneNorm (bary N0 N1 N2 U V) ^ 2 ≤ hi → 10 * S ≤ hi → 300 * u * S ≤ oneNorm (bary N0 N1 N2 U V) →
        ∃ n, IsV out.normal n ∧ |Vec3.dot n n - 1| ≤ 11 * u ∧ 0 < Vec3.dot n (bary N0 N1 N2 U V) ∧
          ∀ j, |(Vec3.cross n (bary N0 N1 N2 U V)).get j| ≤ 80 * u * S := by
  obtain ⟨face, n0, n1, n2, g1, g2, g3, g4, g5⟩ := mesh_normal_from hbuild h
  refine ⟨face, n0, n1, n2, g1, g2, g3, g4, fun N0 N1 N2 U V S i0 i1 i2 hU hV hUV hS hs hG hS' hGS => ?_⟩
  have sup : ∀ N ∈ [N0, N1, N2], Sup N S := fun N hN => ⟨hS N hN 0, hS N hN 1, hS N hN 2⟩
  have s0 := sup N0 (by simp)
  have s1 := sup N1 (by simp)
  have s2 := sup N2 (by simp)
  have u0 := hs.u_pos
  have u1 := hs.u_le
  have η0 := hs.η_nonneg
  have G0 := hs.pos
  have S0 := s0.nonneg
  have bG : Sup (bary N0 N1 N2 U V) (5 * S) := by
    have w1 : |1 - U - V| ≤ 1 + |U| + |V| := abs_sub_le' (abs_sub_le' (le_of_eq (abs_one (α := K))) le_rfl) le_rfl
    have q : ∀ {a b c : K}, |a| ≤ S → |b| ≤ S → |c| ≤ S → |(1 - U - V) * a + U * b + V * c| ≤ 5 * S := fun ha hb hc => by
      refine (abs_add_le' (abs_add_le' (abs_mul_le w1 ha) (abs_mul_le le_rfl hb)) (abs_mul_le le_rfl hc)).trans ?_
      have := mul_le_mul_of_nonneg_right hUV S0
      linarith
    exact ⟨q s0.x s1.x s2.x, q s0.y s1.y s2.y, q s0.z s1.z s2.z⟩
  have bG1 := bG.one
  set G := bary N0 N1 N2 U V with hGdef
  have hη : 10 * η ≤ u * S := by
    have h1 := hs.η_le
    have h2 := hs.η_le_sq
    have h3 : η ≤ u ^ 2 * (oneNorm G / 2) := by
      rcases le_total (oneNorm G / 2) 1 with h | h
      · refine h2.trans (mul_le_mul_of_nonneg_left ?_ (by positivity))
        rw [pow_two]
        exact mul_le_of_le_one_left G0.le h
      · exact h1.trans (le_mul_of_one_le_right (by positivity) h)
    have h4 : u ^ 2 * (oneNorm G / 2) ≤ u ^ 2 * (15 / 2 * S) := mul_le_mul_of_nonneg_left (by linarith) (by positivity)
    have h5 := mul_le_mul_of_nonneg_right u1 (by positivity : 0 ≤ u * S)
    have h6 : u ^ 2 * (15 / 2 * S) = 15 / 2 * (u * (u * S)) := by ring
    have h7 : 2 ^ 20 * u * (u * S) = 2 ^ 20 * (u * (u * S)) := by ring
    rw [h7] at h5
    have h8 : 0 ≤ u * (u * S) := by positivity
    linarith
  obtain ⟨P, j1, f1⟩ := interp_near hF u0 u1 η0 hs.η_le hη hS' hs.hi_large hU hV hUV i0 i1 i2 s0 s1 s2
  have hGS' : 300 * (u * S) ≤ oneNorm G := by linarith
  have f2 := f1.one
  have P1 : oneNorm P ≤ oneNorm G + 3 * (22 * (u * S)) := oneNorm_near f2 le_rfl
  have P2 : oneNorm G ≤ oneNorm P + 3 * (22 * (u * S)) := oneNorm_near (by rwa [oneNorm_sub_comm]) le_rfl
  have hP : Scale u η hi (oneNorm P) := by
    refine ⟨u0, u1, η0, hs.η_le, hs.η_le_sq.trans (mul_le_mul_of_nonneg_left (pow_le_pow_left₀ G0.le (by linarith) 2) (by positivity)),
      by linarith, ?_, hs.hi_large⟩
    have := pow_le_pow_left₀ (oneNorm_nonneg P) (by linarith : oneNorm P ≤ 2 * oneNorm G) 2
    rw [mul_pow] at this
    linarith
  obtain ⟨n, l, k1, al⟩ := normalize_along hF j1 hP
  have uS0 : 0 ≤ u * S := by positivity
  have uP : u * oneNorm P ≤ 151 / 10 * (u * S) := by
    have h1 : oneNorm P ≤ 151 / 10 * S := by
      have := mul_le_mul_of_nonneg_right u1 S0
      linarith
    have := mul_le_mul_of_nonneg_left h1 u0.le
    linarith
  refine ⟨n, by rw [g5]; exact k1, al.unit, ?_, fun j => ?_⟩
  · have := al.forward u1 f1
    linarith
  · have := al.parallel f1
    have e : 2 * (101 / 100 * (101 / 100 * (u * oneNorm P) + 22 * (u * S))) ≤ 80 * u * S := by linarith
    fin_cases j
    · exact this.x.trans e
    · exact this.y.trans e
    · exact this.z.trans e

/-- **C91**, flat shading.  The normal reported with a hit on a face that shares no vertex with another face is, up to rounding, the unit
vector perpendicular to it, on the side from which its vertices are seen in anticlockwise order: its vector product with
`N = (B - A) × (C - A)` is at most `75 u L²` in each coordinate, and its scalar product with `N` is positive. -/
theorem C91_isolated (u η lo hi : K) (hF : F.Rounds u η hi) (hF' : F.Relative u lo hi) (part : StdPartition)
    (vertices : List (Vec3 (XF F))) (pre post : List (Vec3 Nat)) (face : Vec3 Nat) (mesh : MeshColl (XF F))
    (hmake : MeshColl.make vertices (pre ++ face :: post) = .ok mesh)
    (hxy : face.x ≠ face.y) (hxz : face.x ≠ face.z) (hyz : face.y ≠ face.z)
    (hiso : ∀ g ∈ pre ++ post, ∀ k ∈ [face.x, face.y, face.z], g.x ≠ k ∧ g.y ≠ k ∧ g.z ≠ k)
    (opts : BuildOptions) (nodes : List (Node (XF F) (Triangle (XF F)))) (stats : Statistics)
    (hbuild : build part mesh.toCollection opts [] = .ok (nodes, stats))
    (origin direction : Vec3 (XF F)) (minHit maxHit : XF F) {any : Bool} (o p : Vec3 K) (m : K)
    (ho : IsV origin o) (hdir : IsV direction p) (hmin : minHit.Is m) (hm : 0 ≤ m)
    (hscale : Scale u η hi (|p.x| + |p.y| + |p.z|)) (rayhit out : RayHit (XF F))
    (h : traverse (triIx mesh) nodes (Ray.make origin direction minHit maxHit any) rayhit = .ok (true, out))
    (hid : out.primId = pre.length) (hη : η ≤ u ^ 4) (hi1 : 100 ≤ hi) :
    ∃ a b c d, vertices[face.x]? = some a ∧ vertices[face.y]? = some b ∧ vertices[face.z]? = some c ∧
      IsV (Ray.make origin direction minHit maxHit any).direction d ∧
      ∀ A B C L lo', IsV a A → IsV b B → IsV c C → (∀ V ∈ [A, B, C], 2 * oneNorm (V - o) ≤ L) → Scale3 u η hi lo' L →
        2 * L ^ 2 * m ≤ hi → 66 * L ^ 4 ≤ hi → 1000 * u * (1 + L ^ 2) ≤ |Vec3.dot (Vec3.cross (B - A) (C - A)) d| →
        ∃ n, IsV out.normal n ∧ |Vec3.dot n n - 1| ≤ 11 * u ∧ 0 < Vec3.dot n (Vec3.cross (B - A) (C - A)) ∧
          ∀ j, |(Vec3.cross n (Vec3.cross (B - A) (C - A))).get j| ≤ 75 * u * L ^ 2 := by
  obtain ⟨d, -, hd, hd2, -⟩ := normalize_near hF hdir hscale
  obtain ⟨face', a, b, c, d', g1, g2, g3, g4, g5, g6⟩ := C90_barycentric u η lo hi hF hF' part mesh opts nodes stats hbuild origin
    direction minHit maxHit o p m ho hdir hmin hm hscale rayhit out h
  obtain rfl : d' = d := g5.unique hd
  obtain ⟨face'', n0, n1, n2, q1, q2, q3, q4, q5⟩ := mesh_normal_from hbuild h
  obtain ⟨v1, v2⟩ : mesh.vertices = vertices ∧ mesh.faces = pre ++ face :: post :=
    ⟨(MeshColl.make_ok hmake).1, (MeshColl.make_ok hmake).2.1⟩
  have hf : mesh.faces[out.primId]? = some face := by rw [v2, hid]; simp
  rw [hf] at g1 q1
  cases g1
  cases q1
  rw [v1] at g2 g3 g4
  refine ⟨a, b, c, d', g2, g3, g4, g5, fun A B C L lo' hA hB hC hsize hs hmL hL4 hN => ?_⟩
  obtain ⟨u0, u1, η0, ηu, -, -, -, -, L0, uL0, uLL0, -, uLL1, -, -, -⟩ := hs.toScale.sizes
  have hneg : normalOf A B C = ⟨-(Vec3.cross (B - A) (C - A)).x, -(Vec3.cross (B - A) (C - A)).y, -(Vec3.cross (B - A) (C - A)).z⟩ := by
    ext <;> simp [normalOf, Vec3.cross] <;> ring
  have hdot : |Vec3.dot (normalOf A B C) d'| = |Vec3.dot (Vec3.cross (B - A) (C - A)) d'| := by
    rw [hneg, ← abs_neg]
    congr 1
    simp only [Vec3.dot]
    ring
  have hN' : 1000 * u + 1000 * (u * L ^ 2) ≤ |Vec3.dot (Vec3.cross (B - A) (C - A)) d'| := by
    refine le_trans (le_of_eq ?_) hN
    ring
  obtain ⟨k, U, V, -, -, hU, hV, -, hw⟩ := g6 A B C L lo' hA hB hC hsize hs hmL (by rw [hdot]; linarith)
  -- the coordinates
  have hUV : |U| + |V| ≤ 2 := by
    rw [hdot] at hw
    have w1 := hw U (by simp)
    have w2 := hw V (by simp)
    have w3 := hw (1 - U - V) (by simp)
    set D := |Vec3.dot (Vec3.cross (B - A) (C - A)) d'| with hD
    have D0 : 0 < D := by linarith
    have U0 := abs_nonneg U
    have V0 := abs_nonneg V
    have hX : 8 * u + 60 * u * L ^ 2 * (1 + |U| + |V|) ≤ D * (6 / 100 * (1 + |U| + |V|)) := by
      have r1 : 8 * u ≤ 60 * u * (1 + |U| + |V|) := by
        have s1 : 0 ≤ u * |U| := by positivity
        have s2 : 0 ≤ u * |V| := by positivity
        have s3 : 60 * u * (1 + |U| + |V|) = 60 * u + 60 * (u * |U|) + 60 * (u * |V|) := by ring
        linarith
      have r2 := mul_le_mul_of_nonneg_right hN' (by linarith : 0 ≤ 6 / 100 * (1 + |U| + |V|))
      have r3 : (1000 * u + 1000 * (u * L ^ 2)) * (6 / 100 * (1 + |U| + |V|)) =
        60 * u * (1 + |U| + |V|) + 60 * u * L ^ 2 * (1 + |U| + |V|) := by ring
      linarith
    have hle : ∀ {w : K}, -(8 * u + 60 * u * L ^ 2 * (1 + |U| + |V|)) ≤ D * w → -(6 / 100 * (1 + |U| + |V|)) ≤ w := fun {w} h => by
      by_contra hc
      have := mul_lt_mul_of_pos_left (not_le.1 hc) D0
      linarith
    have r1 := hle w1
    have r2 := hle w2
    have r3 := hle w3
    have a1 : |U| ≤ U + 12 / 100 * (1 + |U| + |V|) := by
      rcases abs_cases U with ⟨e, -⟩ | ⟨e, -⟩ <;> linarith
    have a2 : |V| ≤ V + 12 / 100 * (1 + |U| + |V|) := by
      rcases abs_cases V with ⟨e, -⟩ | ⟨e, -⟩ <;> linarith
    linarith
  -- the stored normals
  have lA := hsize A (by simp)
  have lB := hsize B (by simp)
  have lC := hsize C (by simp)
  have hdiff : ∀ {V W : Vec3 K}, 2 * oneNorm (V - o) ≤ L → 2 * oneNorm (W - o) ≤ L → oneNorm (V - W) ≤ L := fun h1 h2 =>
    (oneNorm_diff (o := o) (a := L / 2) (b := L / 2) (by linarith) (by linarith)).trans_eq (by ring)
  have hunit : Vec3.dot d' d' ≤ 5 / 4 := by
    have := (abs_le.1 hd2).2
    have := hs.toScale.eleven
    linarith
  have hNd : |Vec3.dot (Vec3.cross (B - A) (C - A)) d'| ≤ 9 / 8 * oneNorm (Vec3.cross (B - A) (C - A)) := by
    obtain ⟨dx, dy, dz⟩ := comp_le hunit
    refine (abs_add_le' (abs_add_le' (abs_mul_le le_rfl dx) (abs_mul_le le_rfl dy)) (abs_mul_le le_rfl dz)).trans (le_of_eq ?_)
    unfold oneNorm
    ring
  set N := Vec3.cross (B - A) (C - A) with hNdef
  obtain ⟨w, l, iw, sw⟩ := stored_near hF hs.toScale hη hL4 hA hB hC (hdiff lB lA) (hdiff lC lA) (by linarith) (by linarith)
  obtain ⟨r1, r2, r3⟩ := isolated_stored hmake hxy hxz hyz hiso g2 g3 g4
  rw [r1] at q2
  rw [r2] at q3
  rw [r3] at q4
  cases q2
  cases q3
  cases q4
  -- the interpolation
  have hηu : 10 * η ≤ u * (36 / 100) := by linarith
  obtain ⟨P, j1, f1⟩ := interp_near hF u0 hs.u_le η0 hs.η_le hηu (by linarith) hs.hi_large hU hV hUV iw iw iw sw.sup sw.sup sw.sup
  have hbary : bary w w w U V = w := by unfold bary; ext <;> simp <;> ring
  rw [hbary] at f1
  have f2 := f1.one
  have P1 : oneNorm P ≤ oneNorm w + 3 * (22 * (u * (36 / 100))) := oneNorm_near f2 le_rfl
  have P2 : oneNorm w ≤ oneNorm P + 3 * (22 * (u * (36 / 100))) := oneNorm_near (by rwa [oneNorm_sub_comm]) le_rfl
  have w1 := sw.sup.one
  have w2 := sw.size
  have hP : Scale u η hi (oneNorm P) := by
    refine ⟨u0, hs.u_le, η0, hs.η_le, ?_, by linarith, ?_, hs.hi_large⟩
    · have s1 : u ^ 2 ≤ oneNorm P ^ 2 := pow_le_pow_left₀ u0.le (by linarith) 2
      have s2 := mul_le_mul_of_nonneg_left s1 (by positivity : 0 ≤ u ^ 2)
      have s3 : u ^ 2 * u ^ 2 = u ^ 4 := by ring
      linarith
    · have := pow_le_pow_left₀ (oneNorm_nonneg P) (by linarith : oneNorm P ≤ 12 / 10) 2
      linarith
  obtain ⟨n, l', k1, al⟩ := normalize_along hF j1 hP
  have uP : u * oneNorm P ≤ 109 / 100 * u := by
    have := mul_le_mul_of_nonneg_left (by linarith : oneNorm P ≤ 109 / 100) u0.le
    linarith
  have par := al.parallel f1
  have fwd := al.forward hs.u_le f1
  have ll := sw.low
  have lh := sw.high
  have l0 : 0 < l := by linarith
  have near := sw.near
  refine ⟨n, by rw [q5]; exact k1, al.unit, ?_, fun j => ?_⟩
  · have h1 := (abs_le.1 (al.sup.dot_sup near)).2
    have e1 : Vec3.dot n (Vec3.smul l w - N) = l * Vec3.dot n w - Vec3.dot n N := by
      simp [Vec3.dot]; ring
    rw [e1] at h1
    have h2 := mul_le_mul_of_nonneg_left (by linarith : 1 / 10 ≤ Vec3.dot n w) l0.le
    linarith
  · have c1 := al.sup.cross_sup near
    have e : ∀ j, (Vec3.cross n N).get j = l * (Vec3.cross n w).get j - (Vec3.cross n (Vec3.smul l w - N)).get j := by
      intro j
      fin_cases j <;> simp [Vec3.cross, Vec3.get] <;> ring
    have q : ∀ {x y : K}, |x| ≤ 2 * (101 / 100 * (101 / 100 * (u * oneNorm P) + 22 * (u * (36 / 100)))) →
        |y| ≤ 2 * (101 / 100 * (75 / 10 * (u * L ^ 2))) → |l * x - y| ≤ 75 * u * L ^ 2 := fun {x y} hx hy => by
      have hx' : |x| ≤ 185 / 10 * u := by linarith
      have s1 := abs_mul_le (abs_le.2 ⟨by linarith [sq_nonneg L], lh⟩ : |l| ≤ 31 / 10 * L ^ 2) hx'
      refine (abs_sub_le' s1 hy).trans ?_
      have : 31 / 10 * L ^ 2 * (185 / 10 * u) = 5735 / 100 * (u * L ^ 2) := by ring
      linarith
    rw [e]
    fin_cases j
    · exact q par.x c1.x
    · exact q par.y c1.y
    · exact q par.z c1.z

end

theorem oneNorm_bary_le {N0 N1 N2 : Vec3 ℚ} {U V S : ℚ} (hUV : |U| + |V| ≤ 2) (hS : ∀ N ∈ [N0, N1, N2], ∀ j, |N.get j| ≤ S) :
    oneNorm (bary N0 N1 N2 U V) ≤ 15 * S := by
  have sup : ∀ N ∈ [N0, N1, N2], Sup N S := fun N hN => ⟨hS N hN 0, hS N hN 1, hS N hN 2⟩
  have s0 := sup N0 (by simp)
  have s1 := sup N1 (by simp)
  have s2 := sup N2 (by simp)
  have S0 := s0.nonneg
  have bG : Sup (bary N0 N1 N2 U V) (5 * S) := by
    have w1 : |1 - U - V| ≤ 1 + |U| + |V| := abs_sub_le' (abs_sub_le' (le_of_eq (abs_one (α := ℚ))) le_rfl) le_rfl
    have q : ∀ {a b c : ℚ}, |a| ≤ S → |b| ≤ S → |c| ≤ S → |(1 - U - V) * a + U * b + V * c| ≤ 5 * S := fun ha hb hc => by
      refine (abs_add_le' (abs_add_le' (abs_mul_le w1 ha) (abs_mul_le le_rfl hb)) (abs_mul_le le_rfl hc)).trans ?_
      have := mul_le_mul_of_nonneg_right hUV S0
      linarith
    exact ⟨q s0.x s1.x s2.x, q s0.y s1.y s2.y, q s0.z s1.z s2.z⟩
  exact bG.one.trans_eq (by ring)

/-- **C91** for `double`, interpolation. -/
theorem C91_interpolated_double (part : StdPartition) (mesh : MeshColl Double) (opts : BuildOptions)
    (nodes : List (Node Double (Triangle Double))) (stats : Statistics)
    (hbuild : build part mesh.toCollection opts [] = .ok (nodes, stats)) (ray : Ray Double) (rayhit out : RayHit Double)
    (h : traverse (triIx mesh) nodes ray rayhit = .ok (true, out)) :
    ∃ face n0 n1 n2, mesh.faces[out.primId]? = some face ∧ mesh.vertexNormals[face.x]? = some n0 ∧
      mesh.vertexNormals[face.y]? = some n1 ∧ mesh.vertexNormals[face.z]? = some n2 ∧
      ∀ N0 N1 N2 U V S, IsV n0 N0 → IsV n1 N1 → IsV n2 N2 → out.uv.1.Is U → out.uv.2.Is V → |U| + |V| ≤ 2 →
        (∀ N ∈ [N0, N1, N2], ∀ j, |N.get j| ≤ S) → 1 / 2 ^ 480 ≤ oneNorm (bary N0 N1 N2 U V) → S ≤ 2 ^ 490 →
        300 * (1 / 2 ^ 53) * S ≤ oneNorm (bary N0 N1 N2 U V) →
        ∃ n, IsV out.normal n ∧ |Vec3.dot n n - 1| ≤ 11 * (1 / 2 ^ 53) ∧ 0 < Vec3.dot n (bary N0 N1 N2 U V) ∧
          ∀ j, |(Vec3.cross n (bary N0 N1 N2 U V)).get j| ≤ 80 * (1 / 2 ^ 53) * S := by
  obtain ⟨face, n0, n1, n2, g1, g2, g3, g4, g5⟩ := C91_interpolated _ _ _ rounds_double part mesh opts nodes stats hbuild ray rayhit out h
  refine ⟨face, n0, n1, n2, g1, g2, g3, g4, fun N0 N1 N2 U V S i0 i1 i2 hU hV hUV hS hG hS' hGS => ?_⟩
  have hG' : oneNorm (bary N0 N1 N2 U V) ≤ 15 * S := oneNorm_bary_le hUV hS
  have e0 : (0 : ℚ) < 1 / 2 ^ 480 := by decide +kernel
  refine g5 N0 N1 N2 U V S i0 i1 i2 hU hV hUV hS (scale_double ?_ ?_) ?_ ?_ hGS
  · exact (by decide +kernel : 1 / 2 ^ 484 ≤ (1 / 2 ^ 480 : ℚ) / 2).trans (div_le_div_of_nonneg_right hG (by norm_num))
  · exact (div_le_div_of_nonneg_right (hG'.trans (mul_le_mul_of_nonneg_left hS' (by norm_num))) (by norm_num)).trans (by decide +kernel)
  · exact (mul_le_mul_of_nonneg_left (pow_le_pow_left₀ (e0.le.trans hG)
      (hG'.trans (mul_le_mul_of_nonneg_left hS' (by norm_num))) 2) (by norm_num)).trans (by decide +kernel)
  · exact (mul_le_mul_of_nonneg_left hS' (by norm_num)).trans (by decide +kernel)

/-- **C91** for `double`, flat shading. -/
theorem C91_isolated_double (part : StdPartition) (vertices : List (Vec3 Double)) (pre post : List (Vec3 Nat)) (face : Vec3 Nat)
    (mesh : MeshColl Double) (hmake : MeshColl.make vertices (pre ++ face :: post) = .ok mesh)
    (hxy : face.x ≠ face.y) (hxz : face.x ≠ face.z) (hyz : face.y ≠ face.z)
    (hiso : ∀ g ∈ pre ++ post, ∀ k ∈ [face.x, face.y, face.z], g.x ≠ k ∧ g.y ≠ k ∧ g.z ≠ k)
    (opts : BuildOptions) (nodes : List (Node Double (Triangle Double))) (stats : Statistics)
    (hbuild : build part mesh.toCollection opts [] = .ok (nodes, stats))
    (origin direction : Vec3 Double) (minHit maxHit : Double) {any : Bool} (o p : Vec3 ℚ) (m : ℚ)
    (ho : IsV origin o) (hdir : IsV direction p) (hmin : minHit.Is m) (hm : 0 ≤ m)
    (hp1 : 1 / 2 ^ 484 ≤ |p.x| + |p.y| + |p.z|) (hp2 : |p.x| + |p.y| + |p.z| ≤ 2 ^ 500) (rayhit out : RayHit Double)
    (h : traverse (triIx mesh) nodes (Ray.make origin direction minHit maxHit any) rayhit = .ok (true, out))
    (hid : out.primId = pre.length) :
    ∃ a b c d, vertices[face.x]? = some a ∧ vertices[face.y]? = some b ∧ vertices[face.z]? = some c ∧
      IsV (Ray.make origin direction minHit maxHit any).direction d ∧
      ∀ A B C L, IsV a A → IsV b B → IsV c C → (∀ V ∈ [A, B, C], 2 * oneNorm (V - o) ≤ L) → 1 / 2 ^ 100 ≤ L → L ≤ 2 ^ 100 →
        2 * L ^ 2 * m ≤ ((2 - 1 / 2 ^ 52) * 2 ^ 1023) → 1000 * (1 / 2 ^ 53) * (1 + L ^ 2) ≤ |Vec3.dot (Vec3.cross (B - A) (C - A)) d| →
        ∃ n, IsV out.normal n ∧ |Vec3.dot n n - 1| ≤ 11 * (1 / 2 ^ 53) ∧ 0 < Vec3.dot n (Vec3.cross (B - A) (C - A)) ∧
          ∀ j, |(Vec3.cross n (Vec3.cross (B - A) (C - A))).get j| ≤ 75 * (1 / 2 ^ 53) * L ^ 2 := by
  obtain ⟨a, b, c, d, g2, g3, g4, g5, g6⟩ := C91_isolated _ _ _ _ rounds_double relative_double part vertices pre post face mesh hmake
    hxy hxz hyz hiso opts nodes stats hbuild origin direction minHit maxHit o p m ho hdir hmin hm (scale_double hp1 hp2) rayhit out h hid
    (by decide +kernel) (by decide +kernel)
  refine ⟨a, b, c, d, g2, g3, g4, g5, fun A B C L hA hB hC hsz hL1 hL2 hmL hN =>
    g6 A B C L (1 / 2 ^ 700) hA hB hC hsz (scale3_double hL1 hL2) hmL ?_ hN⟩
  have e0 : (0 : ℚ) < 1 / 2 ^ 100 := by decide +kernel
  exact (mul_le_mul_of_nonneg_left (pow_le_pow_left₀ (e0.le.trans hL1) hL2 4) (by norm_num)).trans (by decide +kernel)

/-- **C91** for `float`, interpolation. -/
theorem C91_interpolated_float (part : StdPartition) (mesh : MeshColl Single) (opts : BuildOptions)
    (nodes : List (Node Single (Triangle Single))) (stats : Statistics)
    (hbuild : build part mesh.toCollection opts [] = .ok (nodes, stats)) (ray : Ray Single) (rayhit out : RayHit Single)
    (h : traverse (triIx mesh) nodes ray rayhit = .ok (true, out)) :
    ∃ face n0 n1 n2, mesh.faces[out.primId]? = some face ∧ mesh.vertexNormals[face.x]? = some n0 ∧
      mesh.vertexNormals[face.y]? = some n1 ∧ mesh.vertexNormals[face.z]? = some n2 ∧
      ∀ N0 N1 N2 U V S, IsV n0 N0 → IsV n1 N1 → IsV n2 N2 → out.uv.1.Is U → out.uv.2.Is V → |U| + |V| ≤ 2 →
        (∀ N ∈ [N0, N1, N2], ∀ j, |N.get j| ≤ S) → 1 / 2 ^ 50 ≤ oneNorm (bary N0 N1 N2 U V) → S ≤ 2 ^ 54 →
        300 * (1 / 2 ^ 24) * S ≤ oneNorm (bary N0 N1 N2 U V) →
        ∃ n, IsV out.normal n ∧ |Vec3.dot n n - 1| ≤ 11 * (1 / 2 ^ 24) ∧ 0 < Vec3.dot n (bary N0 N1 N2 U V) ∧
          ∀ j, |(Vec3.cross n (bary N0 N1 N2 U V)).get j| ≤ 80 * (1 / 2 ^ 24) * S := by
  obtain ⟨face, n0, n1, n2, g1, g2, g3, g4, g5⟩ := C91_interpolated _ _ _ rounds_float part mesh opts nodes stats hbuild ray rayhit out h
  refine ⟨face, n0, n1, n2, g1, g2, g3, g4, fun N0 N1 N2 U V S i0 i1 i2 hU hV hUV hS hG hS' hGS => ?_⟩
  have hG' : oneNorm (bary N0 N1 N2 U V) ≤ 15 * S := oneNorm_bary_le hUV hS
  have e0 : (0 : ℚ) < 1 / 2 ^ 50 := by decide +kernel
  refine g5 N0 N1 N2 U V S i0 i1 i2 hU hV hUV hS (scale_float ?_ ?_) ?_ ?_ hGS
  · exact (by decide +kernel : 1 / 2 ^ 51 ≤ (1 / 2 ^ 50 : ℚ) / 2).trans (div_le_div_of_nonneg_right hG (by norm_num))
  · exact (div_le_div_of_nonneg_right (hG'.trans (mul_le_mul_of_nonneg_left hS' (by norm_num))) (by norm_num)).trans (by decide +kernel)
  · exact (mul_le_mul_of_nonneg_left (pow_le_pow_left₀ (e0.le.trans hG)
      (hG'.trans (mul_le_mul_of_nonneg_left hS' (by norm_num))) 2) (by norm_num)).trans (by decide +kernel)
  · exact (mul_le_mul_of_nonneg_left hS' (by norm_num)).trans (by decide +kernel)

/-- **C91** for `float`, flat shading. -/
theorem C91_isolated_float (part : StdPartition) (vertices : List (Vec3 Single)) (pre post : List (Vec3 Nat)) (face : Vec3 Nat)
    (mesh : MeshColl Single) (hmake : MeshColl.make vertices (pre ++ face :: post) = .ok mesh)
    (hxy : face.x ≠ face.y) (hxz : face.x ≠ face.z) (hyz : face.y ≠ face.z)
    (hiso : ∀ g ∈ pre ++ post, ∀ k ∈ [face.x, face.y, face.z], g.x ≠ k ∧ g.y ≠ k ∧ g.z ≠ k)
    (opts : BuildOptions) (nodes : List (Node Single (Triangle Single))) (stats : Statistics)
    (hbuild : build part mesh.toCollection opts [] = .ok (nodes, stats))
    (origin direction : Vec3 Single) (minHit maxHit : Single) {any : Bool} (o p : Vec3 ℚ) (m : ℚ)
    (ho : IsV origin o) (hdir : IsV direction p) (hmin : minHit.Is m) (hm : 0 ≤ m)
    (hp1 : 1 / 2 ^ 51 ≤ |p.x| + |p.y| + |p.z|) (hp2 : |p.x| + |p.y| + |p.z| ≤ 2 ^ 60) (rayhit out : RayHit Single)
    (h : traverse (triIx mesh) nodes (Ray.make origin direction minHit maxHit any) rayhit = .ok (true, out))
    (hid : out.primId = pre.length) :
    ∃ a b c d, vertices[face.x]? = some a ∧ vertices[face.y]? = some b ∧ vertices[face.z]? = some c ∧
      IsV (Ray.make origin direction minHit maxHit any).direction d ∧
      ∀ A B C L, IsV a A → IsV b B → IsV c C → (∀ V ∈ [A, B, C], 2 * oneNorm (V - o) ≤ L) → 1 / 2 ^ 20 ≤ L → L ≤ 2 ^ 15 →
        2 * L ^ 2 * m ≤ ((2 - 1 / 2 ^ 23) * 2 ^ 127) → 1000 * (1 / 2 ^ 24) * (1 + L ^ 2) ≤ |Vec3.dot (Vec3.cross (B - A) (C - A)) d| →
        ∃ n, IsV out.normal n ∧ |Vec3.dot n n - 1| ≤ 11 * (1 / 2 ^ 24) ∧ 0 < Vec3.dot n (Vec3.cross (B - A) (C - A)) ∧
          ∀ j, |(Vec3.cross n (Vec3.cross (B - A) (C - A))).get j| ≤ 75 * (1 / 2 ^ 24) * L ^ 2 := by
  obtain ⟨a, b, c, d, g2, g3, g4, g5, g6⟩ := C91_isolated _ _ _ _ rounds_float relative_float part vertices pre post face mesh hmake
    hxy hxz hyz hiso opts nodes stats hbuild origin direction minHit maxHit o p m ho hdir hmin hm (scale_float hp1 hp2) rayhit out h hid
    (by decide +kernel) (by decide +kernel)
  refine ⟨a, b, c, d, g2, g3, g4, g5, fun A B C L hA hB hC hsz hL1 hL2 hmL hN =>
    g6 A B C L (1 / 2 ^ 80) hA hB hC hsz (scale3_float hL1 hL2) hmL ?_ hN⟩
  have e0 : (0 : ℚ) < 1 / 2 ^ 20 := by decide +kernel
  exact (mul_le_mul_of_nonneg_left (pow_le_pow_left₀ (e0.le.trans hL1) hL2 4) (by norm_num)).trans (by decide +kernel)

/-! ### Examples -/

/-- two faces without common vertices, the second one tilted -/
def tiltVertices : List (Vec3 Double) :=
  [dvec 0 0 9, dvec 1 0 9, dvec 0 1 9, dvec 0 0 0, dvec 7 0 1, dvec 7 6 3]

def tiltMesh : MeshColl Double := (MeshColl.make tiltVertices [⟨0, 1, 2⟩, ⟨3, 4, 5⟩]).toOption.getD ⟨[], [], [], [], [], []⟩

theorem tiltMesh_make : MeshColl.make tiltVertices ([⟨0, 1, 2⟩] ++ ⟨3, 4, 5⟩ :: []) = .ok tiltMesh := by
  have h : evalOk (MeshColl.make tiltVertices [⟨0, 1, 2⟩, ⟨3, 4, 5⟩]) (fun _ => true) = true := by decide +kernel
  unfold tiltMesh
  show MeshColl.make tiltVertices [⟨0, 1, 2⟩, ⟨3, 4, 5⟩] = _
  cases hm : MeshColl.make tiltVertices [⟨0, 1, 2⟩, ⟨3, 4, 5⟩] with
  | error e => rw [hm] at h; simp [evalOk] at h
  | ok m => rfl

/-- the ray through `(4, 1)` hits the tilted face -/
example : evalOk (do
      let (nodes, _) ← build stablePartition tiltMesh.toCollection BuildOptions.default []
      traverse (triIx tiltMesh) nodes (Ray.make (dvec 4 1 (-1)) (dvec 0 0 1) (dbl 0) (dbl 100) false) RayHit.fresh)
    (fun r => r.1 && r.2.primId == 1) = true := by decide +kernel

/-- The normal that it reports is that of the tilted face, `(-6, -14, 42)` up to its length. -/
example (part : StdPartition) (opts : BuildOptions) (nodes : List (Node Double (Triangle Double))) (stats : Statistics)
    (hbuild : build part tiltMesh.toCollection opts [] = .ok (nodes, stats)) (out : RayHit Double)
    (h : traverse (triIx tiltMesh) nodes (Ray.make (dvec 4 1 (-1)) (dvec 0 0 1) (dbl 0) (dbl 100) false) RayHit.fresh = .ok (true, out))
    (hid : out.primId = 1) :
    ∃ n, IsV out.normal n ∧ |Vec3.dot n n - 1| ≤ 11 * (1 / 2 ^ 53) ∧ 0 < Vec3.dot n (⟨-6, -14, 42⟩ : Vec3 ℚ) ∧
      ∀ j, |(Vec3.cross n (⟨-6, -14, 42⟩ : Vec3 ℚ)).get j| ≤ 1 / 10 ^ 10 := by
  obtain ⟨a, b, c, d, g2, g3, g4, g5, g6⟩ := C91_isolated_double part tiltVertices [⟨0, 1, 2⟩] [] ⟨3, 4, 5⟩ tiltMesh tiltMesh_make
    (by decide) (by decide) (by decide) (by decide) opts nodes stats hbuild _ _ (dbl 0) _ ⟨4, 1, -1⟩ ⟨0, 0, 1⟩ 0
    (dvec_is (sx := false) (sy := false) (sz := true) (by decide +kernel))
    (dvec_is (sx := false) (sy := false) (sz := false) (by decide +kernel)) ⟨false, by decide +kernel⟩ le_rfl (by decide +kernel)
    (by decide +kernel) RayHit.fresh out h hid
  have e : (Ray.make (dvec 4 1 (-1)) (dvec 0 0 1) (dbl 0) (dbl 100) false).direction = ⟨.fin 0 false, .fin 0 false, .fin 1 false⟩ := by
    decide +kernel
  obtain rfl : d = ⟨0, 0, 1⟩ := g5.unique (by rw [e]; exact ⟨⟨_, rfl⟩, ⟨_, rfl⟩, ⟨_, rfl⟩⟩)
  cases g2
  cases g3
  cases g4
  obtain ⟨n, k1, k2, k3, k4⟩ := g6 ⟨0, 0, 0⟩ ⟨7, 0, 1⟩ ⟨7, 6, 3⟩ 30
    (dvec_is (sx := false) (sy := false) (sz := false) (by decide +kernel))
    (dvec_is (sx := false) (sy := false) (sz := false) (by decide +kernel))
    (dvec_is (sx := false) (sy := false) (sz := false) (by decide +kernel)) (by decide +kernel) (by decide +kernel)
    (by decide +kernel) (by decide +kernel) (by decide +kernel)
  have e2 : Vec3.cross ((⟨7, 0, 1⟩ : Vec3 ℚ) - ⟨0, 0, 0⟩) (⟨7, 6, 3⟩ - ⟨0, 0, 0⟩) = ⟨-6, -14, 42⟩ := by decide +kernel
  rw [e2] at k3 k4
  exact ⟨n, k1, k2, k3, fun j => (k4 j).trans (by norm_num)⟩

/-- a hit on the rectangle of two faces, whose vertices are shared: weights between 0 and 1 … -/
example : evalOk (do
      let (nodes, _) ← build stablePartition rectMesh.toCollection BuildOptions.default []
      traverse (triIx rectMesh) nodes (Ray.make (dvec 2 1 (-1)) (dvec 0 0 1) (dbl 0) (dbl 100) false) RayHit.fresh)
    (fun r => r.1 && r.2.primId == 0 && ge r.2.uv.1 (dbl 0) && ge r.2.uv.2 (dbl 0) && lt r.2.uv.1 (dbl (1/2)) &&
      lt r.2.uv.2 (dbl (1/2))) = true := by decide +kernel

/-- … and a normal along the `z`-axis -/
example (part : StdPartition) (opts : BuildOptions) (nodes : List (Node Double (Triangle Double))) (stats : Statistics)
    (hbuild : build part rectMesh.toCollection opts [] = .ok (nodes, stats)) (ray : Ray Double) (out : RayHit Double)
    (h : traverse (triIx rectMesh) nodes ray RayHit.fresh = .ok (true, out))
    (hid : out.primId = 0) (U V : ℚ) (hU : out.uv.1.Is U) (hV : out.uv.2.Is V) (hU0 : 0 ≤ U) (hV0 : 0 ≤ V) (hU1 : U < 1 / 2)
    (hV1 : V < 1 / 2) :
    ∃ n G, IsV out.normal n ∧ |Vec3.dot n n - 1| ≤ 11 * (1 / 2 ^ 53) ∧ 0 < Vec3.dot n (⟨0, 0, G⟩ : Vec3 ℚ) ∧ 1 / 4 < G ∧
      ∀ j, |(Vec3.cross n (⟨0, 0, G⟩ : Vec3 ℚ)).get j| ≤ 80 * (1 / 2 ^ 53) * 1 := by
  obtain ⟨face, n0, n1, n2, g1, g2, g3, g4, g5⟩ := C91_interpolated_double part rectMesh opts nodes stats hbuild ray _ out h
  have f0 : rectMesh.faces[0]? = some ⟨0, 1, 2⟩ := by decide +kernel
  rw [hid, f0] at g1
  cases g1
  have v0 : rectMesh.vertexNormals[0]? = some ⟨.fin 0 false, .fin 0 false, .fin (6004799503160661 / 9007199254740992) false⟩ := by
    decide +kernel
  have v1 : rectMesh.vertexNormals[1]? = some ⟨.fin 0 false, .fin 0 false, .fin (6004799503160661 / 18014398509481984) false⟩ := by
    decide +kernel
  have v2 : rectMesh.vertexNormals[2]? = some ⟨.fin 0 false, .fin 0 false, .fin (6004799503160661 / 9007199254740992) false⟩ := by
    decide +kernel
  rw [v0] at g2
  rw [v1] at g3
  rw [v2] at g4
  cases g2
  cases g3
  cases g4
  set q : ℚ := 6004799503160661 / 18014398509481984 with hq
  clear_value q
  have q1 : 1 / 4 < q := by rw [hq]; norm_num
  have q2 : q < 1 / 2 := by rw [hq]; norm_num
  have hb : bary (⟨0, 0, 6004799503160661 / 9007199254740992⟩ : Vec3 ℚ) ⟨0, 0, q⟩ ⟨0, 0, 6004799503160661 / 9007199254740992⟩ U V =
      ⟨0, 0, (2 - U) * q⟩ := by
    unfold bary
    ext <;> simp [hq] <;> ring
  have hG : 1 / 4 < (2 - U) * q := by
    have : 0 ≤ (1 / 2 - U) * q := mul_nonneg (by linarith only [hU1]) (by linarith only [q1])
    have e : (2 - U) * q = 3 / 2 * q + (1 / 2 - U) * q := by ring
    rw [e]
    linarith only [this, q1]
  have hone : oneNorm (⟨0, 0, (2 - U) * q⟩ : Vec3 ℚ) = (2 - U) * q := by
    simp only [oneNorm, abs_zero, zero_add]
    exact abs_of_pos (lt_trans (by norm_num) hG)
  obtain ⟨n, k1, k2, k3, k4⟩ := g5 ⟨0, 0, 6004799503160661 / 9007199254740992⟩ ⟨0, 0, q⟩ ⟨0, 0, 6004799503160661 / 9007199254740992⟩ U V 1
    ⟨⟨_, rfl⟩, ⟨_, rfl⟩, ⟨_, rfl⟩⟩ ⟨⟨_, rfl⟩, ⟨_, rfl⟩, ⟨_, rfl⟩⟩ ⟨⟨_, rfl⟩, ⟨_, rfl⟩, ⟨_, rfl⟩⟩ hU hV
    (by rw [abs_of_nonneg hU0, abs_of_nonneg hV0]; linarith only [hU1, hV1]) (by subst hq; decide +kernel)
    (by
      rw [hb, hone]
      have : (1 : ℚ) / 2 ^ 480 ≤ 1 / 4 := by decide +kernel
      linarith only [this, hG])
    (by decide +kernel) (by
      rw [hb, hone]
      have : 300 * (1 / 2 ^ 53) * (1 : ℚ) ≤ 1 / 4 := by decide +kernel
      linarith only [this, hG])
  rw [hb] at k3 k4
  exact ⟨n, _, k1, k2, k3, hG, k4⟩

end Blazert
