/- C90: barycentric coordinates of mesh hits, with rounding. -/
import Verif.Props.TriRound
import Verif.Proofs.TriUv

set_option autoImplicit false

namespace Blazert
open Scalar

section
variable {K : Type} [Field K] [LinearOrder K] [IsStrictOrderedRing K] [FloorRing K] {F : Fmt K}

theorem triPost_uv {T : Type} [Scalar T] {c : MeshColl T} {s : TriI T} {temp rh : RayHit T} (h : triPost c s temp = .ok rh) :
    rh.uv = s.uv := by
  unfold triPost at h
  rw [run_bind_eq_ok] at h
  obtain ⟨x, hx, h⟩ := h
  rw [run_bind_eq_ok] at h
  obtain ⟨y, hy, h⟩ := h
  rw [run_bind_eq_ok] at h
  obtain ⟨z, hz, h⟩ := h
  rw [run_bind_eq_ok] at h
  obtain ⟨w, hw, h⟩ := h
  simp only [run_pure, Except.ok.injEq] at h
  subst h
  rfl

/-- **C90**, general.  In any format that rounds: the coordinates `(U, V)` reported with a hit on a mesh (with or without `any_hit`) are
barycentric coordinates of the point at the reported distance, up to rounding.  With `N` the vector perpendicular to the face (twice its
area long) and `L` at least twice the distance of any of its vertices from the origin: the point `(1 - U - V) A + U B + V C` differs from
the point at the reported distance `h` by at most `14 u L² (h + (3 + |U| + |V|) L) / |N · d|` in each coordinate; and none of `U`, `V`,
`1 - U - V` is below `- (8 u + 60 u L² (1 + |U| + |V|)) / |N · d|`.  Rays within `11 u L²` of being parallel to the face are excluded. -/
theorem C90_barycentric (u η lo hi : K) (hF : F.Rounds u η hi) (hF' : F.Relative u lo hi) (part : StdPartition)
    (mesh : MeshColl (XF F)) (opts : BuildOptions) (nodes : List (Node (XF F) (Triangle (XF F)))) (stats : Statistics)
    (hbuild : build part mesh.toCollection opts [] = .ok (nodes, stats))
    (origin direction : Vec3 (XF F)) (minHit maxHit : XF F) {any : Bool} (o p : Vec3 K) (m : K)
    (ho : IsV origin o) (hdir : IsV direction p) (hmin : minHit.Is m) (hm : 0 ≤ m)
    (hscale : Scale u η hi (|p.x| + |p.y| + |p.z|)) (rayhit out : RayHit (XF F))
    (h : traverse (triIx mesh) nodes (Ray.make origin direction minHit maxHit any) rayhit = .ok (true, out)) :
    ∃ face a b c d, mesh.faces[out.primId]? = some face ∧ mesh.vertices[face.x]? = some a ∧
      mesh.vertices[face.y]? = some b ∧ mesh.vertices[face.z]? = some c ∧
      IsV (Ray.make origin direction minHit maxHit any).direction d ∧
      ∀ A B C L lo', IsV a A → IsV b B → IsV c C → (∀ V ∈ [A, B, C], 2 * oneNorm (V - o) ≤ L) → Scale3 u η hi lo' L →
        2 * L ^ 2 * m ≤ hi → 11 * u * L ^ 2 ≤ |Vec3.dot (normalOf A B C) d| →
        ∃ h U V, out.hitDistance.Is h ∧ 0 ≤ h ∧ out.uv.1.Is U ∧ out.uv.2.Is V ∧
          (∀ j, |Vec3.dot (normalOf A B C) d| * |(along o d h).get j - ((1 - U - V) * A.get j + U * B.get j + V * C.get j)| ≤
            14 * u * L ^ 2 * (h + (3 + |U| + |V|) * L)) ∧
          ∀ w ∈ [U, V, 1 - U - V], -(8 * u + 60 * u * L ^ 2 * (1 + |U| + |V|)) ≤ |Vec3.dot (normalOf A B C) d| * w := by
  obtain ⟨d, n, h1, h2, -⟩ := normalize_near hF hdir hscale
  have hquiet := tri_quiet mesh (Ray.make origin direction minHit maxHit any)
  obtain ⟨ps, vs, rest, e1, e2, ⟨e3, e4, -⟩⟩ := traverse_tests hbuild hquiet h
  have e4 := e4 rfl
  set ray := Ray.make origin direction minHit maxHit any with hray
  obtain ⟨f1, f2⟩ := testAll_last hquiet (Inv := fun s => s.minHit = minHit)
    (fun s q hs => (triIntersect_minHit s q ray).trans hs) vs ((triIx mesh).prepare ray) rfl
  rw [← scan_eq_testAll] at f1 f2
  rcases f2 with f2 | ⟨q, hq, s', f3, f4⟩
  · rw [scanHit, f2, hquiet.start, XF.lt_irrefl] at e3
    cases e3
  have hqps : q ∈ ps := e2.subset (by simp [hq])
  obtain ⟨i, hi', hiq⟩ := mapM_mem_of_out e1 hqps
  obtain ⟨face, a, b, c, g1, g2, g3, g4, g5⟩ := MeshColl.prim_ok hiq
  change triIntersect s' q ray = _ at f4
  have hacc : (triIntersect s' q ray).2 = true := by rw [f4]
  have hst : scan (triIx mesh) ray vs = (triIntersect s' q ray).1 := by rw [f4]
  obtain ⟨k1, k2⟩ := triPost_fields e4
  have k3 := triPost_uv e4
  have hid : (triIntersect s' q ray).1.primId = i := by
    have hgen : (triIntersect s' q ray).2 = true → (triIntersect s' q ray).1.primId = q.primId := by
      unfold triIntersect
      simp only
      intro h
      split_ifs at h ⊢
      rfl
    rw [hgen hacc, g5]; rfl
  rw [hst] at k1 k2 k3
  rw [k1, k2, k3, hid]
  refine ⟨face, a, b, c, d, g1, g2, g3, g4, h1, fun A B C L lo' hA hB hC hsize hs hmL hN => ?_⟩
  have u0 := hs.u_pos
  have L0 := hs.pos
  have lA := hsize A (by simp)
  have lB := hsize B (by simp)
  have lC := hsize C (by simp)
  have n0 := oneNorm_nonneg (A - o)
  have hdiff : ∀ {V W : Vec3 K}, 2 * oneNorm (V - o) ≤ L → 2 * oneNorm (W - o) ≤ L → oneNorm (V - W) ≤ L := fun h1 h2 =>
    (oneNorm_diff (o := o) (a := L / 2) (b := L / 2) (by linarith) (by linarith)).trans_eq (by ring)
  have hw : TriWithin o L q A B C := ⟨⟨a, b, c, hA, hB, hC, by rw [g5]; rfl⟩, hdiff lA lB, hdiff lC lA, by linarith⟩
  have hunit : Vec3.dot d d ≤ 5 / 4 := by
    have := (abs_le.1 h2).2
    have := hs.toScale.eleven
    linarith
  have uLL0 : 0 < u * L ^ 2 := by positivity
  have hN : 11 * (u * L ^ 2) ≤ |Vec3.dot (normalOf A B C) d| := by linarith
  obtain ⟨s, s1, s2, s3, s4, D, d1, d2, d3, d4⟩ := tri_hit_near hF hF' hs hw ho h1 hunit (f3 ▸ hmin) hm hmL hacc
  have hs1 : |s| = 1 := by rcases s1 with h | h <;> simp [h]
  have hsD : |Vec3.dot (normalOf A B C) d| = s * Vec3.dot (normalOf A B C) d := by
    have a1 := (abs_le.1 d3).2
    have a2 : -(10 * (u * L ^ 2)) < s * Vec3.dot (normalOf A B C) d := by linarith
    have a3 : |s * Vec3.dot (normalOf A B C) d| = |Vec3.dot (normalOf A B C) d| := by rw [abs_mul, hs1, one_mul]
    rcases abs_cases (s * Vec3.dot (normalOf A B C) d) with ⟨c1, c2⟩ | ⟨c1, c2⟩
    · rw [← a3, c1]
    · rw [← a3, c1] at hN
      linarith
  have hD : lo' ≤ |D| := by
    have a1 := hs.lo_le
    have a2 : |Vec3.dot (normalOf A B C) d| ≤ |D| + 10 * (u * L ^ 2) := by
      rw [← mul_sub, abs_mul, hs1, one_mul] at d3
      have := abs_sub_abs_le_abs_sub (Vec3.dot (normalOf A B C) d) D
      rw [abs_sub_comm] at this
      linarith
    linarith
  obtain ⟨k, k4, k5, k6, -⟩ := d4 hD
  obtain ⟨U, V, x1, x2, x3, x4⟩ := tri_uv_near hF hF' hs hw ho h1 hunit (f3 ▸ hmin) hacc hN
  refine ⟨k, U, V, k4, k5, x1, x2, fun j => ?_, ?_⟩
  · rw [← abs_mul, uv_cramer]
    have c1 : |k * Vec3.dot (normalOf A B C) d - Vec3.dot (normalOf A B C) (A - o)| ≤ 12 * (u * L ^ 2) * (L + k) := by
      rw [← one_mul (|_|), ← hs1, ← abs_mul, mul_sub]
      convert k6 using 3
      ring
    obtain ⟨dx, dy, dz⟩ := comp_le hunit
    have dj : |d.get j| ≤ 9 / 8 := by fin_cases j <;> assumption
    have oneB : |B.get j - A.get j| ≤ L := by
      have hb := Sup.of_one (hdiff lB lA)
      fin_cases j
      · exact hb.x
      · exact hb.y
      · exact hb.z
    have oneC : |C.get j - A.get j| ≤ L := by
      have hb := Sup.of_one (hdiff lC lA)
      fin_cases j
      · exact hb.x
      · exact hb.y
      · exact hb.z
    have t1 : |(k * Vec3.dot (normalOf A B C) d - Vec3.dot (normalOf A B C) (A - o)) * d.get j| ≤
        12 * (u * L ^ 2) * (L + k) * (9 / 8) := by
      rw [abs_mul]; exact mul_le_mul c1 dj (abs_nonneg _) (by positivity)
    have t2 : |(U * Vec3.dot (normalOf A B C) d - edgeSide o d A C) * (B.get j - A.get j)| ≤ 12 * (u * L ^ 2) * (1 + |U|) * L := by
      rw [abs_mul]; exact mul_le_mul x3 oneB (abs_nonneg _) (by positivity)
    have t3 : |(V * Vec3.dot (normalOf A B C) d - edgeSide o d B A) * (C.get j - A.get j)| ≤ 12 * (u * L ^ 2) * (1 + |V|) * L := by
      rw [abs_mul]; exact mul_le_mul x4 oneC (abs_nonneg _) (by positivity)
    refine (abs_sub_le' (abs_sub_le' t1 t2) t3).trans ?_
    have p1 : 0 ≤ u * L ^ 2 * k := by positivity
    have p2 : 0 ≤ u * L ^ 2 * L := by positivity
    have p3 : 0 ≤ u * L ^ 2 * L * |U| := by positivity
    have p4 : 0 ≤ u * L ^ 2 * L * |V| := by positivity
    have e : 14 * u * L ^ 2 * (k + (3 + |U| + |V|) * L) = 14 * (u * L ^ 2 * k) + 42 * (u * L ^ 2 * L) + 14 * (u * L ^ 2 * L * |U|) +
      14 * (u * L ^ 2 * L * |V|) := by ring
    have e' : 12 * (u * L ^ 2) * (L + k) * (9 / 8) + 12 * (u * L ^ 2) * (1 + |U|) * L + 12 * (u * L ^ 2) * (1 + |V|) * L =
      27 / 2 * (u * L ^ 2 * k) + (27 / 2 + 24) * (u * L ^ 2 * L) + 12 * (u * L ^ 2 * L * |U|) + 12 * (u * L ^ 2 * L * |V|) := by ring
    rw [e, e']
    linarith
  · have y3 := abs_le.1 (abs_sign_mul hs1 x3)
    have y4 := abs_le.1 (abs_sign_mul hs1 x4)
    have hsum := congrArg (s * ·) (side_sum o d A B C)
    simp only [mul_add] at hsum
    have e : 8 * u + 60 * u * L ^ 2 * (1 + |U| + |V|) = 8 * u + 60 * (u * L ^ 2) + 60 * (u * L ^ 2 * |U|) + 60 * (u * L ^ 2 * |V|) := by ring
    have eU : 12 * (u * L ^ 2) * (1 + |U|) = 12 * (u * L ^ 2) + 12 * (u * L ^ 2 * |U|) := by ring
    have eV : 12 * (u * L ^ 2) * (1 + |V|) = 12 * (u * L ^ 2) + 12 * (u * L ^ 2 * |V|) := by ring
    have p3 : 0 ≤ u * L ^ 2 * |U| := by positivity
    have p4 : 0 ≤ u * L ^ 2 * |V| := by positivity
    have mU : s * (U * Vec3.dot (normalOf A B C) d) = s * Vec3.dot (normalOf A B C) d * U := by ring
    have mV : s * (V * Vec3.dot (normalOf A B C) d) = s * Vec3.dot (normalOf A B C) d * V := by ring
    rw [eU, mU] at y3
    rw [eV, mV] at y4
    intro w hw
    rw [e, hsD]
    simp only [List.mem_cons, List.not_mem_nil, or_false] at hw
    rcases hw with rfl | rfl | rfl
    · linarith [y3.1]
    · linarith [y4.1]
    · have m1 : s * Vec3.dot (normalOf A B C) d * (1 - U - V) =
        s * Vec3.dot (normalOf A B C) d - s * Vec3.dot (normalOf A B C) d * U - s * Vec3.dot (normalOf A B C) d * V := by ring
      rw [m1]
      linarith [y3.2, y4.2]

end

/-- **C90** for `double`. -/
theorem C90_double (part : StdPartition) (mesh : MeshColl Double) (opts : BuildOptions) (nodes : List (Node Double (Triangle Double)))
    (stats : Statistics) (hbuild : build part mesh.toCollection opts [] = .ok (nodes, stats))
    (origin direction : Vec3 Double) (minHit maxHit : Double) {any : Bool} (o p : Vec3 ℚ) (m : ℚ)
    (ho : IsV origin o) (hdir : IsV direction p) (hmin : minHit.Is m) (hm : 0 ≤ m)
    (hp1 : 1 / 2 ^ 484 ≤ |p.x| + |p.y| + |p.z|) (hp2 : |p.x| + |p.y| + |p.z| ≤ 2 ^ 500) (rayhit out : RayHit Double)
    (h : traverse (triIx mesh) nodes (Ray.make origin direction minHit maxHit any) rayhit = .ok (true, out)) :
    ∃ face a b c d, mesh.faces[out.primId]? = some face ∧ mesh.vertices[face.x]? = some a ∧
      mesh.vertices[face.y]? = some b ∧ mesh.vertices[face.z]? = some c ∧
      IsV (Ray.make origin direction minHit maxHit any).direction d ∧
      ∀ A B C L, IsV a A → IsV b B → IsV c C → (∀ V ∈ [A, B, C], 2 * oneNorm (V - o) ≤ L) → 1 / 2 ^ 100 ≤ L → L ≤ 2 ^ 100 →
        2 * L ^ 2 * m ≤ ((2 - 1 / 2 ^ 52) * 2 ^ 1023) → 11 * (1 / 2 ^ 53) * L ^ 2 ≤ |Vec3.dot (normalOf A B C) d| →
        ∃ h U V, out.hitDistance.Is h ∧ 0 ≤ h ∧ out.uv.1.Is U ∧ out.uv.2.Is V ∧
          (∀ j, |Vec3.dot (normalOf A B C) d| * |(along o d h).get j - ((1 - U - V) * A.get j + U * B.get j + V * C.get j)| ≤
            14 * (1 / 2 ^ 53) * L ^ 2 * (h + (3 + |U| + |V|) * L)) ∧
          ∀ w ∈ [U, V, 1 - U - V], -(8 * (1 / 2 ^ 53) + 60 * (1 / 2 ^ 53) * L ^ 2 * (1 + |U| + |V|)) ≤ |Vec3.dot (normalOf A B C) d| * w := by
  obtain ⟨face, a, b, c, d, g1, g2, g3, g4, g5, g6⟩ := C90_barycentric _ _ _ _ rounds_double relative_double part mesh opts nodes
    stats hbuild origin direction minHit maxHit o p m ho hdir hmin hm (scale_double hp1 hp2) rayhit out h
  exact ⟨face, a, b, c, d, g1, g2, g3, g4, g5, fun A B C L hA hB hC hsz hL1 hL2 hmL =>
    g6 A B C L (1 / 2 ^ 700) hA hB hC hsz (scale3_double hL1 hL2) hmL⟩

/-- **C90** for `float`. -/
theorem C90_float (part : StdPartition) (mesh : MeshColl Single) (opts : BuildOptions) (nodes : List (Node Single (Triangle Single)))
    (stats : Statistics) (hbuild : build part mesh.toCollection opts [] = .ok (nodes, stats))
    (origin direction : Vec3 Single) (minHit maxHit : Single) {any : Bool} (o p : Vec3 ℚ) (m : ℚ)
    (ho : IsV origin o) (hdir : IsV direction p) (hmin : minHit.Is m) (hm : 0 ≤ m)
    (hp1 : 1 / 2 ^ 51 ≤ |p.x| + |p.y| + |p.z|) (hp2 : |p.x| + |p.y| + |p.z| ≤ 2 ^ 60) (rayhit out : RayHit Single)
    (h : traverse (triIx mesh) nodes (Ray.make origin direction minHit maxHit any) rayhit = .ok (true, out)) :
    ∃ face a b c d, mesh.faces[out.primId]? = some face ∧ mesh.vertices[face.x]? = some a ∧
      mesh.vertices[face.y]? = some b ∧ mesh.vertices[face.z]? = some c ∧
      IsV (Ray.make origin direction minHit maxHit any).direction d ∧
      ∀ A B C L, IsV a A → IsV b B → IsV c C → (∀ V ∈ [A, B, C], 2 * oneNorm (V - o) ≤ L) → 1 / 2 ^ 20 ≤ L → L ≤ 2 ^ 15 →
        2 * L ^ 2 * m ≤ ((2 - 1 / 2 ^ 23) * 2 ^ 127) → 11 * (1 / 2 ^ 24) * L ^ 2 ≤ |Vec3.dot (normalOf A B C) d| →
        ∃ h U V, out.hitDistance.Is h ∧ 0 ≤ h ∧ out.uv.1.Is U ∧ out.uv.2.Is V ∧
          (∀ j, |Vec3.dot (normalOf A B C) d| * |(along o d h).get j - ((1 - U - V) * A.get j + U * B.get j + V * C.get j)| ≤
            14 * (1 / 2 ^ 24) * L ^ 2 * (h + (3 + |U| + |V|) * L)) ∧
          ∀ w ∈ [U, V, 1 - U - V], -(8 * (1 / 2 ^ 24) + 60 * (1 / 2 ^ 24) * L ^ 2 * (1 + |U| + |V|)) ≤ |Vec3.dot (normalOf A B C) d| * w := by
  obtain ⟨face, a, b, c, d, g1, g2, g3, g4, g5, g6⟩ := C90_barycentric _ _ _ _ rounds_float relative_float part mesh opts nodes
    stats hbuild origin direction minHit maxHit o p m ho hdir hmin hm (scale_float hp1 hp2) rayhit out h
  exact ⟨face, a, b, c, d, g1, g2, g3, g4, g5, fun A B C L hA hB hC hsz hL1 hL2 hmL =>
    g6 A B C L (1 / 2 ^ 80) hA hB hC hsz (scale3_float hL1 hL2) hmL⟩

/-! ### Examples -/

/-- The ray through `(2, 1)` hits the first face of the rectangle. -/
example : evalOk (do
      let (nodes, _) ← build stablePartition rectMesh.toCollection BuildOptions.default []
      traverse (triIx rectMesh) nodes (Ray.make (dvec 2 1 (-1)) (dvec 0 0 1) (dbl 0) (dbl 100) false) RayHit.fresh)
    (fun r => r.1 && r.2.primId == 0) = true := by decide +kernel

/-- The coordinates that it reports: the point they stand for is `(2, 1, 0)` up to `10^-10`. -/
example (part : StdPartition) (opts : BuildOptions) (nodes : List (Node Double (Triangle Double))) (stats : Statistics)
    (hbuild : build part rectMesh.toCollection opts [] = .ok (nodes, stats)) (out : RayHit Double)
    (h : traverse (triIx rectMesh) nodes (Ray.make (dvec 2 1 (-1)) (dvec 0 0 1) (dbl 0) (dbl 100) false) RayHit.fresh = .ok (true, out))
    (hid : out.primId = 0) :
    ∃ k U V, out.hitDistance.Is k ∧ out.uv.1.Is U ∧ out.uv.2.Is V ∧
      ∀ j, 42 * |(along (⟨2, 1, -1⟩ : Vec3 ℚ) ⟨0, 0, 1⟩ k).get j - ((1 - U - V) * (⟨0, 0, 0⟩ : Vec3 ℚ).get j +
          U * (⟨7, 0, 0⟩ : Vec3 ℚ).get j + V * (⟨7, 6, 0⟩ : Vec3 ℚ).get j)| ≤ 14 * (1 / 2 ^ 53) * 30 ^ 2 * (k + (3 + |U| + |V|) * 30) := by
  obtain ⟨h1, h2, h3, h4⟩ := rect_vertices_are
  obtain ⟨face, a, b, c, d, g1, g2, g3, g4, g5, g6⟩ := C90_double part rectMesh opts nodes stats hbuild _ _ (dbl 0) _ ⟨2, 1, -1⟩ ⟨0, 0, 1⟩ 0
    (dvec_is (sx := false) (sy := false) (sz := true) (by decide +kernel))
    (dvec_is (sx := false) (sy := false) (sz := false) (by decide +kernel)) ⟨false, by decide +kernel⟩ le_rfl (by decide +kernel)
    (by decide +kernel) RayHit.fresh out h
  have e : (Ray.make (dvec 2 1 (-1)) (dvec 0 0 1) (dbl 0) (dbl 100) false).direction = ⟨.fin 0 false, .fin 0 false, .fin 1 false⟩ := by
    decide +kernel
  obtain rfl : d = ⟨0, 0, 1⟩ := g5.unique (by rw [e]; exact ⟨⟨_, rfl⟩, ⟨_, rfl⟩, ⟨_, rfl⟩⟩)
  have f0 : rectMesh.faces[0]? = some ⟨0, 1, 2⟩ := by decide +kernel
  have v0 : rectMesh.vertices[0]? = some (dvec 0 0 0) := by decide +kernel
  have v1 : rectMesh.vertices[1]? = some (dvec 7 0 0) := by decide +kernel
  have v2 : rectMesh.vertices[2]? = some (dvec 7 6 0) := by decide +kernel
  rw [hid, f0] at g1
  cases g1
  rw [v0] at g2
  rw [v1] at g3
  rw [v2] at g4
  cases g2
  cases g3
  cases g4
  obtain ⟨k, U, V, k1, -, k2, k3, k4, -⟩ := g6 ⟨0, 0, 0⟩ ⟨7, 0, 0⟩ ⟨7, 6, 0⟩ 30 h1 h2 h3 (by decide +kernel) (by decide +kernel)
    (by decide +kernel) (by decide +kernel) (by decide +kernel)
  have e2 : |Vec3.dot (normalOf (⟨0, 0, 0⟩ : Vec3 ℚ) ⟨7, 0, 0⟩ ⟨7, 6, 0⟩) ⟨0, 0, 1⟩| = 42 := by decide +kernel
  rw [e2] at k4
  exact ⟨k, U, V, k1, k2, k3, k4⟩

end Blazert
