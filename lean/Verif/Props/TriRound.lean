/- C72, C73, C74, C75: triangles, with rounding. -/
import Verif.Props.SphereRound
import Verif.Proofs.TriScan
import Verif.Proofs.Source

set_option autoImplicit false

namespace Blazert
open Scalar

/-! ### C72: gaps between triangles -/

/-- a rectangle of 7 by 6, and a ray that meets it next to its diagonal -/
def rectVertices : List (Vec3 Double) := [dvec 0 0 0, dvec 7 0 0, dvec 7 6 0, dvec 0 6 0]
def rectRay : Ray Double := Ray.make' (dvec (14/10) (12/10) (-1)) (dvec 0 0 1)

/-- **C72**, false.  For `double` a closed surface can have gaps.  The rectangle is divided into the triangles `(0, 1, 2)` and
`(2, 3, 0)`.  The ray (with its coordinates exactly as they are stored) meets the interior of the second triangle at
distance 1, but the query reports nothing.  The division into `(0, 1, 2)` and `(0, 2, 3)` has no gap there. -/
theorem C72_gap :
    InTriangle (⟨7, 6, 0⟩ : Vec3 ℚ) ⟨0, 6, 0⟩ ⟨0, 0, 0⟩
      (along ⟨3152519739159347/2251799813685248, 5404319552844595/4503599627370496, -1⟩ ⟨0, 0, 1⟩ 1) ∧
    IsV rectRay.origin ⟨3152519739159347/2251799813685248, 5404319552844595/4503599627370496, -1⟩ ∧
    IsV rectRay.direction ⟨0, 0, 1⟩ ∧
    (∃ r, (do
      let mesh ← MeshColl.make rectVertices [⟨0, 1, 2⟩, ⟨2, 3, 0⟩]
      let (nodes, _) ← build stablePartition mesh.toCollection BuildOptions.default []
      traverse (triIx mesh) nodes rectRay RayHit.fresh) = .ok r ∧ r.1 = false) ∧
    (∃ r, (do
      let mesh ← MeshColl.make rectVertices [⟨0, 1, 2⟩, ⟨0, 2, 3⟩]
      let (nodes, _) ← build stablePartition mesh.toCollection BuildOptions.default []
      traverse (triIx mesh) nodes rectRay RayHit.fresh) = .ok r ∧ r.1 = true ∧ r.2.primId = 1) := by
  refine ⟨⟨1 - 3152519739159347/2251799813685248/7 - (1 - 5404319552844595/4503599627370496/6),
    1 - 5404319552844595/4503599627370496/6, by decide +kernel, by decide +kernel, by decide +kernel, by decide +kernel⟩, ?_, ?_,
    exists_ok_of_eval (by decide +kernel), exists_ok_of_eval (by decide +kernel)⟩
  · have e : rectRay.origin = ⟨.fin (3152519739159347/2251799813685248) false, .fin (5404319552844595/4503599627370496) false,
        .fin (-1) true⟩ := by decide +kernel
    rw [e]
    exact ⟨⟨_, rfl⟩, ⟨_, rfl⟩, ⟨_, rfl⟩⟩
  · have e : rectRay.direction = ⟨.fin 0 false, .fin 0 false, .fin 1 false⟩ := by decide +kernel
    rw [e]
    exact ⟨⟨_, rfl⟩, ⟨_, rfl⟩, ⟨_, rfl⟩⟩

section
variable {K : Type} [Field K] [LinearOrder K] [IsStrictOrderedRing K] [FloorRing K] {F : Fmt K}

/-- **C72**, fans.  In any format that rounds, independently of the sign: the triangles `(a, b, c)` and `(a, c, e)`, which have
their first vertex in common, have no gap between them.  If the ray (along the stored direction `d`) passes the four outer
edges clearly on the inner side, then one of the two tests accepts it, however close it is to the common edge. -/
theorem C72_fan_partial (u η lo lo' hi : K) (hF : F.Rounds u η hi) (hF' : F.Relative u lo hi) (hS : F.Saturates hi) (hO : F.Odd)
    (L : K) (hs : Scale3 u η hi lo' L) (a b c e : Vec3 (XF F)) (A B C E : Vec3 K) (id id' : Nat) (ha : IsV a A) (hb : IsV b B)
    (hc : IsV c C) (he : IsV e E) (ray : Ray (XF F)) (o d : Vec3 K) (ho : IsV ray.origin o) (hd : IsV ray.direction d)
    (hunit : Vec3.dot d d ≤ 5 / 4) (i : TriI (XF F)) (m : K) (hm : i.minHit.Is m) (hm0 : 0 ≤ m) (hmL : 2 * L ^ 2 * m ≤ hi)
    (hsize : ∀ V ∈ [A, B, C, E], 2 * oneNorm (V - o) ≤ L) (σ : K) (hσ : σ = 1 ∨ σ = -1)
    (hedges : ∀ e ∈ [(B, A), (C, B), (E, C), (A, E)], 35 * u * L ^ 2 ≤ σ * edgeSide o d e.1 e.2 + 8 * u)
    (hfront : ∀ N ∈ [normalOf A B C, normalOf A C E], 11 * u * L ^ 2 ≤ σ * Vec3.dot N d ∧
      12 * u * L ^ 2 * (L + m) ≤ σ * Vec3.dot N (A - o) - σ * Vec3.dot N d * m ∧
      (i.hd = .inf false ∨ ∃ k, 0 ≤ k ∧ i.hd.Is k ∧
        12 * u * L ^ 2 * (L + k) < σ * Vec3.dot N d * k - σ * Vec3.dot N (A - o))) :
    (triIntersect i (Triangle.make a b c id) ray).2 = true ∨ (triIntersect i (Triangle.make a c e id') ray).2 = true := by
  have lA := hsize A (by simp)
  have lB := hsize B (by simp)
  have lC := hsize C (by simp)
  have lE := hsize E (by simp)
  have n0 := oneNorm_nonneg (A - o)
  have hdiff : ∀ {V W : Vec3 K}, 2 * oneNorm (V - o) ≤ L → 2 * oneNorm (W - o) ≤ L → oneNorm (V - W) ≤ L := fun h1 h2 =>
    (oneNorm_diff (o := o) (a := L / 2) (b := L / 2) (by linarith) (by linarith)).trans_eq (by ring)
  obtain ⟨a1, a2, a3⟩ := hfront (normalOf A B C) (by simp)
  obtain ⟨b1, b2, b3⟩ := hfront (normalOf A C E) (by simp)
  have e1 := hedges (B, A) (by simp)
  have e2 := hedges (C, B) (by simp)
  have e3 := hedges (E, C) (by simp)
  have e4 := hedges (A, E) (by simp)
  simp only [mul_assoc _ u (L ^ 2)] at a1 a2 a3 b1 b2 b3 e1 e2 e3 e4
  refine tri_fan hF hF' hS hO hs id id' ⟨ho, hd, hunit, hm0, hmL⟩ hm ha hb hc he (hdiff lA lB) (hdiff lC lA) (hdiff lA lC)
    (hdiff lE lA) (by linarith) hσ (by linarith) (by linarith) (by linarith) (by linarith) a1 b1 a2 b2 ?_
  rcases a3 with h | ⟨k, k0, k1, k2⟩
  · exact .inl h
  · rcases b3 with h | ⟨k', -, k1', k2'⟩
    · exact .inl h
    · obtain rfl := k1.unique k1'
      exact .inr ⟨k, k0, k1, k2, k2'⟩

/-! ### C73: hits are genuine -/

/-- **C73**.  In any format that rounds: a hit on a mesh reported by a query (with or without `any_hit`) is genuine up to
rounding.  The ray (along the stored direction `d`) passes the three edges of the face named in the record on the same side, up to `8 u` (the
tolerance of the test) and `35 u L²`, where `L` is at least twice the distance of any of its vertices from the origin.  Unless
the ray is almost parallel to the face, the point at the reported distance is in its plane, up to `12 u L² (L + h)`. -/
theorem C73_hit_on_triangle (u η lo hi : K) (hF : F.Rounds u η hi) (hF' : F.Relative u lo hi) (part : StdPartition)
    (mesh : MeshColl (XF F)) (opts : BuildOptions) (nodes : List (Node (XF F) (Triangle (XF F)))) (stats : Statistics)
    (hbuild : build part mesh.toCollection opts [] = .ok (nodes, stats))
    (origin direction : Vec3 (XF F)) (minHit maxHit : XF F) {any : Bool} (o p : Vec3 K) (m : K)
    (ho : IsV origin o) (hdir : IsV direction p) (hmin : minHit.Is m) (hm : 0 ≤ m)
    (hscale : Scale u η hi (|p.x| + |p.y| + |p.z|)) (rayhit out : RayHit (XF F))
    (h : traverse (triIx mesh) nodes (Ray.make origin direction minHit maxHit any) rayhit = .ok (true, out)) :
    ∃ face a b c d, mesh.faces[out.primId]? = some face ∧ mesh.vertices[face.x]? = some a ∧
      mesh.vertices[face.y]? = some b ∧ mesh.vertices[face.z]? = some c ∧
      IsV (Ray.make origin direction minHit maxHit any).direction d ∧
      ∀ A B C L lo', IsV a A → IsV b B → IsV c C → (∀ V ∈ [A, B, C], 2 * oneNorm (V - o) ≤ L) → Scale3 u η hi lo' L →
        2 * L ^ 2 * m ≤ hi →
        (∃ s : K, (s = 1 ∨ s = -1) ∧
          ∀ e ∈ [(A, C), (C, B), (B, A)], -(8 * u + 35 * u * L ^ 2) ≤ s * edgeSide o d e.1 e.2) ∧
        (11 * u * L ^ 2 ≤ |Vec3.dot (normalOf A B C) d| → ∃ h, out.hitDistance.Is h ∧ 0 ≤ h ∧
          |Vec3.dot (normalOf A B C) (along o d h - A)| ≤ 12 * u * L ^ 2 * (L + h)) := by
  obtain ⟨d, n, h1, h2, -⟩ := normalize_near hF hdir hscale
  have hquiet := tri_quiet mesh (Ray.make origin direction minHit maxHit any)
  obtain ⟨ps, vs, rest, e1, e2, ⟨e3, e4, -⟩⟩ := traverse_tests hbuild hquiet h
  have e4 := e4 rfl
  set ray := Ray.make origin direction minHit maxHit any with hray
  obtain ⟨f1, f2⟩ := testAll_last hquiet (Inv := fun s => s.minHit = minHit)
    (fun s q hs => (triIntersect_minHit s q ray).trans hs) vs ((triIx mesh).prepare ray) rfl
  rw [← scan_eq_testAll] at f1 f2
  rcases f2 with f2 | ⟨q, hq, s', f3, f4⟩
  · rw [scanHit, f2, hquiet.start, XF.lt_irrefl] at e3
    cases e3
  have hqps : q ∈ ps := e2.subset (by simp [hq])
  obtain ⟨i, hi', hiq⟩ := mapM_mem_of_out e1 hqps
  obtain ⟨face, a, b, c, g1, g2, g3, g4, g5⟩ := MeshColl.prim_ok hiq
  change triIntersect s' q ray = _ at f4
  have hacc : (triIntersect s' q ray).2 = true := by rw [f4]
  have hst : scan (triIx mesh) ray vs = (triIntersect s' q ray).1 := by rw [f4]
  obtain ⟨k1, k2⟩ := triPost_fields e4
  have hid : (triIntersect s' q ray).1.primId = i := by
    have hgen : (triIntersect s' q ray).2 = true → (triIntersect s' q ray).1.primId = q.primId := by
      unfold triIntersect
      simp only
      intro h
      split_ifs at h ⊢
      rfl
    rw [hgen hacc, g5]; rfl
  rw [hst] at k1 k2
  rw [k1, k2, hid]
  refine ⟨face, a, b, c, d, g1, g2, g3, g4, h1, fun A B C L lo' hA hB hC hsize hs hmL => ?_⟩
  have u0 := hs.u_pos
  have L0 := hs.pos
  have lA := hsize A (by simp)
  have lB := hsize B (by simp)
  have lC := hsize C (by simp)
  have n0 := oneNorm_nonneg (A - o)
  have hdiff : ∀ {V W : Vec3 K}, 2 * oneNorm (V - o) ≤ L → 2 * oneNorm (W - o) ≤ L → oneNorm (V - W) ≤ L := fun h1 h2 =>
    (oneNorm_diff (o := o) (a := L / 2) (b := L / 2) (by linarith) (by linarith)).trans_eq (by ring)
  have hw : TriWithin o L q A B C := ⟨⟨a, b, c, hA, hB, hC, by rw [g5]; rfl⟩, hdiff lA lB, hdiff lC lA, by linarith⟩
  have hunit : Vec3.dot d d ≤ 5 / 4 := by
    have := (abs_le.1 h2).2
    have := hs.toScale.eleven
    linarith
  obtain ⟨s, s1, s2, s3, s4, D, d1, d2, d3, d4⟩ := tri_hit_near hF hF' hs hw ho h1 hunit (f3 ▸ hmin) hm hmL hacc
  have uLL0 : 0 < u * L ^ 2 := by positivity
  have hs1 : |s| = 1 := by rcases s1 with h | h <;> simp [h]
  refine ⟨⟨s, s1, ?_⟩, fun hN => ?_⟩
  · intro e he
    have hc : -(8 * u + 35 * u * L ^ 2) = -(8 * u + 35 * (u * L ^ 2)) := by ring
    rw [hc]
    simp only [List.mem_cons, List.not_mem_nil, or_false] at he
    rcases he with rfl | rfl | rfl
    · exact le_trans (by linarith) s2
    · exact s4
    · exact le_trans (by linarith) s3
  · have hD : lo' ≤ |D| := by
      have a1 := hs.lo_le
      have a2 : |Vec3.dot (normalOf A B C) d| ≤ |D| + 10 * (u * L ^ 2) := by
        rw [← mul_sub, abs_mul, hs1, one_mul] at d3
        have := abs_sub_abs_le_abs_sub (Vec3.dot (normalOf A B C) d) D
        rw [abs_sub_comm] at this
        linarith
      have a3 : 11 * u * L ^ 2 = 11 * (u * L ^ 2) := by ring
      linarith
    obtain ⟨k, k3, k4, k5, -⟩ := d4 hD
    refine ⟨k, k3, k4, ?_⟩
    have e : Vec3.dot (normalOf A B C) (along o d k - A) =
        k * Vec3.dot (normalOf A B C) d - Vec3.dot (normalOf A B C) (A - o) := by
      simp only [Vec3.dot, along, Vec3.sub_x, Vec3.sub_y, Vec3.sub_z, Vec3.add_x, Vec3.add_y, Vec3.add_z, Vec3.smul_x,
        Vec3.smul_y, Vec3.smul_z]
      ring
    have e' : k * (s * Vec3.dot (normalOf A B C) d) - s * Vec3.dot (normalOf A B C) (A - o) =
        s * Vec3.dot (normalOf A B C) (along o d k - A) := by rw [e]; ring
    rw [e', abs_mul, hs1, one_mul] at k5
    exact k5.trans_eq (by ring)

/-! ### C74: clear hits are found -/

/-- **C74**, general.  In any format that rounds: let all vertices be at distance at most `L / 2` from the origin, and let no
determinant underflow.  If the ray (along the direction `p` given, which is of length one up to rounding) meets a face at
parameter `τ`, not too close to its edges unless the scene is small, nor too flat, nor right at the lower limit `m`, then
whatever was built and however the query went: it reports a hit, at a distance `h` that is at most `τ` up to rounding. -/
theorem C74_closest (u η lo lo' hi : K) (hF : F.Rounds u η hi) (hF' : F.Relative u lo hi) (hlo : 0 ≤ lo)
    (hS : F.Saturates hi) (L : K) (hs : Scale3 u η hi lo' L) (part : StdPartition)
    (vertices : List (Vec3 (XF F))) (faces : List (Vec3 Nat)) (mesh : MeshColl (XF F))
    (hmesh : MeshColl.make vertices faces = .ok mesh)
    (opts : BuildOptions) (nodes : List (Node (XF F) (Triangle (XF F)))) (stats : Statistics)
    (hbuild : build part mesh.toCollection opts [] = .ok (nodes, stats))
    (origin direction : Vec3 (XF F)) (minHit maxHit : XF F) (o p : Vec3 K) (m : K)
    (ho : IsV origin o) (hdir : IsV direction p) (hmin : minHit.Is m) (hm : 0 ≤ m) (hmL : 2 * L ^ 2 * m ≤ hi)
    (hneg : ∀ i, direction.get i ≠ .fin 0 true) (hunit : |Vec3.dot p p - 1| ≤ 16 * u)
    (hscale : Scale u η hi (|p.x| + |p.y| + |p.z|)) (hharm : Harmless mesh.toCollection lo hi o p)
    (hsize : ∀ v ∈ vertices, ∃ V, IsV v V ∧ 2 * oneNorm (V - o) ≤ L)
    (hdet : ∀ i tri D, mesh.toCollection.prim i = .ok tri →
      (Vec3.dot (Vec3.cross tri.c tri.b) (Ray.make origin direction minHit maxHit false).direction).Is D → D = 0 ∨ lo' ≤ |D|)
    (j : Nat) (face : Vec3 Nat) (a b c : Vec3 (XF F)) (hface : faces[j]? = some face) (hva : vertices[face.x]? = some a)
    (hvb : vertices[face.y]? = some b) (hvc : vertices[face.z]? = some c) (A B C : Vec3 K) (ha : IsV a A) (hb : IsV b B)
    (hc : IsV c C) (τ β γ : K) (hmeet : along o p τ = bary A B C β γ) (hβ : 0 ≤ β) (hγ : 0 ≤ γ) (hβγ : β + γ ≤ 1)
    (hedges : ∀ x ∈ [β, γ, 1 - β - γ], 50 * u * L ^ 2 ≤ x * |Vec3.dot (normalOf A B C) p| + 8 * u)
    (hflat : 60 * u * L ^ 2 ≤ |Vec3.dot (normalOf A B C) p|)
    (hτ : 30 * u * L ^ 2 * (L + m) ≤ |Vec3.dot (normalOf A B C) p| * (τ - m))
    (hmax : maxHit = .inf false ∨ ∃ M, maxHit.Is M ∧
      (τ + L) * (1 + 60 * u * L ^ 2 / |Vec3.dot (normalOf A B C) p|) * (1 + 4 * u) ^ faces.length < M + L)
    (rayhit out : RayHit (XF F)) (hit : Bool)
    (h : traverse (triIx mesh) nodes (Ray.make origin direction minHit maxHit false) rayhit = .ok (hit, out)) :
    hit = true ∧ ∃ h, out.hitDistance.Is h ∧ 0 ≤ h ∧
      h + L ≤ (τ + L) * (1 + 60 * u * L ^ 2 / |Vec3.dot (normalOf A B C) p|) * (1 + 4 * u) ^ faces.length := by
  obtain ⟨u0, u1, η0, ηu, ηL, ηLL, ηuLL, ηuL, L0, uL0, uLL0, uL1, uLL1, hi1, hiL, hiLL⟩ := hs.toScale.sizes
  obtain ⟨d, n, h1, h2, h3, h4, h5, h6, h7⟩ := normalize_near hF hdir hscale
  obtain ⟨mv, mf, -, -, -⟩ := MeshColl.make_ok hmesh
  obtain ⟨sAC, sBA, sCB, sT⟩ := sides_of_bary hmeet
  -- the direction
  obtain ⟨c1, c2, c3⟩ := comp_sq_le p
  have hdp : Sup (d - p) (15 * u) := ⟨dir_close hs.toScale hunit h3 h4 c1 h5, dir_close hs.toScale hunit h3 h4 c2 h6,
    dir_close hs.toScale hunit h3 h4 c3 h7⟩
  -- the sign of the determinant
  simp only [mul_assoc _ u (L ^ 2)] at hedges hflat hτ hmax ⊢
  obtain ⟨σ, hσ, hσN⟩ : ∃ σ : K, (σ = 1 ∨ σ = -1) ∧ σ * Vec3.dot (normalOf A B C) p = |Vec3.dot (normalOf A B C) p| := by
    rcases abs_choice (Vec3.dot (normalOf A B C) p) with h | h
    · exact ⟨1, .inl rfl, by rw [h, one_mul]⟩
    · exact ⟨-1, .inr rfl, by rw [h, neg_one_mul]⟩
  set Δ := |Vec3.dot (normalOf A B C) p| with hΔ
  have hΔ0 : 0 < Δ := by linarith
  have hτm : m < τ := by
    by_contra hc
    have a1 : Δ * (τ - m) ≤ 0 := mul_nonpos_of_nonneg_of_nonpos hΔ0.le (by linarith)
    have a2 : 0 < 30 * (u * L ^ 2) * (L + m) := by positivity
    linarith
  have hτ0 : 0 ≤ τ := by linarith
  set ray := Ray.make origin direction minHit maxHit false with hray
  have hunit' : Vec3.dot d d ≤ 5 / 4 := by
    have := (abs_le.1 h2).2
    have := hs.toScale.eleven
    linarith
  have hrn : RayNear' ray o d m hi L := ⟨ho, h1, hunit', hm, hmL⟩
  -- the face
  obtain ⟨q1, q2⟩ := MeshColl.prim_of (mesh := mesh) (mf ▸ hface) (mv ▸ hva) (mv ▸ hvb) (mv ▸ hvc)
  set q : Triangle (XF F) := Triangle.make a b c j with hq
  have hlen : ∀ {v : Vec3 (XF F)} {V : Vec3 K} {k : Nat}, vertices[k]? = some v → IsV v V → 2 * oneNorm (V - o) ≤ L := by
    intro v V k hk hV
    obtain ⟨V', hV', l⟩ := hsize v (List.mem_of_getElem? hk)
    obtain rfl := hV.unique hV'
    exact l
  have lA := hlen hva ha
  have lB := hlen hvb hb
  have lC := hlen hvc hc
  have n0 := oneNorm_nonneg (A - o)
  have n1 := oneNorm_nonneg (B - o)
  have n2 := oneNorm_nonneg (C - o)
  have hdiff : ∀ {V W : Vec3 K}, 2 * oneNorm (V - o) ≤ L → 2 * oneNorm (W - o) ≤ L → oneNorm (V - W) ≤ L := fun h1 h2 =>
    (oneNorm_diff (o := o) (a := L / 2) (b := L / 2) (by linarith) (by linarith)).trans_eq (by ring)
  have hw : TriWithin o L q A B C := ⟨⟨a, b, c, ha, hb, hc, rfl⟩, hdiff lA lB, hdiff lC lA, by linarith⟩
  have hmeets : MeetsBox mesh.toCollection o p q τ := by
    intro i hi' hiq
    have hij : i = j := by
      obtain ⟨f', a', b', c', -, -, -, -, e⟩ := MeshColl.prim_ok hiq
      have := congrArg Triangle.primId e
      exact this.symm
    subst hij
    obtain ⟨t1, t2, t3⟩ := triBox_is ha hb hc
    exact ⟨_, _, _, mesh_box hmesh hface hva hvb hvc, t1, t2, t3 _ ⟨β, γ, hβ, hγ, hβγ, hmeet⟩⟩
  -- the traversal
  obtain ⟨ps, vs, rest, e1, e2, ⟨e3, e4, -⟩, e5⟩ := C67_nothing_hidden u lo hi hF' u0.le (by linarith) hlo part
    mesh.toCollection opts nodes stats hbuild (triIx mesh) origin direction minHit maxHit o p m ho hdir hmin hneg hharm
    (tri_quiet mesh ray) rayhit out hit h
  have hgood : ∀ q ∈ vs, TriGood o L lo' ray q := by
    intro q' hq'
    obtain ⟨i, -, hiq⟩ := mapM_mem_of_out e1 (e2.subset (List.mem_append_left _ hq'))
    exact ⟨mesh_within (by rw [mv]; exact hsize) hiq, fun D hD => hdet i q' D hiq hD⟩
  have hlenps : (vs ++ rest).length = faces.length := by
    rw [e2.length_eq, (mapM_ok_forall₂ _ _ _ e1).length_eq.symm, List.length_range, ← mf]
    rfl
  have hqps : q ∈ ps := by
    obtain ⟨q', hq', e⟩ := mapM_mem_of_in e1 (List.mem_range.2 q1)
    rw [q2, Except.ok.injEq] at e
    exact e ▸ hq'
  set R := 1 + 60 * (u * L ^ 2) / Δ with hR
  have hR1 : 1 ≤ R := by
    have : 0 ≤ 60 * (u * L ^ 2) / Δ := by positivity
    linarith
  have hd1 : (1 : K) ≤ 1 + 4 * u := by linarith
  have hstart : Dist0 ((triIx mesh).prepare ray).hd := by
    rcases hmax with h | ⟨M, hM, hM'⟩
    · exact .inl h
    · refine .inr ⟨M, ?_, hM⟩
      have a1 : (τ + L) * 1 * 1 ≤ (τ + L) * R * (1 + 4 * u) ^ faces.length :=
        mul_le_mul (mul_le_mul_of_nonneg_left hR1 (by linarith)) (one_le_pow₀ hd1) zero_le_one
          (mul_nonneg (by linarith) (by linarith))
      linarith
  have hstartm : ((triIx mesh).prepare ray).minHit.Is m := hmin
  have hfin : ∃ k, 0 ≤ k ∧ (scan (triIx mesh) ray vs).hd.Is k ∧ k + L ≤ (τ + L) * R * (1 + 4 * u) ^ faces.length := by
    by_cases hv : q ∈ vs
    · -- tested
      obtain ⟨l1, l2, rfl⟩ := List.append_of_mem hv
      rw [scan_eq_testAll, testAll_append]
      obtain ⟨g0, g1, -⟩ := tri_testAll_drift hF hF' hs hrn mesh l1 (fun q hq => hgood q (by simp [hq])) _ hstartm
      have g1 := g1 hstart
      set s := testAll (triIx mesh) ray ((triIx mesh).prepare ray) l1 with hs'
      have x1 := hedges β (by simp)
      have x2 := hedges γ (by simp)
      have x3 := hedges (1 - β - γ) (by simp)
      obtain ⟨k, k0, f1, f2⟩ := tri_hit_found hF hF' hS hs hrn g0 hw (by linarith) (by linarith) (hdiff lB lC) hdp hσ
        (τ := τ) (by rw [sAC, mul_left_comm σ, hσN]; linarith) (by rw [sBA, mul_left_comm σ, hσN]; linarith)
        (by rw [sCB, mul_left_comm σ, hσN]; linarith) (by rw [hσN]; exact hflat) sT (by rw [hσN]; exact hτ) g1
      rw [hσN] at f2
      have f3 := solve_distance L0 hτ0 (by positivity) (by linarith) hΔ0 f2
      have e60 : 2 * (30 * (u * L ^ 2)) / Δ = 60 * (u * L ^ 2) / Δ := by congr 1; ring
      rw [e60] at f3
      have e : testAll (triIx mesh) ray s (q :: l2) = testAll (triIx mesh) ray (triIntersect s q ray).1 l2 := rfl
      rw [e]
      obtain ⟨k', k0', f4, f5⟩ := (tri_testAll_drift hF hF' hs hrn mesh l2 (fun q hq => hgood q (by simp [hq]))
        (triIntersect s q ray).1 (by rw [triIntersect_minHit]; exact g0)).2.2 k k0 f1
      refine ⟨k', k0', f4, f5.trans ?_⟩
      have hl : l2.length ≤ faces.length := by
        rw [← hlenps, List.length_append, List.length_append, List.length_cons]; omega
      exact mul_le_mul f3 (pow_le_pow_right₀ hd1 hl) (by positivity) (mul_nonneg (by linarith) (by linarith))
    · -- skipped
      obtain ⟨hd', ⟨k, hk⟩, hne, hlt⟩ := (e5 q hqps τ hτ0 hτm.le hmeets).resolve_left hv
      have htake : ∀ q ∈ vs.take k, TriGood o L lo' ray q := fun q hq => hgood q (List.mem_of_mem_take hq)
      have hdrop : ∀ q ∈ vs.drop k, TriGood o L lo' ray q := fun q hq => hgood q (List.mem_of_mem_drop hq)
      obtain ⟨g0, g1, -⟩ := tri_testAll_drift hF hF' hs hrn mesh _ htake _ hstartm
      have g1 := g1 hstart
      rw [← scan_eq_testAll] at g0 g1
      change hd' = (scan (triIx mesh) ray (vs.take k)).hd at hk
      rw [← hk] at g1
      obtain ⟨k0, hk00, hk0⟩ := g1.resolve_left hne
      have hk1 := hlt k0 hk0
      rw [hk] at hk0
      obtain ⟨k', k0', f4, f5⟩ := (tri_testAll_drift hF hF' hs hrn mesh _ hdrop _ g0).2.2 k0 hk00 hk0
      have hsplit : scan (triIx mesh) ray vs = testAll (triIx mesh) ray (scan (triIx mesh) ray (vs.take k)) (vs.drop k) := by
        rw [scan_eq_testAll, scan_eq_testAll, ← testAll_append, List.take_append_drop]
      rw [hsplit]
      refine ⟨k', k0', f4, f5.trans ?_⟩
      have hrest : q ∈ rest := (List.mem_append.1 ((e2.mem_iff).2 hqps)).resolve_left hv
      have hl : (vs.drop k).length + 1 ≤ faces.length := by
        have a1 : 1 ≤ rest.length := List.length_pos_of_mem hrest
        rw [← hlenps, List.length_append, List.length_drop]; omega
      have h8 : (1 + u) ^ 3 ≤ 1 + 4 * u := by
        have e : (1 + u) ^ 3 = 1 + 3 * u + u * u * (3 + u) := by ring
        have huu : u * u * (3 + u) ≤ u * (1 / 4) := by
          rw [mul_assoc]
          refine mul_le_mul_of_nonneg_left ?_ u0.le
          have := mul_le_mul u1 (by linarith : 3 + u ≤ 4) (by linarith) (by norm_num)
          linarith
        linarith
      have h9 : k0 + L ≤ (τ + L) * R * (1 + 4 * u) := by
        have a1 := mul_le_mul_of_nonneg_left h8 hτ0
        have a2 : L * 1 ≤ L * (1 + 4 * u) := mul_le_mul_of_nonneg_left hd1 L0.le
        have a3 : (τ + L) * 1 * (1 + 4 * u) ≤ (τ + L) * R * (1 + 4 * u) :=
          mul_le_mul_of_nonneg_right (mul_le_mul_of_nonneg_left hR1 (by linarith)) (by linarith)
        linarith
      calc (k0 + L) * (1 + 4 * u) ^ (vs.drop k).length ≤ (τ + L) * R * (1 + 4 * u) * (1 + 4 * u) ^ (vs.drop k).length :=
            mul_le_mul_of_nonneg_right h9 (by positivity)
        _ = (τ + L) * R * (1 + 4 * u) ^ ((vs.drop k).length + 1) := by rw [pow_succ]; ring
        _ ≤ _ := mul_le_mul_of_nonneg_left (pow_le_pow_right₀ hd1 hl) (mul_nonneg (by linarith) (by linarith))
  obtain ⟨k, k0, hk, hkle⟩ := hfin
  have hit' : hit = true := by
    rw [e3]
    rcases hmax with h | ⟨M, hM, hM'⟩
    · exact (XF.Is.lt_iff hk).2 (.inl h)
    · exact (XF.Is.lt hk hM).2 (by linarith)
  exact ⟨hit', k, by rw [(triPost_fields (e4 hit')).2]; exact hk, k0, hkle⟩

/-- **C74**, small scenes.  If all vertices are at distance at most `1/5` from the origin, then the tolerance of the triangle
test exceeds all rounding errors, and triangles have no gaps: every ray that meets a (closed) triangle is found, however close
to its edges. -/
theorem C74_small (u η lo lo' hi : K) (hF : F.Rounds u η hi) (hF' : F.Relative u lo hi) (hlo : 0 ≤ lo)
    (hS : F.Saturates hi) (L : K) (hs : Scale3 u η hi lo' L) (hL : L ≤ 2 / 5) (part : StdPartition)
    (vertices : List (Vec3 (XF F))) (faces : List (Vec3 Nat)) (mesh : MeshColl (XF F))
    (hmesh : MeshColl.make vertices faces = .ok mesh)
    (opts : BuildOptions) (nodes : List (Node (XF F) (Triangle (XF F)))) (stats : Statistics)
    (hbuild : build part mesh.toCollection opts [] = .ok (nodes, stats))
    (origin direction : Vec3 (XF F)) (minHit maxHit : (XF F)) (o p : Vec3 K) (m : K)
    (ho : IsV origin o) (hdir : IsV direction p) (hmin : minHit.Is m) (hm : 0 ≤ m) (hmL : 2 * L ^ 2 * m ≤ hi)
    (hneg : ∀ i, direction.get i ≠ .fin 0 true) (hunit : |Vec3.dot p p - 1| ≤ 16 * u)
    (hscale : Scale u η hi (|p.x| + |p.y| + |p.z|)) (hharm : Harmless mesh.toCollection lo hi o p)
    (hsize : ∀ v ∈ vertices, ∃ V, IsV v V ∧ 2 * oneNorm (V - o) ≤ L)
    (hdet : ∀ i tri D, mesh.toCollection.prim i = .ok tri →
      (Vec3.dot (Vec3.cross tri.c tri.b) (Ray.make origin direction minHit maxHit false).direction).Is D → D = 0 ∨ lo' ≤ |D|)
    (j : Nat) (face : Vec3 Nat) (a b c : Vec3 (XF F)) (hface : faces[j]? = some face) (hva : vertices[face.x]? = some a)
    (hvb : vertices[face.y]? = some b) (hvc : vertices[face.z]? = some c) (A B C : Vec3 K) (ha : IsV a A) (hb : IsV b B)
    (hc : IsV c C) (τ : K) (hmeet : InTriangle A B C (along o p τ))
    (hflat : 60 * u * L ^ 2 ≤ |Vec3.dot (normalOf A B C) p|)
    (hτ : 30 * u * L ^ 2 * (L + m) ≤ |Vec3.dot (normalOf A B C) p| * (τ - m))
    (hmax : maxHit = .inf false ∨ ∃ M, maxHit.Is M ∧
      (τ + L) * (1 + 60 * u * L ^ 2 / |Vec3.dot (normalOf A B C) p|) * (1 + 4 * u) ^ faces.length < M + L)
    (rayhit out : RayHit (XF F)) (hit : Bool)
    (h : traverse (triIx mesh) nodes (Ray.make origin direction minHit maxHit false) rayhit = .ok (hit, out)) :
    hit = true ∧ ∃ h, out.hitDistance.Is h ∧ 0 ≤ h ∧
      h + L ≤ (τ + L) * (1 + 60 * u * L ^ 2 / |Vec3.dot (normalOf A B C) p|) * (1 + 4 * u) ^ faces.length := by
  obtain ⟨β, γ, hβ, hγ, hβγ, hm'⟩ := hmeet
  refine C74_closest u η lo lo' hi hF hF' hlo hS L hs part vertices faces mesh hmesh opts nodes stats hbuild origin direction minHit maxHit o p m ho hdir hmin hm hmL hneg hunit hscale
    hharm hsize hdet j face a b c hface hva hvb hvc A B C ha hb hc τ β γ hm' hβ hγ hβγ ?_ hflat hτ hmax rayhit out hit h
  have hsmall : 50 * u * L ^ 2 ≤ 8 * u := by
    have h1 : L ^ 2 ≤ (2 / 5) ^ 2 := pow_le_pow_left₀ hs.pos.le hL 2
    have h2 := mul_le_mul_of_nonneg_left h1 hs.u_pos.le
    linarith
  intro x hx
  have hx0 : 0 ≤ x := by
    simp only [List.mem_cons, List.not_mem_nil, or_false] at hx
    rcases hx with rfl | rfl | rfl
    · exact hβ
    · exact hγ
    · linarith
  have := mul_nonneg hx0 (abs_nonneg (Vec3.dot (normalOf A B C) p))
  linarith

end

/-! ### `double` and `float` -/

theorem unit_oneNorm {p : Vec3 ℚ} (h : |Vec3.dot p p - 1| ≤ 1 / 10) :
    9 / 10 ≤ |p.x| + |p.y| + |p.z| ∧ |p.x| + |p.y| + |p.z| ≤ 6 := by
  obtain ⟨q1, q2⟩ := abs_le.1 h
  have q4 := sum_sq_le p.x p.y p.z 0
  have q5 : p.x * p.x + p.y * p.y + p.z * p.z = Vec3.dot p p := rfl
  rw [abs_zero, add_zero, mul_zero, add_zero, q5] at q4
  obtain ⟨q6, q7, q8⟩ := comp_sq_le p
  have hx : |p.x| ≤ 2 := abs_le_of_sq_le_sq (by rw [pow_two]; linarith) (by norm_num)
  have hy : |p.y| ≤ 2 := abs_le_of_sq_le_sq (by rw [pow_two]; linarith) (by norm_num)
  have hz : |p.z| ≤ 2 := abs_le_of_sq_le_sq (by rw [pow_two]; linarith) (by norm_num)
  refine ⟨le_of_sq_le_sq (le_trans ?_ q4) (by positivity), by linarith⟩
  linarith

theorem scale3_double {L : ℚ} (h1 : 1 / 2 ^ 100 ≤ L) (h2 : L ≤ 2 ^ 100) :
    Scale3 (1 / 2 ^ 53) (1 / 2 ^ 1075) ((2 - 1 / 2 ^ 52) * 2 ^ 1023) (1 / 2 ^ 700) L := by
  have h0 : (0 : ℚ) < 1 / 2 ^ 100 := by decide +kernel
  have l2 : (1 / 2 ^ 100 : ℚ) ^ 2 ≤ L ^ 2 := pow_le_pow_left₀ h0.le h1 2
  have l3 : (1 / 2 ^ 100 : ℚ) ^ 3 ≤ L ^ 3 := pow_le_pow_left₀ h0.le h1 3
  have g2 : L ^ 2 ≤ (2 ^ 100 : ℚ) ^ 2 := pow_le_pow_left₀ (h0.le.trans h1) h2 2
  have g3 : L ^ 3 ≤ (2 ^ 100 : ℚ) ^ 3 := pow_le_pow_left₀ (h0.le.trans h1) h2 3
  have e1 : (1 / 2 ^ 1075) ≤ ((1 / 2 ^ 53) : ℚ) ^ 2 * (1 / 2 ^ 100) ^ 3 := by decide +kernel
  have e2 : 64 * ((2 ^ 100) : ℚ) ^ 3 ≤ ((2 - 1 / 2 ^ 52) * 2 ^ 1023) := by decide +kernel
  have e3 : ((1 / 2 ^ 1075) : ℚ) * (2 ^ 100) ^ 2 ≤ (1 / 2 ^ 53) ^ 2 := by decide +kernel
  have e4 : ((1 / 2 ^ 700) : ℚ) ≤ (1 / 2 ^ 53) * (1 / 2 ^ 100) ^ 2 := by decide +kernel
  have e5 : 4 * ((2 ^ 100) : ℚ) ^ 3 ≤ (1 / 2 ^ 700) * ((2 - 1 / 2 ^ 52) * 2 ^ 1023) := by decide +kernel
  have e6 : ((1 / 2 ^ 1075) : ℚ) ≤ (1 / 2 ^ 53) ^ 2 * (1 / 2 ^ 100) * (1 / 2 ^ 700) := by decide +kernel
  refine ⟨scale_double (le_trans (by decide +kernel) h1) (h2.trans (by decide +kernel)),
    e1.trans (mul_le_mul_of_nonneg_left l3 (by positivity)), (mul_le_mul_of_nonneg_left g3 (by norm_num)).trans e2,
    (mul_le_mul_of_nonneg_left g2 (by positivity)).trans e3, by positivity,
    e4.trans (mul_le_mul_of_nonneg_left l2 (by positivity)), by decide +kernel,
    (mul_le_mul_of_nonneg_left g3 (by norm_num)).trans e5, e6.trans ?_⟩
  exact mul_le_mul_of_nonneg_right (mul_le_mul_of_nonneg_left h1 (by positivity)) (by positivity)

theorem saturates_double : Format.binary64.Saturates ((2 - 1 / 2 ^ 52) * 2 ^ 1023) := by
  have e3 : Format.binary64.maxVal = ((2 - 1 / 2 ^ 52) * 2 ^ 1023) := by decide +kernel
  have h := Format.binary64_saturates
  rwa [e3] at h

/-- **C73** for `double`. -/
theorem C73_double (part : StdPartition) (mesh : MeshColl Double) (opts : BuildOptions) (nodes : List (Node Double (Triangle Double)))
    (stats : Statistics) (hbuild : build part mesh.toCollection opts [] = .ok (nodes, stats))
    (origin direction : Vec3 Double) (minHit maxHit : Double) {any : Bool} (o p : Vec3 ℚ) (m : ℚ)
    (ho : IsV origin o) (hdir : IsV direction p) (hmin : minHit.Is m) (hm : 0 ≤ m)
    (hp1 : 1 / 2 ^ 484 ≤ |p.x| + |p.y| + |p.z|) (hp2 : |p.x| + |p.y| + |p.z| ≤ 2 ^ 500) (rayhit out : RayHit Double)
    (h : traverse (triIx mesh) nodes (Ray.make origin direction minHit maxHit any) rayhit = .ok (true, out)) :
    ∃ face a b c d, mesh.faces[out.primId]? = some face ∧ mesh.vertices[face.x]? = some a ∧
      mesh.vertices[face.y]? = some b ∧ mesh.vertices[face.z]? = some c ∧
      IsV (Ray.make origin direction minHit maxHit any).direction d ∧
      ∀ A B C L, IsV a A → IsV b B → IsV c C → (∀ V ∈ [A, B, C], 2 * oneNorm (V - o) ≤ L) → 1 / 2 ^ 100 ≤ L → L ≤ 2 ^ 100 →
        2 * L ^ 2 * m ≤ ((2 - 1 / 2 ^ 52) * 2 ^ 1023) →
        (∃ s : ℚ, (s = 1 ∨ s = -1) ∧
          ∀ e ∈ [(A, C), (C, B), (B, A)], -(8 * (1 / 2 ^ 53) + 35 * (1 / 2 ^ 53) * L ^ 2) ≤ s * edgeSide o d e.1 e.2) ∧
        (11 * (1 / 2 ^ 53) * L ^ 2 ≤ |Vec3.dot (normalOf A B C) d| → ∃ h, out.hitDistance.Is h ∧ 0 ≤ h ∧
          |Vec3.dot (normalOf A B C) (along o d h - A)| ≤ 12 * (1 / 2 ^ 53) * L ^ 2 * (L + h)) := by
  obtain ⟨face, a, b, c, d, g1, g2, g3, g4, g5, g6⟩ := C73_hit_on_triangle _ _ _ _ rounds_double relative_double part mesh opts nodes
    stats hbuild origin direction minHit maxHit o p m ho hdir hmin hm (scale_double hp1 hp2) rayhit out h
  exact ⟨face, a, b, c, d, g1, g2, g3, g4, g5, fun A B C L hA hB hC hsz hL1 hL2 hmL =>
    g6 A B C L (1 / 2 ^ 700) hA hB hC hsz (scale3_double hL1 hL2) hmL⟩

/-- **C74** for `double`. -/
theorem C74_double (L : ℚ) (hL1 : 1 / 2 ^ 100 ≤ L) (hL2 : L ≤ 2 ^ 100) (part : StdPartition)
    (vertices : List (Vec3 Double)) (faces : List (Vec3 Nat)) (mesh : MeshColl Double)
    (hmesh : MeshColl.make vertices faces = .ok mesh)
    (opts : BuildOptions) (nodes : List (Node Double (Triangle Double))) (stats : Statistics)
    (hbuild : build part mesh.toCollection opts [] = .ok (nodes, stats))
    (origin direction : Vec3 Double) (minHit maxHit : Double) (o p : Vec3 ℚ) (m : ℚ)
    (ho : IsV origin o) (hdir : IsV direction p) (hmin : minHit.Is m) (hm : 0 ≤ m) (hmL : 2 * L ^ 2 * m ≤ ((2 - 1 / 2 ^ 52) * 2 ^ 1023))
    (hneg : ∀ i, direction.get i ≠ .fin 0 true) (hunit : |Vec3.dot p p - 1| ≤ 16 * (1 / 2 ^ 53))
    (hharm : Harmless mesh.toCollection (1 / 2 ^ 1022) ((2 - 1 / 2 ^ 52) * 2 ^ 1023) o p)
    (hsize : ∀ v ∈ vertices, ∃ V, IsV v V ∧ 2 * oneNorm (V - o) ≤ L)
    (hdet : ∀ i tri D, mesh.toCollection.prim i = .ok tri →
      (Vec3.dot (Vec3.cross tri.c tri.b) (Ray.make origin direction minHit maxHit false).direction).Is D → D = 0 ∨ (1 / 2 ^ 700) ≤ |D|)
    (j : Nat) (face : Vec3 Nat) (a b c : Vec3 Double) (hface : faces[j]? = some face) (hva : vertices[face.x]? = some a)
    (hvb : vertices[face.y]? = some b) (hvc : vertices[face.z]? = some c) (A B C : Vec3 ℚ) (ha : IsV a A) (hb : IsV b B)
    (hc : IsV c C) (τ β γ : ℚ) (hmeet : along o p τ = bary A B C β γ) (hβ : 0 ≤ β) (hγ : 0 ≤ γ) (hβγ : β + γ ≤ 1)
    (hedges : ∀ x ∈ [β, γ, 1 - β - γ], 50 * (1 / 2 ^ 53) * L ^ 2 ≤ x * |Vec3.dot (normalOf A B C) p| + 8 * (1 / 2 ^ 53))
    (hflat : 60 * (1 / 2 ^ 53) * L ^ 2 ≤ |Vec3.dot (normalOf A B C) p|)
    (hτ : 30 * (1 / 2 ^ 53) * L ^ 2 * (L + m) ≤ |Vec3.dot (normalOf A B C) p| * (τ - m))
    (hmax : maxHit = .inf false ∨ ∃ M, maxHit.Is M ∧
      (τ + L) * (1 + 60 * (1 / 2 ^ 53) * L ^ 2 / |Vec3.dot (normalOf A B C) p|) * (1 + 4 * (1 / 2 ^ 53)) ^ faces.length < M + L)
    (rayhit out : RayHit Double) (hit : Bool)
    (h : traverse (triIx mesh) nodes (Ray.make origin direction minHit maxHit false) rayhit = .ok (hit, out)) :
    hit = true ∧ ∃ h, out.hitDistance.Is h ∧ 0 ≤ h ∧
      h + L ≤ (τ + L) * (1 + 60 * (1 / 2 ^ 53) * L ^ 2 / |Vec3.dot (normalOf A B C) p|) * (1 + 4 * (1 / 2 ^ 53)) ^ faces.length := by
  have hS := unit_oneNorm (hunit.trans (by norm_num))
  exact C74_closest _ _ _ _ _ rounds_double relative_double (by decide +kernel) saturates_double L (scale3_double hL1 hL2) part vertices faces
    mesh hmesh opts nodes stats hbuild origin direction minHit maxHit o p m ho hdir hmin hm hmL hneg hunit
    (scale_double (le_trans (by decide +kernel) hS.1) (hS.2.trans (by decide +kernel))) hharm hsize hdet j face a b c hface hva hvb hvc A B C ha hb hc τ β γ hmeet hβ hγ hβγ
    hedges hflat hτ hmax rayhit out hit h

/-- **C74** for `double`, small scenes: no gaps. -/
theorem C74_small_double (L : ℚ) (hL1 : 1 / 2 ^ 100 ≤ L) (hL2 : L ≤ 2 / 5) (part : StdPartition)
    (vertices : List (Vec3 Double)) (faces : List (Vec3 Nat)) (mesh : MeshColl Double)
    (hmesh : MeshColl.make vertices faces = .ok mesh)
    (opts : BuildOptions) (nodes : List (Node Double (Triangle Double))) (stats : Statistics)
    (hbuild : build part mesh.toCollection opts [] = .ok (nodes, stats))
    (origin direction : Vec3 Double) (minHit maxHit : Double) (o p : Vec3 ℚ) (m : ℚ)
    (ho : IsV origin o) (hdir : IsV direction p) (hmin : minHit.Is m) (hm : 0 ≤ m) (hmL : 2 * L ^ 2 * m ≤ ((2 - 1 / 2 ^ 52) * 2 ^ 1023))
    (hneg : ∀ i, direction.get i ≠ .fin 0 true) (hunit : |Vec3.dot p p - 1| ≤ 16 * (1 / 2 ^ 53))
    (hharm : Harmless mesh.toCollection (1 / 2 ^ 1022) ((2 - 1 / 2 ^ 52) * 2 ^ 1023) o p)
    (hsize : ∀ v ∈ vertices, ∃ V, IsV v V ∧ 2 * oneNorm (V - o) ≤ L)
    (hdet : ∀ i tri D, mesh.toCollection.prim i = .ok tri →
      (Vec3.dot (Vec3.cross tri.c tri.b) (Ray.make origin direction minHit maxHit false).direction).Is D → D = 0 ∨ (1 / 2 ^ 700) ≤ |D|)
    (j : Nat) (face : Vec3 Nat) (a b c : Vec3 Double) (hface : faces[j]? = some face) (hva : vertices[face.x]? = some a)
    (hvb : vertices[face.y]? = some b) (hvc : vertices[face.z]? = some c) (A B C : Vec3 ℚ) (ha : IsV a A) (hb : IsV b B)
    (hc : IsV c C) (τ : ℚ) (hmeet : InTriangle A B C (along o p τ))
    (hflat : 60 * (1 / 2 ^ 53) * L ^ 2 ≤ |Vec3.dot (normalOf A B C) p|)
    (hτ : 30 * (1 / 2 ^ 53) * L ^ 2 * (L + m) ≤ |Vec3.dot (normalOf A B C) p| * (τ - m))
    (hmax : maxHit = .inf false ∨ ∃ M, maxHit.Is M ∧
      (τ + L) * (1 + 60 * (1 / 2 ^ 53) * L ^ 2 / |Vec3.dot (normalOf A B C) p|) * (1 + 4 * (1 / 2 ^ 53)) ^ faces.length < M + L)
    (rayhit out : RayHit Double) (hit : Bool)
    (h : traverse (triIx mesh) nodes (Ray.make origin direction minHit maxHit false) rayhit = .ok (hit, out)) :
    hit = true ∧ ∃ h, out.hitDistance.Is h ∧ 0 ≤ h ∧
      h + L ≤ (τ + L) * (1 + 60 * (1 / 2 ^ 53) * L ^ 2 / |Vec3.dot (normalOf A B C) p|) * (1 + 4 * (1 / 2 ^ 53)) ^ faces.length := by
  have hS := unit_oneNorm (hunit.trans (by norm_num))
  exact C74_small _ _ _ _ _ rounds_double relative_double (by decide +kernel) saturates_double L
    (scale3_double hL1 (hL2.trans (by decide +kernel))) hL2 part vertices faces mesh hmesh
    opts nodes stats hbuild origin direction minHit maxHit o p m ho hdir hmin hm hmL hneg hunit
    (scale_double (le_trans (by decide +kernel) hS.1) (hS.2.trans (by decide +kernel))) hharm hsize hdet j face a b c hface hva hvb hvc A B C ha hb hc τ hmeet hflat hτ hmax
    rayhit out hit h

theorem scale3_float {L : ℚ} (h1 : 1 / 2 ^ 20 ≤ L) (h2 : L ≤ 2 ^ 15) :
    Scale3 (1 / 2 ^ 24) (1 / 2 ^ 150) ((2 - 1 / 2 ^ 23) * 2 ^ 127) (1 / 2 ^ 80) L := by
  have h0 : (0 : ℚ) < 1 / 2 ^ 20 := by decide +kernel
  have l2 : (1 / 2 ^ 20 : ℚ) ^ 2 ≤ L ^ 2 := pow_le_pow_left₀ h0.le h1 2
  have l3 : (1 / 2 ^ 20 : ℚ) ^ 3 ≤ L ^ 3 := pow_le_pow_left₀ h0.le h1 3
  have g2 : L ^ 2 ≤ (2 ^ 15 : ℚ) ^ 2 := pow_le_pow_left₀ (h0.le.trans h1) h2 2
  have g3 : L ^ 3 ≤ (2 ^ 15 : ℚ) ^ 3 := pow_le_pow_left₀ (h0.le.trans h1) h2 3
  have e1 : (1 / 2 ^ 150) ≤ ((1 / 2 ^ 24) : ℚ) ^ 2 * (1 / 2 ^ 20) ^ 3 := by decide +kernel
  have e2 : 64 * ((2 ^ 15) : ℚ) ^ 3 ≤ ((2 - 1 / 2 ^ 23) * 2 ^ 127) := by decide +kernel
  have e3 : ((1 / 2 ^ 150) : ℚ) * (2 ^ 15) ^ 2 ≤ (1 / 2 ^ 24) ^ 2 := by decide +kernel
  have e4 : ((1 / 2 ^ 80) : ℚ) ≤ (1 / 2 ^ 24) * (1 / 2 ^ 20) ^ 2 := by decide +kernel
  have e5 : 4 * ((2 ^ 15) : ℚ) ^ 3 ≤ (1 / 2 ^ 80) * ((2 - 1 / 2 ^ 23) * 2 ^ 127) := by decide +kernel
  have e6 : ((1 / 2 ^ 150) : ℚ) ≤ (1 / 2 ^ 24) ^ 2 * (1 / 2 ^ 20) * (1 / 2 ^ 80) := by decide +kernel
  refine ⟨scale_float (le_trans (by decide +kernel) h1) (h2.trans (by decide +kernel)),
    e1.trans (mul_le_mul_of_nonneg_left l3 (by positivity)), (mul_le_mul_of_nonneg_left g3 (by norm_num)).trans e2,
    (mul_le_mul_of_nonneg_left g2 (by positivity)).trans e3, by positivity,
    e4.trans (mul_le_mul_of_nonneg_left l2 (by positivity)), by decide +kernel,
    (mul_le_mul_of_nonneg_left g3 (by norm_num)).trans e5, e6.trans ?_⟩
  exact mul_le_mul_of_nonneg_right (mul_le_mul_of_nonneg_left h1 (by positivity)) (by positivity)

theorem saturates_float : Format.binary32.Saturates ((2 - 1 / 2 ^ 23) * 2 ^ 127) := by
  have e3 : Format.binary32.maxVal = ((2 - 1 / 2 ^ 23) * 2 ^ 127) := by decide +kernel
  have h := Format.binary32_saturates
  rwa [e3] at h

/-- **C73** for `float`. -/
theorem C73_float (part : StdPartition) (mesh : MeshColl Single) (opts : BuildOptions) (nodes : List (Node Single (Triangle Single)))
    (stats : Statistics) (hbuild : build part mesh.toCollection opts [] = .ok (nodes, stats))
    (origin direction : Vec3 Single) (minHit maxHit : Single) {any : Bool} (o p : Vec3 ℚ) (m : ℚ)
    (ho : IsV origin o) (hdir : IsV direction p) (hmin : minHit.Is m) (hm : 0 ≤ m)
    (hp1 : 1 / 2 ^ 51 ≤ |p.x| + |p.y| + |p.z|) (hp2 : |p.x| + |p.y| + |p.z| ≤ 2 ^ 60) (rayhit out : RayHit Single)
    (h : traverse (triIx mesh) nodes (Ray.make origin direction minHit maxHit any) rayhit = .ok (true, out)) :
    ∃ face a b c d, mesh.faces[out.primId]? = some face ∧ mesh.vertices[face.x]? = some a ∧
      mesh.vertices[face.y]? = some b ∧ mesh.vertices[face.z]? = some c ∧
      IsV (Ray.make origin direction minHit maxHit any).direction d ∧
      ∀ A B C L, IsV a A → IsV b B → IsV c C → (∀ V ∈ [A, B, C], 2 * oneNorm (V - o) ≤ L) → 1 / 2 ^ 20 ≤ L → L ≤ 2 ^ 15 →
        2 * L ^ 2 * m ≤ ((2 - 1 / 2 ^ 23) * 2 ^ 127) →
        (∃ s : ℚ, (s = 1 ∨ s = -1) ∧
          ∀ e ∈ [(A, C), (C, B), (B, A)], -(8 * (1 / 2 ^ 24) + 35 * (1 / 2 ^ 24) * L ^ 2) ≤ s * edgeSide o d e.1 e.2) ∧
        (11 * (1 / 2 ^ 24) * L ^ 2 ≤ |Vec3.dot (normalOf A B C) d| → ∃ h, out.hitDistance.Is h ∧ 0 ≤ h ∧
          |Vec3.dot (normalOf A B C) (along o d h - A)| ≤ 12 * (1 / 2 ^ 24) * L ^ 2 * (L + h)) := by
  obtain ⟨face, a, b, c, d, g1, g2, g3, g4, g5, g6⟩ := C73_hit_on_triangle _ _ _ _ rounds_float relative_float part mesh opts nodes
    stats hbuild origin direction minHit maxHit o p m ho hdir hmin hm (scale_float hp1 hp2) rayhit out h
  exact ⟨face, a, b, c, d, g1, g2, g3, g4, g5, fun A B C L hA hB hC hsz hL1 hL2 hmL =>
    g6 A B C L (1 / 2 ^ 80) hA hB hC hsz (scale3_float hL1 hL2) hmL⟩

/-- **C74** for `float`. -/
theorem C74_float (L : ℚ) (hL1 : 1 / 2 ^ 20 ≤ L) (hL2 : L ≤ 2 ^ 15) (part : StdPartition)
    (vertices : List (Vec3 Single)) (faces : List (Vec3 Nat)) (mesh : MeshColl Single)
    (hmesh : MeshColl.make vertices faces = .ok mesh)
    (opts : BuildOptions) (nodes : List (Node Single (Triangle Single))) (stats : Statistics)
    (hbuild : build part mesh.toCollection opts [] = .ok (nodes, stats))
    (origin direction : Vec3 Single) (minHit maxHit : Single) (o p : Vec3 ℚ) (m : ℚ)
    (ho : IsV origin o) (hdir : IsV direction p) (hmin : minHit.Is m) (hm : 0 ≤ m) (hmL : 2 * L ^ 2 * m ≤ ((2 - 1 / 2 ^ 23) * 2 ^ 127))
    (hneg : ∀ i, direction.get i ≠ .fin 0 true) (hunit : |Vec3.dot p p - 1| ≤ 16 * (1 / 2 ^ 24))
    (hharm : Harmless mesh.toCollection (1 / 2 ^ 126) ((2 - 1 / 2 ^ 23) * 2 ^ 127) o p)
    (hsize : ∀ v ∈ vertices, ∃ V, IsV v V ∧ 2 * oneNorm (V - o) ≤ L)
    (hdet : ∀ i tri D, mesh.toCollection.prim i = .ok tri →
      (Vec3.dot (Vec3.cross tri.c tri.b) (Ray.make origin direction minHit maxHit false).direction).Is D → D = 0 ∨ (1 / 2 ^ 80) ≤ |D|)
    (j : Nat) (face : Vec3 Nat) (a b c : Vec3 Single) (hface : faces[j]? = some face) (hva : vertices[face.x]? = some a)
    (hvb : vertices[face.y]? = some b) (hvc : vertices[face.z]? = some c) (A B C : Vec3 ℚ) (ha : IsV a A) (hb : IsV b B)
    (hc : IsV c C) (τ β γ : ℚ) (hmeet : along o p τ = bary A B C β γ) (hβ : 0 ≤ β) (hγ : 0 ≤ γ) (hβγ : β + γ ≤ 1)
    (hedges : ∀ x ∈ [β, γ, 1 - β - γ], 50 * (1 / 2 ^ 24) * L ^ 2 ≤ x * |Vec3.dot (normalOf A B C) p| + 8 * (1 / 2 ^ 24))
    (hflat : 60 * (1 / 2 ^ 24) * L ^ 2 ≤ |Vec3.dot (normalOf A B C) p|)
    (hτ : 30 * (1 / 2 ^ 24) * L ^ 2 * (L + m) ≤ |Vec3.dot (normalOf A B C) p| * (τ - m))
    (hmax : maxHit = .inf false ∨ ∃ M, maxHit.Is M ∧
      (τ + L) * (1 + 60 * (1 / 2 ^ 24) * L ^ 2 / |Vec3.dot (normalOf A B C) p|) * (1 + 4 * (1 / 2 ^ 24)) ^ faces.length < M + L)
    (rayhit out : RayHit Single) (hit : Bool)
    (h : traverse (triIx mesh) nodes (Ray.make origin direction minHit maxHit false) rayhit = .ok (hit, out)) :
    hit = true ∧ ∃ h, out.hitDistance.Is h ∧ 0 ≤ h ∧
      h + L ≤ (τ + L) * (1 + 60 * (1 / 2 ^ 24) * L ^ 2 / |Vec3.dot (normalOf A B C) p|) * (1 + 4 * (1 / 2 ^ 24)) ^ faces.length := by
  have hS := unit_oneNorm (hunit.trans (by norm_num))
  exact C74_closest _ _ _ _ _ rounds_float relative_float (by decide +kernel) saturates_float L (scale3_float hL1 hL2) part vertices faces
    mesh hmesh opts nodes stats hbuild origin direction minHit maxHit o p m ho hdir hmin hm hmL hneg hunit
    (scale_float (le_trans (by decide +kernel) hS.1) (hS.2.trans (by decide +kernel))) hharm hsize hdet j face a b c hface hva hvb hvc A B C ha hb hc τ β γ hmeet hβ hγ hβγ
    hedges hflat hτ hmax rayhit out hit h

/-- **C74** for `float`, small scenes: no gaps. -/
theorem C74_small_float (L : ℚ) (hL1 : 1 / 2 ^ 20 ≤ L) (hL2 : L ≤ 2 / 5) (part : StdPartition)
    (vertices : List (Vec3 Single)) (faces : List (Vec3 Nat)) (mesh : MeshColl Single)
    (hmesh : MeshColl.make vertices faces = .ok mesh)
    (opts : BuildOptions) (nodes : List (Node Single (Triangle Single))) (stats : Statistics)
    (hbuild : build part mesh.toCollection opts [] = .ok (nodes, stats))
    (origin direction : Vec3 Single) (minHit maxHit : Single) (o p : Vec3 ℚ) (m : ℚ)
    (ho : IsV origin o) (hdir : IsV direction p) (hmin : minHit.Is m) (hm : 0 ≤ m) (hmL : 2 * L ^ 2 * m ≤ ((2 - 1 / 2 ^ 23) * 2 ^ 127))
    (hneg : ∀ i, direction.get i ≠ .fin 0 true) (hunit : |Vec3.dot p p - 1| ≤ 16 * (1 / 2 ^ 24))
    (hharm : Harmless mesh.toCollection (1 / 2 ^ 126) ((2 - 1 / 2 ^ 23) * 2 ^ 127) o p)
    (hsize : ∀ v ∈ vertices, ∃ V, IsV v V ∧ 2 * oneNorm (V - o) ≤ L)
    (hdet : ∀ i tri D, mesh.toCollection.prim i = .ok tri →
      (Vec3.dot (Vec3.cross tri.c tri.b) (Ray.make origin direction minHit maxHit false).direction).Is D → D = 0 ∨ (1 / 2 ^ 80) ≤ |D|)
    (j : Nat) (face : Vec3 Nat) (a b c : Vec3 Single) (hface : faces[j]? = some face) (hva : vertices[face.x]? = some a)
    (hvb : vertices[face.y]? = some b) (hvc : vertices[face.z]? = some c) (A B C : Vec3 ℚ) (ha : IsV a A) (hb : IsV b B)
    (hc : IsV c C) (τ : ℚ) (hmeet : InTriangle A B C (along o p τ))
    (hflat : 60 * (1 / 2 ^ 24) * L ^ 2 ≤ |Vec3.dot (normalOf A B C) p|)
    (hτ : 30 * (1 / 2 ^ 24) * L ^ 2 * (L + m) ≤ |Vec3.dot (normalOf A B C) p| * (τ - m))
    (hmax : maxHit = .inf false ∨ ∃ M, maxHit.Is M ∧
      (τ + L) * (1 + 60 * (1 / 2 ^ 24) * L ^ 2 / |Vec3.dot (normalOf A B C) p|) * (1 + 4 * (1 / 2 ^ 24)) ^ faces.length < M + L)
    (rayhit out : RayHit Single) (hit : Bool)
    (h : traverse (triIx mesh) nodes (Ray.make origin direction minHit maxHit false) rayhit = .ok (hit, out)) :
    hit = true ∧ ∃ h, out.hitDistance.Is h ∧ 0 ≤ h ∧
      h + L ≤ (τ + L) * (1 + 60 * (1 / 2 ^ 24) * L ^ 2 / |Vec3.dot (normalOf A B C) p|) * (1 + 4 * (1 / 2 ^ 24)) ^ faces.length := by
  have hS := unit_oneNorm (hunit.trans (by norm_num))
  exact C74_small _ _ _ _ _ rounds_float relative_float (by decide +kernel) saturates_float L
    (scale3_float hL1 (hL2.trans (by decide +kernel))) hL2 part vertices faces mesh hmesh
    opts nodes stats hbuild origin direction minHit maxHit o p m ho hdir hmin hm hmL hneg hunit
    (scale_float (le_trans (by decide +kernel) hS.1) (hS.2.trans (by decide +kernel))) hharm hsize hdet j face a b c hface hva hvb hvc A B C ha hb hc τ hmeet hflat hτ hmax
    rayhit out hit h

/-! ### C75: tiny triangles -/

/-- a triangle of size 4, and three units before it one with edges of length `2^-520`, to the side of the ray -/
def dustVertices : List (Vec3 Double) :=
  [dvec 0 0 0, dvec 4 0 0, dvec 0 4 0, dvec 0 0 (-2), dvec (1 / 2 ^ 520) 0 (-2), dvec 0 (1 / 2 ^ 520) (-2)]

def dustVerticesFloat : List (Vec3 Single) :=
  [svec 0 0 0, svec 4 0 0, svec 0 4 0, svec 0 0 (-2), svec (1 / 2 ^ 66) 0 (-2), svec 0 (1 / 2 ^ 66) (-2)]

/-- **C75**, false.  A tiny triangle can make hits disappear, although the ray does not meet it: the query finds the large
triangle at distance 5, but nothing if there is a tiny one in front of its plane (more than `1` away from the ray).  The test
of the tiny triangle accepts because of its absolute tolerance, and the reciprocal of its determinant overflows, so that the
distance recorded is infinite.  If the order of the triangles is changed, the hit is found. -/
theorem C75_dust_hides :
    (∃ r, (do
      let mesh ← MeshColl.make dustVertices [⟨0, 1, 2⟩]
      let (nodes, _) ← build stablePartition mesh.toCollection BuildOptions.default []
      traverse (triIx mesh) nodes (Ray.make' (dvec 1 1 (-5)) (dvec 0 0 1)) RayHit.fresh) = .ok r ∧
      r.1 = true ∧ r.2.hitDistance = dbl 5) ∧
    (∃ r, (do
      let mesh ← MeshColl.make dustVertices [⟨0, 1, 2⟩, ⟨3, 4, 5⟩]
      let (nodes, _) ← build stablePartition mesh.toCollection BuildOptions.default []
      traverse (triIx mesh) nodes (Ray.make' (dvec 1 1 (-5)) (dvec 0 0 1)) RayHit.fresh) = .ok r ∧ r.1 = false) ∧
    (∃ r, (do
      let mesh ← MeshColl.make dustVertices [⟨3, 4, 5⟩, ⟨0, 1, 2⟩]
      let (nodes, _) ← build stablePartition mesh.toCollection BuildOptions.default []
      traverse (triIx mesh) nodes (Ray.make' (dvec 1 1 (-5)) (dvec 0 0 1)) RayHit.fresh) = .ok r ∧ r.1 = true) ∧
    (triIntersect ⟨dbl 0, (dbl 0, dbl 0), dbl 5, 0⟩
      (Triangle.make (dvec 0 0 (-2)) (dvec (1 / 2 ^ 520) 0 (-2)) (dvec 0 (1 / 2 ^ 520) (-2)) 1)
      (Ray.make' (dvec 1 1 (-5)) (dvec 0 0 1))).1.hd = .inf false :=
  ⟨exists_ok_of_eval (by decide +kernel), exists_ok_of_eval (by decide +kernel), exists_ok_of_eval (by decide +kernel),
    by decide +kernel⟩

/-- **C75**, false for `float`: here edges of length `2^-66`, about `10^-20`, suffice. -/
theorem C75_dust_hides_float :
    (∃ r, (do
      let mesh ← MeshColl.make dustVerticesFloat [⟨0, 1, 2⟩]
      let (nodes, _) ← build stablePartition mesh.toCollection BuildOptions.default []
      traverse (triIx mesh) nodes (Ray.make' (svec 1 1 (-5)) (svec 0 0 1)) RayHit.fresh) = .ok r ∧
      r.1 = true ∧ r.2.hitDistance = sgl 5) ∧
    (∃ r, (do
      let mesh ← MeshColl.make dustVerticesFloat [⟨0, 1, 2⟩, ⟨3, 4, 5⟩]
      let (nodes, _) ← build stablePartition mesh.toCollection BuildOptions.default []
      traverse (triIx mesh) nodes (Ray.make' (svec 1 1 (-5)) (svec 0 0 1)) RayHit.fresh) = .ok r ∧ r.1 = false) :=
  ⟨exists_ok_of_eval (by decide +kernel), exists_ok_of_eval (by decide +kernel)⟩

section
variable {K : Type} [Field K] [LinearOrder K] [IsStrictOrderedRing K] [FloorRing K] {F : Fmt K}

/-- **C75**, partial.  If the computed determinant of the triangle is at least `lo'` in magnitude (`1 / lo'` being in the range
of the format), a triangle that is accepted leaves a finite distance that is not negative, nor much larger than the one before. -/
theorem C75_finite_partial (u η lo lo' hi : K) (hF : F.Rounds u η hi) (hF' : F.Relative u lo hi) (L : K)
    (hs : Scale3 u η hi lo' L) (a b c : Vec3 (XF F)) (A B C : Vec3 K) (id : Nat) (ha : IsV a A) (hb : IsV b B) (hc : IsV c C)
    (ray : Ray (XF F)) (o d : Vec3 K) (ho : IsV ray.origin o) (hd : IsV ray.direction d) (hunit : Vec3.dot d d ≤ 5 / 4)
    (i : TriI (XF F)) (m : K) (hm : i.minHit.Is m) (hm0 : 0 ≤ m) (hmL : 2 * L ^ 2 * m ≤ hi)
    (hsize : ∀ V ∈ [A, B, C], 2 * oneNorm (V - o) ≤ L) (D : K)
    (hD : (Vec3.dot (Vec3.cross (a - b) (c - a)) ray.direction).Is D) (hlo : lo' ≤ |D|)
    (h : (triIntersect i (Triangle.make a b c id) ray).2 = true) :
    ∃ h, (triIntersect i (Triangle.make a b c id) ray).1.hd.Is h ∧ 0 ≤ h ∧
      ∀ k, 0 ≤ k → i.hd.Is k → h + L ≤ (k + L) * (1 + 4 * u) := by
  have lA := hsize A (by simp)
  have lB := hsize B (by simp)
  have lC := hsize C (by simp)
  have n0 := oneNorm_nonneg (A - o)
  have hdiff : ∀ {V W : Vec3 K}, 2 * oneNorm (V - o) ≤ L → 2 * oneNorm (W - o) ≤ L → oneNorm (V - W) ≤ L := fun h1 h2 =>
    (oneNorm_diff (o := o) (a := L / 2) (b := L / 2) (by linarith) (by linarith)).trans_eq (by ring)
  have hw : TriWithin o L (Triangle.make a b c id) A B C :=
    ⟨⟨a, b, c, ha, hb, hc, rfl⟩, hdiff lA lB, hdiff lC lA, by linarith⟩
  obtain ⟨s, -, -, -, -, D', d1, -, -, d4⟩ := tri_hit_near hF hF' hs hw ho hd hunit hm hm0 hmL h
  obtain rfl := hD.unique d1
  obtain ⟨k, k1, k2, -, k3⟩ := d4 hlo
  exact ⟨k, k1, k2, k3⟩

end

/-! ### Examples -/

theorem dvec_is {x y z x' y' z' : ℚ} {sx sy sz : Bool} (e : dvec x y z = ⟨.fin x' sx, .fin y' sy, .fin z' sz⟩) :
    IsV (dvec x y z) ⟨x', y', z'⟩ := by
  rw [e]
  exact ⟨⟨_, rfl⟩, ⟨_, rfl⟩, ⟨_, rfl⟩⟩

theorem rect_vertices_are : IsV (dvec 0 0 0) ⟨0, 0, 0⟩ ∧ IsV (dvec 7 0 0) ⟨7, 0, 0⟩ ∧ IsV (dvec 7 6 0) ⟨7, 6, 0⟩ ∧
    IsV (dvec 0 6 0) ⟨0, 6, 0⟩ :=
  ⟨dvec_is (sx := false) (sy := false) (sz := false) (by decide +kernel),
    dvec_is (sx := false) (sy := false) (sz := false) (by decide +kernel),
    dvec_is (sx := false) (sy := false) (sz := false) (by decide +kernel),
    dvec_is (sx := false) (sy := false) (sz := false) (by decide +kernel)⟩

/-- The hypotheses of the fan theorem are met by the ray and the second division of the rectangle in `C72_gap`. -/
example : (triIntersect ⟨dbl 0, (dbl 0, dbl 0), dbl 100, 0⟩ (Triangle.make (dvec 0 0 0) (dvec 7 0 0) (dvec 7 6 0) 0) rectRay).2 = true ∨
    (triIntersect ⟨dbl 0, (dbl 0, dbl 0), dbl 100, 0⟩ (Triangle.make (dvec 0 0 0) (dvec 7 6 0) (dvec 0 6 0) 1) rectRay).2 = true := by
  obtain ⟨h1, h2, h3, h4⟩ := rect_vertices_are
  refine C72_fan_partial _ _ _ _ _ rounds_double relative_double saturates_double Format.binary64_odd 30
    (scale3_double (by decide +kernel) (by decide +kernel)) _ _ _ _ ⟨0, 0, 0⟩ ⟨7, 0, 0⟩ ⟨7, 6, 0⟩ ⟨0, 6, 0⟩ 0 1 h1 h2 h3 h4
    rectRay _ _ C72_gap.2.1 C72_gap.2.2.1 (by decide +kernel) _ 0 ⟨false, by decide +kernel⟩ le_rfl (by decide +kernel)
    (by decide +kernel) (-1) (.inr rfl) (by decide +kernel) ?_
  have hd : (dbl 100).Is 100 := ⟨false, by decide +kernel⟩
  intro N hN
  simp only [List.mem_cons, List.not_mem_nil, or_false] at hN
  rcases hN with rfl | rfl
  · exact ⟨by decide +kernel, by decide +kernel, .inr ⟨100, by norm_num, hd, by decide +kernel⟩⟩
  · exact ⟨by decide +kernel, by decide +kernel, .inr ⟨100, by norm_num, hd, by decide +kernel⟩⟩

/-- The hypotheses of `C75_finite_partial` are met by a triangle of this rectangle. -/
example : ∃ h, (triIntersect ⟨dbl 0, (dbl 0, dbl 0), dbl 100, 0⟩ (Triangle.make (dvec 0 0 0) (dvec 7 0 0) (dvec 7 6 0) 1)
    (Ray.make' (dvec 2 1 (-1)) (dvec 0 0 1))).1.hd.Is h ∧ 0 ≤ h := by
  obtain ⟨h1, h2, h3, h4⟩ := rect_vertices_are
  have ho : IsV (Ray.make' (dvec 2 1 (-1)) (dvec 0 0 1)).origin ⟨2, 1, -1⟩ :=
    dvec_is (sx := false) (sy := false) (sz := true) (by decide +kernel)
  have hd : IsV (Ray.make' (dvec 2 1 (-1)) (dvec 0 0 1)).direction ⟨0, 0, 1⟩ := by
    have e : (Ray.make' (dvec 2 1 (-1)) (dvec 0 0 1)).direction = ⟨.fin 0 false, .fin 0 false, .fin 1 false⟩ := by decide +kernel
    rw [e]
    exact ⟨⟨_, rfl⟩, ⟨_, rfl⟩, ⟨_, rfl⟩⟩
  obtain ⟨h, e1, e2, -⟩ := C75_finite_partial _ _ _ _ _ rounds_double relative_double 30
    (scale3_double (by decide +kernel) (by decide +kernel)) _ _ _ ⟨0, 0, 0⟩ ⟨7, 0, 0⟩ ⟨7, 6, 0⟩ 1 h1 h2 h3
    (Ray.make' (dvec 2 1 (-1)) (dvec 0 0 1)) _ _ ho hd (by decide +kernel) ⟨dbl 0, (dbl 0, dbl 0), dbl 100, 0⟩ 0
    ⟨false, by decide +kernel⟩ le_rfl (by decide +kernel) (by decide +kernel) (-42) ⟨true, by decide +kernel⟩ (by decide +kernel)
    (by decide +kernel)
  exact ⟨h, e1, e2⟩

deriving instance DecidableEq for MeshColl

/-- the rectangle with the division that has a gap -/
def rectMesh : MeshColl Double := (MeshColl.make rectVertices [⟨0, 1, 2⟩, ⟨2, 3, 0⟩]).toOption.getD ⟨[], [], [], [], [], []⟩

theorem rectMesh_make : MeshColl.make rectVertices [⟨0, 1, 2⟩, ⟨2, 3, 0⟩] = .ok rectMesh := by
  have h : evalOk (MeshColl.make rectVertices [⟨0, 1, 2⟩, ⟨2, 3, 0⟩]) (fun _ => true) = true := by decide +kernel
  unfold rectMesh
  cases hm : MeshColl.make rectVertices [⟨0, 1, 2⟩, ⟨2, 3, 0⟩] with
  | error e => rw [hm] at h; simp [evalOk] at h
  | ok m => rfl

theorem rect_harmless : Harmless rectMesh.toCollection (1 / 2 ^ 1022) ((2 - 1 / 2 ^ 52) * 2 ^ 1023) ⟨2, 1, -1⟩ ⟨0, 0, 1⟩ := by
  have hb : ∀ {i b}, rectMesh.toCollection.box i = .ok b → b ∈ rectMesh.boxes :=
    fun h => List.mem_of_getElem? (lookup_eq_ok.1 h)
  refine ⟨fun i _ b h => ?_, fun i _ b h k c hc => ?_, fun hz => absurd hz (by norm_num)⟩
  · have : ∀ b ∈ rectMesh.boxes, BoxInRange b := by decide +kernel
    exact this b (hb h)
  · have : ∀ b ∈ rectMesh.boxes, ∀ k : Fin 3,
        coordOk ((⟨2, 1, -1⟩ : Vec3 ℚ).get k) ((⟨0, 0, 1⟩ : Vec3 ℚ).get k) (b.1.get k) = true ∧
        coordOk ((⟨2, 1, -1⟩ : Vec3 ℚ).get k) ((⟨0, 0, 1⟩ : Vec3 ℚ).get k) (b.2.get k) = true := by decide +kernel
    obtain ⟨e1, e2⟩ := this b (hb h) k
    rcases hc with ⟨s, hc⟩ | ⟨s, hc⟩
    · rw [hc] at e1; exact of_decide_eq_true e1
    · rw [hc] at e2; exact of_decide_eq_true e2

theorem rect_size : ∀ v ∈ rectVertices, ∃ V, IsV v V ∧ 2 * oneNorm (V - (⟨2, 1, -1⟩ : Vec3 ℚ)) ≤ 30 := by
  obtain ⟨h1, h2, h3, h4⟩ := rect_vertices_are
  intro v hv
  simp only [rectVertices, List.mem_cons, List.not_mem_nil, or_false] at hv
  rcases hv with rfl | rfl | rfl | rfl
  · exact ⟨_, h1, by decide +kernel⟩
  · exact ⟨_, h2, by decide +kernel⟩
  · exact ⟨_, h3, by decide +kernel⟩
  · exact ⟨_, h4, by decide +kernel⟩

theorem rect_det (i : Nat) (tri : Triangle Double) (D : ℚ) (hi : rectMesh.toCollection.prim i = .ok tri)
    (hD : (Vec3.dot (Vec3.cross tri.c tri.b) (Ray.make (dvec 2 1 (-1)) (dvec 0 0 1) (dbl 0) (dbl 100) false).direction).Is D) :
    D = 0 ∨ 1 / 2 ^ 700 ≤ |D| := by
  have hlt : i < 2 := by
    obtain ⟨f, a, b, c, e, -⟩ := MeshColl.prim_ok hi
    exact (List.getElem?_eq_some_iff.1 e).1
  have hall : ∀ i : Fin 2, evalOk (rectMesh.toCollection.prim i) (fun t => decide (Vec3.dot (Vec3.cross t.c t.b)
      (Ray.make (dvec 2 1 (-1)) (dvec 0 0 1) (dbl 0) (dbl 100) false).direction = .fin (-42) true)) = true := by decide +kernel
  obtain ⟨t, e1, e2⟩ := exists_ok_of_eval (hall ⟨i, hlt⟩)
  rw [hi] at e1
  cases e1
  rw [e2] at hD
  obtain ⟨s, hD⟩ := hD
  cases hD
  right
  decide +kernel

/-- The hypotheses of C74 are met by a ray through the interior of face 0 of this rectangle, and every tree built from it. -/
example (part : StdPartition) (opts : BuildOptions) (nodes : List (Node Double (Triangle Double))) (stats : Statistics)
    (hbuild : build part rectMesh.toCollection opts [] = .ok (nodes, stats)) (out : RayHit Double) (hit : Bool)
    (h : traverse (triIx rectMesh) nodes (Ray.make (dvec 2 1 (-1)) (dvec 0 0 1) (dbl 0) (dbl 100) false) RayHit.fresh =
      .ok (hit, out)) :
    hit = true ∧ ∃ h, out.hitDistance.Is h ∧ 0 ≤ h ∧ h ≤ 1 + 1 / 10 ^ 10 := by
  obtain ⟨h1, h2, h3, h4⟩ := rect_vertices_are
  have key := C74_double 30 (by decide +kernel) (by decide +kernel) part rectVertices [⟨0, 1, 2⟩, ⟨2, 3, 0⟩] rectMesh rectMesh_make
    opts nodes stats hbuild (dvec 2 1 (-1)) (dvec 0 0 1) (dbl 0) (dbl 100) ⟨2, 1, -1⟩ ⟨0, 0, 1⟩ 0
    (dvec_is (sx := false) (sy := false) (sz := true) (by decide +kernel))
    (dvec_is (sx := false) (sy := false) (sz := false) (by decide +kernel)) ⟨false, by decide +kernel⟩ le_rfl
    (by decide +kernel) (by decide +kernel) (by decide +kernel) rect_harmless rect_size rect_det 0 ⟨0, 1, 2⟩ (dvec 0 0 0) (dvec 7 0 0)
    (dvec 7 6 0) rfl rfl rfl rfl ⟨0, 0, 0⟩ ⟨7, 0, 0⟩ ⟨7, 6, 0⟩ h1 h2 h3 1 (5/42) (1/6) (by decide +kernel) (by norm_num) (by norm_num)
    (by norm_num) (by decide +kernel) (by decide +kernel) (by decide +kernel)
    (.inr ⟨100, ⟨false, by decide +kernel⟩, by decide +kernel⟩) RayHit.fresh out hit h
  obtain ⟨k1, k, k2, k3, k4⟩ := key
  refine ⟨k1, k, k2, k3, ?_⟩
  have e : (1 + 30 : ℚ) * (1 + 60 * (1 / 2 ^ 53) * 30 ^ 2 / |Vec3.dot (normalOf ⟨0, 0, 0⟩ ⟨7, 0, 0⟩ ⟨7, 6, 0⟩) ⟨0, 0, 1⟩|) *
      (1 + 4 * (1 / 2 ^ 53)) ^ [(⟨0, 1, 2⟩ : Vec3 Nat), ⟨2, 3, 0⟩].length ≤ 31 + 1 / 10 ^ 10 := by decide +kernel
  have := k4.trans e
  linarith

/-- The hypotheses of C73 are met by a slanted ray, whose normalized direction is not exact. -/
example : evalOk (do
      let (nodes, _) ← build stablePartition rectMesh.toCollection smallOptions []
      traverse (triIx rectMesh) nodes (Ray.make (dvec 2 1 (-1)) (dvec (1/8) (1/16) 1) (dbl 0) (dbl 100) false) RayHit.fresh)
    (fun r => r.1 && r.2.primId == 0) = true := by decide +kernel

/-- The point this ray reports is in the plane of the rectangle up to rounding. -/
example (part : StdPartition) (opts : BuildOptions) (nodes : List (Node Double (Triangle Double))) (stats : Statistics)
    (hbuild : build part rectMesh.toCollection opts [] = .ok (nodes, stats)) (out : RayHit Double)
    (h : traverse (triIx rectMesh) nodes (Ray.make (dvec 2 1 (-1)) (dvec (1/8) (1/16) 1) (dbl 0) (dbl 100) false) RayHit.fresh =
      .ok (true, out)) (hid : out.primId = 0) :
    ∃ d h, out.hitDistance.Is h ∧ |(along ⟨2, 1, -1⟩ d h : Vec3 ℚ).z| * 42 ≤ 12 * (1 / 2 ^ 53) * 30 ^ 2 * (30 + h) := by
  obtain ⟨h1, h2, h3, h4⟩ := rect_vertices_are
  obtain ⟨face, a, b, c, d, g1, g2, g3, g4, g5, g6⟩ := C73_double part rectMesh opts nodes stats hbuild (dvec 2 1 (-1))
    (dvec (1/8) (1/16) 1) (dbl 0) (dbl 100) ⟨2, 1, -1⟩ ⟨1/8, 1/16, 1⟩ 0
    (dvec_is (sx := false) (sy := false) (sz := true) (by decide +kernel))
    (dvec_is (sx := false) (sy := false) (sz := false) (by decide +kernel)) ⟨false, by decide +kernel⟩ le_rfl
    (by decide +kernel) (by decide +kernel) RayHit.fresh out h
  rw [hid] at g1
  have mf : rectMesh.faces = [⟨0, 1, 2⟩, ⟨2, 3, 0⟩] := (MeshColl.make_ok rectMesh_make).2.1
  have mv : rectMesh.vertices = rectVertices := (MeshColl.make_ok rectMesh_make).1
  rw [mf] at g1
  rw [mv] at g2 g3 g4
  cases g1
  cases g2
  cases g3
  cases g4
  have hz : (Ray.make (dvec 2 1 (-1)) (dvec (1/8) (1/16) 1) (dbl 0) (dbl 100) false).direction.z.Is
      (8920506195398497 / 9007199254740992) := ⟨false, by decide +kernel⟩
  obtain ⟨-, g7⟩ := g6 ⟨0, 0, 0⟩ ⟨7, 0, 0⟩ ⟨7, 6, 0⟩ 30 h1 h2 h3 (by decide +kernel) (by decide +kernel) (by decide +kernel)
    (by decide +kernel)
  have e : ∀ v : Vec3 ℚ, Vec3.dot (normalOf ⟨0, 0, 0⟩ ⟨7, 0, 0⟩ ⟨7, 6, 0⟩) v = -42 * v.z := by
    intro v
    simp only [Vec3.dot, normalOf, Vec3.cross, Vec3.sub_x, Vec3.sub_y, Vec3.sub_z]
    ring
  have hdz := g5.2.2.unique hz
  obtain ⟨k, k1, -, k2⟩ := g7 (by rw [e, hdz]; decide +kernel)
  refine ⟨d, k, k1, ?_⟩
  rw [e, abs_mul, Vec3.sub_z, sub_zero] at k2
  rw [mul_comm]
  refine le_trans (le_of_eq ?_) k2
  norm_num

/-- the same rectangle and the same ray as in `C72_gap`, 64 times smaller -/
def smallVertices : List (Vec3 Double) := [dvec 0 0 0, dvec (7/64) 0 0, dvec (7/64) (6/64) 0, dvec 0 (6/64) 0]

def smallMesh : MeshColl Double := (MeshColl.make smallVertices [⟨0, 1, 2⟩, ⟨2, 3, 0⟩]).toOption.getD ⟨[], [], [], [], [], []⟩

theorem smallMesh_make : MeshColl.make smallVertices [⟨0, 1, 2⟩, ⟨2, 3, 0⟩] = .ok smallMesh := by
  have h : evalOk (MeshColl.make smallVertices [⟨0, 1, 2⟩, ⟨2, 3, 0⟩]) (fun _ => true) = true := by decide +kernel
  unfold smallMesh
  cases hm : MeshColl.make smallVertices [⟨0, 1, 2⟩, ⟨2, 3, 0⟩] with
  | error e => rw [hm] at h; simp [evalOk] at h
  | ok m => rfl

/-- the origin of the ray -/
def smallOrigin : Vec3 ℚ := ⟨3152519739159347/144115188075855872, 5404319552844595/288230376151711744, -1/64⟩

theorem small_harmless : Harmless smallMesh.toCollection (1 / 2 ^ 1022) ((2 - 1 / 2 ^ 52) * 2 ^ 1023) smallOrigin ⟨0, 0, 1⟩ := by
  have hb : ∀ {i b}, smallMesh.toCollection.box i = .ok b → b ∈ smallMesh.boxes :=
    fun h => List.mem_of_getElem? (lookup_eq_ok.1 h)
  refine ⟨fun i _ b h => ?_, fun i _ b h k c hc => ?_, fun hz => absurd hz (by norm_num)⟩
  · have : ∀ b ∈ smallMesh.boxes, BoxInRange b := by decide +kernel
    exact this b (hb h)
  · have : ∀ b ∈ smallMesh.boxes, ∀ k : Fin 3,
        coordOk (smallOrigin.get k) ((⟨0, 0, 1⟩ : Vec3 ℚ).get k) (b.1.get k) = true ∧
        coordOk (smallOrigin.get k) ((⟨0, 0, 1⟩ : Vec3 ℚ).get k) (b.2.get k) = true := by decide +kernel
    obtain ⟨e1, e2⟩ := this b (hb h) k
    rcases hc with ⟨s, hc⟩ | ⟨s, hc⟩
    · rw [hc] at e1; exact of_decide_eq_true e1
    · rw [hc] at e2; exact of_decide_eq_true e2

/-- The hypotheses of C74 for small scenes are met by this ray next to the diagonal, and every tree built: the hit that is lost
in `C72_gap` is found here. -/
example (part : StdPartition) (opts : BuildOptions) (nodes : List (Node Double (Triangle Double))) (stats : Statistics)
    (hbuild : build part smallMesh.toCollection opts [] = .ok (nodes, stats)) (out : RayHit Double) (hit : Bool)
    (h : traverse (triIx smallMesh) nodes (Ray.make (dvec (14/640) (12/640) (-1/64)) (dvec 0 0 1) (dbl 0) (dbl 100) false)
      RayHit.fresh = .ok (hit, out)) :
    hit = true := by
  have h1 : IsV (dvec 0 0 0) ⟨0, 0, 0⟩ := rect_vertices_are.1
  have h2 : IsV (dvec (7/64) 0 0) ⟨7/64, 0, 0⟩ := dvec_is (sx := false) (sy := false) (sz := false) (by decide +kernel)
  have h3 : IsV (dvec (7/64) (6/64) 0) ⟨7/64, 6/64, 0⟩ := dvec_is (sx := false) (sy := false) (sz := false) (by decide +kernel)
  have h4 : IsV (dvec 0 (6/64) 0) ⟨0, 6/64, 0⟩ := dvec_is (sx := false) (sy := false) (sz := false) (by decide +kernel)
  refine (C74_small_double (2/5) (by decide +kernel) le_rfl part smallVertices [⟨0, 1, 2⟩, ⟨2, 3, 0⟩] smallMesh smallMesh_make
    opts nodes stats hbuild (dvec (14/640) (12/640) (-1/64)) (dvec 0 0 1) (dbl 0) (dbl 100) smallOrigin ⟨0, 0, 1⟩ 0
    (dvec_is (sx := false) (sy := false) (sz := true) (by decide +kernel))
    (dvec_is (sx := false) (sy := false) (sz := false) (by decide +kernel)) ⟨false, by decide +kernel⟩ le_rfl
    (by decide +kernel) (by decide +kernel) (by decide +kernel) small_harmless ?_ ?_ 1 ⟨2, 3, 0⟩ (dvec (7/64) (6/64) 0)
    (dvec 0 (6/64) 0) (dvec 0 0 0) rfl rfl rfl rfl ⟨7/64, 6/64, 0⟩ ⟨0, 6/64, 0⟩ ⟨0, 0, 0⟩ h3 h4 h1 (1/64)
    ⟨1 - 3152519739159347/2251799813685248/7 - (1 - 5404319552844595/4503599627370496/6),
      1 - 5404319552844595/4503599627370496/6, by decide +kernel, by decide +kernel, by decide +kernel, by decide +kernel⟩
    (by decide +kernel) (by decide +kernel) (.inr ⟨100, ⟨false, by decide +kernel⟩, by decide +kernel⟩) RayHit.fresh out hit h).1
  · intro v hv
    simp only [smallVertices, List.mem_cons, List.not_mem_nil, or_false] at hv
    rcases hv with rfl | rfl | rfl | rfl
    · exact ⟨_, h1, by decide +kernel⟩
    · exact ⟨_, h2, by decide +kernel⟩
    · exact ⟨_, h3, by decide +kernel⟩
    · exact ⟨_, h4, by decide +kernel⟩
  · intro i tri D hi hD
    have hlt : i < 2 := by
      obtain ⟨f, a, b, c, e, -⟩ := MeshColl.prim_ok hi
      exact (List.getElem?_eq_some_iff.1 e).1
    have hall : ∀ i : Fin 2, evalOk (smallMesh.toCollection.prim i) (fun t => decide (Vec3.dot (Vec3.cross t.c t.b)
        (Ray.make (dvec (14/640) (12/640) (-1/64)) (dvec 0 0 1) (dbl 0) (dbl 100) false).direction = .fin (-42/4096) true)) = true := by
      decide +kernel
    obtain ⟨t, e1, e2⟩ := exists_ok_of_eval (hall ⟨i, hlt⟩)
    rw [hi] at e1
    cases e1
    rw [e2] at hD
    obtain ⟨s, hD⟩ := hD
    cases hD
    right
    decide +kernel

end Blazert
